import Verif.Lemmas.Order
import Verif.Props.Additive
import Verif.Props.Conform
import Verif.Props.XmlRead
import Verif.Props.Refuted

/-! # C78: the order of the lines -/

namespace Ndm

theorem message_members : ∀ c ∈ xmlTypes, c.members = none := by decide

/-- **C78.**  What is written for a message that conforms to the data model is its version line and then the lines of its fields in the order of
the schema; so are those of the blocks in it, at any depth. -/
theorem C78_order (c : Cls) (hc : c ∈ xmlTypes) (o : Val) (ho : HasType (.cls c) o) (text : Str) (hw : kvnToString o = .ok text) :
    ∃ (id version : Str) (ls : List Str), c.idVersion = some (id, version) ∧ text = joinWith (py "\n") (fillKvn id version none :: ls) ∧ BlockLines c ls := by
  obtain ⟨n, id, version, hm, hne, hid⟩ := kinds_written c hc
  unfold kvnToString at hw
  obtain ⟨ls, hl, hw⟩ := bind_ok_iff.mp hw
  cases hw
  cases ho with
  | enum _ h _ => rw [message_members c hc] at h; cases h
  | enumText _ h _ => rw [message_members c hc] at h; cases h
  | @obj _ vs h hf =>
  simp only [kvnLines, hm, hid, if_neg hne] at hl
  obtain ⟨ls, rfl, hb⟩ := obj_order [] _ _ c _ (.obj h hf) hl
  exact ⟨id, version, ls, hid, rfl, hb⟩

/-- **C78**, rewriting and converting: whatever the order of the lines or elements that were read. -/
theorem C78_rewritten (X : XmlChars) (o : Val)
    (hr : (∃ (s : KvnSelf) (src : Str), (s.fromString src).1 = .ok o) ∨
      ∃ (s : XmlSelf) (src : Str) (t : XTree), X.read src = some t ∧ t.tag ∈ messageTags ∧ (s.fromString X.lib src).1 = .ok o)
    (text : Str) (hw : kvnToString o = .ok text) :
    ∃ (c : Cls) (id version : Str) (ls : List Str), c ∈ xmlTypes ∧ c.idVersion = some (id, version) ∧
      text = joinWith (py "\n") (fillKvn id version none :: ls) ∧ BlockLines c ls := by
  have : ∃ c ∈ xmlTypes, HasType (.cls c) o := by
    rcases hr with ⟨s, src, h⟩ | ⟨s, src, t, hr, htag, h⟩
    · rw [kvn_history_independent] at h
      obtain ⟨k, hk, ht⟩ := C38_conforms src o h
      have : ∀ k ∈ messageKinds, k.1 ∈ xmlTypes := by decide
      exact ⟨k.1, this k hk, ht⟩
    · obtain ⟨c, hc, -, ht⟩ := C66_message_partial X s src t o hr htag h
      exact ⟨c, hc, ht⟩
  obtain ⟨c, hc, ht⟩ := this
  obtain ⟨id, version, ls, h1, h2, h3⟩ := C78_order c hc o ht text hw
  exact ⟨c, id, version, ls, hc, h1, h2, h3⟩

/-- A field with a text, a number or a member of an enumeration. -/
def Simple (f : Field) : Prop := f.name ≠ py "user_defined" ∧ ∀ d, f.ty = .cls d → d.members ≠ none

/-- What `BlockLines` says of a block of simple fields, such as a header: the keywords of the lines are in the order of the schema, each at most
once but for comments. -/
theorem C78_keywords : ∀ {fs : List Field} {ls : List Str}, (∀ f ∈ fs, Simple f) → FieldsLines fs ls →
    ∃ (ks : List Str) (n : Nat), List.Forall₂ LineOf ks ls ∧
      ks.Sublist (fs.flatMap fun f => List.replicate (if f.name = py "comment" then n else 1) f.name)
  | _, _, _, .nil => ⟨[], 0, .nil, by simp⟩
  | f :: fs, _, hs, .cons (a := a) (b := b) ha hb => by
    obtain ⟨ks, n, hk, hsub⟩ := C78_keywords (fun g hg => hs g (List.mem_cons_of_mem _ hg)) hb
    have hmono : ∀ m, (fs.flatMap fun f => List.replicate (if f.name = py "comment" then n else 1) f.name).Sublist
        (fs.flatMap fun f => List.replicate (if f.name = py "comment" then m + n else 1) f.name) := by
      intro m
      clear * -
      induction fs with
      | nil => simp
      | cons g fs ih =>
        simp only [List.flatMap_cons]
        refine List.Sublist.append ?_ ih
        split
        · exact List.replicate_sublist_replicate _ |>.mpr (by omega)
        · exact List.Sublist.refl _
    obtain ⟨hu, hd⟩ := hs f List.mem_cons_self
    have hone : ∃ (k1 : List Str) (m : Nat), List.Forall₂ LineOf k1 a ∧ k1.Sublist (List.replicate (if f.name = py "comment" then m else 1) f.name) := by
      cases ha with
      | absent => exact ⟨[], 1, .nil, by simp⟩
      | keyword h => exact ⟨[f.name], 1, .cons h .nil, by simp⟩
      | named ht hm _ _ _ => exact absurd hm (hd _ ht)
      | comments h hl =>
        refine ⟨List.replicate a.length f.name, a.length, ?_, by rw [if_pos h]⟩
        clear * - hl
        induction a with
        | nil => exact .nil
        | cons x a ih => exact .cons (hl x List.mem_cons_self) (ih fun l h => hl l (List.mem_cons_of_mem _ h))
      | parameters h _ => exact absurd h hu
      | block ht hm _ _ => exact absurd hm (hd _ ht)
      | blocks ht hm _ _ => exact absurd hm (hd _ ht)
      | marked ht hm _ _ _ _ =>
        refine absurd ?_ (hd _ ht)
        have : ∀ c ∈ markedClasses, c.members = none := by decide
        exact this _ hm
    obtain ⟨k1, m, h1, hs1⟩ := hone
    refine ⟨k1 ++ ks, m + n, List.rel_append h1 hk, ?_⟩
    simp only [List.flatMap_cons]
    refine List.Sublist.append (hs1.trans ?_) (hsub.trans (hmono m))
    split
    · exact List.replicate_sublist_replicate _ |>.mpr (by omega)
    · exact List.Sublist.refl _

/-! ## Cases -/

-- lines in another order (`Y` before `X`, `ORIGINATOR` before `CREATION_DATE`) are read, and written in the order of the schema
example : ((kvnFromString (py "CCSDS_OPM_VERS = 2.0
ORIGINATOR = X
CREATION_DATE = 2000-01-01
OBJECT_ID = B
OBJECT_NAME = A
CENTER_NAME = EARTH
REF_FRAME = GCRF
TIME_SYSTEM = UTC
EPOCH = 2000-01-01
Y = 2 [km]
X = 1 [km]
Z = 3 [km]
X_DOT = 4 [km/s]
Y_DOT = 5 [km/s]
Z_DOT = 6 [km/s]
")).bind kvnToString).isOk = true := by decide +kernel

-- the fields of a header are simple
example : (∀ f ∈ Cls.attrs .NdmHeader, Simple f) ∧ (Cls.attrs .NdmHeader).map (·.name) = [py "comment", py "creation_date", py "originator"] := by
  refine ⟨?_, by decide⟩
  have : ∀ f ∈ Cls.attrs .NdmHeader, f.name ≠ py "user_defined" ∧ f.ty = .str := by decide
  intro f hf
  exact ⟨(this f hf).1, fun d hd => by rw [(this f hf).2] at hd; cases hd⟩

/-- Lines in another order are not what `BlockLines` describes. -/
theorem C78_other_order : ¬ FieldsLines (Cls.attrs .NdmHeader)
    [fillKvn (py "originator") (py "X") none, fillKvn (py "creation_date") (py "2000-01-01") none] := by
  intro h
  have hs : ∀ f ∈ Cls.attrs .NdmHeader, Simple f := by
    have : ∀ f ∈ Cls.attrs .NdmHeader, f.name ≠ py "user_defined" ∧ f.ty = .str := by decide
    intro f hf
    exact ⟨(this f hf).1, fun d hd => by rw [(this f hf).2] at hd; cases hd⟩
  obtain ⟨ks, n, hk, hsub⟩ := C78_keywords hs h
  cases hk with
  | @cons k1 _ ks _ h1 hk =>
  cases hk with
  | @cons k2 _ ks _ h2 hk =>
  cases hk
  have hm : ∀ k ∈ (Cls.attrs .NdmHeader).flatMap fun f => List.replicate (if f.name = py "comment" then n else 1) f.name,
      k ∈ (Cls.attrs .NdmHeader).map (·.name) := by
    intro k hk
    obtain ⟨f, hf, hk⟩ := List.mem_flatMap.mp hk
    exact List.mem_map.mpr ⟨f, hf, (List.eq_of_mem_replicate hk).symm⟩
  have e1 : k1 = py "originator" := by
    have := hm k1 (hsub.subset (by simp))
    have hd : ∀ k ∈ (Cls.attrs .NdmHeader).map (·.name), lineStart k <+: fillKvn (py "originator") (py "X") none → k = py "originator" := by
      decide +kernel
    exact hd k1 this h1
  have e2 : k2 = py "creation_date" := by
    have := hm k2 (hsub.subset (by simp))
    have hd : ∀ k ∈ (Cls.attrs .NdmHeader).map (·.name), lineStart k <+: fillKvn (py "creation_date") (py "2000-01-01") none →
        k = py "creation_date" := by
      decide +kernel
    exact hd k2 this h2
  subst e1 e2
  have := hsub.filter (fun k => k != py "comment")
  rw [List.filter_flatMap] at this
  have he : ((Cls.attrs .NdmHeader).flatMap fun f => (List.replicate (if f.name = py "comment" then n else 1) f.name).filter fun k => k != py "comment") =
      [py "creation_date", py "originator"] := by
    have ha : Cls.attrs .NdmHeader = [⟨py "comment", some (py "COMMENT"), .elem, .str, true, true⟩, ⟨py "creation_date", some (py "CREATION_DATE"), .elem, .str, false, true⟩, ⟨py "originator", some (py "ORIGINATOR"), .elem, .str, false, true⟩] := by decide
    rw [ha]
    simp [lit]
  rw [he] at this
  revert this
  decide

end Ndm
