import Verif.SpecAdditive
import Verif.Lemmas.WritePrefix
import Verif.Lemmas.WriteRt
import Verif.Lemmas.AemWritable
import Verif.Lemmas.AemOrder
import Verif.Lemmas.ReadObj
import Verif.Lemmas.Writable

/-! What is written for a part does not depend on what was written before. -/

namespace Ndm

theorem quatLast_append {a b : List Str} (h : HasQuatLine b) : quatLast (a ++ b) = quatLast b := by
  unfold quatLast
  rw [List.reverse_append, List.find?_append]
  cases hf : b.reverse.find? (fun x => startsWith x (py "QUATERNION_TYPE")) with
  | some x => rfl
  | none =>
    obtain ⟨x, hx, h⟩ := h
    have := List.find?_eq_none.mp hf x (List.mem_reverse.mpr hx)
    exact absurd h this

theorem NoQuaternions.inside {v w : Val} (h : NoQuaternions v) (hw : Within w v) : NoQuaternions w :=
  fun vs hv => h vs (within_trans hv hw)

theorem noQuaternions_obj {c : Cls} {vs : List (Str × Val)} (h : NoQuaternions (.obj c vs)) : ∀ p ∈ vs, NoQuaternions p.2 :=
  fun p hp => h.inside (.field (n := p.1) hp .self)

theorem noQuaternions_list {xs : List Val} (h : NoQuaternions (.list xs)) : ∀ x ∈ xs, NoQuaternions x :=
  fun _ hx => h.inside (.item hx .self)

theorem attLine_append {att : Val} {rots : List (List (Str × Val))} {a b : List Str}
    (h : HasQuatLine b ∨ ∀ c us, att = .obj c us → isQuaternionCls c = false) : attLine att rots (a ++ b) = attLine att rots b := by
  unfold attLine
  cases att with
  | obj c us =>
    dsimp only
    split
    · rename_i hc
      rcases h with h | h
      · unfold quaternionLine
        rw [quatLast_append h]
      · rw [h c us rfl] at hc
        cases hc
    · rfl
  | _ => rfl

theorem isQuaternion_mem {c : Cls} (h : c ∉ quaternionClasses) : isQuaternionCls c = false := by
  simp only [quaternionClasses, List.mem_cons, List.not_mem_nil, or_false, not_or] at h
  simp [isQuaternionCls, h]

theorem writeSpecial_append {key : Str} {c : Cls} {vs : List (Str × Val)} {a b : List Str}
    (h : HasQuatLine b ∨ NoQuaternions (.obj c vs)) : writeSpecial key c vs (a ++ b) = writeSpecial key c vs b := by
  unfold writeSpecial
  split
  · rfl
  · split
    · rename_i hc
      subst hc
      unfold writeAttitude
      split
      · rfl
      · rename_i att _ hatt
        have hl : ∀ rots, attLine att rots (a ++ b) = attLine att rots b := by
          intro rots
          refine attLine_append (h.imp id fun h c us e => ?_)
          subst e
          have hm : Val.obj c us ∈ (vs.map (·.2)).filter Val.truthy := by rw [hatt]; exact List.mem_cons_self
          obtain ⟨p, hp, e⟩ := List.mem_map.mp (List.mem_filter.mp hm).1
          exact isQuaternion_mem (h vs .self c us (.field (n := p.1) hp (by rw [e]; exact .self)))
        simp only [hl]
    · rfl

/-- What a step writes does not depend on what was written before. -/
def Framed (K : List Str → Except PyErr (List Str)) (a b : List Str) : Prop := K (a ++ b) = (K b).map (a ++ ·)

theorem withHeader_frame {h : Option Str} {bf af : Str → List Str} {a b : List Str} {body : List Str → Except PyErr (List Str)}
    (hb : ∀ b', b <+: b' → Framed body a b') : Framed (fun out => withHeader h bf af out body) a b := by
  unfold Framed withHeader
  cases h with
  | none => exact hb b (List.prefix_refl b)
  | some h =>
    dsimp only
    rw [List.append_assoc, hb _ (List.prefix_append b (bf h))]
    cases body (b ++ bf h) with
    | error e => rfl
    | ok o => simp [Except.map]

theorem blank_frame {P : Prop} [Decidable P] (a o : List Str) :
    (if P then a ++ o ++ [[]] else a ++ o) = a ++ (if P then o ++ [[]] else o) := by
  split <;> simp

mutual
theorem collateObj_frame (key : Str) (a b : List Str) : ∀ v : Val, HasQuatLine b ∨ NoQuaternions v → Framed (fun o => collateObj key o v) a b
  | .obj c vs, h => by
    unfold Framed
    simp only [collateObj]
    split
    · rw [writeSpecial_append h]
      cases writeSpecial key c vs b with
      | error e => rfl
      | ok ls => simp [bind, Except.bind, pure, Except.pure, Except.map]
    · have := collateVars_frame a b vs (h.imp id noQuaternions_obj)
      unfold Framed at this
      dsimp only at this
      rw [this]
      cases collateVars b vs with
      | error e => rfl
      | ok o =>
        simp only [Except.map, bind, Except.bind, pure, Except.pure]
        rw [blank_frame]
  | .none, _ => by unfold Framed; simp [collateObj, Except.map]
  | .str _, _ => by unfold Framed; simp [collateObj, Except.map]
  | .int _, _ => by unfold Framed; simp [collateObj, Except.map]
  | .dec _, _ => by unfold Framed; simp [collateObj, Except.map]
  | .enum _ _, _ => by unfold Framed; simp [collateObj, Except.map]
  | .list _, _ => by unfold Framed; simp [collateObj, Except.map]

theorem collateVars_frame (a b : List Str) : ∀ vs : List (Str × Val), (HasQuatLine b ∨ ∀ p ∈ vs, NoQuaternions p.2) →
    Framed (fun o => collateVars o vs) a b
  | [], _ => by unfold Framed; simp [collateVars, Except.map]
  | (k, v) :: rest, h => by
    unfold Framed
    simp only [collateVars]
    have h1 := collateSub_frame k a b v (h.imp id fun h => h (k, v) List.mem_cons_self)
    unfold Framed at h1
    dsimp only at h1
    rw [h1]
    cases ho : collateSub k b v with
    | error e => rfl
    | ok o =>
      have := collateVars_frame a o rest (h.imp (fun h => h.mono (collateSub_prefix k b v o ho)) fun h p hp => h p (List.mem_cons_of_mem _ hp))
      exact this

theorem collateSub_frame (key : Str) (a b : List Str) : ∀ v : Val, HasQuatLine b ∨ NoQuaternions v → Framed (fun o => collateSub key o v) a b
  | .str s, _ => by unfold Framed; simp [collateSub, Except.map]
  | .int s, _ => by unfold Framed; simp [collateSub, Except.map]
  | .dec d, _ => by
    unfold Framed
    simp only [collateSub]
    split <;> simp [Except.map]
  | .enum c v, _ => by
    unfold Framed
    simp only [collateSub]
    split <;> simp [Except.map]
  | .none, _ => by
    unfold Framed
    simp only [collateSub]
    split <;> simp [Except.map]
  | .obj c vs, h => by
    simp only [collateSub]
    refine withHeader_frame fun b' hb' => ?_
    have h' : HasQuatLine b' ∨ NoQuaternions (.obj c vs) := h.imp (fun h => h.mono hb') id
    unfold Framed
    dsimp only
    split
    · rfl
    · split
      · cases writeValueObj key vs with
        | error e => rfl
        | ok l => simp [bind, Except.bind, pure, Except.pure, Except.map]
      · split
        · rfl
        · split
          · rw [writeSpecial_append h']
            cases writeSpecial key c vs b' with
            | error e => rfl
            | ok ls => simp [bind, Except.bind, pure, Except.pure, Except.map]
          · have := collateVars_frame a b' vs (h'.imp id noQuaternions_obj)
            unfold Framed at this
            dsimp only at this
            rw [this]
            cases collateVars b' vs with
            | error e => rfl
            | ok o =>
              simp only [Except.map, bind, Except.bind, pure, Except.pure]
              rw [blank_frame]
  | .list [], h => by
    unfold Framed
    simp only [collateSub]
    split
    · simp [Except.map]
    · split
      · simp [bind, Except.bind, pure, Except.pure, Except.map]
      · rfl
  | .list (x :: rest), h => by
    simp only [collateSub]
    by_cases hk : key = py "comment"
    · unfold Framed; simp [if_pos hk, Except.map]
    · simp only [if_neg hk]
      by_cases hu : key = py "user_defined"
      · unfold Framed
        simp only [if_pos hu]
        cases (x :: rest).mapM (writeUserDefined key) with
        | error e => rfl
        | ok ls => simp [bind, Except.bind, pure, Except.pure, Except.map]
      · simp only [if_neg hu]
        refine withHeader_frame fun b' hb' => ?_
        have h' : HasQuatLine b' ∨ ∀ y ∈ x :: rest, NoQuaternions y := h.imp (fun h => h.mono hb') noQuaternions_list
        unfold Framed
        dsimp only
        have h1 := collateObj_frame key a b' x (h'.imp id fun h => h x List.mem_cons_self)
        unfold Framed at h1
        dsimp only at h1
        rw [h1]
        cases ho : collateObj key b' x with
        | error e => rfl
        | ok o =>
          exact collateItems_frame key a o rest (h'.imp (fun h => h.mono (collateObj_prefix key b' x o ho)) fun h y hy => h y (List.mem_cons_of_mem _ hy))

theorem collateItems_frame (key : Str) (a b : List Str) : ∀ xs : List Val, (HasQuatLine b ∨ ∀ x ∈ xs, NoQuaternions x) →
    Framed (fun o => collateItems key o xs) a b
  | [], _ => by unfold Framed; simp [collateItems, Except.map]
  | x :: rest, h => by
    unfold Framed
    simp only [collateItems]
    have h1 := collateObj_frame key a b x (h.imp id fun h => h x List.mem_cons_self)
    unfold Framed at h1
    dsimp only at h1
    rw [h1]
    cases ho : collateObj key b x with
    | error e => rfl
    | ok o =>
      exact collateItems_frame key a o rest (h.imp (fun h => h.mono (collateObj_prefix key b x o ho)) fun h y hy => h y (List.mem_cons_of_mem _ hy))
end

/-! ### Parts in their places -/

theorem metadata_free {ms : List (Str × Val)} (h : HasType (.cls .AemMetadata) (.obj .AemMetadata ms)) : NoQuaternions (.obj .AemMetadata ms) := by
  intro vs hw
  have hm := within_from (S := [.AemMetadata]) (by decide +kernel) (List.mem_singleton.mpr rfl) rfl (hasType_obj h) hw
  exact absurd hm (by decide)

theorem collateVars_quat {q : Val} {vs : List (Str × Val)} (hf : HasFields (Cls.attrs .AemMetadata) vs) (hm : (py "quaternion_type", q) ∈ vs)
    (hq : q ≠ .none) {out o : List Str}
    (h : collateVars out vs = .ok o) : HasQuatLine o := by
  obtain ⟨f, hfm, hname, hok⟩ := hasFields_at hf hm
  obtain ⟨pre, post, rfl⟩ := List.append_of_mem hm
  rw [collateVars_append] at h
  obtain ⟨o1, -, h⟩ := bind_ok_iff.mp h
  simp only [collateVars] at h
  obtain ⟨o2, h2, h⟩ := bind_ok_iff.mp h
  refine HasQuatLine.mono ?_ (collateVars_prefix _ _ _ h)
  have ht : ∀ f ∈ Cls.attrs .AemMetadata, f.name = py "quaternion_type" → f.ty = .cls .QuaternionTypeType ∧ f.isList = false := by decide +kernel
  exact quatLine_of_sub (ht f hfm hname).1 (ht f hfm hname).2 hok hq h2

theorem metadata_quat {q : Val} {ms : List (Str × Val)} (ht : HasType (.cls .AemMetadata) (.obj .AemMetadata ms))
    (hm : (py "quaternion_type", q) ∈ ms) (hne : q ≠ .none) {out o : List Str} (h : collateSub (py "metadata") out (.obj .AemMetadata ms) = .ok o) :
    HasQuatLine o := by
  have hn := hasFields_names (hasType_obj ht)
  have hu : ms.any (·.1 == py "units") = false := by
    rw [Bool.eq_false_iff]
    intro hu
    obtain ⟨p, hp, e⟩ := List.any_eq_true.mp hu
    have : py "units" ∈ ms.map (·.1) := List.mem_map.mpr ⟨p, hp, by simpa using e⟩
    rw [hn] at this
    exact absurd this (by decide +kernel)
  simp only [collateSub, headerName, withHeader, hu, Bool.false_eq_true, if_false] at h
  rw [if_neg (by decide), if_neg (by decide), if_neg (by decide)] at h
  obtain ⟨o1, h', rfl⟩ := map_ok_iff.mp h
  obtain ⟨o2, h2, h'⟩ := bind_ok_iff.mp h'
  have hq := collateVars_quat (hasType_obj ht) hm hne h2
  cases h'
  refine HasQuatLine.mono hq ?_
  split
  · rw [List.append_assoc]; exact List.prefix_append _ _
  · exact List.prefix_append _ _

/-- What a step writes never depends on what was written before. -/
def Free (K : List Str → Except PyErr (List Str)) : Prop := ∀ a, Framed K a []

theorem typed_vars {q : Val} {ms : List (Str × Val)} {data : Val} (ht : HasType (.cls .AemMetadata) (.obj .AemMetadata ms))
    (hm : (py "quaternion_type", q) ∈ ms) (hne : q ≠ .none) :
    Free fun o => collateVars o [(py "metadata", .obj .AemMetadata ms), (py "data", data)] := by
  intro a
  unfold Framed
  simp only [List.append_nil, collateVars]
  have h1 : collateSub (py "metadata") a (.obj .AemMetadata ms) = (collateSub (py "metadata") [] (.obj .AemMetadata ms)).map (a ++ ·) := by
    simpa [Framed] using collateSub_frame (py "metadata") a [] _ (.inr (metadata_free ht))
  rw [h1]
  cases ho : collateSub (py "metadata") [] (.obj .AemMetadata ms) with
  | error e => rfl
  | ok o =>
    have hq := metadata_quat ht hm hne ho
    have h2 := collateSub_frame (py "data") a o data (.inl hq)
    unfold Framed at h2
    dsimp only at h2
    simp only [Except.map, bind, Except.bind]
    rw [h2]
    cases collateSub (py "data") o data <;> rfl

theorem Free.all {K : List Str → Except PyErr (List Str)} (h : Free K) (a b : List Str) : Framed K a b := by
  have h1 := h (a ++ b)
  have h2 := h b
  unfold Framed at h1 h2 ⊢
  rw [List.append_nil] at h1 h2
  rw [h1, h2]
  cases K [] <;> simp [Except.map]

theorem free_vars : ∀ {vs : List (Str × Val)}, (∀ p ∈ vs, ∀ k, Free fun o => collateSub k o p.2) → Free fun o => collateVars o vs
  | [], _ => fun a => by unfold Framed; simp [collateVars, Except.map]
  | (k, v) :: rest, h => fun a => by
    have h1 := h (k, v) List.mem_cons_self k a
    unfold Framed at h1 ⊢
    dsimp only at h1
    simp only [collateVars]
    rw [h1]
    cases collateSub k [] v with
    | error e => rfl
    | ok o => exact (free_vars fun p hp => h p (List.mem_cons_of_mem _ hp)).all a o

theorem free_items {key : Str} : ∀ {xs : List Val}, (∀ x ∈ xs, Free fun o => collateObj key o x) → Free fun o => collateItems key o xs
  | [], _ => fun a => by unfold Framed; simp [collateItems, Except.map]
  | x :: rest, h => fun a => by
    have h1 := h x List.mem_cons_self a
    unfold Framed at h1 ⊢
    dsimp only at h1
    simp only [collateItems]
    rw [h1]
    cases collateObj key [] x with
    | error e => rfl
    | ok o => exact (free_items fun y hy => h y (List.mem_cons_of_mem _ hy)).all a o

theorem free_obj {c : Cls} {vs : List (Str × Val)} (hs : isSpecialOut c = false) (h : Free fun o => collateVars o vs) (key : Str) :
    (Free fun o => collateObj key o (.obj c vs)) ∧ Free fun o => collateSub key o (.obj c vs) := by
  constructor
  · intro a
    have h1 := h a
    unfold Framed at h1 ⊢
    dsimp only at h1
    simp only [collateObj, hs, Bool.false_eq_true, if_false]
    rw [h1]
    cases collateVars [] vs with
    | error e => rfl
    | ok o =>
      simp only [Except.map, bind, Except.bind, pure, Except.pure]
      rw [blank_frame]
  · intro a
    simp only [collateSub]
    refine withHeader_frame fun b' _ => ?_
    have h1 := h.all a b'
    unfold Framed at h1 ⊢
    dsimp only at h1 ⊢
    split
    · rfl
    · split
      · cases writeValueObj key vs with
        | error e => rfl
        | ok l => simp [bind, Except.bind, pure, Except.pure, Except.map]
      · split
        · rfl
        · simp only [hs, Bool.false_eq_true, if_false]
          rw [h1]
          cases collateVars b' vs with
          | error e => rfl
          | ok o =>
            simp only [Except.map, bind, Except.bind, pure, Except.pure]
            rw [blank_frame]

theorem free_list {key : Str} {xs : List Val} (h : ∀ x ∈ xs, Free fun o => collateObj key o x) : Free fun o => collateSub key o (.list xs) := by
  cases xs with
  | nil => exact fun a => collateSub_frame key a [] (.list []) (.inr (by intro vs hw; cases hw with | item h => cases h))
  | cons x rest =>
    intro a
    simp only [collateSub]
    by_cases hk : key = py "comment"
    · unfold Framed; simp [if_pos hk, Except.map]
    · simp only [if_neg hk]
      by_cases hu : key = py "user_defined"
      · unfold Framed
        simp only [if_pos hu]
        cases (x :: rest).mapM (writeUserDefined key) with
        | error e => rfl
        | ok ls => simp [bind, Except.bind, pure, Except.pure, Except.map]
      · simp only [if_neg hu]
        refine withHeader_frame fun b' _ => ?_
        have := (free_items h).all a b'
        simpa only [collateItems] using this

theorem notSpecial_of_dataLine {c : Cls} (hc : c ∉ dataLineClasses) : isSpecialOut c = false := by
  simp only [dataLineClasses, List.mem_cons, List.not_mem_nil, or_false, not_or] at hc
  simp [isSpecialOut, hc]

theorem SelfContained.frees {x : Val} (h : SelfContained x) :
    ∀ key, (Free fun o => collateObj key o x) ∧ Free fun o => collateSub key o x := by
  induction h with
  | free h => exact fun key => ⟨fun a => collateObj_frame key a [] _ (.inr h), fun a => collateSub_frame key a [] _ (.inr h)⟩
  | typed ht hm hne => exact fun key => free_obj (by decide) (typed_vars ht hm hne) key
  | obj hc _ ih => exact fun key => free_obj (notSpecial_of_dataLine hc) (free_vars fun p hp k => (ih p hp k).2) key
  | list _ ih => exact fun key => ⟨fun a => by unfold Framed; simp [collateObj, Except.map], free_list fun x hx => (ih x hx key).1⟩

theorem SelfContained.frame {x : Val} (h : SelfContained x) (key : Str) (a : List Str) :
    collateObj key a x = (collateObj key [] x).map (a ++ ·) := by
  simpa [Framed] using (h.frees key).1 a

/-- What `G` writes is a beginning, what `B` gives for each of the parts, and an end. -/
def Additive (B : Val → Except PyErr (List Str)) (P : Val → Prop) (G : List Val → List Str → Except PyErr (List Str)) : Prop :=
  ∃ head tail : Except PyErr (List Str), ∀ xs out, xs ≠ [] → (∀ x ∈ xs, P x) →
    G xs out = head.bind fun h => (xs.mapM B).bind fun bs => tail.bind fun t => .ok (out ++ (h ++ (bs.flatten ++ t)))

section
variable {B : Val → Except PyErr (List Str)} {P : Val → Prop} {G : List Val → List Str → Except PyErr (List Str)}

theorem Additive.error (e : PyErr) : Additive B P fun _ _ => .error e := ⟨.error e, .ok [], fun _ _ _ _ => rfl⟩

theorem Additive.before {K : List Str → Except PyErr (List Str)} (hK : ∀ a, Framed K a []) (h : Additive B P G) :
    Additive B P fun xs out => (K out).bind (G xs) := by
  obtain ⟨head, tail, h⟩ := h
  refine ⟨(K []).bind fun k => head.map (k ++ ·), tail, fun xs out hne hx => ?_⟩
  have hk := hK out
  unfold Framed at hk
  rw [List.append_nil] at hk
  dsimp only
  rw [hk]
  cases K [] with
  | error e => rfl
  | ok k =>
    simp only [Except.map, Except.bind]
    rw [h xs _ hne hx]
    cases head with
    | error e => rfl
    | ok hd => simp [Except.bind]

theorem Additive.after {K : List Str → Except PyErr (List Str)} (hK : ∀ a, Framed K a []) (h : Additive B P G) :
    Additive B P fun xs out => (G xs out).bind K := by
  obtain ⟨head, tail, h⟩ := h
  refine ⟨head, tail.bind fun t => (K []).map (t ++ ·), fun xs out hne hx => ?_⟩
  dsimp only
  rw [h xs out hne hx]
  cases head with
  | error e => rfl
  | ok hd =>
    simp only [Except.bind]
    cases xs.mapM B with
    | error e => rfl
    | ok bs =>
      dsimp only
      cases tail with
      | error e => rfl
      | ok t =>
        dsimp only
        have hk := hK (out ++ (hd ++ (bs.flatten ++ t)))
        unfold Framed at hk
        rw [List.append_nil] at hk
        rw [hk]
        cases K [] with
        | error e => rfl
        | ok k => simp [Except.map]

theorem frame_const (ls : List Str) (a : List Str) : Framed (fun o => .ok (o ++ ls)) a [] := by
  unfold Framed
  simp [Except.map]

theorem Additive.withHeader {h : Option Str} {bf af : Str → List Str} (hG : Additive B P G) :
    Additive B P fun xs out => Ndm.withHeader h bf af out (G xs) := by
  unfold Ndm.withHeader
  cases h with
  | none => exact hG
  | some h =>
    have := (hG.before (frame_const (bf h))).after (frame_const (af h))
    refine Eq.mp ?_ this
    congr 1

theorem Additive.congr {G' : List Val → List Str → Except PyErr (List Str)} (hG : Additive B P G)
    (h : ∀ xs out, xs ≠ [] → (∀ x ∈ xs, P x) → G' xs out = G xs out) : Additive B P G' := by
  obtain ⟨head, tail, hG⟩ := hG
  exact ⟨head, tail, fun xs out hne hx => (h xs out hne hx).trans (hG xs out hne hx)⟩

theorem Additive.vars {n : Str} {F : List Val → Val} {pre post : List (Str × Val)} (hF : Additive B P fun xs out => collateSub n out (F xs))
    (hpre : ∀ p ∈ pre, SelfContained p.2) (hpost : ∀ p ∈ post, SelfContained p.2) :
    Additive B P fun xs out => collateVars out (pre ++ (n, F xs) :: post) := by
  refine ((hF.before (K := fun o => collateVars o pre) (free_vars fun p hp k => ((hpre p hp).frees k).2)).after
    (K := fun o => collateVars o post) (free_vars fun p hp k => ((hpost p hp).frees k).2)).congr fun xs out _ _ => ?_
  rw [collateVars_append]
  simp only [collateVars, bind]
  cases collateVars out pre <;> rfl

theorem Additive.blank {p : Prop} [Decidable p] (hG : Additive B P G) :
    Additive B P fun xs out => (G xs out).bind fun o => .ok (if p then o ++ [[]] else o) :=
  hG.after fun a => by
    unfold Framed
    simp only [Except.map, List.append_nil]
    split <;> simp

theorem names_mid {n : Str} {v : Val} {pre post : List (Str × Val)} (q : Str → Bool) :
    ((pre ++ (n, v) :: post).any fun p => q p.1) = (pre.any (fun p => q p.1) || (q n || post.any fun p => q p.1)) := by
  simp

theorem Additive.obj {c : Cls} {n : Str} {F : List Val → Val} {pre post : List (Str × Val)} (hc : c ∉ dataLineClasses)
    (hF : Additive B P fun xs out => collateVars out (pre ++ (n, F xs) :: post)) (key : Str) :
    Additive B P fun xs out => collateObj key out (.obj c (pre ++ (n, F xs) :: post)) := by
  have hs : isSpecialOut c = false := by
    simp only [dataLineClasses, List.mem_cons, List.not_mem_nil, or_false, not_or] at hc
    simp [isSpecialOut, hc]
  refine (hF.blank (p := key ≠ [] ∧ ¬ (pre.any (fun p => p.1 == py "value") || (n == py "value" || post.any fun p => p.1 == py "value")))).congr fun xs out _ _ => ?_
  simp only [collateObj, hs, Bool.false_eq_true, if_false, bind, pure, Except.pure]
  simp only [names_mid (fun s => s == py "value"), ne_eq, List.append_eq_nil_iff, reduceCtorEq, and_false, not_false_eq_true, true_and]

theorem Additive.sub {c : Cls} {n : Str} {F : List Val → Val} {pre post : List (Str × Val)} (hc : c ∉ dataLineClasses)
    (hu : ∀ v, ∀ p ∈ pre ++ (n, v) :: post, p.1 ≠ py "units")
    (hF : Additive B P fun xs out => collateVars out (pre ++ (n, F xs) :: post)) {key : Str} (hk : key ≠ py "comment") (hk' : key ≠ py "user_defined") :
    Additive B P fun xs out => collateSub key out (.obj c (pre ++ (n, F xs) :: post)) := by
  refine ((hF.obj hc key).withHeader (h := headerName c) (bf := fun h => [beginLine h, []]) (af := fun h => [endLine h, []])).congr fun xs out _ _ => ?_
  have hs : isSpecialOut c = false := by
    simp only [dataLineClasses, List.mem_cons, List.not_mem_nil, or_false, not_or] at hc
    simp [isSpecialOut, hc]
  have hu' : (pre ++ (n, F xs) :: post).any (·.1 == py "units") = false := by
    rw [Bool.eq_false_iff]
    intro h
    obtain ⟨p, hp, e⟩ := List.any_eq_true.mp h
    exact hu _ p hp (by simpa using e)
  simp only [collateSub, collateObj, hs, hk, hk', hu', Bool.false_eq_true, if_false]

theorem Additive.items {F : List Val → Val} {key : Str} {pre post : List Val} {hd : Option Str} (hF : Additive B P fun xs out => collateObj key out (F xs))
    (hh : ∀ xs, headerOf (F xs) = hd) (hpre : ∀ x ∈ pre, SelfContained x) (hpost : ∀ x ∈ post, SelfContained x) (hk : key ≠ py "comment")
    (hk' : key ≠ py "user_defined") : Additive B P fun xs out => collateSub key out (.list (pre ++ F xs :: post)) := by
  have happ : ∀ (a b : List Val) (out : List Str), collateItems key out (a ++ b) = (collateItems key out a).bind fun o => collateItems key o b := by
    intro a b
    induction a with
    | nil => intro out; rfl
    | cons x a ih =>
      intro out
      simp only [List.cons_append, collateItems, bind]
      cases collateObj key out x with
      | error e => rfl
      | ok o => exact ih o
  have h1 := (hF.before (K := fun o => collateItems key o pre) (free_items fun x hx => ((hpre x hx).frees key).1)).after
    (K := fun o => collateItems key o post) (free_items fun x hx => ((hpost x hx).frees key).1)
  refine (h1.withHeader (h := match pre with | [] => hd | x :: _ => headerOf x) (bf := fun h => [[], beginLine h, []])
    (af := fun h => [[], endLine h, []])).congr fun xs out _ _ => ?_
  have hg : ∀ o, ((collateItems key o pre).bind fun o => collateObj key o (F xs)).bind (fun o => collateItems key o post) =
      collateItems key o (pre ++ F xs :: post) := by
    intro o
    rw [happ]
    simp only [collateItems, bind]
    cases collateItems key o pre <;> rfl
  simp only [hg]
  cases pre with
  | nil => simp only [List.nil_append, collateSub, hk, hk', if_false, hh, collateItems]
  | cons x pre => simp only [List.cons_append, collateSub, hk, hk', if_false, collateItems]
end

theorem items_blocks {key : Str} : ∀ (xs : List Val) (out : List Str), (∀ x ∈ xs, SelfContained x) →
    collateItems key out xs = (xs.mapM fun x => collateObj key [] x).map fun bs => out ++ bs.flatten
  | [], out, _ => by simp [collateItems, Except.map, pure, Except.pure]
  | x :: xs, out, h => by
    simp only [collateItems, List.mapM_cons, bind]
    rw [(h x List.mem_cons_self).frame key out]
    cases collateObj key [] x with
    | error e => rfl
    | ok b =>
      simp only [Except.map, Except.bind]
      rw [items_blocks xs _ fun y hy => h y (List.mem_cons_of_mem _ hy)]
      cases xs.mapM fun x => collateObj key [] x with
      | error e => rfl
      | ok bs => simp [Except.map, pure, Except.pure]

/-- The lines of one item. -/
def itemLines (key : Str) (x : Val) : Except PyErr (List Str) :=
  if key = py "comment" then .ok [fillKvn key (pyStr x) none]
  else if key = py "user_defined" then (writeUserDefined key x).map ([·])
  else collateObj key [] x

theorem list_additive (key : Str) (d : Cls) : Additive (itemLines key) (Item key d) fun xs out => collateSub key out (.list xs) := by
  by_cases hk : key = py "comment"
  · have e : itemLines key = fun x => .ok [fillKvn key (pyStr x) none] := by funext x; simp only [itemLines, hk, if_true]
    rw [e]
    refine ⟨.ok [], .ok [], fun xs out _ _ => ?_⟩
    have : ∀ xs : List Val, (xs.mapM fun x => (.ok [fillKvn key (pyStr x) none] : Except PyErr (List Str))) = .ok (xs.map fun x => [fillKvn key (pyStr x) none]) := by
      intro xs
      induction xs with
      | nil => rfl
      | cons x xs ih => simp [List.mapM_cons, ih, bind, Except.bind, pure, Except.pure]
    rw [this]
    have hf : ∀ xs : List Val, (xs.map fun x => [fillKvn key (pyStr x) none]).flatten = xs.map fun x => fillKvn key (pyStr x) none := by
      intro xs
      induction xs with
      | nil => rfl
      | cons x xs ih => simp [ih]
    simp only [Except.bind, hf, List.nil_append, List.append_nil]
    cases xs <;> simp only [collateSub, if_pos hk]
  · by_cases hu : key = py "user_defined"
    · have e : itemLines key = fun x => (writeUserDefined key x).map ([·]) := by funext x; simp only [itemLines, hk, if_false, if_pos hu]
      rw [e]
      refine ⟨.ok [], .ok [], fun xs out _ _ => ?_⟩
      have : ∀ xs : List Val, (xs.mapM fun x => (writeUserDefined key x).map ([·])) = (xs.mapM (writeUserDefined key)).map fun ls => ls.map ([·]) := by
        intro xs
        induction xs with
        | nil => rfl
        | cons x xs ih =>
          simp only [List.mapM_cons, ih, bind]
          cases writeUserDefined key x with
          | error e => rfl
          | ok l => cases xs.mapM (writeUserDefined key) <;> rfl
      rw [this]
      have hf : ∀ ls : List Str, (ls.map ([·])).flatten = ls := by
        intro ls
        induction ls with
        | nil => rfl
        | cons x xs ih => simp [ih]
      have hc : collateSub key out (.list xs) = (xs.mapM (writeUserDefined key)).bind fun ls => .ok (out ++ ls) := by
        cases xs <;> simp only [collateSub, if_neg hk, if_pos hu] <;> rfl
      dsimp only
      rw [hc]
      cases xs.mapM (writeUserDefined key) with
      | error e => rfl
      | ok ls => simp [Except.map, Except.bind, hf]
    · have e : itemLines key = fun x => collateObj key [] x := by funext x; simp only [itemLines, hk, hu, if_false]
      rw [e]
      have hself : ∀ {x : Val}, Item key d x → SelfContained x ∧ ∃ us, x = .obj d us := by
        intro x h
        cases h with
        | obj h => exact ⟨h, _, rfl⟩
        | comment h => exact absurd h hk
      have h1 : Additive (fun x => collateObj key [] x) (Item key d) fun xs out => collateItems key out xs := by
        refine ⟨.ok [], .ok [], fun xs out _ hx => ?_⟩
        dsimp only
        rw [items_blocks xs out fun x h => (hself (hx x h)).1]
        cases xs.mapM fun x => collateObj key [] x with
        | error e => rfl
        | ok bs => simp [Except.map, Except.bind]
      refine (h1.withHeader (h := headerName d) (bf := fun h => [[], beginLine h, []]) (af := fun h => [[], endLine h, []])).congr fun xs out hne hx => ?_
      cases xs with
      | nil => exact absurd rfl hne
      | cons x xs =>
        obtain ⟨-, us, rfl⟩ := hself (hx x List.mem_cons_self)
        simp only [collateSub, hk, hu, if_false, headerOf, collateItems]

theorem lookupVar_split {n : Str} {w : Val} : ∀ {vs : List (Str × Val)}, Val.lookupVar n vs = some w →
    ∃ pre post, vs = pre ++ (n, w) :: post ∧ n ∉ pre.map (·.1)
  | [], h => by simp [Val.lookupVar] at h
  | (m, v) :: vs, h => by
    by_cases e : m = n
    · subst e
      simp only [Val.lookupVar, List.find?_cons, beq_self_eq_true, Option.map_some, Option.some.injEq] at h
      subst h
      exact ⟨[], vs, rfl, by simp⟩
    · have h' : Val.lookupVar n vs = some w := by
        unfold Val.lookupVar at h ⊢
        rwa [List.find?_cons_of_neg (by simpa using e)] at h
      obtain ⟨pre, post, rfl, hn⟩ := lookupVar_split h'
      exact ⟨(m, v) :: pre, post, rfl, by simpa [hn] using fun e' => e e'.symm⟩

theorem assign_total {key : Str} (y : Val) : ∀ {path : List Step} {v : Val}, ByAttributes path v → ∃ v', assign key y path v = some v'
  | [], v, h => by
    cases v with
    | obj c vs => exact ⟨_, rfl⟩
    | _ => exact absurd h (by simp [ByAttributes])
  | .f n :: p, v, h => by
    cases v with
    | obj c vs =>
      obtain ⟨-, -, -, -, w, hw, hp⟩ := h
      obtain ⟨w', h'⟩ := assign_total (key := key) y hp
      exact ⟨.obj c (Val.setVar n w' vs), by simp only [assign, hw, h', Option.map_some]⟩
    | _ => exact absurd h (by simp [ByAttributes])
  | .i n :: p, v, h => by
    cases v with
    | list xs =>
      obtain ⟨w, hw, hp⟩ := h
      obtain ⟨w', h'⟩ := assign_total (key := key) y hp
      exact ⟨.list (xs.set n w'), by simp only [assign, hw, h', Option.map_some]⟩
    | _ => exact absurd h (by simp [ByAttributes])

/-- The object with these parts. -/
def withParts (key : Str) (path : List Step) (v : Val) (xs : List Val) : Val := (assign key (.list xs) path v).getD .none

theorem eraseP_mid {n : Str} {w : Val} {pre post : List (Str × Val)} (h : n ∉ pre.map (·.1)) :
    (pre ++ (n, w) :: post).eraseP (fun p => p.1 == n) = pre ++ post := by
  rw [List.eraseP_append_right _ (by
    intro p hp e
    exact h (List.mem_map.mpr ⟨p, hp, by simpa using e⟩)), List.eraseP_cons_of_pos (by simp)]

theorem parts_additive {key : Str} {d : Cls} :
    ∀ {path : List Step} {v : Val}, ByAttributes path v → (v.at (path ++ [.f key])).isSome → Apart key path v →
      (∀ k, k ≠ py "comment" → k ≠ py "user_defined" → Additive (itemLines key) (Item key d)
        fun xs out => collateSub k out (withParts key path v xs)) ∧
      (∀ k, Additive (itemLines key) (Item key d)
        fun xs out => collateObj k out (withParts key path v xs)) ∧
      ∃ hd, ∀ xs, headerOf (withParts key path v xs) = hd
  | [], v, hp, ha, hn => by
    cases v with
    | obj c vs =>
      obtain ⟨hc, hu⟩ := hp
      simp only [List.nil_append, Val.at] at ha
      cases hw : Val.lookupVar key vs with
      | none => simp [hw] at ha
      | some w =>
        obtain ⟨pre, post, rfl, hnp⟩ := lookupVar_split hw
        have he : ∀ xs, withParts key [] (.obj c (pre ++ (key, w) :: post)) xs = .obj c (pre ++ (key, .list xs) :: post) := by
          intro xs
          simp only [withParts, assign, Option.getD_some, setVar_mid hnp]
        have hall : ∀ p ∈ pre ++ post, SelfContained p.2 := by
          have := hn
          simp only [Apart, eraseP_mid hnp] at this
          exact this
        have hv := (list_additive key d).vars (pre := pre) (post := post) (fun p h => hall p (by simp [h])) (fun p h => hall p (by simp [h]))
        have hu' : ∀ v, ∀ p ∈ pre ++ (key, v) :: post, p.1 ≠ py "units" := by
          intro v p h
          have : p.1 ∈ (pre ++ (key, w) :: post).map (·.1) := by
            have := List.mem_map_of_mem (f := fun p : Str × Val => p.1) h
            simpa using this
          obtain ⟨q, hq, e⟩ := List.mem_map.mp this
          rw [← e]
          exact hu q hq
        simp only [he]
        exact ⟨fun k h1 h2 => hv.sub hc hu' h1 h2, fun k => hv.obj hc k, _, fun xs => rfl⟩
    | _ => exact absurd hp (by simp [ByAttributes])
  | .f n :: p, v, hp, ha, hn => by
    cases v with
    | obj c vs =>
      obtain ⟨hc, hu, h3, h4, w, hw, hp⟩ := hp
      simp only [List.cons_append, Val.at, hw] at ha
      obtain ⟨pre, post, rfl, hnp⟩ := lookupVar_split hw
      have he : ∀ xs, withParts key (.f n :: p) (.obj c (pre ++ (n, w) :: post)) xs = .obj c (pre ++ (n, withParts key p w xs) :: post) := by
        intro xs
        obtain ⟨w', h'⟩ := assign_total (key := key) (.list xs) hp
        simp only [withParts, assign, hw, h', Option.map_some, Option.getD_some, setVar_mid hnp]
      simp only [Apart, eraseP_mid hnp] at hn
      obtain ⟨hall, hn⟩ := hn
      obtain ⟨hsub, -, -⟩ := parts_additive (d := d) hp ha (hn w hw)
      have hv := (hsub n h3 h4).vars (pre := pre) (post := post) (fun p h => hall p (by simp [h])) (fun p h => hall p (by simp [h]))
      have hu' : ∀ v, ∀ p ∈ pre ++ (n, v) :: post, p.1 ≠ py "units" := by
        intro v p h
        have : p.1 ∈ (pre ++ (n, w) :: post).map (·.1) := by
          have := List.mem_map_of_mem (f := fun p : Str × Val => p.1) h
          simpa using this
        obtain ⟨q, hq, e⟩ := List.mem_map.mp this
        rw [← e]
        exact hu q hq
      simp only [he]
      exact ⟨fun k h1 h2 => hv.sub hc hu' h1 h2, fun k => hv.obj hc k, _, fun xs => rfl⟩
    | _ => exact absurd hp (by simp [ByAttributes])
  | .i n :: p, v, hp, ha, hn => by
    cases v with
    | list ys =>
      obtain ⟨w, hw, hp⟩ := hp
      simp only [List.cons_append, Val.at, hw] at ha
      have hlt : n < ys.length := (List.getElem?_eq_some_iff.mp hw).1
      have he : ∀ xs, withParts key (.i n :: p) (.list ys) xs = .list (ys.take n ++ withParts key p w xs :: ys.drop (n + 1)) := by
        intro xs
        obtain ⟨w', h'⟩ := assign_total (key := key) (.list xs) hp
        simp only [withParts, assign, hw, h', Option.map_some, Option.getD_some]
        rw [List.set_eq_take_append_cons_drop, if_pos hlt]
      simp only [Apart, List.eraseIdx_eq_take_drop_succ] at hn
      obtain ⟨hall, hn⟩ := hn
      obtain ⟨-, hobj, hd, hh⟩ := parts_additive (d := d) hp ha (hn w hw)
      simp only [he]
      refine ⟨fun k h1 h2 => (hobj k).items hh (fun x h => hall x (List.mem_append_left _ h))
        (fun x h => hall x (List.mem_append_right _ h)) h1 h2, fun k => ?_, none, fun xs => rfl⟩
      simp only [collateObj]
      exact .error _
    | _ => exact absurd hp (by simp [ByAttributes])

end Ndm
