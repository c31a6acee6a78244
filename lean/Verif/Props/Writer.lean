import Verif.Props.Lines
import Verif.Lemmas.WritePrefix
import Verif.XmlIo

/-! # C18, C19: recognisable output, balanced markers -/

namespace Ndm

/-- The eight message classes with their version keyword and the version that is written. -/
def messageKinds : List (Cls × Str × Str) := [
  (.Aem, py "CCSDS_AEM_VERS", py "1.0"), (.Apm, py "CCSDS_APM_VERS", py "1.0"), (.Cdm, py "CCSDS_CDM_VERS", py "1.0"),
  (.Oem, py "CCSDS_OEM_VERS", py "2.0"), (.Omm, py "CCSDS_OMM_VERS", py "2.0"), (.Opm, py "CCSDS_OPM_VERS", py "2.0"),
  (.Rdm, py "CCSDS_RDM_VERS", py "1.0"), (.Tdm, py "CCSDS_TDM_VERS", py "2.0")]

theorem kvnToString_first {c : Cls} {id ver : Str} (hk : (c, id, ver) ∈ messageKinds) {vs : List (Str × Val)}
    {text : Str} (h : kvnToString (.obj c vs) = .ok text) :
    ∃ rest, text = joinWith ['\n'] (fillKvn id ver none :: rest) := by
  have hid : ∀ p ∈ messageKinds, p.1.idVersion = some p.2 ∧ ∃ n, p.1.metaName = some n ∧ n ≠ py "ndm" := by
    intro p hp
    simp only [messageKinds, List.mem_cons, List.not_mem_nil, or_false] at hp
    rcases hp with rfl | rfl | rfl | rfl | rfl | rfl | rfl | rfl <;> exact ⟨rfl, _, rfl, by decide⟩
  obtain ⟨h1, n, h2, h3⟩ := hid _ hk
  simp only at h1 h2
  unfold kvnToString at h
  obtain ⟨out, ho, h⟩ := bind_ok_iff.mp h
  cases h
  simp only [kvnLines, h1, h2, if_neg h3] at ho
  change collateObj [] [fillKvn id ver none] (Val.obj c vs) = _ at ho
  obtain ⟨rest, hr⟩ := collateObj_prefix _ _ _ _ ho
  exact ⟨rest, by rw [← hr]; rfl⟩

theorem joinWith_cons_form (l : Str) (rest : List Str) :
    joinWith ['\n'] (l :: rest) = l ∨ ∃ t, joinWith ['\n'] (l :: rest) = l ++ '\n' :: t := by
  cases rest with
  | nil => left; rfl
  | cons m ms => right; exact ⟨joinWith ['\n'] (m :: ms), by simp [joinWith]⟩

/-- **C18.** Whatever is written for a message object of class `c` begins with the line
`CCSDS_xxx_VERS       = version` of that class; it is detected as KVN; and the KVN reader, in whatever state, selects
class `c` for it. -/
theorem C18_recognised (c : Cls) (id ver : Str) (hk : (c, id, ver) ∈ messageKinds) (vs : List (Str × Val))
    (text : Str) (h : kvnToString (.obj c vs) = .ok text) :
    (∃ ls, TextLines text ((ljust 20 id ++ py " = " ++ ver) :: ls)) ∧
    identifyFormat text = .ok .kvn ∧
    ∃ lines, preprocess text = .ok lines ∧ identifyDataType lines = .ok c := by
  obtain ⟨rest, rfl⟩ := kvnToString_first hk h
  have tab : ∀ p ∈ messageKinds, fillKvn p.2.1 p.2.2 none = ljust 20 p.2.1 ++ py " = " ++ p.2.2 ∧
      '\n' ∉ fillKvn p.2.1 p.2.2 none ∧
      parseLine (fillKvn p.2.1 p.2.2 none) = some [p.2.1, p.2.2] ∧
      (∃ t, fillKvn p.2.1 p.2.2 none = py "CCSDS_" ++ t) ∧ findKvnType p.2.1 = .ok p.1 := by
    intro p hp
    simp only [messageKinds, List.mem_cons, List.not_mem_nil, or_false] at hp
    rcases hp with rfl | rfl | rfl | rfl | rfl | rfl | rfl | rfl <;>
      exact ⟨by decide, by decide, by decide, ⟨_, rfl⟩, by decide⟩
  obtain ⟨t1, t2, t3, ⟨u, hu⟩, t5⟩ := tab _ hk
  simp only at t1 t2 t3 hu t5
  refine ⟨?_, ?_, ?_⟩
  · rw [← t1]
    refine ⟨(splitChar '\n' (joinWith ['\n'] (fillKvn id ver none :: rest))).tail, ?_⟩
    have hs := textLines_exists (joinWith ['\n'] (fillKvn id ver none :: rest))
    have : splitChar '\n' (joinWith ['\n'] (fillKvn id ver none :: rest)) = fillKvn id ver none ::
        (splitChar '\n' (joinWith ['\n'] (fillKvn id ver none :: rest))).tail := by
      rcases joinWith_cons_form (fillKvn id ver none) rest with e | ⟨t, e⟩
      · rw [e, splitChar_self t2]; rfl
      · rw [e, splitChar_append t2]; rfl
    rw [← this]; exact hs
  · have hp : ∃ w, joinWith ['\n'] (fillKvn id ver none :: rest) = py "CCSDS_" ++ w := by
      rcases joinWith_cons_form (fillKvn id ver none) rest with e | ⟨t, e⟩
      · exact ⟨u, by rw [e, hu]⟩
      · exact ⟨u ++ '\n' :: t, by rw [e, hu]; simp⟩
    obtain ⟨w, hw⟩ := hp
    rw [hw]
    have : startsWith (strip (py "CCSDS_" ++ w)) (py "CCSDS_") = true := by
      have hl : lstrip (py "CCSDS_" ++ w) = py "CCSDS_" ++ w := rfl
      rw [strip, hl]
      -- right-stripping cannot reach into the prefix, whose last character is not a space
      have : ∃ w', rstrip (py "CCSDS_" ++ w) = py "CCSDS_" ++ w' := by
        by_cases hb : rstrip w = []
        · have hbl : Blank w := strip_eq_nil_iff.mp (by rw [← strip_rstrip, hb]; rfl)
          exact ⟨[], by rw [rstrip_append_blank _ hbl]; rfl⟩
        · obtain ⟨v, hv, ht, hlast⟩ := dropWhile_decomp isSpace w.reverse
          have e : w = rstrip w ++ v.reverse := by
            have := congrArg List.reverse ht
            simpa [rstrip] using this
          refine ⟨rstrip w, ?_⟩
          conv_lhs => rw [e]
          rw [← List.append_assoc, rstrip_append_blank _ (fun c hc => hv c (by simpa using hc))]
          apply rstrip_of_last
          intro d hd
          apply hlast d
          rw [List.getLast?_append] at hd
          cases hq : (rstrip w).getLast? with
          | none => rw [List.getLast?_eq_none_iff] at hq; exact absurd hq hb
          | some x => rw [hq] at hd; simp at hd; subst hd; simpa [rstrip] using hq
      obtain ⟨w', hw'⟩ := this
      rw [hw', startsWith_iff]
      exact ⟨w', rfl⟩
    simp only [identifyFormat, this, if_true]
  · have : ∃ ls, (splitChar '\n' (joinWith ['\n'] (fillKvn id ver none :: rest))).filterMap parseLine =
        [id, ver] :: ls := by
      rcases joinWith_cons_form (fillKvn id ver none) rest with e | ⟨t, e⟩
      · rw [e, splitChar_self t2]; exact ⟨[], by simp [t3]⟩
      · rw [e, splitChar_append t2]; exact ⟨_, by rw [List.filterMap_cons, t3]⟩
    obtain ⟨ls, hls⟩ := this
    refine ⟨[py "id", id] :: [py "version", ver] :: ls, ?_, ?_⟩
    · unfold preprocess
      rw [hls]; rfl
    · exact t5

/-- The table covers exactly the classes the KVN reader knows. -/
theorem messageKinds_complete : messageKinds.map (·.1) = kvnTypes ∧
    ∀ p ∈ messageKinds, p.1.idVersion = some p.2 := by
  refine ⟨rfl, ?_⟩
  intro p hp
  simp only [messageKinds, List.mem_cons, List.not_mem_nil, or_false] at hp
  rcases hp with rfl | rfl | rfl | rfl | rfl | rfl | rfl | rfl <;> rfl

-- Non-vacuity: an OPM with a header is written.
def opmHeaderOnly : List (Str × Val) := [(py "header", .obj .NdmHeader [(py "comment", .list [.str (py "hi")]),
  (py "creation_date", .str (py "2000")), (py "originator", .str (py "me"))]), (py "body", .none)]
example : (kvnToString (.obj .Opm opmHeaderOnly)).toOption.isSome = true := by decide
example : (Cls.Opm, py "CCSDS_OPM_VERS", py "2.0") ∈ messageKinds := by decide

/-! ## C19 -/

/-- The three kinds of sections with marker lines. -/
inductive Marker where
  | meta' | data | covariance
deriving DecidableEq

def Marker.word : Marker → Str
  | .meta' => (py "META")
  | .data => (py "DATA")
  | .covariance => (py "COVARIANCE")

def Marker.start (m : Marker) : Str := m.word ++ (py "_START")
def Marker.stop (m : Marker) : Str := m.word ++ (py "_STOP")

/-- A line that is one of the six markers. -/
def IsMarker (l : Str) : Prop := ∃ m : Marker, l = m.start ∨ l = m.stop

/-- Sequences of lines in which the marker lines are balanced and properly nested. -/
inductive Balanced : List Str → Prop
  | nil : Balanced []
  | line {l} : ¬ IsMarker l → Balanced [l]
  | append {a b} : Balanced a → Balanced b → Balanced (a ++ b)
  | section' {a} (m : Marker) : Balanced a → Balanced ([m.start] ++ a ++ [m.stop])

/-- `u` occurs somewhere in `v`. -/
inductive Occurs : Val → Val → Prop
  | refl (v) : Occurs v v
  | attr {u v c vs k} : (k, v) ∈ vs → Occurs u v → Occurs u (.obj c vs)
  | item {u v xs} : v ∈ xs → Occurs u v → Occurs u (.list xs)
  | member {c v} : Occurs (.str v) (.enum c v)

/-- No value in the object is printed as a text that is literally a marker line. -/
def NoMarkerText (v : Val) : Prop := ∀ u, Occurs u v → ¬ IsMarker (pyStr u)

theorem notMarker_of_mem {l : Str} {c : Char} (hc : c = '=' ∨ c = ' ') (h : c ∈ l) : ¬ IsMarker l := by
  rintro ⟨m, hm⟩
  have : ∀ m : Marker, ∀ l, l = m.start ∨ l = m.stop → '=' ∉ l ∧ ' ' ∉ l := by
    intro m l hl
    rcases hl with rfl | rfl <;> cases m <;> decide
  have := this m l hm
  rcases hc with rfl | rfl
  · exact this.1 h
  · exact this.2 h

theorem notMarker_nil : ¬ IsMarker [] := by
  rintro ⟨m, hm⟩
  rcases hm with h | h <;> (revert h; cases m <;> decide)

theorem notMarker_fillKvn (k v : Str) (u : Option Str) : ¬ IsMarker (fillKvn k v u) := by
  apply notMarker_of_mem (Or.inl rfl)
  unfold fillKvn
  split
  · split <;> simp [lit]
  · simp [lit]

theorem notMarker_fillMulti (k v w : Str) : ¬ IsMarker (fillMultiKvn k v w) := by
  apply notMarker_of_mem (Or.inl rfl)
  simp [fillMultiKvn, lit]

theorem notMarker_join {ps : List Str} (h : ∀ p ∈ ps, ¬ IsMarker p) : ¬ IsMarker (joinWith (py "  ") ps) := by
  match ps, h with
  | [], _ => exact notMarker_nil
  | [p], h => exact h p (by simp)
  | p :: q :: r, _ =>
    apply notMarker_of_mem (c := ' ') (Or.inr rfl)
    simp [joinWith, lit]

theorem notMarker_fillSingle {ps : List Str} {l : Str} (h : ∀ p ∈ ps, ¬ IsMarker p) (hl : fillSingle ps = .ok l) :
    ¬ IsMarker l := by
  unfold fillSingle at hl
  obtain ⟨x, -, hl⟩ := bind_ok_iff.mp hl
  cases hl
  split
  · exact notMarker_nil
  · exact notMarker_join h

theorem balanced_lines {ls : List Str} (h : ∀ l ∈ ls, ¬ IsMarker l) : Balanced ls := by
  induction ls with
  | nil => exact .nil
  | cons l ls ih =>
    exact .append (a := [l]) (.line (h l (by simp))) (ih (fun x hx => h x (by simp [hx])))

theorem lookupVar_mem {k : Str} {vs : List (Str × Val)} {v : Val} (h : Val.lookupVar k vs = some v) :
    ∃ k', (k', v) ∈ vs := by
  unfold Val.lookupVar at h
  cases hf : vs.find? (·.1 == k) with
  | none => rw [hf] at h; cases h
  | some p =>
    rw [hf] at h
    simp only [Option.map_some, Option.some.injEq] at h
    subst h
    exact ⟨p.1, List.mem_of_find?_eq_some hf⟩

theorem occurs_trans {a b c : Val} (h1 : Occurs a b) (h2 : Occurs b c) : Occurs a c := by
  induction h2 with
  | refl => exact h1
  | attr hm _ ih => exact .attr hm (ih h1)
  | item hm _ ih => exact .item hm (ih h1)
  | member => 
    cases h1
    exact .member

theorem occurs_valueOr (v : Val) : Occurs (valueOr v) v := by
  cases v with
  | obj c vs =>
    simp only [valueOr]
    cases h : Val.lookupVar (py "value") vs with
    | none => exact .refl _
    | some w =>
      obtain ⟨k, hk⟩ := lookupVar_mem h
      exact .attr hk (.refl _)
  | enum c v => exact .member
  | _ => exact .refl _

theorem occurs_valueAttr? {v w : Val} (h : valueAttr? v = some w) : Occurs w v := by
  cases v with
  | obj c vs =>
    obtain ⟨k, hk⟩ := lookupVar_mem h
    exact .attr hk (.refl _)
  | enum c v => simp only [valueAttr?, Option.some.injEq] at h; subst h; exact .member
  | _ => cases h

theorem mem_triRows {fuel n : Nat} {l : List Str} {r : List Str} (h : r ∈ triRows fuel n l) : ∀ x ∈ r, x ∈ l := by
  induction fuel generalizing n l with
  | zero => cases h
  | succ fuel ih =>
    unfold triRows at h
    split at h
    · cases h
    · rcases List.mem_cons.mp h with rfl | h
      · intro x hx; exact List.mem_of_mem_take hx
      · intro x hx; exact List.mem_of_mem_drop (ih h x hx)

theorem notMarker_special {key : Str} {c : Cls} {vs : List (Str × Val)} {out ls : List Str}
    (hn : NoMarkerText (.obj c vs)) (h : writeSpecial key c vs out = .ok ls) : ∀ l ∈ ls, ¬ IsMarker l := by
  have hattr : ∀ p ∈ vs, ∀ u, Occurs u p.2 → ¬ IsMarker (pyStr u) := fun p hp u hu => hn u (.attr (k := p.1) hp hu)
  unfold writeSpecial at h
  split at h
  · -- state vector
    unfold writeStateVector at h
    obtain ⟨l, hl, h⟩ := bind_ok_iff.mp h
    cases h
    intro l' hl'
    simp only [List.mem_singleton] at hl'
    subst hl'
    refine notMarker_fillSingle ?_ hl
    intro p hp
    obtain ⟨q, hq, rfl⟩ := List.mem_map.mp hp
    exact hattr q (List.mem_of_mem_filter hq) _ (occurs_valueOr _)
  · split at h
    · -- attitude
      unfold writeAttitude at h
      split at h
      · cases h
      · rename_i att rest hatt
        have hmem : att ∈ (vs.map (·.2)).filter Val.truthy := by rw [hatt]; simp
        obtain ⟨p, hp, rfl⟩ := List.mem_map.mp (List.mem_of_mem_filter hmem)
        obtain ⟨avs, havs, h⟩ := bind_ok_iff.mp h
        obtain ⟨rots, hrots, h⟩ := bind_ok_iff.mp h
        obtain ⟨line, hline, h⟩ := bind_ok_iff.mp h
        obtain ⟨ep, hep, h⟩ := bind_ok_iff.mp h
        split at h
        · obtain ⟨l, hl, h⟩ := bind_ok_iff.mp h
          cases h
          intro l' hl'
          simp only [List.mem_singleton] at hl'
          subst hl'
          cases line with
          | nil =>
            refine notMarker_fillSingle ?_ hl
            intro q hq
            simp only [List.mem_singleton] at hq
            subst hq
            have hocc : Occurs (.str q) p.2 := by
              cases hp2 : p.2 with
              | obj c' avs' =>
                rw [hp2] at havs
                cases havs
                unfold dictGet at hep
                split at hep
                · rename_i v hv
                  cases hep
                  obtain ⟨k, hk⟩ := lookupVar_mem hv
                  exact .attr hk (.refl _)
                · cases hep
              | _ => rw [hp2] at havs; cases havs
            exact hattr p hp _ hocc
          | cons a line =>
            unfold fillSingle at hl
            obtain ⟨x, -, hl⟩ := bind_ok_iff.mp hl
            cases hl
            split
            · exact notMarker_nil
            · apply notMarker_of_mem (c := ' ') (Or.inr rfl)
              simp [joinWith, lit]
        · cases h
    · split at h
      · -- observation
        unfold writeObservation at h
        obtain ⟨p, hp, h⟩ := bind_ok_iff.mp h
        obtain ⟨ep, -, h⟩ := bind_ok_iff.mp h
        cases h
        intro l hl
        simp only [List.mem_singleton] at hl
        subst hl
        exact notMarker_fillMulti _ _ _
      · -- covariance
        unfold writeCovariance at h
        obtain ⟨cv, -, h⟩ := bind_ok_iff.mp h
        obtain ⟨comments, -, h⟩ := bind_ok_iff.mp h
        obtain ⟨ep, -, h⟩ := bind_ok_iff.mp h
        obtain ⟨frame, -, h⟩ := bind_ok_iff.mp h
        obtain ⟨rows, hrows, h⟩ := bind_ok_iff.mp h
        cases h
        intro l hl
        simp only [List.mem_append] at hl
        rcases hl with ((hl | hl) | hl) | hl
        · obtain ⟨x, -, rfl⟩ := List.mem_map.mp hl
          exact notMarker_fillKvn _ _ _
        · simp only [List.mem_singleton] at hl
          subst hl
          exact notMarker_fillKvn _ _ _
        · split at hl
          · simp only [List.mem_singleton] at hl
            subst hl
            exact notMarker_fillKvn _ _ _
          · cases hl
        · obtain ⟨r, hr, hrl⟩ := mapM_mem hrows l hl
          refine notMarker_fillSingle ?_ hrl
          intro x hx
          have := mem_triRows hr x hx
          obtain ⟨w, hw, rfl⟩ := List.mem_map.mp this
          obtain ⟨p, hp, hpw⟩ := List.mem_filterMap.mp hw
          exact hattr p hp w (occurs_valueAttr? hpw)

/-- What a step of the writer appends. -/
def Emits (out o : List Str) : Prop := ∃ ls, o = out ++ ls ∧ Balanced ls

theorem Emits.refl (out : List Str) : Emits out out := ⟨[], by simp, .nil⟩
theorem Emits.trans {a b c : List Str} (h1 : Emits a b) (h2 : Emits b c) : Emits a c := by
  obtain ⟨l1, rfl, b1⟩ := h1
  obtain ⟨l2, rfl, b2⟩ := h2
  exact ⟨l1 ++ l2, by simp, .append b1 b2⟩
theorem Emits.lines {out ls : List Str} (h : ∀ l ∈ ls, ¬ IsMarker l) : Emits out (out ++ ls) :=
  ⟨ls, rfl, balanced_lines h⟩
theorem Emits.one {out : List Str} {l : Str} (h : ¬ IsMarker l) : Emits out (out ++ [l]) :=
  .lines (by intro x hx; simp only [List.mem_singleton] at hx; exact hx ▸ h)

theorem headerName_marker {c : Cls} {h : Str} (hh : headerName c = some h) :
    ∃ m : Marker, beginLine h = m.start ∧ endLine h = m.stop := by
  unfold headerName at hh
  split at hh <;> cases hh
  · exact ⟨.meta', rfl, rfl⟩
  · exact ⟨.meta', rfl, rfl⟩
  · exact ⟨.meta', rfl, rfl⟩
  · exact ⟨.data, rfl, rfl⟩
  · exact ⟨.data, rfl, rfl⟩
  · exact ⟨.covariance, rfl, rfl⟩

theorem emits_withHeader {h : Option Str} {pre post : List Str} {out o : List Str}
    {body : List Str → Except PyErr (List Str)} (hb : ∀ o1 o2, body o1 = .ok o2 → Emits o1 o2)
    (hm : ∀ x, h = some x → ∃ m : Marker, beginLine x = m.start ∧ endLine x = m.stop)
    (hpre : pre = [] ∨ pre = [[]]) (hpost : post = [] ∨ post = [[]])
    (hw : withHeader h (fun x => pre ++ [beginLine x, []]) (fun x => post ++ [endLine x, []]) out body = .ok o) :
    Emits out o := by
  unfold withHeader at hw
  split at hw
  · rename_i x
    obtain ⟨o2, h2, rfl⟩ := map_ok_iff.mp hw
    obtain ⟨ls, rfl, bl⟩ := hb _ _ h2
    obtain ⟨m, hm1, hm2⟩ := hm x rfl
    have bnil : ∀ l : List Str, l = [] ∨ l = [[]] → Balanced l := by
      rintro l (rfl | rfl)
      · exact .nil
      · exact .line notMarker_nil
    refine ⟨pre ++ ([m.start] ++ ([[]] ++ ls ++ post) ++ [m.stop]) ++ [[]], by simp [hm1, hm2], ?_⟩
    refine .append (.append (bnil _ hpre) (.section' m ?_)) (.line notMarker_nil)
    exact .append (.append (.line notMarker_nil) bl) (bnil _ hpost)
  · exact hb _ _ hw

mutual
theorem collateObj_balanced (key : Str) : ∀ (v : Val) (out o : List Str), NoMarkerText v →
    collateObj key out v = .ok o → Emits out o
  | .obj c vs, out, o, hn, h => by
    simp only [collateObj] at h
    split at h
    · obtain ⟨ls, hls, h⟩ := bind_ok_iff.mp h
      cases h
      exact .lines (notMarker_special hn hls)
    · obtain ⟨o1, h1, h⟩ := bind_ok_iff.mp h
      have := collateVars_balanced vs out o1 (fun p hp u hu => hn u (.attr (k := p.1) hp hu)) h1
      cases h
      split
      · exact this.trans (.one notMarker_nil)
      · exact this
  | .none, _, o, _, h => by simp [collateObj] at h
  | .str _, _, o, _, h => by simp [collateObj] at h
  | .int _, _, o, _, h => by simp [collateObj] at h
  | .dec _, _, o, _, h => by simp [collateObj] at h
  | .enum _ _, _, o, _, h => by simp [collateObj] at h
  | .list _, _, o, _, h => by simp [collateObj] at h

theorem collateVars_balanced : ∀ (vs : List (Str × Val)) (out o : List Str), (∀ p ∈ vs, NoMarkerText p.2) →
    collateVars out vs = .ok o → Emits out o
  | [], out, o, _, h => by simp only [collateVars] at h; cases h; exact .refl _
  | (k, v) :: rest, out, o, hn, h => by
    simp only [collateVars] at h
    obtain ⟨o1, h1, h⟩ := bind_ok_iff.mp h
    exact (collateSub_balanced k v out o1 (hn (k, v) (by simp)) h1).trans
      (collateVars_balanced rest o1 o (fun p hp => hn p (by simp [hp])) h)

theorem collateSub_balanced (key : Str) : ∀ (v : Val) (out o : List Str), NoMarkerText v →
    collateSub key out v = .ok o → Emits out o
  | .str s, out, o, _, h => by simp only [collateSub] at h; cases h; exact .one (notMarker_fillKvn _ _ _)
  | .int i, out, o, _, h => by simp only [collateSub] at h; cases h; exact .one (notMarker_fillKvn _ _ _)
  | .dec d, out, o, _, h => by
    simp only [collateSub] at h
    split at h
    · cases h
    · cases h; exact .one (notMarker_fillKvn _ _ _)
  | .enum c v, out, o, _, h => by
    simp only [collateSub] at h
    split at h
    · cases h
    · cases h; exact .one (notMarker_fillKvn _ _ _)
  | .none, out, o, _, h => by
    simp only [collateSub] at h
    split at h
    · cases h
    · cases h; exact .refl _
  | .obj c vs, out, o, hn, h => by
    simp only [collateSub] at h
    refine emits_withHeader (pre := []) (post := []) ?_ (fun x hx => headerName_marker hx) (Or.inl rfl) (Or.inl rfl) h
    intro o1 o2 h2
    split at h2
    · cases h2
    · split at h2
      · obtain ⟨l, hl, h2⟩ := bind_ok_iff.mp h2
        cases h2
        refine .one ?_
        unfold writeValueObj at hl
        obtain ⟨k, -, hl⟩ := bind_ok_iff.mp hl
        obtain ⟨u, -, hl⟩ := bind_ok_iff.mp hl
        obtain ⟨w, -, hl⟩ := bind_ok_iff.mp hl
        split at hl
        · obtain ⟨uv, -, hl⟩ := bind_ok_iff.mp hl
          cases hl; exact notMarker_fillKvn _ _ _
        · cases hl; exact notMarker_fillKvn _ _ _
      · split at h2
        · cases h2
        · split at h2
          · obtain ⟨ls, hls, h2⟩ := bind_ok_iff.mp h2
            cases h2; exact .lines (notMarker_special hn hls)
          · obtain ⟨o3, h3, h2⟩ := bind_ok_iff.mp h2
            have := collateVars_balanced vs o1 o3 (fun p hp u hu => hn u (.attr (k := p.1) hp hu)) h3
            cases h2
            split
            · exact this.trans (.one notMarker_nil)
            · exact this
  | .list [], out, o, _, h => by
    simp only [collateSub] at h
    split at h
    · cases h; exact .lines (by intro l hl; simp at hl)
    · split at h
      · obtain ⟨ls, hls, h⟩ := bind_ok_iff.mp h
        rw [List.mapM_nil] at hls
        cases hls
        cases h; exact .lines (by intro l hl; cases hl)
      · cases h; exact .refl _
  | .list (x :: rest), out, o, hn, h => by
    simp only [collateSub] at h
    split at h
    · cases h
      refine .lines ?_
      intro l hl
      obtain ⟨y, -, rfl⟩ := List.mem_map.mp hl
      exact notMarker_fillKvn _ _ _
    · split at h
      · obtain ⟨ls, hls, h⟩ := bind_ok_iff.mp h
        cases h
        refine .lines ?_
        intro l hl
        obtain ⟨y, -, hy⟩ := mapM_mem hls l hl
        unfold writeUserDefined at hy
        split at hy
        · obtain ⟨pv, -, hy⟩ := bind_ok_iff.mp hy
          split at hy
          · obtain ⟨w, -, hy⟩ := bind_ok_iff.mp hy
            cases hy; exact notMarker_fillKvn _ _ _
          · cases hy
        · cases hy
      · refine emits_withHeader (pre := [[]]) (post := [[]]) ?_ ?_ (Or.inr rfl) (Or.inr rfl) h
        · intro o1 o2 h2
          obtain ⟨o3, h3, h2⟩ := bind_ok_iff.mp h2
          exact (collateObj_balanced key x o1 o3 (fun u hu => hn u (.item (by simp) hu)) h3).trans
            (collateItems_balanced key rest o3 o2 (fun y hy u hu => hn u (.item (by simp [hy]) hu)) h2)
        · intro y hy
          unfold headerOf at hy
          split at hy
          · exact headerName_marker hy
          · cases hy

theorem collateItems_balanced (key : Str) : ∀ (xs : List Val) (out o : List Str), (∀ x ∈ xs, NoMarkerText x) →
    collateItems key out xs = .ok o → Emits out o
  | [], out, o, _, h => by simp only [collateItems] at h; cases h; exact .refl _
  | x :: rest, out, o, hn, h => by
    simp only [collateItems] at h
    obtain ⟨o1, h1, h⟩ := bind_ok_iff.mp h
    exact (collateObj_balanced key x out o1 (hn x (by simp)) h1).trans
      (collateItems_balanced key rest o1 o (fun p hp => hn p (by simp [hp])) h)
end

/-- **C19.** In everything the KVN writer produces for an object (none of whose texts is literally a marker line) the
marker lines are balanced and properly nested. -/
theorem C19_markers (o : Val) (lines : List Str) (hn : NoMarkerText o) (h : kvnLines o = .ok lines) :
    Balanced lines := by
  unfold kvnLines at h
  split at h
  · split at h
    · cases h
    · rename_i c vs _ n _
      have h' : ∃ id ver, collateObj [] [fillKvn id ver none] (Val.obj c vs) = .ok lines := by
        revert h
        cases hid : c.idVersion with
        | none =>
          intro h
          exfalso
          by_cases hn' : n = py "ndm"
          · simp only [hn', if_true] at h
            obtain ⟨b, -, h⟩ := bind_ok_iff.mp h
            cases b <;> cases h
          · simp only [if_neg hn'] at h
            cases h
        | some p =>
          obtain ⟨id, ver⟩ := p
          intro h
          refine ⟨id, ver, ?_⟩
          by_cases hn' : n = py "ndm"
          · simp only [hn', if_true] at h
            obtain ⟨b, -, h⟩ := bind_ok_iff.mp h
            cases b
            · exact h
            · cases h
          · simp only [if_neg hn'] at h
            exact h
      obtain ⟨id, ver, hc⟩ := h'
      obtain ⟨ls, rfl, bl⟩ := collateObj_balanced [] _ _ _ hn hc
      exact .append (.line (notMarker_fillKvn _ _ _)) bl
  · cases h

/-- Balanced sequences have as many start as stop lines of each kind, and every prefix has at least as many starts. -/
theorem Balanced.counts {ls : List Str} (h : Balanced ls) (m : Marker) :
    ls.count m.start = ls.count m.stop ∧ ∀ p, p <+: ls → p.count m.stop ≤ p.count m.start := by
  have hinj : ∀ a b : Marker, a.start = b.start ↔ a = b := by intro a b; cases a <;> cases b <;> decide
  have hinj' : ∀ a b : Marker, a.stop = b.stop ↔ a = b := by intro a b; cases a <;> cases b <;> decide
  have hdis : ∀ a b : Marker, a.start ≠ b.stop := by intro a b; cases a <;> cases b <;> decide
  induction h with
  | nil => exact ⟨rfl, by intro p hp; simp at hp; subst hp; simp⟩
  | @line l hl =>
    have h1 : l ≠ m.start := fun h => hl ⟨m, Or.inl h⟩
    have h2 : l ≠ m.stop := fun h => hl ⟨m, Or.inr h⟩
    refine ⟨by simp [h1, h2], ?_⟩
    intro p hp
    have : p.count m.stop = 0 := by
      rw [List.count_eq_zero]
      intro hmem
      have := hp.subset hmem
      simp at this
      exact h2 this.symm
    omega
  | @append a b _ _ iha ihb =>
    refine ⟨by rw [List.count_append, List.count_append, iha.1, ihb.1], ?_⟩
    intro p hp
    by_cases hle : p.length ≤ a.length
    · exact iha.2 p (List.prefix_of_prefix_length_le hp (List.prefix_append _ _) hle)
    · have : a <+: p := List.prefix_of_prefix_length_le (List.prefix_append _ _) hp (by omega)
      obtain ⟨q, rfl⟩ := this
      have hq : q <+: b := (List.prefix_append_right_inj a).mp hp
      have := ihb.2 q hq
      rw [List.count_append, List.count_append, iha.1]
      omega
  | @section' a m' _ ih =>
    by_cases hm : m' = m
    · subst hm
      have e1 : [m'.stop].count m'.start = 0 := by
        rw [List.count_eq_zero]; intro h; simp at h; exact hdis _ _ h
      have e2 : [m'.start].count m'.stop = 0 := by
        rw [List.count_eq_zero]; intro h; simp at h; exact hdis _ _ h.symm
      refine ⟨by simp only [List.count_append, e1, e2, ih.1]; simp; omega, ?_⟩
      intro p hp
      cases p with
      | nil => simp
      | cons x p =>
        have hx : x = m'.start := by
          have := hp.subset (List.mem_cons_self ..)
          obtain ⟨t, ht⟩ := hp
          simp at ht
          exact ht.1
        subst hx
        have hp' : p <+: a ++ [m'.stop] := by
          have : m'.start :: p <+: m'.start :: (a ++ [m'.stop]) := by simpa using hp
          rw [List.cons_prefix_cons] at this
          exact this.2
        have hne : ¬ m'.start = m'.stop := hdis _ _
        rw [List.count_cons_of_ne hne, List.count_cons_self]
        by_cases hle : p.length ≤ a.length
        · have := ih.2 p (List.prefix_of_prefix_length_le hp' (List.prefix_append _ _) hle)
          omega
        · have hap : a <+: p := List.prefix_of_prefix_length_le (List.prefix_append _ _) hp' (by omega)
          obtain ⟨q, rfl⟩ := hap
          have hq : q <+: [m'.stop] := (List.prefix_append_right_inj a).mp hp'
          have hql : q.count m'.stop ≤ 1 := by
            have := (hq.sublist.count_le m'.stop)
            simpa using this
          rw [List.count_append, List.count_append, ih.1]
          omega
    · have e1 : m'.start ≠ m.start := fun h => hm ((hinj _ _).mp h)
      have e2 : m'.stop ≠ m.stop := fun h => hm ((hinj' _ _).mp h)
      have e3 : m'.start ≠ m.stop := hdis _ _
      have e4 : m'.stop ≠ m.start := (hdis _ _).symm
      refine ⟨by simp [e1, e2, e3, e4, ih.1], ?_⟩
      intro p hp
      cases p with
      | nil => simp
      | cons x p =>
        have hx : x = m'.start := by
          obtain ⟨t, ht⟩ := hp
          simp at ht
          exact ht.1
        subst hx
        have hp' : p <+: a ++ [m'.stop] := by
          have : m'.start :: p <+: m'.start :: (a ++ [m'.stop]) := by simpa using hp
          rw [List.cons_prefix_cons] at this
          exact this.2
        rw [List.count_cons_of_ne e3, List.count_cons_of_ne e1]
        by_cases hle : p.length ≤ a.length
        · exact ih.2 p (List.prefix_of_prefix_length_le hp' (List.prefix_append _ _) hle)
        · have hap : a <+: p := List.prefix_of_prefix_length_le (List.prefix_append _ _) hp' (by omega)
          obtain ⟨q, rfl⟩ := hap
          have hq : q <+: [m'.stop] := (List.prefix_append_right_inj a).mp hp'
          have hql : q.count m.stop = 0 := by
            rw [List.count_eq_zero]
            intro hmem
            have := hq.subset hmem
            simp at this
            exact e2 this.symm
          rw [List.count_append, List.count_append, ih.1]
          omega

-- Non-vacuity: a TDM segment is written with two nested pairs of markers.
def tdmSmall : Val := .obj .Tdm [(py "header", .none), (py "body", .obj .TdmBody [(py "segment", .list [
  .obj .TdmSegment [
    (py "metadata", .obj .TdmMetadata [(py "comment", .list []), (py "time_system", .str (py "UTC"))]),
    (py "data", .obj .TdmData [(py "comment", .list []), (py "observation", .list [])])]])])]
example : kvnLines tdmSmall = .ok [py "CCSDS_TDM_VERS       = 2.0", py "META_START", [], py "TIME_SYSTEM          = UTC", [],
  py "META_STOP", [], py "DATA_START", [], [], py "DATA_STOP", [], [], []] := by decide

end Ndm
