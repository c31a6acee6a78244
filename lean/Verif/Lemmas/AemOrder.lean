import Verif.Lemmas.AemWritten

/-! Quaternions that were written had their order stated before. -/

namespace Ndm

/-- No line says the order of quaternion components. -/
def Quiet (out : List Str) : Prop := ∀ x ∈ out, startsWith x (py "QUATERNION_TYPE") = false

theorem Quiet.nil : Quiet [] := by intro x hx; cases hx

theorem Quiet.append {a b : List Str} (ha : Quiet a) (hb : Quiet b) : Quiet (a ++ b) := by
  intro x hx
  rcases List.mem_append.mp hx with h | h
  · exact ha x h
  · exact hb x h

theorem Quiet.quatLast {out : List Str} (h : Quiet out) : quatLast out = .error .stopIteration := by
  unfold Ndm.quatLast
  rw [List.find?_eq_none.mpr fun x hx => by rw [h x (by simpa using hx)]; decide]

theorem fillKvn_quiet {k : Str} (hk : startsWith (ljust 20 (upper k)) (py "QUATERNION_TYPE") = false) (v : Str) (u : Option Str) :
    startsWith (fillKvn k v u) (py "QUATERNION_TYPE") = false := by
  have hp : ljust 20 (upper k) <+: fillKvn k v u := by
    unfold fillKvn
    cases u with
    | none => exact ⟨py " = " ++ v, by simp only [List.append_assoc]⟩
    | some u =>
      dsimp only
      split
      · exact ⟨py " = " ++ v, by simp only [List.append_assoc]⟩
      · exact ⟨py " = " ++ (ljust 18 v ++ (py "[" ++ (u ++ py "]"))), by simp only [List.append_assoc]⟩
  by_contra hc
  have hc : py "QUATERNION_TYPE" <+: fillKvn k v u := startsWith_iff.mp (by simpa using hc)
  have h15 : (py "QUATERNION_TYPE").length = 15 := by decide
  have hl : 20 ≤ (ljust 20 (upper k)).length := by simp only [ljust, List.length_append, List.length_replicate]; omega
  have := List.prefix_of_prefix_length_le hc hp (by rw [h15]; omega)
  rw [startsWith_iff.mpr this] at hk
  cases hk

theorem comment_quiet (v : Str) : startsWith (fillKvn (py "comment") v none) (py "QUATERNION_TYPE") = false :=
  fillKvn_quiet (by decide) _ _

theorem comments_quiet (xs : List Val) : Quiet (xs.map fun x => fillKvn (py "comment") (pyStr x) none) := by
  intro l hl
  obtain ⟨x, -, rfl⟩ := List.mem_map.mp hl
  exact comment_quiet _

/-- Fields of keyword lines, none of which states the order. -/
theorem fields_quiet : ∀ {fs : List Field} {vs : List (Str × Val)}, HasFields fs vs →
    (∀ f ∈ fs, (match f.ty with | .cls e => e.members.isSome | _ => true) = true ∧ (f.isList = true → f.name = py "comment") ∧
      (f.name ≠ py "quaternion_type" → startsWith (ljust 20 (upper f.name)) (py "QUATERNION_TYPE") = false)) →
    (∀ q, (py "quaternion_type", q) ∈ vs → q = .none) → ∀ {out o : List Str}, Quiet out → collateVars out vs = .ok o → Quiet o
  | _, _, .nil, _, _, out, o, hq, h => by simp only [collateVars] at h; cases h; exact hq
  | _, _, .cons (f := f) (v := v) (fs := fs) (vs := vs) hv hr, hf, hn, out, o, hq, h => by
    simp only [collateVars] at h
    obtain ⟨o1, h1, h2⟩ := bind_ok_iff.mp h
    refine fields_quiet hr (fun g hg => hf g (by simp [hg])) (fun q hm => hn q (by simp [hm])) ?_ h2
    obtain ⟨f1, f2, f3⟩ := hf f (by simp)
    have line : v ≠ .none → ∀ s u, Quiet (out ++ [fillKvn f.name s u]) := by
      intro hne s u
      refine hq.append ?_
      intro l hl
      rw [List.mem_singleton] at hl
      subst hl
      refine fillKvn_quiet (f3 ?_) s u
      intro e
      exact hne (hn v (by rw [e]; simp))
    cases hv with
    | none _ =>
      simp only [collateSub] at h1
      split at h1
      · cases h1
      · cases h1; exact hq
    | list hl hx =>
      rw [f2 hl, collateSub_comment] at h1
      cases h1
      exact hq.append (comments_quiet _)
    | one _ ht _ =>
      generalize hty : f.ty = ty at ht
      cases ht with
      | str s => simp only [collateSub] at h1; cases h1; exact line (by nofun) _ _
      | int s => simp only [collateSub] at h1; cases h1; exact line (by nofun) _ _
      | intText s => simp only [collateSub] at h1; cases h1; exact line (by nofun) _ _
      | decText s => simp only [collateSub] at h1; cases h1; exact line (by nofun) _ _
      | enumText s => simp only [collateSub] at h1; cases h1; exact line (by nofun) _ _
      | dec d =>
        simp only [collateSub] at h1
        split at h1
        · cases h1
        · cases h1; exact line (by nofun) _ _
      | enum s =>
        simp only [collateSub] at h1
        split at h1
        · cases h1
        · cases h1; exact line (by nofun) _ _
      | obj hm _ =>
        rw [hty] at f1
        have f1 : Option.isSome _ = true := f1
        rw [hm] at f1
        cases f1

theorem header_quiet {h : Option Str} {bf af : Str → List Str} {out o : List Str} {body : List Str → Except PyErr (List Str)}
    (hm : ∀ s, h = some s → Quiet (bf s) ∧ Quiet (af s)) (hb : ∀ o1 o2, Quiet o1 → body o1 = .ok o2 → Quiet o2) (hq : Quiet out)
    (hw : withHeader h bf af out body = .ok o) : Quiet o := by
  unfold withHeader at hw
  split at hw
  · next s =>
    obtain ⟨o2, h2, rfl⟩ := map_ok_iff.mp hw
    obtain ⟨m1, m2⟩ := hm s rfl
    exact (hb _ _ (hq.append m1) h2).append m2
  · exact hb _ _ hq hw

theorem markers_quiet {c : Cls} {s : Str} (h : headerName c = some s) : Quiet [beginLine s, []] ∧ Quiet [endLine s, []] := by
  unfold headerName at h
  unfold Quiet
  split at h <;> first | (cases h; decide) | cases h

theorem blank_quiet {p : Prop} [Decidable p] {o : List Str} (h : Quiet o) : Quiet (if p then o ++ [[]] else o) := by
  split
  · exact h.append (by unfold Quiet; decide)
  · exact h

theorem sub_quiet {key : Str} {c : Cls} {vs : List (Str × Val)} {out o : List Str} (hs : isSpecialOut c = false)
    (hu : vs.any (·.1 == py "units") = false) (hb : ∀ o1 o2, Quiet o1 → collateVars o1 vs = .ok o2 → Quiet o2) (hq : Quiet out)
    (h : collateSub key out (.obj c vs) = .ok o) : Quiet o := by
  simp only [collateSub, hs, hu, Bool.false_eq_true, if_false] at h
  refine header_quiet (fun s hs => markers_quiet hs) ?_ hq h
  intro o1 o2 hq1 h1
  split at h1
  · cases h1
  split at h1
  · cases h1
  obtain ⟨o3, h3, h4⟩ := bind_ok_iff.mp h1
  cases h4
  exact blank_quiet (hb _ _ hq1 h3)

/-- Header and metadata without an order. -/
theorem leaf_quiet {f : Field} {v : Val} {c : Cls} (hc : c ∈ leafClasses) (hf : f.ty = .cls c) (hl : f.isList = false) (h : FieldOk f v)
    (hn : ∀ vs, v = .obj c vs → ∀ q, (py "quaternion_type", q) ∈ vs → q = .none) {key : Str} {out o : List Str} (hq : Quiet out)
    (hw : collateSub key out v = .ok o) : Quiet o := by
  have hm : ∀ c ∈ leafClasses, c.members = none ∧ isSpecialOut c = false ∧ hasUnits c = false := by decide
  obtain ⟨hm1, hm2, hm3⟩ := hm c hc
  rcases fieldOk_single hf hl hm1 h with rfl | ⟨vs, rfl, hvs⟩
  · simp only [collateSub] at hw
    split at hw
    · cases hw
    · cases hw; exact hq
  · refine sub_quiet hm2 (by rw [hasFields_units hvs]; exact hm3) (fun o1 o2 h1 h2 => ?_) hq hw
    have htab : ∀ c ∈ leafClasses, ∀ f ∈ c.attrs, (match f.ty with | .cls e => e.members.isSome | _ => true) = true ∧
        (f.isList = true → f.name = py "comment") ∧
        (f.name ≠ py "quaternion_type" → startsWith (ljust 20 (upper f.name)) (py "QUATERNION_TYPE") = false) := by decide +kernel
    exact fields_quiet hvs (htab c hc) (hn vs rfl) h1 h2

/-- The first number of a line decides how it begins. -/
theorem joined_quiet {e : Str} (he : startsWith e (py "QUATERNION_TYPE") = false) (line : List Str) :
    startsWith (joinWith (py "  ") (e :: line)) (py "QUATERNION_TYPE") = false := by
  cases line with
  | nil => simpa [joinWith] using he
  | cons x r =>
    by_contra hc
    have hc : py "QUATERNION_TYPE" <+: joinWith (py "  ") (e :: x :: r) := startsWith_iff.mp (by simpa using hc)
    have hj : joinWith (py "  ") (e :: x :: r) = e ++ (' ' :: ' ' :: joinWith (py "  ") (x :: r)) := by
      simp [joinWith, lit]
    rw [hj] at hc
    rcases Nat.lt_or_ge e.length 15 with hl | hl
    · obtain ⟨t, ht⟩ := hc
      have h1 : (py "QUATERNION_TYPE" ++ t)[e.length]? = some ' ' := by rw [ht]; simp
      have h15 : (py "QUATERNION_TYPE").length = 15 := by decide
      rw [List.getElem?_append_left (by omega)] at h1
      have : ∀ i < 15, (py "QUATERNION_TYPE")[i]? ≠ some ' ' := by decide
      exact this _ hl h1
    · have := List.prefix_of_prefix_length_le hc (List.prefix_append e _) (by simpa [lit] using hl)
      rw [startsWith_iff.mpr this] at he
      cases he

theorem fillSingle_quiet {e l : Str} {line : List Str} (he : startsWith e (py "QUATERNION_TYPE") = false)
    (h : fillSingle (e :: line) = .ok l) : startsWith l (py "QUATERNION_TYPE") = false := by
  unfold fillSingle at h
  obtain ⟨x, hx, h⟩ := bind_ok_iff.mp h
  cases h
  split
  · decide
  · exact joined_quiet he line

theorem stateElement_filter {ws : List (Str × Val)} {c : Cls} {avs : List (Str × Val)} (h : StateElement ws (.obj c avs)) :
    ∃ rest, (ws.map (·.2)).filter Val.truthy = .obj c avs :: rest := by
  obtain ⟨before, n, after, rfl, hb, -⟩ := h
  refine ⟨(after.map (·.2)).filter Val.truthy, ?_⟩
  rw [List.map_append, List.filter_append]
  have : (before.map (·.2)).filter Val.truthy = [] := by
    rw [List.filter_eq_nil_iff]
    intro x hx
    obtain ⟨p, hp, rfl⟩ := List.mem_map.mp hx
    rw [hb p hp]
    decide
  rw [this, List.nil_append, List.map_cons, List.filter_cons_of_pos rfl]

/-- The epochs of a state do not look like the order. -/
def PlainState (ws : List (Str × Val)) : Prop :=
  ∀ n c avs e, (n, .obj c avs) ∈ ws → Val.lookupVar (py "epoch") avs = some (.str e) → startsWith e (py "QUATERNION_TYPE") = false

theorem state_quiet {ws : List (Str × Val)} {out ls : List Str} (hq : Quiet out) (hp : PlainState ws) (h : writeAttitude ws out = .ok ls) :
    Quiet ls ∧ ∀ c avs, StateElement ws (.obj c avs) → ¬ c ∈ [Cls.QuaternionEphemerisType, .QuaternionEulerRateType] := by
  unfold writeAttitude at h
  split at h
  · cases h
  next att rest hfil =>
  obtain ⟨avs, ha, h⟩ := bind_ok_iff.mp h
  obtain ⟨c, rfl⟩ := vars_obj ha
  obtain ⟨rots, hrots, h⟩ := bind_ok_iff.mp h
  obtain ⟨line, hline, h⟩ := bind_ok_iff.mp h
  obtain ⟨ep, hep, h⟩ := bind_ok_iff.mp h
  constructor
  · split at h
    · next e =>
      obtain ⟨l, hl, h⟩ := bind_ok_iff.mp h
      cases h
      have hm : Val.obj c avs ∈ (ws.map (·.2)).filter Val.truthy := by rw [hfil]; simp
      obtain ⟨⟨n, x⟩, hx, e'⟩ := List.mem_map.mp (List.mem_filter.mp hm).1
      cases e'
      intro x hx'
      rw [List.mem_singleton] at hx'
      subst hx'
      exact fillSingle_quiet (hp n c avs e hx (dictGet_ok hep)) hl
    · cases h
  · intro c' avs' hel hmem
    obtain ⟨rest', hfil'⟩ := stateElement_filter hel
    rw [hfil] at hfil'
    cases hfil'
    have hqc : isQuaternionCls c = true := by
      have : ∀ c ∈ [Cls.QuaternionEphemerisType, .QuaternionEulerRateType], isQuaternionCls c = true := by decide
      exact this c hmem
    unfold attLine at hline
    dsimp only at hline
    rw [if_pos hqc] at hline
    unfold quaternionLine at hline
    rw [hq.quatLast] at hline
    cases hline

theorem states_quiet {key : Str} : ∀ {xs : List Val} {out o : List Str}, AllHaveType (.cls .AttitudeStateType) xs →
    (∀ ws, .obj .AttitudeStateType ws ∈ xs → PlainState ws) → Quiet out → collateItems key out xs = .ok o →
    Quiet o ∧ ∀ ws, .obj .AttitudeStateType ws ∈ xs → ∀ c avs, StateElement ws (.obj c avs) →
      ¬ c ∈ [Cls.QuaternionEphemerisType, .QuaternionEulerRateType]
  | [], out, o, _, _, hq, h => by
    simp only [collateItems] at h
    cases h
    exact ⟨hq, fun _ h => by cases h⟩
  | x :: xs, out, o, .cons hx hr, hp, hq, h => by
    obtain ⟨us, rfl, -⟩ := typed_obj (c := .AttitudeStateType) rfl rfl hx
    simp only [collateItems] at h
    obtain ⟨o1, h1, h2⟩ := bind_ok_iff.mp h
    rw [collateObj, if_pos (show isSpecialOut .AttitudeStateType = true from rfl)] at h1
    obtain ⟨ls, hls, h1⟩ := bind_ok_iff.mp h1
    cases h1
    obtain ⟨q1, q2⟩ := state_quiet hq (hp us (by simp)) hls
    obtain ⟨q3, q4⟩ := states_quiet hr (fun ws hw => hp ws (by simp [hw])) (hq.append q1) h2
    refine ⟨q3, fun ws hw => ?_⟩
    rcases List.mem_cons.mp hw with e | hw
    · cases e
      exact q2
    · exact q4 ws hw

theorem within_from {S : List Cls} (hS : (S.all fun c => c.attrs.all fun f => match f.ty with
      | .cls e => e.members.isSome || S.contains e
      | _ => true) = true) {c d : Cls} (hc : c ∈ S) (hm : c.members = none) {vs ws : List (Str × Val)} (hf : HasFields c.attrs vs)
    (hw : Within (.obj d ws) (.obj c vs)) : d ∈ S :=
  (within_class (S := S) (by
    intro c' hc' f hf e he hm
    have := List.all_eq_true.mp (List.all_eq_true.mp hS c' hc') f hf
    rw [he] at this
    simpa [hm] using this) hw).1 (.cls c) (by
      intro c' hc' _
      cases hc'
      exact hc) (.obj hm hf)

/-- The classes inside the segments of an attitude ephemeris. -/
def segmentParts : List Cls := .AemSegment :: .AemData :: .AttitudeStateType :: (leafClasses ++ attitudeParts)

theorem segmentParts_closed : (segmentParts.all fun c => c.attrs.all fun f => match f.ty with
    | .cls e => e.members.isSome || segmentParts.contains e
    | _ => true) = true := by decide +kernel

theorem nodup_fst {vs : List (Str × Val)} {n : Str} {x y : Val} (h : (vs.map (·.1)).Nodup) (hx : (n, x) ∈ vs) (hy : (n, y) ∈ vs) : x = y := by
  induction vs with
  | nil => cases hx
  | cons p vs ih =>
    simp only [List.map_cons, List.nodup_cons] at h
    rcases List.mem_cons.mp hx with e | hx' <;> rcases List.mem_cons.mp hy with e' | hy'
    · rw [← e] at e'
      cases e'
      rfl
    · exact absurd (List.mem_map.mpr ⟨_, hy', by rw [← e]⟩) h.1
    · exact absurd (List.mem_map.mpr ⟨_, hx', by rw [← e']⟩) h.1
    · exact ih h.2 hx' hy'

theorem list_quiet {key : Str} {xs : List Val} {out o : List Str} (hk : key ≠ py "comment" ∧ key ≠ py "user_defined")
    (hm : ∀ x s, x ∈ xs → headerOf x ≠ some s) (hw : collateSub key out (.list xs) = .ok o) : collateItems key out xs = .ok o := by
  cases xs with
  | nil =>
    rw [collateSub, if_neg hk.1, if_neg hk.2] at hw
    simpa only [collateItems] using hw
  | cons y ys =>
    rw [collateSub, if_neg hk.1, if_neg hk.2] at hw
    have : headerOf y = none := by
      cases hh : headerOf y with
      | none => rfl
      | some s => exact absurd hh (hm y s (by simp))
    rw [this] at hw
    simpa only [collateItems, withHeader] using hw

/-- Attitude states in `v` have plain epochs. -/
def PlainIn (v : Val) : Prop := ∀ ws, Within (.obj .AttitudeStateType ws) v → PlainState ws

/-- A segment that states no order has no quaternions, if none was stated before. -/
theorem segment_quiet {key : Str} {us : List (Str × Val)} {out o : List Str} (hf : HasFields (Cls.attrs .AemSegment) us)
    (hp : PlainIn (.obj .AemSegment us)) (hs : ¬ StatesOrder us) (hq : Quiet out) (h : collateObj key out (.obj .AemSegment us) = .ok o) :
    Quiet o ∧ ¬ HasQuaternions us := by
  obtain ⟨m, r, rfl, hm', h'⟩ := hasFields_one hf
  obtain ⟨d, r, rfl, hd', h'⟩ := hasFields_one h'
  cases hasFields_nil h'
  simp only [collateObj, show isSpecialOut .AemSegment = false from rfl, Bool.false_eq_true, if_false] at h
  obtain ⟨o4, h, h4⟩ := bind_ok_iff.mp h
  simp only [collateVars] at h
  obtain ⟨o1, h1, h⟩ := bind_ok_iff.mp h
  obtain ⟨o2, h2, h⟩ := bind_ok_iff.mp h
  have h := Except.ok.inj h
  subst o4
  cases h4
  have q1 : Quiet o1 := by
    refine leaf_quiet (c := .AemMetadata) (by decide) rfl rfl hm' ?_ hq h1
    rintro ms rfl q hmem
    by_contra hne
    obtain ⟨-, hms⟩ := fieldOk_obj rfl hm'
    have hin : ∃ f ∈ Cls.attrs .AemMetadata, f.name = py "quaternion_type" := by decide
    obtain ⟨f, hf', hfn⟩ := hin
    obtain ⟨-, -, -, v, hv, -⟩ := hasFields_get hms hf'
    rw [hfn] at hv
    have huniq : v = q := by
      have := lookup_mem hv
      have hnd : (ms.map (·.1)).Nodup := by
        rw [hasFields_names hms]
        decide
      exact nodup_fst hnd this hmem
    exact hs ⟨ms, v, rfl, hv, huniq ▸ hne⟩
  have key2 : Quiet o2 ∧ ∀ ws c avs, Within (.obj .AttitudeStateType ws) d → StateElement ws (.obj c avs) →
      ¬ c ∈ [Cls.QuaternionEphemerisType, .QuaternionEulerRateType] := by
    rcases fieldOk_single (c := .AemData) rfl rfl rfl hd' with rfl | ⟨ds, rfl, hds⟩
    · simp only [collateSub] at h2
      split at h2
      · cases h2
      · cases h2
        exact ⟨q1, fun ws c avs hw => by cases hw⟩
    · have hany : ds.any (·.1 == py "units") = false := by rw [hasFields_units hds]; decide
      obtain ⟨co, r, rfl, hco, h'⟩ := hasFields_one hds
      obtain ⟨st, r, rfl, hst, h'⟩ := hasFields_one h'
      cases hasFields_nil h'
      obtain ⟨xs, rfl, hxs⟩ := fieldOk_listed rfl hst
      obtain ⟨cs, rfl, hcs⟩ := fieldOk_listed rfl hco
      have hin : ∀ ws, .obj .AttitudeStateType ws ∈ xs → Within (.obj .AttitudeStateType ws)
          (.obj .AemSegment [(py "metadata", m), (py "data", .obj .AemData [(py "comment", .list cs), (py "attitude_state", .list xs)])]) :=
        fun ws hw => .field (n := py "data") (List.mem_cons_of_mem _ List.mem_cons_self)
          (.field (n := py "attitude_state") (List.mem_cons_of_mem _ List.mem_cons_self) (.item hw .self))
      have hbody : ∀ a b, Quiet a → collateVars a [(py "comment", .list cs), (py "attitude_state", .list xs)] = .ok b →
          Quiet b ∧ ∀ ws, .obj .AttitudeStateType ws ∈ xs → ∀ c avs, StateElement ws (.obj c avs) →
            ¬ c ∈ [Cls.QuaternionEphemerisType, .QuaternionEulerRateType] := by
        intro a b ha hb
        simp only [collateVars] at hb
        rw [collateSub_comment] at hb
        obtain ⟨b1, hb1, hb⟩ := bind_ok_iff.mp hb
        cases hb1
        obtain ⟨b2, hb2, hb⟩ := bind_ok_iff.mp hb
        cases hb
        refine states_quiet hxs (fun ws hw => hp ws (hin ws hw)) (ha.append (comments_quiet _)) (list_quiet (by decide) ?_ hb2)
        intro x s hx
        obtain ⟨us, rfl, -⟩ := typed_obj (c := .AttitudeStateType) rfl rfl (allHaveType_mem hxs hx)
        nofun
      refine ⟨sub_quiet rfl hany (fun a b ha hb => (hbody a b ha hb).1) q1 h2, ?_⟩
      intro ws c avs hw hel
      have hmem : .obj .AttitudeStateType ws ∈ xs := by
        obtain ⟨n, x, hm, hw⟩ := within_fields (by decide) hw
        simp only [List.mem_cons, Prod.mk.injEq, List.not_mem_nil, or_false] at hm
        rcases hm with ⟨-, rfl⟩ | ⟨-, rfl⟩
        · exact absurd hw (texts_no_obj hcs)
        · obtain ⟨y, hy, hw⟩ := within_items hw
          obtain ⟨us, rfl, hus⟩ := typed_obj (c := .AttitudeStateType) rfl rfl (allHaveType_mem hxs hy)
          rw [no_inner_attitude hus hw]
          exact hy
      have hk1 : py "data" ≠ py "comment" := by decide
      have hk2 : py "data" ≠ py "user_defined" := by decide
      simp only [collateSub, show isSpecialOut .AemData = false from rfl, hany, hk1, hk2, Bool.false_eq_true, if_false] at h2
      unfold withHeader at h2
      split at h2
      · next s hh =>
        obtain ⟨b, hb, -⟩ := map_ok_iff.mp h2
        obtain ⟨b', hb', -⟩ := bind_ok_iff.mp hb
        exact (hbody _ _ (q1.append (markers_quiet hh).1) hb').2 ws hmem c avs hel
      · next hh => cases hh
  refine ⟨blank_quiet key2.1, ?_⟩
  rintro ⟨ws, c, avs, hw, hel, hc⟩
  obtain ⟨n, x, hm, hw'⟩ := within_fields (by decide) hw
  simp only [List.mem_cons, Prod.mk.injEq, List.not_mem_nil, or_false] at hm
  rcases hm with ⟨-, rfl⟩ | ⟨-, rfl⟩
  · exact leaf_no_attitude (c := .AemMetadata) (by decide) rfl rfl hm' ws hw'
  · exact key2.2 ws c avs hw' hel hc

theorem segments_typed {key : Str} : ∀ {xs : List Val} {out o : List Str}, AllHaveType (.cls .AemSegment) xs → (∀ x ∈ xs, PlainIn x) →
    Quiet out → collateItems key out xs = .ok o → ∀ before us after, xs = before ++ .obj .AemSegment us :: after →
    HasQuaternions us → ∃ us', .obj .AemSegment us' ∈ before ++ [.obj .AemSegment us] ∧ StatesOrder us'
  | [], _, _, _, _, _, _, before, us, after, e, _ => by simp at e
  | x :: xs, out, o, .cons hx hr, hp, hq, h, before, us, after, e, hquat => by
    obtain ⟨vs, rfl, hvs⟩ := typed_obj (c := .AemSegment) rfl rfl hx
    simp only [collateItems] at h
    obtain ⟨o1, h1, h2⟩ := bind_ok_iff.mp h
    by_cases hs : StatesOrder vs
    · refine ⟨vs, ?_, hs⟩
      cases before with
      | nil => cases e; simp
      | cons y b => cases e; simp
    · obtain ⟨q1, q2⟩ := segment_quiet hvs (hp _ (by simp)) hs hq h1
      cases before with
      | nil => cases e; exact absurd hquat q2
      | cons y b =>
        simp only [List.cons_append, List.cons.injEq] at e
        obtain ⟨rfl, e⟩ := e
        obtain ⟨us', hm, h3⟩ := segments_typed hr (fun x hx => hp x (by simp [hx])) q1 h2 b us after e hquat
        exact ⟨us', by simp only [List.cons_append, List.mem_cons]; exact .inr hm, h3⟩

/-- In an ephemeris that was written, quaternions have their order stated by their segment or one before. -/
theorem aem_typed {vs : List (Str × Val)} (hty : HasType (.cls .Aem) (.obj .Aem vs)) (hpe : PlainEpochs (.obj .Aem vs)) {text : Str}
    (h : kvnToString (.obj .Aem vs) = .ok text) : TypedQuaternions (.obj .Aem vs) := by
  have hp : PlainIn (.obj .Aem vs) := by
    intro ws hw n c avs e hm he
    have := hpe ws hw n c avs e hm he
    by_contra hc
    exact this (startsWith_iff.mp (by simpa using hc))
  have hf := hasType_obj hty
  obtain ⟨hd, r, rfl, hh, h'⟩ := hasFields_one hf
  obtain ⟨b, r, rfl, hb, h'⟩ := hasFields_one h'
  cases hasFields_nil h'
  have hl : kvnLines (.obj .Aem [(py "header", hd), (py "body", b)]) = collateObj [] [fillKvn (py "CCSDS_AEM_VERS") (py "1.0") none]
      (.obj .Aem [(py "header", hd), (py "body", b)]) := rfl
  obtain ⟨o, h1, -⟩ := bind_ok_iff.mp h
  have h1 : kvnLines (.obj .Aem [(py "header", hd), (py "body", b)]) = .ok o := h1
  rw [hl] at h1
  simp only [collateObj, show isSpecialOut .Aem = false from rfl, Bool.false_eq_true, if_false] at h1
  obtain ⟨o4, h1, -⟩ := bind_ok_iff.mp h1
  simp only [collateVars] at h1
  obtain ⟨o1, h2, h1⟩ := bind_ok_iff.mp h1
  obtain ⟨o2, h3, -⟩ := bind_ok_iff.mp h1
  have q0 : Quiet [fillKvn (py "CCSDS_AEM_VERS") (py "1.0") none] := by unfold Quiet; decide
  have q1 : Quiet o1 := by
    refine leaf_quiet (c := .NdmHeader) (by decide) rfl rfl hh ?_ q0 h2
    rintro hs rfl q hmem
    obtain ⟨-, hhs⟩ := fieldOk_obj rfl hh
    obtain ⟨f, hf', hfn, -⟩ := hasFields_at hhs hmem
    have : ∀ f ∈ Cls.attrs .NdmHeader, f.name ≠ py "quaternion_type" := by decide
    exact absurd hfn (this f hf')
  intro ss hw before us after e hquat
  obtain ⟨n, x, hm, hw'⟩ := within_fields (by decide) hw
  simp only [List.mem_cons, Prod.mk.injEq, List.not_mem_nil, or_false] at hm
  rcases hm with ⟨-, rfl⟩ | ⟨-, rfl⟩
  · exfalso
    rcases fieldOk_single (c := .NdmHeader) rfl rfl rfl hh with rfl | ⟨vs, rfl, hvs⟩
    · cases hw'
    · exact absurd (within_from (S := leafClasses) (by decide +kernel) (c := .NdmHeader) (by decide) rfl hvs hw') (by decide)
  · rcases fieldOk_single (c := .AemBody) rfl rfl rfl hb with rfl | ⟨bs, rfl, hbs⟩
    · cases hw'
    have hany : bs.any (·.1 == py "units") = false := by rw [hasFields_units hbs]; decide
    obtain ⟨sg, r, rfl, hsg, h'⟩ := hasFields_one hbs
    cases hasFields_nil h'
    obtain ⟨xs, rfl, hxs⟩ := fieldOk_listed rfl hsg
    have hpx : ∀ x ∈ xs, PlainIn x := fun x hx ws hw =>
      hp ws (.field (n := py "body") (List.mem_cons_of_mem _ List.mem_cons_self) (.field (n := py "segment") List.mem_cons_self (.item hx hw)))
    have hss : ss = xs := by
      cases hw' with
      | self => rfl
      | field hm hw =>
        simp only [List.mem_singleton, Prod.mk.injEq] at hm
        obtain ⟨-, rfl⟩ := hm
        obtain ⟨y, hy, hw⟩ := within_items hw
        obtain ⟨vs, rfl, hvs⟩ := typed_obj (c := .AemSegment) rfl rfl (allHaveType_mem hxs hy)
        exact absurd (within_from (S := segmentParts) segmentParts_closed (c := .AemSegment) (by decide) rfl hvs hw) (by decide)
    subst hss
    have hk1 : py "body" ≠ py "comment" := by decide
    have hk2 : py "body" ≠ py "user_defined" := by decide
    simp only [collateSub, show isSpecialOut .AemBody = false from rfl, hany, hk1, hk2, show headerName .AemBody = none from rfl, withHeader,
      Bool.false_eq_true, if_false] at h3
    obtain ⟨o5, h5, -⟩ := bind_ok_iff.mp h3
    simp only [collateVars] at h5
    obtain ⟨o6, h6, -⟩ := bind_ok_iff.mp h5
    refine segments_typed hxs hpx q1 (list_quiet (by decide) ?_ h6) before us after e hquat
    intro x s hx
    obtain ⟨us, rfl, -⟩ := typed_obj (c := .AemSegment) rfl rfl (allHaveType_mem hxs hx)
    nofun

end Ndm
