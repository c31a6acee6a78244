import Verif.Lemmas.Update
import Verif.Props.RoundTrip

/-! # C35 (user-defined parameters) and C43 (repeated blocks): what holds

`Val.setAt` (`SpecUpdate.lean`) is the object with one part replaced. -/

namespace Ndm

theorem user_path : ([Cls.Opm, .Omm, .Rdm].all fun c => match pathB c [py "body", py "segment", py "data"] with
    | some d => !d.ownNotation && d.blockAttrs.any fun f => f.name == py "user_defined_parameters" && !f.isList && decide (f.ty = .cls .UserDefinedType)
    | none => false) = true := by decide +kernel

/-- **C35**, what holds: put any list of user-defined parameters with distinct names into a well-formed OPM, OMM or RDM.
The message is written, and what is written is read back as the same message, with the same names and values in the same
order.  The list is not empty, names are in upper case, not blank at either end and free of "=", line breaks and the
prefix itself, values are absent or texts not mistaken for a value with a unit (`UserParam`).

Missing: other names and values, comments and repeated names, for which it is false (`C35_refuted` and following). -/
theorem C35_partial (c : Cls) (hc : c ∈ [Cls.Opm, .Omm, .Rdm]) (o : Val) (h : WellFormed c o) (ps : List (Str × Str))
    (hne : ps ≠ []) (hps : ∀ p ∈ ps, UserParam p.1 p.2) (hnd : (ps.map (·.1)).Nodup) :
    ∃ o' text, o' = Val.setAt (userBlock ps) [py "body", py "segment", py "data", py "user_defined_parameters"] o ∧
      o'.at [.f (py "body"), .f (py "segment"), .f (py "data"), .f (py "user_defined_parameters")] = some (userBlock ps) ∧
      kvnToString o' = .ok text ∧ kvnFromString text = .ok o' := by
  have hp := List.all_eq_true.mp user_path c hc
  obtain ⟨ls, hg⟩ := h
  cases hpath : pathB c [py "body", py "segment", py "data"] with
  | none => rw [hpath] at hp; cases hp
  | some d =>
    rw [hpath] at hp
    simp only [Bool.and_eq_true, Bool.not_eq_true', List.any_eq_true, beq_iff_eq, decide_eq_true_eq] at hp
    obtain ⟨hown, f, hf, ⟨hn, hl⟩, hty⟩ := hp
    obtain ⟨hgood, hat⟩ := good_setAt (x := userBlock ps) (q := [py "user_defined_parameters"]) _ c o ls hg hpath (by
      intro w lw hw _
      obtain ⟨fsA, fsB, vs, vA, u, lA, lf, -, rfl, hlk, -, -, -, hset⟩ := good_set (x := userBlock ps) (p := [])
        (k := py "user_defined_parameters") (fun vs own h => goodKeys_names h) (class_nodup d) hown
        (fun v ls h => by rw [ownNotation_of h] at hown; cases hown) hw hf hn
      refine ⟨hset (ps.map fun p => [py "USER_DEFINED_" ++ p.1, p.2]) ?_ (fun _ => Or.inr ?_), ?_⟩
      · have := GoodBlocksOf.one hl hty (.special (.user (.mk hne hps hnd))) (.nil (K := Written) (A := OwnNotation))
        rw [List.append_nil] at this
        exact this
      · cases ps with
        | nil => exact absurd rfl hne
        | cons p ps =>
          refine ⟨_, rfl, ?_⟩
          intro he
          have := congrArg List.head? he
          simp [Line.key, lit] at this
      · simp [Val.at, hlk])
    have hrt : ∀ o', WellFormed c o' → ∃ text, kvnToString o' = .ok text ∧ kvnFromString text = .ok o' := by
      simp only [List.mem_cons, List.not_mem_nil, or_false] at hc
      rcases hc with rfl | rfl | rfl
      · exact C21_opm
      · exact C22_omm
      · exact C23_rdm
    obtain ⟨text, h1, h2⟩ := hrt _ hgood
    exact ⟨_, text, rfl, at_setAt _ _ hat, h1, h2⟩

def someParams : List (Str × Str) := [(py "EARTH_MODEL", py "WGS-84"), (py "NOTE 1", py "a = b"), (py "UNKNOWN", [])]

example : Cls.Opm ∈ [Cls.Opm, .Omm, .Rdm] ∧ WellFormed .Opm richOpm ∧ someParams ≠ [] ∧
    (∀ p ∈ someParams, UserParam p.1 p.2) ∧ (someParams.map (·.1)).Nodup :=
  ⟨by simp, wellFormed_of_b (by decide +kernel), by decide, by
    intro p hp
    simp only [someParams, List.mem_cons, List.not_mem_nil, or_false] at hp
    rcases hp with rfl | rfl | rfl <;> exact param_of_b (by decide +kernel), by decide +kernel⟩

/-! ## C43 -/

/-- **C43** for the maneuvers of an OPM, what holds: put any list of well-formed maneuvers, each with any subset of the
optional keywords of the earlier ones, into a well-formed OPM with a state vector.  The message is written, and what is
written is read back as the same message, with the same list of maneuvers.

Missing: lists in which a maneuver has a keyword that an earlier one lacks, for which it is false (`C43_refuted`). -/
theorem C43_maneuvers_partial (o : Val) (h : WellFormed .Opm o)
    (hsv : ∃ c vs, o.at [.f (py "body"), .f (py "segment"), .f (py "data"), .f (py "state_vector")] = some (.obj c vs)) (xs : List Val) (hne : xs ≠ [])
    (hx : ∀ x ∈ xs, WellFormed .ManeuverParametersType x) (hk : xs.Pairwise (Covers .ManeuverParametersType)) :
    ∃ o' text, o' = Val.setAt (.list xs) [py "body", py "segment", py "data", py "maneuver_parameters"] o ∧
      o'.at [.f (py "body"), .f (py "segment"), .f (py "data"), .f (py "maneuver_parameters")] = some (.list xs) ∧
      kvnToString o' = .ok text ∧ kvnFromString text = .ok o' := by
  obtain ⟨hw, hat⟩ := list_setAt (p := [py "body", py "segment", py "data"]) (k := py "maneuver_parameters") (c := .Opm) (e := .OpmData)
    (d := .ManeuverParametersType) (v := o) (xs := xs) (f := ⟨py "maneuver_parameters", some (py "maneuverParameters"), .elem, .cls .ManeuverParametersType, true, true⟩)
    (by decide +kernel) rfl (by decide +kernel) rfl rfl rfl (fun x ls h => leaf_lines h (by decide +kernel) rfl) hx hne hk h (by
      intro _ fsA fsB vs vA lA hfs hv hlk ha
      have hsvA : (⟨py "state_vector", some (py "stateVector"), .elem, .cls .StateVectorType, false, true⟩ : Field) ∈ fsA := by
        cases fsA with
        | nil =>
          have e : (Cls.OpmData.blockAttrs.head?.map (·.name)) = some (py "maneuver_parameters") := by rw [hfs]; rfl
          exact absurd e (by decide +kernel)
        | cons g fsA =>
          have : g = _ := (Option.some.inj (congrArg List.head? hfs)).symm
          rw [this]
          exact List.mem_cons_self
      refine block_lines (g := ⟨py "state_vector", some (py "stateVector"), .elem, .cls .StateVectorType, false, true⟩) rfl rfl
        (fun x ls h => leaf_lines h (by decide +kernel) rfl) ha hsvA (Or.inr ?_)
      intro v hm hnone
      have hnd : (fsA.map (·.name)).Nodup := by
        have := class_nodup .OpmData
        rw [List.map_append, hfs, List.map_append, List.nodup_append, List.nodup_append] at this
        exact this.2.1.1
      have hl := hlk _ hsvA
      have hat := at_append (p := [py "body", py "segment", py "data"].map Step.f) (q := [.f (py "state_vector")]) hv
      obtain ⟨c, ws, hsv⟩ := hsv
      rw [show [py "body", py "segment", py "data"].map Step.f ++ [Step.f (py "state_vector")] = [.f (py "body"), .f (py "segment"), .f (py "data"), .f (py "state_vector")] from rfl, hsv] at hat
      rw [lookupVar_of_mem (by rw [goodBlocks_names ha]; exact hnd) hm] at hl
      simp only [Val.at, hl, hnone] at hat
      cases hat)
  obtain ⟨text, h1, h2⟩ := C21_opm _ hw
  exact ⟨_, text, rfl, hat, h1, h2⟩

/-- **C43** for the maneuvers of an APM, what holds: as for an OPM, with the quaternion in place of the state vector. -/
theorem C43_attitude_maneuvers_partial (o : Val) (h : WellFormed .Apm o)
    (hq : ∃ c vs, o.at [.f (py "body"), .f (py "segment"), .f (py "data"), .f (py "quaternion_state"), .f (py "quaternion")] = some (.obj c vs)) (xs : List Val) (hne : xs ≠ [])
    (hx : ∀ x ∈ xs, WellFormed .AttManeuverParametersType x) (hk : xs.Pairwise (Covers .AttManeuverParametersType)) :
    ∃ o' text, o' = Val.setAt (.list xs) [py "body", py "segment", py "data", py "maneuver_parameters"] o ∧
      o'.at [.f (py "body"), .f (py "segment"), .f (py "data"), .f (py "maneuver_parameters")] = some (.list xs) ∧
      kvnToString o' = .ok text ∧ kvnFromString text = .ok o' := by
  obtain ⟨hw, hat⟩ := list_setAt (p := [py "body", py "segment", py "data"]) (k := py "maneuver_parameters") (c := .Apm) (e := .ApmData)
    (d := .AttManeuverParametersType) (v := o) (xs := xs) (f := ⟨py "maneuver_parameters", some (py "maneuverParameters"), .elem, .cls .AttManeuverParametersType, true, true⟩)
    (by decide +kernel) rfl (by decide +kernel) rfl rfl rfl (fun x ls h => leaf_lines h (by decide +kernel) rfl) hx hne hk h (by
      intro _ fsA fsB vs vA lA hfs hv hlk ha
      cases fsA with
      | nil =>
        have e : (Cls.ApmData.blockAttrs.head?.map (·.name)) = some (py "maneuver_parameters") := by rw [hfs]; rfl
        exact absurd e (by decide +kernel)
      | cons g fsA =>
        have hgq : g = ⟨py "quaternion_state", some (py "quaternionState"), .elem, .cls .QuaternionStateType, false, true⟩ :=
          (Option.some.inj (congrArg List.head? hfs)).symm
        subst hgq
        have hlq := hlk _ List.mem_cons_self
        have hat := at_append (p := [py "body", py "segment", py "data"].map Step.f) (q := [.f (py "quaternion_state"), .f (py "quaternion")]) hv
        obtain ⟨c, ws, hq⟩ := hq
        rw [show [py "body", py "segment", py "data"].map Step.f ++ [Step.f (py "quaternion_state"), .f (py "quaternion")] =
          [.f (py "body"), .f (py "segment"), .f (py "data"), .f (py "quaternion_state"), .f (py "quaternion")] from rfl, hq] at hat
        cases ha with
        | absent _ h2 h3 _ => cases h2; exact absurd h3 (by decide +kernel)
        | @one _ _ _ w _ l _ _ h2 hw hr =>
          cases h2
          have hlw : Val.lookupVar (py "quaternion_state") vs = some w :=
            hlq.trans (by unfold Val.lookupVar; rw [List.find?_cons]; simp)
          simp only [Val.at, hlw] at hat
          have := given_lines (c := .QuaternionStateType) (d := .QuaternionType) (k := py "quaternion")
            (g := ⟨py "quaternion", none, .elem, .cls .QuaternionType, false, true⟩) rfl (by decide +kernel) rfl rfl rfl
            (fun x ls h => leaf_lines h (by decide +kernel) rfl) hw ⟨c, ws, hat.symm⟩
          simp [this]
        | many h1 => cases h1)
  obtain ⟨text, h1, h2⟩ := C28_partial _ hw
  exact ⟨_, text, rfl, hat, h1, h2⟩

/-- **C43** for the segments of a CDM, what holds: put any list of well-formed segments, each with any subset of the
keywords of the earlier ones, into a well-formed CDM.  The message is written, and what is written is read back as the
same message, with the same list of segments. -/
theorem C43_segments_partial (o : Val) (h : WellFormed .Cdm o) (xs : List Val) (hne : xs ≠ [])
    (hx : ∀ x ∈ xs, WellFormed .CdmSegment x) (hk : xs.Pairwise (Covers .CdmSegment)) :
    ∃ o' text, o' = Val.setAt (.list xs) [py "body", py "segment"] o ∧ o'.at [.f (py "body"), .f (py "segment")] = some (.list xs) ∧
      kvnToString o' = .ok text ∧ kvnFromString text = .ok o' := by
  obtain ⟨hw, hat⟩ := list_setAt (p := [py "body"]) (k := py "segment") (c := .Cdm) (e := .CdmBody)
    (d := .CdmSegment) (v := o) (xs := xs) (f := ⟨py "segment", none, .elem, .cls .CdmSegment, true, true⟩)
    (by decide +kernel) rfl (by decide +kernel) rfl rfl rfl cdmSegment_lines hx hne hk h
    (fun hco => absurd hco (by decide +kernel))
  obtain ⟨text, h1, h2⟩ := C27_partial _ hw
  exact ⟨_, text, rfl, hat, h1, h2⟩

/-! The hypotheses are met by lists in which the later blocks have fewer keywords. -/

theorem obj_of_b {x : Option Val} (h : (x.any fun v => match v with | .obj _ _ => true | _ => false) = true) :
    ∃ c vs, x = some (.obj c vs) := by
  match x, h with
  | some (.obj c vs), _ => exact ⟨c, vs, rfl⟩

def someManeuver (more : List (Str × Val)) : Val :=
  mkObj .ManeuverParametersType ([(py "man_epoch_ignition", S (py "2000-01-01T10:00:00")), (py "man_dv_1", mkVal .VelocityType 4 .none)] ++ more)

def someManeuvers : List Val :=
  [someManeuver [(py "comment", .list [S (py "first")]), (py "man_ref_frame", S (py "RTN")), (py "man_delta_mass", mkVal .DeltamassType 3 (.enum .MassUnits (py "kg")))],
   someManeuver [(py "man_ref_frame", S (py "TNW"))], someManeuver [(py "comment", .list [S (py "a"), S (py "b")])]]

example : WellFormed .Opm richOpm ∧
    (∃ c vs, richOpm.at [.f (py "body"), .f (py "segment"), .f (py "data"), .f (py "state_vector")] = some (.obj c vs)) ∧ someManeuvers ≠ [] ∧
    (∀ x ∈ someManeuvers, WellFormed .ManeuverParametersType x) ∧ someManeuvers.Pairwise (Covers .ManeuverParametersType) := by
  refine ⟨wellFormed_of_b (by decide +kernel), ?_, by decide, ?_, ?_⟩
  · exact obj_of_b (by decide +kernel)
  · intro x hx
    simp only [someManeuvers, List.mem_cons, List.not_mem_nil, or_false] at hx
    rcases hx with rfl | rfl | rfl <;> exact wellFormed_of_b (by decide +kernel)
  · refine List.Pairwise.imp (R := fun x y => coversB .ManeuverParametersType x y = true) covers_of_b ?_
    decide +kernel

def someAttManeuvers : List Val :=
  [mkObj .AttManeuverParametersType [(py "man_epoch_start", S (py "2000-01-01")), (py "man_duration", mkVal .DurationType 3 (.enum .TimeUnits (py "s")))],
   mkObj .AttManeuverParametersType [(py "man_epoch_start", S (py "2000-01-02"))]]

example : WellFormed .Apm richApm ∧
    (∃ c vs, richApm.at [.f (py "body"), .f (py "segment"), .f (py "data"), .f (py "quaternion_state"), .f (py "quaternion")] = some (.obj c vs)) ∧ someAttManeuvers ≠ [] ∧ (∀ x ∈ someAttManeuvers, WellFormed .AttManeuverParametersType x) ∧
    someAttManeuvers.Pairwise (Covers .AttManeuverParametersType) := by
  refine ⟨wellFormed_of_b (by decide +kernel), obj_of_b (by decide +kernel), by decide, ?_, ?_⟩
  · intro x hx
    simp only [someAttManeuvers, List.mem_cons, List.not_mem_nil, or_false] at hx
    rcases hx with rfl | rfl <;> exact wellFormed_of_b (by decide +kernel)
  · refine List.Pairwise.imp (R := fun x y => coversB .AttManeuverParametersType x y = true) covers_of_b ?_
    decide +kernel

def someSegments : List Val := [cdmSegment [(py "gravity_model", S (py "EGM-96")), (py "comment", .list [S (py "x")])], cdmSegment [], cdmSegment []]

example : WellFormed .Cdm richCdm ∧ someSegments ≠ [] ∧ (∀ x ∈ someSegments, WellFormed .CdmSegment x) ∧
    someSegments.Pairwise (Covers .CdmSegment) := by
  refine ⟨wellFormed_of_b (by decide +kernel), by decide, ?_, ?_⟩
  · intro x hx
    simp only [someSegments, List.mem_cons, List.not_mem_nil, or_false] at hx
    rcases hx with rfl | rfl | rfl <;> exact wellFormed_of_b (by decide +kernel)
  · refine List.Pairwise.imp (R := fun x y => coversB .CdmSegment x y = true) covers_of_b ?_
    decide +kernel

end Ndm
