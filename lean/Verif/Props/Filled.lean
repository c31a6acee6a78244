import Verif.Lemmas.Fill
import Verif.Props.RoundTrip

/-! # C28 for APMs without Euler elements, or with Euler elements without rates

`fillApm` (`SpecFill.lean`) replaces absent Euler elements by ones with nothing in them, and absent angles or rates by ones
without rotations. -/

namespace Ndm

/-- **C28** for an APM that may lack Euler elements, or angles or rates in them: it is written, and what is written is
read back as the same APM, except that what is absent there is an object with nothing in it (`C28_refuted`). -/
theorem C28_filled_partial (o : Val) (h : WellFormed .Apm (fillApm o)) :
    ∃ text, kvnToString o = .ok text ∧ kvnFromString text = .ok (fillApm o) := by
  obtain ⟨ls, hg⟩ := h
  obtain ⟨vs, rfl, hw⟩ := write_fillApm hg
  have hk : (Cls.Apm, py "CCSDS_APM_VERS", py "1.0") ∈ messageKinds := by decide
  obtain ⟨text, ht, hl⟩ := write_root (rootCls hk) hw
  exact ⟨text, ht, read_message hk apm_ok (hg.mono (fun _ _ _ h => h.spelled) fun _ _ _ h => h.text) (rootCls hk).xver hl⟩

/-- An APM in which something is to be filled in is never read back as the same APM. -/
theorem C28_never (o : Val) (h : WellFormed .Apm (fillApm o)) (hne : fillApm o ≠ o) :
    ∃ text, kvnToString o = .ok text ∧ kvnFromString text ≠ .ok o := by
  obtain ⟨text, h1, h2⟩ := C28_filled_partial o h
  refine ⟨text, h1, fun h3 => hne ?_⟩
  rw [h2] at h3
  exact Except.ok.inj h3

/-- Writing once more changes nothing: the text of the APM read back is read as that APM. -/
theorem C28_settles (o : Val) (h : WellFormed .Apm (fillApm o)) :
    ∃ text o' text', kvnToString o = .ok text ∧ kvnFromString text = .ok o' ∧ kvnToString o' = .ok text' ∧
      kvnFromString text' = .ok o' := by
  obtain ⟨text, h1, h2⟩ := C28_filled_partial o h
  obtain ⟨text', h3, h4⟩ := C28_partial _ h
  exact ⟨text, _, text', h1, h2, h3, h4⟩

/-- An APM with Euler angles but no rates. -/
def anglesApm : Val :=
  let ang (axis : Str) (i : Int) := mkRotation .RotationAngleComponentType (py "angle") .AngleKeywordType axis i (.enum .AngleUnits (py "deg"))
  mkApm [(py "euler_elements_three", mkObj .EulerElementsThreeType [(py "euler_frame_a", S (py "SC")), (py "euler_rot_seq", .enum .RotseqType (py "123")),
    (py "rotation_angles", mkObj .RotationAngleType [(py "rotation1", ang (py "X_ANGLE") 1), (py "rotation2", ang (py "Y_ANGLE") (-2)),
      (py "rotation3", ang (py "Z_ANGLE") 3)])]),
    (py "spacecraft_parameters", mkObj .AttSpacecraftParametersType [(py "i11", mkVal .MomentType 5 .none)])]

example : WellFormed .Apm (fillApm (mkApm [])) ∧ fillApm (mkApm []) ≠ mkApm [] :=
  ⟨wellFormed_of_b (by decide +kernel), by decide +kernel⟩

example : WellFormed .Apm (fillApm anglesApm) ∧ fillApm anglesApm ≠ anglesApm ∧ anglesApm.at eulerPath ≠ some .none :=
  ⟨wellFormed_of_b (by decide +kernel), by decide +kernel, by decide +kernel⟩

/-- One rotation by one degree. -/
def oneRotation : Val := mkRotation .RotationAngleComponentType (py "angle") .AngleKeywordType (py "X_ANGLE") 1 .none

/-- An APM with one angle, the second and the third absent. -/
def oneAngleApm : Val :=
  mkApm [(py "euler_elements_three", mkObj .EulerElementsThreeType [(py "euler_frame_a", S (py "SC")),
    (py "rotation_angles", mkObj .RotationAngleType [(py "rotation1", oneRotation)])])]

/-- **C28 is false** for an APM with one angle: it is read back with three, the absent ones being copies of the first. -/
theorem C28_copied_refuted : ∃ v, writeRead oneAngleApm = .ok v ∧
    oneAngleApm.at (eulerPath ++ [.f (py "rotation_angles")]) = some (mkObj .RotationAngleType [(py "rotation1", oneRotation)]) ∧
    v.at (eulerPath ++ [.f (py "rotation_angles")]) = some (mkObj .RotationAngleType [
      (py "rotation1", oneRotation), (py "rotation2", oneRotation), (py "rotation3", oneRotation)]) :=
  ok_of_check _ (by decide +kernel)

end Ndm
