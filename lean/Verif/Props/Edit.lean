import Verif.Lemmas.Edit
import Verif.Lemmas.WritePrefix
import Verif.KvnIo
import Verif.Samples

/-! # C58: setting, changing or deleting a field changes only the lines of its keyword -/

namespace Ndm

theorem combined_noId : ∀ c : Cls, c.metaName = some (py "ndm") → c.idVersion = none := by
  intro c
  cases c <;> first | (intro; rfl) | (intro h; exact absurd h (by decide))

/-- **C58.** Objects are changed by assignments to attributes named `k`, at any number of places.  If the object could be
written before it can be written after, and the two texts have the same lines apart from the lines of the keyword `k`.
(`QUATERNION_TYPE` is the exception: it determines how quaternions are written, see `C58_quaternion_type`.) -/
theorem C58_edited (k : Str) (hk : ¬ py "QUATERNION_TYPE" <+: upper k) (hn : '\n' ∉ upper k) (o o' : Val) (he : Edited k o o')
    (text : Str) (hw : kvnToString o = .ok text) :
    ∃ text', kvnToString o' = .ok text' ∧ otherLines k (splitChar '\n' text) = otherLines k (splitChar '\n' text') := by
  unfold kvnToString at hw
  obtain ⟨ls, hls, hw⟩ := bind_ok_iff.mp hw
  cases hw
  cases o with
  | obj c vs =>
    obtain ⟨ws, rfl, -, -⟩ := edited_obj he
    cases hm : c.metaName with
    | none => simp [kvnLines, hm] at hls
    | some n =>
      simp only [kvnLines, hm] at hls
      by_cases hndm : n = py "ndm"
      · have hid : c.idVersion = none := combined_noId c (hndm ▸ hm)
        rw [if_pos hndm] at hls
        obtain ⟨b, -, hls⟩ := bind_ok_iff.mp hls
        cases b with
        | true => cases hls
        | false => simp [hid] at hls
      · rw [if_neg hndm] at hls
        cases hid : c.idVersion with
        | none => simp only [hid] at hls; cases hls
        | some p =>
          obtain ⟨id, ver⟩ := p
          simp only [hid] at hls
          change collateObj [] [fillKvn id ver none] (Val.obj c vs) = .ok ls at hls
          obtain ⟨ls', hls', hr⟩ := collateObj_edit hk hn [] _ _ _ _ he rfl ls hls
          have hne : ls ≠ [] := by
            obtain ⟨r, rfl⟩ := collateObj_prefix _ _ _ _ hls
            simp
          have hne' : ls' ≠ [] := by
            obtain ⟨r, rfl⟩ := collateObj_prefix _ _ _ _ hls'
            simp
          refine ⟨joinWith (py "\n") ls', ?_, ?_⟩
          · simp only [kvnToString, kvnLines, hm, if_neg hndm, hid]
            change (collateObj [] [fillKvn id ver none] (Val.obj c ws) >>= _) = _
            rw [hls']
            rfl
          · change otherLines k (splitChar '\n' (joinWith ['\n'] ls)) = otherLines k (splitChar '\n' (joinWith ['\n'] ls'))
            rw [splitChar_join _ hne, splitChar_join _ hne', otherLines_split, hr, ← otherLines_split]
  | _ => cases hls

/-- **C58.** One assignment `o.path.k = y`: setting a field that was absent, changing it, or deleting it by assigning `None`. -/
theorem C58_assign (k : Str) (hk : ¬ py "QUATERNION_TYPE" <+: upper k) (hn : '\n' ∉ upper k) (o o' : Val) (path : List Step)
    (x y : Val) (hp : ByAttributes path o) (ha : o.at (path ++ [.f k]) = some x) (hx : FieldValue k x) (hy : FieldValue k y)
    (hs : assign k y path o = some o') (text : Str) (hw : kvnToString o = .ok text) :
    ∃ text', kvnToString o' = .ok text' ∧
      otherLines k (splitChar '\n' text) = otherLines k (splitChar '\n' text') :=
  C58_edited k hk hn o o' (edited_assign hx hy hp ha hs) text hw

/-- What happens to an attitude ephemeris whose type of quaternions is changed: are the other lines the same? -/
def changedQuaternionType : Except PyErr Bool := do
  let o ← kvnFromString (aemText (py "FIRST"))
  let text ← kvnToString o
  match assign (py "quaternion_type") (.enum .QuaternionTypeType (py "LAST")) [.f (py "body"), .f (py "segment"), .i 0, .f (py "metadata")] o with
  | none => .error .attributeError
  | some o' => do
    let text' ← kvnToString o'
    return otherLines (py "quaternion_type") (splitChar '\n' text) = otherLines (py "quaternion_type") (splitChar '\n' text')

/-- **C58 is false of QUATERNION_TYPE**, as it must be: the order of the numbers of the quaternions follows it. -/
theorem C58_quaternion_type : changedQuaternionType = .ok false := by decide +kernel

theorem C58_sample_written : ∃ text, kvnToString (mkOpm []) = .ok text := by
  have h : (kvnToString (mkOpm [])).isOk = true := by decide +kernel
  cases hk : kvnToString (mkOpm []) with
  | ok t => exact ⟨t, rfl⟩
  | error e => rw [hk] at h; cases h

/-- The object name of an OPM is changed: only its line differs. -/
example : (mkOpm []).at [.f (py "body"), .f (py "segment"), .f (py "metadata"), .f (py "object_name")] = some (.str (py "A")) ∧
    ByAttributes [.f (py "body"), .f (py "segment"), .f (py "metadata")] (mkOpm []) ∧ FieldValue (py "object_name") (.str (py "A")) ∧
    FieldValue (py "object_name") (.str (py "NEW NAME")) ∧ (∃ o', assign (py "object_name") (.str (py "NEW NAME"))
      [.f (py "body"), .f (py "segment"), .f (py "metadata")] (mkOpm []) = some o') ∧ (∃ text, kvnToString (mkOpm []) = .ok text) ∧
    ¬ py "QUATERNION_TYPE" <+: upper (py "object_name") ∧ '\n' ∉ upper (py "object_name") := by
  refine ⟨by decide +kernel, ?_, .str (by decide), .str (by decide), ⟨_, rfl⟩, ?_, by decide, by decide⟩
  · refine ⟨by decide, by decide +kernel, by decide, by decide, _, rfl, ?_⟩
    refine ⟨by decide, by decide +kernel, by decide, by decide, _, rfl, ?_⟩
    refine ⟨by decide, by decide +kernel, by decide, by decide, _, rfl, ?_⟩
    exact ⟨by decide, by decide +kernel⟩
  · exact C58_sample_written

/-- An optional quantity is set that was absent. -/
example : (mkOpm [(py "spacecraft_parameters", mkObj .SpacecraftParametersType [])]).at
      [.f (py "body"), .f (py "segment"), .f (py "data"), .f (py "spacecraft_parameters"), .f (py "mass")] = some .none ∧
    FieldValue (py "mass") .none ∧
    FieldValue (py "mass") (.obj .MassType [(py "value", D 7), (py "units", .enum .MassUnits (py "kg"))]) ∧
    mkVal .MassType 7 (.enum .MassUnits (py "kg")) = .obj .MassType [(py "value", D 7), (py "units", .enum .MassUnits (py "kg"))] :=
  ⟨by decide +kernel, .none (by decide) (by decide), .quantity (by decide) (by decide)
    (show '\n' ∉ pyStr (D 7) by decide) (by decide), by decide +kernel⟩

end Ndm
