import Verif.Write
import Verif.Lemmas.Exc

/-! The writer only ever appends: everything is collected in a list that grows at its end. -/

namespace Ndm

theorem withHeader_prefix {h : Option Str} {bf af : Str → List Str} {out o : List Str}
    {body : List Str → Except PyErr (List Str)} (hb : ∀ o1 o2, body o1 = .ok o2 → o1 <+: o2)
    (hw : withHeader h bf af out body = .ok o) : out <+: o := by
  unfold withHeader at hw
  split at hw
  · obtain ⟨o2, h2, rfl⟩ := map_ok_iff.mp hw
    exact ((List.prefix_append _ _).trans (hb _ _ h2)).trans (List.prefix_append _ _)
  · exact hb _ _ hw

mutual
theorem collateObj_prefix (key : Str) (out : List Str) : ∀ (v : Val) (o : List Str),
    collateObj key out v = .ok o → out <+: o
  | .obj c vs, o, h => by
    simp only [collateObj] at h
    split at h
    · obtain ⟨ls, -, h⟩ := bind_ok_iff.mp h
      cases h; exact List.prefix_append _ _
    · obtain ⟨o1, h1, h⟩ := bind_ok_iff.mp h
      have := collateVars_prefix out vs o1 h1
      cases h
      split
      · exact this.trans (List.prefix_append _ _)
      · exact this
  | .none, o, h => by simp [collateObj] at h
  | .str _, o, h => by simp [collateObj] at h
  | .int _, o, h => by simp [collateObj] at h
  | .dec _, o, h => by simp [collateObj] at h
  | .enum _ _, o, h => by simp [collateObj] at h
  | .list _, o, h => by simp [collateObj] at h

theorem collateVars_prefix (out : List Str) : ∀ (vs : List (Str × Val)) (o : List Str),
    collateVars out vs = .ok o → out <+: o
  | [], o, h => by simp only [collateVars] at h; cases h; exact List.prefix_refl _
  | (k, v) :: rest, o, h => by
    simp only [collateVars] at h
    obtain ⟨o1, h1, h⟩ := bind_ok_iff.mp h
    exact (collateSub_prefix k out v o1 h1).trans (collateVars_prefix o1 rest o h)

theorem collateSub_prefix (key : Str) (out : List Str) : ∀ (v : Val) (o : List Str),
    collateSub key out v = .ok o → out <+: o
  | .str s, o, h => by simp only [collateSub] at h; cases h; exact List.prefix_append _ _
  | .int i, o, h => by simp only [collateSub] at h; cases h; exact List.prefix_append _ _
  | .dec d, o, h => by
    simp only [collateSub] at h
    split at h
    · cases h
    · cases h; exact List.prefix_append _ _
  | .enum c v, o, h => by
    simp only [collateSub] at h
    split at h
    · cases h
    · cases h; exact List.prefix_append _ _
  | .none, o, h => by
    simp only [collateSub] at h
    split at h
    · cases h
    · cases h; exact List.prefix_refl _
  | .obj c vs, o, h => by
    simp only [collateSub] at h
    refine withHeader_prefix ?_ h
    intro o1 o2 h2
    split at h2
    · cases h2
    · split at h2
      · obtain ⟨l, -, h2⟩ := bind_ok_iff.mp h2
        cases h2; exact List.prefix_append _ _
      · split at h2
        · cases h2
        · split at h2
          · obtain ⟨ls, -, h2⟩ := bind_ok_iff.mp h2
            cases h2; exact List.prefix_append _ _
          · obtain ⟨o3, h3, h2⟩ := bind_ok_iff.mp h2
            have := collateVars_prefix o1 vs o3 h3
            cases h2
            split
            · exact this.trans (List.prefix_append _ _)
            · exact this
  | .list [], o, h => by
    simp only [collateSub] at h
    split at h
    · cases h; exact List.prefix_append _ _
    · split at h
      · obtain ⟨ls, -, h⟩ := bind_ok_iff.mp h
        cases h; exact List.prefix_append _ _
      · cases h; exact List.prefix_refl _
  | .list (x :: rest), o, h => by
    simp only [collateSub] at h
    split at h
    · cases h; exact List.prefix_append _ _
    · split at h
      · obtain ⟨ls, -, h⟩ := bind_ok_iff.mp h
        cases h; exact List.prefix_append _ _
      · refine withHeader_prefix ?_ h
        intro o1 o2 h2
        obtain ⟨o3, h3, h2⟩ := bind_ok_iff.mp h2
        exact (collateObj_prefix key _ x o3 h3).trans (collateItems_prefix key o3 rest o2 h2)

theorem collateItems_prefix (key : Str) (out : List Str) : ∀ (xs : List Val) (o : List Str),
    collateItems key out xs = .ok o → out <+: o
  | [], o, h => by simp only [collateItems] at h; cases h; exact List.prefix_refl _
  | x :: rest, o, h => by
    simp only [collateItems] at h
    obtain ⟨o1, h1, h⟩ := bind_ok_iff.mp h
    exact (collateObj_prefix key out x o1 h1).trans (collateItems_prefix key o1 rest o h)
end

end Ndm
