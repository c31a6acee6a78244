import Verif.Lemmas.RoundTrip

/-! The lines of a well-formed object are determined by the object. -/

namespace Ndm

theorem keyVal_unique {f : Field} {v : Val} {l l' : Line} (h : KeyVal f v l) (h' : KeyVal f v l') : l = l' := by
  cases h <;> cases h' <;> rfl

theorem keyVal_some {f : Field} {v : Val} {l : Line} (h : KeyVal f v l) : v ≠ .none ∧ ∀ xs, v ≠ .list xs := by
  cases h <;> simp

theorem map_str_inj : ∀ {xs ys : List Str}, xs.map Val.str = ys.map Val.str → xs = ys
  | [], [], _ => rfl
  | [], _ :: _, h => by cases h
  | _ :: _, [], h => by cases h
  | x :: xs, y :: ys, h => by
    rw [List.map_cons, List.map_cons, List.cons.injEq, Val.str.injEq] at h
    rw [h.1, map_str_inj h.2]

theorem goodKeys_unique {fs : List Field} {vs : List (Str × Val)} {ls ls' : List Line} (h : GoodKeys fs vs ls)
    (h' : GoodKeys fs vs ls') : ls = ls' := by
  induction h generalizing ls' with
  | nil => cases h'; rfl
  | absent hl _ ih =>
    cases h' with
    | absent _ h' => exact ih h'
    | value _ hr _ => exact absurd rfl (keyVal_some hr).1
  | value hl hr _ ih =>
    cases h' with
    | absent _ h' => exact absurd rfl (keyVal_some hr).1
    | value _ hr' h' => rw [keyVal_unique hr hr', ih h']
    | comments hl' => rw [hl'] at hl; cases hl
  | @comments f fs texts vs ls hl hn ht _ ih =>
    generalize hw : (Val.list (texts.map Val.str)) = w at h'
    cases h' with
    | absent hl' => rw [hl'] at hl; cases hl
    | value hl' => rw [hl'] at hl; cases hl
    | comments _ _ _ h' =>
      rw [Val.list.injEq] at hw
      rw [map_str_inj hw, ih h']

theorem rotation_unique {c axes units : Cls} {attr : Str} {v : Val} {l l' : Line} (h : Rotation c axes units attr v l)
    (h' : Rotation c axes units attr v l') : l = l' := by
  cases h <;> cases h' <;> rfl

theorem rotations_unique {c d axes units : Cls} {attr : Str} {v : Val} {l l' : List Line}
    (h : Rotations c d axes units attr v l) (h' : Rotations c d axes units attr v l') : l = l' := by
  cases h with
  | none =>
    cases h' with
    | none => rfl
    | mk a' b' c' => cases a'
  | mk a b c =>
    cases h' with
    | none => cases a
    | mk a' b' c' => rw [rotation_unique a a', rotation_unique b b', rotation_unique c c']

theorem userValue_inj {s t : Str} (h : userValue s = userValue t) : s = t := by
  unfold userValue at h
  split at h <;> split at h
  · rename_i h1 h2; rw [h1, h2]
  · cases h
  · cases h
  · exact Val.str.inj h

theorem params_inj : ∀ {ps qs : List (Str × Str)},
    (ps.map fun p => Val.obj .UserDefinedParameterType [(py "value", userValue p.2), (py "parameter", .str p.1)]) =
      (qs.map fun p => Val.obj .UserDefinedParameterType [(py "value", userValue p.2), (py "parameter", .str p.1)]) → ps = qs
  | [], [], _ => rfl
  | [], _ :: _, h => by cases h
  | _ :: _, [], h => by cases h
  | (a, b) :: ps, (c, d) :: qs, h => by
    rw [List.map_cons, List.map_cons, List.cons.injEq] at h
    rw [params_inj h.2]
    have h1 := h.1
    simp only [Val.obj.injEq, List.cons.injEq, Prod.mk.injEq, Val.str.injEq, true_and, and_true] at h1
    rw [userValue_inj h1.1, h1.2]

theorem relative_unique {v : Val} {l l' : List Line} (h : RelativeData v l) (h' : RelativeData v l') : l = l' := by
  cases h with
  | @mk b a r l₁ lᵣ l₂ hb hr ha h1 h2 =>
    generalize hw : (Val.obj .RelativeMetadataData (b ++ (py "relative_state_vector", r) :: a)) = w at h'
    cases h' with
    | @mk b' a' r' l₁' lᵣ' l₂' hb' hr' ha' h1' h2' =>
      simp only [Val.obj.injEq, true_and] at hw
      have hlen : b.length = b'.length := by
        have e := congrArg List.length (goodKeys_names hb)
        have e' := congrArg List.length (goodKeys_names hb')
        rw [List.length_map] at e e'
        rw [e, e']
      obtain ⟨rfl, hw2⟩ := List.append_inj hw hlen
      rw [List.cons.injEq, Prod.mk.injEq] at hw2
      obtain ⟨⟨-, rfl⟩, rfl⟩ := hw2
      rw [goodKeys_unique hb hb', goodKeys_unique ha ha']
      congr 2
      rcases hr with ⟨rfl, rfl⟩ | ⟨vs, rfl, hk, -⟩
      · rcases hr' with ⟨-, rfl⟩ | ⟨vs, h, -⟩
        · rfl
        · cases h
      · rcases hr' with ⟨h, -⟩ | ⟨vs', h, hk', -⟩
        · cases h
        · cases h
          exact goodKeys_unique hk hk'

theorem own_unique {c : Cls} {v : Val} {l l' : List Line} (h : OwnNotation c v l) (h' : OwnNotation c v l') : l = l' := by
  cases h with
  | user h =>
    cases h' with
    | user h' =>
      cases h with
      | @mk ps _ _ _ =>
        generalize hw : (Val.obj .UserDefinedType [(py "comment", .list []),
          (py "user_defined", .list (ps.map fun p =>
            .obj .UserDefinedParameterType [(py "value", userValue p.2), (py "parameter", .str p.1)]))]) = w at h'
        cases h' with
        | mk =>
          simp only [Val.obj.injEq, List.cons.injEq, Prod.mk.injEq, Val.list.injEq, true_and, and_true] at hw
          rw [params_inj hw]
  | relative h => cases h' with | relative h' => exact relative_unique h h'
  | angles h => cases h' with | angles h' => exact rotations_unique h h'
  | rates h => cases h' with | rates h' => exact rotations_unique h h'

theorem own_some {c : Cls} {v : Val} {l : List Line} (h : OwnNotation c v l) : v ≠ .none := by
  cases h with
  | user h => cases h; simp
  | relative h => cases h; simp
  | angles h => cases h <;> simp
  | rates h => cases h <;> simp

theorem good_some {c : Cls} {v : Val} {l : List Line} (h : Good OwnNotation c v l) : v ≠ .none := by
  cases h with
  | special h => exact own_some h
  | obj => simp

mutual
theorem good_unique {c : Cls} {v : Val} {ls ls' : List Line} : Good OwnNotation c v ls → Good OwnNotation c v ls' → ls = ls'
  | .special h, .special h' => own_unique h h'
  | .special h, .obj ho .. => by
    have : c.ownNotation = true := by cases h <;> rfl
    rw [this] at ho; cases ho
  | @GoodOf.obj _ _ _ kvs bvs own l ho hk hb _, h' => by
    generalize hw : Val.obj c (kvs ++ bvs) = w at h'
    cases h' with
    | special h' =>
      have : c.ownNotation = true := by cases h' <;> rfl
      rw [this] at ho; cases ho
    | @obj _ kvs' bvs' own' l' _ hk' hb' _ =>
      simp only [Val.obj.injEq, true_and] at hw
      have hlen : kvs.length = kvs'.length := by
        have e := congrArg List.length (goodKeys_names hk)
        have e' := congrArg List.length (goodKeys_names hk')
        rw [List.length_map] at e e'
        rw [e, e']
      have hw := List.append_inj hw hlen
      rw [hw.1] at hk
      have := goodBlocks_unique hb (hw.2 ▸ hb')
      rw [goodKeys_unique hk hk', this]

theorem goodBlocks_unique {fs : List Field} {vs : List (Str × Val)} {ls ls' : List Line} :
    GoodBlocks OwnNotation fs vs ls → GoodBlocks OwnNotation fs vs ls' → ls = ls'
  | .nil, h' => by cases h'; rfl
  | .absent h1 h2 h3 h, h' => by
    cases h' with
    | absent _ _ _ h' => exact goodBlocks_unique h h'
    | one _ _ hg _ => exact absurd rfl (good_some hg)
  | .one h1 h2 hg h, h' => by
    cases h' with
    | absent _ _ _ h' => exact absurd rfl (good_some hg)
    | one _ h2' hg' h' =>
      have h2' := FTy.cls.inj (h2.symm.trans h2')
      have e := good_unique hg (h2' ▸ hg')
      rw [e, goodBlocks_unique h h']
    | many h1' => rw [h1'] at h1; cases h1
  | .many h1 h2 _ hi h, h' => by
    cases h' with
    | one h1' => rw [h1'] at h1; cases h1
    | many _ h2' _ hi' h' =>
      have h2' := FTy.cls.inj (h2.symm.trans h2')
      have e := goodItems_unique hi (h2' ▸ hi')
      rw [e, goodBlocks_unique h h']

theorem goodItems_unique {d : Cls} {xs : List Val} {ls ls' : List Line} :
    GoodItems OwnNotation d xs ls → GoodItems OwnNotation d xs ls' → ls = ls'
  | .nil, h' => by cases h'; rfl
  | .cons hg _ _ h, h' => by
    cases h' with
    | cons hg' _ _ h' => rw [good_unique hg hg', goodItems_unique h h']
end

end Ndm
