import Verif.SpecFill
import Verif.Lemmas.RoundTrip
import Verif.Lemmas.Update

/-! Writing an APM without Euler elements. -/

namespace Ndm

section
variable {A : Cls → Val → List Line → Prop}

/-- A block of an object is written as its lines. -/
theorem write_block (hA : SpecialWrites A) {k : Nat} {f : Field} (hn : ∀ d, f.ty = .cls d → nice k d = true)
    (n1 : f.name ≠ py "comment") (n2 : f.name ≠ py "user_defined") {v : Val} {l : List Line}
    (h : GoodBlocks A [f] [(f.name, v)] l) (out : List Str) : Writes (collateSub f.name out v) out l := by
  cases h with
  | absent hl ht hleaf h =>
    cases h
    simp only [collateSub, n1, n2, or_self, if_false]
    exact .nil out
  | one hl ht hv h =>
    cases h
    rw [List.append_nil]
    obtain ⟨ws, rfl, hw, hu, hs, hh⟩ := write_good hA k _ (hn _ ht) _ _ hv
    exact write_sub hw hs hh hu ⟨n1, n2⟩ out
  | many hl ht hxn hv h =>
    cases h
    rw [List.append_nil]
    cases hv with
    | nil =>
      simp only [collateSub, n1, n2, if_false]
      exact .nil out
    | cons hx hne hmono hxs =>
      obtain ⟨ws, rfl, hw, hu, hs, hh⟩ := write_good hA k _ (hn _ ht) _ _ hx
      simp only [collateSub, n1, n2, if_false, headerOf, hh, withHeader]
      refine (write_obj hw hs f.name out).bind (write_items hs ?_ f.name hxs)
      intro v ls hv
      obtain ⟨vs, h1, h2, -⟩ := write_good hA k _ (hn _ ht) v ls hv
      exact ⟨vs, h1, h2⟩

theorem goodBlocks_cons {K : Cls → List (Str × Val) → List Line → Prop} {f : Field} {fs : List Field}
    {n : Str} {w : Val} {vs : List (Str × Val)} {ls : List Line} (h : GoodBlocksOf K A (f :: fs) ((n, w) :: vs) ls) :
    n = f.name ∧ ∃ lf lr, ls = lf ++ lr ∧ GoodBlocksOf K A [f] [(f.name, w)] lf ∧ GoodBlocksOf K A fs vs lr := by
  cases h with
  | absent h1 h2 h3 h => exact ⟨rfl, [], _, rfl, .absent h1 h2 h3 .nil, h⟩
  | one h1 h2 h3 h =>
    refine ⟨rfl, _, _, rfl, ?_, h⟩
    have := GoodBlocksOf.one h1 h2 h3 (.nil (K := K) (A := A)); rwa [List.append_nil] at this
  | many h1 h2 h3 h4 h =>
    refine ⟨rfl, _, _, rfl, ?_, h⟩
    have := GoodBlocksOf.many h1 h2 h3 h4 (.nil (K := K) (A := A)); rwa [List.append_nil] at this

/-- Writing an object whose blocks are written as the lines of others. -/
theorem write_mapped (hA : SpecialWrites A) {k : Nat} {c : Cls} (hn : nice (k + 1) c = true) (hown : c.ownNotation = false)
    {m : Str → Val → Val} (hkey : ∀ f ∈ c.keyAttrs, ∀ w, m f.name w = w)
    (hblk : ∀ f ∈ c.blockAttrs, (∀ w, m f.name w = w) ∨
      ∀ w l out, GoodBlocks A [f] [(f.name, m f.name w)] l → Writes (collateSub f.name out w) out l)
    {v : Val} {ls : List Line} (h : Good A c (v.mapAttrs m) ls) :
    ∃ vs, v = .obj c vs ∧ (∀ out, Writes (collateVars out vs) out ls) ∧ vs.any (·.1 == py "units") = false ∧
      isSpecialOut c = false ∧ headerName c = none := by
  generalize hv' : v.mapAttrs m = v' at h
  cases h with
  | special h => rw [(hA _ _ _ h).1] at hown; cases hown
  | @obj _ kvs bvs own lb _ hk hb hlaid =>
    cases v with
    | obj c' vs =>
      simp only [Val.mapAttrs, Val.obj.injEq] at hv'
      obtain ⟨rfl, hv'⟩ := hv'
      simp only [nice, hown, Bool.false_or, Bool.and_eq_true, List.all_eq_true] at hn
      have ho := ordinary_iff hn.1
      have hf := keyed ho.members ho.value ho.user
      obtain ⟨vs1, vs2, rfl, h1, h2⟩ := List.map_eq_append_iff.mp hv'
      have hkn := goodKeys_names hk
      have e1 : vs1 = kvs := by
        rw [← h1]
        symm
        refine (List.map_congr_left ?_).trans (List.map_id vs1)
        rintro ⟨n, w⟩ hm
        have hn : n ∈ c'.keyAttrs.map (·.name) := by
          rw [← hkn, ← h1, List.map_map]
          exact List.mem_map.mpr ⟨_, hm, rfl⟩
        obtain ⟨f, hf, rfl⟩ := List.mem_map.mp hn
        exact Prod.ext rfl (hkey f hf w)
      subst e1
      refine ⟨_, rfl, ?_, ?_, ho.out, ho.header⟩
      · intro out
        rw [collateVars_append]
        refine (write_keys hf.field hk out).bind ?_
        have : ∀ {fs : List Field} {vs : List (Str × Val)} {ls : List Line}, (∀ f ∈ fs, f ∈ c'.blockAttrs) →
            GoodBlocks A fs (vs.map fun nv => (nv.1, m nv.1 nv.2)) ls → ∀ out, Writes (collateVars out vs) out ls := by
          intro fs
          induction fs with
          | nil =>
            intro vs ls _ h out
            generalize hg : (vs.map fun nv => (nv.1, m nv.1 nv.2)) = us at h
            cases h
            rw [List.map_eq_nil_iff.mp hg]
            exact .nil out
          | cons f fs ih =>
            intro vs ls hfs h out
            cases vs with
            | nil => cases h
            | cons nv vs =>
              obtain ⟨n, w⟩ := nv
              rw [List.map_cons] at h
              obtain ⟨hnf, lf, lr, rfl, hw, hr⟩ := goodBlocks_cons h
              simp only at hnf hw
              subst hnf
              have hfm := hfs f (by simp)
              obtain ⟨n1, n2, -⟩ := ho.block f hfm
              refine Writes.bind ?_ (ih (fun g hg => hfs g (by simp [hg])) hr)
              rcases hblk f hfm with he | he
              · rw [he] at hw
                refine write_block hA (k := k) (fun d hd => ?_) n1 n2 hw out
                have := hn.2 f hfm
                rwa [hd] at this
              · exact he w lf out hw
        exact this (fun f hf => hf) (h2 ▸ hb)
      · rw [any_units (fs := c'.attrs)]
        · rw [List.any_eq_false]
          intro f hf
          simpa using (ho.attr f hf).2.1
        · have := goodBlocks_names hb
          rw [← h2, List.map_map] at this
          rw [ho.order, List.map_append, List.map_append, hkn]
          exact congrArg _ this
    | _ => cases hv'

end

/-- A block, or an object with nothing in it for an absent one. -/
theorem write_orBare {f : Field} {d : Cls} (hl : f.isList = false) (hty : f.ty = .cls d) (hd : d.blockAttrs ≠ [])
    (n1 : f.name ≠ py "comment") (n2 : f.name ≠ py "user_defined") (hb : linesB d (orBare d .none) = some []) {g : Val → Val}
    (hg : g .none = orBare d .none)
    (hw : ∀ w l, w ≠ .none → Good OwnNotation d (g w) l → ∃ vs, w = .obj d vs ∧ (∀ out, Writes (collateVars out vs) out l) ∧
      vs.any (·.1 == py "units") = false ∧ isSpecialOut d = false ∧ headerName d = none)
    (w : Val) (l : List Line) (out : List Str) (h : GoodBlocks OwnNotation [f] [(f.name, g w)] l) :
    Writes (collateSub f.name out w) out l := by
  have h' : Good OwnNotation d (g w) l := by
    generalize hg' : g w = gw at h
    cases h with
    | absent _ h2 h3 _ => rw [hty] at h2; cases h2; exact absurd h3 hd
    | one _ h2 h3 h => rw [hty] at h2; cases h2; cases h; rwa [List.append_nil]
    | many h1 => rw [hl] at h1; cases h1
  by_cases hwn : w = .none
  · subst hwn
    rw [hg] at h'
    rw [good_unique h' (lines_of_b hb)]
    simp only [collateSub, n1, n2, or_self, if_false]
    exact .nil out
  · obtain ⟨vs, rfl, hw, hu, hs, hh⟩ := hw w l hwn h'
    exact write_sub hw hs hh hu ⟨n1, n2⟩ out

theorem write_rotations {d : Cls} (hd : nice 5 d = true) {w : Val} {l : List Line} (hw : w ≠ .none)
    (h : Good OwnNotation d (orBare d w) l) : ∃ vs, w = .obj d vs ∧ (∀ out, Writes (collateVars out vs) out l) ∧
      vs.any (·.1 == py "units") = false ∧ isSpecialOut d = false ∧ headerName d = none := by
  have e : orBare d w = w := by
    cases w <;> first | rfl | exact absurd rfl hw
  rw [e] at h
  exact write_good special_writes 5 d hd w l h

theorem fillRotations_angles (w : Val) : fillRotations (py "rotation_angles") w = orBare .RotationAngleType w := by
  unfold fillRotations; exact if_pos rfl

theorem fillRotations_rates (w : Val) : fillRotations (py "rotation_rates") w = orBare .RotationRateType w := by
  unfold fillRotations
  exact (if_neg (by decide)).trans (if_pos rfl)

theorem write_euler {w : Val} (hw : w ≠ .none) {l : List Line} (h : Good OwnNotation .EulerElementsThreeType (fillEuler w) l) :
    ∃ vs, w = .obj .EulerElementsThreeType vs ∧ (∀ out, Writes (collateVars out vs) out l) ∧
      vs.any (·.1 == py "units") = false ∧ isSpecialOut .EulerElementsThreeType = false ∧ headerName .EulerElementsThreeType = none := by
  have e : orBare .EulerElementsThreeType w = w := by
    cases w <;> first | rfl | exact absurd rfl hw
  rw [fillEuler, e] at h
  refine write_mapped special_writes (k := 5) (by decide +kernel) rfl ?_ ?_ h
  · intro f hf w
    have := List.all_eq_true.mp (show (Cls.EulerElementsThreeType.keyAttrs.all fun f =>
      decide (f.name ≠ py "rotation_angles" ∧ f.name ≠ py "rotation_rates")) = true by decide +kernel) f hf
    simp only [decide_eq_true_eq] at this
    rw [fillRotations, if_neg this.1, if_neg this.2]
  · intro f hf
    have hbl : Cls.EulerElementsThreeType.blockAttrs =
        [⟨py "rotation_angles", some (py "rotationAngles"), .elem, .cls .RotationAngleType, false, true⟩,
         ⟨py "rotation_rates", some (py "rotationRates"), .elem, .cls .RotationRateType, false, true⟩] := by decide +kernel
    rw [hbl] at hf
    simp only [List.mem_cons, List.not_mem_nil, or_false] at hf
    rcases hf with rfl | rfl
    · right
      intro w l out h
      rw [fillRotations_angles] at h
      exact write_orBare rfl rfl (by decide +kernel) (by decide) (by decide) (by decide +kernel) rfl
        (fun w l hw h => write_rotations (by decide +kernel) hw h) w l out h
    · right
      intro w l out h
      rw [fillRotations_rates] at h
      exact write_orBare rfl rfl (by decide +kernel) (by decide) (by decide) (by decide +kernel) rfl
        (fun w l hw h => write_rotations (by decide +kernel) hw h) w l out h

/-- Down one attribute. -/
theorem write_down {k : Nat} {c d : Cls} {a : Str} (hn : nice (k + 1) c = true) (hown : c.ownNotation = false)
    (hkey : (c.keyAttrs.all fun f => decide (f.name ≠ a)) = true)
    (hblk : (c.blockAttrs.all fun f => decide (f.name ≠ a ∨ f.isList = false ∧ f.ty = .cls d ∧ d.blockAttrs ≠ [])) = true)
    {g : Val → Val} (hg : ∀ w l, Good OwnNotation d (g w) l → ∀ out, a ≠ py "comment" → a ≠ py "user_defined" →
      Writes (collateSub a out w) out l)
    {v : Val} {ls : List Line} (h : Good OwnNotation c (v.mapAttr a g) ls) :
    ∃ vs, v = .obj c vs ∧ (∀ out, Writes (collateVars out vs) out ls) ∧ vs.any (·.1 == py "units") = false ∧
      isSpecialOut c = false ∧ headerName c = none := by
  refine write_mapped special_writes (k := k) hn hown ?_ ?_ h
  · intro f hf w
    have := List.all_eq_true.mp hkey f hf
    rw [if_neg (by simpa using this)]
  · intro f hf
    have hb := List.all_eq_true.mp hblk f hf
    simp only [decide_eq_true_eq] at hb
    by_cases hfa : f.name = a
    · right
      intro w l out h
      rw [if_pos hfa] at h
      obtain ⟨h1, h2, h3⟩ := hb.resolve_left (fun h => h hfa)
      simp only [nice, hown, Bool.false_or, Bool.and_eq_true, List.all_eq_true] at hn
      obtain ⟨n1, n2, -⟩ := (ordinary_iff hn.1).block f hf
      rw [hfa] at n1 n2 ⊢
      refine hg w l ?_ out n1 n2
      generalize hg' : g w = gw at h
      cases h with
      | absent _ h4 h5 _ => rw [h2] at h4; cases h4; exact absurd h5 h3
      | one _ h4 h5 h => rw [h2] at h4; cases h4; cases h; rwa [List.append_nil]
      | many h4 => rw [h1] at h4; cases h4
    · left
      intro w
      rw [if_neg hfa]

theorem sub_of_vars {d : Cls} {w : Val} {l : List Line} (h : ∃ vs, w = .obj d vs ∧ (∀ out, Writes (collateVars out vs) out l) ∧
      vs.any (·.1 == py "units") = false ∧ isSpecialOut d = false ∧ headerName d = none) {key : Str} (out : List Str)
    (n1 : key ≠ py "comment") (n2 : key ≠ py "user_defined") : Writes (collateSub key out w) out l := by
  obtain ⟨vs, rfl, hw, hu, hs, hh⟩ := h
  exact write_sub hw hs hh hu ⟨n1, n2⟩ out

/-- An APM is written as the lines of the one with its Euler elements filled in. -/
theorem write_fillApm {o : Val} {ls : List Line} (h : Good OwnNotation .Apm (fillApm o) ls) :
    ∃ vs, o = .obj .Apm vs ∧ ∀ out, Writes (collateVars out vs) out ls := by
  have hfin : ∀ w l, Good OwnNotation .EulerElementsThreeType (fillEuler w) l → ∀ out, py "euler_elements_three" ≠ py "comment" →
      py "euler_elements_three" ≠ py "user_defined" → Writes (collateSub (py "euler_elements_three") out w) out l := by
    intro w l h out n1 n2
    by_cases hwn : w = .none
    · subst hwn
      rw [good_unique h (lines_of_b (l := []) (by decide +kernel))]
      simp only [collateSub, n1, n2, or_self, if_false]
      exact .nil out
    · exact sub_of_vars (write_euler hwn h) out n1 n2
  obtain ⟨vs, h1, h2, -⟩ := write_down (k := 9) (c := .Apm) (d := .ApmBody) (a := py "body") (by decide +kernel) rfl
    (by decide +kernel) (by decide +kernel) (fun w l h out n1 n2 => sub_of_vars
      (write_down (k := 8) (c := .ApmBody) (d := .ApmSegment) (a := py "segment") (by decide +kernel) rfl
        (by decide +kernel) (by decide +kernel) (fun w l h out n1 n2 => sub_of_vars
          (write_down (k := 7) (c := .ApmSegment) (d := .ApmData) (a := py "data") (by decide +kernel) rfl
            (by decide +kernel) (by decide +kernel) (fun w l h out n1 n2 => sub_of_vars
              (write_down (k := 6) (c := .ApmData) (d := .EulerElementsThreeType) (a := py "euler_elements_three") (by decide +kernel) rfl
                (by decide +kernel) (by decide +kernel) hfin h) out n1 n2) h) out n1 n2) h) out n1 n2) h
  exact ⟨vs, h1, h2⟩

end Ndm
