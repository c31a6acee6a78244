import Verif.SpecUpdate
import Verif.ValEq
import Verif.Lemmas.GoodUnique
import Verif.Lemmas.GoodCheck

/-! Replacing a part of a well-formed object. -/

namespace Ndm

section
variable {K : Cls → List (Str × Val) → List Line → Prop} {A : Cls → Val → List Line → Prop}

theorem goodBlocks_append {fs gs : List Field} {vs ws : List (Str × Val)} {ls ms : List Line}
    (h : GoodBlocksOf K A fs vs ls) (h' : GoodBlocksOf K A gs ws ms) : GoodBlocksOf K A (fs ++ gs) (vs ++ ws) (ls ++ ms) := by
  induction fs generalizing vs ls with
  | nil => cases h; exact h'
  | cons f fs ih =>
    cases h with
    | absent h1 h2 h3 h => exact .absent h1 h2 h3 (ih h)
    | one h1 h2 h3 h => rw [List.append_assoc]; exact .one h1 h2 h3 (ih h)
    | many h1 h2 h3 h4 h => rw [List.append_assoc]; exact .many h1 h2 h3 h4 (ih h)

theorem goodBlocks_split {f : Field} : ∀ {fs gs : List Field} {vs : List (Str × Val)} {ls : List Line},
    GoodBlocksOf K A (fs ++ f :: gs) vs ls → ∃ vA w vB lA lf lB, vs = vA ++ (f.name, w) :: vB ∧ ls = lA ++ (lf ++ lB) ∧
      GoodBlocksOf K A fs vA lA ∧ GoodBlocksOf K A [f] [(f.name, w)] lf ∧ GoodBlocksOf K A gs vB lB
  | [], gs, vs, ls, h => by
    cases h with
    | absent h1 h2 h3 h => exact ⟨[], _, _, [], [], _, rfl, rfl, .nil, .absent h1 h2 h3 .nil, h⟩
    | one h1 h2 h3 h =>
      exact ⟨[], _, _, [], _, _, rfl, rfl, .nil, by have := GoodBlocksOf.one h1 h2 h3 (.nil (K := K) (A := A)); rwa [List.append_nil] at this, h⟩
    | many h1 h2 h3 h4 h =>
      exact ⟨[], _, _, [], _, _, rfl, rfl, .nil, by have := GoodBlocksOf.many h1 h2 h3 h4 (.nil (K := K) (A := A)); rwa [List.append_nil] at this, h⟩
  | g :: fs, gs, vs, ls, h => by
    cases h with
    | absent h1 h2 h3 h =>
      obtain ⟨vA, w, vB, lA, lf, lB, rfl, rfl, ha, hf, hb⟩ := goodBlocks_split h
      exact ⟨_ :: vA, w, vB, lA, lf, lB, rfl, rfl, .absent h1 h2 h3 ha, hf, hb⟩
    | one h1 h2 h3 h =>
      obtain ⟨vA, w, vB, lA, lf, lB, rfl, rfl, ha, hf, hb⟩ := goodBlocks_split h
      exact ⟨_ :: vA, w, vB, _ ++ lA, lf, lB, rfl, by simp, .one h1 h2 h3 ha, hf, hb⟩
    | many h1 h2 h3 h4 h =>
      obtain ⟨vA, w, vB, lA, lf, lB, rfl, rfl, ha, hf, hb⟩ := goodBlocks_split h
      exact ⟨_ :: vA, w, vB, _ ++ lA, lf, lB, rfl, by simp, .many h1 h2 h3 h4 ha, hf, hb⟩

/-- A class whose only keyword is `comment`. -/
def commentKeyOnly (c : Cls) : Bool := decide (c.keyAttrs.map (·.name) = [py "comment"])

theorem map_setAt_ne {x : Val} {k : Str} {p : List Str} {vs : List (Str × Val)} (h : k ∉ vs.map (·.1)) :
    (vs.map fun nv => (nv.1, if nv.1 = k then Val.setAt x p nv.2 else nv.2)) = vs := by
  refine (List.map_congr_left ?_).trans (List.map_id vs)
  rintro ⟨n, w⟩ hm
  rw [if_neg]
  · rfl
  · rintro rfl
    exact h (List.mem_map_of_mem (f := (·.1)) hm)

/-- Replacing the value of a nested block. -/
theorem good_set {c : Cls} {v x : Val} {ls : List Line} {k : Str} {p : List Str} (hK : ∀ vs own, K c vs own → vs.map (·.1) = c.keyAttrs.map (·.name))
    (hnd : ((c.keyAttrs ++ c.blockAttrs).map (·.name)).Nodup) (ho : c.ownNotation = false) (hA : ∀ v ls, ¬ A c v ls) (h : GoodOf K A c v ls)
    {f : Field} (hf : f ∈ c.blockAttrs) (hk : f.name = k) :
    ∃ fsA fsB vs vA w lA lf, c.blockAttrs = fsA ++ f :: fsB ∧ v = .obj c vs ∧ Val.lookupVar k vs = some w ∧
      (∀ g ∈ fsA, Val.lookupVar g.name vs = Val.lookupVar g.name vA) ∧ GoodBlocksOf K A fsA vA lA ∧ GoodBlocksOf K A [f] [(f.name, w)] lf ∧
      ∀ l', GoodBlocksOf K A [f] [(f.name, Val.setAt x p w)] l' →
        (commentKeyOnly c = true → lA ≠ [] ∨ ∃ l, l'.head? = some l ∧ l.key ≠ py "COMMENT") →
        ∃ ls', GoodOf K A c (Val.setAt x (k :: p) v) ls' := by
  cases h with
  | special h => exact absurd h (hA _ _)
  | @obj _ kvs bvs own ls _ hkv hb hl =>
    obtain ⟨fsA, fsB, hfs⟩ := List.append_of_mem hf
    rw [hfs] at hb
    obtain ⟨vA, w, vB, lA, lf, lB, rfl, rfl, ha, hw, hbB⟩ := goodBlocks_split hb
    have hkn := hK _ _ hkv
    have hna := goodBlocks_names ha
    have hnb := goodBlocks_names hbB
    have hnames : ((kvs ++ (vA ++ (f.name, w) :: vB)).map (·.1)).Nodup := by
      rw [List.map_append, hkn, List.map_append, List.map_cons, hna, hnb]
      rw [hfs] at hnd
      simpa using hnd
    have hnd1 := hnames
    rw [List.map_append, List.map_append, List.map_cons, List.nodup_append] at hnd1
    obtain ⟨-, hnd2, hd⟩ := hnd1
    rw [List.nodup_append] at hnd2
    obtain ⟨-, hnd3, hd2⟩ := hnd2
    have n1 : k ∉ kvs.map (·.1) := fun h => hd _ h _ (by simp [← hk]) rfl
    have n2 : k ∉ vA.map (·.1) := fun h => hd2 _ h _ (by simp [← hk]) rfl
    have n3 : k ∉ vB.map (·.1) := by rw [← hk]; exact (List.nodup_cons.mp hnd3).1
    refine ⟨fsA, fsB, _, vA, w, lA, lf, hfs, rfl, ?_, ?_, ha, hw, ?_⟩
    · unfold Val.lookupVar
      rw [List.find?_append, List.find?_append, List.find?_eq_none.mpr, List.find?_eq_none.mpr]
      · simp [hk]
      · rintro ⟨n, y⟩ hm he
        exact n2 (by have : n = k := by simpa using he
                     rw [← this]; exact List.mem_map_of_mem (f := (·.1)) hm)
      · rintro ⟨n, y⟩ hm he
        exact n1 (by have : n = k := by simpa using he
                     rw [← this]; exact List.mem_map_of_mem (f := (·.1)) hm)
    · intro g hg
      have hgA : g.name ∈ vA.map (·.1) := by rw [hna]; exact List.mem_map_of_mem hg
      unfold Val.lookupVar
      rw [List.find?_append, List.find?_append, List.find?_eq_none.mpr]
      · rw [Option.none_or]
        obtain ⟨⟨n, y⟩, hm, hn⟩ := List.mem_map.mp hgA
        cases he : vA.find? (·.1 == g.name) with
        | none =>
          have := List.find?_eq_none.mp he _ hm
          simp only at hn
          simp [hn] at this
        | some _ => simp
      · rintro ⟨n, y⟩ hm he
        have : n = g.name := by simpa using he
        refine hd n (List.mem_map_of_mem (f := (·.1)) hm) g.name ?_ this
        exact List.mem_append_left _ hgA
    · intro l' hl' hcond
      have e : Val.setAt x (k :: p) (.obj c (kvs ++ (vA ++ (f.name, w) :: vB))) =
          .obj c (kvs ++ (vA ++ (f.name, Val.setAt x p w) :: vB)) := by
        rw [Val.setAt, List.map_append, List.map_append, List.map_cons, map_setAt_ne n1, map_setAt_ne n2, map_setAt_ne n3,
          if_pos hk]
      rw [e]
      refine ⟨own ++ (lA ++ (l' ++ lB)), .obj ho hkv ?_ ?_⟩
      · rw [hfs]
        exact goodBlocks_append ha (goodBlocks_append hl' hbB)
      · unfold Laid at hl ⊢
        split
        · rename_i hco
          rw [if_pos hco] at hl
          refine ⟨hl.1, fun hown => ?_⟩
          have hold := hl.2 hown
          rcases hcond (by simpa [commentKeyOnly] using hco) with hne | ⟨l, hh, hkey⟩
          · cases lA with
            | nil => exact absurd rfl hne
            | cons a lA => exact hold
          · cases lA with
            | nil =>
              cases l' with
              | nil => cases hh
              | cons a l' => cases hh; exact ⟨_, rfl, hkey⟩
            | cons a lA => exact hold
        · rename_i hco
          rw [if_neg hco] at hl
          exact hl

end

/-! ## Paths -/

/-- A path through blocks that are not lists and whose classes have other keywords than `comment`, or none. -/
def pathB : Cls → List Str → Option Cls
  | c, [] => some c
  | c, k :: p =>
    if c.ownNotation || commentKeyOnly c then none
    else match c.blockAttrs.find? (·.name == k) with
      | some f => if f.isList then none else match f.ty with
        | .cls d => if d.blockAttrs = [] then none else pathB d p
        | _ => none
      | none => none

theorem ownNotation_of {c : Cls} {v : Val} {ls : List Line} (h : OwnNotation c v ls) : c.ownNotation = true := by
  cases h <;> rfl

theorem class_nodup (c : Cls) : ((c.keyAttrs ++ c.blockAttrs).map (·.name)).Nodup := by
  have := List.all_eq_true.mp (show (Cls.all.all fun c => decide (((c.keyAttrs ++ c.blockAttrs).map (·.name)).Nodup)) = true by
    decide +kernel) c (by cases c <;> decide)
  simpa using this

theorem good_setAt {x : Val} {q : List Str} {d : Cls} : ∀ (p : List Str) (c : Cls) (v : Val) (ls : List Line),
    Good OwnNotation c v ls → pathB c p = some d →
    (∀ w lw, Good OwnNotation d w lw → v.at (p.map Step.f) = some w →
      (∃ lw', Good OwnNotation d (Val.setAt x q w) lw') ∧ (w.at (q.map Step.f)).isSome = true) →
    (∃ ls', Good OwnNotation c (Val.setAt x (p ++ q) v) ls') ∧ (v.at ((p ++ q).map Step.f)).isSome = true
  | [], c, v, ls, h, hp, hd => by
    cases hp
    exact hd v ls h rfl
  | k :: p, c, v, ls, h, hp, hd => by
    unfold pathB at hp
    split at hp
    · cases hp
    · rename_i hc
      simp only [Bool.or_eq_true, not_or, Bool.not_eq_true] at hc
      split at hp
      · rename_i f hf
        split at hp
        · cases hp
        · rename_i hl
          split at hp
          · rename_i e hty
            split at hp
            · cases hp
            · rename_i hbl
              have hfm := List.mem_of_find?_eq_some hf
              have hfn : f.name = k := by simpa using List.find?_some hf
              obtain ⟨fsA, fsB, vs, vA, w, lA, lf, -, rfl, hlk, -, -, hw, hset⟩ := good_set (x := x) (p := p ++ q) (k := k)
                (fun vs own h => goodKeys_names h) (class_nodup c) hc.1 (fun v ls h => by rw [ownNotation_of h] at hc; cases hc.1)
                h hfm hfn
              have hgw : ∃ lw, Good OwnNotation e w lw := by
                cases hw with
                | absent _ h2 h3 _ => rw [hty] at h2; cases h2; exact absurd h3 hbl
                | one _ h2 h3 _ => rw [hty] at h2; cases h2; exact ⟨_, h3⟩
                | many h1 => rw [h1] at hl; exact absurd rfl hl
              obtain ⟨lw, hgw⟩ := hgw
              obtain ⟨⟨lw', hw'⟩, hat⟩ := good_setAt p e w lw hgw hp (by
                intro w' lw' hg' hat
                refine hd w' lw' hg' ?_
                rw [List.map_cons, Val.at]
                simp only [hlk]
                exact hat)
              refine ⟨hset lw' ?_ (by rw [hc.2]; intro h; cases h), ?_⟩
              rotate_left
              · rw [List.cons_append, List.map_cons, Val.at]
                simp only [hlk]
                exact hat
              have := GoodBlocksOf.one (by simpa using hl) hty hw' (.nil (K := Written) (A := OwnNotation))
              rwa [List.append_nil] at this
          · cases hp
      · cases hp

theorem lookupVar_map_set {x : Val} {k : Str} {p : List Str} : ∀ {vs : List (Str × Val)} {w : Val},
    Val.lookupVar k vs = some w →
    Val.lookupVar k (vs.map fun nv => (nv.1, if nv.1 = k then Val.setAt x p nv.2 else nv.2)) = some (Val.setAt x p w)
  | [], _, h => by cases h
  | (n, y) :: vs, w, h => by
    unfold Val.lookupVar at h ⊢
    rw [List.map_cons, List.find?_cons]
    rw [List.find?_cons] at h
    by_cases hn : n = k
    · simp only [hn, beq_self_eq_true, if_true, Option.map_some, Option.some.injEq] at h ⊢
      rw [h]
    · have hb : (n == k) = false := by simpa using hn
      simp only [hb] at h ⊢
      exact lookupVar_map_set h

theorem at_setAt {x : Val} : ∀ (p : List Str) (v : Val), (v.at (p.map Step.f)).isSome = true →
    (Val.setAt x p v).at (p.map Step.f) = some x
  | [], v, _ => by cases v <;> rfl
  | k :: p, v, h => by
    rw [List.map_cons] at h
    cases v with
    | obj c vs =>
      simp only [Val.at] at h
      cases hl : Val.lookupVar k vs with
      | none => rw [hl] at h; cases h
      | some w =>
        rw [hl] at h
        rw [Val.setAt, List.map_cons, Val.at]
        simp only [lookupVar_map_set hl]
        exact at_setAt p w h
    | _ => simp [Val.at] at h

/-- A well-formed object without nested objects has lines. -/
theorem leaf_lines {c : Cls} {v : Val} {ls : List Line} (h : Good OwnNotation c v ls) (hb : c.blockAttrs = [])
    (ho : c.ownNotation = false) : ls ≠ [] := by
  cases h with
  | special h => rw [ownNotation_of h] at ho; cases ho
  | obj _ hk hbl hl =>
    rw [hb] at hbl
    cases hbl
    unfold Laid at hl
    rw [List.append_nil]
    split at hl
    · intro h
      obtain ⟨l, hl, -⟩ := hl.2 h
      cases hl
    · exact hl.2 hb

/-! ## Lists of blocks -/

theorem items_good {d : Cls} (hne : ∀ x ls, Good OwnNotation d x ls → ls ≠ []) : ∀ {xs : List Val},
    (∀ x ∈ xs, WellFormed d x) → xs.Pairwise (Covers d) →
    ∃ ls, GoodItems OwnNotation d xs ls ∧ ∀ m ∈ ls, ∃ y ∈ xs, ∃ ly, Good OwnNotation d y ly ∧ m ∈ ly
  | [], _, _ => ⟨[], .nil, by simp⟩
  | x :: xs, hx, hp => by
    rw [List.pairwise_cons] at hp
    obtain ⟨ls, hi, hm⟩ := items_good hne (fun y hy => hx y (List.mem_cons_of_mem _ hy)) hp.2
    obtain ⟨l, hl⟩ := hx x List.mem_cons_self
    refine ⟨l ++ ls, .cons hl (hne _ _ hl) ?_ hi, ?_⟩
    · intro m hmm hc
      obtain ⟨y, hy, ly, hly, hin⟩ := hm m hmm
      exact hp.1 y hy l ly hl hly m hin hc
    · intro m hmm
      rcases List.mem_append.mp hmm with h | h
      · exact ⟨x, List.mem_cons_self, l, hl, h⟩
      · obtain ⟨y, hy, h⟩ := hm m h
        exact ⟨y, List.mem_cons_of_mem _ hy, h⟩

/-- Putting another list of blocks into a well-formed object. -/
theorem list_setAt {c d e : Cls} {v : Val} {xs : List Val} {p : List Str} {k : Str} (hp : pathB c p = some e)
    (ho : e.ownNotation = false) {f : Field} (hf : f ∈ e.blockAttrs) (hn : f.name = k) (hl : f.isList = true)
    (hty : f.ty = .cls d) (hne : ∀ x ls, Good OwnNotation d x ls → ls ≠ []) (hx : ∀ x ∈ xs, WellFormed d x)
    (hxs : xs ≠ []) (hk : xs.Pairwise (Covers d)) (h : WellFormed c v)
    (hearly : commentKeyOnly e = true → ∀ fsA fsB vs vA lA, e.blockAttrs = fsA ++ f :: fsB → v.at (p.map Step.f) = some (.obj e vs) →
      (∀ g ∈ fsA, Val.lookupVar g.name vs = Val.lookupVar g.name vA) → GoodBlocksOf Written OwnNotation fsA vA lA → lA ≠ []) :
    WellFormed c (Val.setAt (.list xs) (p ++ [k]) v) ∧
    (Val.setAt (.list xs) (p ++ [k]) v).at ((p ++ [k]).map Step.f) = some (.list xs) := by
  obtain ⟨ls, hg⟩ := h
  obtain ⟨lx, hi, -⟩ := items_good hne hx hk
  obtain ⟨hgood, hat⟩ := good_setAt (x := .list xs) (q := [k]) p c v ls hg hp (by
    intro w lw hw hvw
    obtain ⟨fsA, fsB, vs, vA, u, lA, lf, hfs, rfl, hlk, hvA, ha, -, hset⟩ := good_set (x := .list xs) (p := [])
      (k := k) (fun vs own h => goodKeys_names h) (class_nodup e) ho
      (fun v ls h => by rw [ownNotation_of h] at ho; cases ho) hw hf hn
    refine ⟨hset lx ?_ (fun hco => Or.inl (hearly hco _ _ _ _ _ hfs hvw hvA ha)), ?_⟩
    · have := GoodBlocksOf.many hl hty (fun _ => hxs) hi (.nil (K := Written) (A := OwnNotation))
      rw [List.append_nil] at this
      exact this
    · simp [Val.at, hlk])
  exact ⟨hgood, at_setAt _ _ hat⟩

/-- A mandatory nested object with lines gives lines. -/
theorem block_lines {g : Field} {d : Cls} (hl : g.isList = false) (hty : g.ty = .cls d)
    (hne : ∀ x ls, Good OwnNotation d x ls → ls ≠ []) : ∀ {fs : List Field} {vs : List (Str × Val)} {ls : List Line},
    GoodBlocks OwnNotation fs vs ls → g ∈ fs → (d.blockAttrs ≠ [] ∨ ∀ v, (g.name, v) ∈ vs → v ≠ .none) → ls ≠ []
  | [], _, _, _, hg, _ => by cases hg
  | f :: fs, vs, ls, h, hg, hpr => by
    have hrest : ∀ {w vs' ls'}, vs = (f.name, w) :: vs' → GoodBlocks OwnNotation fs vs' ls' → g ∈ fs → ls' ≠ [] := by
      intro w vs' ls' e h' hg'
      refine block_lines hl hty hne h' hg' (hpr.imp id fun hv v hm => hv v ?_)
      rw [e]; exact List.mem_cons_of_mem _ hm
    cases h with
    | absent h1 h2 h3 h =>
      rcases List.mem_cons.mp hg with rfl | hg
      · rw [hty] at h2
        cases h2
        rcases hpr with hb | hv
        · exact absurd h3 hb
        · exact absurd rfl (hv .none List.mem_cons_self)
      · exact hrest rfl h hg
    | one h1 h2 h3 h =>
      rcases List.mem_cons.mp hg with rfl | hg
      · rw [hty] at h2
        cases h2
        have := hne _ _ h3
        simp [this]
      · have := hrest rfl h hg
        simp [this]
    | many h1 h2 h3 h4 h =>
      rcases List.mem_cons.mp hg with rfl | hg
      · rw [h1] at hl; cases hl
      · have := hrest rfl h hg
        simp [this]

/-- An object with a mandatory nested object that gives lines gives lines. -/
theorem nest_lines {c d : Cls} {g : Field} (ho : c.ownNotation = false) (hg : g ∈ c.blockAttrs) (hl : g.isList = false)
    (hty : g.ty = .cls d) (hb : d.blockAttrs ≠ []) (hne : ∀ x ls, Good OwnNotation d x ls → ls ≠ []) :
    ∀ x ls, Good OwnNotation c x ls → ls ≠ [] := by
  intro x ls h
  cases h with
  | special h => rw [ownNotation_of h] at ho; cases ho
  | obj _ hk hbl _ =>
    have := block_lines hl hty hne hbl hg (Or.inl hb)
    simp [this]

/-- An object with only comments as keywords gives lines. -/
theorem comment_lines {c : Cls} (ho : c.ownNotation = false) (hc : commentKeyOnly c = true) :
    ∀ x ls, Good OwnNotation c x ls → ls ≠ [] := by
  intro x ls h
  cases h with
  | special h => rw [ownNotation_of h] at ho; cases ho
  | @obj _ _ _ own ls _ hk hbl hla =>
    unfold Laid at hla
    rw [if_pos (by simpa [commentKeyOnly] using hc)] at hla
    cases own with
    | nil =>
      obtain ⟨l, hl, -⟩ := hla.2 rfl
      cases ls with
      | nil => cases hl
      | cons a ls => simp
    | cons a own => simp

theorem cdmSegment_lines : ∀ x ls, Good OwnNotation .CdmSegment x ls → ls ≠ [] :=
  nest_lines (d := .CdmData) (g := ⟨py "data", none, .elem, .cls .CdmData, false, true⟩) rfl (by decide +kernel) rfl rfl
    (by decide +kernel) (comment_lines rfl (by decide +kernel))

theorem at_append {q : List Step} : ∀ {p : List Step} {v w : Val}, v.at p = some w → v.at (p ++ q) = w.at q
  | [], v, w, h => by cases h; rfl
  | .f k :: p, v, w, h => by
    cases v with
    | obj c vs =>
      simp only [Val.at] at h
      simp only [List.cons_append, Val.at]
      cases hl : Val.lookupVar k vs with
      | none => rw [hl] at h; cases h
      | some u => rw [hl] at h; exact at_append h
    | _ => simp [Val.at] at h
  | .i n :: p, v, w, h => by
    cases v with
    | list xs =>
      simp only [Val.at] at h
      simp only [List.cons_append, Val.at]
      cases hl : xs[n]? with
      | none => rw [hl] at h; cases h
      | some u => rw [hl] at h; exact at_append h
    | _ => simp [Val.at] at h

theorem lookupVar_of_mem {k : Str} {v : Val} : ∀ {vs : List (Str × Val)}, (vs.map (·.1)).Nodup → (k, v) ∈ vs →
    Val.lookupVar k vs = some v
  | (n, w) :: vs, hn, hm => by
    rw [List.map_cons, List.nodup_cons] at hn
    unfold Val.lookupVar
    rw [List.find?_cons]
    rcases List.mem_cons.mp hm with h | h
    · cases h; simp
    · have : (n == k) = false := by
        rw [beq_eq_false_iff_ne]
        rintro rfl
        exact hn.1 (List.mem_map_of_mem (f := (·.1)) h)
      simp only [this]
      exact lookupVar_of_mem hn.2 h

/-- An object in which a nested object that gives lines is present gives lines. -/
theorem given_lines {c d : Cls} {g : Field} {k : Str} (ho : c.ownNotation = false) (hg : g ∈ c.blockAttrs) (hk : g.name = k)
    (hl : g.isList = false) (hty : g.ty = .cls d) (hne : ∀ x ls, Good OwnNotation d x ls → ls ≠ []) {x : Val} {ls : List Line}
    (h : Good OwnNotation c x ls) (hat : ∃ e vs, x.at [.f k] = some (.obj e vs)) : ls ≠ [] := by
  cases h with
  | special h => rw [ownNotation_of h] at ho; cases ho
  | @obj _ kvs bvs own lb _ hkv hbl _ =>
    have := block_lines hl hty hne hbl hg (Or.inr (by
      intro v hm hnone
      obtain ⟨e, vs, hat⟩ := hat
      have hnd : ((kvs ++ bvs).map (·.1)).Nodup := by
        rw [List.map_append, goodKeys_names hkv, goodBlocks_names hbl, ← List.map_append]
        exact class_nodup c
      have hlk := lookupVar_of_mem hnd (List.mem_append_right _ hm)
      rw [hk] at hlk
      simp only [Val.at, hlk, hnone] at hat
      cases hat))
    simp [this]

/-- The lines of an object, computed. -/
def linesB (d : Cls) (x : Val) : Option (List Line) := goodB (fun c vs => goodKeysB c.keyAttrs vs) ownB 10 d x

theorem lines_of_b {d : Cls} {x : Val} {l : List Line} (h : linesB d x = some l) : Good OwnNotation d x l :=
  good_of_b (K := Written) (fun _ _ _ h => goodKeys_of_b h) own_of_b 10 d x l h

def coversB (d : Cls) (x y : Val) : Bool :=
  match linesB d x, linesB d y with
  | some lx, some ly => monoB lx ly
  | _, _ => false

theorem covers_of_b {d : Cls} {x y : Val} (h : coversB d x y = true) : Covers d x y := by
  unfold coversB at h
  split at h
  · rename_i lx ly hx hy
    intro lx' ly' hx' hy'
    rw [← good_unique (lines_of_b hx) hx', ← good_unique (lines_of_b hy) hy']
    intro m hm hmc
    have := List.all_eq_true.mp h m hm
    simp only [Bool.or_eq_true, beq_iff_eq, hmc, false_or, List.any_eq_true] at this
    exact this
  · cases h

end Ndm
