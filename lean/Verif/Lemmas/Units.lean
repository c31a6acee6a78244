import Verif.Lemmas.EphWrite
import Verif.Lemmas.WritePrefix

/-! Writing does not depend on the units of state vectors and covariance matrices; where their lines are in the text. -/

namespace Ndm

theorem without_value {v v' : Val} (h : WithoutUnit v v') :
    valueAttr? v = valueAttr? v' ∧ v.truthy = v'.truthy ∧ pyStr (valueOr v) = pyStr (valueOr v') := by
  cases h <;> exact ⟨rfl, rfl, rfl⟩

theorem without_lookup {vs vs' : List (Str × Val)} (h : List.Forall₂ (fun p p' => p.1 = p'.1 ∧ WithoutUnit p.2 p'.2) vs vs')
    (k : Str) : (Val.lookupVar k vs = none ∧ Val.lookupVar k vs' = none) ∨
      ∃ v v', Val.lookupVar k vs = some v ∧ Val.lookupVar k vs' = some v' ∧ WithoutUnit v v' := by
  induction h with
  | nil => exact .inl ⟨rfl, rfl⟩
  | @cons p p' vs vs' hp hvs ih =>
    obtain ⟨k1, v1⟩ := p
    obtain ⟨k2, v2⟩ := p'
    obtain ⟨h1, h2⟩ := hp
    simp only at h1 h2
    subst h1
    unfold Val.lookupVar at ih ⊢
    by_cases hk : k1 = k
    · subst hk
      exact .inr ⟨v1, v2, by simp, by simp, h2⟩
    · rw [List.find?_cons_of_neg (by simpa using hk), List.find?_cons_of_neg (by simpa using hk)]
      exact ih

/-- Comments, epoch and frame are not quantities. -/
def PlainAttrs (vs : List (Str × Val)) : Prop :=
  ∀ k ∈ [py "comment", py "epoch", py "cov_ref_frame"], ∀ c d u, Val.lookupVar k vs ≠
    some (.obj c [(py "value", .dec d), (py "units", u)])

theorem without_attr {vs vs' : List (Str × Val)} (h : List.Forall₂ (fun p p' => p.1 = p'.1 ∧ WithoutUnit p.2 p'.2) vs vs')
    (hp : PlainAttrs vs) {k : Str} (hk : k ∈ [py "comment", py "epoch", py "cov_ref_frame"]) :
    Val.lookupVar k vs = Val.lookupVar k vs' := by
  rcases without_lookup h k with ⟨h1, h2⟩ | ⟨v, v', h1, h2, h3⟩
  · rw [h1, h2]
  · rw [h1, h2]
    cases h3 with
    | same => rfl
    | drop => exact absurd h1 (hp k hk _ _ _)

theorem units_write {x x' : Val} (h : UnitsLeftOut x x') (hp : ∀ c vs, x = .obj c vs → PlainAttrs vs) (key : Str)
    (out : List Str) : collateObj key out x = collateObj key out x' := by
  cases h with
  | @mk c vs vs' hc hvs =>
    replace hp := hp c vs rfl
    have e1 : (vs.filter (·.2.truthy)).map (fun p => pyStr (valueOr p.2)) =
        (vs'.filter (·.2.truthy)).map (fun p => pyStr (valueOr p.2)) := by
      clear hp
      induction hvs with
      | nil => rfl
      | @cons p p' vs vs' hpp _ ih =>
        obtain ⟨-, h2, h3⟩ := without_value hpp.2
        rw [List.filter_cons, List.filter_cons, h2]
        split
        · rw [List.map_cons, List.map_cons, ih, h3]
        · exact ih
    have e2 : vs.filterMap (fun p => valueAttr? p.2) = vs'.filterMap (fun p => valueAttr? p.2) := by
      clear hp e1
      induction hvs with
      | nil => rfl
      | @cons p p' vs vs' hpp _ ih =>
        obtain ⟨h1, -, -⟩ := without_value hpp.2
        rw [List.filterMap_cons, List.filterMap_cons, h1, ih]
    have hso : isSpecialOut c = true := by rcases hc with rfl | rfl <;> decide
    simp only [collateObj, hso, if_true]
    congr 1
    rcases hc with rfl | rfl
    · show writeStateVector vs = writeStateVector vs'
      unfold writeStateVector
      rw [e1]
    · show writeCovariance key vs = writeCovariance key vs'
      unfold writeCovariance attrGet
      rw [e2, without_attr hvs hp (k := py "comment") (by simp), without_attr hvs hp (k := py "epoch") (by simp),
        without_attr hvs hp (k := py "cov_ref_frame") (by simp)]

theorem items_congr {key : Str} {xs xs' : List Val}
    (h : List.Forall₂ (fun x x' => ∀ out, collateObj key out x = collateObj key out x') xs xs') :
    ∀ out, collateItems key out xs = collateItems key out xs' := by
  induction h with
  | nil => intro out; rfl
  | cons hx _ ih =>
    intro out
    simp only [collateItems, hx]
    congr 1
    funext o
    exact ih o

theorem list_congr {key : Str} (hk : key ≠ py "comment" ∧ key ≠ py "user_defined") {xs xs' : List Val}
    (h : List.Forall₂ (fun x x' => headerOf x = headerOf x' ∧ ∀ out, collateObj key out x = collateObj key out x') xs xs')
    (out : List Str) : collateSub key out (.list xs) = collateSub key out (.list xs') := by
  cases h with
  | nil => rfl
  | cons hx hxs =>
    simp only [collateSub, hk.1, hk.2, if_false, hx.1]
    congr 1
    funext o
    rw [hx.2]
    congr 1
    funext o'
    exact items_congr (hxs.imp fun _ _ h => h.2) o'

theorem obj_congr {c : Cls} {vs vs' : List (Str × Val)} (hs : isSpecialOut c = false) (hk : vs.map (·.1) = vs'.map (·.1))
    (hu : vs.any (·.1 == py "units") = false) (h : ∀ out, collateVars out vs = collateVars out vs') (key : Str)
    (out : List Str) :
    collateObj key out (.obj c vs) = collateObj key out (.obj c vs') ∧
      collateSub key out (.obj c vs) = collateSub key out (.obj c vs') := by
  have hany : ∀ k, vs.any (·.1 == k) = vs'.any (·.1 == k) := by
    intro k
    have h1 : ∀ l : List (Str × Val), l.any (·.1 == k) = (l.map (·.1)).any (· == k) := by intro l; simp [List.any_map]; rfl
    rw [h1, h1, hk]
  have hnil : vs ≠ [] ↔ vs' ≠ [] := by
    have : vs.length = vs'.length := by simpa using congrArg List.length hk
    rw [← List.length_pos_iff, ← List.length_pos_iff, this]
  have hu' := hany (py "units") ▸ hu
  have hv := hany (py "value")
  constructor
  · simp only [collateObj, hs, h, hv, hnil, Bool.false_eq_true, if_false]
  · simp only [collateSub, hs, h, hv, hnil, hu, hu', Bool.false_eq_true, if_false]

theorem without_plain {vs vs' : List (Str × Val)} (h : List.Forall₂ (fun p p' => p.1 = p'.1 ∧ WithoutUnit p.2 p'.2) vs vs')
    (hp : PlainAttrs vs') : PlainAttrs vs := by
  intro k hk c d u hl
  rcases without_lookup h k with ⟨h1, h2⟩ | ⟨v, v', h1, h2, h3⟩
  · rw [h1] at hl; cases hl
  · rw [h1] at hl
    cases hl
    cases h3 with
    | same => exact hp k hk _ _ _ h2
    | drop => exact hp k hk _ _ _ h2

theorem stateVector_plain {v : Val} {l : List Line} (h : StateVector v l) : ∀ c vs, v = .obj c vs → PlainAttrs vs := by
  cases h with
  | @mk e ds he h6 h9 =>
    rintro c vs ⟨⟩ k hk c d u hl
    have hno : ∀ {as : List (Str × Cls)} {ds : List Dec}, (∀ a ∈ as, a.1 ≠ k) →
        Val.lookupVar k (numbered as ds) = none := by
      intro as
      induction as with
      | nil => intro ds _; rfl
      | cons a as ih =>
        intro ds ha
        have h1 : a.1 ≠ k := ha a (by simp)
        cases ds with
        | nil =>
          have := ih (ds := []) (fun a h => ha a (by simp [h]))
          unfold numbered
          unfold Val.lookupVar at *
          rw [List.find?_cons_of_neg (by simpa using h1)]
          exact this
        | cons d ds =>
          have := ih (ds := ds) (fun a h => ha a (by simp [h]))
          unfold numbered
          unfold Val.lookupVar at *
          rw [List.find?_cons_of_neg (by simpa using h1)]
          exact this
    have hn : ∀ k ∈ [py "comment", py "epoch", py "cov_ref_frame"], ∀ a ∈ stateAttrs, a.1 ≠ k := by decide
    have hno := hno (ds := ds) (hn k hk)
    unfold Val.lookupVar at hl hno
    by_cases he : py "epoch" = k
    · rw [List.find?_cons_of_pos (by simpa using he)] at hl
      cases hl
    · rw [List.find?_cons_of_neg (by simpa using he), hno] at hl
      cases hl

theorem covariance_plain {v : Val} {l : List Line} (h : Covariance v l) : ∀ c vs, v = .obj c vs → PlainAttrs vs := by
  cases h with
  | @mk e ds he h1 h2 =>
    rintro c vs ⟨⟩ k hk c d u hl
    simp only [List.mem_cons, List.not_mem_nil, or_false] at hk
    rcases hk with rfl | rfl | rfl <;> cases hl

/-- An OEM is written like the same OEM without units in its state vectors and covariance matrices. -/
theorem oem_units_write {o o' : Val} (h : OemUnitsLeftOut o o') (hwf : WellFormedOem o') : kvnToString o = kvnToString o' := by
  cases h with
  | @mk hd segs segs' hsegs =>
    cases hwf with
    | @mk _ lh _ ls hh hne hs =>
      have hlist : ∀ out, collateSub (py "segment") out (.list segs) = collateSub (py "segment") out (.list segs') := by
        refine fun out => list_congr (by decide) ?_ out
        clear hne
        induction hs generalizing segs with
        | nil => cases hsegs; exact .nil
        | @cons m lm d ld segs' ls hm hdt hs h1 h2 ih =>
          cases hsegs with
          | cons hseg hrest =>
            refine .cons ?_ (ih hrest)
            cases hseg with
            | @mk _ co svs svs' cms cms' hsv hcm =>
              cases hdt with
              | @mk texts _ lsv _ lcm ht hlen hne0 hsvs hcms =>
                refine ⟨rfl, fun out => ?_⟩
                have each_congr : ∀ {P : Val → List Line → Prop} {key : Str}, (∀ v l, P v l → ∀ c vs, v = .obj c vs → PlainAttrs vs) →
                    ∀ {xs xs' : List Val} {ls : List Line}, List.Forall₂ UnitsLeftOut xs xs' → Each P xs' ls →
                    List.Forall₂ (fun x x' => headerOf x = headerOf x' ∧ ∀ out, collateObj key out x = collateObj key out x') xs xs' := by
                  intro P key hP xs xs' ls h1 h2
                  induction h2 generalizing xs with
                  | nil => cases h1; exact .nil
                  | cons hx _ ih =>
                    cases h1 with
                    | cons hu hr =>
                      refine .cons ⟨?_, fun out => units_write hu ?_ key out⟩ (ih hr)
                      · cases hu; rfl
                      · cases hu with
                        | mk hc hvs =>
                          rintro c vs ⟨⟩
                          exact without_plain hvs (hP _ _ hx _ _ rfl)
                have e1 := fun out => list_congr (key := py "state_vector") (by decide)
                  (each_congr (fun v l h => stateVector_plain h) hsv hsvs) out
                have e2 := fun out => list_congr (key := py "covariance_matrix") (by decide)
                  (each_congr (fun v l h => covariance_plain h) hcm hcms) out
                have hv : ∀ out, collateVars out [(py "comment", .list (texts.map .str)), (py "state_vector", .list svs),
                    (py "covariance_matrix", .list cms)] =
                    collateVars out [(py "comment", .list (texts.map .str)), (py "state_vector", .list svs'),
                    (py "covariance_matrix", .list cms')] := by
                  intro out
                  simp only [collateVars, e1, e2]
                have hd := fun out => (obj_congr (c := .OemData) (h := hv) (by decide) (by rfl) (by rfl) (py "data") out).2
                refine (obj_congr (c := .OemSegment) (by decide) ?_ ?_ (fun out => ?_) _ out).1
                · rfl
                · rfl
                · simp only [collateVars, hd]
      have hb := fun out => (obj_congr (c := .OemBody) (vs := [(py "segment", .list segs)])
        (vs' := [(py "segment", .list segs')]) (by decide) rfl rfl (fun out => by simp only [collateVars, hlist])
        (py "body") out).2
      have ho := fun out => (obj_congr (c := .Oem)
        (vs := [(py "header", hd), (py "body", .obj .OemBody [(py "segment", .list segs)])])
        (vs' := [(py "header", hd), (py "body", .obj .OemBody [(py "segment", .list segs')])]) (by decide) rfl rfl
        (fun out => by simp only [collateVars, hb]) [] out).1
      unfold kvnToString kvnLines
      simp only [ho]
      rfl

end Ndm
