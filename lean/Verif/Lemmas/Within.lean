import Verif.SpecWithin
import Verif.Lemmas.Conf
import Verif.Lemmas.FromBuild

/-! What holds of every part of a built object. -/

namespace Ndm

theorem hasFields_mem {n : Str} {x : Val} : ∀ {fs : List Field} {vs : List (Str × Val)}, HasFields fs vs → (n, x) ∈ vs →
    ∃ f ∈ fs, FieldOk f x
  | _, _, .nil, h => by cases h
  | _, _, .cons hv hr, h => by
    rcases List.mem_cons.mp h with h | h
    · cases h
      exact ⟨_, List.mem_cons_self, hv⟩
    · obtain ⟨f, hf, hx⟩ := hasFields_mem hr h
      exact ⟨f, List.mem_cons_of_mem _ hf, hx⟩

theorem allHaveType_mem {t : FTy} {x : Val} : ∀ {xs : List Val}, AllHaveType t xs → x ∈ xs → HasType t x
  | _, .nil, h => by cases h
  | _, .cons hv hr, h => by
    rcases List.mem_cons.mp h with h | h
    · cases h; exact hv
    · exact allHaveType_mem hr h

/-- The classes of the objects inside an object of a class in `S`, when `S` is closed. -/
theorem within_class {S : List Cls}
    (hS : ∀ c ∈ S, ∀ f ∈ c.attrs, ∀ e, f.ty = .cls e → e.members = none → e ∈ S) {d : Cls} {ws : List (Str × Val)} {v : Val}
    (h : Within (.obj d ws) v) :
    (∀ t, (∀ c, t = .cls c → c.members = none → c ∈ S) → HasType t v → d ∈ S) ∧
    (∀ t, (∀ c, t = .cls c → c.members = none → c ∈ S) → ∀ xs, v = .list xs → AllHaveType t xs → d ∈ S) := by
  induction h with
  | self =>
    refine ⟨?_, fun t _ xs h _ => by cases h⟩
    intro t ht h
    cases h with
    | obj hm _ => exact ht _ rfl hm
  | @field c vs n x hmem hw ih =>
    refine ⟨?_, fun t _ xs h _ => by cases h⟩
    intro t ht h
    cases h with
    | obj hm hf =>
      have hc := ht _ rfl hm
      obtain ⟨f, hfm, hx⟩ := hasFields_mem hf hmem
      have hty : ∀ c', f.ty = .cls c' → c'.members = none → c' ∈ S := fun c' h1 h2 => hS c hc f hfm c' h1 h2
      cases hx with
      | list _ ha => exact ih.2 _ hty _ rfl ha
      | none _ => exact absurd hw (by intro h; cases h)
      | one _ h1 => exact ih.1 _ hty h1
  | @item xs x hmem hw ih =>
    refine ⟨fun t ht h => (by cases h), ?_⟩
    intro t ht xs' h ha
    cases h
    refine ih.1 t ht ?_
    exact allHaveType_mem ha hmem

theorem mem_setVar {name n : Str} {v x : Val} : ∀ {vs : List (Str × Val)}, (n, x) ∈ Val.setVar name v vs →
    x = v ∨ (n, x) ∈ vs
  | [], h => by
    simp only [Val.setVar, List.mem_singleton, Prod.mk.injEq] at h
    exact Or.inl h.2
  | (k, w) :: vs, h => by
    unfold Val.setVar at h
    split at h
    · rcases List.mem_cons.mp h with h | h
      · cases h; exact Or.inl rfl
      · exact Or.inr (List.mem_cons_of_mem _ h)
    · rcases List.mem_cons.mp h with h | h
      · cases h; exact Or.inr List.mem_cons_self
      · exact (mem_setVar h).imp id (List.mem_cons_of_mem _)

theorem lookupVar_within {name : Str} {v : Val} {vs : List (Str × Val)} (h : Val.lookupVar name vs = some v) :
    ∃ n, (n, v) ∈ vs := by
  unfold Val.lookupVar at h
  obtain ⟨⟨n, w⟩, hp, rfl⟩ := Option.map_eq_some_iff.mp h
  exact ⟨n, List.mem_of_find?_eq_some hp⟩

/-- A property of objects that holds of what each element is bound to holds of all parts of what is built. -/
theorem build_within {keys : List Str} {lines full : List Line} (P : Val → Prop) (T : Elem → Prop) (hnone : P .none)
    (hlist : ∀ xs, P (.list xs)) (hsub : ∀ e, T e → ∀ s ∈ e.subs, T s)
    (hprep : ∀ e start subs, T e → prepareAemSegment keys lines e start = .ok subs → ∀ s ∈ subs, T s)
    (hatt : ∀ e v w, T e → e.cls = .AttitudeStateType → HasType (.cls .AttitudeStateType) v → Within w v → P w)
    (hset : ∀ c vs name d x, HasSlot c name d → d.members = none → P (.obj c vs) → P (.obj c (Val.setVar name x vs)))
    (hbind : ∀ (e : Elem) (lo hi : Nat) (doc : XDoc) (subs : List Elem) (obj : Val), Typed e → T e → e.minMax = some (lo, hi) →
      ¬ ((full.drop lo).take (hi - lo) = [] ∧ e.subs = []) →
      sectionDoc keys lines e ((full.drop lo).take (hi - lo)) hi = .ok (some (doc, subs)) →
      bindDoc e.cls doc = .ok obj → ∀ w, Within w obj → P w) :
    ∀ (fuel : Nat) (e : Elem) (v : Val), Typed e → T e → build keys lines fuel e full = .ok v →
      ∀ w, Within w v → P w
  | 0, _, _, _, _, h => by cases h
  | fuel + 1, e, v, ht, hT, h => by
    have hbt := build_type keys lines (fuel + 1) e full v ht h
    have vnone : v = .none → ∀ w, Within w v → P w := by
      rintro rfl w hw
      cases hw
      exact hnone
    unfold build at h
    split at h
    · cases h
    · rename_i lo hi hmm
      simp only at h
      split at h
      · cases h; exact vnone rfl
      · rename_i hne
        split at h
        · rename_i hcls
          rcases hbt with hbt | hbt
          · exact vnone hbt
          · rw [hcls] at hbt
            exact fun w hw => hatt e v w hT hcls hbt hw
        · obtain ⟨doc?, hdoc, h⟩ := bind_ok_iff.mp h
          split at h
          · cases h; exact vnone rfl
          · rename_i doc subs
            obtain ⟨obj, hobj, h⟩ := bind_ok_iff.mp h
            have hm : e.cls.members = none := by cases ht; assumption
            have hsubs : ∀ s ∈ subs, (Typed s ∧ HasSlot e.cls s.name s.cls) ∧ T s := by
              rcases sectionDoc_subs hdoc with rfl | ⟨-, hp⟩
              · intro s hs
                refine ⟨?_, hsub e hT s hs⟩
                cases ht with
                | mk _ hslot hty => exact ⟨hty s hs, hslot s hs⟩
              · exact fun s hs => ⟨prepare_typed ht hp s hs, hprep e _ subs hT hp s hs⟩
            have h0 := hbind e lo hi doc subs obj ht hT hmm hne hdoc hobj
            refine (foldlM_inv (P := fun o => HasType (.cls e.cls) o ∧ ∀ w, Within w o → P w) ?_
              ⟨bindDoc_type hm hobj, h0⟩ h).2
            rintro s hs o r ⟨ho, hP⟩ hr
            obtain ⟨sub, hb, ha⟩ := bind_ok_iff.mp hr
            obtain ⟨⟨hts, hsl⟩, hTs⟩ := hsubs s hs
            have hms : s.cls.members = none := by cases hts; assumption
            have hsubP := build_within P T hnone hlist hsub hprep hatt hset hbind fuel s sub hts hTs hb
            refine ⟨attach_type ho hm hsl (build_type keys lines fuel s full sub hts hb) ha, ?_⟩
            unfold attach at ha
            split at ha
            · rename_i c vs
              have hc : c = e.cls := by cases ho; rfl
              subst hc
              have hself := hP _ .self
              split at ha
              · cases ha
              · rename_i xs hlk
                split at ha
                · cases ha
                  obtain ⟨n', hn'⟩ := lookupVar_within hlk
                  intro w hw
                  cases hw with
                  | self => exact hset _ _ _ _ _ hsl hms hself
                  | field hmem hw =>
                    rcases mem_setVar hmem with rfl | hmem
                    · cases hw with
                      | self => exact hlist _
                      | item hx hw =>
                        rcases List.mem_append.mp hx with hx | hx
                        · exact hP w (.field hn' (.item hx hw))
                        · rw [List.mem_singleton] at hx
                          subst hx
                          exact hsubP w hw
                    · exact hP w (.field hmem hw)
                · cases ha
                  exact hP
              · cases ha
                intro w hw
                cases hw with
                | self => exact hset _ _ _ _ _ hsl hms hself
                | field hmem hw =>
                  rcases mem_setVar hmem with rfl | hmem
                  · exact hsubP w hw
                  · exact hP w (.field hmem hw)
            · cases ha

end Ndm
