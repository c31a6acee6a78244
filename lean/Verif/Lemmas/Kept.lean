import Verif.SpecKept
import Verif.Lemmas.BindRt

/-! Every line of a message's notation is represented in the message. -/

namespace Ndm

theorem Within.trans {a b c : Val} (h : Within a b) (h' : Within b c) : Within a c := by
  induction h' with
  | self => exact h
  | field hm _ ih => exact .field hm ih
  | item hm _ ih => exact .item hm ih

theorem Kept.mono {v v' : Val} {l : Line} (h : Kept v l) (hv : Within v v') : Kept v' l := by
  cases h with
  | keyword a b c d => exact .keyword (a.trans hv) b c d
  | comment a b c => exact .comment (a.trans hv) b c
  | user a => exact .user (a.trans hv)
  | angle a b => exact .angle (a.trans hv) b
  | rate a b => exact .rate (a.trans hv) b
  | state a b => exact .state (a.trans hv) b
  | covariance a b c => exact .covariance (a.trans hv) b c
  | observation a b => exact .observation (a.trans hv) b
  | attitude a b c d => exact .attitude (a.trans hv) b (c.trans hv) d

theorem keysOf_kept {fs : List Field} {vs : List (Str × Val)} {ls : List Line} (h : KeysOf KeyText fs vs ls) :
    ∀ l ∈ ls, (∃ f ∈ fs, ∃ w, (f.name, w) ∈ vs ∧ KeyText f w l) ∨
      ∃ xs t, (py "comment", .list xs) ∈ vs ∧ .str t ∈ xs ∧ l = [py "COMMENT", t] := by
  induction h with
  | nil => intro l hl; cases hl
  | absent _ _ ih =>
    intro l hl
    rcases ih l hl with ⟨f, hf, w, hw, hk⟩ | ⟨xs, t, hx, ht, rfl⟩
    · exact .inl ⟨f, List.mem_cons_of_mem _ hf, w, List.mem_cons_of_mem _ hw, hk⟩
    · exact .inr ⟨xs, t, List.mem_cons_of_mem _ hx, ht, rfl⟩
  | @value f fs v vs l₀ ls _ hr _ ih =>
    intro l hl
    rcases List.mem_cons.mp hl with rfl | hl
    · exact .inl ⟨f, List.mem_cons_self, v, List.mem_cons_self, hr⟩
    · rcases ih l hl with ⟨f, hf, w, hw, hk⟩ | ⟨xs, t, hx, ht, rfl⟩
      · exact .inl ⟨f, List.mem_cons_of_mem _ hf, w, List.mem_cons_of_mem _ hw, hk⟩
      · exact .inr ⟨xs, t, List.mem_cons_of_mem _ hx, ht, rfl⟩
  | @comments f fs texts vs ls _ hn _ _ ih =>
    intro l hl
    rcases List.mem_append.mp hl with hl | hl
    · obtain ⟨t, ht, rfl⟩ := List.mem_map.mp hl
      exact .inr ⟨texts.map .str, t, by rw [hn]; exact List.mem_cons_self, List.mem_map_of_mem ht, rfl⟩
    · rcases ih l hl with ⟨f, hf, w, hw, hk⟩ | ⟨xs, t, hx, ht, rfl⟩
      · exact .inl ⟨f, List.mem_cons_of_mem _ hf, w, List.mem_cons_of_mem _ hw, hk⟩
      · exact .inr ⟨xs, t, List.mem_cons_of_mem _ hx, ht, rfl⟩

/-- The keyword lines of an object are represented in it. -/
theorem keys_kept {c : Cls} {fs : List Field} {vs ws : List (Str × Val)} {ls : List Line} (h : KeysOf KeyText fs vs ls)
    (hf : ∀ f ∈ fs, f ∈ c.keyAttrs) (hv : ∀ p ∈ vs, p ∈ ws) : ∀ l ∈ ls, Kept (.obj c ws) l := by
  intro l hl
  rcases keysOf_kept h l hl with ⟨f, hf', w, hw, hk⟩ | ⟨xs, t, hx, ht, rfl⟩
  · exact .keyword .self (hf f hf') (hv _ hw) hk
  · exact .comment .self (hv _ hx) ht

theorem spelled_kept {c : Cls} {vs ws : List (Str × Val)} {ls : List Line} (h : Spelled c vs ls) (hv : ∀ p ∈ vs, p ∈ ws) :
    ∀ l ∈ ls, Kept (.obj c ws) l := by
  obtain ⟨own, hk, hr⟩ := h
  intro l hl
  exact keys_kept hk (fun _ h => h) hv l (hr.mem.mpr hl)

theorem rotations_kept {c : Cls} {P : Val → Line → Prop} (hP : ∀ w v l, Within w v → P w l → Kept v l) {v : Val} {ls : List Line}
    (h : RotationsOf c P v ls) : ∀ l ∈ ls, Kept v l := by
  cases h with
  | none => intro l hl; cases hl
  | @mk v₁ v₂ v₃ l₁ l₂ l₃ h₁ h₂ h₃ =>
    intro l hl
    simp only [List.mem_cons, List.not_mem_nil, or_false] at hl
    rcases hl with rfl | rfl | rfl
    · exact hP v₁ _ _ (.field (n := py "rotation1") (by simp) .self) h₁
    · exact hP v₂ _ _ (.field (n := py "rotation2") (by simp) .self) h₂
    · exact hP v₃ _ _ (.field (n := py "rotation3") (by simp) .self) h₃

theorem own_kept {c : Cls} {v : Val} {ls : List Line} (h : OwnText c v ls) : ∀ l ∈ ls, Kept v l := by
  cases h with
  | user h =>
    cases h with
    | @mk ps _ _ _ =>
      intro l hl
      obtain ⟨p, hp, rfl⟩ := List.mem_map.mp hl
      refine .user (.field (n := py "user_defined") (List.mem_cons_of_mem _ List.mem_cons_self) (.item (List.mem_map_of_mem hp) .self))
  | relative h =>
    cases h with
    | @mk before after rsv l₁ lᵣ l₂ hb hr ha _ _ =>
      intro l hl
      rw [List.mem_append, List.mem_append] at hl
      rcases hl with (hl | hl) | hl
      · exact keys_kept hb (fun _ h => List.mem_of_mem_take h) (fun p hp => List.mem_append_left _ hp) l hl
      · rcases hr with ⟨-, rfl⟩ | ⟨vs, rfl, hk, -⟩
        · cases hl
        · have := keys_kept hk (c := .RelativeStateVectorType) (fun _ h => h) (fun _ h => h) l hl
          exact this.mono (.field (n := py "relative_state_vector") (by simp) .self)
      · exact keys_kept ha (fun _ h => List.mem_of_mem_drop h)
          (fun p hp => List.mem_append_right _ (List.mem_cons_of_mem _ hp)) l hl
  | angles h => exact rotations_kept (fun _ _ _ => .angle) h
  | rates h => exact rotations_kept (fun _ _ _ => .rate) h

mutual
theorem good_kept {c : Cls} {v : Val} {ls : List Line} : GoodOf Spelled OwnText c v ls → ∀ l ∈ ls, Kept v l
  | .special h, l, hl => own_kept h l hl
  | .obj _ hk hb _, l, hl => by
    rcases List.mem_append.mp hl with hl | hl
    · exact spelled_kept hk (fun p hp => List.mem_append_left _ hp) l hl
    · obtain ⟨n, x, hm, hx⟩ := blocks_kept hb l hl
      exact hx.mono (.field (List.mem_append_right _ hm) .self)

theorem blocks_kept {fs : List Field} {vs : List (Str × Val)} {ls : List Line} :
    GoodBlocksOf Spelled OwnText fs vs ls → ∀ l ∈ ls, ∃ n x, (n, x) ∈ vs ∧ Kept x l
  | .nil, l, hl => by cases hl
  | .absent _ _ _ h, l, hl => by
    obtain ⟨n, x, hm, hx⟩ := blocks_kept h l hl
    exact ⟨n, x, List.mem_cons_of_mem _ hm, hx⟩
  | .one _ _ hg h, l, hl => by
    rcases List.mem_append.mp hl with hl | hl
    · exact ⟨_, _, List.mem_cons_self, good_kept hg l hl⟩
    · obtain ⟨n, x, hm, hx⟩ := blocks_kept h l hl
      exact ⟨n, x, List.mem_cons_of_mem _ hm, hx⟩
  | .many _ _ _ hi h, l, hl => by
    rcases List.mem_append.mp hl with hl | hl
    · obtain ⟨x, hx, hk⟩ := items_kept hi l hl
      exact ⟨_, _, List.mem_cons_self, hk.mono (.item hx .self)⟩
    · obtain ⟨n, x, hm, hx⟩ := blocks_kept h l hl
      exact ⟨n, x, List.mem_cons_of_mem _ hm, hx⟩

theorem items_kept {d : Cls} {xs : List Val} {ls : List Line} :
    GoodItemsOf Spelled OwnText d xs ls → ∀ l ∈ ls, ∃ x ∈ xs, Kept x l
  | .nil, l, hl => by cases hl
  | .cons hg _ _ h, l, hl => by
    rcases List.mem_append.mp hl with hl | hl
    · exact ⟨_, List.mem_cons_self, good_kept hg l hl⟩
    · obtain ⟨x, hx, hk⟩ := items_kept h l hl
      exact ⟨x, List.mem_cons_of_mem _ hx, hk⟩
end

theorem keyBlock_kept {c : Cls} {v : Val} {ls : List Line} (h : KeyBlockOf Spelled c v ls) : ∀ l ∈ ls, Kept v l := by
  cases h with
  | mk hk _ _ => exact spelled_kept hk fun _ h => h

theorem each_kept {P : Val → List Line → Prop} {Q : Val → Line → Prop} (hP : ∀ x ls, P x ls → ∀ l ∈ ls, Q x l) {xs : List Val}
    {ls : List Line} (h : Each P xs ls) : ∀ l ∈ ls, ∃ x ∈ xs, Q x l := by
  induction h with
  | nil => intro l hl; cases hl
  | cons hx _ ih =>
    intro l hl
    rcases List.mem_append.mp hl with hl | hl
    · exact ⟨_, List.mem_cons_self, hP _ _ hx l hl⟩
    · obtain ⟨x, hx, hk⟩ := ih l hl
      exact ⟨x, List.mem_cons_of_mem _ hx, hk⟩

theorem oemData_kept {d : Val} {ls : List Line} (h : OemDataOf StateText CovarianceText d ls) : ∀ l ∈ ls, Kept d l := by
  cases h with
  | @mk texts svs lsv cms lcm _ _ _ hs hc =>
    intro l hl
    rw [List.mem_append, List.mem_append] at hl
    rcases hl with hl | hl | hl
    · obtain ⟨t, ht, rfl⟩ := List.mem_map.mp hl
      exact .comment .self (by simp) (List.mem_map_of_mem ht)
    · obtain ⟨x, hx, hk⟩ := each_kept (Q := Kept) (by
        intro x ls h l hl
        cases h with
        | mk a b c d e =>
          rw [List.mem_singleton] at hl
          subst hl
          exact .state .self (.mk a b c d e)) hs l hl
      exact hk.mono (.field (n := py "state_vector") (x := .list svs) (by simp) (.item hx .self))
    · obtain ⟨x, hx, hk⟩ := each_kept (Q := Kept) (fun x ls h l hl => .covariance .self h hl) hc l hl
      exact hk.mono (.field (n := py "covariance_matrix") (x := .list cms) (by simp) (.item hx .self))

theorem oemSegments_kept {segs : List Val} {ls : List Line} (h : OemSegmentsOf Spelled StateText CovarianceText segs ls) :
    ∀ l ∈ ls, ∃ s ∈ segs, Kept s l := by
  induction h with
  | nil => intro l hl; cases hl
  | @cons m lm d ld segs ls hm hd _ _ _ ih =>
    intro l hl
    rw [List.mem_append, List.mem_append] at hl
    rcases hl with (hl | hl) | hl
    · exact ⟨_, List.mem_cons_self, (keyBlock_kept hm l hl).mono (.field (n := py "metadata") (by simp) .self)⟩
    · exact ⟨_, List.mem_cons_self, (oemData_kept hd l hl).mono (.field (n := py "data") (by simp) .self)⟩
    · obtain ⟨s, hs, hk⟩ := ih l hl
      exact ⟨s, List.mem_cons_of_mem _ hs, hk⟩

theorem tdmData_kept {d : Val} {ls : List Line} (h : TdmDataOk Observed d ls) : ∀ l ∈ ls, Kept d l := by
  cases h with
  | @mk texts obs lo _ _ _ hs =>
    intro l hl
    rcases List.mem_append.mp hl with hl | hl
    · obtain ⟨t, ht, rfl⟩ := List.mem_map.mp hl
      exact .comment .self (by simp) (List.mem_map_of_mem ht)
    · obtain ⟨x, hx, hk⟩ := each_kept (Q := Kept) (by
        intro x ls h l hl
        cases h with
        | mk a b c d e =>
          rw [List.mem_singleton] at hl
          subst hl
          exact .observation .self (.mk a b c d e)) hs l hl
      exact hk.mono (.field (n := py "observation") (x := .list obs) (by simp) (.item hx .self))

theorem tdmSegments_kept {segs : List Val} {ls : List Line} (h : TdmSegmentsOf Spelled Observed segs ls) :
    ∀ l ∈ ls, ∃ s ∈ segs, Kept s l := by
  induction h with
  | nil => intro l hl; cases hl
  | @cons m lm d ld segs ls hm hd _ _ _ ih =>
    intro l hl
    rw [List.mem_append, List.mem_append] at hl
    rcases hl with (hl | hl) | hl
    · exact ⟨_, List.mem_cons_self, (keyBlock_kept hm l hl).mono (.field (n := py "metadata") (by simp) .self)⟩
    · exact ⟨_, List.mem_cons_self, (tdmData_kept hd l hl).mono (.field (n := py "data") (by simp) .self)⟩
    · obtain ⟨s, hs, hk⟩ := ih l hl
      exact ⟨s, List.mem_cons_of_mem _ hs, hk⟩

theorem aemSegments_kept {segs : List Val} {ls : List Line} (h : AemSegmentsOf Spelled AttitudeRead segs ls) :
    ∀ l ∈ ls, ∃ s ∈ segs, Kept s l := by
  induction h with
  | nil => intro l hl; cases hl
  | @cons D m lm d ld segs ls hm hD hd _ _ ih =>
    intro l hl
    rw [List.mem_append, List.mem_append] at hl
    rcases hl with (hl | hl) | hl
    · exact ⟨_, List.mem_cons_self, (keyBlock_kept hm l hl).mono (.field (n := py "metadata") (by simp) .self)⟩
    · refine ⟨_, List.mem_cons_self, ?_⟩
      have hmw : Within m (aemSegment m d) := .field (n := py "metadata") (by simp) .self
      have hdw : Within d (aemSegment m d) := .field (n := py "data") (by simp) .self
      cases hd with
      | @mk texts sts lo _ _ _ hs =>
        rcases List.mem_append.mp hl with hl | hl
        · obtain ⟨t, ht, rfl⟩ := List.mem_map.mp hl
          exact .comment hdw (by simp) (List.mem_map_of_mem ht)
        · obtain ⟨x, hx, hk⟩ := each_kept (Q := fun x l => AttitudeRead D x [l]) (by
            intro x ls h l hl
            cases h with
            | mk a b c d =>
              rw [List.mem_singleton] at hl
              subst hl
              exact .mk a b c d) hs l hl
          exact .attitude hmw hD (Within.trans (.field (n := py "attitude_state") (x := .list sts) (by simp) (.item hx .self)) hdw) hk
    · obtain ⟨s, hs, hk⟩ := ih l hl
      exact ⟨s, List.mem_cons_of_mem _ hs, hk⟩

/-- Every line of a message's notation is represented in the message. -/
theorem message_kept {c : Cls} {v : Val} {ls : List Line} (h : MessageText c v ls) : ∀ l ∈ ls, Kept v l := by
  have main : ∀ {c d : Cls} {h : Val} {lh ls : List Line} {segs : List Val} {e : Cls}, KeyBlockOf Spelled e h lh →
      (∀ l ∈ ls, ∃ s ∈ segs, Kept s l) →
      ∀ l ∈ lh ++ ls, Kept (.obj c [(py "header", h), (py "body", .obj d [(py "segment", .list segs)])]) l := by
    intro c d h lh ls segs e hh hs l hl
    rcases List.mem_append.mp hl with hl | hl
    · exact (keyBlock_kept hh l hl).mono (.field (n := py "header") (by simp) .self)
    · obtain ⟨s, hs, hk⟩ := hs l hl
      exact hk.mono (.field (n := py "body") (x := .obj d [(py "segment", .list segs)]) (by simp)
        (.field (n := py "segment") (x := .list segs) (by simp) (.item hs .self)))
  cases h with
  | keywords _ hg => exact good_kept hg
  | oem hh _ hs => exact main hh (oemSegments_kept hs)
  | tdm hh _ hs => exact main hh (tdmSegments_kept hs)
  | aem hh _ hs => exact main hh (aemSegments_kept hs)

end Ndm
