import Verif.Lemmas.Root
import Verif.Lemmas.User
import Verif.Lemmas.Relative
import Verif.Lemmas.Rotation

/-! The round trip of message classes without marker lines. -/

namespace Ndm

theorem relative_writes {v : Val} {ls : List Line} (h : RelativeData v ls) :
    ∃ vs, v = .obj .RelativeMetadataData vs ∧ (∀ out, Writes (collateVars out vs) out ls) ∧
      vs.any (·.1 == py "units") = false := by
  cases h with
  | @mk before after rsv l₁ lᵣ l₂ h1 hr h2 hne hlast =>
    refine ⟨_, rfl, relative_sandwich.write h1 hr h2, ?_⟩
    have hu : ∀ f ∈ Cls.keyAttrs .RelativeMetadataData, (f.name == py "units") = false := by decide +kernel
    have any0 : ∀ {fs : List Field} {vs : List (Str × Val)}, vs.map (·.1) = fs.map (·.name) →
        (∀ f ∈ fs, (f.name == py "units") = false) → vs.any (·.1 == py "units") = false := by
      intro fs vs hn hf
      rw [any_units hn, List.any_eq_false]
      intro f hfm
      rw [hf f hfm]
      decide
    rw [List.any_append, List.any_cons, any0 (goodKeys_names h1) (fun f hf => hu f (List.mem_of_mem_take hf)),
      any0 (goodKeys_names h2) (fun f hf => hu f (List.mem_of_mem_drop hf))]
    show (false || (py "relative_state_vector" == py "units" || false)) = false
    decide

theorem special_writes : SpecialWrites OwnNotation := by
  intro c v ls h
  cases h with
  | user h =>
    cases h with
    | mk hne hp hn => exact ⟨by decide, _, rfl, write_user hp, rfl, by decide, by decide⟩
  | relative h =>
    obtain ⟨vs, hv, hw, hu⟩ := relative_writes h
    exact ⟨by decide, vs, hv, hw, hu, by decide, by decide⟩
  | angles h => exact angle_facts.write h
  | rates h => exact rate_facts.write h

theorem claimed_user (k : Nat) (t : Str) : Claimed (k + 1) .UserDefinedType t ↔ startsWith t userPrefix = true := by
  have h1 : claims (k + 1) .UserDefinedType = [] := by
    simp [claims, Cls.ownNotation, ownKeys]
  have h2 : users (k + 1) .UserDefinedType = 1 := by simp [users, Cls.ownNotation]
  unfold Claimed
  rw [h1, h2]
  simp

theorem claimed_own {c : Cls} (hc : c.ownNotation = true) {k : Nat} {t : Str} (h : t ∈ ownKeys c) : Claimed (k + 1) c t := by
  left
  simp only [claims, hc, if_true]
  exact h

theorem relative_keys : ∀ t, t ∈ (Cls.keyAttrs .RelativeMetadataData).map (fun f => upper f.name) ++
    (Cls.keyAttrs .RelativeStateVectorType).map (fun f => upper f.name) → t ≠ py "COMMENT" → t ∈ ownKeys .RelativeMetadataData := by
  intro t ht hc
  have h : ownKeys .RelativeMetadataData = ((Cls.keyAttrs .RelativeMetadataData).map (fun f => upper f.name) ++
    (Cls.keyAttrs .RelativeStateVectorType).map (fun f => upper f.name)).filter (· != py "COMMENT") := by decide +kernel
  rw [h, List.mem_filter]
  exact ⟨ht, by simpa using hc⟩

/-- What is written states the object. -/
theorem OwnNotation.text {c : Cls} {v : Val} {ls : List Line} (h : OwnNotation c v ls) : OwnText c v ls := by
  cases h with
  | user h => exact .user h
  | relative h =>
    cases h with
    | mk h1 hr h2 hne hlast =>
      refine .relative (.mk h1.text ?_ h2.text hne hlast)
      rcases hr with hr | ⟨vs, h3, h4, h5⟩
      · exact .inl hr
      · exact .inr ⟨vs, h3, h4.text, h5⟩
  | angles h => exact .angles h.text
  | rates h => exact .rates h.text

theorem special_reads : SpecialReads OwnText := by
  refine ⟨?_, ?_, ?_, ?_⟩
  · intro c v ls h
    cases h <;> decide
  · intro c v ls h
    cases h with
    | user h => cases h; exact ⟨_, rfl⟩
    | relative h => cases h; exact ⟨_, rfl⟩
    | angles h => cases h <;> exact ⟨_, rfl⟩
    | rates h => cases h <;> exact ⟨_, rfl⟩
  · intro c v ls k h m hm
    cases h with
    | user h =>
      cases h with
      | mk hne hp hn =>
        obtain ⟨p, -, rfl⟩ := List.mem_map.mp hm
        exact .inr ((claimed_user _ _).mpr (startsWith_userKey p.1))
    | relative h =>
      cases h with
      | @mk before after rsv l₁ lᵣ l₂ h1 hr h2 hne hlast =>
        by_cases hc : m.key = py "COMMENT"
        · exact .inl hc
        · refine .inr (claimed_own (by decide) (relative_keys _ ?_ hc))
          rw [List.mem_append]
          rw [List.append_assoc, List.mem_append, List.mem_append] at hm
          rcases hm with hm | hm | hm
          · left
            have := (goodKeys_key h1 m hm).1
            rw [List.map_take] at this
            exact List.mem_of_mem_take this
          · right
            rcases hr with ⟨-, rfl⟩ | ⟨vs, -, hv, -⟩
            · simp at hm
            · exact (goodKeys_key hv m hm).1
          · left
            have := (goodKeys_key h2 m hm).1
            rw [List.map_drop] at this
            exact List.mem_of_mem_drop this
    | angles h =>
      cases h with
      | none => cases hm
      | mk h1 h2 h3 =>
        refine .inr (claimed_own (by decide) ?_)
        show m.key ∈ angleTags
        simp only [List.mem_cons, List.not_mem_nil, or_false] at hm
        rcases hm with rfl | rfl | rfl
        · exact angle_facts.key h1
        · exact angle_facts.key h2
        · exact angle_facts.key h3
    | rates h =>
      cases h with
      | none => cases hm
      | mk h1 h2 h3 =>
        refine .inr (claimed_own (by decide) ?_)
        show m.key ∈ rateTags
        simp only [List.mem_cons, List.not_mem_nil, or_false] at hm
        rcases hm with rfl | rfl | rfl
        · exact rate_facts.key h1
        · exact rate_facts.key h2
        · exact rate_facts.key h3
  · intro c v ls k h name post hpost hfrag
    cases h with
    | user h =>
      cases h with
      | mk hne hp hn =>
        refine (read_user hne hp hn (k + 2) name false post ?_).mono (by omega)
        intro m hm hs
        exact hpost m hm ((claimed_user _ _).mpr hs)
    | relative h =>
      cases h with
      | @mk before after rsv l₁ lᵣ l₂ h1 hr h2 hne hlast =>
        have hn2 : ∀ m ∈ l₂, m.key ≠ py "COMMENT" := by
          intro m hm hc
          have := (goodKeys_key h2 m hm).1
          rw [hc] at this
          revert this
          decide +kernel
        have hno := hfrag (by decide)
        have hnc : py "COMMENT" ∉ (Cls.keyAttrs .RelativeStateVectorType).map (fun f => upper f.name) := by decide +kernel
        refine (relative_sandwich.read h1 hr h2 hne hlast hn2 (k + 1) name false post ?_ ?_).mono (by omega)
        · intro m hm hc hk
          exact hno m hm (claimed_own (by decide) (relative_keys _ (List.mem_append_left _ hk) hc))
        · intro m hm hk
          have hc : m.key ≠ py "COMMENT" := fun hc => hnc (hc ▸ hk)
          exact hno m hm (claimed_own (by decide) (relative_keys _ (List.mem_append_right _ hk) hc))
    | angles h =>
      exact (angle_facts.read h (k + 1) name false post fun m hm ht =>
        hfrag (by decide) m hm (claimed_own (by decide) ht)).mono (by omega)
    | rates h =>
      exact (rate_facts.read h (k + 1) name false post fun m hm ht =>
        hfrag (by decide) m hm (claimed_own (by decide) ht)).mono (by omega)

/-- What is checked of a message class for its round trip. -/
def messageOk (c : Cls) : Bool :=
  nice 10 c && readable 10 c && decide (claims 10 c).Nodup &&
  (claims 10 c).all (fun t => t != py "COMMENT" && !startsWith t userPrefix && t != py "id" && t != py "version") &&
  decide (users 10 c ≤ 1) && decide (deletedKeywords c = [])

/-- The lines of the blocks of a message state it: it is read as what they state. -/
theorem read_message {c : Cls} {id ver : Str} (hk : (c, id, ver) ∈ messageKinds) (hok : messageOk c = true) {v : Val}
    {ls : List Line} (hg : GoodOf Spelled OwnText c v ls) {src ver' : Str} (hx : xmlCheck ver' = .ok ())
    (hl : (splitChar '\n' src).filterMap parseLine = [id, ver'] :: ls) : kvnFromString src = .ok v := by
  have hroot := rootCls hk
  simp only [messageOk, Bool.and_eq_true, decide_eq_true_eq, List.all_eq_true, bne_iff_ne, ne_eq, Bool.not_eq_true'] at hok
  obtain ⟨⟨⟨⟨⟨hnice, hread⟩, hnd⟩, hcl⟩, hus⟩, hdk⟩ := hok
  have htidy : Tidy (claims 10 c) (users 10 c) := ⟨hnd, fun t ht => ⟨(hcl t ht).1.1.1, (hcl t ht).1.1.2⟩, hus⟩
  cases hg with
  | special h =>
    exfalso
    have h1 := (by decide : ∀ p ∈ messageKinds, p.1.ownNotation = false) _ hk
    rw [special_reads.notation_ h] at h1
    exact absurd h1 (by simp)
  | @obj _ kvs bvs own ls hown hk' hb hlaid =>
    have hkvs : kvs = [] ∧ own = [] := by
      obtain ⟨own₀, hk₀, hro⟩ := hk'
      rw [hroot.keys] at hk₀
      cases hk₀
      exact ⟨rfl, hro.nil_iff.mp rfl⟩
    obtain ⟨rfl, rfl⟩ := hkvs
    obtain ⟨-, -, hrl⟩ := readable_split hread hown
    rw [claims_split hown, users_split hown, hroot.keys] at htidy
    simp only [List.map_nil, List.filter_nil, List.nil_append] at htidy
    have hs := read_blocks special_reads (read_good special_reads 9) (post := []) hrl htidy hb (by simp) (by simp) (by simp)
    have hcl' : ∀ t ∈ claimsL 9 c.blockAttrs, t ≠ py "id" ∧ t ≠ py "version" := by
      intro t ht
      have := hcl t (by rw [claims_split hown]; simp [ht])
      exact ⟨this.1.2, this.2⟩
    refine read_root hroot hx hl ?_ (n := 9) (by decide) hs (goodBlocks_vals special_reads hb) ⟨?_, ?_⟩ ?_
    · simp [deleteMarkers, hdk]
    · rintro (hc | ⟨-, hc⟩)
      · exact (hcl' _ hc).1 rfl
      · exact absurd hc (by decide)
    · rintro (hc | ⟨-, hc⟩)
      · exact (hcl' _ hc).2 rfl
      · exact absurd hc (by decide)
    · simp [hdk]

theorem round_trip {c : Cls} {id ver : Str} (hk : (c, id, ver) ∈ messageKinds) (hok : messageOk c = true) {v : Val}
    (h : WellFormed c v) : ∃ text, kvnToString v = .ok text ∧ kvnFromString text = .ok v := by
  obtain ⟨ls, hg⟩ := h
  have hnice : nice 10 c = true := by
    simp only [messageOk, Bool.and_eq_true] at hok
    exact hok.1.1.1.1.1
  obtain ⟨vs, rfl, hw, -⟩ := write_good special_writes 10 c hnice v ls hg
  obtain ⟨text, ht, hl⟩ := write_root (rootCls hk) hw
  exact ⟨text, ht, read_message hk hok (hg.mono (fun _ _ _ h => h.spelled) fun _ _ _ h => h.text)
    (rootCls hk).xver hl⟩

theorem opm_ok : messageOk .Opm = true := by decide +kernel
theorem omm_ok : messageOk .Omm = true := by decide +kernel
theorem rdm_ok : messageOk .Rdm = true := by decide +kernel
theorem cdm_ok : messageOk .Cdm = true := by decide +kernel
theorem apm_ok : messageOk .Apm = true := by decide +kernel

end Ndm
