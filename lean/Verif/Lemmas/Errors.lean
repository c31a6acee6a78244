import Verif.Lemmas.AbsentRead

/-! Which exceptions the reader raises. -/

namespace Ndm

/-- All classes of a tree satisfy `P`. -/
inductive Only (P : Cls → Option Str → Prop) : Elem → Prop
  | mk {e : Elem} : P e.cls e.single → (∀ s ∈ e.subs, Only P s) → Only P e

theorem Only.inst {P : Cls → Option Str → Prop} {e e' : Elem} (h : Only P e) (hi : Inst e e') : Only P e' := by
  induction hi with
  | @mk e e' _ hcls _ hsingle _ f hf _ ih =>
    cases h with
    | mk h1 h2 => exact .mk (by rw [hcls, hsingle]; exact h1) fun s hs => ih s hs (h2 (f s) (hf s hs))

mutual
def onlyB (p : Cls → Option Str → Bool) : Elem → Bool
  | ⟨_, cls, subs, _, _, single, _, _⟩ => p cls single && onlysB p subs
def onlysB (p : Cls → Option Str → Bool) : List Elem → Bool
  | [] => true
  | s :: ss => onlyB p s && onlysB p ss
end

mutual
theorem only_of_b {p : Cls → Option Str → Bool} : ∀ e, onlyB p e = true → Only (fun c s => p c s = true) e
  | ⟨_, cls, subs, _, _, _, _, _⟩, h => by
    simp only [onlyB, Bool.and_eq_true] at h
    exact .mk h.1 (onlys_of_b subs h.2)
theorem onlys_of_b {p : Cls → Option Str → Bool} : ∀ ss, onlysB p ss = true → ∀ s ∈ ss, Only (fun c s => p c s = true) s
  | [], _, s, hs => by cases hs
  | t :: ss, h, s, hs => by
    simp only [onlysB, Bool.and_eq_true] at h
    have := only_of_b t h.1
    rcases List.mem_cons.mp hs with hs | hs
    · rw [hs]; exact this
    · exact onlys_of_b ss h.2 s hs
end

theorem prepare_only {P : Cls → Option Str → Prop} {keys : List Str} {lines : List Line} {e : Elem} {start : Nat} {subs : List Elem}
    (hd : Only P e) (h : prepareAemSegment keys lines e start = .ok subs) : ∀ s ∈ subs, Only P s := by
  cases hd with
  | mk _ hd =>
    intro s hs
    rcases prepare_subs h s hs with hs | ⟨d, hds, tm, av, rfl⟩
    · exact hd s hs
    · cases hd d hds with
      | mk h1 hs1 =>
        refine .mk h1 ?_
        intro x hx
        obtain ⟨x', hx', rfl⟩ := List.mem_map.mp hx
        cases hs1 x' hx' with
        | mk h2 hs2 => exact .mk h2 fun y hy => hs2 y (List.mem_of_mem_filter hy)

/-- Attaching to a slot of the class succeeds. -/
theorem attach_slot {c d : Cls} {o sub : Val} {name : Str} (ho : HasType (.cls c) o) (hc : c.members = none)
    (hslot : HasSlot c name d) : ∃ o', attach o name sub = .ok o' := by
  obtain ⟨f, hf, rfl, -⟩ := hslot
  cases ho with
  | enum _ hm => rw [hc] at hm; cases hm
  | enumText _ hm => rw [hc] at hm; cases hm
  | obj hm hfs =>
    obtain ⟨v, hv⟩ := hasFields_find hfs hf
    unfold attach
    simp only
    split
    · rename_i h; rw [hv] at h; cases h
    · split <;> exact ⟨_, rfl⟩
    · exact ⟨_, rfl⟩

/-- Building from an identified tree raises none but the common exceptions; only attitude ephemerides may lead to
`KeyError`. -/
theorem build_errors {S : PyErr → Prop} (hS : Common S) (keys : List Str) (lines : List Line) :
    ∀ (fuel : Nat) (e : Elem) (full : List Line) (n start : Nat), DepthLt fuel e → Typed e → Ranged n start e →
      Only (fun c _ => c = .AemSegment ∨ c = .AttitudeStateType → S .keyError) e → Raises S (build keys lines fuel e full)
  | 0, _, _, _, _, h, _, _, _ => h.elim
  | fuel + 1, e, full, n, start, hd, ht, hr, ho => by
    have hm : e.cls.members = none := by cases ht; assumption
    have hk : e.cls = .AemSegment ∨ e.cls = .AttitudeStateType → S .keyError := by cases ho; assumption
    cases hr with
    | mk a b hmm h1 h2 h3 hsr =>
    unfold build
    rw [hmm]
    simp only
    split
    · exact .ok _
    · split
      · rename_i hatt
        refine .bind ?_ fun tm _ => .bind (.pyGet hS.index _ _) fun l _ => .bind (.pyGet hS.index _ _) fun s _ =>
          .bind (identElem_raises hS _ _) fun x hx => ?_
        · unfold templateOf; split
          · exact .ok _
          · exact .err (hk (.inr hatt))
        · obtain ⟨mx, mm, e'⟩ := x
          have hi := identElem_inst _ _ _ _ _ hx
          have hrange := identElem_range (n := max tm.length (zipLines tm (words s)).length) (by omega) (by omega)
            e 0 mx mm e' (by omega) hx
          refine .bind (.pyGet hS.index _ _) fun s0 hs0 => ?_
          have hmem := pyGet_mem hs0
          have ht' := ht.inst hi
          have ho' := ho.inst hi
          have hd' := hd.inst hi
          cases ht' with
          | mk _ hslot hty =>
          cases ho' with
          | mk _ hos =>
          refine .bind (build_errors hS keys lines fuel s0 _ _ _ (hd' s0 hmem) (hty s0 hmem) (hrange.2 s0 hmem) (hos s0 hmem))
            fun inner _ => .bind ?_ fun _ _ => .pure _
          have := hslot s0 hmem
          rw [hi.cls] at this
          obtain ⟨o', ho'⟩ := attach_slot (sub := inner) (default_type hm) hm this
          rw [ho']
          exact .ok _
      · refine .bind (sectionDoc_raises hS _ _ _ _ _ fun h => hk (.inl h)) fun doc hdoc => ?_
        split
        · exact .pure _
        · rename_i doc subs
          have hsubs : ∀ s ∈ subs, (Typed s ∧ HasSlot e.cls s.name s.cls) ∧ DepthLt fuel s ∧ Ranged n a s ∧
              Only (fun c _ => c = .AemSegment ∨ c = .AttitudeStateType → S .keyError) s := by
            rcases sectionDoc_subs hdoc with rfl | ⟨-, hp⟩
            · intro s hs
              cases ht with
              | mk _ hslot hty =>
              cases ho with
              | mk _ hos => exact ⟨⟨hty s hs, hslot s hs⟩, hd s hs, hsr s hs, hos s hs⟩
            · intro s hs
              exact ⟨prepare_typed ht hp s hs, prepare_depth hd hp s hs, prepare_ranged hsr hp s hs, prepare_only ho hp s hs⟩
          refine .bind (bindDoc_raises hS _ _) fun obj hobj => .foldlM_inv (fun o => HasType (.cls e.cls) o) ?_ (bindDoc_type hm hobj)
          intro s hs o hob
          obtain ⟨⟨g1, g2⟩, g3, g4, g5⟩ := hsubs s hs
          constructor
          · refine .bind (build_errors hS keys lines fuel s full n a g3 g1 g4 g5) fun sub _ => ?_
            obtain ⟨o', ho'⟩ := attach_slot (sub := sub) hob hm g2
            rw [ho']
            exact .ok _
          · intro r hr
            obtain ⟨sub, hsub, hr⟩ := bind_ok_iff.mp hr
            exact attach_type hob hm g2 (build_type keys lines fuel s full sub g1 hsub) hr

/-- Attitude parts occur in attitude ephemerides only. -/
theorem attitude_static : (kvnTypes.all fun k => onlyB (fun c _ => decide (¬ (c = .AemSegment ∨ c = .AttitudeStateType) ∨ k = .Aem))
    (objectMap k)) = true := by decide +kernel

/-- The exceptions reading a message of kind `k` may raise. -/
def ReadErr (k : Cls) (e : PyErr) : Prop :=
  e = .indexError ∨ e = .valueError ∨ e = .parserError ∨ e = .keyError ∧ k = .Aem

theorem kvnFromString_errors {src : Str} {lines : List Line} {c : Cls} (hl : preprocess src = .ok lines)
    (hc : identifyDataType lines = .ok c) : Raises (ReadErr c) (kvnFromString src) := by
  have hS : Common (ReadErr c) := ⟨by simp [ReadErr], by simp [ReadErr], by simp [ReadErr]⟩
  have hmem : c ∈ kvnTypes := by
    have := hc
    unfold identifyDataType at this
    obtain ⟨l, -, this⟩ := bind_ok_iff.mp this
    obtain ⟨i, -, this⟩ := bind_ok_iff.mp this
    exact (findKvnType_mem this).1
  have hm : c.members = none := by
    simpa using List.all_eq_true.mp message_dataclasses c hmem
  unfold kvnFromString
  rw [hl]
  show Raises _ (identifyDataType lines >>= _)
  rw [hc]
  show Raises _ (identElem _ _ _ _ >>= _)
  refine .bind (identElem_raises hS _ _) fun x hx => ?_
  obtain ⟨mx, mm, tree⟩ := x
  have hi := identElem_inst _ _ _ _ _ hx
  have hi' : Inst (objectMap c) { tree with minMax := some mm } := hi.setRange _ _
  have ht0 : Typed (objectMap c) := by
    have := extract_typed treeDepth ((c.idVersion.map (·.1)).getD []) c false hm
    cases this with
    | mk h1 h2 h3 => exact .mk h1 h2 h3
  have hd0 : DepthLt (treeDepth + 1) (objectMap c) := extract_depth treeDepth _ c false
  have ho0 : Only (fun d _ => d = .AemSegment ∨ d = .AttitudeStateType → ReadErr c .keyError) (objectMap c) := by
    have := only_of_b _ (List.all_eq_true.mp attitude_static c hmem)
    clear hi hi' hx ht0 hd0
    generalize objectMap c = w at this
    induction this with
    | mk h1 _ ih =>
      refine .mk ?_ ih
      intro h
      simp only [decide_eq_true_eq] at h1
      exact .inr (.inr (.inr ⟨rfl, h1.resolve_left (fun h' => h' h)⟩))
  have hr := identElem_range (n := (deleteMarkers c lines).length) (by simp [keysOf]) (Nat.le_refl _) _ 0 mx mm tree (by omega) hx
  refine build_errors hS _ _ _ _ _ (deleteMarkers c lines).length 0 ((hd0.inst hi').mono (m := buildFuel) (by decide)) (ht0.inst hi') ?_ (ho0.inst hi')
  exact .mk mm.1 mm.2 rfl (by omega) (by omega) (by omega) hr.2

end Ndm
