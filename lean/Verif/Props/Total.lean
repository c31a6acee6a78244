import Verif.Lemmas.Range
import Verif.Props.History

/-! # C11 (termination) and C39 (section ranges) -/

namespace Ndm

/-! ## The class graph is covered by the depth bound of the tree construction -/

/-- Following the block fields of a class never goes deeper than `n` levels. -/
def shallow : Nat → Cls → Bool
  | 0, _ => false
  | n + 1, c => c.isValueClass || c.blockFields.all fun f => match f.ty.cls? with
    | some d => shallow n d
    | none => true

theorem shallow_message_classes : kvnTypes.all (shallow treeDepth) = true := by decide +kernel

theorem extract_more : ∀ (n k : Nat) (name : Str) (c : Cls) (l : Bool), shallow n c = true →
    extract (n + k) name c l = extract n name c l
  | 0, _, _, _, _, h => by cases h
  | n + 1, k, name, c, l, h => by
    rw [show n + 1 + k = n + k + 1 by omega]
    unfold extract
    simp only
    split
    · rfl
    · rename_i hv
      unfold shallow at h
      simp only [hv, Bool.false_or, List.all_eq_true] at h
      congr 1
      apply List.filterMap_congr
      intro f hf
      have := h f hf
      cases hd : f.ty.cls? with
      | none => rfl
      | some d =>
        rw [hd] at this
        simp only [Option.map_some, Option.some.injEq]
        exact extract_more n k f.name d f.isList this

/-- The depth bound of the tree construction is never reached: any larger bound gives the same tree. -/
theorem extract_fuel (c : Cls) (hc : c ∈ kvnTypes) (k : Nat) (name : Str) (l : Bool) :
    extract (treeDepth + k) name c l = extract treeDepth name c l :=
  extract_more _ _ _ _ _ (List.all_eq_true.mp shallow_message_classes c hc)

/-- Every edge class below a block field has a field naming its keyword (so `keywords[0]` at line 536 exists). -/
theorem edge_classes_have_keyword : (Cls.all.all fun c => c.isValueClass || c.blockFields.all fun f =>
    match f.ty.cls? with
    | some d => !d.isValueClass || d.keywordField.isSome
    | none => true) = true := by decide +kernel

/-! ## C11 -/

theorem findKvnType_mem {id : Str} {c : Cls} (h : findKvnType id = .ok c) :
    c ∈ kvnTypes ∧ c.idVersion.map (·.1) = some id := by
  unfold findKvnType at h
  split at h
  · rename_i c' hf
    cases h
    exact ⟨List.mem_of_find?_eq_some hf, by simpa using List.find?_some hf⟩
  · cases h

/-- **C11.** For every input string the KVN reader returns an object or raises a Python exception: none of its loops
and recursions runs on (in particular the loop over the elements of a list always advances). -/
theorem C11_terminates (src : Str) : (∃ v, kvnFromString src = .ok v) ∨
    ∃ e, kvnFromString src = .error e ∧ e ≠ .nonTermination := by
  have : Raises (· ≠ .nonTermination) (kvnFromString src) := by
    have hS : Common (· ≠ PyErr.nonTermination) := ⟨by decide, by decide, by decide⟩
    unfold kvnFromString
    refine .bind ?_ fun lines _ => .bind ?_ fun cls _ => .bind (identElem_raises hS _ _) fun x hx => ?_
    · unfold preprocess
      split
      · exact .err (by decide)
      · exact .bind (.pyGet hS.index _ _) fun _ _ => .pure _
    · unfold identifyDataType
      refine .bind (.pyGet hS.index _ _) fun _ _ => .bind (.pyGet hS.index _ _) fun _ _ => ?_
      unfold findKvnType
      split
      · exact .ok _
      · exact .err (by decide)
    · obtain ⟨mx, mm, tree⟩ := x
      apply build_raises hS (by decide) (by decide)
      have h1 : DepthLt (treeDepth + 1) (objectMap cls) := extract_depth treeDepth _ cls false
      have h2 := (h1.inst (identElem_inst _ _ _ _ _ hx)).mono (m := buildFuel) (by decide)
      exact h2.inst ((Inst.of_exists rfl rfl rfl rfl rfl fun s hs => ⟨s, hs, instRefl s⟩ : Inst tree tree).setRange _ _)
  cases h : kvnFromString src with
  | ok v => exact Or.inl ⟨v, rfl⟩
  | error e => exact Or.inr ⟨e, rfl, this e h⟩

/-- The same on any instance, whatever was read with it before. -/
theorem C11_instance (s : KvnSelf) (src : Str) : (∃ v, (s.fromString src).1 = .ok v) ∨
    ∃ e, (s.fromString src).1 = .error e ∧ e ≠ .nonTermination := by
  rw [kvn_history_independent]
  exact C11_terminates src

/-! ## C39 -/

/-- **C39.** Searching any section of any message from line `init`: the range found starts at or after `init`, lies
inside the file, and every section below it has a range inside the file starting at or after its parent's start. -/
theorem C39_ranges (lines : List Line) (e e' : Elem) (init next : Nat) (range : Nat × Nat)
    (hi : init ≤ lines.length) (h : identElem (keysOf lines) lines e init = .ok (next, range, e')) :
    init ≤ range.1 ∧ range.1 ≤ range.2 ∧ range.2 ≤ next ∧ next ≤ lines.length ∧
    ∀ s ∈ e'.subs, Ranged lines.length range.1 s := by
  have := identElem_range (n := lines.length) (by simp [keysOf]) (Nat.le_refl _) e init next range e' hi h
  exact ⟨this.1.1, this.1.2.1, this.1.2.2.1, this.1.2.2.2, this.2⟩

theorem prepare_ranged {keys : List Str} {lines : List Line} {e : Elem} {start n a : Nat} {subs : List Elem}
    (hd : ∀ s ∈ e.subs, Ranged n a s) (h : prepareAemSegment keys lines e start = .ok subs) :
    ∀ s ∈ subs, Ranged n a s := by
  intro s hs
  rcases prepare_subs h s hs with hs | ⟨d, hds, tm, av, rfl⟩
  · exact hd s hs
  · cases hd d hds with
    | mk a1 b1 hmm h1 h2 h3 hs1 =>
      refine .mk a1 b1 hmm h1 h2 h3 ?_
      intro x hx
      obtain ⟨x', hx', rfl⟩ := List.mem_map.mp hx
      cases hs1 x' hx' with
      | mk a2 b2 hmm g1 g2 g3 hs2 => exact .mk a2 b2 hmm g1 g2 g3 fun y hy => hs2 y (List.mem_of_mem_filter hy)

theorem foldlM_congr {α β : Type} {f g : β → α → Except PyErr β} : ∀ {l : List α} {b : β},
    (∀ x ∈ l, ∀ b, f b x = g b x) → l.foldlM f b = l.foldlM g b
  | [], _, _ => by simp
  | a :: l, b, h => by
    rw [List.foldlM_cons, List.foldlM_cons, h a (by simp) b]
    congr 1
    funext b'
    exact foldlM_congr fun x hx => h x (by simp [hx])

/-- What is built from a section depends only on the lines from its start on: lines before are never consumed. -/
theorem C39_lines_before_ignored (keys : List Str) (lines : List Line) (n : Nat) : ∀ (fuel : Nat) (e : Elem)
    (start : Nat) (full full' : List Line), Ranged n start e → full.drop start = full'.drop start →
    build keys lines fuel e full = build keys lines fuel e full'
  | 0, _, _, _, _, _, _ => rfl
  | fuel + 1, e, start, full, full', hr, heq => by
    cases hr with
    | mk a b hmm h1 h2 h3 hs =>
      have hd : full.drop a = full'.drop a := by
        have : ∀ l : List Line, l.drop a = (l.drop start).drop (a - start) := by
          intro l; rw [List.drop_drop]; congr 1; omega
        rw [this, this, heq]
      unfold build
      rw [hmm]
      simp only
      rw [hd]
      split
      · rfl
      · split
        · rfl
        · cases hsd : sectionDoc keys lines e ((full'.drop a).take (b - a)) b with
          | error err => rfl
          | ok doc? =>
            cases doc? with
            | none => rfl
            | some p =>
              obtain ⟨doc, subs⟩ := p
              have hsubs : ∀ s ∈ subs, Ranged n a s := by
                rcases sectionDoc_subs hsd with rfl | ⟨-, hp⟩
                · exact hs
                · exact prepare_ranged hs hp
              show (bindDoc e.cls doc >>= _) = (bindDoc e.cls doc >>= _)
              congr 1
              funext obj
              exact foldlM_congr fun s hsm o => by
                rw [C39_lines_before_ignored keys lines n fuel s a full full' (hsubs s hsm) hd]

-- Non-vacuity: the sections of an OPM are found, and they do have ranges.
example : (do
    let lines ← preprocess opmText
    identElem (keysOf lines) lines (objectMap .Opm) 0).toOption.isSome = true := by decide +kernel

end Ndm
