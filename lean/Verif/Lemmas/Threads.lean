import Verif.Threads
import Verif.Props.History

/-! Invariants of threads with instances of their own. -/

namespace Ndm

theorem KvnProg.run_fromString (s : KvnSelf) (src : Str) : (KvnProg.fromString src).run s = s.fromString src := by
  unfold KvnSelf.fromString KvnM.fromString KvnM.preProcess KvnProg.fromString
  cases hp : preprocess src with
  | error e => rfl
  | ok lines =>
    cases hc : identifyDataType lines with
    | error e =>
      simp only [liftPy, bind, ExceptT.bind, ExceptT.bindCont, ExceptT.mk, pure, ExceptT.run, StateT.run, StateT.bind,
        StateT.pure, modify, modifyGet, get, getThe, MonadStateOf.get, MonadStateOf.modifyGet,
        StateT.get, StateT.modifyGet, ExceptT.lift, liftM, monadLift, MonadLift.monadLift, Functor.map, StateT.map,
        ExceptT.map, hc, KvnProg.run]
    | ok cls =>
      simp only [liftPy, bind, ExceptT.bind, ExceptT.bindCont, ExceptT.mk, pure, ExceptT.run, StateT.run, StateT.bind,
        StateT.pure, modify, modifyGet, get, getThe, MonadStateOf.get, MonadStateOf.modifyGet,
        StateT.get, StateT.modifyGet, ExceptT.lift, liftM, monadLift, MonadLift.monadLift, Functor.map, StateT.map,
        ExceptT.map, hc, KvnM.deleteKeywords, KvnM.initObjectMap, KvnM.identifySegments, KvnM.buildObject, KvnProg.run]
      have hdel : ∀ k : KvnProg, (KvnProg.deleteKeywords cls k).run { s with keys := keysOf lines, lines := lines } =
          k.run { s with keys := (keysOf lines).filter (fun k => !(deletedKeywords cls).contains k), lines := deleteMarkers cls lines } := by
        intro k
        unfold KvnProg.deleteKeywords
        split
        · rename_i h
          simp [deleteMarkers, h]
        · rfl
      rw [hdel]
      simp only [KvnProg.run, KvnProg.identifySegments]
      cases identElem (List.filter (fun k => !(deletedKeywords cls).contains k) (keysOf lines)) (deleteMarkers cls lines) (objectMap cls) 0 with
      | error e => rfl
      | ok r => rfl

/-- The result does not depend on the state of the instance. -/
theorem KvnProg.run_result (s : KvnSelf) (src : Str) : ((KvnProg.fromString src).run s).1 = kvnFromString src := by
  rw [run_fromString, kvn_history_independent]

theorem KvnProg.run_ndm (lib : XmlLib) (s : KvnSelf) (src : Str) : ((KvnProg.ndmFromString lib src).run s).1 = Ndm.ndmFromString lib src := by
  unfold KvnProg.ndmFromString Ndm.ndmFromString
  cases identifyFormat src with
  | error e => rfl
  | ok f =>
    cases f with
    | xml => rfl
    | json => rfl
    | kvn =>
      show ((KvnProg.fromString src).run s).1 = (KvnSelf.fromString {} src).1
      rw [run_fromString, kvn_history_independent, kvn_history_independent]

/-- The call ends after at most `n` accesses. -/
inductive KvnProg.Ends : Nat → KvnProg → Prop
  | ret {n r} : Ends n (.ret r)
  | read {n k} : (∀ s, Ends n (k s)) → Ends (n + 1) (.read k)
  | assign {n f k} : Ends n k → Ends (n + 1) (.assign f k)

theorem KvnProg.Ends.mono {n m : Nat} {p : KvnProg} (h : Ends n p) (hm : n ≤ m) : Ends m p := by
  induction h generalizing m with
  | ret => exact .ret
  | read _ ih =>
    obtain ⟨k, rfl⟩ : ∃ k, m = k + 1 := ⟨m - 1, by omega⟩
    exact .read fun s => ih s (by omega)
  | assign _ ih =>
    obtain ⟨k, rfl⟩ : ∃ k, m = k + 1 := ⟨m - 1, by omega⟩
    exact .assign (ih (by omega))

theorem KvnProg.ends_fromString (src : Str) : Ends 11 (fromString src) := by
  unfold fromString
  split
  · exact .ret
  · refine .assign (.assign (.read fun s => ?_))
    split
    · exact .ret
    · rename_i cls _
      have hb : Ends 1 buildObject := .read fun s => by split <;> exact .ret
      have hi : Ends 3 (identifySegments buildObject) := .read fun s => by
        split
        · exact .ret
        · split
          · exact .ret
          · exact .assign hb
      unfold deleteKeywords
      split
      · exact (Ends.assign hi).mono (by omega)
      · exact .read fun s => .assign (.read fun s => .assign (.assign hi))

theorem KvnProg.ends_ndm (lib : XmlLib) (src : Str) : Ends 11 (KvnProg.ndmFromString lib src) := by
  unfold KvnProg.ndmFromString
  split
  · exact .ret
  · exact ends_fromString src
  · exact .ret
  · exact .ret

/-- A call that gives `r` on an instance in any state. -/
def Gives (p : KvnProg) (r : Except PyErr Val) : Prop := ∀ s, (p.run s).1 = r

/-- The thread still has the calls with the results `rs` to finish, the first of them perhaps running. -/
inductive Remaining (heap : Nat → KvnSelf) : Option (Nat × KvnProg) → List (Nat × KvnProg) → List (Except PyErr Val) → Prop
  | idle {todo rs} : List.Forall₂ (fun c r => Gives c.2 r) todo rs → Remaining heap none todo rs
  | running {i p todo r rs} : (p.run (heap i)).1 = r → List.Forall₂ (fun c r => Gives c.2 r) todo rs →
      Remaining heap (some (i, p)) todo (r :: rs)

/-- The instances a thread uses or will use. -/
def Thread.uses (th : Thread) : List Nat := (th.current.toList ++ th.todo).map (·.1)

/-- What holds at all times: the results so far and the remaining ones are `want`, and no instance is shared. -/
structure Undisturbed (want : Nat → List (Except PyErr Val)) (m : Machine) : Prop where
  results : ∀ t, ∃ rs, want t = (m.threads t).results ++ rs ∧ Remaining m.heap (m.threads t).current (m.threads t).todo rs
  apart : ∀ t t', t ≠ t' → ∀ i ∈ (m.threads t).uses, i ∉ (m.threads t').uses

theorem update_self {α : Type} (f : Nat → α) (i : Nat) (a : α) : update f i a i = a := by simp [update]
theorem update_ne {α : Type} (f : Nat → α) {i j : Nat} (a : α) (h : j ≠ i) : update f i a j = f j := by simp [update, h]

/-- A step that only changes the thread `t`, to one that uses no other instances. -/
theorem Undisturbed.thread {want : Nat → List (Except PyErr Val)} {m : Machine} (h : Undisturbed want m) (t : Nat) (th : Thread) (heap : Nat → KvnSelf)
    (hr : ∃ rs, want t = th.results ++ rs ∧ Remaining heap th.current th.todo rs)
    (hu : ∀ i ∈ th.uses, i ∈ (m.threads t).uses) (hh : ∀ i, i ∉ (m.threads t).uses → heap i = m.heap i) :
    Undisturbed want { heap := heap, threads := update m.threads t th } := by
  constructor
  · intro t'
    by_cases ht : t' = t
    · subst ht
      simpa only [update_self] using hr
    · simp only [update_ne _ _ ht]
      obtain ⟨rs, hw, hrem⟩ := h.results t'
      refine ⟨rs, hw, ?_⟩
      cases hc : (m.threads t').current with
      | none =>
        rw [hc] at hrem
        cases hrem with
        | idle h1 => exact .idle h1
      | some c =>
        rw [hc] at hrem
        cases hrem with
        | @running i p _ _ _ h1 h2 =>
          refine .running ?_ h2
          rw [hh i]
          · exact h1
          · exact h.apart t' t ht i (by simp [Thread.uses, hc])
  · intro t₁ t₂ hne i hi
    simp only at hi ⊢
    by_cases h1 : t₁ = t
    · subst h1
      rw [update_self] at hi
      rw [update_ne _ _ (Ne.symm hne)]
      exact h.apart t₁ t₂ hne i (hu i hi)
    · rw [update_ne _ _ h1] at hi
      by_cases h2 : t₂ = t
      · subst h2
        rw [update_self]
        exact fun hi' => h.apart t₁ t₂ hne i hi (hu i hi')
      · rw [update_ne _ _ h2]
        exact h.apart t₁ t₂ hne i hi

theorem Undisturbed.step {want : Nat → List (Except PyErr Val)} {m : Machine} (h : Undisturbed want m) (t : Nat) : Undisturbed want (m.step t) := by
  obtain ⟨rs, hw, hrem⟩ := h.results t
  unfold Machine.step
  simp only
  cases hc : (m.threads t).current with
  | none =>
    rw [hc] at hrem
    cases hrem with
    | idle h1 =>
      cases htd : (m.threads t).todo with
      | nil => exact h
      | cons c r =>
        rw [htd] at h1
        cases h1 with
        | @cons _ r' _ rs' h2 h3 =>
          refine h.thread t _ m.heap ⟨_, hw, .running (h2 _) h3⟩ ?_ fun _ _ => rfl
          intro i hi
          simpa [Thread.uses, hc, htd] using hi
  | some c =>
    rw [hc] at hrem
    cases hrem with
    | @running i p _ r rs h1 h2 =>
      have hi : i ∈ (m.threads t).uses := by simp [Thread.uses, hc]
      have hsub : ∀ (p' : KvnProg) (res : List (Except PyErr Val)) (j : Nat),
          j ∈ Thread.uses { (m.threads t) with current := some (i, p'), results := res } → j ∈ (m.threads t).uses := by
        intro p' res j hj
        simpa [Thread.uses, hc] using hj
      cases p with
      | ret r' =>
        have : r' = r := h1
        subst this
        refine h.thread t _ m.heap ⟨rs, by simp [hw], .idle h2⟩ ?_ fun _ _ => rfl
        intro j hj
        simp only [Thread.uses, hc, Option.toList, List.map_append, List.mem_append] at hj ⊢
        rcases hj with hj | hj
        · cases hj
        · exact .inr hj
      | read k => exact h.thread t _ m.heap ⟨_, hw, .running h1 h2⟩ (hsub _ _) fun _ _ => rfl
      | assign f k =>
        refine h.thread t _ (update m.heap i (f (m.heap i))) ⟨_, hw, .running ?_ h2⟩ (hsub _ _) ?_
        · rw [update_self]; exact h1
        · intro j hj
          exact update_ne _ _ (by rintro rfl; exact hj hi)

theorem Undisturbed.run {want : Nat → List (Except PyErr Val)} {m : Machine} (h : Undisturbed want m) (schedule : List Nat) :
    Undisturbed want (m.run schedule) := by
  unfold Machine.run
  induction schedule generalizing m with
  | nil => exact h
  | cons t r ih => exact ih (h.step t)

/-! ## Every call ends -/

/-- The thread needs at most `n` more steps. -/
inductive Needs : Nat → Thread → Prop
  | idle {todo res n} : (∀ c ∈ todo, KvnProg.Ends 11 c.2) → 13 * todo.length ≤ n → Needs n ⟨none, todo, res⟩
  | running {i p todo res k n} : KvnProg.Ends k p → (∀ c ∈ todo, KvnProg.Ends 11 c.2) → k + 1 + 13 * todo.length ≤ n →
      Needs n ⟨some (i, p), todo, res⟩

theorem Needs.step {m : Machine} {t n : Nat} (h : Needs n (m.threads t)) : Needs (n - 1) ((m.step t).threads t) := by
  unfold Machine.step
  generalize hth : m.threads t = th at h
  cases h with
  | @idle todo res n h1 h2 =>
    cases todo with
    | nil =>
      simp only [hth]
      exact .idle (by simp) (by simp)
    | cons c r =>
      simp only [update_self]
      refine .running (h1 c List.mem_cons_self) (fun c' h => h1 c' (List.mem_cons_of_mem _ h)) ?_
      simp only [List.length_cons] at h2
      omega
  | @running i p todo res k n hp h1 h2 =>
    cases hp with
    | ret =>
      simp only [update_self]
      exact .idle h1 (by omega)
    | read h =>
      simp only [update_self]
      exact .running (h _) h1 (by omega)
    | assign h =>
      simp only [update_self]
      exact .running h h1 (by omega)

/-- A step of another thread changes nothing in this one. -/
theorem Machine.step_other (m : Machine) {t t' : Nat} (h : t' ≠ t) : (m.step t).threads t' = m.threads t' := by
  unfold Machine.step
  simp only
  split
  · split
    · rfl
    · exact update_ne _ _ h
  all_goals exact update_ne _ _ h

theorem Needs.run {m : Machine} {t n : Nat} (h : Needs n (m.threads t)) (schedule : List Nat) :
    Needs (n - schedule.count t) ((m.run schedule).threads t) := by
  unfold Machine.run
  induction schedule generalizing m n with
  | nil => simpa using h
  | cons a r ih =>
    rw [List.foldl_cons]
    by_cases ha : a = t
    · subst ha
      have := ih h.step
      rw [List.count_cons_self]
      rwa [Nat.sub_sub, Nat.add_comm 1] at this
    · rw [List.count_cons_of_ne (by simpa using ha)]
      refine ih ?_
      rw [Machine.step_other m (Ne.symm ha)]
      exact h

theorem Needs.zero {th : Thread} (h : Needs 0 th) : th.current = none ∧ th.todo = [] := by
  generalize hn : 0 = n at h
  cases h with
  | @idle todo res n h1 h2 =>
    subst hn
    exact ⟨rfl, List.length_eq_zero_iff.mp (by simp only; omega)⟩
  | running _ _ h2 => omega

/-- Threads that start with calls whose results are known, and share no instance. -/
theorem good_start (heap : Nat → KvnSelf) (calls : Nat → List (Nat × Str)) (prog : Str → KvnProg)
    (res : Str → Except PyErr Val) (hp : ∀ src, Gives (prog src) (res src))
    (hapart : ∀ t t', t ≠ t' → ∀ i ∈ (calls t).map (·.1), i ∉ (calls t').map (·.1)) :
    Undisturbed (fun t => (calls t).map fun c => res c.2)
      { heap, threads := fun t => { todo := (calls t).map fun c => (c.1, prog c.2) } } := by
  constructor
  · intro t
    refine ⟨_, (List.nil_append _).symm, .idle ?_⟩
    simp only
    induction calls t with
    | nil => exact .nil
    | cons c r ih => exact .cons (hp c.2) ih
  · intro t t' hne i hi
    have : ∀ t, Thread.uses { todo := (calls t).map fun c => (c.1, prog c.2) } = (calls t).map (·.1) := by
      intro t; simp [Thread.uses]
    simp only [this] at hi ⊢
    exact hapart t t' hne i hi

/-- What the theorems about threads say, for calls whose results are known. -/
theorem threads_results (heap : Nat → KvnSelf) (calls : Nat → List (Nat × Str)) (prog : Str → KvnProg)
    (res : Str → Except PyErr Val) (hp : ∀ src, Gives (prog src) (res src)) (he : ∀ src, KvnProg.Ends 11 (prog src))
    (hapart : ∀ t t', t ≠ t' → ∀ i ∈ (calls t).map (·.1), i ∉ (calls t').map (·.1)) (schedule : List Nat) (t : Nat) :
    let th := (Machine.run { heap, threads := fun t => { todo := (calls t).map fun c => (c.1, prog c.2) } } schedule).threads t
    th.results <+: (calls t).map (fun c => res c.2) ∧
      (13 * (calls t).length ≤ schedule.count t → th.results = (calls t).map fun c => res c.2) := by
  intro th
  obtain ⟨rs, hw, hrem⟩ := ((good_start heap calls prog res hp hapart).run schedule).results t
  refine ⟨⟨rs, hw.symm⟩, fun hn => ?_⟩
  have h0 : Needs (13 * (calls t).length)
      (Machine.threads { heap, threads := fun t => { todo := (calls t).map fun c => (c.1, prog c.2) } } t) := by
    refine .idle ?_ (by simp)
    intro c hc
    obtain ⟨c', _, rfl⟩ := List.mem_map.mp hc
    exact he _
  have h1 := h0.run schedule
  rw [show 13 * (calls t).length - schedule.count t = 0 by omega] at h1
  obtain ⟨h2, h3⟩ := h1.zero
  rw [h2, h3] at hrem
  cases hrem with
  | idle h => cases h with | nil => rw [hw, List.append_nil]

end Ndm
