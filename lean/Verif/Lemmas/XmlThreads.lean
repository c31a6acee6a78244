import Verif.XmlThreads

/-! Threads that use the same `NdmXmlIo`. -/

namespace Ndm

variable {lib : XmlLib}

/-- What a call gives back, with schema locations of which `S` holds. -/
inductive GoodCall (lib : XmlLib) (S : Nat → Option Str × Option Str → Prop) : XmlCall → XmlResult → Prop
  | read (i : Nat) (src : Str) : GoodCall lib S (.read i src) (.read (xmlFromString lib src))
  | write (i : Nat) (o : Val) (loc noNs : Option Str) (cfg : Option Str × Option Str) : S i cfg →
      GoodCall lib S (.write i o loc noNs) (.wrote (lib.render cfg.1 cfg.2 o))

/-- What is known in the middle of a call. -/
inductive TaskOf (heap : Nat → XmlSelf) : Option XmlTask → List XmlCall → Prop
  | none : TaskOf heap none []
  | newParser (i : Nat) (src : Str) : TaskOf heap (some (.newParser i src)) [.read i src]
  | parse (i : Nat) (src : Str) : (heap i).parser = true → TaskOf heap (some (.parse i src)) [.read i src]
  | newSerializer (i : Nat) (o : Val) (loc noNs : Option Str) : TaskOf heap (some (.newSerializer i o loc noNs)) [.write i o loc noNs]
  | render (i : Nat) (o : Val) (loc noNs : Option Str) : (heap i).serializer ≠ .none →
      TaskOf heap (some (.render i o)) [.write i o loc noNs]

/-- The instances have at least as much as before. -/
def Grown (h h' : Nat → XmlSelf) : Prop :=
  ∀ i, ((h i).parser = true → (h' i).parser = true) ∧ ((h i).serializer ≠ none → (h' i).serializer ≠ none)

theorem TaskOf.grown {h h' : Nat → XmlSelf} (hg : Grown h h') {k : Option XmlTask} {cs : List XmlCall} (ht : TaskOf h k cs) :
    TaskOf h' k cs := by
  cases ht with
  | none => exact .none
  | newParser => exact .newParser _ _
  | parse i src hp => exact .parse i src ((hg i).1 hp)
  | newSerializer => exact .newSerializer _ _ _ _
  | render i o loc noNs hs => exact .render i o loc noNs ((hg i).2 hs)

/-- What is known of a thread with the calls `cs`. -/
def ThreadOf (lib : XmlLib) (S : Nat → Option Str × Option Str → Prop) (heap : Nat → XmlSelf) (cs : List XmlCall) (th : XmlThread) : Prop :=
  ∃ past now, cs = past ++ now ++ th.todo ∧ List.Forall₂ (GoodCall lib S) past th.results ∧ TaskOf heap th.current now

/-- The steps a thread still needs. -/
def XmlThread.work (th : XmlThread) : Nat :=
  3 * th.todo.length + match th.current with
    | none => 0
    | some (.newParser ..) => 2
    | some (.newSerializer ..) => 2
    | some _ => 1

variable {S : Nat → Option Str × Option Str → Prop}

theorem thread_step {heap : Nat → XmlSelf} {cs : List XmlCall} {th : XmlThread} (h : ThreadOf lib S heap cs th)
    (hS : ∀ i cfg, (heap i).serializer = some cfg → S i cfg) (hcs : ∀ i o loc noNs, XmlCall.write i o loc noNs ∈ cs → S i (loc, noNs)) :
    ThreadOf lib S (th.step lib heap).2 cs (th.step lib heap).1 ∧ Grown heap (th.step lib heap).2 ∧
    (∀ i cfg, ((th.step lib heap).2 i).serializer = some cfg → S i cfg) ∧
    ((th.step lib heap).1.work < th.work ∨ th.work = 0 ∧ (th.step lib heap).1.work = 0) := by
  obtain ⟨current, todo, results⟩ := th
  obtain ⟨past, now, hc, hres, ht⟩ := h
  dsimp only at hc hres ht
  have hrefl : Grown heap heap := fun i => ⟨id, id⟩
  cases ht with
  | none =>
    cases todo with
    | nil => exact ⟨⟨past, [], hc, hres, .none⟩, hrefl, hS, .inr ⟨rfl, rfl⟩⟩
    | cons c todo =>
      simp only [XmlThread.step]
      refine ⟨⟨past, [c], by simpa using hc, hres, ?_⟩, hrefl, hS, .inl ?_⟩
      · cases c with
        | read i src =>
          simp only [XmlCall.start]
          split
          · rename_i hp; exact .parse i src hp
          · exact .newParser i src
        | write i o loc noNs =>
          simp only [XmlCall.start]
          split
          · exact .newSerializer i o loc noNs
          · rename_i hs; exact .render i o loc noNs (by rw [hs]; exact Option.some_ne_none _)
      · cases c with
        | read i src => simp only [XmlCall.start, XmlThread.work, List.length_cons]; split <;> omega
        | write i o loc noNs => simp only [XmlCall.start, XmlThread.work, List.length_cons]; split <;> omega
  | newParser i src =>
    simp only [XmlThread.step, XmlTask.step]
    refine ⟨⟨past, _, hc, hres, .parse i src (by simp)⟩, ?_, ?_, .inl (by simp only [XmlThread.work]; omega)⟩
    · intro j; beta_reduce; split
      · rename_i h; subst h; exact ⟨fun _ => rfl, id⟩
      · exact ⟨id, id⟩
    · intro j cfg; split
      · rename_i h; subst h; exact hS j cfg
      · exact hS j cfg
  | parse i src hp =>
    simp only [XmlThread.step, XmlTask.step, if_pos hp]
    refine ⟨⟨past ++ [.read i src], [], by simpa using hc, ?_, .none⟩, hrefl, hS, .inl (by simp only [XmlThread.work]; omega)⟩
    exact List.rel_append hres (.cons (.read i src) .nil)
  | newSerializer i o loc noNs =>
    simp only [XmlThread.step, XmlTask.step]
    refine ⟨⟨past, _, hc, hres, .render i o loc noNs (by simp)⟩, ?_, ?_, .inl (by simp only [XmlThread.work]; omega)⟩
    · intro j; beta_reduce; split
      · rename_i h; subst h; exact ⟨id, fun _ => Option.some_ne_none _⟩
      · exact ⟨id, id⟩
    · intro j cfg; split
      · rename_i h
        subst h
        intro h
        cases h
        exact hcs j o loc noNs (by rw [hc]; simp)
      · exact hS j cfg
  | render i o loc noNs hs =>
    cases hser : (heap i).serializer with
    | none => exact absurd hser hs
    | some cfg =>
      simp only [XmlThread.step, XmlTask.step, hser]
      refine ⟨⟨past ++ [.write i o loc noNs], [], by simpa using hc, ?_, .none⟩, hrefl, hS, .inl (by simp only [XmlThread.work]; omega)⟩
      exact List.rel_append hres (.cons (.write i o loc noNs cfg (hS i cfg hser)) .nil)

theorem xml_run (calls : Nat → List XmlCall) (hcs : ∀ t i o loc noNs, XmlCall.write i o loc noNs ∈ calls t → S i (loc, noNs))
    (schedule : List Nat) : ∀ m : XmlMachine, (∀ t, ThreadOf lib S m.heap (calls t) (m.threads t)) →
      (∀ i cfg, (m.heap i).serializer = some cfg → S i cfg) → ∀ t,
      ThreadOf lib S (m.run lib schedule).heap (calls t) ((m.run lib schedule).threads t) ∧
      (((m.run lib schedule).threads t).work + schedule.count t ≤ (m.threads t).work ∨ ((m.run lib schedule).threads t).work = 0) := by
  induction schedule with
  | nil => intro m h _ t; exact ⟨h t, .inl (by simp [XmlMachine.run])⟩
  | cons u schedule ih =>
    intro m h hS t
    obtain ⟨h1, h2, h3, h4⟩ := thread_step (h u) hS (hcs u)
    have hm : ∀ t, ThreadOf lib S (m.step lib u).heap (calls t) ((m.step lib u).threads t) := by
      intro t
      simp only [XmlMachine.step]
      split
      · rename_i heq; subst heq; exact h1
      · obtain ⟨past, now, hc, hres, ht⟩ := h t
        exact ⟨past, now, hc, hres, ht.grown h2⟩
    obtain ⟨k1, k2⟩ := ih (m.step lib u) hm h3 t
    refine ⟨k1, ?_⟩
    show ((((m.step lib u).run lib schedule).threads t).work + _ ≤ _) ∨ (((m.step lib u).run lib schedule).threads t).work = 0
    by_cases htu : t = u
    · subst htu
      have : (m.step lib t).threads t = ((m.threads t).step lib m.heap).1 := by simp [XmlMachine.step]
      rw [this] at k2
      rw [List.count_cons_self]
      omega
    · have : (m.step lib u).threads t = m.threads t := by simp [XmlMachine.step, htu]
      rw [this] at k2
      rw [List.count_cons_of_ne (Ne.symm htu)]
      exact k2

theorem work_zero {th : XmlThread} (h : th.work = 0) : th.todo = [] ∧ th.current = none := by
  obtain ⟨current, todo, results⟩ := th
  unfold XmlThread.work at h
  dsimp only at h ⊢
  refine ⟨List.length_eq_zero_iff.mp (by omega), ?_⟩
  split at h <;> first | rfl | omega

end Ndm
