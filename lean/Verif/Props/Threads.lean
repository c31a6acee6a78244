import Verif.Lemmas.Threads
import Verif.ValEq
import Mathlib.Data.Nat.Pairing

/-! # C56: calls in different threads -/

namespace Ndm

/-- The call modelled access by access does what the method modelled as a whole does, when nothing else happens. -/
theorem C56_sequential (s : KvnSelf) (src : Str) : (KvnProg.fromString src).run s = s.fromString src :=
  KvnProg.run_fromString s src

/-- **C56.** Threads that make any number of calls of `NdmKvnIo.from_string`, each thread on instances that no other
thread uses (in any state, and with as many calls per instance as it likes), in any schedule: what a thread has got so
far is what the first of its calls give to a program with no threads; and when the thread has been given thirteen steps
per call, all of its calls have come back. -/
theorem C56_threads (heap : Nat → KvnSelf) (calls : Nat → List (Nat × Str))
    (apart : ∀ t t', t ≠ t' → ∀ i ∈ (calls t).map (·.1), i ∉ (calls t').map (·.1)) (schedule : List Nat) (t : Nat) :
    let results := (((kvnThreads heap calls).run schedule).threads t).results
    results <+: (calls t).map (fun c => (KvnSelf.fromString {} c.2).1) ∧
      (13 * (calls t).length ≤ schedule.count t → results = (calls t).map fun c => (KvnSelf.fromString {} c.2).1) :=
  threads_results heap calls KvnProg.fromString (fun src => (KvnSelf.fromString {} src).1)
    (fun src s => by rw [KvnProg.run_fromString, kvn_history_independent, kvn_history_independent])
    KvnProg.ends_fromString apart schedule t

/-- **C56** for `NdmIo.from_string`, which creates an instance for every call: the instance with the number `f t n` for
the `n`-th call of the thread `t`. -/
theorem C56_ndm (lib : XmlLib) (heap : Nat → KvnSelf) (texts : Nat → List Str) (f : Nat → Nat → Nat)
    (fresh : ∀ t n t' n', f t n = f t' n' → t = t') (schedule : List Nat) (t : Nat) :
    let results := (((ndmThreads lib heap fun t => (texts t).mapIdx fun n src => (f t n, src)).run schedule).threads t).results
    results <+: (texts t).map (ndmFromString lib) ∧
      (13 * (texts t).length ≤ schedule.count t → results = (texts t).map (ndmFromString lib)) := by
  have h := threads_results heap (fun t => (texts t).mapIdx fun n src => (f t n, src)) (KvnProg.ndmFromString lib) (ndmFromString lib)
    (fun src s => KvnProg.run_ndm lib s src) (KvnProg.ends_ndm lib) ?_ schedule t
  · have e : ((texts t).mapIdx fun n src => (f t n, src)).map (fun c => ndmFromString lib c.2) = (texts t).map (ndmFromString lib) :=
      List.ext_getElem (by simp) (by simp)
    simp only [e, List.length_mapIdx] at h
    exact h
  · intro t t' hne i hi hi'
    simp only [List.mem_map, List.mem_mapIdx] at hi hi'
    obtain ⟨_, ⟨n, _, rfl⟩, h⟩ := hi
    obtain ⟨_, ⟨n', _, rfl⟩, h'⟩ := hi'
    exact hne (fresh t n t' n' (h.trans h'.symm))

/-- The orbit of `opmText` from another originator. -/
def otherText : Str := py "CCSDS_OPM_VERS = 2.0
CREATION_DATE = 2000-01-01
ORIGINATOR = SOMEBODY ELSE
OBJECT_NAME = A
OBJECT_ID = B
CENTER_NAME = EARTH
REF_FRAME = GCRF
TIME_SYSTEM = UTC
EPOCH = 2000-01-01
X = 1 [km]
Y = 2 [km]
Z = 3 [km]
X_DOT = 4 [km/s]
Y_DOT = 5 [km/s]
Z_DOT = 6 [km/s]
"

/-- Two threads, two instances: the first thread reads twice with its instance, the second once. -/
def apartCalls : Nat → List (Nat × Str)
  | 0 => [(0, opmText), (0, otherText)]
  | 1 => [(1, otherText)]
  | _ => []

theorem apartCalls_apart : ∀ t t', t ≠ t' → ∀ i ∈ (apartCalls t).map (·.1), i ∉ (apartCalls t').map (·.1) := by
  intro t t' hne i hi hi'
  match t, t' with
  | 0, 0 => exact hne rfl
  | 1, 1 => exact hne rfl
  | 0, 1 => simp [apartCalls] at hi hi'; omega
  | 1, 0 => simp [apartCalls] at hi hi'; omega
  | 0, n + 2 => simp [apartCalls] at hi'
  | 1, n + 2 => simp [apartCalls] at hi'
  | n + 2, _ => simp [apartCalls] at hi

-- The hypotheses of `C56_threads` hold for it, with steps of the two threads in turn; all three calls succeed.
example : (13 * (apartCalls 0).length ≤ ((List.replicate 30 [0, 1]).flatten).count 0) ∧
    ((KvnSelf.fromString {} opmText).1).toOption.isSome = true ∧
    ((KvnSelf.fromString {} otherText).1).toOption.isSome = true := by decide +kernel

example : (((kvnThreads (fun _ => {}) apartCalls).run (List.replicate 30 [0, 1]).flatten).threads 0).results =
    [(KvnSelf.fromString {} opmText).1, (KvnSelf.fromString {} otherText).1] := by
  rw [(C56_threads (fun _ => {}) apartCalls apartCalls_apart _ 0).2 (by decide +kernel)]
  simp only [apartCalls, List.map_cons, List.map_nil]

-- Instance numbers as `C56_ndm` wants them.
example : ∀ t n t' n', Nat.pair t n = Nat.pair t' n' → t = t' := fun _ _ _ _ h => (Nat.pair_eq_pair.mp h).1

/-- Two threads that read with the same instance. -/
def sharedCalls : Nat → List (Nat × Str)
  | 0 => [(0, opmText)]
  | 1 => [(0, otherText)]
  | _ => []

/-- What the first of them has got, after it was interrupted with its text split into lines, the second read its text to
the end, and the first went on. -/
def sharedResults : List (Except PyErr Val) :=
  (((kvnThreads (fun _ => {}) sharedCalls).run ([0, 0, 0] ++ List.replicate 13 1 ++ List.replicate 10 0)).threads 0).results

theorem eq_of_toOption {rs : List (Except PyErr Val)} {r : Except PyErr Val} (h1 : rs.map Except.toOption = [r.toOption])
    (h2 : r.toOption.isSome = true) : rs = [r] := by
  cases rs with
  | nil => cases h1
  | cons a l =>
    simp only [List.map_cons, List.cons.injEq, List.map_eq_nil_iff] at h1
    obtain ⟨h1, rfl⟩ := h1
    cases r with
    | error e => cases h2
    | ok v =>
      cases a with
      | error e => cases h1
      | ok w => cases h1; rfl

theorem shared_same : sharedResults.map Except.toOption = [((KvnSelf.fromString {} otherText).1).toOption] := by decide +kernel
theorem shared_other : ((KvnSelf.fromString {} otherText).1).toOption ≠ ((KvnSelf.fromString {} opmText).1).toOption := by
  decide +kernel
theorem shared_some : ((KvnSelf.fromString {} otherText).1).toOption.isSome = true := by decide +kernel

/-- **C56 needs its hypothesis**: of two threads that share an `NdmKvnIo`, one gets the message of the other's text, and
no exception tells. -/
theorem C56_shared : sharedResults = [(KvnSelf.fromString {} otherText).1] ∧
    (KvnSelf.fromString {} otherText).1 ≠ (KvnSelf.fromString {} opmText).1 ∧
    ((KvnSelf.fromString {} otherText).1).toOption.isSome = true := by
  exact ⟨eq_of_toOption shared_same shared_some, fun h => shared_other (congrArg Except.toOption h), shared_some⟩

end Ndm
