import Verif.SpecXmlShare
import Verif.Lemmas.XmlThreads
import Verif.Props.History

/-! # C62: threads that use the same `NdmXmlIo` -/

namespace Ndm

theorem xml_shared (lib : XmlLib) (heap : Nat → XmlSelf) (calls : Nat → List XmlCall) (schedule : List Nat) (t : Nat) :
    let results := (((xmlThreads heap calls).run lib schedule).threads t).results
    List.Forall₂ (GoodCall lib (Given heap calls)) ((calls t).take results.length) results ∧
      (3 * (calls t).length ≤ schedule.count t → results.length = (calls t).length) := by
  obtain ⟨⟨past, now, hc, hres, ht⟩, hw⟩ := xml_run (lib := lib) (S := Given heap calls) calls
    (fun t i o loc noNs h => .inr ⟨t, o, h⟩) schedule (xmlThreads heap calls)
    (fun t => ⟨[], [], rfl, .nil, .none⟩) (fun i cfg h => .inl h) t
  dsimp only
  have hl := hres.length_eq
  refine ⟨?_, fun hle => ?_⟩
  · rw [hc, List.append_assoc, ← hl, List.take_left]
    exact hres
  · have h0 : (((xmlThreads heap calls).run lib schedule).threads t).work = 0 := by
      have : ((xmlThreads heap calls).threads t).work = 3 * (calls t).length := rfl
      omega
    obtain ⟨h1, h2⟩ := work_zero h0
    rw [h2] at ht
    cases ht
    rw [h1] at hc
    rw [hc, ← hl]
    simp

/-- **C62**, what holds for any sharing: threads that make any calls of `NdmXmlIo.from_string` and `NdmXmlIo.to_string` on any
instances, in any schedule.  Reading gives what it gives with a new instance; writing gives the text with schema locations that
were given in some call on the instance; and three steps per call are enough. -/
theorem C62_shared_partial (lib : XmlLib) (heap : Nat → XmlSelf) (calls : Nat → List XmlCall) (schedule : List Nat) (t : Nat) :
    let results := (((xmlThreads heap calls).run lib schedule).threads t).results
    List.Forall₂ (MayGive lib heap calls) ((calls t).take results.length) results ∧
      (3 * (calls t).length ≤ schedule.count t → results.length = (calls t).length) := by
  obtain ⟨h1, h2⟩ := xml_shared lib heap calls schedule t
  refine ⟨h1.imp fun c r h => ?_, h2⟩
  cases h with
  | read => exact rfl
  | write i o loc noNs cfg hg => exact ⟨cfg, hg, rfl⟩

/-- **C62**, when all writes on the same instance, now and before, are given the same schema locations: every call gives what it
gives with a new instance. -/
theorem C62_same_locations_partial (lib : XmlLib) (heap : Nat → XmlSelf) (calls : Nat → List XmlCall)
    (locations : Nat → Option Str × Option Str) (before : ∀ i cfg, (heap i).serializer = some cfg → cfg = locations i)
    (same : ∀ t i o loc noNs, XmlCall.write i o loc noNs ∈ calls t → (loc, noNs) = locations i) (schedule : List Nat) (t : Nat) :
    let results := (((xmlThreads heap calls).run lib schedule).threads t).results
    results <+: (calls t).map (XmlCall.alone lib) ∧
      (3 * (calls t).length ≤ schedule.count t → results = (calls t).map (XmlCall.alone lib)) := by
  obtain ⟨h1, h2⟩ := xml_shared lib heap calls schedule t
  dsimp only
  generalize (((xmlThreads heap calls).run lib schedule).threads t).results = results at h1 h2
  have hmap : ∀ (cs : List XmlCall) (rs : List XmlResult), (∀ c ∈ cs, c ∈ calls t) → List.Forall₂ (GoodCall lib (Given heap calls)) cs rs →
      rs = cs.map (XmlCall.alone lib) := by
    intro cs rs hcs h
    induction h with
    | nil => rfl
    | @cons c r cs rs hg _ ih =>
      rw [List.map_cons, ← ih fun c hc => hcs c (List.mem_cons_of_mem _ hc)]
      congr 1
      have hc := hcs c List.mem_cons_self
      cases hg with
      | read => rfl
      | write i o loc noNs cfg hg =>
        have hcfg : cfg = (loc, noNs) := by
          rw [same t i o loc noNs hc]
          rcases hg with h | ⟨t', o', h⟩
          · exact before i cfg h
          · exact same t' i o' cfg.1 cfg.2 h
        subst hcfg
        rfl
  have heq := hmap _ _ (fun c hc => List.mem_of_mem_take hc) h1
  refine ⟨?_, fun hle => ?_⟩
  · rw [heq, List.map_take]
    exact List.take_prefix _ _
  · rw [heq, h2 hle, List.take_length]

/-! ## Cases -/

/-- Two threads with one instance: both write, with different schema locations. -/
def twoLocations : Nat → List XmlCall
  | 0 => [.write 0 .none (some (py "a.xsd")) none]
  | 1 => [.write 0 .none (some (py "b.xsd")) none]
  | _ => []

/-- The text of a result. -/
def XmlResult.text : XmlResult → Option Str
  | .wrote (.ok s) => some s
  | _ => none

/-- **C62 is false** when the locations differ: of two threads that find no serializer, one creates it after the other, and both
write with the locations of the last one, although the first thread's call was the first one on the instance. -/
theorem C62_refuted : ((((xmlThreads (fun _ => {}) twoLocations).run showLoc [0, 1, 0, 1, 0]).threads 0).results.map XmlResult.text) ≠
      (twoLocations 0).map (fun c => (c.alone showLoc).text) ∧
    ((((xmlThreads (fun _ => {}) twoLocations).run showLoc [0, 1, 0, 1, 0]).threads 0).results.map XmlResult.text) =
      (twoLocations 1).map (fun c => (c.alone showLoc).text) := by
  decide +kernel

/-- One instance, two threads: reads and writes with the same locations. -/
def oneLocation : Nat → List XmlCall
  | 0 => [.read 0 (py "<opm/>"), .write 0 .none (some (py "a.xsd")) none, .write 1 .none none none]
  | 1 => [.write 0 (.int 1) (some (py "a.xsd")) none, .read 1 (py "<")]
  | _ => []

/-- Its locations. -/
def oneLocations : Nat → Option Str × Option Str
  | 0 => (some (py "a.xsd"), none)
  | _ => (none, none)

-- The hypotheses of `C62_same_locations_partial` are met.
example : (((xmlThreads (fun _ => {}) oneLocation).run showLoc (List.replicate 9 [0, 1]).flatten).threads 0).results =
    (oneLocation 0).map (XmlCall.alone showLoc) := by
  refine (C62_same_locations_partial showLoc (fun _ => {}) oneLocation oneLocations (by intro i cfg h; cases h) ?_ _ 0).2
    (by decide +kernel)
  intro t i o loc noNs h
  match t with
  | 0 =>
    simp only [oneLocation, List.mem_cons, List.not_mem_nil, or_false, XmlCall.write.injEq, reduceCtorEq, false_or] at h
    rcases h with ⟨rfl, -, rfl, rfl⟩ | ⟨rfl, -, rfl, rfl⟩ <;> rfl
  | 1 =>
    simp only [oneLocation, List.mem_cons, List.not_mem_nil, or_false, XmlCall.write.injEq, reduceCtorEq] at h
    obtain ⟨rfl, -, rfl, rfl⟩ := h
    rfl
  | n + 2 => cases h

end Ndm
