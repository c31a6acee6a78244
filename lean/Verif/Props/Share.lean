import Verif.Lemmas.Share
import Verif.Props.Unknown

/-! # C60, C61: calls of different threads or processes on the same disk -/

namespace Ndm

/-- **C60.** Threads or processes that make any calls of `NdmIo.from_path` and `NdmIo.to_file`, such that none writes a file
another one reads or writes, in any interleaving and with any division of the files into pieces: what a thread has got so far is
what the first of its calls give when nothing else happens; and when it has been given steps enough for every byte, all of its
calls have come back, and its files are as if it had been alone. -/
theorem C60_separate_files (lib : XmlLib) (P : Platform) (d : Disk) (calls : Nat → List FileCall) (apart : Separate calls)
    (schedule : List (Nat × Nat)) (t : Nat) :
    let m := (fileThreads d calls).run lib P schedule
    (m.threads t).results <+: callResults lib P d (calls t) ∧
      (callSteps lib P d (calls t) ≤ (schedule.map (·.1)).count t →
        (m.threads t).results = callResults lib P d (calls t) ∧
        ∀ c ∈ calls t, m.disk c.file = ((calls t).foldl (FileCall.run lib P) d) c.file) := by
  have ho : ∀ t, OfCalls (calls t) ((fileThreads d calls).threads t) := fun t =>
    ⟨fun c h => h, (by intro p got h; cases h), (by intro p rest off h; cases h)⟩
  obtain ⟨h1, h2⟩ := run_solo (lib := lib) (P := P) calls apart t schedule (fileThreads d calls) d ho fun _ _ => rfl
  obtain ⟨h3, h4⟩ := solo_results (lib := lib) (P := P) d (calls t) (accesses t schedule)
  dsimp only
  refine ⟨by rw [h1]; exact h3, fun hle => ?_⟩
  rw [← accesses_length] at hle
  obtain ⟨h5, h6⟩ := h4 hle
  refine ⟨by rw [h1]; exact h5, fun c hc => ?_⟩
  rw [h2 c hc]
  exact congrFun h6 c.file

/-- **C61**, what holds: a file that one thread writes and another one reads at the same time is read as some contents that begin
like the old ones and go on like the new ones (nothing, if the message could not be written), which may be complete or not. -/
theorem C61_partial (lib : XmlLib) (P : Platform) (d : Disk) (calls : Nat → List FileCall) (w r : Nat) (hne : w ≠ r) (o : Val) (f : Fmt)
    (path path' : PathArg) (loc noNs : Option Str) (hw : calls w = [.write o f path loc noNs]) (hr : calls r = [.read path'])
    (hp : path'.name = path.name) (others : ∀ t, t ≠ w → t ≠ r → ∀ c ∈ calls t, c.Writes → c.file ≠ path.name)
    (old : List UInt8) (hd : d path.name = some old) (schedule : List (Nat × Nat)) :
    ∀ x ∈ (((fileThreads d calls).run lib P schedule).threads r).results, ∃ new b,
      (new = [] ∨ ∃ t, ndmToString lib o f loc noNs = .ok t ∧ P.encode (P.newlines t) = some new) ∧
      Mixed old new b ∧ x = .read (ndmFromPath lib P (d.set path.name b) path') := by
  have h1 : Writer lib P o f path loc noNs old false ((fileThreads d calls).threads w) ((fileThreads d calls).disk path.name) := by
    simp only [fileThreads, hw, hd]
    exact .before
  have h2 : Reader lib P o f path path' loc noNs old false ((fileThreads d calls).threads r) := by
    simp only [fileThreads, hr]
    exact .before _
  obtain ⟨x', h⟩ := run_mixed calls hne hp others schedule (fileThreads d calls) false
    (fun t _ _ => ⟨fun c h => h, (by intro p got h; cases h), (by intro p rest off h; cases h)⟩) h1 h2
  generalize ((fileThreads d calls).run lib P schedule).threads r = th at h
  intro x hx
  cases h with
  | before => cases hx
  | old => cases hx
  | mixed => cases hx
  | done _ b hb =>
    rw [List.mem_singleton] at hx
    subst hx
    obtain ⟨k, n, hb, -⟩ := hb
    refine ⟨newBytes lib P o f path loc noNs, b, ?_, ⟨k, n, hb⟩, ?_⟩
    · unfold newBytes
      cases ht : ndmFileText lib o f path loc noNs with
      | error e => exact .inl rfl
      | ok t =>
        dsimp only
        cases he : P.encode (P.newlines t) with
        | none => exact .inl rfl
        | some new => exact .inr ⟨t, ndmFileText_ok ht, he⟩
    · congr 1
      unfold ndmFromPath readText readBytes
      rw [hp, Disk.set_same]
      dsimp only
      cases P.decode b <;> rfl

/-! ## Cases -/

/-- An orbit message from the given originator with a number of equal manoeuvres. -/
def manText (originator : Str) (n : Nat) : Str :=
  ofLines (opmLines.take 2 ++ ((py "ORIGINATOR = " ++ originator) :: opmLines.drop 3) ++ (List.replicate n manLines).flatten)

/-- The message. -/
def manOpm (originator : Str) (n : Nat) : Val := ((KvnSelf.fromString {} (manText originator n)).1.toOption).getD .none

/-- A disk with two files: a message without manoeuvres of X, and one of Z. -/
def manDisk : Disk := fun q =>
  if q = py "f" then (kvnToString (manOpm (py "X") 0)).toOption.bind ascii.encode
  else if q = py "g" then (kvnToString (manOpm (py "Z") 0)).toOption.bind ascii.encode
  else none

/-- Two threads and two files. -/
def apartFiles : Nat → List FileCall
  | 0 => [.read (.path (py "f")), .write (manOpm (py "Y") 2) .kvn (.path (py "f")) none none, .read (.str (py "f"))]
  | 1 => [.read (.path (py "g")), .write (manOpm (py "Y") 1) .kvn (.str (py "g")) none none]
  | _ => []

theorem apartFiles_separate : Separate apartFiles := by
  intro t t' hne c hc c' hc' _
  have h0 : ∀ c ∈ apartFiles 0, c.file = py "f" := by simp [apartFiles, FileCall.file, PathArg.name]
  have h1 : ∀ c ∈ apartFiles 1, c.file = py "g" := by simp [apartFiles, FileCall.file, PathArg.name]
  match t, t' with
  | 0, 0 => exact absurd rfl hne
  | 1, 1 => exact absurd rfl hne
  | 0, 1 => rw [h0 c hc, h1 c' hc']; decide
  | 1, 0 => rw [h1 c hc, h0 c' hc']; decide
  | 0, n + 2 => cases hc'
  | 1, n + 2 => cases hc'
  | n + 2, _ => cases hc

/-- The message that was read. -/
def FileResult.seen : FileResult → Option Val
  | .read (.ok v) => some v
  | _ => none

-- The hypotheses of `C60_separate_files` are met, with steps of the two threads in turn; the first thread reads a message without
-- manoeuvres, writes one with two, and reads it.
example : (((fileThreads manDisk apartFiles).run noXml ascii (List.replicate 3000 [(0, 6), (1, 0)]).flatten).threads 0).results =
    callResults noXml ascii manDisk (apartFiles 0) :=
  ((C60_separate_files noXml ascii manDisk apartFiles apartFiles_separate _ 0).2 (by decide +kernel)).1

example : (callResults noXml ascii manDisk (apartFiles 0)).map (fun r => r.seen.map fun v => count (v.at manPath)) =
    [some 0, none, some 2] := by decide +kernel

/-- A thread that writes and one that reads the same file. -/
def sameFile : Nat → List FileCall
  | 0 => [.write (manOpm (py "Y") 2) .kvn (.path (py "f")) none none]
  | 1 => [.read (.path (py "f"))]
  | _ => []

/-- What the second thread has read: originator and number of manoeuvres. -/
def sameFileSeen (schedule : List (Nat × Nat)) : List (Option (Option Val × Nat)) :=
  (((fileThreads manDisk sameFile).run noXml ascii schedule).threads 1).results.map fun r =>
    r.seen.map fun v => (v.at [.f (py "header"), .f (py "originator")], count (v.at manPath))

/-- **C61 is false.**  The file has a message of X without manoeuvres, which is being replaced by one of Y with two.  A reader that
comes when a part has been written gets a message of Y with one manoeuvre; one that is overtaken by the writer gets a
message of X with two.  Neither gets an exception. -/
theorem C61_refuted : sameFileSeen [(1, 0), (1, 5000), (1, 0)] = [some (some (S (py "X")), 0)] ∧
    sameFileSeen [(0, 0), (0, 5000), (0, 0), (1, 0), (1, 5000), (1, 0)] = [some (some (S (py "Y")), 2)] ∧
    sameFileSeen [(0, 0), (0, 839), (1, 0), (1, 5000), (1, 0)] = [some (some (S (py "Y")), 1)] ∧
    sameFileSeen [(1, 0), (1, 100), (0, 0), (0, 5000), (0, 0), (1, 5000), (1, 0)] = [some (some (S (py "X")), 2)] := by
  decide +kernel

-- The hypotheses of `C61_partial` are met by these threads.
example : ∃ old, manDisk (py "f") = some old ∧ ∀ t, t ≠ 0 → t ≠ 1 → ∀ c ∈ sameFile t, c.Writes → c.file ≠ py "f" := by
  have h : (manDisk (py "f")).isSome = true := by decide +kernel
  refine ⟨_, (Option.some_get h).symm, ?_⟩
  intro t h0 h1 c hc
  match t with
  | 0 => exact absurd rfl h0
  | 1 => exact absurd rfl h1
  | n + 2 => cases hc

end Ndm
