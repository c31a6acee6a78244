import Verif.SpecStore
import Verif.Props.Files

/-! # C80: `to_file` writes what `to_string` gives -/

namespace Ndm

theorem crlf_line {l : Str} (h : '\n' ∉ l) : (l.flatMap fun c => if c = '\n' then ['\r', '\n'] else [c]) = l := by
  induction l with
  | nil => rfl
  | cons c l ih =>
    rw [List.flatMap_cons, ih fun hm => h (List.mem_cons_of_mem _ hm), if_neg fun e => h (by rw [e]; exact List.mem_cons_self)]
    rfl

theorem crlf_lines : ∀ {ls : List Str}, (∀ l ∈ ls, '\n' ∉ l) →
    ((['\n'].intercalate ls).flatMap fun c => if c = '\n' then ['\r', '\n'] else [c]) = ['\r', '\n'].intercalate ls
  | [], _ => rfl
  | [l], h => by simpa using crlf_line (h l List.mem_cons_self)
  | l :: m :: ls, h => by
    rw [List.intercalate_cons_cons, List.intercalate_cons_cons, List.flatMap_append, List.flatMap_append, crlf_line (h l List.mem_cons_self),
      crlf_lines fun x hx => h x (List.mem_cons_of_mem _ hx)]
    rfl

theorem newlines_lines (P : Platform) {t : Str} {ls : List Str} (h : TextLines t ls) : P.newlines t = P.lineEnd.intercalate ls := by
  obtain ⟨-, hl, rfl⟩ := h
  unfold Platform.newlines Platform.lineEnd
  split
  · exact crlf_lines hl
  · rfl

theorem writeResult_stores (P : Platform) (d : Disk) (p : Str) (r : Except PyErr Str) : Stores P d p r (writeResult P d p r) := by
  refine ⟨?_, ?_, ?_, ?_, ?_⟩
  · rintro e rfl
    rfl
  · rintro t rfl hw
    simp [writeResult, writeText, hw]
  · rintro t ls rfl ht hw he
    simp [writeResult, writeText, hw, newlines_lines P ht, he, Disk.set_same]
  · rintro t ls b rfl ht hw he
    simp [writeResult, writeText, hw, newlines_lines P ht, he, Disk.set_same]
  · intro q hq
    cases r with
    | error e => rfl
    | ok t =>
      simp only [writeResult, writeText]
      split
      · split <;> exact Disk.set_other _ _ hq
      · rfl

/-- **C80.** With any platform, disk and instance: `to_file` stores in the file what `to_string` gives for the same arguments, or
raises what it raises.  (For the key-value notation the path must be a `Path`, C47.) -/
theorem C80_to_file (lib : XmlLib) (P : Platform) (d : Disk) (o : Val) (f : Fmt) (path : PathArg) (loc noNs : Option Str)
    (hp : f = .kvn → ∃ p, path = .path p) :
    Stores P d path.name (ndmToString lib o f loc noNs) (ndmToFile lib P d o f path loc noNs) := by
  have : ndmFileText lib o f path loc noNs = ndmToString lib o f loc noNs := by
    cases f with
    | xml => rfl
    | json => rfl
    | kvn =>
      obtain ⟨p, rfl⟩ := hp rfl
      rfl
  rw [ndmToFile_eq, this]
  exact writeResult_stores P d path.name _

theorem C80_kvn (P : Platform) (d : Disk) (o : Val) (p : Str) : Stores P d p (kvnToString o) (kvnToFile P d o (.path p)) :=
  writeResult_stores P d p _

theorem C80_xml (lib : XmlLib) (P : Platform) (d : Disk) (s : XmlSelf) (o : Val) (path : PathArg) (loc noNs : Option Str) :
    Stores P d path.name (s.toString lib o loc noNs).1 (s.toFile lib P d o path loc noNs).1 ∧
      (s.toFile lib P d o path loc noNs).2 = (s.toString lib o loc noNs).2 :=
  ⟨writeResult_stores P d path.name _, rfl⟩

/-! ## Cases -/

-- a text is stored with the line separator of each platform, over old contents
example : ∀ crlf, ∃ t ls b, kvnToString richOpm = .ok t ∧ TextLines t ls ∧ 2 ≤ ls.length ∧
    ({ ascii with crlf := crlf } : Platform).encode (({ ascii with crlf := crlf } : Platform).lineEnd.intercalate ls) = some b ∧
    (kvnToFile { ascii with crlf := crlf } (oneFile (py "f") (py "old")) richOpm (.path (py "f"))).2 (py "f") = some b := by
  intro crlf
  have h : ((kvnToString richOpm).toOption.any fun t => decide (2 ≤ (splitChar '\n' t).length) && ([true, false].all fun crlf =>
      (({ ascii with crlf := crlf } : Platform).encode (({ ascii with crlf := crlf } : Platform).lineEnd.intercalate (splitChar '\n' t))).isSome)) = true := by
    decide +kernel
  cases ht : kvnToString richOpm with
  | error e => rw [ht] at h; cases h
  | ok t =>
    rw [ht] at h
    simp only [Except.toOption, Option.any_some, Bool.and_eq_true, decide_eq_true_eq, List.all_cons, List.all_nil, Bool.and_true] at h
    have hb : (({ ascii with crlf := crlf } : Platform).encode
        (({ ascii with crlf := crlf } : Platform).lineEnd.intercalate (splitChar '\n' t))).isSome = true := by
      cases crlf
      · exact h.2.2
      · exact h.2.1
    obtain ⟨b, hb⟩ := Option.isSome_iff_exists.mp hb
    have hl := textLines_exists t
    exact ⟨t, _, b, rfl, hl, h.1, hb, ((C80_kvn _ (oneFile (py "f") (py "old")) richOpm (py "f")).stored t _ b ht hl rfl hb).2⟩

-- an exception of each kind: none of them writes the text
example : ndmToString noXml (mkOpm []) .json none none = .error .notImplementedError ∧
    ({ ascii with writable := fun _ => false } : Platform).writable (py "f") = false ∧
    ascii.encode (ascii.lineEnd.intercalate [py "é"]) = none := by decide +kernel

end Ndm
