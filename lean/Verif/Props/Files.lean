import Verif.SpecFile
import Verif.Props.RoundTrip
import Verif.Props.Attitude
import Verif.Props.Writer
import Verif.Props.History

/-! # C44-C50: files -/

namespace Ndm

/-! ## Helper lemmas -/

theorem universalNewlines_plain {t : Str} (h : '\r' ∉ t) : universalNewlines t = t := by
  induction t with
  | nil => rfl
  | cons c t ih =>
    have hc : c ≠ '\r' := fun e => h (by simp [e])
    have ht : '\r' ∉ t := fun e => h (by simp [e])
    rw [universalNewlines, ih ht]
    · intro s' h1; exact absurd h1 hc
    · intro h1; exact absurd h1 hc

theorem universalNewlines_crlf {t : Str} (h : '\r' ∉ t) :
    universalNewlines (t.flatMap fun c => if c = '\n' then ['\r', '\n'] else [c]) = t := by
  induction t with
  | nil => rfl
  | cons c t ih =>
    have hc : c ≠ '\r' := fun e => h (by simp [e])
    have ht : '\r' ∉ t := fun e => h (by simp [e])
    rw [List.flatMap_cons]
    by_cases hn : c = '\n'
    · subst hn
      simp only [if_true, List.cons_append, List.nil_append]
      rw [universalNewlines, ih ht]
    · simp only [if_neg hn, List.cons_append, List.nil_append]
      rw [universalNewlines, ih ht]
      · intro s' h1; exact absurd h1 hc
      · intro h1; exact absurd h1 hc

theorem universalNewlines_newlines (P : Platform) {t : Str} (h : '\r' ∉ t) : universalNewlines (P.newlines t) = t := by
  unfold Platform.newlines
  split
  · exact universalNewlines_crlf h
  · exact universalNewlines_plain h

theorem Disk.set_same (d : Disk) (p : Str) (b : List UInt8) : d.set p b p = some b := by simp [Disk.set]

theorem Disk.set_other (d : Disk) {p q : Str} (b : List UInt8) (h : q ≠ p) : d.set p b q = d q := by simp [Disk.set, h]

theorem ndmToFile_eq (lib : XmlLib) (P : Platform) (d : Disk) (o : Val) (f : Fmt) (path : PathArg) (loc noNs : Option Str) :
    ndmToFile lib P d o f path loc noNs = writeResult P d path.name (ndmFileText lib o f path loc noNs) := by
  cases f <;> rfl

theorem ndmFileText_ok {lib : XmlLib} {o : Val} {f : Fmt} {path : PathArg} {loc noNs : Option Str} {t : Str}
    (h : ndmFileText lib o f path loc noNs = .ok t) : ndmToString lib o f loc noNs = .ok t := by
  cases f with
  | xml => exact h
  | json => cases h
  | kvn =>
    cases path with
    | path p => exact h
    | str p => cases h

theorem writeText_ok {P : Platform} {d d' : Disk} {p t : Str} (h : writeText P d p t = (.ok (), d')) :
    P.writable p = true ∧ ∃ b, P.encode (P.newlines t) = some b ∧ d' = d.set p b := by
  unfold writeText at h
  split at h
  · rename_i hw
    refine ⟨hw, ?_⟩
    cases hb : P.encode (P.newlines t) with
    | none => rw [hb] at h; cases h
    | some b => rw [hb] at h; exact ⟨b, rfl, by injection h with _ h; exact h.symm⟩
  · cases h

theorem readText_written (P : Platform) (d : Disk) (p : Str) {b : List UInt8} {t : Str} (hb : P.decode b = some (P.newlines t))
    (hr : '\r' ∉ t) : readText P (d.set p b) p = .ok t := by
  simp [readText, Disk.set_same, hb, universalNewlines_newlines P hr]

/-! ## C44: through a file -/

/-- **C44**, what holds: when `to_file` succeeded, `to_string` has a result for the same arguments; and if this text has
no carriage return and the platform decodes what it encoded, `from_path` gives for the file what `from_string` gives for
the text. -/
theorem C44_partial (lib : XmlLib) (P : Platform) (d d' : Disk) (o : Val) (f : Fmt) (path : PathArg) (loc noNs : Option Str)
    (hw : ndmToFile lib P d o f path loc noNs = (.ok (), d')) :
    ∃ t, ndmToString lib o f loc noNs = .ok t ∧
      ('\r' ∉ t → CanStore P path.name t → ∀ path' : PathArg, path'.name = path.name →
        ndmFromPath lib P d' path' = ndmFromString lib t) := by
  rw [ndmToFile_eq] at hw
  cases ht : ndmFileText lib o f path loc noNs with
  | error e => rw [ht] at hw; cases hw
  | ok t =>
    rw [ht] at hw
    refine ⟨t, ndmFileText_ok ht, ?_⟩
    intro hr hs path' hp
    obtain ⟨-, b, hb, rfl⟩ := writeText_ok hw
    obtain ⟨b', hb', hd⟩ := hs.encodes
    rw [hb] at hb'
    injection hb' with hb'
    subst hb'
    unfold ndmFromPath
    rw [hp, readText_written P d _ hd hr]
    rfl

/-- Every well-formed message is written and read back through strings. -/
theorem WellFormedMessage.round_trip {o : Val} (h : WellFormedMessage o) :
    ∃ text, kvnToString o = .ok text ∧ kvnFromString text = .ok o := by
  cases h with
  | oem h => exact C24_partial o h
  | tdm h => exact C25_partial o h
  | aem h => exact C26_partial o h
  | plain hc h =>
    simp only [List.mem_cons, List.not_mem_nil, or_false] at hc
    rcases hc with rfl | rfl | rfl | rfl | rfl
    · exact C21_opm o h
    · exact C22_omm o h
    · exact C23_rdm o h
    · exact C27_partial o h
    · exact C28_partial o h

/-- **C42** for all eight kinds, what holds: in a well-formed message, which says where comments may be, the comments of every
block are read back in that block. -/
theorem C42_messages_partial (s : KvnSelf) (o : Val) (h : WellFormedMessage o) :
    ∃ text v, kvnToString o = .ok text ∧ (s.fromString text).1 = .ok v ∧
      ∀ block, v.at (block ++ [.f (py "comment")]) = o.at (block ++ [.f (py "comment")]) := by
  obtain ⟨t, h1, h2⟩ := h.round_trip
  exact ⟨t, o, h1, by rw [kvn_history_independent]; exact h2, fun _ => rfl⟩

theorem mem_messageKinds {c : Cls} (h : (messageKinds.any fun p => decide (p.1 = c)) = true) :
    ∃ id ver, (c, id, ver) ∈ messageKinds := by
  obtain ⟨⟨c', id, ver⟩, hm, he⟩ := List.any_eq_true.mp h
  simp only [decide_eq_true_eq] at he
  exact ⟨id, ver, he ▸ hm⟩

/-- A well-formed message is an object of one of the eight message classes. -/
theorem WellFormedMessage.kind {o : Val} (h : WellFormedMessage o) :
    ∃ c vs, o = .obj c vs ∧ ∃ id ver, (c, id, ver) ∈ messageKinds := by
  cases h with
  | oem h => cases h; exact ⟨_, _, rfl, mem_messageKinds (by decide)⟩
  | tdm h => cases h; exact ⟨_, _, rfl, mem_messageKinds (by decide)⟩
  | aem h => cases h; exact ⟨_, _, rfl, mem_messageKinds (by decide)⟩
  | plain hc h =>
    obtain ⟨ls, h⟩ := h
    simp only [List.mem_cons, List.not_mem_nil, or_false] at hc
    cases h with
    | special h => cases h <;> simp at hc
    | obj => rcases hc with rfl | rfl | rfl | rfl | rfl <;> exact ⟨_, _, rfl, mem_messageKinds (by decide)⟩

/-- **C44**, what holds, for well-formed messages: `to_file` succeeds and `from_path` returns the message, whichever
class (`NdmIo`, or an `NdmKvnIo` in any state) reads it. -/
theorem C44_messages_partial (lib : XmlLib) (P : Platform) (d : Disk) (o : Val) (h : WellFormedMessage o) (p : Str)
    (loc noNs : Option Str) (hr : ∀ t, kvnToString o = .ok t → '\r' ∉ t) (hs : ∀ t, kvnToString o = .ok t → CanStore P p t) :
    ∃ d', ndmToFile lib P d o .kvn (.path p) loc noNs = (.ok (), d') ∧ kvnToFile P d o (.path p) = (.ok (), d') ∧
      ∀ path : PathArg, path.name = p → ndmFromPath lib P d' path = .ok o ∧ ∀ s : KvnSelf, (s.fromPath P d' path).1 = .ok o := by
  obtain ⟨t, hw, hread⟩ := h.round_trip
  obtain ⟨c, vs, rfl, id, ver, hk⟩ := h.kind
  obtain ⟨b, hb, hd⟩ := (hs t hw).encodes
  have hf : kvnToFile P d (.obj c vs) (.path p) = (.ok (), d.set p b) := by
    simp [kvnToFile, kvnFileText, PathArg.name, hw, writeResult, writeText, (hs t hw).writable, hb]
  refine ⟨d.set p b, hf, hf, ?_⟩
  intro path hp
  have ht := readText_written P d p hd (hr t hw)
  have hfmt := (C18_recognised c id ver hk vs t hw).2.1
  constructor
  · unfold ndmFromPath ndmFromString
    rw [hp, ht]
    change (do match ← identifyFormat t with
      | .xml => (XmlSelf.fromString lib {} t).1
      | .kvn => (KvnSelf.fromString {} t).1
      | .json => .error .notImplementedError) = _
    rw [hfmt]
    change (KvnSelf.fromString {} t).1 = _
    rw [kvn_history_independent, hread]
  · intro s
    unfold KvnSelf.fromPath
    rw [hp, ht]
    change (s.fromString t).1 = _
    rw [kvn_history_independent, hread]

/-- A platform with ASCII text files and LF line ends. -/
def ascii : Platform where
  encode s := if s.all (·.toNat < 128) then some (s.map fun c => c.toNat.toUInt8) else none
  decode b := if b.all (·.toNat < 128) then some (b.map fun x => Char.ofNat x.toNat) else none
  crlf := false
  writable _ := true

/-- A library that cannot read or write XML. -/
def noXml : XmlLib := ⟨fun _ => none, fun _ => .error .parserError, fun _ _ _ => .error .valueError, fun _ => none⟩

/-- A disk with one file. -/
def oneFile (p : Str) (t : Str) : Disk := fun q => if q = p then some (t.map fun c => c.toNat.toUInt8) else none

/-- Write as KVN to a file and read it. -/
def fileWriteRead (P : Platform) (d : Disk) (o : Val) : Except PyErr Val :=
  match ndmToFile noXml P d o .kvn (.path (py "f")) none none with
  | (.ok (), d') => ndmFromPath noXml P d' (.path (py "f"))
  | (.error e, _) => .error e

/-- An OPM whose object name is given. -/
def namedOpm (n : Str) : Val :=
  match (mkOpm []) with
  | .obj c vs => .obj c (Val.setVar (py "header") (mkObj .NdmHeader [(py "creation_date", S (py "2000-01-01")), (py "originator", S n)]) vs)
  | v => v

/-- **C44 is false** without the condition on carriage returns: this OPM survives strings, but not files. -/
theorem C44_refuted : writeRead (namedOpm (py "A\rB = C")) = .ok (namedOpm (py "A\rB = C")) ∧
    fileWriteRead ascii (oneFile (py "f") (py "old")) (namedOpm (py "A\rB = C")) = .ok (namedOpm (py "A")) := by
  decide +kernel

/-- The hypotheses are met: rich messages of several kinds, over an existing file, with LF and with CR LF files. -/
example : fileWriteRead ascii (oneFile (py "f") (py "old")) richOpm = .ok richOpm ∧
    fileWriteRead { ascii with crlf := true } (oneFile (py "g") (py "")) richOpm = .ok richOpm := by
  decide +kernel

/-! ## C45: failing -/

/-- **C45**, what holds: when `to_file` raises, the disk is as before — unless the text was made but cannot be encoded;
then the file is empty, and all others are as before. -/
theorem C45_partial (lib : XmlLib) (P : Platform) (d d' : Disk) (o : Val) (f : Fmt) (path : PathArg) (loc noNs : Option Str)
    (e : PyErr) (h : ndmToFile lib P d o f path loc noNs = (.error e, d')) :
    d' = d ∨ ∃ t, ndmToString lib o f loc noNs = .ok t ∧ P.encode (P.newlines t) = none ∧ e = .valueError ∧
      d' path.name = some [] ∧ ∀ q, q ≠ path.name → d' q = d q := by
  rw [ndmToFile_eq] at h
  cases ht : ndmFileText lib o f path loc noNs with
  | error e' => rw [ht] at h; left; injection h with _ h; exact h.symm
  | ok t =>
    rw [ht] at h
    simp only [writeResult, writeText] at h
    split at h
    · cases hb : P.encode (P.newlines t) with
      | some b => rw [hb] at h; cases h
      | none =>
        rw [hb] at h
        injection h with h1 h2
        injection h1 with h1
        subst h2
        exact Or.inr ⟨t, ndmFileText_ok ht, hb, h1.symm, Disk.set_same _ _ _, fun q hq => Disk.set_other _ _ hq⟩
    · left; injection h with _ h; exact h.symm

/-- **C45** for platforms that can encode every text: a failing `to_file` changes nothing. -/
theorem C45_encodable (lib : XmlLib) (P : Platform) (hP : ∀ t, P.encode t ≠ none) (d d' : Disk) (o : Val) (f : Fmt)
    (path : PathArg) (loc noNs : Option Str) (e : PyErr) (h : ndmToFile lib P d o f path loc noNs = (.error e, d')) : d' = d := by
  rcases C45_partial lib P d d' o f path loc noNs e h with h | ⟨t, -, ht, -⟩
  · exact h
  · exact absurd ht (hP _)

/-- **C45 is false** as stated: with ASCII files, writing an OPM with another character raises `ValueError` and
destroys the old contents of the file. -/
theorem C45_refuted : (ndmToFile noXml ascii (oneFile (py "f") (py "old")) (namedOpm (py "é")) .kvn (.path (py "f")) none none).1 = .error .valueError ∧
    (ndmToFile noXml ascii (oneFile (py "f") (py "old")) (namedOpm (py "é")) .kvn (.path (py "f")) none none).2 (py "f") = some [] ∧
    oneFile (py "f") (py "old") (py "f") = some [111, 108, 100] := by
  decide +kernel

/-- A failing write that leaves the file alone: an empty combined message, which has no KVN notation. -/
example : (ndmToFile noXml ascii (oneFile (py "f") (py "old")) (mkObj .Ndm []) .kvn (.path (py "f")) none none).1 = .error .notImplementedError ∧
    (ndmToFile noXml ascii (oneFile (py "f") (py "old")) (mkObj .Ndm []) .kvn (.path (py "f")) none none).2 (py "f") = some [111, 108, 100] := by
  decide +kernel

/-! ## C46: crashes -/

/-- **C46**, what holds: whenever `to_file` is interrupted, every other file is as it was, and the file itself has its
old contents or a beginning (possibly empty) of the encoded text. -/
theorem C46_partial (lib : XmlLib) (P : Platform) (d d' : Disk) (o : Val) (f : Fmt) (path : PathArg) (loc noNs : Option Str)
    (h : FileState lib P d o f path loc noNs d') :
    (∀ q, q ≠ path.name → d' q = d q) ∧
    (d' path.name = d path.name ∨ d' path.name = some [] ∨
      ∃ t b k, ndmToString lib o f loc noNs = .ok t ∧ P.encode (P.newlines t) = some b ∧ d' path.name = some (b.take k)) := by
  cases h with
  | before => exact ⟨fun _ _ => rfl, Or.inl rfl⟩
  | writing ht hw =>
    cases hw with
    | before => exact ⟨fun _ _ => rfl, Or.inl rfl⟩
    | opened => exact ⟨fun q hq => Disk.set_other _ _ hq, Or.inr (Or.inl (Disk.set_same _ _ _))⟩
    | written k _ hb =>
      exact ⟨fun q hq => Disk.set_other _ _ hq, Or.inr (Or.inr ⟨_, _, k, ndmFileText_ok ht, hb, Disk.set_same _ _ _⟩)⟩

/-- The disk that `to_file` leaves behind is one of these, whether it returns or raises. -/
theorem C46_outcome (lib : XmlLib) (P : Platform) (d : Disk) (o : Val) (f : Fmt) (path : PathArg) (loc noNs : Option Str) :
    FileState lib P d o f path loc noNs (ndmToFile lib P d o f path loc noNs).2 := by
  rw [ndmToFile_eq]
  cases ht : ndmFileText lib o f path loc noNs with
  | error e => exact .before
  | ok t =>
    simp only [writeResult, writeText]
    split
    · rename_i hw
      cases hb : P.encode (P.newlines t) with
      | none => exact .writing ht (.opened hw)
      | some b =>
        have := WriteState.written (P := P) (d := d) (t := t) b.length hw hb
        rw [List.take_length] at this
        exact .writing ht this
    · exact .before

/-- **C46 is false** as stated: interrupted after opening the file, neither the old nor the new contents are there. -/
theorem C46_refuted : ∃ d', FileState noXml ascii (oneFile (py "f") (py "old")) (mkOpm []) .kvn (.path (py "f")) none none d' ∧
    d' (py "f") ≠ oneFile (py "f") (py "old") (py "f") ∧
    d' (py "f") ≠ (ndmToFile noXml ascii (oneFile (py "f") (py "old")) (mkOpm []) .kvn (.path (py "f")) none none).2 (py "f") := by
  have ht : ∃ t, ndmFileText noXml (mkOpm []) .kvn (.path (py "f")) none none = .ok t := by
    have : (ndmFileText noXml (mkOpm []) .kvn (.path (py "f")) none none).toOption.isSome = true := by decide +kernel
    cases h : ndmFileText noXml (mkOpm []) .kvn (.path (py "f")) none none with
    | ok t => exact ⟨t, rfl⟩
    | error e => rw [h] at this; cases this
  obtain ⟨t, ht⟩ := ht
  exact ⟨_, .writing ht (.opened rfl), by decide +kernel, by decide +kernel⟩

/-! ## C47: kinds of paths -/

/-- **C47 is false**: `to_file` never writes KVN to a path given as a string; it raises `AttributeError`. -/
theorem C47_refuted (lib : XmlLib) (P : Platform) (d : Disk) (o : Val) (p : Str) (loc noNs : Option Str) :
    ndmToFile lib P d o .kvn (.str p) loc noNs = (.error .attributeError, d) ∧
    kvnToFile P d o (.str p) = (.error .attributeError, d) := ⟨rfl, rfl⟩

/-- **C47**, what holds: reading does not depend on how the path is given, and neither does writing XML. -/
theorem C47_partial (lib : XmlLib) (P : Platform) (d : Disk) (p : Str) :
    ndmFromPath lib P d (.str p) = ndmFromPath lib P d (.path p) ∧
    (∀ s : KvnSelf, s.fromPath P d (.str p) = s.fromPath P d (.path p)) ∧
    (∀ s : XmlSelf, s.fromPath lib P d (.str p) = s.fromPath lib P d (.path p)) ∧
    (∀ o loc noNs, ndmToFile lib P d o .xml (.str p) loc noNs = ndmToFile lib P d o .xml (.path p) loc noNs) ∧
    (∀ (s : XmlSelf) o loc noNs, s.toFile lib P d o (.str p) loc noNs = s.toFile lib P d o (.path p) loc noNs) :=
  ⟨rfl, fun _ => rfl, fun _ => rfl, fun _ _ _ => rfl, fun _ _ _ _ => rfl⟩

/-! ## C48: line ends of files -/

theorem universalNewlines_end {e s : Str} (he : e ∈ lineEnds) (h : e = py "\r" → s.head? ≠ some '\n') :
    universalNewlines (e ++ s) = '\n' :: universalNewlines s := by
  simp only [lineEnds, List.mem_cons, List.not_mem_nil, or_false] at he
  rcases he with rfl | rfl | rfl
  · show universalNewlines ('\n' :: s) = _
    rw [universalNewlines] <;> (intros; simp_all)
  · show universalNewlines ('\r' :: '\n' :: s) = _
    rw [universalNewlines]
  · show universalNewlines ('\r' :: s) = _
    rw [universalNewlines]
    intro s' hs
    exact h rfl (by rw [hs]; rfl)

theorem universalNewlines_same {s s' : Str} (h : SameLines s s') : universalNewlines s = universalNewlines s' := by
  induction h with
  | nil => rfl
  | char h1 _ _ ih =>
    rw [universalNewlines, universalNewlines, ih] <;> (intros; first | exact absurd ‹_› h1 | skip)
  | lineEnd he he' h h' _ ih => rw [universalNewlines_end he h, universalNewlines_end he' h', ih]

/-- **C48.** Two files with the same lines, whatever ends the lines in each, give the same result. -/
theorem C48_line_ends (lib : XmlLib) (P : Platform) (d : Disk) (path : PathArg) (b b' : List UInt8) (s s' : Str)
    (hb : P.decode b = some s) (hb' : P.decode b' = some s') (h : SameLines s s') :
    ndmFromPath lib P (d.set path.name b) path = ndmFromPath lib P (d.set path.name b') path ∧
    (∀ k : KvnSelf, k.fromPath P (d.set path.name b) path = k.fromPath P (d.set path.name b') path) ∧
    (∀ x : XmlSelf, x.fromPath lib P (d.set path.name b) path = x.fromPath lib P (d.set path.name b') path) := by
  have hr : readText P (d.set path.name b) path.name = readText P (d.set path.name b') path.name := by
    simp [readText, Disk.set_same, hb, hb', universalNewlines_same h]
  refine ⟨?_, fun k => ?_, fun x => ?_⟩
  · unfold ndmFromPath; rw [hr]
  · unfold KvnSelf.fromPath; rw [hr]
  · unfold XmlSelf.fromPath; rw [hr]

/-- The hypotheses are met: an empty line, one ended by CR, one by CR LF. -/
example : SameLines (py "A = 1\r\rB\r\n") (py "A = 1\n\r\nB\r") := by
  refine .char (by decide) (by decide) <| .char (by decide) (by decide) <| .char (by decide) (by decide) <|
    .char (by decide) (by decide) <| .char (by decide) (by decide) <|
    .lineEnd (e := py "\r") (e' := py "\n") (by decide) (by decide) (by decide) (by decide) <|
    .lineEnd (e := py "\r") (e' := py "\r\n") (by decide) (by decide) (by decide) (by decide) <|
    .char (by decide) (by decide) <|
    .lineEnd (e := py "\r\n") (e' := py "\r") (s := []) (s' := []) (by decide) (by decide) (by decide) (by decide) .nil

/-! ## C49: histories -/

/-- A call that writes to another file, or reads. -/
def FileCall.Spares (p : Str) : FileCall → Prop
  | .read _ => True
  | .write _ _ path _ _ => path.name ≠ p

/-- A call that reads, writes to another file, or raises, though not because a text cannot be encoded. -/
def FileCall.Keeps (lib : XmlLib) (P : Platform) (p : Str) : FileCall → Prop
  | .read _ => True
  | .write o f path loc noNs => path.name = p → (∀ d, ∃ e, (ndmToFile lib P d o f path loc noNs).1 = .error e) ∧
      ∀ t, ndmToString lib o f loc noNs = .ok t → P.encode (P.newlines t) ≠ none

theorem FileCall.Spares.keeps {lib : XmlLib} {P : Platform} {p : Str} {c : FileCall} (h : c.Spares p) : c.Keeps lib P p := by
  cases c with
  | read => trivial
  | write o f path loc noNs => exact fun hp => absurd hp h

theorem FileCall.run_keeps (lib : XmlLib) (P : Platform) (p : Str) (calls : List FileCall) (h : ∀ c ∈ calls, c.Keeps lib P p)
    (d : Disk) : (calls.foldl (FileCall.run lib P) d) p = d p := by
  induction calls generalizing d with
  | nil => rfl
  | cons c cs ih =>
    rw [List.foldl_cons, ih fun c' hc' => h c' (by simp [hc'])]
    have hc := h c (by simp)
    cases c with
    | read => rfl
    | write o f path loc noNs =>
      by_cases hp : path.name = p
      · obtain ⟨hf, he⟩ := hc hp
        obtain ⟨e, hf⟩ := hf d
        rcases C45_partial lib P d _ o f path loc noNs e (Prod.ext hf rfl) with hd | ⟨t, ht, hn, -⟩
        · exact congrFun hd p
        · exact absurd hn (he t ht)
      · exact (C46_partial lib P d _ o f path loc noNs (C46_outcome ..)).1 p (Ne.symm hp)

/-- **C49**, what holds: after any history of calls, `from_path` gives what the last successful `to_file` to that path wrote, whatever
was read, written to other files, and refused, since.

Missing: texts with a carriage return (`C44_refuted`) and later calls whose text cannot be encoded (`C49_refuted`). -/
theorem C49_last_write_partial (lib : XmlLib) (P : Platform) (d₀ : Disk) (earlier later : List FileCall) (o : Val) (f : Fmt)
    (path path' : PathArg) (loc noNs : Option Str) (t : Str) (hp : path'.name = path.name)
    (hw : (ndmToFile lib P (earlier.foldl (FileCall.run lib P) d₀) o f path loc noNs).1 = .ok ())
    (ht : ndmToString lib o f loc noNs = .ok t) (hr : '\r' ∉ t) (hs : CanStore P path.name t)
    (hl : ∀ c ∈ later, c.Keeps lib P path.name) :
    ndmFromPath lib P ((earlier ++ [FileCall.write o f path loc noNs] ++ later).foldl (FileCall.run lib P) d₀) path' =
      ndmFromString lib t := by
  obtain ⟨t', ht', hread⟩ := C44_partial lib P _ _ o f path loc noNs (Prod.ext hw rfl)
  rw [ht] at ht'
  injection ht' with ht'
  subst ht'
  rw [← hread hr hs path' hp]
  rw [List.foldl_append, List.foldl_append, List.foldl_cons, List.foldl_nil]
  unfold ndmFromPath readText
  rw [hp, FileCall.run_keeps lib P path.name later hl]
  rfl

/-- **C49**, reading only: a history without writes to a file leaves it as it was. -/
theorem C49_untouched (lib : XmlLib) (P : Platform) (d₀ : Disk) (calls : List FileCall) (p : Str) (h : ∀ c ∈ calls, c.Spares p) :
    (calls.foldl (FileCall.run lib P) d₀) p = d₀ p := FileCall.run_keeps lib P p calls (fun c hc => (h c hc).keeps) d₀

/-- **C49 is false** as stated: after a later `to_file` that raised, what the last successful one wrote is not there any more. -/
theorem C49_refuted :
    (ndmToFile noXml ascii (oneFile (py "f") (py "old")) richOpm .kvn (.path (py "f")) none none).1 = .ok () ∧
    (ndmToFile noXml ascii (oneFile (py "f") (py "any")) (namedOpm (py "é")) .kvn (.path (py "f")) none none).1 = .error .valueError ∧
    ndmFromPath noXml ascii (([.write richOpm .kvn (.path (py "f")) none none,
      .write (namedOpm (py "é")) .kvn (.path (py "f")) none none] : List FileCall).foldl (FileCall.run noXml ascii) (oneFile (py "f") (py "old")))
        (.str (py "f")) = .error .valueError := by
  decide +kernel

/-- The hypotheses are met: a file is overwritten, then others are written and read, one of them unsuccessfully. -/
example : ndmFromPath noXml ascii (([.write (mkOpm []) .kvn (.path (py "f")) none none, .write richOpm .kvn (.path (py "f")) none none,
      .write (mkOpm []) .kvn (.path (py "g")) none none, .write (mkOpm []) .xml (.str (py "h")) none none,
      .read (.str (py "f"))] : List FileCall).foldl (FileCall.run noXml ascii) (oneFile (py "f") (py "old"))) (.str (py "f")) = .ok richOpm := by
  decide +kernel

/-- Calls that keep the file: its path is given as a string, or the message is an empty combined message. -/
example : (FileCall.write richOpm .kvn (.str (py "f")) none none).Keeps noXml ascii (py "f") ∧
    (FileCall.write (mkObj .Ndm []) .kvn (.path (py "f")) none none).Keeps noXml ascii (py "f") :=
  ⟨fun _ => ⟨fun d => ⟨.attributeError, rfl⟩, by
      intro t ht
      have h : ((ndmToString noXml richOpm .kvn none none).toOption.bind fun t => ascii.encode (ascii.newlines t)).isSome = true := by
        decide +kernel
      rw [ht] at h
      exact fun hn => by simp [hn, Except.toOption] at h⟩,
    fun _ => ⟨fun d => ⟨.notImplementedError, by rfl⟩, fun t ht => by
      have h : ndmToString noXml (mkObj .Ndm []) .kvn none none = .error .notImplementedError := by decide +kernel
      rw [h] at ht
      nomatch ht⟩⟩

/-! ## C50: texts determine messages -/

/-- **C50.** Two different well-formed messages, of the same or of different kinds, are never written as the same text. -/
theorem C50_injective (o o' : Val) (h : WellFormedMessage o) (h' : WellFormedMessage o') (heq : kvnToString o = kvnToString o') :
    o = o' := by
  obtain ⟨t, hw, hr⟩ := h.round_trip
  obtain ⟨t', hw', hr'⟩ := h'.round_trip
  rw [hw, hw'] at heq
  injection heq with heq
  subst heq
  rw [hr] at hr'
  injection hr'

example : WellFormedMessage richOpm ∧ WellFormedMessage richApm ∧ richOpm ≠ richApm :=
  ⟨.plain (c := .Opm) (by decide) (wellFormed_of_b (by decide +kernel)), .plain (c := .Apm) (by decide) (wellFormed_of_b (by decide +kernel)), by decide +kernel⟩

end Ndm
