import Verif.Files

/-! # Threads and processes that share a disk

`NdmIo.from_path` and `NdmIo.to_file` as sequences of accesses to the file system, executed in any interleaving.  The
instances they create are not shared (see `Threads.lean`), and everything else is local to a call. -/

namespace Ndm

/-- What a call gives back. -/
inductive FileResult where
  | read (r : Except PyErr Val)
  | wrote (r : Except PyErr Unit)

/-- A call that has opened its file. -/
inductive FileTask where
  /-- `read_text` (`ndm_io.py:48-49`): the bytes that have been read -/
  | reading (p : Str) (got : List UInt8)
  /-- `write_text` (`ndm_kvn_io.py:229`, `ndm_xml_io.py:201`): the bytes still to be written, and where -/
  | writing (p : Str) (rest : List UInt8) (off : Nat)
  /-- `write_text` with a text that the encoding does not have: the file is already empty -/
  | failing

/-- A thread: the call it is executing, the calls still to be made, and the results so far. -/
structure FileThread where
  current : Option FileTask := none
  todo : List FileCall
  results : List FileResult := []

/-- The disk and the threads. -/
structure FileMachine where
  disk : Disk
  threads : Nat → FileThread

/-- The contents of a file after some bytes were written at a position; a gap is filled with zeros. -/
def overwrite (old : List UInt8) (off : Nat) (bytes : List UInt8) : List UInt8 :=
  old.take off ++ List.replicate (off - old.length) 0 ++ bytes ++ old.drop (off + bytes.length)

/-- The text of the bytes read, and the message (`ndm_io.py:49-51`). -/
def readBytes (lib : XmlLib) (P : Platform) (b : List UInt8) : Except PyErr Val :=
  match P.decode b with
  | none => .error .valueError
  | some s => ndmFromString lib (universalNewlines s)

/-- The first access of a call: opening the file, which for writing empties it.  A result at once if that fails, or if there
is nothing to write (`ndm_io.py:33-51`, `:138-165`). -/
def FileCall.openFile (lib : XmlLib) (P : Platform) (d : Disk) : FileCall → (FileResult ⊕ FileTask) × Disk
  | .read path => match d path.name with
    | none => (.inl (.read (.error .osError)), d)
    | some _ => (.inr (.reading path.name []), d)
  | .write o f path loc noNs => match ndmFileText lib o f path loc noNs with
    | .error e => (.inl (.wrote (.error e)), d)
    | .ok t => if P.writable path.name then
        match P.encode (P.newlines t) with
        | none => (.inr .failing, d.set path.name [])
        | some b => (.inr (.writing path.name b 0), d.set path.name [])
      else (.inl (.wrote (.error .osError)), d)

/-- A further access of a call, of at most `n + 1` bytes: the operating system decides how many are read or written at once. -/
def FileTask.step (lib : XmlLib) (P : Platform) (d : Disk) (n : Nat) : FileTask → (FileResult ⊕ FileTask) × Disk
  | .reading p got => match (((d p).getD []).drop got.length).take (n + 1) with
    | [] => (.inl (.read (readBytes lib P got)), d)
    | chunk => (.inr (.reading p (got ++ chunk)), d)
  | .writing _ [] _ => (.inl (.wrote (.ok ())), d)
  | .writing p rest off =>
    (.inr (.writing p (rest.drop (n + 1)) (off + (rest.take (n + 1)).length)),
      d.set p (overwrite ((d p).getD []) off (rest.take (n + 1))))
  | .failing => (.inl (.wrote (.error .valueError)), d)

/-- A call goes on, or gives back its result. -/
def FileThread.after (th : FileThread) : FileResult ⊕ FileTask → FileThread
  | .inl r => { th with current := none, results := th.results ++ [r] }
  | .inr k => { th with current := some k }

/-- One step of a thread on the disk. -/
def FileThread.step (lib : XmlLib) (P : Platform) (d : Disk) (n : Nat) (th : FileThread) : FileThread × Disk :=
  match th.current with
  | none => match th.todo with
    | [] => (th, d)
    | c :: r => let x := c.openFile lib P d; (({ th with todo := r } : FileThread).after x.1, x.2)
  | some k => let x := k.step lib P d n; (th.after x.1, x.2)

/-- One step of the machine: the thread, and the size of its access. -/
def FileMachine.step (lib : XmlLib) (P : Platform) (m : FileMachine) (s : Nat × Nat) : FileMachine :=
  let x := (m.threads s.1).step lib P m.disk s.2
  { disk := x.2, threads := fun t => if t = s.1 then x.1 else m.threads t }

/-- The steps of a schedule. -/
def FileMachine.run (lib : XmlLib) (P : Platform) (m : FileMachine) (schedule : List (Nat × Nat)) : FileMachine :=
  schedule.foldl (FileMachine.step lib P) m

/-- Threads that are to make the given calls. -/
def fileThreads (d : Disk) (calls : Nat → List FileCall) : FileMachine := { disk := d, threads := fun t => { todo := calls t } }

end Ndm
