import Verif.XmlIo

/-! # Files: `from_path` and `to_file` of `NdmKvnIo`, `NdmXmlIo` and `NdmIo`

The file system is a map from path names to contents.  The text encoding, the line separator and the permissions of the
platform are parameters. -/

namespace Ndm

/-- A path argument: a `pathlib.Path` or a plain `str` ("Path or AnyStr" in the documentation of `ndm_io.py:33-52` and
`:138-165`). -/
inductive PathArg where
  | path (p : Str)
  | str (p : Str)
deriving DecidableEq, Repr

/-- The file a path argument names.  Simplification: two different names are two different files. -/
def PathArg.name : PathArg → Str
  | .path p => p
  | .str p => p

/-- What the platform decides about text files. -/
structure Platform where
  /-- the default text encoding; `none` for `UnicodeEncodeError` (a `ValueError`) -/
  encode : Str → Option (List UInt8)
  /-- the default text decoding; `none` for `UnicodeDecodeError` (a `ValueError`) -/
  decode : List UInt8 → Option Str
  /-- whether `os.linesep` is CR LF (otherwise it is LF) -/
  crlf : Bool
  /-- whether a file can be opened for writing (otherwise `OSError`) -/
  writable : Str → Bool

/-- The contents of every file; `none` where there is no file. -/
abbrev Disk := Str → Option (List UInt8)

/-- The disk after the contents of one file were replaced. -/
def Disk.set (d : Disk) (p : Str) (b : List UInt8) : Disk := fun q => if q = p then some b else d q

/-- Universal newlines: what reading in text mode does to line ends. -/
def universalNewlines : Str → Str
  | '\r' :: '\n' :: s => '\n' :: universalNewlines s
  | '\r' :: s => '\n' :: universalNewlines s
  | c :: s => c :: universalNewlines s
  | [] => []

/-- What writing in text mode does to line ends. -/
def Platform.newlines (P : Platform) (t : Str) : Str :=
  if P.crlf then t.flatMap fun c => if c = '\n' then ['\r', '\n'] else [c] else t

/-- `Path(p).read_text()` and `open(p, "r").read()`.  Simplification: an existing file can be read. -/
def readText (P : Platform) (d : Disk) (p : Str) : Except PyErr Str :=
  match d p with
  | none => .error .osError
  | some b => match P.decode b with
    | none => .error .valueError
    | some s => .ok (universalNewlines s)

/-- `Path(p).write_text(t)`: the file is opened, which empties it, and then written. -/
def writeText (P : Platform) (d : Disk) (p : Str) (t : Str) : Except PyErr Unit × Disk :=
  if P.writable p then
    match P.encode (P.newlines t) with
    | none => (.error .valueError, d.set p [])
    | some b => (.ok (), d.set p b)
  else (.error .osError, d)

/-- The disks an observer can find while `write_text` runs, for instance when the process is killed: the original one,
and those where a beginning of the new contents is in the file. -/
inductive WriteState (P : Platform) (d : Disk) (p : Str) (t : Str) : Disk → Prop
  | before : WriteState P d p t d
  | opened : P.writable p = true → WriteState P d p t (d.set p [])
  | written {b : List UInt8} (k : Nat) : P.writable p = true → P.encode (P.newlines t) = some b →
      WriteState P d p t (d.set p (b.take k))

/-- `NdmKvnIo.from_path` (`ndm_kvn_io.py:164-181`): `open` takes both kinds of path. -/
def KvnSelf.fromPath (P : Platform) (d : Disk) (s : KvnSelf) (path : PathArg) : Except PyErr Val × KvnSelf :=
  match readText P d path.name with
  | .ok src => s.fromString src
  | .error e => (.error e, s)

/-- The text `NdmKvnIo.to_file` (`ndm_kvn_io.py:218-229`) is about to write, and where: the method `write_text` is looked
up first, and a `str` has none. -/
def kvnFileText (o : Val) : PathArg → Except PyErr Str
  | .path _ => kvnToString o
  | .str _ => .error .attributeError

/-- Write the text, if there is one. -/
def writeResult (P : Platform) (d : Disk) (p : Str) : Except PyErr Str → Except PyErr Unit × Disk
  | .ok t => writeText P d p t
  | .error e => (.error e, d)

/-- `NdmKvnIo.to_file` (`ndm_kvn_io.py:218-229`). -/
def kvnToFile (P : Platform) (d : Disk) (o : Val) (path : PathArg) : Except PyErr Unit × Disk :=
  writeResult P d path.name (kvnFileText o path)

/-- `NdmXmlIo.from_path` (`ndm_xml_io.py:69-87`). -/
def XmlSelf.fromPath (lib : XmlLib) (P : Platform) (d : Disk) (s : XmlSelf) (path : PathArg) :
    Except PyErr Val × XmlSelf :=
  match readText P d path.name with
  | .ok src => s.fromString lib src
  | .error e => (.error e, s)

/-- `NdmXmlIo.to_file` (`ndm_xml_io.py:175-201`). -/
def XmlSelf.toFile (lib : XmlLib) (P : Platform) (d : Disk) (s : XmlSelf) (o : Val) (path : PathArg)
    (loc noNsLoc : Option Str) : (Except PyErr Unit × Disk) × XmlSelf :=
  let r := s.toString lib o loc noNsLoc
  (writeResult P d path.name r.1, r.2)

/-- `NdmIo.from_path` (`ndm_io.py:33-51`). -/
def ndmFromPath (lib : XmlLib) (P : Platform) (d : Disk) (path : PathArg) : Except PyErr Val := do
  let src ← readText P d path.name
  ndmFromString lib src

/-- `NdmIo.to_file` (`ndm_io.py:138-165`). -/
def ndmToFile (lib : XmlLib) (P : Platform) (d : Disk) (o : Val) (f : Fmt) (path : PathArg) (loc noNsLoc : Option Str) :
    Except PyErr Unit × Disk :=
  match f with
  | .xml => (XmlSelf.toFile lib P d {} o path loc noNsLoc).1
  | .kvn => kvnToFile P d o path
  | .json => (.error .notImplementedError, d)

/-- What `NdmIo.to_file` is about to write when it opens the file (`ndm_io.py:138-165`). -/
def ndmFileText (lib : XmlLib) (o : Val) (f : Fmt) (path : PathArg) (loc noNsLoc : Option Str) : Except PyErr Str :=
  match f with
  | .xml => (XmlSelf.toString lib {} o loc noNsLoc).1
  | .kvn => kvnFileText o path
  | .json => .error .notImplementedError

/-- A call of `NdmIo` that touches files. -/
inductive FileCall where
  | read (path : PathArg)
  | write (o : Val) (f : Fmt) (path : PathArg) (loc noNsLoc : Option Str)

/-- The disk after a call. -/
def FileCall.run (lib : XmlLib) (P : Platform) (d : Disk) : FileCall → Disk
  | .read _ => d
  | .write o f path loc noNsLoc => (ndmToFile lib P d o f path loc noNsLoc).2

end Ndm
