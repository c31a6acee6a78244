import Verif.XmlIo

/-! # Threads that use the same `NdmXmlIo`

`NdmXmlIo.from_string` and `NdmXmlIo.to_string` as sequences of accesses to the attributes of the instance, executed by threads in
any interleaving.  The parser and the serializer belong to the library and are assumed to keep nothing between calls. -/

namespace Ndm

/-- A call of `from_string` or `to_string` on an instance (`ndm_xml_io.py:106-173`). -/
inductive XmlCall where
  | read (i : Nat) (src : Str)
  | write (i : Nat) (o : Val) (loc noNs : Option Str)

/-- What a call gives back (`ndm_xml_io.py:140`, `:144`, `:173`). -/
inductive XmlResult where
  | read (r : Except PyErr Val)
  | wrote (r : Except PyErr Str)

/-- A call that has looked whether there is a parser or serializer (`ndm_xml_io.py:121`, `:167`). -/
inductive XmlTask where
  /-- there was none: create it (`ndm_xml_io.py:122`, `:203-208`) -/
  | newParser (i : Nat) (src : Str)
  /-- use it (`ndm_xml_io.py:125-144`) -/
  | parse (i : Nat) (src : Str)
  /-- there was none: create it (`ndm_xml_io.py:168-171`, `:210-228`) -/
  | newSerializer (i : Nat) (o : Val) (loc noNs : Option Str)
  /-- use it (`ndm_xml_io.py:173`) -/
  | render (i : Nat) (o : Val)

/-- A thread (no code in the repository creates any; `ndm_xml_io.py:106-173` run by it): the call it is executing, the calls still to be made, and the results so far. -/
structure XmlThread where
  current : Option XmlTask := none
  todo : List XmlCall
  results : List XmlResult := []

/-- The instances (`ndm_xml_io.py:65-67`) and the threads. -/
structure XmlMachine where
  heap : Nat → XmlSelf
  threads : Nat → XmlThread

/-- The first access of a call: whether `self.parser` or `self.serializer` is `None` (`ndm_xml_io.py:121`, `:167`). -/
def XmlCall.start (heap : Nat → XmlSelf) : XmlCall → XmlTask
  | .read i src => if (heap i).parser then .parse i src else .newParser i src
  | .write i o loc noNs => match (heap i).serializer with
    | none => .newSerializer i o loc noNs
    | some _ => .render i o

/-- A further access: assigning the attribute, or reading it for use (`AttributeError` if it were `None`;
`ndm_xml_io.py:122-144`, `:168-173`, `:203-228`). -/
def XmlTask.step (lib : XmlLib) (heap : Nat → XmlSelf) : XmlTask → (XmlResult ⊕ XmlTask) × (Nat → XmlSelf)
  | .newParser i src => (.inr (.parse i src), fun j => if j = i then { heap i with parser := true } else heap j)
  | .parse i src => (.inl (.read (if (heap i).parser then xmlFromString lib src else .error .attributeError)), heap)
  | .newSerializer i o loc noNs =>
    (.inr (.render i o), fun j => if j = i then { heap i with serializer := some (loc, noNs) } else heap j)
  | .render i o => match (heap i).serializer with
    | none => (.inl (.wrote (.error .attributeError)), heap)
    | some cfg => (.inl (.wrote (lib.render cfg.1 cfg.2 o)), heap)

/-- One step of a thread: the next access of its call, or the first one of its next call (`ndm_xml_io.py:106-173`). -/
def XmlThread.step (lib : XmlLib) (heap : Nat → XmlSelf) (th : XmlThread) : XmlThread × (Nat → XmlSelf) :=
  match th.current with
  | none => match th.todo with
    | [] => (th, heap)
    | c :: r => ({ th with current := some (c.start heap), todo := r }, heap)
  | some k => match k.step lib heap with
    | (.inl r, heap') => ({ th with current := none, results := th.results ++ [r] }, heap')
    | (.inr k', heap') => ({ th with current := some k' }, heap')

/-- One step of the machine: a step of the thread the scheduler chose; attribute accesses are atomic, as in CPython
(`ndm_xml_io.py:106-173`). -/
def XmlMachine.step (lib : XmlLib) (m : XmlMachine) (t : Nat) : XmlMachine :=
  let x := (m.threads t).step lib m.heap
  { heap := x.2, threads := fun u => if u = t then x.1 else m.threads u }

/-- The steps of a schedule (`ndm_xml_io.py:106-173`). -/
def XmlMachine.run (lib : XmlLib) (m : XmlMachine) (schedule : List Nat) : XmlMachine := schedule.foldl (XmlMachine.step lib) m

/-- Threads that are to make the given calls (`ndm_xml_io.py:106-173`). -/
def xmlThreads (heap : Nat → XmlSelf) (calls : Nat → List XmlCall) : XmlMachine := { heap, threads := fun t => { todo := calls t } }

end Ndm
