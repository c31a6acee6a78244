import Verif.KvnIo
import Verif.Samples
import Verif.Props.Conform

/-! # Properties the code does not have: counterexamples

Concrete runs of the model (of the reader, or of the writer followed by the reader). -/

namespace Ndm

theorem ok_of_check {α : Type} {x : Except PyErr α} (P : α → Prop) [DecidablePred P]
    (h : (x.toOption.any fun v => decide (P v)) = true) : ∃ v, x = .ok v ∧ P v := by
  cases x with
  | error e => cases h
  | ok v => exact ⟨v, rfl, of_decide_eq_true h⟩

/-- Write an object and read the text back. -/
def writeRead (o : Val) : Except PyErr Val := do
  let text ← kvnToString o
  kvnFromString text

/-! ## C30 -/

def covPath (k : Str) : List Step :=
  [.f (py "body"), .f (py "segment"), .i 0, .f (py "data"), .f (py "covariance_matrix"), .i 0, .f k]

/-- **C30 is false.**  Reading an OEM covariance block with `COV_REF_FRAME = RTN` stores no frame, puts the keyword's
name in place of the first element and shifts every number by one position. -/
theorem C30_refuted : ∃ v, kvnFromString (oemText (py "COV_REF_FRAME = RTN\n")) = .ok v ∧
    v.at (covPath (py "cov_ref_frame")) = some .none ∧
    v.at (covPath (py "cx_x") ++ [.f (py "value")]) = some (S (py "COV_REF_FRAME")) ∧
    v.at (covPath (py "cy_x") ++ [.f (py "value")]) = some (D 1) ∧
    v.at (covPath (py "cz_dot_z_dot") ++ [.f (py "value")]) = some (D 20) :=
  ok_of_check _ (by decide +kernel)

-- Without the frame line the same block is read correctly.
example : ∃ v, kvnFromString (oemText (py "")) = .ok v ∧
    v.at (covPath (py "cx_x") ++ [.f (py "value")]) = some (D 1) ∧
    v.at (covPath (py "cz_dot_z_dot") ++ [.f (py "value")]) = some (D 21) :=
  ok_of_check _ (by decide +kernel)

/-! ## C31 -/

def quatPath (k : Str) : List Step := [.f (py "body"), .f (py "segment"), .i 0, .f (py "data"), .f (py "attitude_state"), .i 0,
  .f (py "quaternion_state"), .f (py "quaternion"), .f k]

/-- **C31 is false.**  The schema allows `QUATERNION_TYPE` to be `FIRST`, `LAST`, `first` or `last`; with `first` the
reader takes the scalar component from the last position. -/
theorem C31_refuted :
    (∃ m ms, Cls.members .QuaternionTypeType = some ms ∧ (m, py "first") ∈ ms) ∧
    ∃ v, kvnFromString (aemText (py "first")) = .ok v ∧
      v.at (quatPath (py "qc")) = some (D 4) ∧ v.at (quatPath (py "q1")) = some (D 1) := by
  refine ⟨⟨py "FIRST", _, rfl, by decide⟩, ok_of_check _ (by decide +kernel)⟩

example : ∃ v, kvnFromString (aemText (py "FIRST")) = .ok v ∧
    v.at (quatPath (py "qc")) = some (D 1) ∧ v.at (quatPath (py "q1")) = some (D 2) :=
  ok_of_check _ (by decide +kernel)

/-! ## C34 -/

/-- An observation of one quantity. -/
def mkObs (k : Str) (v : Val) : Val := mkObj .TrackingDataObservationType [(py "epoch", S (py "2000-01-01T00:00:00")), (k, v)]

/-- **C34 is false.**  An observation of `ANGLE_1` cannot be written: `IndexError`. -/
theorem C34_refuted :
    kvnToString (mkTdm [mkObs (py "angle_1") (mkObj .AngleType [(py "value", D 5)])]) = .error .indexError := by
  decide +kernel

/-! ## C35 -/

def userPath : List Step := [.f (py "body"), .f (py "segment"), .f (py "data"), .f (py "user_defined_parameters"), .f (py "user_defined")]

/-- **C35 is false.**  Names are upper-cased by writing. -/
theorem C35_refuted : ∃ v, writeRead (opmWithUser [mkUser (py "foo") (py "bar")]) = .ok v ∧
    v.at userPath = some (.list [mkUser (py "FOO") (py "bar")]) :=
  ok_of_check _ (by decide +kernel)

/-- **C35 is false** also for upper-case names: a comment inside the block becomes a parameter called `COMMENT`. -/
theorem C35_refuted_comment : ∃ v, kvnFromString ((py "CCSDS_OPM_VERS = 2.0\n" ++ opmBodyText ++
      py "USER_DEFINED_A = 1\nCOMMENT hello\nUSER_DEFINED_B = 2\n")) = .ok v ∧
    v.at userPath = some (.list [mkUser (py "A") (py "1"), mkUser (py "COMMENT") (py "hello"), mkUser (py "B") (py "2")]) :=
  ok_of_check _ (by decide +kernel)

/-- **C35 is false** also for distinct values under one name: a parameter whose name occurred earlier is lost when it is
the last one. -/
theorem C35_refuted_duplicate :
    ∃ v, writeRead (opmWithUser [mkUser (py "A") (py "1"), mkUser (py "B") (py "2"), mkUser (py "A") (py "3")]) = .ok v ∧
      v.at userPath = some (.list [mkUser (py "A") (py "1"), mkUser (py "B") (py "2")]) :=
  ok_of_check _ (by decide +kernel)

/-! ## C36 -/

def eulerPath : List Step := [.f (py "body"), .f (py "segment"), .f (py "data"), .f (py "euler_elements_three")]

/-- **C36 is false.**  The text has no keyword of the optional block `eulerElementsThree`, yet the reader returns an
(empty) object for it instead of `None`. -/
theorem C36_refuted :
    (∃ v, kvnFromString apmText = .ok v ∧ v.at eulerPath = some (mkObj .EulerElementsThreeType [
      (py "rotation_angles", mkObj .RotationAngleType []), (py "rotation_rates", mkObj .RotationRateType [])])) :=
  ok_of_check _ (by decide +kernel)

/-! ## C40 -/

/-- **C40 is false.**  A line with an unknown keyword disappears without any error. -/
theorem C40_refuted : ∃ v, kvnFromString ((py "CCSDS_OPM_VERS = 2.0\n" ++ opmBodyText ++ py "UNKNOWN_KEYWORD = 1\n")) = .ok v ∧
    kvnFromString ((py "CCSDS_OPM_VERS = 2.0\n" ++ opmBodyText)) = .ok v :=
  ok_of_check _ (by decide +kernel)

/-- **C40 is false** also for known keywords: a keyword of the data before the metadata disappears. -/
theorem C40_refuted_order : ∃ v, kvnFromString ((py "CCSDS_OPM_VERS = 2.0\nGM = 5\n" ++ opmBodyText)) = .ok v ∧
    kvnFromString ((py "CCSDS_OPM_VERS = 2.0\n" ++ opmBodyText)) = .ok v :=
  ok_of_check _ (by decide +kernel)

/-- **C40 is false** also for known keywords: a repeated keyword disappears, although it states another value. -/
theorem C40_refuted_repeated : ∃ v, kvnFromString ((py "CCSDS_OPM_VERS = 2.0\n" ++ opmBodyText ++ py "ORIGINATOR = Y\n")) = .ok v ∧
    kvnFromString ((py "CCSDS_OPM_VERS = 2.0\n" ++ opmBodyText)) = .ok v :=
  ok_of_check _ (by decide +kernel)

/-- **C40 is false** also for comments: one at the end of the text disappears. -/
theorem C40_refuted_comment : ∃ v, kvnFromString ((py "CCSDS_OPM_VERS = 2.0\n" ++ opmBodyText ++ py "COMMENT lost\n")) = .ok v ∧
    kvnFromString ((py "CCSDS_OPM_VERS = 2.0\n" ++ opmBodyText)) = .ok v :=
  ok_of_check _ (by decide +kernel)

/-! ## C41 -/

/-- The `version` attribute of a message object: an `init=False` field, so always the default of its class. -/
def versionOf : Val → Option Str
  | .obj c _ => c.idVersion.map (·.2)
  | _ => none

/-- **C41 is false.**  A file of version 1.0 is read as a message of version 2.0. -/
theorem C41_refuted : ∃ v, kvnFromString ((py "CCSDS_OPM_VERS = 1.0\n" ++ opmBodyText)) = .ok v ∧
    versionOf v = some (py "2.0") :=
  ok_of_check _ (by decide +kernel)

/-- **C41**, what holds instead: the version of a message read from KVN is the version of its class in the data model,
whatever the file says; so it is the file's version exactly when the file has that version. -/
theorem C41_partial (src : Str) (ls cs : List Str) (ht : TextLines src ls) (hs : SigLines ls cs) (first : Str)
    (rest : List Str) (key version : Str) (hc : cs = first :: rest) (hk : LineKey first key) (v : Val)
    (hv : kvnFromString src = .ok v) :
    ∃ kind ∈ messageKinds, kind.2.1 = key ∧ (versionOf v = some version ↔ version = kind.2.2) := by
  obtain ⟨kind, hm, hkey, vars, rfl⟩ := ((C03_dispatch src ls cs ht hs).2 first rest key hc hk).2 v hv
  refine ⟨kind, hm, hkey, ?_⟩
  rw [versionOf, messageKinds_complete.2 kind hm]
  simp [eq_comm]

end Ndm
