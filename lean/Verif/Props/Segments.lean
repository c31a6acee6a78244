import Verif.Props.Attitude
import Verif.Props.Refuted

/-! # C43: a segment of an attitude ephemeris and the metadata of another one -/

namespace Ndm

/-- An AEM with two segments, of which the first does not say in which order the components of its quaternions come. -/
def twoSegments (order : Str) : Str := (py "CCSDS_AEM_VERS = 1.0
CREATION_DATE = 2000-01-01
ORIGINATOR = X
META_START
OBJECT_NAME = A
ATTITUDE_TYPE = QUATERNION
META_STOP
DATA_START
2000-01-01T00:00:00 1 2 3 4
DATA_STOP
META_START
OBJECT_NAME = A
ATTITUDE_TYPE = QUATERNION
QUATERNION_TYPE = " ++ order ++ py "
META_STOP
DATA_START
2001-01-01T00:00:00 1 2 3 4
DATA_STOP
")

/-- **C43 is false** for the segments of an attitude ephemeris, reading: the first segments of two texts are the same, but the
quaternions read from them differ, because the order of their components is taken from the second segment. -/
theorem C43_refuted_read :
    (∃ v, kvnFromString (twoSegments (py "FIRST")) = .ok v ∧ v.at (quatPath (py "qc")) = some (D 1) ∧ v.at (quatPath (py "q1")) = some (D 2)) ∧
    ∃ v, kvnFromString (twoSegments (py "LAST")) = .ok v ∧ v.at (quatPath (py "qc")) = some (D 4) ∧ v.at (quatPath (py "q1")) = some (D 1) :=
  ⟨ok_of_check _ (by decide +kernel), ok_of_check _ (by decide +kernel)⟩

/-- A segment with one quaternion. -/
def quatSegment (more : List (Str × Val)) (epoch : Str) : Val :=
  aemSegment (mkObj .AemMetadata ((py "object_name", S (py "A")) :: more)) (aemData [] [attitude (py "quaternion_state")
    (.obj .QuaternionEphemerisType [(py "epoch", S epoch), (py "quaternion", .obj .QuaternionType
      [(py "qc", D 1), (py "q1", D 2), (py "q2", D 3), (py "q3", D 4)])])])

/-- **C43 is false**, writing: the second segments of two objects are the same, but their lines differ, because the order is taken from
the first segment. -/
theorem C43_refuted_write :
    let o order := aem header [quatSegment [quatType order] (py "2000-01-01"), quatSegment [] (py "2001-01-01")]
    (∃ text, kvnToString (o (py "FIRST")) = .ok text ∧ py "2001-01-01  1  2  3  4" ∈ splitChar '\n' text) ∧
    ∃ text, kvnToString (o (py "LAST")) = .ok text ∧ py "2001-01-01  2  3  4  1" ∈ splitChar '\n' text :=
  ⟨ok_of_check _ (by decide +kernel), ok_of_check _ (by decide +kernel)⟩

end Ndm
