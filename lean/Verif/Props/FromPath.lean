import Verif.Props.Files

/-! # C73: `from_path` reads what is in the file -/

namespace Ndm

/-- **C73.** Whatever is on the disk, with any platform and in any state of the instances: without the file, `from_path` raises
`OSError`; with a file that cannot be decoded it raises `ValueError` (`UnicodeDecodeError`); both leave the instance as it was.
With a file whose text has no carriage return it does exactly what `from_string` does with the text. -/
theorem C73_from_path (lib : XmlLib) (P : Platform) (d : Disk) (path : PathArg) :
    (d path.name = none → ndmFromPath lib P d path = .error .osError ∧
      (∀ s : KvnSelf, s.fromPath P d path = (.error .osError, s)) ∧ ∀ s : XmlSelf, s.fromPath lib P d path = (.error .osError, s)) ∧
    (∀ b, d path.name = some b → P.decode b = none → ndmFromPath lib P d path = .error .valueError ∧
      (∀ s : KvnSelf, s.fromPath P d path = (.error .valueError, s)) ∧ ∀ s : XmlSelf, s.fromPath lib P d path = (.error .valueError, s)) ∧
    ∀ b t, d path.name = some b → P.decode b = some t → '\r' ∉ t → ndmFromPath lib P d path = ndmFromString lib t ∧
      (∀ s : KvnSelf, s.fromPath P d path = s.fromString t) ∧ ∀ s : XmlSelf, s.fromPath lib P d path = s.fromString lib t := by
  refine ⟨fun h => ?_, fun b h hd => ?_, fun b t h hd hr => ?_⟩
  · have : readText P d path.name = .error .osError := by simp [readText, h]
    unfold ndmFromPath KvnSelf.fromPath XmlSelf.fromPath
    rw [this]
    exact ⟨rfl, fun _ => rfl, fun _ => rfl⟩
  · have : readText P d path.name = .error .valueError := by simp [readText, h, hd]
    unfold ndmFromPath KvnSelf.fromPath XmlSelf.fromPath
    rw [this]
    exact ⟨rfl, fun _ => rfl, fun _ => rfl⟩
  · have : readText P d path.name = .ok t := by simp [readText, h, hd, universalNewlines_plain hr]
    unfold ndmFromPath KvnSelf.fromPath XmlSelf.fromPath
    rw [this]
    exact ⟨rfl, fun _ => rfl, fun _ => rfl⟩

-- all three cases occur: no file, a file that is not ASCII, and a text
example : (oneFile (py "f") (py "é")) (py "g") = none ∧
    ascii.decode (((oneFile (py "f") (py "é")) (py "f")).getD []) = none ∧
    ascii.decode (((oneFile (py "f") (py "A = B")) (py "f")).getD []) = some (py "A = B") := by decide +kernel

end Ndm
