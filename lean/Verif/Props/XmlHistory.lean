import Verif.Props.History

/-! # C13: histories of reads and writes on one `NdmXmlIo` -/

namespace Ndm

/-- A call on an `NdmXmlIo`: `from_string`, `from_bytes` or `to_string`. -/
inductive XmlUse
  | read (src : Str)
  | readBytes (b : List UInt8)
  | write (w : XmlWrite)

/-- The instance after a call. -/
def XmlUse.after (lib : XmlLib) (s : XmlSelf) : XmlUse → XmlSelf
  | .read src => (s.fromString lib src).2
  | .readBytes b => (s.fromBytes lib b).2
  | .write w => (s.toString lib w.obj w.loc w.noNs).2

/-- The instance after a history of calls, from its creation on. -/
def afterXmlUses (lib : XmlLib) (h : List XmlUse) : XmlSelf := h.foldl (XmlUse.after lib) {}

/-- The locations of the first write of a history. -/
def firstLocations : List XmlUse → Option (Option Str × Option Str)
  | [] => none
  | .write w :: _ => some (w.loc, w.noNs)
  | _ :: h => firstLocations h

theorem after_keeps (lib : XmlLib) {cfg : Option Str × Option Str} : ∀ (h : List XmlUse) (s : XmlSelf), s.serializer = some cfg →
    (h.foldl (XmlUse.after lib) s).serializer = some cfg
  | [], _, hs => hs
  | .read src :: h, s, hs => after_keeps lib h _ hs
  | .readBytes b :: h, s, hs => after_keeps lib h _ (by
      show ((s.fromBytes lib b).2).serializer = _
      unfold XmlSelf.fromBytes
      split <;> exact hs)
  | .write w :: h, s, hs => after_keeps lib h _ (by
      show ((s.toString lib w.obj w.loc w.noNs).2).serializer = _
      simp [XmlSelf.toString, hs])

theorem after_first (lib : XmlLib) : ∀ (h : List XmlUse) (s : XmlSelf), s.serializer = none →
    (h.foldl (XmlUse.after lib) s).serializer = firstLocations h
  | [], _, hs => hs
  | .read src :: h, s, hs => after_first lib h _ hs
  | .readBytes b :: h, s, hs => after_first lib h _ (by
      show ((s.fromBytes lib b).2).serializer = _
      unfold XmlSelf.fromBytes
      split <;> exact hs)
  | .write w :: h, s, hs => after_keeps lib h _ (by
      show ((s.toString lib w.obj w.loc w.noNs).2).serializer = _
      simp [XmlSelf.toString, hs])

/-- **C13**, exactly: after any history of reads and writes, a write uses the locations of the first write of the history, and its
own if there is none. -/
theorem C13_exact (lib : XmlLib) (h : List XmlUse) (o : Val) (loc noNs : Option Str) :
    ((afterXmlUses lib h).toString lib o loc noNs).1 =
      lib.render ((firstLocations h).getD (loc, noNs)).1 ((firstLocations h).getD (loc, noNs)).2 o := by
  have := after_first lib h {} rfl
  unfold XmlSelf.toString afterXmlUses
  rw [this]
  cases firstLocations h <;> rfl

/-- **C13, what holds**: if all writes of the history were given the same locations as this one, it honours them.
Missing: other histories, for which it is false (`C13_refuted`). -/
theorem C13_same_locations_partial (lib : XmlLib) (h : List XmlUse) (o : Val) (loc noNs : Option Str)
    (hs : ∀ w, .write w ∈ h → w.loc = loc ∧ w.noNs = noNs) :
    ((afterXmlUses lib h).toString lib o loc noNs).1 = lib.render loc noNs o := by
  have key : ∀ h : List XmlUse, (∀ w, .write w ∈ h → w.loc = loc ∧ w.noNs = noNs) →
      firstLocations h = none ∨ firstLocations h = some (loc, noNs) := by
    intro h
    induction h with
    | nil => exact fun _ => .inl rfl
    | cons c h ih =>
      intro hs
      have ih := ih fun w hw => hs w (List.mem_cons_of_mem _ hw)
      cases c with
      | read _ => exact ih
      | readBytes _ => exact ih
      | write w =>
        obtain ⟨h1, h2⟩ := hs w List.mem_cons_self
        exact .inr (by rw [firstLocations, h1, h2])
  rw [C13_exact]
  rcases key h hs with e | e <;> rw [e] <;> rfl

-- a history of reads and of writes with one location, and one with two
example : ∀ w, XmlUse.write w ∈ [.write ⟨.none, some (py "a.xsd"), none⟩, .read (py "x"), .write ⟨.none, some (py "a.xsd"), none⟩] →
    w.loc = some (py "a.xsd") ∧ w.noNs = none := by
  intro w hw
  simp only [List.mem_cons, XmlUse.write.injEq, reduceCtorEq, List.not_mem_nil, or_false, false_or] at hw
  rcases hw with rfl | rfl <;> exact ⟨rfl, rfl⟩
example : ((afterXmlUses showLoc [.read (py "x"), .write ⟨.none, some (py "a.xsd"), none⟩]).toString showLoc .none (some (py "b.xsd")) none).1 =
    .ok (py "a.xsd") := by decide

end Ndm
