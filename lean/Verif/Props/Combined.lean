import Verif.XmlIo
import Verif.SpecNdm

/-! # C14-C17: combined messages -/

namespace Ndm

theorem Except.mapM_ok {α β ε : Type} (f : α → Except ε β) (g : α → β) :
    ∀ (l : List α), (∀ x ∈ l, f x = .ok (g x)) → l.mapM f = .ok (l.map g)
  | [], _ => rfl
  | x :: l, h => by
    rw [List.mapM_cons, h x (by simp), Except.mapM_ok f g l (fun y hy => h y (by simp [hy]))]
    rfl

theorem downcast_items (a b : Cls) (h : a.firstSubclass = some b) (l : List Body) :
    (l.map (Val.obj a)).mapM downcastItem = .ok (l.map (Val.obj b)) := by
  rw [Except.mapM_ok downcastItem (fun v => match v with | .obj _ vs => .obj b vs | v => v)]
  · rw [List.map_map]; rfl
  · intro x hx
    obtain ⟨vs, -, rfl⟩ := List.mem_map.mp hx
    simp [downcastItem, h]

theorem downcast_slot (n : Str) (a b : Cls) (l : List Body) (h : a.firstSubclass = some b) (h1 : n ≠ py "comment")
    (h2 : n ≠ py "message_id") : downcastVars [(n, .list (l.map (Val.obj a)))] = .ok [(n, .list (l.map (Val.obj b)))] := by
  have h3 : ¬ (n = py "comment" ∨ n = py "message_id") := by simp [h1, h2]
  simp only [downcastVars, List.mapM_cons, List.mapM_nil, if_neg h3, downcast_items a b h l]
  rfl

theorem mapM_cons_of_single {α β ε : Type} (f : α → Except ε β) (p : α) (q : β) (vs : List α) (ws : List β)
    (h : [p].mapM f = .ok [q]) (hs : vs.mapM f = .ok ws) : (p :: vs).mapM f = .ok (q :: ws) := by
  rw [List.mapM_cons] at *
  rw [hs]
  cases hx : f p with
  | error e => rw [hx] at h; cases h
  | ok r =>
    rw [hx] at h
    have h' : (Except.ok [r] : Except ε (List β)) = .ok [q] := h
    injection h' with h'
    injection h' with h'
    rw [h']; rfl

theorem downcastVars_cons (p : Str × Val) (q : Str × Val) (vs ws : List (Str × Val)) (h : downcastVars [p] = .ok [q])
    (hs : downcastVars vs = .ok ws) : downcastVars (p :: vs) = .ok (q :: ws) :=
  mapM_cons_of_single _ p q vs ws h hs

/-- **C16.** Downcasting gives every message the concrete class of its slot and changes nothing else. -/
theorem C16_downcast (m : Combined) : downcastNdm m.parsed = .ok m.typed := by
  have hid : ∀ p : Str × Val, p.1 = py "comment" ∨ p.1 = py "message_id" → downcastVars [p] = .ok [p] := by
    intro p hp
    simp only [downcastVars, List.mapM_cons, List.mapM_nil, if_pos hp]
    rfl
  unfold Combined.parsed Combined.toObj downcastNdm
  have h := downcastVars_cons _ _ _ _ (hid (py "message_id", m.messageId) (Or.inr rfl)) <|
    downcastVars_cons _ _ _ _ (hid (py "comment", m.comment) (Or.inl rfl)) <|
    downcastVars_cons _ _ _ _ (downcast_slot (py "aem") .AemType .Aem m.aem rfl (by decide) (by decide)) <|
    downcastVars_cons _ _ _ _ (downcast_slot (py "apm") .ApmType .Apm m.apm rfl (by decide) (by decide)) <|
    downcastVars_cons _ _ _ _ (downcast_slot (py "cdm") .CdmType .Cdm m.cdm rfl (by decide) (by decide)) <|
    downcastVars_cons _ _ _ _ (downcast_slot (py "oem") .OemType .Oem m.oem rfl (by decide) (by decide)) <|
    downcastVars_cons _ _ _ _ (downcast_slot (py "omm") .OmmType .Omm m.omm rfl (by decide) (by decide)) <|
    downcastVars_cons _ _ _ _ (downcast_slot (py "opm") .OpmType .Opm m.opm rfl (by decide) (by decide)) <|
    downcastVars_cons _ _ _ _ (downcast_slot (py "rdm") .RdmType .Rdm m.rdm rfl (by decide) (by decide)) <|
    downcast_slot (py "tdm") .TdmType .Tdm m.tdm rfl (by decide) (by decide)
  simp only [h]
  rfl

/-- The slots of the typed object. -/
def Combined.slots (m : Combined) : List (Str × List Val) := [
    (py "aem", m.aem.map (.obj .Aem)), (py "apm", m.apm.map (.obj .Apm)),
    (py "cdm", m.cdm.map (.obj .Cdm)), (py "oem", m.oem.map (.obj .Oem)),
    (py "omm", m.omm.map (.obj .Omm)), (py "opm", m.opm.map (.obj .Opm)),
    (py "rdm", m.rdm.map (.obj .Rdm)), (py "tdm", m.tdm.map (.obj .Tdm))]

def Combined.typedVars (m : Combined) : List (Str × Val) :=
  (py "message_id", m.messageId) :: (py "comment", m.comment) :: m.slots.map fun p => (p.1, .list p.2)

theorem Combined.typed_eq (m : Combined) : m.typed = .obj .Ndm m.typedVars := rfl

theorem nonZeroSlots_typed (m : Combined) :
    nonZeroSlots m.typedVars = .ok (m.slots.filter fun p => !p.2.isEmpty) := by
  have hf : (m.typedVars.filter fun p => p.1 != py "message_id" && p.1 != py "comment") =
      m.slots.map fun p => (p.1, Val.list p.2) := by
    have h1 : (py "message_id" != py "message_id" && py "message_id" != py "comment") = false := by decide
    have h2 : (py "comment" != py "message_id" && py "comment" != py "comment") = false := by decide
    simp only [Combined.typedVars, List.filter_cons, h1, h2]
    simp only [Bool.false_eq_true, if_false]
    rw [List.filter_eq_self]
    intro p hp
    obtain ⟨q, hq, rfl⟩ := List.mem_map.mp hp
    have : q.1 ∈ messageTags := by
      simp only [Combined.slots, List.mem_cons, List.not_mem_nil, or_false] at hq
      rcases hq with rfl | rfl | rfl | rfl | rfl | rfl | rfl | rfl <;> (simp only; decide)
    have hall : ∀ t ∈ messageTags, (t != py "message_id" && t != py "comment") = true := by decide
    exact hall _ this
  unfold nonZeroSlots
  rw [hf, Except.mapM_ok _ (fun p => match p.2 with | .list xs => (p.1, xs) | _ => (p.1, []))]
  · simp only [List.map_map]
    have : (((fun p : Str × Val => match p.2 with | .list xs => (p.1, xs) | _ => (p.1, [])) ∘
        fun p : Str × List Val => (p.1, Val.list p.2))) = id := by
      funext p; rfl
    rw [this, List.map_id]
    rfl
  · intro x hx
    obtain ⟨q, -, rfl⟩ := List.mem_map.mp hx
    rfl

theorem messages_eq (m : Combined) : m.messages = m.slots.flatMap (·.2) := by
  simp [Combined.messages, Combined.slots]

/-- The non-empty slots hold one message in total iff there is one non-empty slot holding one. -/
theorem single_slot_iff : ∀ (s : List (Str × List Val)),
    (∀ x, s.flatMap (·.2) = [x] ↔ ∃ n, (s.filter fun p => !p.2.isEmpty) = [(n, [x])])
  | [] => by simp
  | (n, []) :: s => by
    intro x
    have := single_slot_iff s x
    simpa using this
  | (n, [y]) :: s => by
    intro x
    have hnil : s.flatMap (·.2) = [] ↔ (s.filter fun p => !p.2.isEmpty) = [] := by
      rw [List.flatMap_eq_nil_iff, List.filter_eq_nil_iff]
      simp
    simp only [List.flatMap_cons, List.filter_cons, List.isEmpty_cons, Bool.not_false, if_true, List.cons_append,
      List.nil_append, List.cons.injEq, hnil, Prod.mk.injEq]
    constructor
    · rintro ⟨rfl, h⟩; exact ⟨n, by simp, h⟩
    · rintro ⟨_, h1, h2⟩; exact ⟨by simpa using h1.2, h2⟩
  | (n, y :: z :: zs) :: s => by
    intro x
    simp

/-- **C14** (stripping).  A combined message holding exactly one message in total is stripped to that message;
any other combined message is returned whole, with every message still present. -/
theorem C14_strip (m : Combined) :
    (∀ x, m.messages = [x] → stripMultiNdm m.typed = .ok x) ∧
    (m.messages.length ≠ 1 → stripMultiNdm m.typed = .ok m.typed) := by
  rw [m.typed_eq]
  simp only [stripMultiNdm, nonZeroSlots_typed]
  constructor
  · intro x hx
    rw [messages_eq] at hx
    obtain ⟨n, h⟩ := (single_slot_iff _ x).mp hx
    rw [h]; rfl
  · intro hne
    cases hl : (m.slots.filter fun p => !p.2.isEmpty) with
    | nil => rfl
    | cons p ps =>
      obtain ⟨n, ys⟩ := p
      cases ps with
      | cons q qs => cases ys with
        | nil => rfl
        | cons y ys => cases ys <;> rfl
      | nil =>
        cases ys with
        | nil => rfl
        | cons y ys =>
          cases ys with
          | cons z zs => rfl
          | nil =>
            exfalso
            apply hne
            rw [messages_eq, (single_slot_iff _ y).mpr ⟨n, hl⟩]
            rfl

/-- **C14** (end to end).  Reading a text whose root is not one of the eight message tags and whose content is the
combined message `m` returns `m`'s only message, or `m` with all its messages. -/
theorem C14_read (lib : XmlLib) (src : Str) (m : Combined) (hp : lib.parse src = .ok m.parsed)
    (hr : ∀ t, lib.rootTag src = some t → t ∉ messageTags) :
    (∀ x, m.messages = [x] → xmlFromString lib src = .ok x) ∧
    (m.messages.length ≠ 1 → xmlFromString lib src = .ok m.typed) := by
  have hid : identifyXmlType lib src = (.Ndm, true) := by
    unfold identifyXmlType
    cases ht : lib.rootTag src with
    | none => rfl
    | some t =>
      have : xmlTypes.find? (fun c => c.metaName == some t) = none := by
        rw [List.find?_eq_none]
        intro c hc hm
        apply hr t ht
        have hcm : ∀ c ∈ xmlTypes, ∀ t', c.metaName = some t' → t' ∈ messageTags := by decide
        exact hcm c hc t (by simpa using hm)
      simp only [this]
  have := C14_strip m
  constructor
  · intro x hx
    unfold xmlFromString
    rw [hid, hp]
    simp only [bind, Except.bind, C16_downcast]
    exact this.1 x hx
  · intro hx
    unfold xmlFromString
    rw [hid, hp]
    simp only [bind, Except.bind, C16_downcast]
    exact this.2 hx

/-- **C14** (single messages).  A text whose root is one of the eight message tags is returned as parsed. -/
theorem C14_plain (lib : XmlLib) (src t : Str) (c : Cls) (vs : Body) (hp : lib.parse src = .ok (.obj c vs))
    (hc : c ≠ .Ndm) (hr : lib.rootTag src = some t) (ht : t ∈ messageTags) :
    xmlFromString lib src = .ok (.obj c vs) := by
  have hid : (identifyXmlType lib src).2 = false := by
    unfold identifyXmlType
    rw [hr]
    have hall : ∀ t ∈ messageTags, (xmlTypes.find? (fun c => c.metaName == some t)).isSome = true := by decide
    have := hall t ht
    cases hf : xmlTypes.find? (fun c => c.metaName == some t) with
    | none => rw [hf] at this; cases this
    | some d => simp only [hf]
  unfold xmlFromString
  rw [hp]
  cases hx : identifyXmlType lib src with
  | mk d b =>
    rw [hx] at hid
    simp only at hid
    subst hid
    have : downcastNdm (.obj c vs) = .ok (.obj c vs) := by
      cases c <;> first | rfl | exact absurd rfl hc
    simp only [bind, Except.bind, this]
    rfl

/-- **C15.** The check used by the KVN writer says "single" exactly when there is one message in total, and that is
exactly when stripping removes the wrapper. -/
theorem C15_multi (m : Combined) :
    isMultiNdm m.typedVars = .ok (decide (m.messages.length ≠ 1)) ∧
    (isMultiNdm m.typedVars = .ok false ↔ ∃ x, m.messages = [x] ∧ stripMultiNdm m.typed = .ok x) := by
  have h1 : isMultiNdm m.typedVars = .ok (decide (m.messages.length ≠ 1)) := by
    unfold isMultiNdm
    rw [nonZeroSlots_typed]
    by_cases hl : m.messages.length = 1
    · obtain ⟨x, hx⟩ := List.length_eq_one_iff.mp hl
      have hx' := hx
      rw [messages_eq] at hx'
      obtain ⟨n, h⟩ := (single_slot_iff _ x).mp hx'
      rw [h, hx]; rfl
    · rw [decide_eq_true hl]
      cases hq : (m.slots.filter fun p => !p.2.isEmpty) with
      | nil => rfl
      | cons p ps =>
        obtain ⟨n, ys⟩ := p
        cases ps with
        | cons q qs => cases ys with
          | nil => rfl
          | cons y ys => cases ys <;> rfl
        | nil =>
          cases ys with
          | nil => rfl
          | cons y ys =>
            cases ys with
            | cons z zs => rfl
            | nil =>
              exfalso
              apply hl
              rw [messages_eq, (single_slot_iff _ y).mpr ⟨n, hq⟩]
              rfl
  refine ⟨h1, ?_⟩
  rw [h1]
  constructor
  · intro h
    have hl : m.messages.length = 1 := by
      by_contra hne
      rw [decide_eq_true hne] at h
      cases h
    obtain ⟨x, hx⟩ := List.length_eq_one_iff.mp hl
    exact ⟨x, hx, (C14_strip m).1 x hx⟩
  · rintro ⟨x, hx, -⟩
    rw [hx]; rfl

/-- **C17** (refusal).  A combined message that does not hold exactly one message is refused with
`NotImplementedError`. -/
theorem C17_partial (m : Combined) (h : m.messages.length ≠ 1) :
    kvnToString m.typed = .error .notImplementedError := by
  have hm : Cls.Ndm.metaName = some (py "ndm") := rfl
  simp only [kvnToString, kvnLines, m.typed_eq, hm, (C15_multi m).1, decide_eq_true h]
  rfl

/-- **C17 is false** in the other case: for *every* combined message holding exactly one message, writing KVN raises
`AttributeError` instead of producing that message's text. -/
theorem C17_refuted (m : Combined) (x : Val) (h : m.messages = [x]) :
    kvnToString m.typed = .error .attributeError := by
  have hm : Cls.Ndm.metaName = some (py "ndm") := rfl
  have hi : Cls.Ndm.idVersion = none := rfl
  simp only [kvnToString, kvnLines, m.typed_eq, hm, hi, (C15_multi m).1, h]
  rfl

/-- Example: one OPM and nothing else; two messages of different kinds; two of the same kind. -/
def oneMessage : Combined := ⟨.none, .list [.str (py "hello")], [], [], [], [], [], [[]], [], []⟩
def twoKinds : Combined := { oneMessage with aem := [[]] }
def twoOpms : Combined := { oneMessage with opm := [[], [(py "header", .none)]] }

example : oneMessage.messages = [.obj .Opm []] := rfl
example : twoKinds.messages.length ≠ 1 ∧ twoOpms.messages.length ≠ 1 := by decide

end Ndm
