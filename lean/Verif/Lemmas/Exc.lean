import Verif.Py

/-! Computations that may raise. -/

namespace Ndm

theorem bind_ok_iff {ε α β : Type} {x : Except ε α} {f : α → Except ε β} {b : β} :
    (x >>= f) = .ok b ↔ ∃ a, x = .ok a ∧ f a = .ok b := by
  cases x with
  | error e =>
    constructor
    · intro h; cases h
    · rintro ⟨a, h, -⟩; cases h
  | ok a =>
    constructor
    · intro h; exact ⟨a, rfl, h⟩
    · rintro ⟨a', h, h'⟩
      cases h; exact h'

theorem map_ok_iff {ε α β : Type} {x : Except ε α} {f : α → β} {b : β} :
    x.map f = .ok b ↔ ∃ a, x = .ok a ∧ f a = b := by
  cases x with
  | error e => simp [Except.map]
  | ok a => simp [Except.map]

theorem mapM_mem {α β ε : Type} {f : α → Except ε β} : ∀ {l : List α} {r : List β}, l.mapM f = .ok r →
    ∀ y ∈ r, ∃ x ∈ l, f x = .ok y
  | [], r, h, y, hy => by
    rw [List.mapM_nil] at h
    cases h; cases hy
  | a :: l, r, h, y, hy => by
    rw [List.mapM_cons] at h
    obtain ⟨b, hb, h⟩ := bind_ok_iff.mp h
    obtain ⟨bs, hbs, h⟩ := bind_ok_iff.mp h
    cases h
    rcases List.mem_cons.mp hy with rfl | hy
    · exact ⟨a, by simp, hb⟩
    · obtain ⟨x, hx, hfx⟩ := mapM_mem hbs y hy
      exact ⟨x, by simp [hx], hfx⟩

theorem pyGet_ok_iff {α : Type} {l : List α} {i : Nat} {x : α} : pyGet l i = .ok x ↔ l[i]? = some x := by
  unfold pyGet
  cases h : l[i]? with
  | none => simp
  | some y => simp

theorem pyGet_lt {α : Type} {l : List α} {i : Nat} {x : α} (h : pyGet l i = .ok x) : i < l.length := by
  rw [pyGet_ok_iff] at h
  exact (List.getElem?_eq_some_iff.mp h).1

theorem pyGet_mem {α : Type} {l : List α} {i : Nat} {x : α} (h : pyGet l i = .ok x) : x ∈ l := by
  rw [pyGet_ok_iff] at h
  exact List.mem_of_getElem? h

/-- The computation raises no exceptions but those of `S`. -/
def Raises {α : Type} (S : PyErr → Prop) (x : Except PyErr α) : Prop := ∀ e, x = .error e → S e

section
variable {S : PyErr → Prop}

theorem Raises.ok {α : Type} (a : α) : Raises S (.ok a : Except PyErr α) := by intro e h; cases h
theorem Raises.pure {α : Type} (a : α) : Raises S (Pure.pure a : Except PyErr α) := by intro e h; cases h
theorem Raises.err {α : Type} {e : PyErr} (h : S e) : Raises S (.error e : Except PyErr α) := by
  intro e' h'; cases h'; exact h

theorem Raises.bind {α β : Type} {x : Except PyErr α} {f : α → Except PyErr β} (hx : Raises S x)
    (hf : ∀ a, x = .ok a → Raises S (f a)) : Raises S (x >>= f) := by
  cases x with
  | error e => intro e' h; cases h; exact hx _ rfl
  | ok a => exact hf a rfl

theorem Raises.map {α β : Type} {x : Except PyErr α} {f : α → β} (hx : Raises S x) : Raises S (x.map f) := by
  cases x with
  | error e => intro e' h; cases h; exact hx _ rfl
  | ok a => intro e h; cases h

theorem Raises.pyGet {α : Type} (hS : S .indexError) (l : List α) (i : Nat) : Raises S (pyGet l i) := by
  unfold Ndm.pyGet
  split
  · exact .ok _
  · exact .err hS

theorem Raises.mapM {α β : Type} {f : α → Except PyErr β} : ∀ {l : List α}, (∀ x ∈ l, Raises S (f x)) → Raises S (l.mapM f)
  | [], _ => by rw [List.mapM_nil]; exact .pure _
  | a :: l, h => by
    rw [List.mapM_cons]
    refine .bind (h a (by simp)) fun b _ => .bind (Raises.mapM fun x hx => h x (by simp [hx])) fun _ _ => .pure _

theorem Raises.foldlM {α β : Type} {f : β → α → Except PyErr β} : ∀ {l : List α} {b : β},
    (∀ x ∈ l, ∀ b, Raises S (f b x)) → Raises S (l.foldlM f b)
  | [], _, _ => by rw [List.foldlM_nil]; exact .pure _
  | a :: l, b, h => by
    rw [List.foldlM_cons]
    exact .bind (h a (by simp) b) fun b' _ => Raises.foldlM fun x hx => h x (by simp [hx])

/-- The same with a property of the accumulator. -/
theorem Raises.foldlM_inv {α β : Type} {f : β → α → Except PyErr β} (P : β → Prop) : ∀ {l : List α} {b : β},
    (∀ x ∈ l, ∀ b, P b → Raises S (f b x) ∧ ∀ r, f b x = .ok r → P r) → P b → Raises S (l.foldlM f b)
  | [], _, _, _ => by rw [List.foldlM_nil]; exact .pure _
  | a :: l, b, h, hb => by
    rw [List.foldlM_cons]
    exact .bind (h a (by simp) b hb).1 fun b' hb' => Raises.foldlM_inv P (fun x hx => h x (by simp [hx]))
      ((h a (by simp) b hb).2 b' hb')

/-- Exceptions that any message can lead to. -/
structure Common (S : PyErr → Prop) : Prop where
  index : S .indexError
  value : S .valueError
  parser : S .parserError

end

end Ndm
