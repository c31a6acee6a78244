import Verif.Obj

/-! # Equality of values is decidable; access to parts of a value -/

namespace Ndm

mutual
/-- Decidable equality of object trees. -/
def Val.decEq : (a b : Val) → Decidable (a = b)
  | .none, b => match b with
    | .none => isTrue rfl
    | .str _ | .int _ | .dec _ | .enum _ _ | .obj _ _ | .list _ => isFalse (by intro h; cases h)
  | .str s, b => match b with
    | .str t => if h : s = t then isTrue (by rw [h]) else isFalse (by intro h'; cases h'; exact h rfl)
    | .none | .int _ | .dec _ | .enum _ _ | .obj _ _ | .list _ => isFalse (by intro h; cases h)
  | .int s, b => match b with
    | .int t => if h : s = t then isTrue (by rw [h]) else isFalse (by intro h'; cases h'; exact h rfl)
    | .none | .str _ | .dec _ | .enum _ _ | .obj _ _ | .list _ => isFalse (by intro h; cases h)
  | .dec s, b => match b with
    | .dec t => if h : s = t then isTrue (by rw [h]) else isFalse (by intro h'; cases h'; exact h rfl)
    | .none | .str _ | .int _ | .enum _ _ | .obj _ _ | .list _ => isFalse (by intro h; cases h)
  | .enum c s, b => match b with
    | .enum d t =>
      if h : c = d ∧ s = t then isTrue (by rw [h.1, h.2]) else isFalse (by intro h'; cases h'; exact h ⟨rfl, rfl⟩)
    | .none | .str _ | .int _ | .dec _ | .obj _ _ | .list _ => isFalse (by intro h; cases h)
  | .obj c s, b => match b with
    | .obj d t =>
      if h : c = d then match Val.decEqVars s t with
        | isTrue h' => isTrue (by rw [h, h'])
        | isFalse h' => isFalse (by intro e; cases e; exact h' rfl)
      else isFalse (by intro h'; cases h'; exact h rfl)
    | .none | .str _ | .int _ | .dec _ | .enum _ _ | .list _ => isFalse (by intro h; cases h)
  | .list s, b => match b with
    | .list t => match Val.decEqList s t with
        | isTrue h' => isTrue (by rw [h'])
        | isFalse h' => isFalse (by intro e; cases e; exact h' rfl)
    | .none | .str _ | .int _ | .dec _ | .enum _ _ | .obj _ _ => isFalse (by intro h; cases h)
def Val.decEqVars : (a b : List (Str × Val)) → Decidable (a = b)
  | [], [] => isTrue rfl
  | [], _ :: _ => isFalse (by intro h; cases h)
  | _ :: _, [] => isFalse (by intro h; cases h)
  | (k, v) :: r, (k', v') :: r' =>
    if h : k = k' then match Val.decEq v v' with
      | isTrue h1 => match Val.decEqVars r r' with
        | isTrue h2 => isTrue (by rw [h, h1, h2])
        | isFalse h2 => isFalse (by intro e; cases e; exact h2 rfl)
      | isFalse h1 => isFalse (by intro e; cases e; exact h1 rfl)
    else isFalse (by intro e; cases e; exact h rfl)
def Val.decEqList : (a b : List Val) → Decidable (a = b)
  | [], [] => isTrue rfl
  | [], _ :: _ => isFalse (by intro h; cases h)
  | _ :: _, [] => isFalse (by intro h; cases h)
  | v :: r, v' :: r' => match Val.decEq v v' with
      | isTrue h1 => match Val.decEqList r r' with
        | isTrue h2 => isTrue (by rw [h1, h2])
        | isFalse h2 => isFalse (by intro e; cases e; exact h2 rfl)
      | isFalse h1 => isFalse (by intro e; cases e; exact h1 rfl)
end

instance : DecidableEq Val := Val.decEq

instance {α : Type} [DecidableEq α] : DecidableEq (Except PyErr α)
  | .ok a, .ok b => if h : a = b then isTrue (by rw [h]) else isFalse (by intro e; cases e; exact h rfl)
  | .error a, .error b => if h : a = b then isTrue (by rw [h]) else isFalse (by intro e; cases e; exact h rfl)
  | .ok _, .error _ => isFalse (by intro h; cases h)
  | .error _, .ok _ => isFalse (by intro h; cases h)

/-- A step into a value: a named attribute or a list item. -/
inductive Step where
  | f (name : Str)
  | i (n : Nat)

/-- The part of a value at a path of attributes and list positions. -/
def Val.at (v : Val) : List Step → Option Val
  | [] => some v
  | .f k :: p => match v with
    | .obj _ vs => match Val.lookupVar k vs with
      | some w => w.at p
      | .none => .none
    | _ => .none
  | .i n :: p => match v with
    | .list xs => match xs[n]? with
      | some w => w.at p
      | .none => .none
    | _ => .none

end Ndm
