import Verif.SpecMalformed
import Verif.SpecXmlDoc

/-! Numbers in plain form: nothing more is absent or malformed. -/

namespace Ndm

theorem plainVars_eq_map : ∀ vs : List (Str × Val), plainVars vs = vs.map fun p => (p.1, p.2.plain)
  | [] => rfl
  | (n, v) :: vs => by simp [plainVars, plainVars_eq_map vs]

theorem plainList_eq_map : ∀ xs : List Val, plainList xs = xs.map Val.plain
  | [] => rfl
  | x :: xs => by simp [plainList, plainList_eq_map xs]

theorem items_plain (v : Val) : v.plain.items = v.items.map Val.plain := by
  cases v <;> simp [Val.plain, Val.items, plainList_eq_map]

theorem incomplete_plain {v : Val} (h : Incomplete v) : Incomplete v.plain := by
  induction h with
  | @here c vs n v k h1 h2 h3 =>
    rw [Val.plain, plainVars_eq_map]
    exact .here (List.mem_map.mpr ⟨(n, v), h1, rfl⟩) h2 (by rw [items_plain, List.length_map]; exact h3)
  | @inside c vs n v x h1 h2 _ ih =>
    rw [Val.plain, plainVars_eq_map]
    exact .inside (List.mem_map.mpr ⟨(n, v), h1, rfl⟩) (by rw [items_plain]; exact List.mem_map_of_mem h2) ih

theorem plain_obj {v : Val} {c : Cls} {vs : List (Str × Val)} (h : v.plain = .obj c vs) : ∃ us, v = .obj c us ∧ vs = us.map fun p => (p.1, p.2.plain) := by
  cases v with
  | obj d us =>
    rw [Val.plain, plainVars_eq_map] at h
    cases h
    exact ⟨us, rfl, rfl⟩
  | _ => simp [Val.plain] at h

theorem plain_incomplete {w : Val} (h : Incomplete w) : ∀ v : Val, v.plain = w → Incomplete v := by
  induction h with
  | here h1 h2 h3 =>
    intro v hv
    obtain ⟨us, rfl, rfl⟩ := plain_obj hv
    obtain ⟨p, hp, e⟩ := List.mem_map.mp h1
    cases e
    rw [items_plain, List.length_map] at h3
    exact .here hp h2 h3
  | inside h1 h2 _ ih =>
    intro v hv
    obtain ⟨us, rfl, rfl⟩ := plain_obj hv
    obtain ⟨p, hp, e⟩ := List.mem_map.mp h1
    cases e
    rw [items_plain] at h2
    obtain ⟨x, hx, rfl⟩ := List.mem_map.mp h2
    exact .inside hp hx (ih x rfl)

theorem str_plain {s : Str} {v : Val} (h : v.plain = .str s) : v = .str s := by
  cases v <;> simp_all [Val.plain]

theorem malformed_plain {v : Val} (h : Malformed v) : Malformed v.plain := by
  induction h with
  | @here c vs f v s h1 h2 h3 h4 =>
    rw [Val.plain, plainVars_eq_map]
    exact .here (s := s) (List.mem_map.mpr ⟨(f.name, v), h1, rfl⟩) h2 h3 (by rw [items_plain]; exact List.mem_map.mpr ⟨_, h4, rfl⟩)
  | @inside c vs n v x h1 h2 _ ih =>
    rw [Val.plain, plainVars_eq_map]
    exact .inside (List.mem_map.mpr ⟨(n, v), h1, rfl⟩) (by rw [items_plain]; exact List.mem_map_of_mem h2) ih

theorem plain_malformed {w : Val} (h : Malformed w) : ∀ v : Val, v.plain = w → Malformed v := by
  induction h with
  | here h1 h2 h3 h4 =>
    intro v hv
    obtain ⟨us, rfl, rfl⟩ := plain_obj hv
    obtain ⟨⟨m, w⟩, hp, e⟩ := List.mem_map.mp h1
    obtain ⟨rfl, rfl⟩ := Prod.mk.inj e
    rw [items_plain] at h4
    obtain ⟨x, hx, e⟩ := List.mem_map.mp h4
    have := str_plain e
    subst this
    exact .here (f := _) hp h2 h3 hx
  | inside h1 h2 _ ih =>
    intro v hv
    obtain ⟨us, rfl, rfl⟩ := plain_obj hv
    obtain ⟨p, hp, e⟩ := List.mem_map.mp h1
    cases e
    rw [items_plain] at h2
    obtain ⟨x, hx, rfl⟩ := List.mem_map.mp h2
    exact .inside hp hx (ih x rfl)

end Ndm
