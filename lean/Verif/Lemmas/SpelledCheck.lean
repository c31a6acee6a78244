import Verif.SpecText
import Verif.Lemmas.GoodCheck
import Verif.Lemmas.FromLine

/-! A decision procedure for `Spelled`, used to show that concrete texts say what they should. -/

namespace Ndm

def keyTextB (f : Field) (v : Val) (l : Line) : Bool :=
  match v, l with
  | .str s, [k, t] => k = upper f.name && t = s && textB f.ty s && decide (XmlText s)
  | .int i, [k, t] => k = upper f.name && f.ty = .int && parseInt t = some i && decide (XmlText t)
  | .dec d, [k, t] => k = upper f.name && f.ty = .dec && Dec.parse t = some d && decide (XmlText t)
  | .enum c s, [k, t] => k = upper f.name && t = s && f.ty = .cls c && hasMember c s
  | .obj c [(n1, .dec d), (n2, .none)], [k, t] => k = upper f.name && f.ty = .cls c && n1 = py "value" &&
      n2 = py "units" && (unitsOf c).isSome && Dec.parse t = some d && decide (XmlText t)
  | .obj c [(n1, .dec d), (n2, .enum u s)], [k, t, s'] => k = upper f.name && s' = s && f.ty = .cls c &&
      n1 = py "value" && n2 = py "units" && unitsOf c = some u && hasMember u s && Dec.parse t = some d &&
      decide (XmlText t)
  | _, _ => false

theorem keyText_of_b {f : Field} {v : Val} {l : Line} (h : keyTextB f v l = true) : KeyText f v l := by
  unfold keyTextB at h
  split at h
  · simp only [Bool.and_eq_true, decide_eq_true_eq] at h
    obtain ⟨⟨⟨rfl, rfl⟩, h1⟩, h2⟩ := h
    obtain ⟨h3, h4⟩ := text_of_b h1
    exact .str h3 h4 h2
  · simp only [Bool.and_eq_true, decide_eq_true_eq] at h
    obtain ⟨⟨⟨rfl, h0⟩, h1⟩, h2⟩ := h
    exact .int h0 h1 h2
  · simp only [Bool.and_eq_true, decide_eq_true_eq] at h
    obtain ⟨⟨⟨rfl, h0⟩, h1⟩, h2⟩ := h
    exact .dec h0 h1 h2
  · simp only [Bool.and_eq_true, decide_eq_true_eq] at h
    obtain ⟨⟨⟨rfl, rfl⟩, h1⟩, h2⟩ := h
    obtain ⟨ms, m, h3, h4⟩ := member_of_b h2
    exact .enum h1 h3 h4
  · simp only [Bool.and_eq_true, decide_eq_true_eq] at h
    obtain ⟨⟨⟨⟨⟨⟨rfl, h0⟩, rfl⟩, rfl⟩, h1⟩, h2⟩, h3⟩ := h
    obtain ⟨u, hu⟩ := Option.isSome_iff_exists.mp h1
    exact .number h0 (quantity_of_units hu) h2 h3
  · simp only [Bool.and_eq_true, decide_eq_true_eq] at h
    obtain ⟨⟨⟨⟨⟨⟨⟨⟨rfl, rfl⟩, h0⟩, rfl⟩, rfl⟩, h1⟩, h2⟩, h3⟩, h4⟩ := h
    obtain ⟨ms, m, h5, h6⟩ := member_of_b h2
    exact .quantity h0 (quantity_of_units h1) h3 h4 h5 h6
  · cases h

/-- The lines for the attributes `fs`, in schema order, picked from `own`. -/
def keysTextB (own : List Line) : List Field → List (Str × Val) → Option (List Line)
  | [], [] => some []
  | f :: fs, (n, v) :: vs =>
    if n = f.name then
      if f.isList then
        match v with
        | .list xs => if f.name = py "comment" then (textsB xs).bind fun ts => (keysTextB own fs vs).map fun ls =>
            ts.map (fun t => [py "COMMENT", t]) ++ ls else none
        | _ => none
      else
        match v with
        | .none => keysTextB own fs vs
        | v => (own.find? fun l => l.key == upper f.name).bind fun l =>
          if keyTextB f v l then (keysTextB own fs vs).map (l :: ·) else none
    else none
  | _, _ => none

theorem keysText_of_b {own : List Line} : ∀ {fs : List Field} {vs : List (Str × Val)} {ls : List Line},
    keysTextB own fs vs = some ls → KeysOf KeyText fs vs ls
  | [], [], ls, h => by cases h; exact .nil
  | [], _ :: _, ls, h => by cases h
  | _ :: _, [], ls, h => by cases h
  | f :: fs, (n, v) :: vs, ls, h => by
    simp only [keysTextB] at h
    split at h
    · rename_i hn
      subst hn
      split at h
      · rename_i hl
        split at h
        · split at h
          · rename_i hc
            obtain ⟨ts, ht, h⟩ := Option.bind_eq_some_iff.mp h
            obtain ⟨r, hr, rfl⟩ := Option.map_eq_some_iff.mp h
            obtain ⟨rfl, h2⟩ := texts_of_b ht
            exact .comments hl hc h2 (keysText_of_b hr)
          · cases h
        · cases h
      · rename_i hl
        have hl' : f.isList = false := by simpa using hl
        split at h
        · exact .absent hl' (keysText_of_b h)
        · obtain ⟨l, hk, h⟩ := Option.bind_eq_some_iff.mp h
          split at h
          · rename_i hkt
            obtain ⟨r, hr, rfl⟩ := Option.map_eq_some_iff.mp h
            exact .value hl' (keyText_of_b hkt) (keysText_of_b hr)
          · cases h
    · cases h

def reorderedB (a b : List Line) : Bool :=
  (a ++ b).all fun m => a.filter (·.key == m.key) = b.filter (·.key == m.key)

theorem reordered_of_b {a b : List Line} (h : reorderedB a b = true) : Reordered a b := by
  intro t
  by_cases ht : ∃ m ∈ a ++ b, m.key = t
  · obtain ⟨m, hm, rfl⟩ := ht
    simpa using List.all_eq_true.mp h m hm
  · rw [List.filter_eq_nil_iff.mpr, List.filter_eq_nil_iff.mpr]
    · intro m hm he
      exact ht ⟨m, List.mem_append_right _ hm, by simpa using he⟩
    · intro m hm he
      exact ht ⟨m, List.mem_append_left _ hm, by simpa using he⟩

/-- The first of the given groups of lines that states the attributes. -/
def spelledB (groups : List (List Line)) (c : Cls) (kvs : List (Str × Val)) : Option (List Line) :=
  groups.find? fun own => (keysTextB own c.keyAttrs kvs).any fun own₀ => reorderedB own₀ own

theorem spelled_of_b {groups : List (List Line)} (c : Cls) (kvs : List (Str × Val)) (own : List Line)
    (h : spelledB groups c kvs = some own) : Spelled c kvs own := by
  have := List.find?_some h
  rw [Option.any_eq_true] at this
  obtain ⟨own₀, h1, h2⟩ := this
  exact ⟨own₀, keysText_of_b h1, reordered_of_b h2⟩

/-- The items of a text, computed. -/
theorem items_of_text {src : Str} {L : List Line} (h : (splitChar '\n' src).filterMap parseLine = L) :
    ∃ rows cs, TextLines src rows ∧ SigLines rows cs ∧ List.Forall₂ LineItems cs L := by
  obtain ⟨cs, hs⟩ := sigLines_exists (splitChar '\n' src)
  obtain ⟨L', hL⟩ := lineItems_exists (sigLines_cores hs)
  have := lineItems_filterMap (sigLines_cores hs) hL
  rw [filterMap_sigLines hs, this] at h
  exact ⟨_, cs, textLines_exists src, hs, h ▸ hL⟩

end Ndm
