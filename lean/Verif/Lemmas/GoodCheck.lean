import Verif.SpecRt
import Verif.ValEq

/-! A decision procedure for well-formedness, used to show that concrete messages are well-formed. -/

namespace Ndm

def trimmedB (s : Str) : Bool := s.head?.all (fun c => !isSpace c) && s.getLast?.all (fun c => !isSpace c)

theorem trimmed_of_b {s : Str} (h : trimmedB s = true) : Trimmed s := by
  simp only [trimmedB, Bool.and_eq_true] at h
  constructor
  · intro c hc; rw [hc] at h; simpa using h.1
  · intro c hc; rw [hc] at h; simpa using h.2

def commentB (s : Str) : Bool := trimmedB s && !s.contains '\n' && s.all xmlChar

theorem comment_of_b {s : Str} (h : commentB s = true) : PlainComment s := by
  simp only [commentB, Bool.and_eq_true, Bool.not_eq_true', List.all_eq_true] at h
  refine ⟨trimmed_of_b h.1.1, ?_, h.2⟩
  intro hm
  rw [← List.contains_iff_mem, h.1.2] at hm
  cases hm

def plainB (s : Str) : Bool := commentB s && !(s.contains '[' && s.getLast? == some ']')

theorem plain_of_b {s : Str} (h : plainB s = true) : Plain s := by
  simp only [plainB, Bool.and_eq_true, Bool.not_eq_true', Bool.and_eq_false_iff] at h
  have := comment_of_b h.1
  refine ⟨this.trimmed, this.oneLine, this.xml, ?_⟩
  rintro ⟨h1, h2⟩
  rcases h.2 with h' | h'
  · rw [← List.contains_iff_mem, h'] at h1; cases h1
  · rw [h2] at h'; simp at h'

def textB (t : FTy) (s : Str) : Bool :=
  match t with
  | .str => true
  | .int => (parseInt s).isNone
  | .dec => (Dec.parse s).isNone
  | .cls c => match c.members with
    | some ms => !ms.any (·.2 == s)
    | none => false

theorem text_of_b {t : FTy} {s : Str} (h : textB t s = true) :
    (∀ c, t = .cls c → c.members ≠ none) ∧ HasType t (.str s) := by
  unfold textB at h
  split at h
  · exact ⟨by simp, .str s⟩
  · exact ⟨by simp, .intText s (Option.isNone_iff_eq_none.mp h)⟩
  · exact ⟨by simp, .decText s (Option.isNone_iff_eq_none.mp h)⟩
  · split at h
    · rename_i c ms hm
      refine ⟨?_, .enumText s hm ?_⟩
      · rintro d ⟨⟩; rw [hm]; simp
      · rintro ⟨m, hmem⟩
        have : ms.any (·.2 == s) = true := List.any_eq_true.mpr ⟨(m, s), hmem, by simp⟩
        rw [this] at h
        cases h
    · cases h

/-- The units of a quantity class. -/
def unitsOf (c : Cls) : Option Cls :=
  match c.members, c.attrs with
  | none, [fv, fu] => if fv.name = py "value" ∧ fv.ty = .dec ∧ fu.name = py "units" then fu.ty.cls? else none
  | _, _ => none

theorem quantity_of_units {c u : Cls} (h : unitsOf c = some u) : QuantityCls c u := by
  unfold unitsOf at h
  split at h
  · rename_i fv fu hm ha
    split at h
    · rename_i hc
      refine ⟨fv, fu, hm, ha, hc.1, hc.2.1, hc.2.2, ?_⟩
      cases ht : fu.ty with
      | cls d => rw [ht] at h; simp only [FTy.cls?, Option.some.injEq] at h; rw [h]
      | _ => rw [ht] at h; simp [FTy.cls?] at h
    · cases h
  · cases h

def hasMember (c : Cls) (s : Str) : Bool :=
  match c.members with
  | some ms => ms.any (·.2 == s)
  | none => false

theorem member_of_b {c : Cls} {s : Str} (h : hasMember c s = true) : ∃ ms m, c.members = some ms ∧ (m, s) ∈ ms := by
  unfold hasMember at h
  split at h
  · rename_i ms hm
    obtain ⟨p, hp, he⟩ := List.any_eq_true.mp h
    obtain ⟨m, t⟩ := p
    simp only [beq_iff_eq] at he
    subst he
    exact ⟨ms, m, hm, hp⟩
  · cases h

def keyValB (f : Field) : Val → Option Line
  | .str s => if textB f.ty s && plainB s then some [upper f.name, s] else none
  | .int i => if f.ty = .int then some [upper f.name, intStr i] else none
  | .dec d => if f.ty = .dec then some [upper f.name, d.toStr] else none
  | .enum c s => if f.ty = .cls c ∧ hasMember c s = true then some [upper f.name, s] else none
  | .obj c [(n1, .dec d), (n2, .none)] =>
    if f.ty = .cls c ∧ n1 = py "value" ∧ n2 = py "units" ∧ (unitsOf c).isSome = true then some [upper f.name, d.toStr]
    else none
  | .obj c [(n1, .dec d), (n2, .enum u s)] =>
    if f.ty = .cls c ∧ n1 = py "value" ∧ n2 = py "units" ∧ unitsOf c = some u ∧ hasMember u s = true then
      some [upper f.name, d.toStr, s]
    else none
  | _ => none

theorem keyVal_of_b {f : Field} {v : Val} {l : Line} (h : keyValB f v = some l) : KeyVal f v l := by
  unfold keyValB at h
  split at h
  · split at h
    · rename_i hc
      rw [Bool.and_eq_true] at hc
      cases h
      obtain ⟨h1, h2⟩ := text_of_b hc.1
      exact .str h1 h2 (plain_of_b hc.2)
    · cases h
  · split at h
    · cases h; exact .int (by assumption)
    · cases h
  · split at h
    · cases h; exact .dec (by assumption)
    · cases h
  · split at h
    · rename_i hc
      cases h
      obtain ⟨ms, m, h1, h2⟩ := member_of_b hc.2
      exact .enum hc.1 h1 h2
    · cases h
  · split at h
    · rename_i hc
      cases h
      obtain ⟨h1, rfl, rfl, h2⟩ := hc
      obtain ⟨u, hu⟩ := Option.isSome_iff_exists.mp h2
      exact .number h1 (quantity_of_units hu)
    · cases h
  · split at h
    · rename_i hc
      cases h
      obtain ⟨h1, rfl, rfl, h2, h3⟩ := hc
      obtain ⟨ms, m, h4, h5⟩ := member_of_b h3
      exact .quantity h1 (quantity_of_units h2) h4 h5
    · cases h
  · cases h

def textsB : List Val → Option (List Str)
  | [] => some []
  | .str s :: vs => if commentB s then (textsB vs).map (s :: ·) else none
  | _ :: _ => none

theorem texts_of_b : ∀ {xs : List Val} {ts : List Str}, textsB xs = some ts →
    xs = ts.map .str ∧ ∀ t ∈ ts, PlainComment t
  | [], ts, h => by cases h; simp
  | .str s :: vs, ts, h => by
    simp only [textsB] at h
    split at h
    · rename_i hc
      obtain ⟨r, hr, rfl⟩ := Option.map_eq_some_iff.mp h
      obtain ⟨h1, h2⟩ := texts_of_b hr
      refine ⟨by simp [h1], ?_⟩
      intro t ht
      rcases List.mem_cons.mp ht with rfl | ht
      · exact comment_of_b hc
      · exact h2 t ht
    · cases h
  | .none :: _, _, h => by cases h
  | .int _ :: _, _, h => by cases h
  | .dec _ :: _, _, h => by cases h
  | .enum _ _ :: _, _, h => by cases h
  | .obj _ _ :: _, _, h => by cases h
  | .list _ :: _, _, h => by cases h

def goodKeysB : List Field → List (Str × Val) → Option (List Line)
  | [], [] => some []
  | f :: fs, (n, v) :: vs =>
    if n = f.name then
      if f.isList then
        match v with
        | .list xs => if f.name = py "comment" then (textsB xs).bind fun ts => (goodKeysB fs vs).map fun ls =>
            ts.map (fun t => [py "COMMENT", t]) ++ ls else none
        | _ => none
      else
        match v with
        | .none => goodKeysB fs vs
        | v => (keyValB f v).bind fun l => (goodKeysB fs vs).map (l :: ·)
    else none
  | _, _ => none

theorem goodKeys_of_b : ∀ {fs : List Field} {vs : List (Str × Val)} {ls : List Line}, goodKeysB fs vs = some ls →
    GoodKeys fs vs ls
  | [], [], ls, h => by cases h; exact .nil
  | [], _ :: _, ls, h => by cases h
  | _ :: _, [], ls, h => by cases h
  | f :: fs, (n, v) :: vs, ls, h => by
    simp only [goodKeysB] at h
    split at h
    · rename_i hn
      subst hn
      split at h
      · rename_i hl
        split at h
        · split at h
          · rename_i hc
            obtain ⟨ts, ht, h⟩ := Option.bind_eq_some_iff.mp h
            obtain ⟨r, hr, rfl⟩ := Option.map_eq_some_iff.mp h
            obtain ⟨rfl, h2⟩ := texts_of_b ht
            exact .comments hl hc h2 (goodKeys_of_b hr)
          · cases h
        · cases h
      · rename_i hl
        have hl' : f.isList = false := by simpa using hl
        split at h
        · exact .absent hl' (goodKeys_of_b h)
        · obtain ⟨l, hk, h⟩ := Option.bind_eq_some_iff.mp h
          obtain ⟨r, hr, rfl⟩ := Option.map_eq_some_iff.mp h
          exact .value hl' (keyVal_of_b hk) (goodKeys_of_b hr)
    · cases h

def monoB (l ls : List Line) : Bool :=
  ls.all fun m => m.key == py "COMMENT" || l.any fun m' => m'.key == m.key

def itemsB (G : Val → Option (List Line)) : List Val → Option (List Line)
  | [] => some []
  | x :: xs => (G x).bind fun l => (itemsB G xs).bind fun ls =>
    if l ≠ [] ∧ monoB l ls = true then some (l ++ ls) else none

theorem items_of_b {K A} {d : Cls} {G : Val → Option (List Line)} (hG : ∀ v l, G v = some l → GoodOf K A d v l) :
    ∀ {xs : List Val} {ls : List Line}, itemsB G xs = some ls → GoodItemsOf K A d xs ls
  | [], ls, h => by cases h; exact .nil
  | x :: xs, ls, h => by
    simp only [itemsB] at h
    obtain ⟨l, hl, h⟩ := Option.bind_eq_some_iff.mp h
    obtain ⟨r, hr, h⟩ := Option.bind_eq_some_iff.mp h
    split at h
    · rename_i hc
      cases h
      refine .cons (hG x l hl) hc.1 ?_ (items_of_b hG hr)
      intro m hm hmc
      have := List.all_eq_true.mp hc.2 m hm
      simp only [Bool.or_eq_true, beq_iff_eq, hmc, false_or, List.any_eq_true] at this
      exact this
    · cases h

def blocksB (G : Cls → Val → Option (List Line)) : List Field → List (Str × Val) → Option (List Line)
  | [], [] => some []
  | f :: fs, (n, v) :: vs =>
    if n = f.name then
      match f.ty with
      | .cls d =>
        if f.isList then
          match v with
          | .list xs => if d.blockAttrs ≠ [] ∧ xs = [] then none else
            (itemsB (G d) xs).bind fun l => (blocksB G fs vs).map (l ++ ·)
          | _ => none
        else
          match v with
          | .none => if d.blockAttrs = [] then blocksB G fs vs else none
          | v => (G d v).bind fun l => (blocksB G fs vs).map (l ++ ·)
      | _ => none
    else none
  | _, _ => none

theorem blocks_of_b {K A} {G : Cls → Val → Option (List Line)} (hG : ∀ d v l, G d v = some l → GoodOf K A d v l) :
    ∀ {fs : List Field} {vs : List (Str × Val)} {ls : List Line}, blocksB G fs vs = some ls → GoodBlocksOf K A fs vs ls
  | [], [], ls, h => by cases h; exact .nil
  | [], _ :: _, ls, h => by cases h
  | _ :: _, [], ls, h => by cases h
  | f :: fs, (n, v) :: vs, ls, h => by
    simp only [blocksB] at h
    split at h
    · rename_i hn
      subst hn
      split at h
      · rename_i d ht
        split at h
        · rename_i hl
          split at h
          · rename_i xs
            split at h
            · cases h
            · rename_i hx
              obtain ⟨l, hi, h⟩ := Option.bind_eq_some_iff.mp h
              obtain ⟨r, hr, rfl⟩ := Option.map_eq_some_iff.mp h
              exact .many hl ht (fun hb hxs => hx ⟨hb, hxs⟩) (items_of_b (hG d) hi) (blocks_of_b hG hr)
          · cases h
        · rename_i hl
          have hl' : f.isList = false := by simpa using hl
          split at h
          · split at h
            · exact .absent hl' ht (by assumption) (blocks_of_b hG h)
            · cases h
          · obtain ⟨l, hi, h⟩ := Option.bind_eq_some_iff.mp h
            obtain ⟨r, hr, rfl⟩ := Option.map_eq_some_iff.mp h
            exact .one hl' ht (hG d _ _ hi) (blocks_of_b hG hr)
      · cases h
    · cases h

def laidB (c : Cls) (own ls : List Line) : Bool :=
  if c.keyAttrs.map (·.name) = [py "comment"] then
    decide (own.length ≤ 1) && (!own.isEmpty || ls.head?.any (fun l => l.key != py "COMMENT"))
  else own.getLast?.map Line.key != some (py "COMMENT") && (!c.blockAttrs.isEmpty || !own.isEmpty)

theorem laid_of_b {c : Cls} {own ls : List Line} (h : laidB c own ls = true) : Laid c own ls := by
  unfold laidB at h
  unfold Laid
  split at h
  · rename_i hc
    rw [if_pos hc]
    simp only [Bool.and_eq_true, decide_eq_true_eq, Bool.or_eq_true, Bool.not_eq_true'] at h
    refine ⟨h.1, ?_⟩
    rintro rfl
    rcases h.2 with h' | h'
    · cases h'
    · cases hl : ls.head? with
      | none => rw [hl] at h'; cases h'
      | some l => rw [hl] at h'; exact ⟨l, rfl, by simpa using h'⟩
  · rename_i hc
    rw [if_neg hc]
    simp only [Bool.and_eq_true, bne_iff_ne, ne_eq, Bool.or_eq_true, Bool.not_eq_true'] at h
    refine ⟨h.1, ?_⟩
    rintro hb rfl
    rcases h.2 with h' | h'
    · rw [hb] at h'; cases h'
    · cases h'

def goodB (S : Cls → List (Str × Val) → Option (List Line)) (O : Cls → Val → Option (List Line)) : Nat → Cls → Val → Option (List Line)
  | 0, _, _ => none
  | k + 1, c, v =>
    if c.ownNotation then O c v
    else match v with
    | .obj c' vs =>
      if c' = c then
        (S c (vs.take c.keyAttrs.length)).bind fun own =>
          (blocksB (goodB S O k) c.blockAttrs (vs.drop c.keyAttrs.length)).bind fun ls =>
            if laidB c own ls = true then some (own ++ ls) else none
      else none
    | _ => none

theorem good_of_b {K A} {S : Cls → List (Str × Val) → Option (List Line)} {O : Cls → Val → Option (List Line)}
    (hS : ∀ c vs l, S c vs = some l → K c vs l) (hO : ∀ c v l, O c v = some l → A c v l) :
    ∀ (k : Nat) (c : Cls) (v : Val) (l : List Line), goodB S O k c v = some l → GoodOf K A c v l
  | 0, _, _, _, h => by cases h
  | k + 1, c, v, l, h => by
    simp only [goodB] at h
    split at h
    · exact .special (hO c v l h)
    · rename_i hown
      split at h
      · rename_i c' vs
        split at h
        · rename_i hc
          subst hc
          obtain ⟨own, ho, h⟩ := Option.bind_eq_some_iff.mp h
          obtain ⟨ls, hl, h⟩ := Option.bind_eq_some_iff.mp h
          split at h
          · rename_i hlaid
            cases h
            have := GoodOf.obj (A := A) (by simpa using hown) (hS _ _ _ ho)
              (blocks_of_b (good_of_b hS hO k) hl) (laid_of_b hlaid)
            rw [List.take_append_drop] at this
            exact this
          · cases h
        · cases h
      · cases h

def infixB (p : Str) : Str → Bool
  | [] => p.isEmpty
  | c :: cs => p.isPrefixOf (c :: cs) || infixB p cs

theorem infix_of_b {p : Str} : ∀ {s : Str}, infixB p s = false → ¬ p <:+: s
  | [], h, hc => by
    have := List.eq_nil_of_infix_nil hc
    subst this
    cases h
  | c :: cs, h, hc => by
    simp only [infixB, Bool.or_eq_false_iff] at h
    rcases List.infix_cons_iff.mp hc with h' | h'
    · rw [List.isPrefixOf_iff_prefix.mpr h'] at h; cases h.1
    · exact infix_of_b h.2 h'

def paramB (p : Str × Str) : Bool :=
  trimmedB p.1 && !p.1.contains '=' && !p.1.contains '\n' && decide (upper p.1 = p.1) && p.1.all xmlChar &&
  !infixB (py "USER_DEFINED_") p.1 && plainB p.2

def paramsOf : List Val → Option (List (Str × Str))
  | [] => some []
  | .obj .UserDefinedParameterType [(n1, .str v), (n2, .str p)] :: vs =>
    if n1 = py "value" ∧ n2 = py "parameter" ∧ v ≠ [] then (paramsOf vs).map ((p, v) :: ·) else none
  | .obj .UserDefinedParameterType [(n1, .none), (n2, .str p)] :: vs =>
    if n1 = py "value" ∧ n2 = py "parameter" then (paramsOf vs).map ((p, []) :: ·) else none
  | _ :: _ => none

def userB : Val → Option (List Line)
  | .obj .UserDefinedType [(n1, .list []), (n2, .list vs)] =>
    if n1 = py "comment" ∧ n2 = py "user_defined" then
      (paramsOf vs).bind fun ps =>
        if ps ≠ [] ∧ ps.all paramB = true ∧ (ps.map (·.1)).Nodup then
          some (ps.map fun p => [py "USER_DEFINED_" ++ p.1, p.2]) else none
    else none
  | _ => none

theorem param_of_b {p : Str × Str} (h : paramB p = true) : UserParam p.1 p.2 := by
  simp only [paramB, Bool.and_eq_true, Bool.not_eq_true', decide_eq_true_eq, List.all_eq_true] at h
  obtain ⟨⟨⟨⟨⟨⟨h1, h2⟩, h3⟩, h4⟩, h5⟩, h6⟩, h7⟩ := h
  have nc : ∀ {c : Char} {s : Str}, s.contains c = false → c ∉ s := by
    intro c s hc hm
    rw [← List.contains_iff_mem, hc] at hm
    cases hm
  refine ⟨trimmed_of_b h1, nc h2, nc h3, h4, h5, infix_of_b h6, plain_of_b h7⟩

theorem params_of_b : ∀ {vs : List Val} {ps : List (Str × Str)}, paramsOf vs = some ps →
    vs = ps.map fun p => .obj .UserDefinedParameterType [(py "value", userValue p.2), (py "parameter", .str p.1)] := by
  intro vs
  induction vs with
  | nil => intro ps h; cases h; rfl
  | cons v vs ih =>
    intro ps h
    unfold paramsOf at h
    split at h
    · cases h; rename_i h'; cases h'
    · rename_i h'
      cases h'
      split at h
      · rename_i hc
        obtain ⟨r, hr, rfl⟩ := Option.map_eq_some_iff.mp h
        obtain ⟨rfl, rfl, hv⟩ := hc
        rw [ih hr, List.map_cons, userValue, if_neg hv]
      · cases h
    · rename_i h'
      cases h'
      split at h
      · rename_i hc
        obtain ⟨r, hr, rfl⟩ := Option.map_eq_some_iff.mp h
        obtain ⟨rfl, rfl⟩ := hc
        rw [ih hr]
        rfl
      · cases h
    · cases h

theorem user_of_b {v : Val} {l : List Line} (h : userB v = some l) : UserBlock v l := by
  unfold userB at h
  split at h
  · split at h
    · rename_i hn
      obtain ⟨rfl, rfl⟩ := hn
      obtain ⟨ps, hp, h⟩ := Option.bind_eq_some_iff.mp h
      split at h
      · rename_i hc
        cases h
        rw [params_of_b hp]
        exact .mk hc.1 (fun p hp => param_of_b (List.all_eq_true.mp hc.2.1 p hp)) hc.2.2
      · cases h
    · cases h
  · cases h

def relativeB : Val → Option (List Line)
  | .obj .RelativeMetadataData vs =>
    (goodKeysB ((Cls.keyAttrs .RelativeMetadataData).take 4) (vs.take 4)).bind fun l₁ =>
      if l₁ ≠ [] ∧ l₁.getLast?.map Line.key ≠ some (py "COMMENT") then
        match vs.drop 4 with
        | (n, .none) :: after =>
          if n = py "relative_state_vector" then
            (goodKeysB ((Cls.keyAttrs .RelativeMetadataData).drop 4) after).map fun l₂ => l₁ ++ [] ++ l₂
          else none
        | (n, .obj .RelativeStateVectorType ws) :: after =>
          if n = py "relative_state_vector" then
            (goodKeysB (Cls.keyAttrs .RelativeStateVectorType) ws).bind fun lᵣ =>
              if lᵣ ≠ [] then
                (goodKeysB ((Cls.keyAttrs .RelativeMetadataData).drop 4) after).map fun l₂ => l₁ ++ lᵣ ++ l₂
              else none
          else none
        | _ => none
      else none
  | _ => none

theorem relative_of_b {v : Val} {l : List Line} (h : relativeB v = some l) : RelativeData v l := by
  unfold relativeB at h
  split at h
  · rename_i vs
    obtain ⟨l1, h1, h⟩ := Option.bind_eq_some_iff.mp h
    split at h
    · rename_i hc
      split at h
      · rename_i n after hd
        split at h
        · rename_i hn
          subst hn
          obtain ⟨l2, h2, rfl⟩ := Option.map_eq_some_iff.mp h
          rw [← List.take_append_drop 4 vs, hd]
          exact .mk (goodKeys_of_b h1) (.inl ⟨rfl, rfl⟩) (goodKeys_of_b h2) hc.1 hc.2
        · cases h
      · rename_i n ws after hd
        split at h
        · rename_i hn
          subst hn
          obtain ⟨lr, hr, h⟩ := Option.bind_eq_some_iff.mp h
          split at h
          · rename_i hrn
            obtain ⟨l2, h2, rfl⟩ := Option.map_eq_some_iff.mp h
            rw [← List.take_append_drop 4 vs, hd]
            exact .mk (goodKeys_of_b h1) (.inr ⟨_, rfl, goodKeys_of_b hr, hrn⟩) (goodKeys_of_b h2) hc.1 hc.2
          · cases h
        · cases h
      · cases h
    · cases h
  · cases h

def rotationB (c axes units : Cls) (attr : Str) : Val → Option Line
  | .obj c' [(n1, .dec d), (n2, .enum a key), (n3, .none)] =>
    if c' = c ∧ n1 = py "value" ∧ n2 = attr ∧ n3 = py "units" ∧ a = axes ∧ hasMember axes key = true then
      some [key, d.toStr] else none
  | .obj c' [(n1, .dec d), (n2, .enum a key), (n3, .enum u s)] =>
    if c' = c ∧ n1 = py "value" ∧ n2 = attr ∧ n3 = py "units" ∧ a = axes ∧ hasMember axes key = true ∧ u = units ∧
        hasMember units s = true then
      some [key, d.toStr, s] else none
  | _ => none

theorem rotation_of_b {c axes units : Cls} {attr : Str} {v : Val} {l : Line} (h : rotationB c axes units attr v = some l) :
    Rotation c axes units attr v l := by
  unfold rotationB at h
  split at h
  · split at h
    · rename_i hc
      obtain ⟨rfl, rfl, rfl, rfl, rfl, hm⟩ := hc
      cases h
      obtain ⟨ms, m, h1, h2⟩ := member_of_b hm
      exact .number h1 h2
    · cases h
  · split at h
    · rename_i hc
      obtain ⟨rfl, rfl, rfl, rfl, rfl, hm, rfl, hu⟩ := hc
      cases h
      obtain ⟨ms, m, h1, h2⟩ := member_of_b hm
      obtain ⟨us, m', h3, h4⟩ := member_of_b hu
      exact .quantity h1 h2 h3 h4
    · cases h
  · cases h

def Val.isNone : Val → Bool
  | .none => true
  | _ => false

theorem isNone_eq {v : Val} (h : v.isNone = true) : v = .none := by
  cases v <;> first | rfl | cases h

def rotationsB (c d axes units : Cls) (attr : Str) : Val → Option (List Line)
  | .obj c' [(n1, v1), (n2, v2), (n3, v3)] =>
    if c' = c ∧ n1 = py "rotation1" ∧ n2 = py "rotation2" ∧ n3 = py "rotation3" then
      if v1.isNone && v2.isNone && v3.isNone then some [] else
      (rotationB d axes units attr v1).bind fun l1 => (rotationB d axes units attr v2).bind fun l2 =>
        (rotationB d axes units attr v3).map fun l3 => [l1, l2, l3]
    else none
  | _ => none

theorem rotations_of_b {c d axes units : Cls} {attr : Str} {v : Val} {l : List Line}
    (h : rotationsB c d axes units attr v = some l) : Rotations c d axes units attr v l := by
  unfold rotationsB at h
  split at h
  · split at h
    · rename_i hc
      obtain ⟨rfl, rfl, rfl, rfl⟩ := hc
      split at h
      · rename_i hn
        cases h
        simp only [Bool.and_eq_true] at hn
        rw [isNone_eq hn.1.1, isNone_eq hn.1.2, isNone_eq hn.2]
        exact .none
      obtain ⟨l1, h1, h⟩ := Option.bind_eq_some_iff.mp h
      obtain ⟨l2, h2, h⟩ := Option.bind_eq_some_iff.mp h
      obtain ⟨l3, h3, rfl⟩ := Option.map_eq_some_iff.mp h
      exact .mk (rotation_of_b h1) (rotation_of_b h2) (rotation_of_b h3)
    · cases h
  · cases h

/-- The own notations. -/
def ownB (c : Cls) (v : Val) : Option (List Line) :=
  if c = .UserDefinedType then userB v
  else if c = .RelativeMetadataData then relativeB v
  else if c = .RotationAngleType then
    rotationsB .RotationAngleType .RotationAngleComponentType .AngleKeywordType .AngleUnits (py "angle") v
  else if c = .RotationRateType then
    rotationsB .RotationRateType .RotationRateComponentType .AngleRateKeywordType .AngleRateUnits (py "rate") v
  else none

theorem own_of_b (c : Cls) (v : Val) (l : List Line) (h : ownB c v = some l) : OwnNotation c v l := by
  unfold ownB at h
  split at h
  · rename_i hc; subst hc; exact .user (user_of_b h)
  split at h
  · rename_i hc; subst hc; exact .relative (relative_of_b h)
  split at h
  · rename_i hc; subst hc; exact .angles (rotations_of_b h)
  split at h
  · rename_i hc; subst hc; exact .rates (rotations_of_b h)
  · cases h

/-- Deciding well-formedness of a message. -/
theorem wellFormed_of_b {c : Cls} {v : Val} (h : (goodB (fun c vs => goodKeysB c.keyAttrs vs) ownB 10 c v).isSome = true) : WellFormed c v := by
  obtain ⟨ls, hl⟩ := Option.isSome_iff_exists.mp h
  exact ⟨ls, good_of_b (K := Written) (fun _ _ _ h => goodKeys_of_b h) own_of_b 10 c v ls hl⟩

end Ndm
