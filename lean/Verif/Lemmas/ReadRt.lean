import Verif.Lemmas.BindRt
import Verif.Lemmas.MinMax

/-! Reading back the lines of a well-formed object: composition of sections. -/

namespace Ndm

/-- The identified elements `es` are built as the attachments `rs`. -/
def Built (n : Nat) (L : List Line) (es : List Elem) (rs : List (Str × Val)) : Prop :=
  List.Forall₂ (fun e r => e.name = r.1 ∧ ∀ fuel, n ≤ fuel → build (keysOf L) L fuel e L = .ok r.2) es rs

theorem Built.mono {n m : Nat} {L : List Line} {es : List Elem} {rs : List (Str × Val)} (h : Built n L es rs)
    (hnm : n ≤ m) : Built m L es rs :=
  List.Forall₂.imp (fun _ _ hr => ⟨hr.1, fun fuel hf => hr.2 fuel (by omega)⟩) h

/-- The element `e`, looked for where `blk` starts, takes exactly `blk` and is built as `v`. -/
def ItemRead (n : Nat) (e : Elem) (v : Val) (blk post : List Line) : Prop :=
  ∀ pre : List Line, ∃ mm e', identElem (keysOf (pre ++ blk ++ post)) (pre ++ blk ++ post) e pre.length =
      .ok (pre.length + blk.length, mm, e') ∧ mm.1 = pre.length ∧ (mm.1 = mm.2 → e'.subs ≠ []) ∧ e'.name = e.name ∧
    ∀ fuel, n ≤ fuel → build (keysOf (pre ++ blk ++ post)) (pre ++ blk ++ post) fuel { e' with minMax := some mm }
      (pre ++ blk ++ post) = .ok v

theorem ItemRead.mono {n m : Nat} {e : Elem} {v : Val} {blk post : List Line} (h : ItemRead n e v blk post)
    (hnm : n ≤ m) : ItemRead m e v blk post := by
  intro pre
  obtain ⟨mm, e', h1, h2, h3, h4, h5⟩ := h pre
  exact ⟨mm, e', h1, h2, h3, h4, fun fuel hf => h5 fuel (by omega)⟩

/-- The sub-elements `ss`, looked for where `blk` starts and with `mid` between the start of their parent and `blk`,
take exactly `blk` and are built as `rs`. -/
def SubsRead (n : Nat) (ss : List Elem) (rs : List (Str × Val)) (blk post : List Line) (avoid : Str → Prop) : Prop :=
  ∀ pre mid : List Line, (∀ l ∈ mid, ¬ avoid l.key) → ∃ es,
    identSubs (keysOf (pre ++ mid ++ blk ++ post)) (pre ++ mid ++ blk ++ post) pre.length ss (pre ++ mid).length =
      .ok ((pre ++ mid).length + blk.length, es) ∧ Built n (pre ++ mid ++ blk ++ post) es rs

theorem identSubs_cons (keys : List Str) (lines : List Line) (rootMin : Nat) (s : Elem) (ss : List Elem) (init : Nat) :
    identSubs keys lines rootMin (s :: ss) init = (identSubs keys lines rootMin [s] init).bind fun r =>
      (identSubs keys lines rootMin ss r.1).bind fun r' => .ok (r'.1, r.2 ++ r'.2) := by
  simp only [identSubs, bind, Except.bind, pure, Except.pure]
  split
  · cases listLoop (fun i => identElem keys lines s i) lines.length (lines.length + 1) init [] with
    | error e => rfl
    | ok r => simp
  · cases identElem keys lines s init with
    | error e => rfl
    | ok r =>
      obtain ⟨mx, mm, s'⟩ := r
      simp only
      cases researchRange keys lines rootMin mm s' with
      | error e => rfl
      | ok r => simp

theorem subsRead_nil {n : Nat} {post : List Line} {avoid : Str → Prop} : SubsRead n [] [] [] post avoid := by
  intro pre mid _
  exact ⟨[], by simp [identSubs], .nil⟩

theorem subsRead_cons {n : Nat} {s : Elem} {ss : List Elem} {rs1 rs2 : List (Str × Val)} {b1 b2 post : List Line}
    {av1 av2 av : Str → Prop} (h1 : SubsRead n [s] rs1 b1 (b2 ++ post) av1) (h2 : SubsRead n ss rs2 b2 post av2)
    (hav : ∀ t, av1 t ∨ av2 t → av t) (hb : ∀ l ∈ b1, ¬ av2 l.key) :
    SubsRead n (s :: ss) (rs1 ++ rs2) (b1 ++ b2) post av := by
  intro pre mid hmid
  obtain ⟨es1, he1, hb1⟩ := h1 pre mid (fun l hl h => hmid l hl (hav _ (.inl h)))
  obtain ⟨es2, he2, hb2⟩ := h2 pre (mid ++ b1) (fun l hl h => by
    rcases List.mem_append.mp hl with hl | hl
    · exact hmid l hl (hav _ (.inr h))
    · exact hb l hl h)
  have e1 : pre ++ mid ++ b1 ++ (b2 ++ post) = pre ++ mid ++ (b1 ++ b2) ++ post := by simp
  have e2 : pre ++ (mid ++ b1) ++ b2 ++ post = pre ++ mid ++ (b1 ++ b2) ++ post := by simp
  have e3 : (pre ++ (mid ++ b1)).length = (pre ++ mid).length + b1.length := by simp; omega
  rw [e1] at he1 hb1
  rw [e2] at he2 hb2
  rw [e3] at he2
  refine ⟨es1 ++ es2, ?_, List.rel_append hb1 hb2⟩
  rw [identSubs_cons, he1]
  simp only [Except.bind, he2]
  simp
  omega

/-- An element that is present. -/
theorem subsRead_item {n : Nat} {s : Elem} {v : Val} {blk post : List Line} {avoid : Str → Prop}
    (hl : s.isList = false) (h : ItemRead n s v blk post) : SubsRead n [s] [(s.name, v)] blk post avoid := by
  intro pre mid _
  obtain ⟨mm, e', h1, h2, h3, h4, h5⟩ := h (pre ++ mid)
  refine ⟨[{ e' with minMax := some mm }], ?_, .cons ⟨h4, h5⟩ .nil⟩
  simp only [identSubs, hl, Bool.false_eq_true, if_false, h1, bind, Except.bind, researchRange]
  rw [if_neg (fun hc => h3 hc.1 hc.2)]
  rfl

/-- The element is not found where `post` starts: nowhere, or only later on. -/
def StopAt (s : Elem) (post : List Line) : Prop :=
  ∀ pre : List Line, ∃ mx mm e', identElem (keysOf (pre ++ post)) (pre ++ post) s pre.length = .ok (mx, mm, e') ∧
    (mx = pre.length ∧ mm = (pre.length, pre.length) ∨ pre.length < mm.1 ∧ mm.1 < mm.2)

/-- The elements of a list, one after the other. -/
inductive ItemsRead (n : Nat) (s : Elem) (post : List Line) : List Val → List Line → Prop
  | nil : ItemsRead n s post [] []
  | cons {x b xs ls} : ItemRead n s x b (ls ++ post) → b ≠ [] → ItemsRead n s post xs ls →
      ItemsRead n s post (x :: xs) (b ++ ls)

theorem ItemsRead.length_le {n : Nat} {s : Elem} {post : List Line} {xs : List Val} {ls : List Line}
    (h : ItemsRead n s post xs ls) : xs.length ≤ ls.length := by
  induction h with
  | nil => simp
  | cons _ hb _ ih =>
    have := List.length_pos_of_ne_nil hb
    simp
    omega

theorem loop_items {n : Nat} {s : Elem} {post : List Line} {xs : List Val} {ls : List Line}
    (h : ItemsRead n s post xs ls) (hstop : xs = [] ∨ post ≠ [] → StopAt s post) :
    ∀ (pre : List Line) (fuel : Nat) (acc : List Elem), xs.length < fuel → ∃ es,
      listLoop (fun i => identElem (keysOf (pre ++ ls ++ post)) (pre ++ ls ++ post) s i) (pre ++ ls ++ post).length fuel
        pre.length acc = .ok (pre.length + ls.length, acc.reverse ++ es) ∧
      Built n (pre ++ ls ++ post) es (xs.map fun x => (s.name, x)) := by
  induction h with
  | nil =>
    intro pre fuel acc hf
    obtain ⟨fuel, rfl⟩ : ∃ f, fuel = f + 1 := ⟨fuel - 1, by simp at hf; omega⟩
    obtain ⟨mx, mm, e', he, hcase⟩ := hstop (.inl rfl) pre
    refine ⟨[], ?_, .nil⟩
    simp only [List.append_nil, listLoop, bind, Except.bind, he]
    rcases hcase with ⟨rfl, rfl⟩ | ⟨h1, h2⟩
    · simp [pure, Except.pure]
    · rw [if_neg (by omega), if_pos h1]
      simp [pure, Except.pure]
  | @cons x b xs ls hx hb hxs ih =>
    intro pre fuel acc hf
    obtain ⟨fuel, rfl⟩ : ∃ f, fuel = f + 1 := ⟨fuel - 1, by simp at hf; omega⟩
    have hbl : 0 < b.length := List.length_pos_of_ne_nil hb
    obtain ⟨mm, e', h1, h2, h3, h4, h5⟩ := hx pre
    have e1 : pre ++ b ++ (ls ++ post) = pre ++ (b ++ ls) ++ post := by simp
    have e2 : pre ++ b ++ ls ++ post = pre ++ (b ++ ls) ++ post := by simp
    rw [e1] at h1 h5
    unfold listLoop
    simp only [bind, Except.bind, h1]
    rw [if_neg (by omega), if_neg (by omega)]
    by_cases hend : pre.length + b.length ≥ (pre ++ (b ++ ls) ++ post).length
    · rw [if_pos hend]
      have hls : ls = [] := by
        simp only [List.length_append] at hend
        exact List.eq_nil_of_length_eq_zero (by omega)
      have hxs0 : xs = [] := by
        have := hxs.length_le
        rw [hls] at this
        exact List.eq_nil_of_length_eq_zero (by simpa using this)
      subst hls hxs0
      refine ⟨[{ e' with minMax := some mm }], by simp [pure, Except.pure], .cons ⟨h4, h5⟩ .nil⟩
    · rw [if_neg hend]
      have hstop' : xs = [] ∨ post ≠ [] → StopAt s post := by
        rintro (hx0 | hp)
        · apply hstop
          right
          subst hx0
          cases hxs
          intro hp
          subst hp
          simp at hend
        · exact hstop (.inr hp)
      obtain ⟨es, he, hbuilt⟩ := ih hstop' (pre ++ b) fuel ({ e' with minMax := some mm } :: acc)
        (by simp at hf; omega)
      rw [e2] at he hbuilt
      have e3 : (pre ++ b).length = pre.length + b.length := by simp
      rw [e3] at he
      refine ⟨{ e' with minMax := some mm } :: es, ?_, .cons ⟨h4, h5⟩ hbuilt⟩
      rw [he]
      simp
      omega

theorem subsRead_items {n : Nat} {s : Elem} {post : List Line} {xs : List Val} {ls : List Line} {avoid : Str → Prop}
    (hl : s.isList = true) (h : ItemsRead n s post xs ls) (hstop : xs = [] ∨ post ≠ [] → StopAt s post) :
    SubsRead n [s] (xs.map fun x => (s.name, x)) ls post avoid := by
  intro pre mid _
  have hlen := h.length_le
  obtain ⟨es, he, hb⟩ := loop_items h hstop (pre ++ mid) ((pre ++ mid ++ ls ++ post).length + 1) []
    (by simp only [List.length_append]; omega)
  refine ⟨es, ?_, hb⟩
  simp only [identSubs, hl, if_true, bind, Except.bind]
  rw [he]
  simp [pure, Except.pure]

theorem keysOf_append (a b : List Line) : keysOf (a ++ b) = keysOf a ++ keysOf b := by simp [keysOf]
theorem keysOf_length (a : List Line) : (keysOf a).length = a.length := by simp [keysOf]

theorem mem_keysOf {t : Str} {ls : List Line} : t ∈ keysOf ls ↔ ∃ l ∈ ls, l.key = t := by
  simp [keysOf, Line.key]

/-- A leaf element that is absent. -/
theorem rootRange_absent {e : Elem} (hi : isSpecialIdent e.cls = false) {pre rest : List Line}
    (h : ∀ l ∈ rest, l.key ≠ py "COMMENT" → l.key ∉ e.kw)
    (hp : ∀ p, prefixOf e.cls = some p → ∀ l ∈ rest, startsWith l.key p = false)
    (hn : e.kw ≠ [py "COMMENT"]) :
    rootRange e (keysOf (pre ++ rest)) (pre ++ rest) pre.length = .ok ((pre.length, pre.length), e.kw) := by
  unfold rootRange
  rw [hi]
  simp only [Bool.false_eq_true, if_false]
  rw [keysOf_append]
  have := getMinMax_absent (tags := e.kw) (pre := keysOf pre) (rest := keysOf rest) (pref := prefixOf e.cls)
    (single := e.single.isSome) ?_ ?_ hn
  · rw [keysOf_length] at this; exact this
  · intro t ht htc hm
    obtain ⟨l, hl, rfl⟩ := mem_keysOf.mp hm
    exact h l hl htc ht
  · intro p hp' k hk
    obtain ⟨l, hl, rfl⟩ := mem_keysOf.mp hk
    exact hp p hp' l hl

theorem identElem_eq (keys : List Str) (lines : List Line) (e : Elem) (init : Nat) :
    identElem keys lines e init = (rootRange e keys lines init).bind fun r =>
      (identSubs keys lines r.1.1 e.subs r.1.2).bind fun q => .ok (q.1, r.1, { e with subs := q.2, kw := r.2 }) := by
  obtain ⟨name, cls, subs, kw, isList, single, minMax, template⟩ := e
  simp only [identElem, bind, pure, Except.pure]

theorem subsRead_absent {n : Nat} {s : Elem} (hl : s.isList = false) (hs : s.subs = [])
    (hi : isSpecialIdent s.cls = false) (hn : s.kw ≠ [py "COMMENT"]) {post : List Line} {avoid : Str → Prop}
    (h : ∀ l ∈ post, ¬ avoid l.key) (hav : ∀ t, t ≠ py "COMMENT" → t ∈ s.kw → avoid t)
    (hav' : ∀ p, prefixOf s.cls = some p → ∀ t, startsWith t p = true → avoid t) (hn0 : 0 < n) :
    SubsRead n [s] [(s.name, .none)] [] post avoid := by
  intro pre mid hmid
  have key : ∀ (p r : List Line), (∀ l ∈ r, ¬ avoid l.key) →
      rootRange s (keysOf (p ++ r)) (p ++ r) p.length = .ok ((p.length, p.length), s.kw) := by
    intro p r hr
    apply rootRange_absent hi _ _ hn
    · intro l hl hc hm
      exact hr l hl (hav _ hc hm)
    · intro p' hp' l hl
      cases hsw : startsWith l.key p' with
      | false => rfl
      | true => exact absurd (hav' p' hp' _ hsw) (hr l hl)
  have hall : ∀ l ∈ mid ++ post, ¬ avoid l.key := by
    intro l hl
    rcases List.mem_append.mp hl with h' | h'
    · exact hmid l h'
    · exact h l h'
  have r1 := key (pre ++ mid) post h
  have r2 := key pre (mid ++ post) hall
  rw [← List.append_assoc] at r2
  simp only [List.append_nil]
  refine ⟨[{ s with minMax := some (pre.length, pre.length) }], ?_, .cons ⟨rfl, ?_⟩ .nil⟩
  · have hse : ({ s with subs := [], kw := s.kw } : Elem) = s := by
      obtain ⟨name, cls, subs, kw, isList, single, minMax, template⟩ := s
      simp only at hs
      rw [hs]
    have hid : identElem (keysOf (pre ++ mid ++ post)) (pre ++ mid ++ post) s (pre ++ mid).length =
        .ok ((pre ++ mid).length, ((pre ++ mid).length, (pre ++ mid).length), s) := by
      rw [identElem_eq, r1]
      simp only [Except.bind, hs, identSubs]
      rw [hse]
    have hre : researchRange (keysOf (pre ++ mid ++ post)) (pre ++ mid ++ post) pre.length
        ((pre ++ mid).length, (pre ++ mid).length) s = .ok ((pre.length, pre.length), s.kw) := by
      simp only [researchRange, hs, and_self, if_true, r2]
    simp only [identSubs, hl, Bool.false_eq_true, if_false, hid, bind, Except.bind, hre]
    simp [pure, Except.pure]
  · intro fuel hf
    obtain ⟨fuel, rfl⟩ : ∃ f, fuel = f + 1 := ⟨fuel - 1, by omega⟩
    simp [build, hs]

theorem stopAt_leaf {s : Elem} (hs : s.subs = []) (hi : isSpecialIdent s.cls = false) (hn : s.kw ≠ [py "COMMENT"])
    {post : List Line} (h : ∀ l ∈ post, l.key ≠ py "COMMENT" → l.key ∉ s.kw)
    (hp : ∀ p, prefixOf s.cls = some p → ∀ l ∈ post, startsWith l.key p = false) : StopAt s post := by
  intro pre
  rw [identElem_eq, rootRange_absent hi h hp hn]
  simp only [Except.bind, hs, identSubs]
  exact ⟨_, _, _, rfl, .inl ⟨rfl, rfl⟩⟩

end Ndm
