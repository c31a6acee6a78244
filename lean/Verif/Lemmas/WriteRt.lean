import Verif.Lemmas.Keys
import Verif.Lemmas.Num
import Verif.Props.Numbers

/-! The writer emits, for a well-formed object, lines that are read as the lines of its specification. -/

namespace Ndm

/-- `x` is `out` extended with text lines that read as `ls`. -/
def Writes (x : Except PyErr (List Str)) (out : List Str) (ls : List Line) : Prop :=
  ∃ ws, x = .ok (out ++ ws) ∧ ws.filterMap parseLine = ls ∧ ∀ w ∈ ws, '\n' ∉ w

theorem Writes.nil (out : List Str) : Writes (.ok out) out [] := ⟨[], by simp, rfl, by simp⟩

theorem Writes.one {out : List Str} {w : Str} {l : Line} (h : parseLine w = some l) (hn : '\n' ∉ w) :
    Writes (.ok (out ++ [w])) out [l] := ⟨[w], rfl, by simp [h], by simpa using hn⟩

theorem Writes.blank {x : Except PyErr (List Str)} {out : List Str} {ls : List Line} (h : Writes x out ls) (b : Prop)
    [Decidable b] : Writes (x.bind fun o => .ok (if b then o ++ [[]] else o)) out ls := by
  obtain ⟨ws, hx, hl, hn⟩ := h
  by_cases hb : b
  · refine ⟨ws ++ [[]], by simp [hx, Except.bind, hb], ?_, ?_⟩
    · rw [List.filterMap_append, hl]
      have : parseLine [] = none := by decide
      simp [this]
    · intro w hw
      rcases List.mem_append.mp hw with h | h
      · exact hn w h
      · simp at h; subst h; simp
  · exact ⟨ws, by simp [hx, Except.bind, hb], hl, hn⟩

theorem Writes.bind {x : Except PyErr (List Str)} {f : List Str → Except PyErr (List Str)} {out : List Str}
    {l1 l2 : List Line} (h1 : Writes x out l1) (h2 : ∀ o, Writes (f o) o l2) : Writes (x.bind f) out (l1 ++ l2) := by
  obtain ⟨ws, hx, hl, hn⟩ := h1
  obtain ⟨ws2, hx2, hl2, hn2⟩ := h2 (out ++ ws)
  refine ⟨ws ++ ws2, by simp [hx, Except.bind, hx2], by rw [List.filterMap_append, hl, hl2], ?_⟩
  intro w hw
  rcases List.mem_append.mp hw with h | h
  · exact hn w h
  · exact hn2 w h

theorem collateVars_append (a b : List (Str × Val)) (out : List Str) :
    collateVars out (a ++ b) = (collateVars out a).bind fun o => collateVars o b := by
  induction a generalizing out with
  | nil => rfl
  | cons p a ih =>
    obtain ⟨k, v⟩ := p
    rw [List.cons_append]
    simp only [collateVars, bind]
    cases collateSub k out v with
    | error e => rfl
    | ok o => exact ih o

theorem not_unitLike {s : Str} (h : ∀ c ∈ s, NumC c) : ¬ UnitLike s := by
  intro hu
  exact (h _ hu.1).plain.2.2.1 rfl

theorem fillKvn_noNewline {key value : Str} {unit : Option Str} (hk : '\n' ∉ upper key) (hv : '\n' ∉ value)
    (hu : ∀ u, unit = some u → '\n' ∉ u) : '\n' ∉ fillKvn key value unit := by
  have hl : ∀ n (s : Str), '\n' ∉ s → '\n' ∉ ljust n s := by
    intro n s hs h
    unfold ljust at h
    rcases List.mem_append.mp h with h | h
    · exact hs h
    · rw [List.mem_replicate] at h
      exact absurd h.2 (by decide)
  have h1 := hl 20 _ hk
  have h2 : '\n' ∉ py " = " := by decide
  have h3 : '\n' ∉ py "[" := by decide
  have h4 : '\n' ∉ py "]" := by decide
  unfold fillKvn
  split
  · split
    · simp only [List.mem_append, not_or]; exact ⟨⟨h1, h2⟩, hv⟩
    · simp only [List.mem_append, not_or]
      exact ⟨⟨⟨⟨⟨h1, h2⟩, hl 18 _ hv⟩, h3⟩, hu _ rfl⟩, h4⟩
  · simp only [List.mem_append, not_or]; exact ⟨⟨h1, h2⟩, hv⟩

theorem num_noNewline {s : Str} (h : ∀ c ∈ s, NumC c) : '\n' ∉ s := fun hm => (h _ hm).plain.2.2.2.2.2.1 rfl

/-- The line written for a keyword attribute. -/
theorem write_key {f : Field} {v : Val} {l : Line} (hf : KeyField f) (hl : f.isList = false) (h : KeyVal f v l)
    (out : List Str) : Writes (collateSub f.name out v) out [l] := by
  have hk := hf.keyword hl
  have hn := hf.noNewline
  obtain ⟨hc, hud, -, hd⟩ := hf.single hl
  cases h with
  | @str s _ _ hp =>
    exact .one (C08_value _ _ hk hp.trimmed hp.noUnit) (fillKvn_noNewline hn hp.oneLine (by simp))
  | @int i hi =>
    exact .one (C08_value _ _ hk (trimmed_of_num (intStr_num i)) (not_unitLike (intStr_num i)))
      (fillKvn_noNewline hn (num_noNewline (intStr_num i)) (by simp))
  | @dec d hdd =>
    simp only [collateSub, if_neg hc]
    exact .one (C08_value _ _ hk (trimmed_of_num (dec_toStr_num d)) (not_unitLike (dec_toStr_num d)))
      (fillKvn_noNewline hn (num_noNewline (dec_toStr_num d)) (by simp))
  | @enum c ms m s hc' hm hs =>
    simp only [collateSub, if_neg hc]
    have hp := (enumText hm hs).plain
    exact .one (C08_value _ _ hk hp.trimmed hp.noUnit) (fillKvn_noNewline hn hp.oneLine (by simp))
  | @number c u d hc' hq =>
    obtain ⟨fv, fu, hm, -⟩ := hq
    simp only [collateSub, hd c hc' hm, withHeader, if_neg hc]
    exact .one (C08_value _ _ hk (trimmed_of_num (dec_toStr_num d)) (not_unitLike (dec_toStr_num d)))
      (fillKvn_noNewline hn (num_noNewline (dec_toStr_num d)) (by simp))
  | @quantity c u d ms m s hc' hq hms hs =>
    obtain ⟨fv, fu, hm, -⟩ := hq
    have hp := enumText hms hs
    have ht : (Val.str s).truthy = true := by
      cases s with
      | nil => exact absurd rfl hp.ne
      | cons a b => rfl
    have e : collateSub f.name out (.obj c [(py "value", .dec d), (py "units", .enum u s)]) =
        .ok (out ++ [fillKvn f.name d.toStr (if (Val.str s).truthy then some s else none)]) := by
      simp only [collateSub, hd c hc' hm, withHeader, if_neg hc]
      rfl
    rw [e, if_pos ht]
    exact .one (C08_unit _ _ _ hk (trimmed_of_num (dec_toStr_num d))
      (fun hm => (dec_toStr_num d _ hm).plain.2.2.1 rfl) hp.ne hp.trimmed ⟨hp.noOpen, hp.noClose⟩)
      (fillKvn_noNewline hn (num_noNewline (dec_toStr_num d)) (by rintro u ⟨⟩; exact hp.oneLine))

theorem write_comments {texts : List Str} (ht : ∀ t ∈ texts, PlainComment t) (out : List Str) :
    Writes (collateSub (py "comment") out (.list (texts.map .str))) out (texts.map fun t => [py "COMMENT", t]) := by
  have h := C20_comment texts (fun t h => (ht t h).trimmed) out
  refine ⟨_, h.1, h.2, ?_⟩
  intro w hw
  obtain ⟨t, htm, rfl⟩ := List.mem_map.mp hw
  exact fillKvn_noNewline (by decide) (ht t htm).oneLine (by simp)

theorem write_keys {fs : List Field} {vs : List (Str × Val)} {ls : List Line} (hfs : ∀ f ∈ fs, KeyField f)
    (h : GoodKeys fs vs ls) : ∀ out, Writes (collateVars out vs) out ls := by
  induction h with
  | nil => intro out; exact .nil out
  | @absent f fs vs ls hl hk ih =>
    intro out
    obtain ⟨hc, hu, -, -⟩ := (hfs f (by simp)).single hl
    simp only [collateVars, collateSub, hc, hu, or_self, if_false]
    exact ih (fun g hg => hfs g (by simp [hg])) out
  | @value f fs v vs l ls hl hv hk ih =>
    intro out
    exact (write_key (hfs f (by simp)) hl hv out).bind (ih (fun g hg => hfs g (by simp [hg])))
  | @comments f fs texts vs ls hl hn ht hk ih =>
    intro out
    rw [hn]
    exact (write_comments ht out).bind (ih (fun g hg => hfs g (by simp [hg])))

theorem goodKeys_names {R} {fs : List Field} {vs : List (Str × Val)} {ls : List Line} (h : KeysOf R fs vs ls) :
    vs.map (·.1) = fs.map (·.name) := by
  induction h with
  | nil => rfl
  | absent _ _ ih => simp [ih]
  | value _ _ _ ih => simp [ih]
  | comments _ hn _ _ ih => simp [ih]

theorem goodBlocks_names {K A} {fs : List Field} {vs : List (Str × Val)} {ls : List Line} (h : GoodBlocksOf K A fs vs ls) :
    vs.map (·.1) = fs.map (·.name) := by
  induction fs generalizing vs ls with
  | nil => cases h; rfl
  | cons f fs ih =>
    cases h with
    | absent _ _ _ h => simp [ih h]
    | one _ _ _ h => simp [ih h]
    | many _ _ _ _ h => simp [ih h]

theorem any_units {vs : List (Str × Val)} {fs : List Field} (h : vs.map (·.1) = fs.map (·.name)) :
    vs.any (·.1 == py "units") = fs.any (·.name == py "units") := by
  have h1 : vs.any (·.1 == py "units") = (vs.map (·.1)).any (· == py "units") := by rw [List.any_map]; rfl
  have h2 : fs.any (·.name == py "units") = (fs.map (·.name)).any (· == py "units") := by rw [List.any_map]; rfl
  rw [h1, h2, h]

/-- What is checked of a class written attribute by attribute. -/
def Cls.ordinary (c : Cls) : Bool :=
  c.members.isNone && !c.isValueClass && decide (c ≠ .UserDefinedType) && !isSpecialOut c && !isSpecialIdent c &&
  !isSpecialBuild c && (headerName c == none) && decide (c.attrs = c.keyAttrs ++ c.blockAttrs) &&
  decide (c.blockFields = c.blockAttrs) && decide (c.elemFields = c.attrs) &&
  decide ((c.attrs.map (·.xmlName)).Nodup) &&
  c.attrs.all (fun f => decide (f.kind = .elem) && f.name != py "units" && f.name != py "value") &&
  c.blockAttrs.all (fun f => f.name != py "comment" && f.name != py "user_defined" && !isUpper f.xmlName)

/-- What binding an object's keyword lines needs of its class. -/
structure Bindable (c : Cls) : Prop where
  members : c.members = none
  value : c.isValueClass = false
  user : c ≠ .UserDefinedType
  order : c.attrs = c.keyAttrs ++ c.blockAttrs
  elems : c.elemFields = c.attrs
  tags : (c.attrs.map (·.xmlName)).Nodup
  attr : ∀ f ∈ c.attrs, f.kind = .elem ∧ f.name ≠ py "units" ∧ f.name ≠ py "value"

/-- What reading an object needs of its class. -/
structure Regular (c : Cls) : Prop extends Bindable c where
  ident : isSpecialIdent c = false
  build : isSpecialBuild c = false
  blocks : c.blockFields = c.blockAttrs

structure Ordinary (c : Cls) : Prop extends Regular c where
  out : isSpecialOut c = false
  header : headerName c = none
  block : ∀ f ∈ c.blockAttrs, f.name ≠ py "comment" ∧ f.name ≠ py "user_defined" ∧ isUpper f.xmlName = false

theorem ordinary_iff {c : Cls} (h : c.ordinary = true) : Ordinary c := by
  unfold Cls.ordinary at h
  simp only [Bool.and_eq_true, decide_eq_true_eq, List.all_eq_true, Bool.not_eq_true', bne_iff_ne, ne_eq,
    Option.isNone_iff_eq_none, beq_iff_eq] at h
  obtain ⟨⟨⟨⟨⟨⟨⟨⟨⟨⟨⟨⟨h1, h2⟩, h3⟩, h4⟩, h5⟩, h6⟩, h7⟩, h8⟩, h9⟩, h9a⟩, h9b⟩, h10⟩, h11⟩ := h
  exact ⟨⟨⟨h1, h2, h3, h8, h9a, h9b, fun f hf => ⟨(h10 f hf).1.1, (h10 f hf).1.2, (h10 f hf).2⟩⟩, h5, h6, h9⟩, h4, h7,
    fun f hf => ⟨(h11 f hf).1.1, (h11 f hf).1.2, (h11 f hf).2⟩⟩

/-- A class tree of depth below `k` all of whose classes are ordinary or have a notation of their own. -/
def nice : Nat → Cls → Bool
  | 0, _ => false
  | k + 1, c => c.ownNotation || (c.ordinary && c.blockAttrs.all fun f => match f.ty with
    | .cls d => nice k d
    | _ => false)

/-- What the writer needs to know of the objects with a notation of their own. -/
def SpecialWrites (A : Cls → Val → List Line → Prop) : Prop :=
  ∀ c v ls, A c v ls → c.ownNotation = true ∧ ∃ vs, v = .obj c vs ∧ (∀ out, Writes (collateVars out vs) out ls) ∧
    vs.any (·.1 == py "units") = false ∧ isSpecialOut c = false ∧ headerName c = none

theorem write_obj {c : Cls} {vs : List (Str × Val)} {ls : List Line} (hw : ∀ out, Writes (collateVars out vs) out ls)
    (ho : isSpecialOut c = false) (key : Str) (out : List Str) : Writes (collateObj key out (.obj c vs)) out ls := by
  simp only [collateObj, ho, Bool.false_eq_true, if_false]
  exact (hw out).blank _

theorem write_sub {c : Cls} {vs : List (Str × Val)} {ls : List Line} (hw : ∀ out, Writes (collateVars out vs) out ls)
    (ho : isSpecialOut c = false) (hh : headerName c = none) (hu : vs.any (·.1 == py "units") = false) {key : Str}
    (hk : key ≠ py "comment" ∧ key ≠ py "user_defined") (out : List Str) :
    Writes (collateSub key out (.obj c vs)) out ls := by
  simp only [collateSub, ho, hh, withHeader, hk.1, hk.2, hu, Bool.false_eq_true, if_false]
  exact (hw out).blank _

theorem write_items {A} {d : Cls} (ho : isSpecialOut d = false)
    (hg : ∀ v ls, Good A d v ls → ∃ vs, v = .obj d vs ∧ ∀ out, Writes (collateVars out vs) out ls) (key : Str) :
    ∀ {xs : List Val} {ls : List Line}, GoodItems A d xs ls → ∀ out, Writes (collateItems key out xs) out ls
  | [], _, h, out => by cases h; exact .nil out
  | x :: xs, _, h, out => by
    cases h with
    | @cons _ _ _ l ls hx _ _ hxs =>
      obtain ⟨vs, rfl, hw⟩ := hg x l hx
      simp only [collateItems]
      exact (write_obj hw ho key out).bind (write_items ho hg key hxs)

theorem write_good {A} (hA : SpecialWrites A) : ∀ (k : Nat) (c : Cls), nice k c = true → ∀ v ls, Good A c v ls →
    ∃ vs, v = .obj c vs ∧ (∀ out, Writes (collateVars out vs) out ls) ∧ vs.any (·.1 == py "units") = false ∧
      isSpecialOut c = false ∧ headerName c = none
  | 0, c, hn, _, _, _ => by cases hn
  | k + 1, c, hn, v, ls, h => by
    cases h with
    | special h => exact (hA _ _ _ h).2
    | @obj _ kvs bvs own ls hown hk hb hlaid =>
      simp only [nice, hown, Bool.false_or, Bool.and_eq_true, List.all_eq_true] at hn
      have ho := ordinary_iff hn.1
      have hkey := keyed ho.members ho.value ho.user
      refine ⟨_, rfl, ?_, ?_, ho.out, ho.header⟩
      · intro out
        rw [collateVars_append]
        refine (write_keys hkey.field hk out).bind ?_
        have : ∀ {fs : List Field} {vs : List (Str × Val)} {ls : List Line}, (∀ f ∈ fs, f ∈ c.blockAttrs) →
            GoodBlocks A fs vs ls → ∀ out, Writes (collateVars out vs) out ls := by
          intro fs
          induction fs with
          | nil => intro vs ls _ h out; cases h; exact .nil out
          | cons f fs ih =>
            intro vs ls hfs h out
            have hf := hfs f (by simp)
            obtain ⟨n1, n2, -⟩ := ho.block f hf
            have hd := hn.2 f hf
            cases h with
            | absent hl ht hleaf h =>
              simp only [collateVars, collateSub, n1, n2, or_self, if_false]
              exact ih (fun g hg => hfs g (by simp [hg])) h out
            | @one _ _ d v vs l ls hl ht hv h =>
              rw [ht] at hd
              obtain ⟨ws, rfl, hw, hu, hs, hh⟩ := write_good hA k d hd v l hv
              exact (write_sub hw hs hh hu ⟨n1, n2⟩ out).bind (ih (fun g hg => hfs g (by simp [hg])) h)
            | @many _ _ d xs vs l ls hl ht hxn hv h =>
              rw [ht] at hd
              refine Writes.bind ?_ (ih (fun g hg => hfs g (by simp [hg])) h)
              cases hv with
              | nil =>
                simp only [collateSub, n1, n2, if_false]
                exact .nil out
              | @cons _ x xs l ls hx hne hmono hxs =>
                obtain ⟨ws, rfl, hw, hu, hs, hh⟩ := write_good hA k d hd x l hx
                simp only [collateSub, n1, n2, if_false, headerOf, hh, withHeader]
                refine (write_obj hw hs f.name out).bind (write_items hs ?_ f.name hxs)
                intro v ls hv
                obtain ⟨vs, h1, h2, -⟩ := write_good hA k d hd v ls hv
                exact ⟨vs, h1, h2⟩
        exact this (fun f hf => hf) hb
      · rw [any_units (fs := c.attrs)]
        · rw [List.any_eq_false]
          intro f hf
          simpa using (ho.attr f hf).2.1
        · rw [ho.order, List.map_append, List.map_append, goodKeys_names hk, goodBlocks_names hb]

end Ndm
