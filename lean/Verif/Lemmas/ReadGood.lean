import Verif.Lemmas.ReadObj

/-! Reading back a well-formed object of an ordinary class tree. -/

namespace Ndm

/-- The prefix of user-defined keywords. -/
def userPrefix : Str := py "USER_DEFINED"

/-- The keywords of the classes with a notation of their own, without `COMMENT` and user-defined ones. -/
def ownKeys (c : Cls) : List Str :=
  if c = .RelativeMetadataData then
    (c.keyAttrs ++ c.blockAttrs.flatMap fun f => (f.ty.cls?.map Cls.keyAttrs).getD []).map (fun f => upper f.name) |>.filter
      (· != py "COMMENT")
  else if c = .RotationAngleType then [py "X_ANGLE", py "Y_ANGLE", py "Z_ANGLE"]
  else if c = .RotationRateType then [py "X_RATE", py "Y_RATE", py "Z_RATE"]
  else []

/-- The keywords of a list of nested objects, given those of their classes. -/
def claimsBy (F : Cls → List Str) : List Field → List Str
  | [] => []
  | f :: fs => (match f.ty with
    | .cls d => F d
    | _ => []) ++ claimsBy F fs

/-- The keywords that occur in the lines of a class (user-defined ones and `COMMENT` aside). -/
def claims : Nat → Cls → List Str
  | 0, _ => []
  | k + 1, c => if c.ownNotation then ownKeys c else
    (c.keyAttrs.map fun f => upper f.name).filter (· != py "COMMENT") ++ claimsBy (claims k) c.blockAttrs

def claimsL (k : Nat) (fs : List Field) : List Str := claimsBy (claims k) fs

def usersBy (F : Cls → Nat) : List Field → Nat
  | [] => 0
  | f :: fs => (match f.ty with
    | .cls d => F d
    | _ => 0) + usersBy F fs

/-- The number of user-defined blocks of a class. -/
def users : Nat → Cls → Nat
  | 0, _ => 0
  | k + 1, c => if c.ownNotation then (if c = .UserDefinedType then 1 else 0) else usersBy (users k) c.blockAttrs

def usersL (k : Nat) (fs : List Field) : Nat := usersBy (users k) fs

def hasListBy (F : Cls → Bool) : List Field → Bool
  | [] => false
  | f :: fs => f.isList || (match f.ty with
    | .cls d => F d
    | _ => false) || hasListBy F fs

/-- Is there a list of objects anywhere in the class? -/
def hasList : Nat → Cls → Bool
  | 0, _ => false
  | k + 1, c => !c.ownNotation && hasListBy (hasList k) c.blockAttrs

def hasListL (k : Nat) (fs : List Field) : Bool := hasListBy (hasList k) fs

def fragileBy (F : Cls → Bool) : List Field → Bool
  | [] => false
  | f :: fs => (match f.ty with
    | .cls d => F d
    | _ => false) || fragileBy F fs

/-- Is there an object anywhere in the class whose keywords must not occur again? -/
def fragile : Nat → Cls → Bool
  | 0, _ => false
  | k + 1, c => if c.ownNotation then decide (c ≠ .UserDefinedType) else fragileBy (fragile k) c.blockAttrs

def fragileL (k : Nat) (fs : List Field) : Bool := fragileBy (fragile k) fs

def readableBy (F H G : Cls → Bool) : List Field → Bool
  | [] => true
  | f :: fs => (match f.ty with
    | .cls d => F d && (!f.isList || (!H d && !d.ownNotation && !G d)) &&
        (fs.isEmpty || (!H d && (!f.isList || d.blockAttrs.isEmpty))) &&
        (!d.blockAttrs.isEmpty || !d.ownNotation || decide (d = .UserDefinedType))
    | _ => false) && readableBy F H G fs

/-- What is checked of a class tree for reading it back. -/
def readable : Nat → Cls → Bool
  | 0, _ => false
  | k + 1, c => (c.ownNotation && decide (2 ≤ k)) || (!c.ownNotation && c.ordinary &&
      (if c.blockAttrs = [] then c.keyAttrs.map (·.name) != [py "comment"] else c.blockAttrs.any (!·.isList)) &&
      readableBy (readable k) (hasList k) (fragile k) c.blockAttrs)

def readableL (k : Nat) (fs : List Field) : Bool := readableBy (readable k) (hasList k) (fragile k) fs

def Claimed (k : Nat) (c : Cls) (t : Str) : Prop :=
  t ∈ claims k c ∨ (0 < users k c ∧ startsWith t userPrefix = true)

def ClaimedL (k : Nat) (fs : List Field) (t : Str) : Prop :=
  t ∈ claimsL k fs ∨ (0 < usersL k fs ∧ startsWith t userPrefix = true)

/-- The keywords of a class tree are distinct. -/
structure Tidy (ts : List Str) (us : Nat) : Prop where
  nodup : ts.Nodup
  clean : ∀ t ∈ ts, t ≠ py "COMMENT" ∧ startsWith t userPrefix = false
  users : us ≤ 1

theorem Tidy.left {a b : List Str} {m n : Nat} (h : Tidy (a ++ b) (m + n)) : Tidy a m :=
  ⟨(List.nodup_append.mp h.nodup).1, fun t ht => h.clean t (by simp [ht]), by have := h.users; omega⟩

theorem Tidy.right {a b : List Str} {m n : Nat} (h : Tidy (a ++ b) (m + n)) : Tidy b n :=
  ⟨(List.nodup_append.mp h.nodup).2.1, fun t ht => h.clean t (by simp [ht]), by have := h.users; omega⟩

theorem Tidy.disj {a b : List Str} {m n : Nat} (h : Tidy (a ++ b) (m + n)) {t : Str}
    (h1 : t ∈ a ∨ (0 < m ∧ startsWith t userPrefix = true)) (h2 : t ∈ b ∨ (0 < n ∧ startsWith t userPrefix = true)) :
    False := by
  rcases h1 with h1 | ⟨h1, h1'⟩
  · rcases h2 with h2 | ⟨-, h2'⟩
    · exact (List.nodup_append.mp h.nodup).2.2 t h1 t h2 rfl
    · rw [(h.clean t (by simp [h1])).2] at h2'; cases h2'
  · rcases h2 with h2 | ⟨h2, -⟩
    · rw [(h.clean t (by simp [h2])).2] at h1'; cases h1'
    · have := h.users; omega

theorem Tidy.noComment {a : List Str} {m : Nat} (h : Tidy a m) {t : Str}
    (h1 : t ∈ a ∨ (0 < m ∧ startsWith t userPrefix = true)) : t ≠ py "COMMENT" := by
  rcases h1 with h1 | ⟨-, h1⟩
  · exact (h.clean t h1).1
  · rintro rfl; exact absurd h1 (by decide)

mutual
theorem GoodOf.mono {K K' : Cls → List (Str × Val) → List Line → Prop} {A A' : Cls → Val → List Line → Prop}
    (hK : ∀ c kvs own, K c kvs own → K' c kvs own) (hA : ∀ c v ls, A c v ls → A' c v ls) {c : Cls} {v : Val}
    {ls : List Line} : GoodOf K A c v ls → GoodOf K' A' c v ls
  | .special h => .special (hA _ _ _ h)
  | .obj ho hk hb hl => .obj ho (hK _ _ _ hk) (hb.mono hK hA) hl

theorem GoodBlocksOf.mono {K K' : Cls → List (Str × Val) → List Line → Prop} {A A' : Cls → Val → List Line → Prop}
    (hK : ∀ c kvs own, K c kvs own → K' c kvs own) (hA : ∀ c v ls, A c v ls → A' c v ls) {fs : List Field}
    {vs : List (Str × Val)} {ls : List Line} : GoodBlocksOf K A fs vs ls → GoodBlocksOf K' A' fs vs ls
  | .nil => .nil
  | .absent hl ht hb h => .absent hl ht hb (h.mono hK hA)
  | .one hl ht hv h => .one hl ht (hv.mono hK hA) (h.mono hK hA)
  | .many hl ht hn hv h => .many hl ht hn (hv.mono hK hA) (h.mono hK hA)

theorem GoodItemsOf.mono {K K' : Cls → List (Str × Val) → List Line → Prop} {A A' : Cls → Val → List Line → Prop}
    (hK : ∀ c kvs own, K c kvs own → K' c kvs own) (hA : ∀ c v ls, A c v ls → A' c v ls) {d : Cls} {xs : List Val}
    {ls : List Line} : GoodItemsOf K A d xs ls → GoodItemsOf K' A' d xs ls
  | .nil => .nil
  | .cons hx hn hm h => .cons (hx.mono hK hA) hn hm (h.mono hK hA)
end

/-- What is written for keyword attributes states them. -/
theorem Written.spelled {c : Cls} {kvs : List (Str × Val)} {own : List Line} (h : Written c kvs own) : Spelled c kvs own :=
  ⟨own, h.text, .refl own⟩

/-- What the reader needs to know of the objects with a notation of their own. -/
structure SpecialReads (A : Cls → Val → List Line → Prop) : Prop where
  notation_ : ∀ {c v ls}, A c v ls → c.ownNotation = true
  isObj : ∀ {c v ls}, A c v ls → ∃ vs, v = .obj c vs
  claim : ∀ {c v ls} {k : Nat}, A c v ls → ∀ m ∈ ls, m.key = py "COMMENT" ∨ Claimed (k + 1) c m.key
  read : ∀ {c v ls} {k : Nat}, A c v ls → ∀ name post,
    (∀ m ∈ post, Claimed (k + 3) c m.key → ∃ m' ∈ ls, m'.key = m.key) →
    (c ≠ .UserDefinedType → ∀ m ∈ post, ¬ Claimed (k + 3) c m.key) →
    ItemRead (k + 3) (extract (k + 3) name c false) v ls post

theorem good_isObj {A} (hA : SpecialReads A) {c : Cls} {v : Val} {ls : List Line} (h : GoodOf Spelled A c v ls) :
    ∃ vs, v = .obj c vs := by
  cases h with
  | special h => exact hA.isObj h
  | obj _ _ _ _ => exact ⟨_, rfl⟩

theorem readable_split {k : Nat} {c : Cls} (h : readable (k + 1) c = true) (ho : c.ownNotation = false) :
    Ordinary c ∧ (if c.blockAttrs = [] then c.keyAttrs.map (·.name) ≠ [py "comment"] else
      c.blockAttrs.any (!·.isList) = true) ∧ readableL k c.blockAttrs = true := by
  simp only [readable, ho, Bool.false_and, Bool.not_false, Bool.true_and, Bool.false_or, Bool.and_eq_true] at h
  refine ⟨ordinary_iff h.1.1, ?_, h.2⟩
  have := h.1.2
  split at this
  · rename_i hb; rw [if_pos hb]; simpa using this
  · rename_i hb; rw [if_neg hb]; exact this

theorem claims_split {k : Nat} {c : Cls} (ho : c.ownNotation = false) :
    claims (k + 1) c = (c.keyAttrs.map fun f => upper f.name).filter (· != py "COMMENT") ++ claimsL k c.blockAttrs := by
  simp [claims, claimsL, ho]

theorem users_split {k : Nat} {c : Cls} (ho : c.ownNotation = false) : users (k + 1) c = usersL k c.blockAttrs := by
  simp [users, usersL, ho]

theorem readableL_cons {k : Nat} {f : Field} {fs : List Field} {d : Cls} (h : readableL k (f :: fs) = true)
    (ht : f.ty = .cls d) : readable k d = true ∧ (f.isList = true → (hasList k d = false ∧ d.ownNotation = false) ∧ fragile k d = false) ∧
      (fs = [] ∨ (hasList k d = false ∧ (f.isList = true → d.blockAttrs = []))) ∧
      (d.blockAttrs = [] → d.ownNotation = false ∨ d = .UserDefinedType) ∧ readableL k fs = true := by
  simp only [readableL, readableBy, ht, Bool.and_eq_true, Bool.or_eq_true, Bool.not_eq_true', List.isEmpty_iff,
    decide_eq_true_eq] at h
  obtain ⟨⟨⟨⟨h1, h2⟩, h3⟩, h4⟩, h5⟩ := h
  refine ⟨h1, ?_, ?_, ?_, h5⟩
  · intro hl
    rcases h2 with h2 | h2
    · rw [hl] at h2; cases h2
    · exact h2
  · rcases h3 with h3 | ⟨h3, h3'⟩
    · exact .inl h3
    · refine .inr ⟨h3, fun hl => ?_⟩
      rcases h3' with h3' | h3'
      · rw [hl] at h3'; cases h3'
      · exact h3'
  · intro hb
    rcases h4 with (h4 | h4) | h4
    · rw [hb] at h4; cases h4
    · exact .inl h4
    · exact .inr h4

theorem claimsL_cons {k : Nat} {f : Field} {fs : List Field} {d : Cls} (ht : f.ty = .cls d) :
    claimsL k (f :: fs) = claims k d ++ claimsL k fs := by simp [claimsL, claimsBy, ht]

theorem usersL_cons {k : Nat} {f : Field} {fs : List Field} {d : Cls} (ht : f.ty = .cls d) :
    usersL k (f :: fs) = users k d + usersL k fs := by simp [usersL, usersBy, ht]

theorem goodItems_claimed {A} {d : Cls} {P : Str → Prop} (h : ∀ v ls, GoodOf Spelled A d v ls → ∀ m ∈ ls, P m.key) :
    ∀ {xs : List Val} {ls : List Line}, GoodItemsOf Spelled A d xs ls → ∀ m ∈ ls, P m.key := by
  intro xs
  induction xs with
  | nil => intro ls hv m hm; cases hv; simp at hm
  | cons x xs ih =>
    intro ls hv m hm
    cases hv with
    | @cons _ _ _ l ls hx hne hmono hxs =>
      rcases List.mem_append.mp hm with hm | hm
      · exact h x l hx m hm
      · exact ih hxs m hm

theorem goodBlocks_claimed {A} {k : Nat}
    (ih : ∀ c, readable k c = true → ∀ v ls, GoodOf Spelled A c v ls → ∀ m ∈ ls, m.key = py "COMMENT" ∨ Claimed k c m.key) :
    ∀ {fs : List Field} {vs : List (Str × Val)} {ls : List Line}, readableL k fs = true → GoodBlocksOf Spelled A fs vs ls →
      ∀ m ∈ ls, m.key = py "COMMENT" ∨ ClaimedL k fs m.key := by
  intro fs
  induction fs with
  | nil => intro vs ls _ h m hm; cases h; simp at hm
  | cons f fs ihf =>
    intro vs ls hr h m hm
    have lift : ∀ {d : Cls} {t : Str}, f.ty = .cls d → t = py "COMMENT" ∨ Claimed k d t →
        t = py "COMMENT" ∨ ClaimedL k (f :: fs) t := by
      intro d t ht h
      rcases h with h | h | ⟨h, h'⟩
      · exact .inl h
      · right; left; rw [claimsL_cons ht]; simp [h]
      · right; right; rw [usersL_cons ht]; exact ⟨by omega, h'⟩
    have liftL : ∀ {d : Cls} {t : Str}, f.ty = .cls d → t = py "COMMENT" ∨ ClaimedL k fs t →
        t = py "COMMENT" ∨ ClaimedL k (f :: fs) t := by
      intro d t ht h
      rcases h with h | h | ⟨h, h'⟩
      · exact .inl h
      · right; left; rw [claimsL_cons ht]; simp [h]
      · right; right; rw [usersL_cons ht]; exact ⟨by omega, h'⟩
    cases h with
    | absent hl ht hb h =>
      exact liftL ht (ihf (readableL_cons hr ht).2.2.2.2 h m hm)
    | @one _ _ d v vs l ls hl ht hv h =>
      obtain ⟨hd, -, -, -, hrest⟩ := readableL_cons hr ht
      rcases List.mem_append.mp hm with hm | hm
      · exact lift ht (ih d hd v l hv m hm)
      · exact liftL ht (ihf hrest h m hm)
    | @many _ _ d xs vs l ls hl ht hxn hv h =>
      obtain ⟨hd, -, -, -, hrest⟩ := readableL_cons hr ht
      rcases List.mem_append.mp hm with hm | hm
      · exact lift ht (goodItems_claimed (P := fun t => t = py "COMMENT" ∨ Claimed k d t) (ih d hd) hv m hm)
      · exact liftL ht (ihf hrest h m hm)

theorem good_claimed {A} (hA : SpecialReads A) : ∀ (k : Nat) (c : Cls), readable k c = true → ∀ v ls, GoodOf Spelled A c v ls →
    ∀ m ∈ ls, m.key = py "COMMENT" ∨ Claimed k c m.key
  | 0, _, hr, _, _, _ => by simp [readable] at hr
  | k + 1, c, hr, v, ls, h => by
    intro m hm
    cases h with
    | special h => exact hA.claim h m hm
    | @obj _ kvs bvs own ls hown hk hb hlaid =>
      obtain ⟨own₀, hk, hro⟩ := hk
      obtain ⟨ho, -, hrl⟩ := readable_split hr hown
      rcases List.mem_append.mp hm with hm | hm
      · by_cases hc : m.key = py "COMMENT"
        · exact .inl hc
        · right; left
          rw [claims_split hown, List.mem_append, List.mem_filter]
          exact .inl ⟨(goodKeys_key hk m (hro.mem.mpr hm)).1, by simpa using hc⟩
      · rcases goodBlocks_claimed (good_claimed hA k) hrl hb m hm with h | h | ⟨h, h'⟩
        · exact .inl h
        · right; left; rw [claims_split hown]; simp [h]
        · right; right; rw [users_split hown]; exact ⟨h, h'⟩

/-- The sub-elements of an ordinary class. -/
def subElems (k : Nat) (fs : List Field) : List Elem :=
  fs.filterMap fun f => f.ty.cls?.map fun d => extract k f.name d f.isList

theorem extract_ordinary {c : Cls} (ho : Regular c) (k : Nat) (name : Str) (l : Bool) :
    extract (k + 1) name c l =
      { name, cls := c, subs := subElems k c.blockAttrs, kw := c.keyAttrs.map (fun f => upper f.name), isList := l } := by
  have hkey := keyed ho.members ho.value ho.user
  simp only [extract, ho.value, Bool.false_eq_true, if_false, hkey.kw, ho.blocks]
  rfl

theorem extract_plain {c : Cls} (ho : Regular c) (k : Nat) (name : Str) (l : Bool) :
    PlainElem (extract (k + 1) name c l) c := by
  rw [extract_ordinary ho]
  exact ⟨rfl, rfl, rfl⟩

theorem subElems_cons {k : Nat} {f : Field} {fs : List Field} {d : Cls} (ht : f.ty = .cls d) :
    subElems k (f :: fs) = extract k f.name d f.isList :: subElems k fs := by
  simp [subElems, ht, FTy.cls?]

theorem extract_name (k : Nat) (name : Str) (c : Cls) (l : Bool) : (extract k name c l).name = name := by
  cases k with
  | zero => rfl
  | succ k => simp only [extract]; split <;> rfl

theorem extract_isList (k : Nat) (name : Str) (c : Cls) (l : Bool) : (extract k name c l).isList = l := by
  cases k with
  | zero => rfl
  | succ k => simp only [extract]; split <;> rfl

theorem extract_user (k : Nat) (name : Str) (l : Bool) : extract (k + 1) name .UserDefinedType l =
    { name, cls := .UserDefinedType, subs := [], kw := [py "COMMENT", userPrefix], isList := l } := by
  have h1 : Cls.UserDefinedType.isValueClass = false := by decide +kernel
  have h2 : Cls.UserDefinedType.blockFields = [] := by decide +kernel
  have h3 : (ccsdsKwList .UserDefinedType).filter isUpper = [py "COMMENT", userPrefix] := by decide +kernel
  simp only [extract, h1, h2, h3]
  rfl

end Ndm

namespace Ndm

/-- A leaf element as the reader sees it. -/
structure LeafElem (k : Nat) (d : Cls) (s : Elem) : Prop where
  subs : s.subs = []
  cls : s.cls = d
  ident : isSpecialIdent d = false
  kw : s.kw ≠ [py "COMMENT"]
  claim : ∀ t, t ≠ py "COMMENT" → t ∈ s.kw → Claimed k d t
  pref : ∀ p, prefixOf d = some p → ∀ t, startsWith t p = true → Claimed k d t

theorem leaf_elem {k : Nat} {d : Cls} (hr : readable k d = true) (hb : d.blockAttrs = [])
    (hd : d.ownNotation = false ∨ d = .UserDefinedType) (name : Str) (l : Bool) : LeafElem k d (extract k name d l) := by
  obtain ⟨k, rfl⟩ : ∃ j, k = j + 1 := by
    cases k with
    | zero => simp [readable] at hr
    | succ j => exact ⟨j, rfl⟩
  rcases hd with hd | rfl
  · obtain ⟨ho, hkw, -⟩ := readable_split hr hd
    rw [if_pos hb] at hkw
    rw [extract_ordinary ho.toRegular]
    refine ⟨by simp [hb, subElems], rfl, ho.ident, ?_, ?_, ?_⟩
    · intro hc
      apply hkw
      have hkey := keyed ho.members ho.value ho.user
      simp only at hc
      cases hc' : d.keyAttrs with
      | nil => rw [hc'] at hc; simp at hc
      | cons f fs =>
        rw [hc'] at hc
        simp only [List.map_cons, List.cons.injEq, List.map_eq_nil_iff] at hc
        obtain ⟨h1, rfl⟩ := hc
        have hf := hkey.field f (by simp [hc'])
        cases hl : f.isList with
        | true => simp [(hf.list hl).1]
        | false => exact absurd (by rw [h1]; exact List.prefix_rfl) (hf.single hl).2.2.1
    · intro t htc ht
      left
      rw [claims_split hd, List.mem_append, List.mem_filter]
      exact .inl ⟨ht, by simpa using htc⟩
    · intro p hp
      rw [prefixOf_none ho.user] at hp
      cases hp
  · rw [extract_user]
    have hus : 0 < users (k + 1) .UserDefinedType := by
      simp [users, Cls.ownNotation]
    refine ⟨rfl, rfl, by decide, by simp, ?_, ?_⟩
    · intro t htc ht
      right
      simp only [List.mem_cons, List.not_mem_nil, or_false] at ht
      rcases ht with rfl | rfl
      · exact absurd rfl htc
      · exact ⟨hus, by decide⟩
    · intro p hp t ht
      right
      have : p = userPrefix := by
        have h2 : prefixOf .UserDefinedType = some userPrefix := rfl
        rw [h2] at hp
        exact (Option.some.inj hp).symm
      subst this
      exact ⟨hus, ht⟩

/-- What is proved for one class. -/
def Reads (A : Cls → Val → List Line → Prop) (k : Nat) (c : Cls) : Prop :=
  ∀ v ls, GoodOf Spelled A c v ls → ∀ name l post, (∀ m ∈ post, Claimed k c m.key → ∃ m' ∈ ls, m'.key = m.key) →
    (hasList k c = true → post = []) → (fragile k c = true → ∀ m ∈ post, ¬ Claimed k c m.key) →
    (c.ownNotation = true → l = false) →
    ItemRead k (extract k name c l) v ls post

theorem read_items {A} {k : Nat} {d : Cls} (hd : Reads A k d) (htidy : Tidy (claims k d) (users k d))
    (hlist : hasList k d = false) (hown : d.ownNotation = false) (hfr : fragile k d = false) (name : Str) {post : List Line}
    (hpost : ∀ m ∈ post, ¬ Claimed k d m.key) : ∀ {xs : List Val} {ls : List Line}, GoodItemsOf Spelled A d xs ls →
      ItemsRead k (extract k name d true) post xs ls := by
  intro xs
  induction xs with
  | nil => intro ls h; cases h; exact .nil
  | cons x xs ih =>
    intro ls h
    cases h with
    | @cons _ _ _ l ls hx hne hmono hxs =>
      refine .cons ?_ hne (ih hxs)
      apply hd x l hx
      · intro m hm hc
        rcases List.mem_append.mp hm with hm | hm
        · exact hmono m hm (htidy.noComment hc)
        · exact absurd hc (hpost m hm)
      · intro h; rw [hlist] at h; cases h
      · intro h; rw [hfr] at h; cases h
      · intro h; rw [hown] at h; cases h

theorem goodItems_truthy {A} (hA : SpecialReads A) {d : Cls} : ∀ {xs : List Val} {ls : List Line}, GoodItemsOf Spelled A d xs ls →
    ∀ x ∈ xs, x.truthy = true := by
  intro xs
  induction xs with
  | nil => intro ls _ x hx; simp at hx
  | cons y xs ih =>
    intro ls h x hx
    cases h with
    | @cons _ _ _ l ls hy hne hmono hxs =>
      rcases List.mem_cons.mp hx with rfl | hx
      · obtain ⟨vs, rfl⟩ := good_isObj hA hy
        rfl
      · exact ih hxs x hx

theorem goodBlocks_vals {A} (hA : SpecialReads A) : ∀ {fs : List Field} {vs : List (Str × Val)} {ls : List Line},
    GoodBlocksOf Spelled A fs vs ls → BlockVals fs vs := by
  intro fs
  induction fs with
  | nil => intro vs ls h; cases h; exact .nil
  | cons f fs ih =>
    intro vs ls h
    cases h with
    | absent hl ht hb h => exact .single hl (by simp) (ih h)
    | one hl ht hv h =>
      obtain ⟨vs, rfl⟩ := good_isObj hA hv
      exact .single hl (by simp) (ih h)
    | many hl ht hxn hv h => exact .list hl (goodItems_truthy hA hv) (ih h)

theorem read_blocks {A} (hA : SpecialReads A) {k : Nat}
    (ih : ∀ c, readable k c = true → Tidy (claims k c) (users k c) → Reads A k c) {post : List Line} :
    ∀ {fs : List Field} {vs : List (Str × Val)} {ls : List Line}, readableL k fs = true →
      Tidy (claimsL k fs) (usersL k fs) → GoodBlocksOf Spelled A fs vs ls →
      (∀ m ∈ post, ClaimedL k fs m.key → ∃ m' ∈ ls, m'.key = m.key) → (hasListL k fs = true → post = []) →
      (fragileL k fs = true → ∀ m ∈ post, ¬ ClaimedL k fs m.key) →
      SubsRead k (subElems k fs) (attachments fs vs) ls post (ClaimedL k fs) := by
  intro fs
  induction fs with
  | nil =>
    intro vs ls _ _ h _ _ _
    cases h
    exact subsRead_nil
  | cons f fs ihf =>
    intro vs ls hr htidy h hlater hlist hfrag
    obtain ⟨d, ht⟩ : ∃ d, f.ty = .cls d := by cases h <;> exact ⟨_, by assumption⟩
    obtain ⟨hd, hl1, hl2, hleaf, hrest⟩ := readableL_cons hr ht
    rw [claimsL_cons ht, usersL_cons ht] at htidy
    have hup : ∀ t, Claimed k d t ∨ ClaimedL k fs t → ClaimedL k (f :: fs) t := by
      rintro t ((h | ⟨h, h'⟩) | (h | ⟨h, h'⟩))
      · left; rw [claimsL_cons ht]; simp [h]
      · right; rw [usersL_cons ht]; exact ⟨by omega, h'⟩
      · left; rw [claimsL_cons ht]; simp [h]
      · right; rw [usersL_cons ht]; exact ⟨by omega, h'⟩
    have hreads := ih d hd htidy.left
    have hlistd : hasList k d = true → post = [] := fun h => hlist (by simp [hasListL, hasListBy, ht, h])
    have hlistf : f.isList = true → post = [] := fun h => hlist (by simp only [hasListL, hasListBy, h, Bool.true_or, Bool.or_true])
    have hlistL : hasListL k fs = true → post = [] := fun h => hlist (by
      have h' : hasListBy (hasList k) fs = true := h
      simp [hasListL, hasListBy, h'])
    have hfragd : fragile k d = true → ∀ m ∈ post, ¬ Claimed k d m.key := fun h m hm hc =>
      hfrag (by simp [fragileL, fragileBy, ht, h]) m hm (hup _ (.inl hc))
    have hfragL : fragileL k fs = true → ∀ m ∈ post, ¬ ClaimedL k fs m.key := fun h m hm hc =>
      hfrag (by
        have h' : fragileBy (fragile k) fs = true := h
        simp [fragileL, fragileBy, h']) m hm (hup _ (.inr hc))
    have hk0 : 0 < k := by
      cases k with
      | zero => simp [readable] at hd
      | succ j => omega
    -- the lines of the remaining blocks carry no keyword of this one
    have hother : ∀ {vs : List (Str × Val)} {ls : List Line}, GoodBlocksOf Spelled A fs vs ls → ∀ m ∈ ls, ¬ Claimed k d m.key := by
      intro vs ls h m hm hc
      rcases goodBlocks_claimed (good_claimed hA k) hrest h m hm with h' | h'
      · exact htidy.left.noComment hc h'
      · exact htidy.disj hc h'
    rw [subElems_cons ht]
    cases h with
    | @absent _ _ d' vs ls hl ht' hb h =>
      obtain rfl : d = d' := by rw [ht] at ht'; exact FTy.cls.inj ht'
      have hle := leaf_elem hd hb (hleaf hb) f.name f.isList
      have hnone : ∀ m ∈ ls ++ post, ¬ Claimed k d m.key := by
        intro m hm hc
        rcases List.mem_append.mp hm with hm | hm
        · exact hother h m hm hc
        · obtain ⟨m', hm', he⟩ := hlater m hm (hup _ (.inl hc))
          exact hother h m' hm' (he ▸ hc)
      have h1 : SubsRead k [extract k f.name d f.isList] [(f.name, .none)] [] (ls ++ post) (Claimed k d) := by
        have := subsRead_absent (n := k) (s := extract k f.name d f.isList) (post := ls ++ post) (avoid := Claimed k d)
          (by rw [extract_isList, hl]) hle.subs (by rw [hle.cls]; exact hle.ident) hle.kw hnone hle.claim
          (by rw [hle.cls]; exact hle.pref) hk0
        rw [extract_name] at this
        exact this
      have h2 := ihf hrest htidy.right h (fun m hm hc => by
        obtain ⟨m', hm', he⟩ := hlater m hm (hup _ (.inr hc))
        exact ⟨m', hm', he⟩) hlistL hfragL
      exact subsRead_cons h1 h2 hup (by simp)
    | @one _ _ d' v vs l ls hl ht' hv h =>
      obtain rfl : d = d' := by rw [ht] at ht'; exact FTy.cls.inj ht'
      obtain ⟨ws, rfl⟩ := good_isObj hA hv
      have hit : ItemRead k (extract k f.name d f.isList) (.obj d ws) l (ls ++ post) := by
        apply hreads _ l hv
        · intro m hm hc
          rcases List.mem_append.mp hm with hm | hm
          · exact absurd hc (hother h m hm)
          · obtain ⟨m', hm', he⟩ := hlater m hm (hup _ (.inl hc))
            rcases List.mem_append.mp hm' with hm' | hm'
            · exact ⟨m', hm', he⟩
            · exact absurd (he ▸ hc) (hother h m' hm')
        · intro hh
          rcases hl2 with rfl | ⟨h2, -⟩
          · cases h
            rw [hlistd hh]; rfl
          · rw [h2] at hh; cases hh
        · intro hh m hm
          rcases List.mem_append.mp hm with hm | hm
          · exact hother h m hm
          · exact hfragd hh m hm
        · intro _; exact hl
      have h1 : SubsRead k [extract k f.name d f.isList] [(f.name, .obj d ws)] l (ls ++ post) (Claimed k d) := by
        have := subsRead_item (avoid := Claimed k d) (by rw [extract_isList, hl]) hit
        rw [extract_name] at this
        exact this
      have hcl := good_claimed hA k d hd _ l hv
      have hb : ∀ m ∈ l, ¬ ClaimedL k fs m.key := by
        intro m hm hc
        rcases hcl m hm with h' | h'
        · exact htidy.right.noComment hc h'
        · exact htidy.disj h' hc
      have h2 := ihf hrest htidy.right h (fun m hm hc => by
        obtain ⟨m', hm', he⟩ := hlater m hm (hup _ (.inr hc))
        rcases List.mem_append.mp hm' with hm' | hm'
        · exact absurd (he ▸ hc) (hb m' hm')
        · exact ⟨m', hm', he⟩) hlistL hfragL
      exact subsRead_cons h1 h2 hup hb
    | @many _ _ d' xs vs l ls hl ht' hxn hv h =>
      obtain rfl : d = d' := by rw [ht] at ht'; exact FTy.cls.inj ht'
      have hpost := hlistf hl
      subst hpost
      have hnone : ∀ m ∈ ls ++ [], ¬ Claimed k d m.key := by
        intro m hm
        rw [List.append_nil] at hm
        exact hother h m hm
      have hits := read_items hreads htidy.left (hl1 hl).1.1 (hl1 hl).1.2 (hl1 hl).2 f.name hnone hv
      have hstop : xs = [] ∨ ls ++ [] ≠ [] → StopAt (extract k f.name d true) (ls ++ []) := by
        intro hcase
        have hb : d.blockAttrs = [] := by
          rcases hl2 with rfl | ⟨-, h2⟩
          · cases h
            rcases hcase with hx | hx
            · exact Classical.byContradiction fun hc => hxn hc hx
            · exact absurd rfl hx
          · exact h2 hl
        have hle := leaf_elem hd hb (hleaf hb) f.name true
        refine stopAt_leaf hle.subs (by rw [hle.cls]; exact hle.ident) hle.kw ?_ ?_
        · intro m hm hmc hmk
          exact hnone m hm (hle.claim _ hmc hmk)
        · intro p hp m hm
          rw [hle.cls] at hp
          cases hs : startsWith m.key p with
          | false => rfl
          | true => exact absurd (hle.pref p hp _ hs) (hnone m hm)
      have h1 : SubsRead k [extract k f.name d f.isList] (xs.map fun x => (f.name, x)) l (ls ++ []) (Claimed k d) := by
        have := subsRead_items (avoid := Claimed k d) (by rw [extract_isList]) hits hstop
        rw [extract_name] at this
        rw [hl]
        exact this
      have hcl := goodItems_claimed (P := fun t => t = py "COMMENT" ∨ Claimed k d t) (good_claimed hA k d hd) hv
      have hb : ∀ m ∈ l, ¬ ClaimedL k fs m.key := by
        intro m hm hc
        rcases hcl m hm with h' | h'
        · exact htidy.right.noComment hc h'
        · exact htidy.disj h' hc
      have h2 := ihf hrest htidy.right h (by simp) hlistL hfragL
      have ha : attachments (f :: fs) ((f.name, .list xs) :: vs) = (xs.map fun x => (f.name, x)) ++ attachments fs vs := by
        simp [attachments, hl]
      rw [ha]
      exact subsRead_cons h1 h2 hup hb

theorem attachments_ne {fs : List Field} {vs : List (Str × Val)} (h : BlockVals fs vs)
    (hany : fs.any (!·.isList) = true) : attachments fs vs ≠ [] := by
  induction h with
  | nil => simp at hany
  | @single f fs v vs hl hv h ih =>
    have ha : attachments (f :: fs) ((f.name, v) :: vs) = (f.name, v) :: attachments fs vs := by
      cases v <;> first | rfl | exact absurd rfl (hv _)
    rw [ha]; simp
  | @list f fs xs vs hl hx h ih =>
    simp only [List.any_cons, hl, Bool.not_true, Bool.false_or] at hany
    have := ih hany
    simp [attachments, hl, this]

theorem read_good {A} (hA : SpecialReads A) : ∀ (k : Nat) (c : Cls), readable k c = true →
    Tidy (claims k c) (users k c) → Reads A k c
  | 0, _, hr, _ => by simp [readable] at hr
  | k + 1, c, hr, htidy => by
    intro v ls h name l post hlater hlist hfrag hlown
    cases h with
    | special h =>
      have hown := hA.notation_ h
      have hk : 2 ≤ k := by
        simp only [readable, hown, Bool.true_and, Bool.not_true, Bool.false_and, Bool.or_false, decide_eq_true_eq] at hr
        exact hr
      obtain ⟨j, rfl⟩ : ∃ j, k = j + 2 := ⟨k - 2, by omega⟩
      rw [hlown hown]
      exact hA.read h name post hlater fun hu => hfrag (by simp [fragile, hown, hu])
    | @obj _ kvs bvs own ls hown hk hb hlaid =>
      obtain ⟨own₀, hk, hro⟩ := hk
      obtain ⟨ho, hleaf, hrl⟩ := readable_split hr hown
      rw [claims_split hown, users_split hown] at htidy
      have htidy' : Tidy ((c.keyAttrs.map fun f => upper f.name).filter (· != py "COMMENT") ++ claimsL k c.blockAttrs)
        (0 + usersL k c.blockAttrs) := by rw [Nat.zero_add]; exact htidy
      have hup : ∀ t, ClaimedL k c.blockAttrs t → Claimed (k + 1) c t := by
        rintro t (h | ⟨h, h'⟩)
        · left; rw [claims_split hown]; simp [h]
        · right; rw [users_split hown]; exact ⟨h, h'⟩
      have hupk : ∀ t, t ≠ py "COMMENT" → t ∈ c.keyAttrs.map (fun f => upper f.name) → Claimed (k + 1) c t := by
        intro t htc ht
        left
        rw [claims_split hown, List.mem_append, List.mem_filter]
        exact .inl ⟨ht, by simpa using htc⟩
      have hownk : ∀ t, t ≠ py "COMMENT" → t ∈ c.keyAttrs.map (fun f => upper f.name) → ¬ ClaimedL k c.blockAttrs t := by
        intro t htc ht hc
        exact htidy'.disj (t := t) (.inl (List.mem_filter.mpr ⟨ht, by simpa using htc⟩)) hc
      have hbv := goodBlocks_vals hA hb
      have hplain := extract_plain ho.toRegular k name l
      have hsub : (extract (k + 1) name c l).subs = subElems k c.blockAttrs := by rw [extract_ordinary ho.toRegular]
      refine item_of_parts_any ho.toRegular hplain hk hro hlaid ?_ (n := k) (avoid := ClaimedL k c.blockAttrs) ?_ ?_ hbv ?_
      · intro m hm hmc hmk
        rw [hplain.kw] at hmk
        have hno : ∀ m' ∈ ls, m'.key ≠ m.key := by
          intro m' hm' he
          rcases goodBlocks_claimed (good_claimed hA k) hrl hb m' hm' with h' | h'
          · exact hmc (he ▸ h')
          · exact hownk _ hmc hmk (he ▸ h')
        rcases List.mem_append.mp hm with hm | hm
        · exact absurd rfl (hno m hm)
        · obtain ⟨m', hm', he⟩ := hlater m hm (hupk _ hmc hmk)
          rcases List.mem_append.mp hm' with hm' | hm'
          · exact ⟨m', hm', he⟩
          · exact absurd he (hno m' hm')
      · rw [hsub]
        refine read_blocks hA (read_good hA k) hrl htidy'.right hb ?_ ?_ ?_
        · intro m hm hc
          obtain ⟨m', hm', he⟩ := hlater m hm (hup _ hc)
          rcases List.mem_append.mp hm' with hm' | hm'
          · exact absurd hc (he ▸ hownk m'.key (fun h => htidy'.right.noComment hc (he ▸ h)) (goodKeys_key hk m' (hro.mem.mpr hm')).1)
          · exact ⟨m', hm', he⟩
        · intro h
          exact hlist (by simpa [hasList, hown, hasListL] using h)
        · intro h m hm hc
          exact hfrag (by simpa [fragile, hown, fragileL] using h) m hm (hup _ hc)
      · intro m hm hc
        exact hownk m.key (htidy'.right.noComment hc) (goodKeys_key hk m (hro.mem.mpr hm)).1 hc
      · intro hown0
        by_cases hbl : c.blockAttrs = []
        · exfalso
          rw [if_pos hbl] at hleaf
          unfold Laid at hlaid
          rw [if_neg hleaf] at hlaid
          exact hlaid.2 hbl hown0
        · rw [if_neg hbl] at hleaf
          exact attachments_ne hbv hleaf

end Ndm
