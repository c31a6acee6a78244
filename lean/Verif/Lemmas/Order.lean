import Verif.SpecOrder
import Verif.Lemmas.WritePrefix
import Verif.Lemmas.AemWritable
import Verif.Lemmas.Writable

/-! The writer follows the order of the schema. -/

namespace Ndm

theorem lineOf_fill (k s : Str) (u : Option Str) : LineOf k (fillKvn k s u) := by
  unfold LineOf lineStart fillKvn
  cases u with
  | none => exact List.prefix_append _ _
  | some u =>
    dsimp only
    split
    · exact List.prefix_append _ _
    · simp only [List.append_assoc]
      exact ⟨_, by simp only [List.append_assoc]; rfl⟩

theorem special_lines {key : Str} {c : Cls} {vs : List (Str × Val)} {out ls : List Str} (hs : isSpecialOut c = true)
    (h : writeSpecial key c vs out = .ok ls) : BlockLines c ls := by
  have hd : c ∈ dataLineClasses := by
    simp only [isSpecialOut, Bool.or_eq_true, decide_eq_true_eq] at hs
    rcases hs with ((rfl | rfl) | rfl) | rfl <;> decide
  unfold writeSpecial at h
  split at h
  · unfold writeStateVector at h
    obtain ⟨l, -, h⟩ := bind_ok_iff.mp h
    cases h
    exact .line hd
  · split at h
    · unfold writeAttitude at h
      split at h
      · cases h
      · obtain ⟨_, -, h⟩ := bind_ok_iff.mp h
        obtain ⟨_, -, h⟩ := bind_ok_iff.mp h
        obtain ⟨_, -, h⟩ := bind_ok_iff.mp h
        obtain ⟨_, -, h⟩ := bind_ok_iff.mp h
        split at h
        · obtain ⟨l, -, h⟩ := bind_ok_iff.mp h
          cases h
          exact .line hd
        · cases h
    · split at h
      · unfold writeObservation at h
        obtain ⟨_, -, h⟩ := bind_ok_iff.mp h
        obtain ⟨_, -, h⟩ := bind_ok_iff.mp h
        cases h
        exact .line hd
      · rename_i h1 h2 h3
        have : c = .OemCovarianceMatrixType := by
          simp only [isSpecialOut, Bool.or_eq_true, decide_eq_true_eq] at hs
          rcases hs with ((h | h) | h) | h
          · exact absurd h h1
          · exact h
          · exact absurd h h3
          · exact absurd h h2
        subst this
        unfold writeCovariance at h
        obtain ⟨_, -, h⟩ := bind_ok_iff.mp h
        obtain ⟨comments, -, h⟩ := bind_ok_iff.mp h
        obtain ⟨ep, -, h⟩ := bind_ok_iff.mp h
        obtain ⟨frame, -, h⟩ := bind_ok_iff.mp h
        obtain ⟨rows, -, h⟩ := bind_ok_iff.mp h
        cases h
        refine .covariance (k := key) ?_ (lineOf_fill _ _ _) ?_
        · intro l hl
          obtain ⟨x, -, rfl⟩ := List.mem_map.mp hl
          exact lineOf_fill _ _ _
        · split
          · exact .inr ⟨_, rfl, lineOf_fill _ _ _⟩
          · exact .inl rfl

theorem value_lines {f : Field} {c : Cls} {vs : List (Str × Val)} {l : Str} (ht : f.ty = .cls c) (hm' : c.members = none) (hv : HasFields c.attrs vs)
    (h : writeValueObj f.name vs = .ok l) : FieldLines f [l] := by
  unfold writeValueObj at h
  obtain ⟨k, hk, h⟩ := bind_ok_iff.mp h
  obtain ⟨units, -, h⟩ := bind_ok_iff.mp h
  obtain ⟨value, -, h⟩ := bind_ok_iff.mp h
  have hl : LineOf k l := by
    split at h
    · obtain ⟨u, -, h⟩ := bind_ok_iff.mp h
      cases h
      exact lineOf_fill _ _ _
    · cases h
      exact lineOf_fill _ _ _
  unfold valueKey at hk
  split at hk
  · cases hk
    exact .keyword hl
  · rename_i n t rest he
    have hm : (n, t) ∈ vs.filter fun p => p.1 != py "value" && p.1 != py "units" := by rw [he]; exact List.mem_cons_self
    obtain ⟨hm, hn⟩ := List.mem_filter.mp hm
    obtain ⟨g, hg, hgn, -⟩ := hasFields_at hv hm
    refine .named (k := k) ht hm' hg ?_ hl
    rw [hgn]
    simpa using hn

theorem header_marked {c : Cls} {n : Str} (h : headerName c = some n) : c ∈ markedClasses ∧ n ∈ [py "META", py "DATA", py "COVARIANCE"] := by
  unfold headerName at h
  split at h <;> cases h <;> decide

theorem withHeader_lines {f : Field} {c : Cls} (ht : f.ty = .cls c) {bf af : Str → List Str} (hb : ∀ h, ∀ l ∈ bf h, l = [] ∨ l = beginLine h)
    (ha : ∀ h, ∀ l ∈ af h, l = [] ∨ l = endLine h) {body : List Str → Except PyErr (List Str)}
    (hbody : ∀ out o, body out = .ok o → ∃ ls, o = out ++ ls ∧ FieldLines f ls) {out o : List Str}
    (h : withHeader (headerName c) bf af out body = .ok o) : ∃ ls, o = out ++ ls ∧ FieldLines f ls := by
  unfold withHeader at h
  split at h
  · rename_i n hn
    obtain ⟨o1, h1, rfl⟩ := map_ok_iff.mp h
    obtain ⟨ls, rfl, hl⟩ := hbody _ _ h1
    obtain ⟨hc, hm⟩ := header_marked hn
    exact ⟨bf n ++ ls ++ af n, by simp, .marked ht hc hl hm (hb n) (ha n)⟩
  · exact hbody _ _ h

theorem parameter_lines {key : Str} (hk : key = py "user_defined") : ∀ {xs : List Val} {ls : List Str}, xs.mapM (writeUserDefined key) = .ok ls →
    ∀ l ∈ ls, ∃ p, LineOf (py "user_defined_" ++ p) l
  | [], ls, h => by cases h; simp
  | x :: xs, ls, h => by
    simp only [List.mapM_cons] at h
    obtain ⟨l, h1, h⟩ := bind_ok_iff.mp h
    obtain ⟨r, h2, h⟩ := bind_ok_iff.mp h
    cases h
    intro m hm
    rcases List.mem_cons.mp hm with rfl | hm
    · unfold writeUserDefined at h1
      split at h1
      · obtain ⟨t, -, h1⟩ := bind_ok_iff.mp h1
        split at h1
        · rename_i p
          obtain ⟨v, -, h1⟩ := bind_ok_iff.mp h1
          cases h1
          subst hk
          exact ⟨p, lineOf_fill _ _ _⟩
        · cases h1
      · cases h1
    · exact parameter_lines hk h2 m hm

theorem oneOf_obj {f : Field} {c : Cls} {vs : List (Str × Val)} (h : FieldOk f (.obj c vs)) : f.isList = false ∧ f.ty = .cls c ∧ c.members = none ∧ HasFields c.attrs vs := by
  cases h with
  | one hl ht _ =>
    refine ⟨hl, ?_, ?_, hasType_obj ht⟩ <;> generalize f.ty = ty at ht <;> cases ht
    · rfl
    · assumption

theorem list_ok {f : Field} {xs : List Val} (hf : FieldOk f (.list xs)) : f.isList = true ∧ AllHaveType f.ty xs := by
  cases hf with
  | list hl ha => exact ⟨hl, ha⟩
  | one _ ht _ =>
    generalize f.ty = ty at ht
    cases ht

theorem first_cls {f : Field} {x : Val} {rest : List Val} (ha : AllHaveType f.ty (x :: rest)) {bf af : Str → List Str} {out o : List Str}
    {k : List Str → Except PyErr (List Str)}
    (h : withHeader (headerOf x) bf af out (fun out => (collateObj f.name out x).bind k) = .ok o) :
    ∃ c, f.ty = .cls c ∧ c.members = none ∧ headerOf x = headerName c := by
  cases x with
  | obj c us =>
    refine ⟨c, ?_, ?_, rfl⟩ <;> generalize f.ty = ty at ha <;> cases ha with
    | cons hx _ => cases hx; first | rfl | assumption
  | _ => simp [headerOf, withHeader, collateObj, Except.bind] at h

mutual
theorem obj_order (key : Str) (out : List Str) : ∀ (v : Val) (c : Cls) (o : List Str), HasType (.cls c) v → collateObj key out v = .ok o →
    ∃ ls, o = out ++ ls ∧ BlockLines c ls
  | .obj d vs, c, o, ht, h => by
    have hc : c = d := by cases ht; rfl
    subst hc
    simp only [collateObj] at h
    split at h
    · rename_i hs
      obtain ⟨ls, hl, h⟩ := bind_ok_iff.mp h
      cases h
      exact ⟨ls, rfl, special_lines hs hl⟩
    · rename_i hs
      have hd : c ∉ dataLineClasses := by
        intro hd
        refine hs ?_
        simp only [dataLineClasses, List.mem_cons, List.not_mem_nil, or_false] at hd
        rcases hd with rfl | rfl | rfl | rfl <;> decide
      obtain ⟨o1, h1, h⟩ := bind_ok_iff.mp h
      obtain ⟨ls, rfl, hl⟩ := vars_order out vs c.attrs o1 (hasType_obj ht) h1
      cases h
      split
      · exact ⟨ls ++ [[]], by simp, .blank (.fields hd hl)⟩
      · exact ⟨ls, rfl, .fields hd hl⟩
  | .none, _, o, _, h => by simp [collateObj] at h
  | .str _, _, o, _, h => by simp [collateObj] at h
  | .int _, _, o, _, h => by simp [collateObj] at h
  | .dec _, _, o, _, h => by simp [collateObj] at h
  | .enum _ _, _, o, _, h => by simp [collateObj] at h
  | .list _, _, o, _, h => by simp [collateObj] at h

theorem vars_order (out : List Str) : ∀ (vs : List (Str × Val)) (fs : List Field) (o : List Str), HasFields fs vs → collateVars out vs = .ok o →
    ∃ ls, o = out ++ ls ∧ FieldsLines fs ls
  | [], fs, o, hf, h => by
    cases hf
    simp only [collateVars] at h
    cases h
    exact ⟨[], by simp, .nil⟩
  | (k, v) :: rest, fs, o, hf, h => by
    cases hf with
    | @cons f _ fs _ hv hr =>
    simp only [collateVars] at h
    obtain ⟨o1, h1, h⟩ := bind_ok_iff.mp h
    obtain ⟨a, rfl, ha⟩ := sub_order out v f o1 hv h1
    obtain ⟨b, rfl, hb⟩ := vars_order _ rest fs o hr h
    exact ⟨a ++ b, by simp, .cons ha hb⟩

theorem sub_order (out : List Str) : ∀ (v : Val) (f : Field) (o : List Str), FieldOk f v → collateSub f.name out v = .ok o →
    ∃ ls, o = out ++ ls ∧ FieldLines f ls
  | .str s, f, o, hf, h => by
    simp only [collateSub] at h
    cases h
    exact ⟨_, rfl, .keyword (lineOf_fill _ _ _)⟩
  | .int i, f, o, hf, h => by
    simp only [collateSub] at h
    cases h
    exact ⟨_, rfl, .keyword (lineOf_fill _ _ _)⟩
  | .dec d, f, o, hf, h => by
    simp only [collateSub] at h
    split at h
    · cases h
    · cases h
      exact ⟨_, rfl, .keyword (lineOf_fill _ _ _)⟩
  | .enum c v, f, o, hf, h => by
    simp only [collateSub] at h
    split at h
    · cases h
    · cases h
      exact ⟨_, rfl, .keyword (lineOf_fill _ _ _)⟩
  | .none, f, o, hf, h => by
    simp only [collateSub] at h
    split at h
    · cases h
    · cases h
      exact ⟨[], by simp, .absent⟩
  | .obj c vs, f, o, hf, h => by
    obtain ⟨hl, ht, hc, hv⟩ := oneOf_obj hf
    simp only [collateSub] at h
    refine withHeader_lines ht (fun h l hl => ?_) (fun h l hl => ?_) ?_ h
    · simp only [List.mem_cons, List.not_mem_nil, or_false] at hl
      exact hl.symm
    · simp only [List.mem_cons, List.not_mem_nil, or_false] at hl
      exact hl.symm
    · intro out o h
      split at h
      · cases h
      · split at h
        · obtain ⟨l, h1, h⟩ := bind_ok_iff.mp h
          cases h
          exact ⟨_, rfl, value_lines ht hc hv h1⟩
        · split at h
          · cases h
          · split at h
            · rename_i hs
              obtain ⟨ls, h1, h⟩ := bind_ok_iff.mp h
              cases h
              exact ⟨ls, rfl, .block ht hc hl (special_lines hs h1)⟩
            · rename_i hs
              have hd : c ∉ dataLineClasses := by
                intro hd
                refine hs ?_
                simp only [dataLineClasses, List.mem_cons, List.not_mem_nil, or_false] at hd
                rcases hd with rfl | rfl | rfl | rfl <;> decide
              obtain ⟨o1, h1, h⟩ := bind_ok_iff.mp h
              obtain ⟨ls, rfl, hls⟩ := vars_order out vs c.attrs o1 hv h1
              cases h
              split
              · exact ⟨ls ++ [[]], by simp, .block ht hc hl (.blank (.fields hd hls))⟩
              · exact ⟨ls, rfl, .block ht hc hl (.fields hd hls)⟩
  | .list [], f, o, hf, h => by
    simp only [collateSub] at h
    split at h
    · cases h
      exact ⟨[], by simp, .absent⟩
    · split at h
      · obtain ⟨ls, h1, h⟩ := bind_ok_iff.mp h
        cases h1
        cases h
        exact ⟨[], by simp, .absent⟩
      · cases h
        exact ⟨[], by simp, .absent⟩
  | .list (x :: rest), f, o, hf, h => by
    simp only [collateSub] at h
    split at h
    · rename_i hk
      cases h
      refine ⟨_, rfl, .comments hk fun l hl => ?_⟩
      obtain ⟨x, -, rfl⟩ := List.mem_map.mp hl
      exact lineOf_fill _ _ _
    · split at h
      · rename_i hk
        obtain ⟨ls, h1, h⟩ := bind_ok_iff.mp h
        cases h
        exact ⟨ls, rfl, .parameters hk (parameter_lines hk h1)⟩
      · obtain ⟨hl, ha⟩ := list_ok hf
        obtain ⟨c, ht, hc, hh⟩ := first_cls ha h
        rw [hh] at h
        rw [ht] at ha
        refine withHeader_lines (c := c) ht (fun h l hl => ?_) (fun h l hl => ?_) ?_ h
        · simp only [List.mem_cons, List.not_mem_nil, or_false] at hl
          tauto
        · simp only [List.mem_cons, List.not_mem_nil, or_false] at hl
          tauto
        · intro out o h
          obtain ⟨o1, h1, h⟩ := bind_ok_iff.mp h
          cases ha with
          | cons hx hr =>
          obtain ⟨a, rfl, hal⟩ := obj_order f.name out x c o1 hx h1
          obtain ⟨b, rfl, hbl⟩ := items_order f.name _ rest c o hr h
          exact ⟨a ++ b, by simp, .blocks ht hc hl (.cons hal hbl)⟩

theorem items_order (key : Str) (out : List Str) : ∀ (xs : List Val) (c : Cls) (o : List Str), AllHaveType (.cls c) xs → collateItems key out xs = .ok o →
    ∃ ls, o = out ++ ls ∧ BlocksLines c ls
  | [], c, o, _, h => by
    simp only [collateItems] at h
    cases h
    exact ⟨[], by simp, .nil⟩
  | x :: rest, c, o, ha, h => by
    cases ha with
    | cons hx hr =>
    simp only [collateItems] at h
    obtain ⟨o1, h1, h⟩ := bind_ok_iff.mp h
    obtain ⟨a, rfl, hal⟩ := obj_order key out x c o1 hx h1
    obtain ⟨b, rfl, hbl⟩ := items_order key _ rest c o hr h
    exact ⟨a ++ b, by simp, .cons hal hbl⟩
end

end Ndm
