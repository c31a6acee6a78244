import Verif.Lemmas.Additive
import Verif.Props.Segments
import Verif.Props.Blocks
import Verif.Lemmas.RewriteEph
import Verif.SpecNdm

/-! # C77: the parts of a message are written on their own -/

namespace Ndm

theorem kinds_written : ∀ c ∈ xmlTypes, ∃ n id version, c.metaName = some n ∧ n ≠ py "ndm" ∧ c.idVersion = some (id, version) := by
  intro c hc
  have : ∀ c ∈ xmlTypes, (∃ n ∈ messageTags, c.metaName = some n) ∧ c.idVersion.isSome = true := by decide
  obtain ⟨⟨n, hn, hm⟩, hi⟩ := this c hc
  obtain ⟨⟨id, version⟩, hi⟩ := Option.isSome_iff_exists.mp hi
  exact ⟨n, id, version, hm, by rintro rfl; exact absurd hn (by decide), hi⟩

/-- **C77.**  What is written for an item of a list (a segment, a manoeuvre, a line of data, a comment, a user-defined parameter) is the same in all messages and at all places:
a message is written as a beginning that does not depend on the items, the lines of the first item, those of the second and so on, and an end that
does not depend on the items either.  An exception is raised exactly if one of these parts raises it, the first one.

`o.path.key` is the list; `xs` is what is put in its place. -/
theorem C77_blocks_partial (key : Str) :
    ∃ block : Val → Except PyErr (List Str), ∀ (c : Cls) (vs : List (Str × Val)) (path : List Step) (d : Cls), c ∈ xmlTypes →
      ByAttributes path (.obj c vs) → ((Val.obj c vs).at (path ++ [.f key])).isSome →
      Apart key path (.obj c vs) →
      ∃ head tail : Except PyErr (List Str), ∀ (xs : List Val) (o : Val), xs ≠ [] → (∀ x ∈ xs, Item key d x) →
        assign key (.list xs) path (.obj c vs) = some o →
        kvnToString o = do
          let first ← head
          let blocks ← xs.mapM block
          let last ← tail
          return joinWith (py "\n") (first ++ blocks.flatten ++ last) := by
  refine ⟨itemLines key, fun c vs path d hc hp ha hn => ?_⟩
  obtain ⟨-, hobj, -⟩ := parts_additive (d := d) hp ha hn
  obtain ⟨head, tail, h⟩ := hobj []
  obtain ⟨n, id, version, hm, hne, hid⟩ := kinds_written c hc
  refine ⟨head.map ([fillKvn id version none] ++ ·), tail, fun xs o hxs hx ho => ?_⟩
  have hw : withParts key path (.obj c vs) xs = o := by simp only [withParts, ho, Option.getD_some]
  have hcls : ∃ ws, o = .obj c ws := by
    cases path with
    | nil =>
      simp only [assign, Option.some.injEq] at ho
      exact ⟨_, ho.symm⟩
    | cons s p =>
      cases s with
      | i n => exact absurd hp (by simp [ByAttributes])
      | f n =>
        simp only [assign] at ho
        split at ho
        · obtain ⟨w, -, rfl⟩ := Option.map_eq_some_iff.mp ho
          exact ⟨_, rfl⟩
        · cases ho
  obtain ⟨ws, rfl⟩ := hcls
  have hl : kvnLines (.obj c ws) = collateObj [] [fillKvn id version none] (.obj c ws) := by
    simp only [kvnLines, hm, hid, if_neg hne]
  have := h xs [fillKvn id version none] hxs hx
  dsimp only at this
  rw [hw] at this
  unfold kvnToString
  rw [hl, this]
  cases head with
  | error e => rfl
  | ok hd =>
    simp only [Except.map, Except.bind, bind]
    cases xs.mapM (itemLines key) with
    | error e => rfl
    | ok bs =>
      dsimp only
      cases tail with
      | error e => rfl
      | ok t => simp [pure, Except.pure]

theorem mapM_append_ok {f : Val → Except PyErr (List Str)} : ∀ {a b : List Val} {r : List (List Str)}, (a ++ b).mapM f = .ok r →
    ∃ r1 r2, a.mapM f = .ok r1 ∧ b.mapM f = .ok r2 ∧ r = r1 ++ r2
  | [], b, r, h => ⟨[], r, rfl, h, rfl⟩
  | x :: a, b, r, h => by
    simp only [List.cons_append, List.mapM_cons] at h
    obtain ⟨y, hy, h⟩ := bind_ok_iff.mp h
    obtain ⟨ys, hys, h⟩ := bind_ok_iff.mp h
    cases h
    obtain ⟨r1, r2, h1, h2, rfl⟩ := mapM_append_ok hys
    exact ⟨y :: r1, r2, by simp [List.mapM_cons, hy, h1, bind, Except.bind, pure, Except.pure], h2, rfl⟩

/-- **C77**, removing an item: if a message can be written, so it can without one of several items, and lines of the text, in one place, are removed. -/
theorem C77_removed_partial (key : Str) (c : Cls) (vs : List (Str × Val)) (path : List Step) (d : Cls)
    (hc : c ∈ xmlTypes) (hp : ByAttributes path (.obj c vs)) (ha : ((Val.obj c vs).at (path ++ [.f key])).isSome)
    (hn : Apart key path (.obj c vs)) (xs ys : List Val) (y : Val) (hne : xs ++ ys ≠ [])
    (hx : ∀ x ∈ xs ++ y :: ys, Item key d x) (o o' : Val) (ho : assign key (.list (xs ++ y :: ys)) path (.obj c vs) = some o)
    (ho' : assign key (.list (xs ++ ys)) path (.obj c vs) = some o') (text : Str) (hw : kvnToString o = .ok text) :
    ∃ before lines after : List Str, text = joinWith (py "\n") (before ++ lines ++ after) ∧
      kvnToString o' = .ok (joinWith (py "\n") (before ++ after)) := by
  obtain ⟨block, hB⟩ := C77_blocks_partial key
  obtain ⟨head, tail, h⟩ := hB c vs path d hc hp ha hn
  rw [h _ _ (by simp) hx ho] at hw
  obtain ⟨hd, h1, hw⟩ := bind_ok_iff.mp hw
  obtain ⟨bs, h2, hw⟩ := bind_ok_iff.mp hw
  obtain ⟨tl, h3, hw⟩ := bind_ok_iff.mp hw
  cases hw
  obtain ⟨r1, r2, e1, e2, rfl⟩ := mapM_append_ok h2
  obtain ⟨b, r3, e3, e4, rfl⟩ := mapM_append_ok (a := [y]) (b := ys) e2
  refine ⟨hd ++ r1.flatten, b.flatten, r3.flatten ++ tl, by simp, ?_⟩
  have hx' : ∀ x ∈ xs ++ ys, Item key d x := fun x hm => hx x (by
    rcases List.mem_append.mp hm with hm | hm <;> simp [hm])
  rw [h _ _ hne hx' ho', h1, h3]
  have : (xs ++ ys).mapM block = .ok (r1 ++ r3) := by
    rw [List.mapM_append, e1, e4]
    rfl
  rw [this]
  simp [bind, Except.bind, pure, Except.pure]

/-! ## Cases -/

theorem noQuaternions_of {v : Val} (h : (v.parts.all fun w => match w with | .obj .AttitudeStateType _ => false | _ => true) = true) :
    NoQuaternions v := by
  intro vs hw
  have := List.all_eq_true.mp h _ (within_parts hw)
  cases this

theorem apart_of_free {key : Str} : ∀ {path : List Step} {v : Val}, NoQuaternions v → Apart key path v
  | [], .obj _ _, h => fun p hp => .free (noQuaternions_obj h p (List.mem_of_mem_eraseP hp))
  | .f _ :: _, .obj _ _, h => ⟨fun p hp => .free (noQuaternions_obj h p (List.mem_of_mem_eraseP hp)), fun w hw => by
      obtain ⟨pre, post, rfl, -⟩ := lookupVar_split hw
      exact apart_of_free (noQuaternions_obj h (_, w) (List.mem_append_right _ List.mem_cons_self))⟩
  | .i _ :: _, .list _, h => ⟨fun x hx => .free (noQuaternions_list h x (List.mem_of_mem_eraseIdx hx)), fun w hw =>
      apart_of_free (noQuaternions_list h w (List.mem_of_getElem? hw))⟩
  | [], .none, _ | [], .str _, _ | [], .int _, _ | [], .dec _, _ | [], .enum _ _, _ | [], .list _, _ => trivial
  | .f _ :: _, .none, _ | .f _ :: _, .str _, _ | .f _ :: _, .int _, _ | .f _ :: _, .dec _, _ | .f _ :: _, .enum _ _, _ | .f _ :: _, .list _, _ => trivial
  | .i _ :: _, .none, _ | .i _ :: _, .str _, _ | .i _ :: _, .int _, _ | .i _ :: _, .dec _, _ | .i _ :: _, .enum _ _, _ | .i _ :: _, .obj _ _, _ => trivial

-- a conjunction with three segments, the second of which has more keywords
example : Cls.Cdm ∈ xmlTypes ∧ ByAttributes [.f (py "body")] (mkCdm []) ∧ ((mkCdm []).at [.f (py "body"), .f (py "segment")]).isSome ∧
    assign (py "segment") (.list []) [.f (py "body")] (mkCdm []) = some (mkCdm []) ∧ Apart (py "segment") [.f (py "body")] (mkCdm []) ∧
    assign (py "segment") (.list [cdmSegment [], cdmSegment [(py "gravity_model", S (py "EGM-96"))], cdmSegment []]) [.f (py "body")] (mkCdm []) =
      some (mkCdm [cdmSegment [], cdmSegment [(py "gravity_model", S (py "EGM-96"))], cdmSegment []]) ∧
    (∀ x ∈ [cdmSegment [], cdmSegment [(py "gravity_model", S (py "EGM-96"))]], Item (py "segment") .CdmSegment x) ∧
    (kvnToString (mkCdm [cdmSegment [], cdmSegment [(py "gravity_model", S (py "EGM-96"))], cdmSegment []])).isOk := by
  refine ⟨by decide, ⟨by decide, by decide, by decide, by decide, _, rfl, by decide, by decide⟩, by decide +kernel, by decide +kernel,
    apart_of_free (noQuaternions_of (by decide +kernel)), by decide +kernel, ?_, by decide +kernel⟩
  intro x hx
  simp only [List.mem_cons, List.not_mem_nil, or_false] at hx
  rcases hx with rfl | rfl
  · exact .obj (.free (noQuaternions_of (by decide +kernel)))
  · exact .obj (.free (noQuaternions_of (by decide +kernel)))

-- the comments of a header
example : ByAttributes [.f (py "header")] (mkCdm []) ∧ ((mkCdm []).at [.f (py "header"), .f (py "comment")]).isSome ∧
    Item (py "comment") .CdmHeader (.str (py "first")) ∧ Item (py "comment") .CdmHeader (.str (py "second")) ∧
    ((assign (py "comment") (.list [.str (py "first"), .str (py "second")]) [.f (py "header")] (mkCdm [cdmSegment [], cdmSegment []])).map fun o =>
      (kvnToString o).isOk) = some true :=
  ⟨⟨by decide, by decide, by decide, by decide, _, rfl, by decide, by decide⟩, by decide +kernel, .comment rfl, .comment rfl, by decide +kernel⟩

theorem quatMetadata (order : Str) (h : order = py "FIRST" ∨ order = py "LAST") : HasType (.cls .AemMetadata) (mkObj .AemMetadata [(py "object_name", S (py "A")), quatType order]) := by
  refine .obj rfl ?_
  have ho : FieldOk ⟨py "quaternion_type", some (py "QUATERNION_TYPE"), .elem, .cls .QuaternionTypeType, false, true⟩ (.enum .QuaternionTypeType order) :=
    .one rfl (.enum _ rfl (by rcases h with rfl | rfl; exacts [⟨py "FIRST_1", by decide⟩, ⟨py "LAST_1", by decide⟩])) (by intro h; cases h)
  repeat first
    | exact .nil
    | refine HasFields.cons (.list rfl .nil) ?_
    | refine HasFields.cons (.none rfl) ?_
    | refine HasFields.cons ho ?_
    | refine HasFields.cons (.one rfl (.str _) (by intro h; cases h)) ?_

theorem quatSegment_self (order epoch : Str) (h : order = py "FIRST" ∨ order = py "LAST") :
    SelfContained (quatSegment [quatType order] epoch) := by
  refine .typed (quatMetadata order h) (q := .enum .QuaternionTypeType order) ?_ (by simp)
  rcases h with rfl | rfl <;> decide +kernel

-- an attitude ephemeris with two segments that state different orders
example : ByAttributes [.f (py "body")] (aem header []) ∧ Apart (py "segment") [.f (py "body")] (aem header []) ∧
    Item (py "segment") .AemSegment (quatSegment [quatType (py "FIRST")] (py "2000-01-01")) ∧
    Item (py "segment") .AemSegment (quatSegment [quatType (py "LAST")] (py "2000-01-02")) ∧
    (kvnToString (aem header [quatSegment [quatType (py "FIRST")] (py "2000-01-01"), quatSegment [quatType (py "LAST")] (py "2000-01-02")])).isOk :=
  ⟨⟨by decide, by decide, by decide, by decide, _, rfl, by decide, by decide⟩, apart_of_free (noQuaternions_of (by decide +kernel)),
    .obj (quatSegment_self _ _ (.inl rfl)), .obj (quatSegment_self _ _ (.inr rfl)), by decide +kernel⟩

-- and the comments of its header
example : let o := aem header [quatSegment [quatType (py "FIRST")] (py "2000-01-01"), quatSegment [quatType (py "LAST")] (py "2000-01-02")]
    ByAttributes [.f (py "header")] o ∧ Apart (py "comment") [.f (py "header")] o ∧ (o.at [.f (py "header"), .f (py "comment")]).isSome := by
  refine ⟨⟨by decide, by decide, by decide, by decide, _, rfl, by decide, by decide⟩, ⟨fun p hp => ?_, fun w hw => ?_⟩, by decide +kernel⟩
  · simp only [List.eraseP_cons_of_pos, beq_self_eq_true, List.mem_singleton] at hp
    subst hp
    refine .obj (by decide) fun p hp => ?_
    simp only [List.mem_singleton] at hp
    subst hp
    refine .list fun x hx => ?_
    simp only [List.mem_cons, List.not_mem_nil, or_false] at hx
    rcases hx with rfl | rfl
    · exact quatSegment_self _ _ (.inl rfl)
    · exact quatSegment_self _ _ (.inr rfl)
  · cases hw
    exact apart_of_free (noQuaternions_of (by decide +kernel))

-- the states of one of the segments of an orbit ephemeris
example : let o := oem header [oemSegment (mkObj .OemMetadata []) (.list []) [] [], oemSegment (mkObj .OemMetadata []) (.list []) [] []]
    let path := [.f (py "body"), .f (py "segment"), .i 1, .f (py "data")]
    ByAttributes path o ∧ Apart (py "state_vector") path o ∧ (o.at (path ++ [.f (py "state_vector")])).isSome ∧
    Item (py "state_vector") .StateVectorAccType (mkObj .StateVectorAccType [(py "epoch", S (py "2000-01-01"))]) :=
  ⟨⟨by decide, by decide, by decide, by decide, _, rfl, by decide, by decide, by decide, by decide, _, rfl, _, rfl, by decide, by decide, by decide,
      by decide, _, rfl, by decide, by decide⟩,
    apart_of_free (noQuaternions_of (by decide +kernel)), by decide +kernel, .obj (.free (noQuaternions_of (by decide +kernel)))⟩

end Ndm
