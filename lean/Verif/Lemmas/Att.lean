import Verif.Lemmas.Erase
import Verif.Lemmas.User

/-! Attitude states: the line is read as a small message of its own. -/

namespace Ndm

/-! ### Quaternions and rotations -/

/-- Attributes holding plain numbers, as fields. -/
def decFields (as : List Str) (fs : List Field) : Bool :=
  match as, fs with
  | [], [] => true
  | a :: as, f :: fs => decide (f.name = a) && !f.isList && decide (f.ty = .dec) && decFields as fs
  | _, _ => false

theorem dec_keys : ∀ {as : List Str} {fs : List Field}, decFields as fs = true → ∀ {ts : List Str} {ds : List Dec},
    List.Forall₂ Spells ts ds → ds.length = as.length →
    KeysOf KeyText fs (as.zip ds |>.map fun p => (p.1, .dec p.2)) (as.zip ts |>.map fun p => [upper p.1, p.2])
  | [], [], _, ts, ds, _, hd => by
    have : ds = [] := List.eq_nil_of_length_eq_zero (by simpa using hd)
    subst this
    exact .nil
  | [], _ :: _, h, _, _, _, _ => by cases h
  | _ :: _, [], h, _, _, _, _ => by cases h
  | a :: as, f :: fs, h, ts, ds, hs, hd => by
    simp only [decFields, Bool.and_eq_true, decide_eq_true_eq, Bool.not_eq_true'] at h
    obtain ⟨⟨⟨h1, h2⟩, h3⟩, h4⟩ := h
    cases hs with
    | nil => simp at hd
    | @cons t d ts ds ht hs =>
      have := dec_keys h4 hs (by simpa using hd)
      have := KeysOf.value h2 (KeyText.dec (f := f) (d := d) h3 ht.1 ht.2) this
      rw [h1] at this
      exact this

theorem quat_regular : Regular .QuaternionType := regular_iff (by decide +kernel)
theorem quat_facts : decFields [py "qc", py "q1", py "q2", py "q3"] (Cls.keyAttrs .QuaternionType) = true ∧
    Cls.blockAttrs .QuaternionType = [] ∧ (Cls.keyAttrs .QuaternionType).map (·.name) ≠ [py "comment"] ∧
    Cls.keywords .QuaternionType = [py "QC", py "Q1", py "Q2", py "Q3"] := by decide +kernel

/-- The labels of the components of a quaternion. -/
def quatLabels (q : Str) : List Str :=
  if q = py "FIRST" then [py "QC", py "Q1", py "Q2", py "Q3"] else [py "Q1", py "Q2", py "Q3", py "QC"]

/-- The components of a quaternion and their texts, by order. -/
theorem quaternion_texts {qc q1 q2 q3 : Dec} {q : Str} {ds : List Dec} (h : QuaternionOrder qc q1 q2 q3 q ds) {ts : List Str}
    (hs : List.Forall₂ Spells ts ds) : ∃ tc t1 t2 t3, List.Forall₂ Spells [tc, t1, t2, t3] [qc, q1, q2, q3] ∧
      (q = py "FIRST" ∧ ts = [tc, t1, t2, t3] ∨ q = py "LAST" ∧ ts = [t1, t2, t3, tc]) := by
  cases h with
  | first =>
    cases hs with
    | cons h1 hs => cases hs with
      | cons h2 hs => cases hs with
        | cons h3 hs => cases hs with
          | cons h4 hs =>
            cases hs
            exact ⟨_, _, _, _, .cons h1 (.cons h2 (.cons h3 (.cons h4 .nil))), .inl ⟨rfl, rfl⟩⟩
  | last =>
    cases hs with
    | cons h1 hs => cases hs with
      | cons h2 hs => cases hs with
        | cons h3 hs => cases hs with
          | cons h4 hs =>
            cases hs
            exact ⟨_, _, _, _, .cons h4 (.cons h1 (.cons h2 (.cons h3 .nil))), .inr ⟨rfl, rfl⟩⟩

theorem three_texts {ts : List Str} {d₁ d₂ d₃ : Dec} (hs : List.Forall₂ Spells ts [d₁, d₂, d₃]) :
    ∃ t₁ t₂ t₃, ts = [t₁, t₂, t₃] ∧ Spells t₁ d₁ ∧ Spells t₂ d₂ ∧ Spells t₃ d₃ := by
  cases hs with
  | cons h1 hs => cases hs with
    | cons h2 hs => cases hs with
      | cons h3 hs =>
        cases hs
        exact ⟨_, _, _, rfl, h1, h2, h3⟩

theorem read_quaternion {qc q1 q2 q3 : Dec} {q : Str} {ds : List Dec} (h : QuaternionOrder qc q1 q2 q3 q ds) {ts : List Str}
    (hs : List.Forall₂ Spells ts ds) {post : List Line}
    (hpost : ∀ l ∈ post, l.key ∉ Cls.keywords .QuaternionType) (k : Nat) (name : Str) (il : Bool) :
    ItemRead 1 (extract (k + 1) name .QuaternionType il) (quaternion qc q1 q2 q3) (zipLines (quatLabels q) ts) post := by
  have hp := extract_plain quat_regular k name il
  obtain ⟨tc, t1, t2, t3, hsp, hcase⟩ := quaternion_texts h hs
  have hk : KeysOf KeyText (Cls.keyAttrs .QuaternionType)
      [(py "qc", .dec qc), (py "q1", .dec q1), (py "q2", .dec q2), (py "q3", .dec q3)]
      [[py "QC", tc], [py "Q1", t1], [py "Q2", t2], [py "Q3", t3]] := by
    have h := dec_keys quat_facts.1 hsp rfl
    have hu : upper (py "qc") = py "QC" ∧ upper (py "q1") = py "Q1" ∧ upper (py "q2") = py "Q2" ∧ upper (py "q3") = py "Q3" := by
      decide
    simp only [List.zip_cons_cons, List.zip_nil_left, List.map_cons, List.map_nil, hu.1, hu.2.1, hu.2.2.1, hu.2.2.2] at h
    exact h
  have hsubs : (extract (k + 1) name .QuaternionType il).subs = [] := by
    rw [extract_ordinary quat_regular, quat_facts.2.1]
    rfl
  have hlines : ∃ own, own = zipLines (quatLabels q) ts ∧
      Reordered [[py "QC", tc], [py "Q1", t1], [py "Q2", t2], [py "Q3", t3]] own ∧
      own.getLast?.map Line.key ≠ some (py "COMMENT") ∧ own ≠ [] := by
    rcases hcase with ⟨rfl, rfl⟩ | ⟨rfl, rfl⟩
    · exact ⟨[[py "QC", tc], [py "Q1", t1], [py "Q2", t2], [py "Q3", t3]], rfl, .refl _,
        by simp [Line.key], by simp⟩
    · refine ⟨[[py "Q1", t1], [py "Q2", t2], [py "Q3", t3], [py "QC", tc]], rfl, ?_, ?_, by simp⟩
      · intro t
        by_cases h0 : t = py "QC"
        · subst h0; rfl
        · have hqc : ∀ d : Str, (Line.key [py "QC", d] == t) = false := by
            intro d
            simp only [Line.key, List.headD_cons, beq_eq_false_iff_ne, ne_eq]
            exact fun h => h0 h.symm
          have e1 : [[py "QC", tc], [py "Q1", t1], [py "Q2", t2], [py "Q3", t3]] =
            [[py "QC", tc]] ++ [[py "Q1", t1], [py "Q2", t2], [py "Q3", t3]] := rfl
          have e2 : [[py "Q1", t1], [py "Q2", t2], [py "Q3", t3], [py "QC", tc]] =
            [[py "Q1", t1], [py "Q2", t2], [py "Q3", t3]] ++ [[py "QC", tc]] := rfl
          rw [e1, e2, List.filter_append, List.filter_append]
          have : [[py "QC", tc]].filter (fun l => Line.key l == t) = [] := by
            rw [List.filter_cons_of_neg (by rw [hqc]; simp)]; rfl
          rw [this]; simp
      · simp [Line.key]
  obtain ⟨own, hown, hro, hlast, hne⟩ := hlines
  rw [← hown]
  have := item_of_parts_any quat_regular hp (bvs := []) (own := own) (bls := []) (post := post) (n := 0)
    (avoid := fun _ => False) hk hro ?_ ?_ ?_ (by simp) ?_ ?_
  · have e : own ++ ([] : List Line) = own := List.append_nil _
    rw [← e]
    exact this
  · unfold Laid
    rw [if_neg quat_facts.2.2.1]
    exact ⟨hlast, fun _ => hne⟩
  · intro m hm _ hkw
    exfalso
    refine hpost m (by simpa using hm) ?_
    rw [hp.kw] at hkw
    exact hkw
  · rw [hsubs, quat_facts.2.1]
    exact subsRead_nil
  · rw [quat_facts.2.1]; exact .nil
  · intro h; exact absurd h hne

theorem axis_angle {c a : Char} (h : Axis c a) : ∃ m, (m, a :: py "_ANGLE") ∈ (Cls.AngleKeywordType.members.getD []) := by
  cases h
  · exact ⟨py "X_ANGLE", by decide +kernel⟩
  · exact ⟨py "Y_ANGLE", by decide +kernel⟩
  · exact ⟨py "Z_ANGLE", by decide +kernel⟩

theorem axis_rate {c a : Char} (h : Axis c a) : ∃ m, (m, a :: py "_RATE") ∈ (Cls.AngleRateKeywordType.members.getD []) := by
  cases h
  · exact ⟨py "X_RATE", by decide +kernel⟩
  · exact ⟨py "Y_RATE", by decide +kernel⟩
  · exact ⟨py "Z_RATE", by decide +kernel⟩

theorem some_members {c : Cls} (h : c.members.isSome = true) : c.members = some (c.members.getD []) := by
  cases hc : c.members with
  | none => rw [hc] at h; cases h
  | some ms => rfl

theorem angles_rotations {q : Str} {a₁ a₂ a₃ : Char} (h : Axes q a₁ a₂ a₃) {d₁ d₂ d₃ : Dec} {t₁ t₂ t₃ : Str}
    (s₁ : Spells t₁ d₁) (s₂ : Spells t₂ d₂) (s₃ : Spells t₃ d₃) :
    RotationsOf .RotationAngleType (RotationText .RotationAngleComponentType .AngleKeywordType .AngleUnits (py "angle"))
      (rotationAngles a₁ a₂ a₃ d₁ d₂ d₃)
      (zipLines [a₁ :: py "_ANGLE", a₂ :: py "_ANGLE", a₃ :: py "_ANGLE"] [t₁, t₂, t₃]) := by
  cases h with
  | mk h1 h2 h3 =>
    have one : ∀ {c a : Char} {d : Dec} {t : Str}, Spells t d → Axis c a →
        RotationText .RotationAngleComponentType .AngleKeywordType .AngleUnits (py "angle")
        (.obj .RotationAngleComponentType
          [(py "value", .dec d), (py "angle", .enum .AngleKeywordType (a :: py "_ANGLE")), (py "units", .none)])
        [a :: py "_ANGLE", t] := by
      intro c a d t hs h
      obtain ⟨m, hm⟩ := axis_angle h
      exact .number (some_members (by decide +kernel)) hm hs.1 hs.2
    exact .mk (one s₁ h1) (one s₂ h2) (one s₃ h3)

theorem rates_rotations {q : Str} {a₁ a₂ a₃ : Char} (h : Axes q a₁ a₂ a₃) {d₁ d₂ d₃ : Dec} {t₁ t₂ t₃ : Str}
    (s₁ : Spells t₁ d₁) (s₂ : Spells t₂ d₂) (s₃ : Spells t₃ d₃) :
    RotationsOf .RotationRateType (RotationText .RotationRateComponentType .AngleRateKeywordType .AngleRateUnits (py "rate"))
      (rotationRates a₁ a₂ a₃ d₁ d₂ d₃)
      (zipLines [a₁ :: py "_RATE", a₂ :: py "_RATE", a₃ :: py "_RATE"] [t₁, t₂, t₃]) := by
  cases h with
  | mk h1 h2 h3 =>
    have one : ∀ {c a : Char} {d : Dec} {t : Str}, Spells t d → Axis c a →
        RotationText .RotationRateComponentType .AngleRateKeywordType .AngleRateUnits (py "rate") (.obj .RotationRateComponentType
          [(py "value", .dec d), (py "rate", .enum .AngleRateKeywordType (a :: py "_RATE")), (py "units", .none)])
        [a :: py "_RATE", t] := by
      intro c a d t hs h
      obtain ⟨m, hm⟩ := axis_rate h
      exact .number (some_members (by decide +kernel)) hm hs.1 hs.2
    exact .mk (one s₁ h1) (one s₂ h2) (one s₃ h3)

/-! ### The four attitude elements -/

/-- An epoch followed by nested objects. -/
theorem read_withEpoch {c : Cls} (ho : Regular c) (hk : epochFields [] c.keyAttrs = true) {ds : List (Str × Cls × Bool)}
    (hb : blocksAre c.blockAttrs ds = true) {bvs : List (Str × Val)} {bls : List Line} {n k : Nat}
    (hparts : PartsRead n k [] ds bvs bls) (hlater : ∀ l ∈ bls, l.key ≠ py "EPOCH") {e : Str} (he : XmlText e) (name : Str)
    (il : Bool) : ItemRead (n + 1) (extract (k + 1) name c il) (.obj c ((py "epoch", .str e) :: bvs)) ([py "EPOCH", e] :: bls) [] := by
  have hp := extract_plain ho k name il
  have hkeys := epoch_keys hk he .nil (by simp)
  have hone : ∃ f, c.keyAttrs = [f] ∧ f.name = py "epoch" := by
    generalize c.keyAttrs = fs at hk
    cases fs with
    | nil => cases hk
    | cons f fs =>
      simp only [epochFields, Bool.and_eq_true, decide_eq_true_eq] at hk
      cases fs with
      | nil => exact ⟨f, rfl, hk.1.1.1⟩
      | cons g gs => exact absurd hk.2 (by simp [numberFields])
  obtain ⟨f, hf, hfn⟩ := hone
  have hkw : c.keyAttrs.map (fun f => upper f.name) = [py "EPOCH"] := by
    rw [hf, List.map_singleton, hfn]; decide
  rw [hkw] at hkeys
  obtain ⟨hsubs, hbv⟩ := parts_subs hb hparts
  have := item_of_parts ho hp hkeys (bvs := bvs) (bls := bls) (post := []) (n := n) (avoid := fun _ => False) ?_ ?_ ?_ (by simp) hbv ?_
  · exact this
  · unfold Laid
    rw [if_neg (by rw [hf, List.map_singleton, hfn]; decide)]
    exact ⟨by simp [zipLines, Line.key], fun _ => by simp [zipLines]⟩
  · intro m hm _ hmk
    rw [hp.kw, hkw] at hmk
    simp only [List.mem_singleton] at hmk
    exact absurd hmk (hlater m (by simpa using hm))
  · rw [extract_ordinary ho]
    exact hsubs
  · intro h
    simp [zipLines] at h

theorem quatLines_key (q : Str) (ts : List Str) : ∀ l ∈ zipLines (quatLabels q) ts, l.key ≠ py "EPOCH" := by
  intro l hl
  obtain ⟨⟨k, t⟩, hp, rfl⟩ := List.mem_map.mp hl
  have hk : k ∈ quatLabels q := (List.of_mem_zip hp).1
  have : k ∈ [py "QC", py "Q1", py "Q2", py "Q3"] := by
    unfold quatLabels at hk
    split at hk
    · exact hk
    · revert hk
      simp only [List.mem_cons, List.not_mem_nil, or_false]
      rintro (h | h | h | h) <;> simp [h]
  intro he
  have he' : k = py "EPOCH" := he
  rw [he'] at this
  revert this; decide

theorem angle_key {c : Char} {a : Char} (h : Axis c a) (s : Str) :
    Line.key [a :: py "_ANGLE", s] ≠ py "EPOCH" ∧ Line.key [a :: py "_RATE", s] ≠ py "EPOCH" ∧
      Line.key [a :: py "_RATE", s] ∉ [py "QC", py "Q1", py "Q2", py "Q3"] := by
  cases h <;> refine ⟨?_, ?_, ?_⟩ <;> simp only [Line.key, List.headD_cons] <;> decide

theorem angles_key {q : Str} {a₁ a₂ a₃ : Char} (h : Axes q a₁ a₂ a₃) (d₁ d₂ d₃ : Str) :
    ∀ l ∈ zipLines [a₁ :: py "_ANGLE", a₂ :: py "_ANGLE", a₃ :: py "_ANGLE"] [d₁, d₂, d₃], l.key ≠ py "EPOCH" := by
  cases h with
  | mk h1 h2 h3 =>
    intro l hl
    simp only [zipLines, List.zip_cons_cons, List.zip_nil_left, List.map_cons, List.map_nil, List.mem_cons, List.not_mem_nil,
      or_false] at hl
    rcases hl with rfl | rfl | rfl
    · exact (angle_key h1 _).1
    · exact (angle_key h2 _).1
    · exact (angle_key h3 _).1

theorem rates_not_angles {q : Str} {a₁ a₂ a₃ : Char} (h : Axes q a₁ a₂ a₃) (d₁ d₂ d₃ : Str) :
    ∀ l ∈ zipLines [a₁ :: py "_RATE", a₂ :: py "_RATE", a₃ :: py "_RATE"] [d₁, d₂, d₃], l.key ∉ angleTags := by
  intro l hl
  simp only [zipLines, List.zip_cons_cons, List.zip_nil_left, List.map_cons, List.map_nil, List.mem_cons, List.not_mem_nil,
    or_false] at hl
  rcases hl with rfl | rfl | rfl <;>
  · simp only [angleTags, List.mem_cons, List.not_mem_nil, or_false, not_or]
    refine ⟨?_, ?_, ?_⟩ <;> exact fun h => nomatch (List.cons.inj h).2

theorem rates_key {q : Str} {a₁ a₂ a₃ : Char} (h : Axes q a₁ a₂ a₃) (d₁ d₂ d₃ : Str) :
    ∀ l ∈ zipLines [a₁ :: py "_RATE", a₂ :: py "_RATE", a₃ :: py "_RATE"] [d₁, d₂, d₃], l.key ≠ py "EPOCH" ∧
      l.key ∉ [py "QC", py "Q1", py "Q2", py "Q3"] := by
  cases h with
  | mk h1 h2 h3 =>
    intro l hl
    simp only [zipLines, List.zip_cons_cons, List.zip_nil_left, List.map_cons, List.map_nil, List.mem_cons, List.not_mem_nil,
      or_false] at hl
    rcases hl with rfl | rfl | rfl
    · exact (angle_key h1 _).2
    · exact (angle_key h2 _).2
    · exact (angle_key h3 _).2

theorem qe_facts : Cls.regularB .QuaternionEphemerisType = true ∧ epochFields [] (Cls.keyAttrs .QuaternionEphemerisType) = true ∧
    blocksAre (Cls.blockAttrs .QuaternionEphemerisType) [(py "quaternion", .QuaternionType, false)] = true := by decide +kernel
theorem qr_facts : Cls.regularB .QuaternionEulerRateType = true ∧ epochFields [] (Cls.keyAttrs .QuaternionEulerRateType) = true ∧
    blocksAre (Cls.blockAttrs .QuaternionEulerRateType)
      [(py "quaternion", .QuaternionType, false), (py "rotation_rates", .RotationRateType, false)] = true := by decide +kernel
theorem ea_facts : Cls.regularB .EulerAngleType = true ∧ epochFields [] (Cls.keyAttrs .EulerAngleType) = true ∧
    blocksAre (Cls.blockAttrs .EulerAngleType) [(py "rotation_angles", .RotationAngleType, false)] = true := by decide +kernel
theorem er_facts : Cls.regularB .EulerAngleRateType = true ∧ epochFields [] (Cls.keyAttrs .EulerAngleRateType) = true ∧
    blocksAre (Cls.blockAttrs .EulerAngleRateType)
      [(py "rotation_angles", .RotationAngleType, false), (py "rotation_rates", .RotationRateType, false)] = true := by
  decide +kernel

/-! ### What the declaration selects -/

/-- The attribute of the attitude state selected by the declaration. -/
def AttitudeDecl.attr (D : AttitudeDecl) : Str := ((attTypes.find? (·.1 == D.type)).map (·.2)).getD []

/-- The keywords of the numbers of an attitude line. -/
def AttitudeDecl.labels (D : AttitudeDecl) : List Str :=
  (if startsWith D.type (py "QUATERNION") then quaternionTemplate D.type D.quaternion else []) ++
  (if startsWith D.type (py "EULER") || endsWith D.type (py "RATE") then
    match eulerTemplate D.type D.rotations with
    | .ok l => l
    | .error _ => []
   else [])

theorem axis_id {c a : Char} (h : Axis c a) (s : Str) : eulerId s c = .ok (a :: s) := by
  cases h <;> rfl

theorem axes_ids {q : Str} {a₁ a₂ a₃ : Char} (h : Axes q a₁ a₂ a₃) (s : Str) :
    q.mapM (eulerId s) = .ok [a₁ :: s, a₂ :: s, a₃ :: s] := by
  cases h with
  | mk h1 h2 h3 =>
    simp only [List.mapM_cons, List.mapM_nil, axis_id h1, axis_id h2, axis_id h3, bind, Except.bind, pure, Except.pure]

/-- The template of the lines of a segment, if its metadata make the declaration. -/
theorem attTemplate_of {D : AttitudeDecl} {e : Str} {ds : List Dec} {v : Val} (ha : Attitude D e ds v) {keys : List Str}
    {lines : List Line} {start : Nat} (h1 : metaValue (py "ATTITUDE_TYPE") keys lines start = .ok D.type)
    (h2 : D.type ∈ [py "QUATERNION", py "QUATERNION/RATE"] → metaValue (py "QUATERNION_TYPE") keys lines start = .ok D.quaternion)
    (h3 : D.type ∈ [py "QUATERNION/RATE", py "EULER_ANGLE", py "EULER_ANGLE/RATE"] →
      metaValue (py "EULER_ROT_SEQ") keys lines start = .ok D.rotations) :
    attTemplate keys lines start = .ok (py "EPOCH" :: D.labels, some D.attr) := by
  obtain ⟨ty, q, r⟩ := D
  simp only at h1 h2 h3
  unfold attTemplate quaternionPart eulerPart AttitudeDecl.labels AttitudeDecl.attr
  simp only [h1, bind, Except.bind]
  cases ha with
  | quaternion ht _ =>
    simp only at ht
    subst ht
    simp only [h2 (by simp)]
    rfl
  | quaternionRate ht _ hx =>
    simp only at ht hx
    subst ht
    simp only [h2 (by simp), h3 (by simp), eulerTemplate, bind, Except.bind]
    have e1 : startsWith (py "QUATERNION/RATE") (py "EULER") = false := by decide
    have e2 : endsWith (py "QUATERNION/RATE") (py "RATE") = true := by decide
    have e3 : startsWith (py "QUATERNION/RATE") (py "QUATERNION") = true := by decide
    have e4 : (attTypes.find? (·.1 == py "QUATERNION/RATE")).map (·.2) = some (py "quaternion_euler_rate") := by decide
    simp only [e1, e2, e3, e4, axes_ids hx, if_true, Bool.or_true, Bool.false_eq_true, if_false, pure, Except.pure, List.mapM_nil,
      Option.getD_some]
  | eulerAngle ht hx =>
    simp only at ht hx
    subst ht
    simp only [h3 (by simp), eulerTemplate, bind, Except.bind]
    have e1 : startsWith (py "EULER_ANGLE") (py "EULER") = true := by decide
    have e2 : endsWith (py "EULER_ANGLE") (py "RATE") = false := by decide
    have e3 : startsWith (py "EULER_ANGLE") (py "QUATERNION") = false := by decide
    have e4 : (attTypes.find? (·.1 == py "EULER_ANGLE")).map (·.2) = some (py "euler_angle") := by decide
    simp only [e1, e2, e3, e4, axes_ids hx, if_true, Bool.true_or, Bool.false_eq_true, if_false, pure, Except.pure, List.mapM_nil,
      Option.getD_some]
  | eulerAngleRate ht hx =>
    simp only at ht hx
    subst ht
    simp only [h3 (by simp), eulerTemplate, bind, Except.bind]
    have e1 : startsWith (py "EULER_ANGLE/RATE") (py "EULER") = true := by decide
    have e2 : endsWith (py "EULER_ANGLE/RATE") (py "RATE") = true := by decide
    have e3 : startsWith (py "EULER_ANGLE/RATE") (py "QUATERNION") = false := by decide
    have e4 : (attTypes.find? (·.1 == py "EULER_ANGLE/RATE")).map (·.2) = some (py "euler_angle_rate") := by decide
    simp only [e1, e2, e3, e4, axes_ids hx, if_true, Bool.true_or, Bool.false_eq_true, if_false, pure, Except.pure,
      Option.getD_some]

/-- The element of attitude states in the tree of an AEM. -/
def attE : Elem := extract 6 (py "attitude_state") .AttitudeStateType true

mutual
/-- Neither AEM segments nor attitude states within. -/
def Elem.free : Elem → Bool
  | ⟨_, cls, subs, _, _, _, _, _⟩ => decide (cls ≠ .AemSegment) && decide (cls ≠ .AttitudeStateType) && Elem.freeAll subs
def Elem.freeAll : List Elem → Bool
  | [] => true
  | s :: ss => s.free && Elem.freeAll ss
end

theorem freeAll_mem {ss : List Elem} (h : Elem.freeAll ss = true) : ∀ s ∈ ss, s.free = true := by
  induction ss with
  | nil => simp
  | cons s ss ih =>
    simp only [Elem.freeAll, Bool.and_eq_true] at h
    intro t ht
    rcases List.mem_cons.mp ht with rfl | ht
    · exact h.1
    · exact ih h.2 t ht

theorem freeN_of_free : ∀ (n : Nat) (e : Elem), e.free = true → FreeN n e
  | 0, _, _ => trivial
  | n + 1, e, h => by
    cases e
    simp only [Elem.free, Bool.and_eq_true, decide_eq_true_eq] at h
    exact ⟨h.1.1, h.1.2, fun s hs => freeN_of_free n s (freeAll_mem h.2 s hs)⟩

/-- The class of the attitude element selected. -/
def attClass (t : Str) : Cls :=
  if t = py "QUATERNION" then .QuaternionEphemerisType
  else if t = py "QUATERNION/RATE" then .QuaternionEulerRateType
  else if t = py "EULER_ANGLE" then .EulerAngleType
  else .EulerAngleRateType

theorem attE_subs : attE.subs = [extract 5 (py "quaternion_state") .QuaternionEphemerisType false,
    extract 5 (py "quaternion_derivative") .QuaternionDerivativeType false,
    extract 5 (py "quaternion_euler_rate") .QuaternionEulerRateType false, extract 5 (py "euler_angle") .EulerAngleType false,
    extract 5 (py "euler_angle_rate") .EulerAngleRateType false, extract 5 (py "spin") .SpinType false,
    extract 5 (py "spin_nutation") .SpinNutationType false] := by rfl

theorem attE_facts : attE.fixed = true ∧ Elem.quietAll attE.subs = true ∧
    ∀ t ∈ [py "QUATERNION", py "QUATERNION/RATE", py "EULER_ANGLE", py "EULER_ANGLE/RATE"],
      (extract 5 (AttitudeDecl.attr ⟨t, [], []⟩) (attClass t) false).free = true := by
  decide +kernel

theorem attE_select {t : Str} (h : t ∈ [py "QUATERNION", py "QUATERNION/RATE", py "EULER_ANGLE", py "EULER_ANGLE/RATE"]) :
    attE.subs.filter (fun s => some s.name == some (AttitudeDecl.attr ⟨t, [], []⟩)) =
      [extract 5 (AttitudeDecl.attr ⟨t, [], []⟩) (attClass t) false] := by
  rw [attE_subs]
  simp only [List.mem_cons, List.not_mem_nil, or_false] at h
  rcases h with rfl | rfl | rfl | rfl <;> rfl

theorem att_default : Cls.default .AttitudeStateType = .obj .AttitudeStateType [(py "quaternion_state", .none),
    (py "quaternion_derivative", .none), (py "quaternion_euler_rate", .none), (py "euler_angle", .none),
    (py "euler_angle_rate", .none), (py "spin", .none), (py "spin_nutation", .none)] := by decide +kernel

theorem attach_attitude {t : Str} (h : t ∈ [py "QUATERNION", py "QUATERNION/RATE", py "EULER_ANGLE", py "EULER_ANGLE/RATE"])
    (v : Val) : attach (Cls.default .AttitudeStateType) (AttitudeDecl.attr ⟨t, [], []⟩) v =
      .ok (attitude (AttitudeDecl.attr ⟨t, [], []⟩) v) := by
  rw [att_default]
  simp only [List.mem_cons, List.not_mem_nil, or_false] at h
  rcases h with rfl | rfl | rfl | rfl <;> rfl

theorem labels_quaternion {qc q1 q2 q3 : Dec} {q r : Str} {ds : List Dec} (hq : QuaternionOrder qc q1 q2 q3 q ds) :
    AttitudeDecl.labels ⟨py "QUATERNION", q, r⟩ = quatLabels q := by
  cases hq <;> rfl

theorem labels_quaternionRate {qc q1 q2 q3 : Dec} {q r : Str} {ds : List Dec} (hq : QuaternionOrder qc q1 q2 q3 q ds)
    {a₁ a₂ a₃ : Char} (hx : Axes r a₁ a₂ a₃) : AttitudeDecl.labels ⟨py "QUATERNION/RATE", q, r⟩ =
      quatLabels q ++ [a₁ :: py "_RATE", a₂ :: py "_RATE", a₃ :: py "_RATE"] := by
  have e4 : quaternionTemplate (py "QUATERNION/RATE") q = quatLabels q := by
    cases hq <;> decide
  have e5 : eulerTemplate (py "QUATERNION/RATE") r = .ok [a₁ :: py "_RATE", a₂ :: py "_RATE", a₃ :: py "_RATE"] := by
    have h := axes_ids hx (py "_RATE")
    have e1 : startsWith (py "QUATERNION/RATE") (py "EULER") = false := by decide
    have e2 : endsWith (py "QUATERNION/RATE") (py "RATE") = true := by decide
    unfold eulerTemplate
    rw [e1, e2, if_pos rfl, h, if_neg Bool.false_ne_true]
    rfl
  unfold AttitudeDecl.labels
  rw [e4, e5, if_pos (by dsimp only; decide), if_pos (by dsimp only; decide)]

theorem labels_eulerAngle {q r : Str} {a₁ a₂ a₃ : Char} (hx : Axes r a₁ a₂ a₃) : AttitudeDecl.labels ⟨py "EULER_ANGLE", q, r⟩ =
    [a₁ :: py "_ANGLE", a₂ :: py "_ANGLE", a₃ :: py "_ANGLE"] := by
  have e5 : eulerTemplate (py "EULER_ANGLE") r = .ok [a₁ :: py "_ANGLE", a₂ :: py "_ANGLE", a₃ :: py "_ANGLE"] := by
    have h := axes_ids hx (py "_ANGLE")
    have e1 : startsWith (py "EULER_ANGLE") (py "EULER") = true := by decide
    have e2 : endsWith (py "EULER_ANGLE") (py "RATE") = false := by decide
    unfold eulerTemplate
    rw [e1, e2, if_pos rfl, h, if_neg Bool.false_ne_true]
    rfl
  unfold AttitudeDecl.labels
  rw [e5, if_neg (by dsimp only; decide), if_pos (by dsimp only; decide)]
  rfl

theorem labels_eulerAngleRate {q r : Str} {a₁ a₂ a₃ : Char} (hx : Axes r a₁ a₂ a₃) :
    AttitudeDecl.labels ⟨py "EULER_ANGLE/RATE", q, r⟩ =
      [a₁ :: py "_ANGLE", a₂ :: py "_ANGLE", a₃ :: py "_ANGLE", a₁ :: py "_RATE", a₂ :: py "_RATE", a₃ :: py "_RATE"] := by
  have e5 : eulerTemplate (py "EULER_ANGLE/RATE") r = .ok [a₁ :: py "_ANGLE", a₂ :: py "_ANGLE", a₃ :: py "_ANGLE",
      a₁ :: py "_RATE", a₂ :: py "_RATE", a₃ :: py "_RATE"] := by
    have h := axes_ids hx (py "_ANGLE")
    have h' := axes_ids hx (py "_RATE")
    have e1 : startsWith (py "EULER_ANGLE/RATE") (py "EULER") = true := by decide
    have e2 : endsWith (py "EULER_ANGLE/RATE") (py "RATE") = true := by decide
    unfold eulerTemplate
    rw [e1, e2, if_pos rfl, h, h']
    rfl
  unfold AttitudeDecl.labels
  rw [e5, if_neg (by dsimp only; decide), if_pos (by dsimp only; decide)]
  rfl

theorem forall₂_append_right {α β : Type} {R : α → β → Prop} {l : List α} {a b : List β} (h : List.Forall₂ R l (a ++ b)) :
    ∃ u w, List.Forall₂ R u a ∧ List.Forall₂ R w b ∧ l = u ++ w := by
  induction a generalizing l with
  | nil => exact ⟨[], l, .nil, h, rfl⟩
  | cons x a ih =>
    cases h with
    | cons hx h =>
      obtain ⟨u, w, hu, hw, rfl⟩ := ih h
      exact ⟨_ :: u, w, .cons hx hu, hw, rfl⟩

/-- The attitude element selected is read from the lines made of the template and the numbers. -/
theorem read_attitude {D : AttitudeDecl} {e : Str} (he : DateText e) {ds : List Dec} {v : Val} (ha : Attitude D e ds v)
    {ts : List Str} (hs : List.Forall₂ Spells ts ds) :
    D.type ∈ [py "QUATERNION", py "QUATERNION/RATE", py "EULER_ANGLE", py "EULER_ANGLE/RATE"] ∧
    D.labels.length = ds.length ∧ ∃ w, v = attitude D.attr w ∧
      ItemRead 3 (extract 5 D.attr (attClass D.type) false) w (zipLines (py "EPOCH" :: D.labels) (e :: ts)) [] := by
  obtain ⟨ty, q, r⟩ := D
  cases ha with
  | @quaternion qc q1 q2 q3 ds ht hq =>
    simp only at ht hq
    subst ht
    have hl := labels_quaternion (r := r) hq
    have hr := (read_quaternion hq hs (post := []) (by simp) 3 (py "quaternion") false).mono (show 1 ≤ 2 by omega)
    refine ⟨by simp, by rw [hl]; cases hq <;> rfl, _, rfl, ?_⟩
    rw [hl]
    exact read_withEpoch (regular_iff qe_facts.1) qe_facts.2.1 qe_facts.2.2 (.one (.single hr)) (quatLines_key _ _) he.asPlain.xml _ _
  | @quaternionRate qc q1 q2 q3 ds a₁ a₂ a₃ r₁ r₂ r₃ ht hq hx =>
    simp only at ht hq hx
    subst ht
    have hl := labels_quaternionRate hq hx
    have hll : (quatLabels q).length = ds.length := by cases hq <;> rfl
    obtain ⟨us, ws, hu, hw, rfl⟩ := forall₂_append_right hs
    obtain ⟨t₁, t₂, t₃, rfl, s₁, s₂, s₃⟩ := three_texts hw
    have hul : us.length = ds.length := hu.length_eq
    have hq' := (read_quaternion hq hu (post := zipLines [a₁ :: py "_RATE", a₂ :: py "_RATE", a₃ :: py "_RATE"]
      [t₁, t₂, t₃] ++ []) (by
        rw [List.append_nil, quat_facts.2.2.2]
        exact fun l hl => (rates_key hx _ _ _ l hl).2) 3 (py "quaternion") false).mono (show 1 ≤ 2 by omega)
    have hr' := rate_facts.read (rates_rotations hx s₁ s₂ s₃) 2 (py "rotation_rates") false [] (fun _ h => nomatch h)
    refine ⟨by simp, by rw [hl]; simp [hll], _, rfl, ?_⟩
    rw [hl]
    have hz : zipLines (py "EPOCH" :: (quatLabels q ++ [a₁ :: py "_RATE", a₂ :: py "_RATE", a₃ :: py "_RATE"]))
        (e :: (us ++ [t₁, t₂, t₃])) = [py "EPOCH", e] :: (zipLines (quatLabels q) us ++
          zipLines [a₁ :: py "_RATE", a₂ :: py "_RATE", a₃ :: py "_RATE"] [t₁, t₂, t₃]) := by
      simp only [zipLines, List.zip_cons_cons, List.map_cons]
      rw [List.zip_append (by rw [hll, hul]), List.map_append]
      rfl
    rw [hz]
    refine read_withEpoch (regular_iff qr_facts.1) qr_facts.2.1 qr_facts.2.2 (.cons (.single hq') (.one (.single hr'))) ?_ he.asPlain.xml _ _
    intro l hl
    rcases List.mem_append.mp hl with h | h
    · exact quatLines_key _ _ l h
    · exact (rates_key hx _ _ _ l h).1
  | @eulerAngle a₁ a₂ a₃ d₁ d₂ d₃ ht hx =>
    simp only at ht hx
    subst ht
    have hl := labels_eulerAngle (q := q) hx
    obtain ⟨t₁, t₂, t₃, rfl, s₁, s₂, s₃⟩ := three_texts hs
    have hr' := angle_facts.read (angles_rotations hx s₁ s₂ s₃) 2 (py "rotation_angles") false [] (fun _ h => nomatch h)
    refine ⟨by simp, by rw [hl]; rfl, _, rfl, ?_⟩
    rw [hl]
    exact read_withEpoch (regular_iff ea_facts.1) ea_facts.2.1 ea_facts.2.2 (.one (.single hr')) (angles_key hx _ _ _) he.asPlain.xml _ _
  | @eulerAngleRate a₁ a₂ a₃ d₁ d₂ d₃ r₁ r₂ r₃ ht hx =>
    simp only at ht hx
    subst ht
    have hl := labels_eulerAngleRate (q := q) hx
    obtain ⟨us, ws, hu, hw, rfl⟩ := forall₂_append_right (a := [d₁, d₂, d₃]) (b := [r₁, r₂, r₃]) hs
    obtain ⟨t₁, t₂, t₃, rfl, s₁, s₂, s₃⟩ := three_texts hw
    obtain ⟨u₁, u₂, u₃, rfl, w₁, w₂, w₃⟩ := three_texts hu
    have ha' := angle_facts.read (angles_rotations hx w₁ w₂ w₃) 2 (py "rotation_angles") false
      (zipLines [a₁ :: py "_RATE", a₂ :: py "_RATE", a₃ :: py "_RATE"] [t₁, t₂, t₃] ++ []) (by
        rw [List.append_nil]
        exact rates_not_angles hx _ _ _)
    have hr' := rate_facts.read (rates_rotations hx s₁ s₂ s₃) 2 (py "rotation_rates") false [] (fun _ h => nomatch h)
    refine ⟨by simp, by rw [hl]; rfl, _, rfl, ?_⟩
    rw [hl]
    refine read_withEpoch (regular_iff er_facts.1) er_facts.2.1 er_facts.2.2 (.cons (.single ha') (.one (.single hr'))) ?_ he.asPlain.xml _ _
    intro l hl
    rcases List.mem_append.mp hl with h | h
    · exact angles_key hx _ _ _ l h
    · exact (rates_key hx _ _ _ l h).1

/-! ### The passage through XML text -/

theorem removeAll_none {p s : Str} (hp : p ≠ []) (h : ¬ p <:+: s) : removeAll p s = s := by
  cases p with
  | nil => exact absurd rfl hp
  | cons c p => exact removeGo_none h

theorem epoch_field : ∀ c ∈ [Cls.QuaternionEphemerisType, .QuaternionEulerRateType, .EulerAngleType, .EulerAngleRateType],
    (c.fields.find? (·.name == py "epoch")).map (fun f => (decide (f.kind = .elem), f.ty)) = some (true, .str) := by
  decide +kernel

theorem recode_epoch {c : Cls} (hc : c ∈ [Cls.QuaternionEphemerisType, .QuaternionEulerRateType, .EulerAngleType, .EulerAngleRateType])
    {e : Str} (h : ¬ py "Type" <:+: e) : attRecodeText (c.fields.find? (·.name == py "epoch")) e = .str e := by
  have hf := epoch_field c hc
  cases hc' : c.fields.find? (·.name == py "epoch") with
  | none => rw [hc'] at hf; cases hf
  | some f =>
    rw [hc'] at hf
    simp only [Option.map_some, Option.some.injEq, Prod.mk.injEq, decide_eq_true_eq] at hf
    unfold attRecodeText
    rw [removeAll_none (by decide) h]
    simp only [hf.1, hf.2, convText]
    cases e <;> rfl

theorem recode_quaternion (a b c d : Dec) : attRecode (quaternion a b c d) = quaternion a.plain b.plain c.plain d.plain := by
  simp only [quaternion, attRecode, attRecodeVars]

theorem recode_angles (a₁ a₂ a₃ : Char) (d₁ d₂ d₃ : Dec) :
    attRecode (rotationAngles a₁ a₂ a₃ d₁ d₂ d₃) = rotationAngles a₁ a₂ a₃ d₁.plain d₂.plain d₃.plain := by
  simp only [rotationAngles, attRecode, attRecodeVars]

theorem recode_rates (a₁ a₂ a₃ : Char) (d₁ d₂ d₃ : Dec) :
    attRecode (rotationRates a₁ a₂ a₃ d₁ d₂ d₃) = rotationRates a₁ a₂ a₃ d₁.plain d₂.plain d₃.plain := by
  simp only [rotationRates, attRecode, attRecodeVars]

theorem quaternion_unmap {f : Dec → Dec} {qc q1 q2 q3 : Dec} {q : Str} {ds ds' : List Dec} (h : QuaternionOrder qc q1 q2 q3 q ds')
    (hd : ds.map f = ds') : ∃ a b c d, QuaternionOrder a b c d q ds ∧ qc = f a ∧ q1 = f b ∧ q2 = f c ∧ q3 = f d := by
  cases h <;>
  · rw [List.map_eq_cons_iff] at hd
    obtain ⟨x1, r1, rfl, h1, hd⟩ := hd
    rw [List.map_eq_cons_iff] at hd
    obtain ⟨x2, r2, rfl, h2, hd⟩ := hd
    rw [List.map_eq_cons_iff] at hd
    obtain ⟨x3, r3, rfl, h3, hd⟩ := hd
    rw [List.map_eq_cons_iff] at hd
    obtain ⟨x4, r4, rfl, h4, hd⟩ := hd
    rw [List.map_eq_nil_iff] at hd
    subst hd
    first
      | exact ⟨x1, x2, x3, x4, .first, h1.symm, h2.symm, h3.symm, h4.symm⟩
      | exact ⟨x4, x1, x2, x3, .last, h4.symm, h1.symm, h2.symm, h3.symm⟩

theorem three_unmap {f : Dec → Dec} {ds : List Dec} {d₁ d₂ d₃ : Dec} (hd : ds.map f = [d₁, d₂, d₃]) :
    ∃ a b c, ds = [a, b, c] ∧ d₁ = f a ∧ d₂ = f b ∧ d₃ = f c := by
  rw [List.map_eq_cons_iff] at hd
  obtain ⟨x1, r1, rfl, h1, hd⟩ := hd
  rw [List.map_eq_cons_iff] at hd
  obtain ⟨x2, r2, rfl, h2, hd⟩ := hd
  rw [List.map_eq_cons_iff] at hd
  obtain ⟨x3, r3, rfl, h3, hd⟩ := hd
  rw [List.map_eq_nil_iff] at hd
  subst hd
  exact ⟨x1, x2, x3, rfl, h1.symm, h2.symm, h3.symm⟩

theorem recode_attitude {t : Str} (h : t ∈ [py "QUATERNION", py "QUATERNION/RATE", py "EULER_ANGLE", py "EULER_ANGLE/RATE"])
    (c : Cls) (vs : List (Str × Val)) : attRecode (attitude (AttitudeDecl.attr ⟨t, [], []⟩) (.obj c vs)) =
      attitude (AttitudeDecl.attr ⟨t, [], []⟩) (attRecode (.obj c vs)) := by
  simp only [List.mem_cons, List.not_mem_nil, or_false] at h
  rcases h with rfl | rfl | rfl | rfl <;> rfl

/-- The state that the text states, before its passage through XML text. -/
theorem attitude_recode {D : AttitudeDecl} {e : Str} (he : ¬ py "Type" <:+: e) {ds : List Dec} {v : Val}
    (ha : Attitude D e (ds.map Dec.plain) v) : ∃ v₀, Attitude D e ds v₀ ∧ attRecode v₀ = v := by
  generalize hd : ds.map Dec.plain = ds' at ha
  cases ha with
  | quaternion ht hq =>
    obtain ⟨a, b, c, d, hq', rfl, rfl, rfl, rfl⟩ := quaternion_unmap hq hd
    refine ⟨_, .quaternion ht hq', ?_⟩
    have := recode_attitude (t := py "QUATERNION") (by simp) .QuaternionEphemerisType
      [(py "epoch", .str e), (py "quaternion", quaternion a b c d)]
    refine this.trans ?_
    simp only [attRecode, attRecodeVars, recode_epoch (c := .QuaternionEphemerisType) (by simp) he]
    rw [show attRecodeVars .QuaternionEphemerisType [(py "quaternion", quaternion a b c d)] =
      [(py "quaternion", attRecode (quaternion a b c d))] from rfl, recode_quaternion]
    rfl
  | quaternionRate ht hq hx =>
    rw [List.map_eq_append_iff] at hd
    obtain ⟨l1, l2, rfl, hd1, hd2⟩ := hd
    obtain ⟨a, b, c, d, hq', rfl, rfl, rfl, rfl⟩ := quaternion_unmap hq hd1
    obtain ⟨x, y, z, rfl, rfl, rfl, rfl⟩ := three_unmap hd2
    rename_i a₁ a₂ a₃
    refine ⟨_, .quaternionRate ht hq' hx, ?_⟩
    have := recode_attitude (t := py "QUATERNION/RATE") (by simp) .QuaternionEulerRateType
      [(py "epoch", .str e), (py "quaternion", quaternion a b c d), (py "rotation_rates", rotationRates a₁ a₂ a₃ x y z)]
    refine this.trans ?_
    simp only [attRecode, attRecodeVars, recode_epoch (c := .QuaternionEulerRateType) (by simp) he]
    rw [show attRecodeVars .QuaternionEulerRateType
      [(py "quaternion", quaternion a b c d), (py "rotation_rates", rotationRates a₁ a₂ a₃ x y z)] =
      [(py "quaternion", attRecode (quaternion a b c d)), (py "rotation_rates", attRecode (rotationRates a₁ a₂ a₃ x y z))] from rfl,
      recode_quaternion, recode_rates]
    rfl
  | eulerAngle ht hx =>
    obtain ⟨x, y, z, rfl, rfl, rfl, rfl⟩ := three_unmap hd
    rename_i a₁ a₂ a₃
    refine ⟨_, .eulerAngle ht hx, ?_⟩
    have := recode_attitude (t := py "EULER_ANGLE") (by simp) .EulerAngleType
      [(py "epoch", .str e), (py "rotation_angles", rotationAngles a₁ a₂ a₃ x y z)]
    refine this.trans ?_
    simp only [attRecode, attRecodeVars, recode_epoch (c := .EulerAngleType) (by simp) he]
    rw [show attRecodeVars .EulerAngleType [(py "rotation_angles", rotationAngles a₁ a₂ a₃ x y z)] =
      [(py "rotation_angles", attRecode (rotationAngles a₁ a₂ a₃ x y z))] from rfl, recode_angles]
    rfl
  | eulerAngleRate ht hx =>
    rename_i a₁ a₂ a₃ d₁ d₂ d₃ r₁ r₂ r₃
    have hd' : ds.map Dec.plain = [d₁, d₂, d₃] ++ [r₁, r₂, r₃] := hd
    rw [List.map_eq_append_iff] at hd'
    obtain ⟨l1, l2, rfl, hd1, hd2⟩ := hd'
    obtain ⟨x, y, z, rfl, rfl, rfl, rfl⟩ := three_unmap hd1
    obtain ⟨x', y', z', rfl, rfl, rfl, rfl⟩ := three_unmap hd2
    refine ⟨_, .eulerAngleRate ht hx, ?_⟩
    have := recode_attitude (t := py "EULER_ANGLE/RATE") (by simp) .EulerAngleRateType
      [(py "epoch", .str e), (py "rotation_angles", rotationAngles a₁ a₂ a₃ x y z),
        (py "rotation_rates", rotationRates a₁ a₂ a₃ x' y' z')]
    refine this.trans ?_
    simp only [attRecode, attRecodeVars, recode_epoch (c := .EulerAngleRateType) (by simp) he]
    rw [show attRecodeVars .EulerAngleRateType
      [(py "rotation_angles", rotationAngles a₁ a₂ a₃ x y z), (py "rotation_rates", rotationRates a₁ a₂ a₃ x' y' z')] =
      [(py "rotation_angles", attRecode (rotationAngles a₁ a₂ a₃ x y z)),
        (py "rotation_rates", attRecode (rotationRates a₁ a₂ a₃ x' y' z'))] from rfl,
      recode_angles, recode_rates]
    rfl

/-! ### Building an attitude state -/

theorem eraseAll_filter (p : Str → Bool) : ∀ ss : List Elem,
    Elem.eraseAll (ss.filter fun s => p s.name) = (Elem.eraseAll ss).filter fun s => p s.name
  | [] => rfl
  | s :: ss => by
    have hn := (erase_fields s).1
    cases hp : p s.name with
    | true =>
      rw [List.filter_cons_of_pos (by simpa using hp), Elem.eraseAll, Elem.eraseAll, eraseAll_filter p ss,
        List.filter_cons_of_pos (by rw [hn]; exact hp)]
    | false =>
      rw [List.filter_cons_of_neg (by simpa using hp), Elem.eraseAll, eraseAll_filter p ss,
        List.filter_cons_of_neg (by rw [hn]; simpa using hp)]

theorem keysOf_zipLines : ∀ {ks vs : List Str}, ks.length = vs.length → keysOf (zipLines ks vs) = ks
  | [], [], _ => rfl
  | [], _ :: _, h => by simp at h
  | _ :: _, [], h => by simp at h
  | k :: ks, v :: vs, h => by
    have := keysOf_zipLines (ks := ks) (vs := vs) (by simpa using h)
    simp only [zipLines, keysOf, List.zip_cons_cons, List.map_cons] at this ⊢
    rw [this]
    rfl

/-- The attitude state as the segment prepares it. -/
def prepared (tmpl : List Str) (attr : Str) (a : Elem) : Elem :=
  { a with template := some tmpl, subs := a.subs.filter fun s => some s.name == some attr }

theorem build_attitude {D : AttitudeDecl} {v : Val} {l : Line} (h : AttitudeRead D v [l]) {a : Elem} (ha : a.erase = attE.erase)
    {i : Nat} (hm : a.minMax = some (i, i + 1)) {keys : List Str} {L : List Line} (hL : (L.drop i).take 1 = [l]) {fuel : Nat}
    (hf : 4 ≤ fuel) : build keys L fuel (prepared (py "EPOCH" :: D.labels) D.attr a) L = .ok v := by
  obtain ⟨fuel, rfl⟩ : ∃ f, fuel = f + 1 := ⟨fuel - 1, by omega⟩
  generalize hll : [l] = ls at h
  cases h with
  | @mk e s ds v he hty hw hat =>
    simp only [List.cons.injEq, and_true] at hll
    subst hll
    obtain ⟨v₀, hat0, hrec⟩ := attitude_recode hty hat
    obtain ⟨htype, hlab, w, rfl, hread⟩ := read_attitude he hat0 hw
    have hlen : (words s).length = ds.length := hw.length_eq
    have hw' : words (e ++ ' ' :: s) = e :: words s := by
      have := words_cons he.token.1 (fun c hc => (he.token.2 c hc).1) (w := [' '])
        (by intro c hc; simp only [List.mem_singleton] at hc; subst hc; decide) (by simp) s
      simpa using this
    have hattr : D.attr = AttitudeDecl.attr ⟨D.type, [], []⟩ := rfl
    have hcls : a.cls = .AttitudeStateType := by
      rw [← (erase_fields a).2.1, ha, (erase_fields attE).2.1]
      rfl
    obtain ⟨syn, hsyn⟩ : ∃ syn, syn = zipLines (py "EPOCH" :: D.labels) (e :: words s) := ⟨_, rfl⟩
    have hkeys : keysOf syn = py "EPOCH" :: D.labels := by
      rw [hsyn]; exact keysOf_zipLines (by simp [hlab, hlen])
    rw [← hsyn] at hread
    have hsyn0 : ∃ rest, syn = [py "EPOCH", e] :: rest := ⟨_, by rw [hsyn]; rfl⟩
    -- identification of the template
    have hsubs : Elem.eraseAll (prepared (py "EPOCH" :: D.labels) D.attr a).subs =
        Elem.eraseAll [extract 5 D.attr (attClass D.type) false] := by
      have e1 : Elem.eraseAll a.subs = Elem.eraseAll attE.subs := by
        rw [← (erase_fields a).2.2.2.2.2.2.1, ha, (erase_fields attE).2.2.2.2.2.2.1]
      unfold prepared
      simp only
      rw [eraseAll_filter (fun n => some n == some D.attr), e1, ← eraseAll_filter (fun n => some n == some D.attr), hattr,
        attE_select htype]
    obtain ⟨es, hes, hbuilt⟩ := subsRead_item (avoid := fun _ => False) (extract_isList _ _ _ _) hread [] [] (by simp)
    simp only [List.nil_append, List.append_nil, List.length_nil, Nat.zero_add] at hes hbuilt
    have hinst := identSubs_inst _ _ _ _ _ hes
    cases hbuilt with
    | @cons s0 r ss rs hr hnil =>
    cases hnil
    rw [extract_name] at hr
    rw [← identSubs_erase, ← hsubs, identSubs_erase, hkeys] at hes
    have hid : identElem (py "EPOCH" :: D.labels) syn (prepared (py "EPOCH" :: D.labels) D.attr a) 0 =
        .ok (syn.length, (0, 0), { prepared (py "EPOCH" :: D.labels) D.attr a with subs := [s0] }) := by
      obtain ⟨rest, hr⟩ := hsyn0
      have hrange := date_range (e := prepared (py "EPOCH" :: D.labels) D.attr a) (s := py "EPOCH") (r := [e]) (t := py "EPOCH")
        (ts := []) (.inr hcls) (by decide) (b := false) (by decide) (py "EPOCH" :: D.labels) [] rest
      rw [identElem_eq]
      simp only [List.nil_append, List.length_nil, Bool.false_eq_true, if_false] at hrange
      rw [← hr] at hrange
      rw [hrange]
      simp only [Except.bind, hes]
    have hfree : FreeN fuel s0 := by
      obtain ⟨t, ht, hti⟩ := hinst s0 (by simp)
      simp only [List.mem_singleton] at ht
      subst ht
      exact freeN_inst (freeN_of_free fuel _ (attE_facts.2.2 D.type htype)) hti
    unfold build
    have hm' : (prepared (py "EPOCH" :: D.labels) D.attr a).minMax = some (i, i + 1) := hm
    rw [hm']
    simp only [Nat.add_sub_cancel_left, hL]
    have hcl : (prepared (py "EPOCH" :: D.labels) D.attr a).cls = .AttitudeStateType := hcls
    rw [if_neg (by simp), if_pos hcl]
    have ht : templateOf (prepared (py "EPOCH" :: D.labels) D.attr a) = .ok (py "EPOCH" :: D.labels) := rfl
    have g0 : ∀ l : Line, pyGet [l] 0 = .ok l := fun _ => rfl
    have g1 : ∀ l : Str, pyGet [l] 0 = .ok l := fun _ => rfl
    have g2 : ∀ l : Elem, pyGet [l] 0 = .ok l := fun _ => rfl
    simp only [ht, bind, Except.bind, g0, g1, hw', ← hsyn, hid, g2]
    rw [build_free keys (keysOf syn) L syn fuel s0 syn hfree, hr.2 fuel (by omega), hr.1]
    simp only [hcl]
    rw [hattr, attach_attitude htype]
    simp only [pure, Except.pure]
    rw [← hattr, hrec]

end Ndm
