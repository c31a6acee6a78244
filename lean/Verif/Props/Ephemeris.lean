import Verif.Lemmas.Inside
import Verif.Lemmas.GoodCheck
import Verif.Samples
import Verif.Props.Refuted

/-! # C24, C29, C33: orbit ephemeris messages

`WellFormedOem` (`SpecEph.lean`) says what a well-formed OEM is. -/

namespace Ndm

/-! ## Well-formed samples -/

def keyBlockB (c : Cls) : Val → Option (List Line)
  | .obj d vs => match goodKeysB c.keyAttrs vs with
    | some ls => if d = c ∧ ls ≠ [] ∧ ls.getLast?.map Line.key ≠ some (py "COMMENT") then some ls else none
    | none => none
  | _ => none

theorem keyBlock_of_b {c : Cls} {v : Val} {ls : List Line} (h : keyBlockB c v = some ls) : KeyBlock c v ls := by
  unfold keyBlockB at h
  split at h
  · split at h
    · rename_i hg
      split at h
      · rename_i hc
        obtain ⟨rfl, h1, h2⟩ := hc
        cases h
        exact .mk (goodKeys_of_b hg) h1 h2
      · cases h
    · cases h
  · cases h

def dateB : Str → Bool
  | a :: b :: c :: d :: '-' :: r => [a, b, c, d].all isAsciiDigit &&
      (a :: b :: c :: d :: '-' :: r).all fun x => !isSpace x && x != '=' && x != '[' && xmlChar x
  | _ => false

theorem date_of_b {e : Str} (h : dateB e = true) : DateText e := by
  unfold dateB at h
  split at h
  · rename_i a b c d r
    simp only [Bool.and_eq_true, List.all_eq_true] at h
    obtain ⟨h1, h2⟩ := h
    refine ⟨⟨a, b, c, d, r, rfl, h1⟩, fun x hx => ?_, fun x hx => ?_⟩
    · have := h2 x hx
      simp only [Bool.and_eq_true, Bool.not_eq_true', bne_iff_ne] at this
      exact this.1.1.1
    · have := h2 x hx
      simp only [Bool.and_eq_true, Bool.not_eq_true', bne_iff_ne] at this
      exact ⟨this.1.1.2, this.1.2, this.2⟩
  · cases h

/-- Metadata of an OEM segment. -/
def oemMeta (name : Str) (more : List (Str × Val)) : Val :=
  mkObj .OemMetadata ([(py "object_name", S name), (py "object_id", S (py "B")), (py "center_name", S (py "EARTH")), (py "ref_frame", S (py "GCRF")),
    (py "time_system", S (py "UTC")), (py "start_time", S (py "2000-01-01")), (py "stop_time", S (py "2000-01-02"))] ++ more)

/-- A segment to be built: metadata, comments, and epoch and numbers of state vectors and covariance matrices. -/
structure OemSeg where
  md : Val
  texts : List Str
  svs : List (Str × List Dec)
  cms : List (Str × List Dec)

def svVal (p : Str × List Dec) : Val := .obj .StateVectorAccType ((py "epoch", .str p.1) :: numbered stateAttrs p.2)
def svLines (p : Str × List Dec) : List Line := [[joinWith (py "  ") (p.1 :: p.2.map Dec.toStr)]]
def cmVal (p : Str × List Dec) : Val :=
  .obj .OemCovarianceMatrixType ((py "comment", .list []) :: (py "epoch", .str p.1) :: (py "cov_ref_frame", .none) ::
    numbered covarianceAttrs p.2)
def cmLines (p : Str × List Dec) : List Line :=
  [py "EPOCH", p.1] :: (lowerTriangle (p.2.map Dec.toStr)).map fun row => [joinWith (py "  ") row]

def OemSeg.val (s : OemSeg) : Val := oemSegment s.md (.list (s.texts.map .str)) (s.svs.map svVal) (s.cms.map cmVal)

def svB (p : Str × List Dec) : Bool := dateB p.1 && 6 ≤ p.2.length && p.2.length ≤ 9
def cmB (p : Str × List Dec) : Bool :=
  plainB p.1 && p.2.length == 21 && p.2.all fun d => match d with | .fin _ _ _ => true | _ => false

theorem sv_of_b {p : Str × List Dec} (h : svB p = true) : StateVector (svVal p) (svLines p) := by
  simp only [svB, Bool.and_eq_true, decide_eq_true_eq] at h
  exact .mk (date_of_b h.1.1) h.1.2 h.2

theorem cm_of_b {p : Str × List Dec} (h : cmB p = true) : Covariance (cmVal p) (cmLines p) := by
  simp only [cmB, Bool.and_eq_true, beq_iff_eq, List.all_eq_true] at h
  refine .mk (plain_of_b h.1.1) h.1.2 fun d hd => ?_
  have := h.2 d hd
  split at this
  · trivial
  · cases this

theorem each_of_b {α : Type} {P : Val → List Line → Prop} {f : α → Val} {g : α → List Line} {b : α → Bool}
    (h : ∀ a, b a = true → P (f a) (g a)) : ∀ {as : List α}, as.all b = true → Each P (as.map f) (as.flatMap g)
  | [], _ => .nil
  | a :: as, hb => by
    simp only [List.all_cons, Bool.and_eq_true] at hb
    exact .cons (h a hb.1) (each_of_b h hb.2)

def OemSeg.dataLines (s : OemSeg) : List Line :=
  s.texts.map (fun t => [py "COMMENT", t]) ++ (s.svs.flatMap svLines ++ s.cms.flatMap cmLines)

def oemSegsB : List OemSeg → Option (List Line)
  | [] => some []
  | s :: rest => match keyBlockB .OemMetadata s.md, oemSegsB rest with
    | some lm, some ls =>
      if s.texts.all commentB ∧ s.texts.length ≤ 1 ∧ s.svs ≠ [] ∧ s.svs.all svB ∧ s.cms.all cmB ∧
          (s.dataLines.head?.map Line.key = some (py "COMMENT") →
            ∀ l ∈ ls, l.key ≠ py "COMMENT" → l.key ∈ (Cls.keyAttrs .OemMetadata).map (fun f => upper f.name) →
            ∃ l' ∈ lm, l'.key = l.key) ∧
          (ls.head?.map Line.key = some (py "COMMENT") → ∀ l ∈ ls, l.key ≠ py "EPOCH")
      then some (lm ++ s.dataLines ++ ls) else none
    | _, _ => none

theorem oemSegs_of_b : ∀ {segs : List OemSeg} {ls : List Line}, oemSegsB segs = some ls →
    OemSegments (segs.map OemSeg.val) ls
  | [], ls, h => by cases h; exact .nil
  | s :: rest, ls, h => by
    unfold oemSegsB at h
    split at h
    · rename_i lm ls' h1 h2
      split at h
      · rename_i hc
        obtain ⟨c1, c2, c3, c4, c5, c6, c7⟩ := hc
        cases h
        refine .cons (keyBlock_of_b h1) (.mk (fun t ht => ?_) c2 ?_ (each_of_b (fun _ => sv_of_b) c4)
          (each_of_b (fun _ => cm_of_b) c5)) (oemSegs_of_b h2) c6 c7
        · exact comment_of_b (List.all_eq_true.mp c1 t ht)
        · simpa using c3
      · cases h
    · cases h

/-- The OEM with the given header and segments is well formed. -/
def oemB (h : Val) (segs : List OemSeg) : Bool :=
  (keyBlockB .NdmHeader h).isSome && (oemSegsB segs).isSome && !segs.isEmpty

theorem oem_of_b {h : Val} {segs : List OemSeg} (hb : oemB h segs = true) : WellFormedOem (oem h (segs.map OemSeg.val)) := by
  simp only [oemB, Bool.and_eq_true, Option.isSome_iff_exists] at hb
  obtain ⟨⟨⟨lh, h1⟩, ⟨ls, h2⟩⟩, h3⟩ := hb
  exact .mk (keyBlock_of_b h1) (by simpa using h3) (oemSegs_of_b h2)

def dec (i : Int) : Dec := .fin (i < 0) i.natAbs (-3)

/-- Three segments: one with a data comment, state vectors with and without acceleration and two covariance matrices, one
with a metadata comment and fewer keywords, and a small one. -/
def richOem : List OemSeg := [
  ⟨oemMeta (py "A") [(py "interpolation", S (py "LAGRANGE")), (py "interpolation_degree", .int 5)], [py "data = comment [x]"],
    [(py "2000-01-01T00:00:00.000", [1, 2, 3, 4, -5, 6].map dec), (py "2000-01-01T00:01", [1, 2, 3, 4, 5, 6, 7, -8, 9].map dec)],
    [(py "2000-01-01", (List.range 21).map fun k => dec (3 - k)), (py "2000-01-01", (List.range 21).map fun k => dec (100 * k))]⟩,
  ⟨oemMeta (py "A") [(py "comment", .list [S (py "c 1"), S (py "c 2")]), (py "interpolation", S (py "HERMITE"))], [],
    [(py "2000-01-02T00:00:00.000", [10, 20, 30, 40, 50, 60, 70].map dec)], []⟩,
  ⟨oemMeta (py "C") [], [], [(py "2000-01-03", [0, 0, 0, 0, 0, 0].map dec)], []⟩]

example : WellFormedOem (oem header (richOem.map OemSeg.val)) := oem_of_b (by decide +kernel)

/-! ## C24 -/

/-- **C24**, what holds: a well-formed OEM is written, and what is written is read back as the same OEM. -/
theorem C24_partial (o : Val) (h : WellFormedOem o) : ∃ text, kvnToString o = .ok text ∧ kvnFromString text = .ok o :=
  oem_round_trip h

/-- **C24**: units in state vectors and covariance matrices do not survive; apart from these the OEM that is read back is
the one that was written. -/
theorem C24_units_partial (o o' : Val) (hu : OemUnitsLeftOut o o') (h : WellFormedOem o') :
    ∃ text, kvnToString o = .ok text ∧ kvnFromString text = .ok o' := by
  rw [oem_units_write hu h]
  exact oem_round_trip h

/-- A state vector with units. -/
def unitVec : Val :=
  let pos (i : Int) := mkVal .PositionType i (.enum .PositionUnits (py "km"))
  let vel (i : Int) := mkVal .VelocityType i (.enum .VelocityUnits (py "km/s"))
  mkObj .StateVectorAccType [(py "epoch", S (py "2000-01-01")), (py "x", pos 1), (py "y", pos 2), (py "z", pos 3), (py "x_dot", vel 4),
    (py "y_dot", vel 5), (py "z_dot", vel 6)]

def bareVec : Val := svVal (py "2000-01-01", (List.range 6).map fun k => .fin false (k + 1) 0)

example : OemUnitsLeftOut (oem header [oemSegment (oemMeta (py "A") []) (.list []) [unitVec, bareVec] []])
    (oem header [oemSegment (oemMeta (py "A") []) (.list []) [bareVec, bareVec] []]) := by
  refine .mk (.cons (.mk (.cons ?_ (.cons ?_ .nil)) .nil) .nil)
  · exact .mk (.inl rfl) (.cons ⟨rfl, .same⟩ (.cons ⟨rfl, .drop⟩ (.cons ⟨rfl, .drop⟩ (.cons ⟨rfl, .drop⟩ (.cons ⟨rfl, .drop⟩
      (.cons ⟨rfl, .drop⟩ (.cons ⟨rfl, .drop⟩ (.cons ⟨rfl, .same⟩ (.cons ⟨rfl, .same⟩ (.cons ⟨rfl, .same⟩ .nil))))))))))
  · exact .mk (.inl rfl) (List.forall₂_same.mpr fun _ _ => ⟨rfl, .same⟩)

/-- **C24 is false** as stated: the units of a state vector are lost. -/
theorem C24_refuted :
    ∃ v, writeRead (oem header [oemSegment (oemMeta (py "A") []) (.list []) [unitVec] []]) = .ok v ∧
      v = oem header [oemSegment (oemMeta (py "A") []) (.list []) [bareVec] []] ∧ unitVec ≠ bareVec :=
  ok_of_check _ (by decide +kernel)

/-- A covariance matrix with a comment. -/
def commentCov : Val :=
  .obj .OemCovarianceMatrixType ((py "comment", .list [S (py "c")]) :: (py "epoch", S (py "2000-01-01")) :: (py "cov_ref_frame", .none) ::
    numbered covarianceAttrs ((List.range 21).map fun k => .fin false k 0))

/-- **C24 is false** also for covariance matrices with comments: the comment is written under the keyword
`COVARIANCE_MATRIX`, and the comment is lost. -/
theorem C24_refuted_comment :
    ∃ v, writeRead (oem header [oemSegment (oemMeta (py "A") []) (.list []) [bareVec] [commentCov]]) = .ok v ∧
      v ≠ oem header [oemSegment (oemMeta (py "A") []) (.list []) [bareVec] [commentCov]] :=
  ok_of_check _ (by decide +kernel)

/-! ## C29: covariance matrices -/

/-- A covariance matrix with comments, epoch, reference frame and elements. -/
def covariance (cs : List Val) (e : Str) (frame : Val) (elements : List (Str × Val)) : Val :=
  .obj .OemCovarianceMatrixType ((py "comment", .list cs) :: (py "epoch", .str e) :: (py "cov_ref_frame", frame) :: elements)

/-- **C29**, writing: whenever an OEM is written, every covariance matrix with 21 elements in it appears as six lines with
1, 2, ..., 6 numbers in row order, whatever its units, comments and reference frame. -/
theorem C29_written (h m co : Val) (segs svs cms : List Val) (text : Str) (cs : List Val) (e : Str) (frame : Val)
    (elements : List (Str × Val)) (ds : List Dec)
    (hw : kvnToString (oem h segs) = .ok text) (hs : oemSegment m co svs cms ∈ segs)
    (hc : covariance cs e frame elements ∈ cms) (hf : frame = .none ∨ ∃ f, frame = .str f)
    (he : Measured covarianceAttrs ds elements) (hn : ds.length = 21) :
    HasLines text ((lowerTriangle (ds.map Dec.toStr)).map (joinWith (py "  "))) := by
  obtain ⟨full, rfl, -, hx⟩ := inOem_written (x := covariance cs e frame elements) hs hw
  obtain ⟨out, o, h1, h2⟩ := hx hc
  have hlen' : (ds.map Dec.toStr).length = 21 := by simpa using hn
  have htok : ∀ r ∈ lowerTriangle (ds.map Dec.toStr), r ≠ [] ∧ ∀ t ∈ r, Token t := by
    intro r hr
    constructor
    · rintro rfl
      simp only [lowerTriangle, List.mem_cons, List.not_mem_nil, or_false] at hr
      rcases hr with h | h | h | h | h | h <;> have := congrArg List.length h <;> simp [hn] at this
    · intro t ht
      have : t ∈ ds.map Dec.toStr := by
        simp only [lowerTriangle, List.mem_cons, List.not_mem_nil, or_false] at hr
        rcases hr with rfl | rfl | rfl | rfl | rfl | rfl
        · exact List.mem_of_mem_take ht
        all_goals exact List.mem_of_mem_drop (List.mem_of_mem_take ht)
      obtain ⟨d, -, rfl⟩ := List.mem_map.mp this
      exact token_dec d
  have hso : isSpecialOut .OemCovarianceMatrixType = true := by decide
  have hvals : (((py "comment", Val.list cs) :: (py "epoch", .str e) :: (py "cov_ref_frame", frame) :: elements).filterMap
      fun p => valueAttr? p.2).map pyStr = ds.map Dec.toStr := by
    rw [List.filterMap_cons_none rfl, List.filterMap_cons_none rfl, List.filterMap_cons_none
      (by rcases hf with rfl | ⟨f, rfl⟩ <;> rfl), measured_values he (by rw [hn]; decide)]
  have a1 : attrGet (py "comment") ((py "comment", Val.list cs) :: (py "epoch", .str e) ::
      (py "cov_ref_frame", frame) :: elements) = .ok (.list cs) := rfl
  have a2 : attrGet (py "epoch") ((py "comment", Val.list cs) :: (py "epoch", .str e) ::
      (py "cov_ref_frame", frame) :: elements) = .ok (.str e) := rfl
  have a3 : attrGet (py "cov_ref_frame") ((py "comment", Val.list cs) :: (py "epoch", .str e) ::
      (py "cov_ref_frame", frame) :: elements) = .ok frame := rfl
  have hw : ∃ ls, o = out ++ (ls ++ (lowerTriangle (ds.map Dec.toStr)).map (joinWith (py "  "))) := by
    simp only [covariance, collateObj, hso, if_true, writeSpecial] at h1
    rw [if_neg (by decide), if_neg (by decide), if_neg (by decide)] at h1
    simp only [writeCovariance, bind, Except.bind, a1, a2, a3, iterList, hvals, triRows_lowerTriangle hlen',
      mapM_fillSingle htok, pure, Except.pure, Except.ok.injEq] at h1
    exact ⟨_, h1.symm⟩
  obtain ⟨ls, rfl⟩ := hw
  rw [← List.append_assoc] at h2
  exact lines_inside h2

/-- **C29**: an OEM with any header, metadata and state vector and any 21 numbers as a covariance matrix is written, the
matrix as six lines with 1, 2, ..., 6 numbers in row order, and read back with the same numbers in the same elements. -/
theorem C29 (h m sv : Val) (lh lm ls : List Line) (e : Str) (elements : List (Str × Val)) (ds : List Dec)
    (hh : KeyBlock .NdmHeader h lh) (hm : KeyBlock .OemMetadata m lm) (hsv : StateVector sv ls) (he : Plain e)
    (hel : Measured covarianceAttrs ds elements) (hn : ds.length = 21) (hfin : ∀ d ∈ ds, d.Finite) :
    ∃ text, kvnToString (oem h [oemSegment m (.list []) [sv] [covariance [] e .none elements]]) = .ok text ∧
      HasLines text ((lowerTriangle (ds.map Dec.toStr)).map (joinWith (py "  "))) ∧
      kvnFromString text =
        .ok (oem h [oemSegment m (.list []) [sv] [covariance [] e .none (numbered covarianceAttrs ds)]]) := by
  have hwf : WellFormedOem (oem h [oemSegment m (.list []) [sv] [covariance [] e .none (numbered covarianceAttrs ds)]]) := by
    refine .mk hh (by simp) (.cons hm (.mk (texts := []) (by simp) (by simp) (by simp) (.cons hsv .nil)
      (.cons (.mk he hn hfin) .nil)) .nil (by simp) (by simp))
  have hu : OemUnitsLeftOut (oem h [oemSegment m (.list []) [sv] [covariance [] e .none elements]])
      (oem h [oemSegment m (.list []) [sv] [covariance [] e .none (numbered covarianceAttrs ds)]]) := by
    refine .mk (.cons (.mk (.cons ?_ .nil) (.cons (.mk (.inr rfl) ?_) .nil)) .nil)
    · cases hsv
      exact .mk (.inl rfl) (List.forall₂_same.mpr fun _ _ => ⟨rfl, .same⟩)
    · exact .cons ⟨rfl, .same⟩ (.cons ⟨rfl, .same⟩ (.cons ⟨rfl, .same⟩ (measured_without hel)))
  obtain ⟨text, h1, h2⟩ := C24_units_partial _ _ hu hwf
  exact ⟨text, h1, C29_written h m (.list []) _ _ _ text [] e .none elements ds h1 (.head _) (.head _) (.inl rfl) hel hn, h2⟩

/-! ## C33: state vectors -/

/-- **C33**, writing: whenever an OEM is written, every state vector in it appears as a line with its epoch and its
numbers. -/
theorem C33_written (h m co : Val) (segs svs cms : List Val) (text : Str) (e : Str) (elements : List (Str × Val)) (ds : List Dec)
    (hw : kvnToString (oem h segs) = .ok text) (hs : oemSegment m co svs cms ∈ segs)
    (hc : .obj .StateVectorAccType ((py "epoch", .str e) :: elements) ∈ svs)
    (he : DateText e) (hel : Measured stateAttrs ds elements) (hn : ds.length ≤ 9) :
    HasLines text [joinWith (py "  ") (e :: ds.map Dec.toStr)] := by
  obtain ⟨full, rfl, hx, -⟩ := inOem_written (x := .obj .StateVectorAccType ((py "epoch", .str e) :: elements)) hs hw
  obtain ⟨out, o, h1, h2⟩ := hx hc
  have ht : (Val.str e).truthy = true := by
    obtain ⟨c, r, rfl, -⟩ := he.firstDigit
    rfl
  have hso : isSpecialOut .StateVectorAccType = true := by decide
  have hline : writeStateVector ((py "epoch", .str e) :: elements) = .ok [joinWith (py "  ") (e :: ds.map Dec.toStr)] := by
    unfold writeStateVector
    rw [List.filter_cons_of_pos (by simpa using ht), List.map_cons, measured_text hel hn]
    have e1 : pyStr (valueOr (Val.str e)) = e := rfl
    simp only [e1]
    rw [fillSingle_tokens (by simp) (stateVector_tokens he)]
    rfl
  simp only [collateObj, hso, if_true, writeSpecial, hline, bind, Except.bind, pure, Except.pure, Except.ok.injEq] at h1
  subst h1
  exact lines_inside h2

/-- **C33**: an OEM with any header and metadata and any state vector (position, velocity and none, some or all of the
acceleration, with any units) is written, and what is written is read back with the same epoch and the same numbers in
the same components. -/
theorem C33 (h m : Val) (lh lm : List Line) (e : Str) (elements : List (Str × Val)) (ds : List Dec)
    (hh : KeyBlock .NdmHeader h lh) (hm : KeyBlock .OemMetadata m lm) (he : DateText e)
    (hel : Measured stateAttrs ds elements) (h6 : 6 ≤ ds.length) (h9 : ds.length ≤ 9) :
    ∃ text, kvnToString (oem h [oemSegment m (.list []) [.obj .StateVectorAccType ((py "epoch", .str e) :: elements)] []]) =
        .ok text ∧
      HasLines text [joinWith (py "  ") (e :: ds.map Dec.toStr)] ∧
      kvnFromString text = .ok (oem h [oemSegment m (.list [])
        [.obj .StateVectorAccType ((py "epoch", .str e) :: numbered stateAttrs ds)] []]) := by
  have hwf : WellFormedOem (oem h [oemSegment m (.list [])
      [.obj .StateVectorAccType ((py "epoch", .str e) :: numbered stateAttrs ds)] []]) := by
    refine .mk hh (by simp) (.cons hm (.mk (texts := []) (by simp) (by simp) (by simp) (.cons (.mk he h6 h9) .nil)
      .nil) .nil (by simp) (by simp))
  obtain ⟨text, h1, h2⟩ := C24_units_partial _ _ (.mk (.cons (.mk (.cons (.mk (.inl rfl)
    (.cons ⟨rfl, .same⟩ (measured_without hel))) .nil) .nil) .nil)) hwf
  exact ⟨text, h1, C33_written h m (.list []) _ _ _ text e elements ds h1 (.head _) (.head _) he hel h9, h2⟩

/-- The hypotheses of `C33` and `C29` are met. -/
example : (∃ lh, KeyBlock .NdmHeader header lh) ∧ (∃ lm, KeyBlock .OemMetadata (oemMeta (py "A") []) lm) ∧
    DateText (py "2000-01-01") ∧ (∃ vs, unitVec = .obj .StateVectorAccType ((py "epoch", .str (py "2000-01-01")) :: vs) ∧
      Measured stateAttrs ((List.range 6).map fun k => .fin false (k + 1) 0) vs) ∧
    Measured covarianceAttrs ((List.range 21).map fun k => .fin false k 0)
      (numbered covarianceAttrs ((List.range 21).map fun k => .fin false k 0)) := by
  have hb : ∀ (c : Cls) (v : Val), (keyBlockB c v).isSome = true → ∃ l, KeyBlock c v l := by
    intro c v h
    obtain ⟨l, hl⟩ := Option.isSome_iff_exists.mp h
    exact ⟨l, keyBlock_of_b hl⟩
  refine ⟨hb _ _ (by decide +kernel), hb _ _ (by decide +kernel), date_of_b (by decide), ⟨_, rfl, ?_⟩, ?_⟩
  · exact .present (.present (.present (.present (.present (.present (.absent (.absent (.absent .nil))))))))
  · repeat first | exact .nil | apply Measured.present

end Ndm
