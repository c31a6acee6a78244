import Verif.Lemmas.EphTdm
import Verif.Lemmas.Inside
import Verif.Lemmas.GoodCheck
import Verif.Samples
import Verif.Props.Refuted
import Verif.Props.Ephemeris

/-! # C25, C34: tracking data messages

`WellFormedTdm` (`SpecEph.lean`) says what a well-formed TDM is. -/

namespace Ndm

/-! ## Well-formed samples -/

def tdmHeader : Val := mkObj .TdmHeader [(py "creation_date", S (py "2000-01-01")), (py "originator", S (py "X"))]

/-- Metadata of a TDM segment. -/
def tdmMeta (more : List (Str × Val)) : Val :=
  mkObj .TdmMetadata ([(py "time_system", .enum .TimeSystemType (py "UTC")), (py "participant_1", S (py "A"))] ++ more)

/-- Data of a TDM segment. -/
def tdmData (texts : List Str) (obs : List Val) : Val :=
  .obj .TdmData [(py "comment", .list (texts.map .str)), (py "observation", .list obs)]

/-- A segment to be built: metadata, comments, and quantity, epoch and number of the observations. -/
structure TdmSeg where
  md : Val
  texts : List Str
  obs : List (Str × Str × Dec)

def obsVal (p : Str × Str × Dec) : Val := observation p.1 p.2.1 (.dec p.2.2)
def obsLines (p : Str × Str × Dec) : List Line :=
  [[upper p.1, p.2.1 ++ List.replicate (30 - p.2.1.length) ' ' ++ p.2.2.toStr]]
def obsB (p : Str × Str × Dec) : Bool :=
  dateB p.2.1 && p.2.1.length < 30 &&
    (Cls.keyAttrs .TrackingDataObservationType).any fun f => f.name == p.1 && f.ty == .dec

theorem obs_of_b {p : Str × Str × Dec} (h : obsB p = true) : Observation (obsVal p) (obsLines p) := by
  simp only [obsB, Bool.and_eq_true, List.any_eq_true, beq_iff_eq, decide_eq_true_eq] at h
  obtain ⟨⟨h1, h2⟩, f, hf, hn, hty⟩ := h
  unfold obsVal obsLines
  rw [← hn]
  exact .mk (date_of_b h1) h2 hf hty

def undatedB : Line → Bool
  | _ :: v :: _ => match words v with
    | w :: _ => !isNumeric (w.take 4) || match w[4]? with
      | some c => c != '-'
      | none => false
    | [] => false
  | _ => false

theorem undated_of_b {l : Line} (h : undatedB l = true) : Undated l := by
  unfold undatedB at h
  split at h
  · rename_i k v r
    split at h
    · rename_i w ws hw
      refine ⟨k, v, r, w, ws, rfl, hw, ?_⟩
      rw [Bool.or_eq_true] at h
      rcases h with h | h
      · exact .inl (by simpa using h)
      · split at h
        · rename_i c hc
          exact .inr ⟨c, hc, by simpa using h⟩
        · cases h
    · cases h
  · cases h

def TdmSeg.val (s : TdmSeg) : Val := tdmSegment s.md (tdmData s.texts (s.obs.map obsVal))
def TdmSeg.dataLines (s : TdmSeg) : List Line := s.texts.map (fun t => [py "COMMENT", t]) ++ s.obs.flatMap obsLines

def tdmSegsB : List TdmSeg → Option (List Line)
  | [] => some []
  | s :: rest => match keyBlockB .TdmMetadata s.md, tdmSegsB rest with
    | some lm, some ls =>
      if s.texts.all commentB ∧ s.texts.length ≤ 1 ∧ s.obs ≠ [] ∧ s.obs.all obsB ∧
          ((∀ l ∈ ls, l.key ≠ py "COMMENT" → l.key ∈ (Cls.keyAttrs .TdmMetadata).map (fun f => upper f.name) →
            ∃ l' ∈ lm, l'.key = l.key) ∨
              (∀ l ∈ s.dataLines, l.key ≠ py "COMMENT") ∧ ¬ (s.dataLines.map Line.key).Nodup) ∧ ls.head?.all undatedB = true
      then some (lm ++ s.dataLines ++ ls) else none
    | _, _ => none

theorem tdmSegs_of_b : ∀ {segs : List TdmSeg} {ls : List Line}, tdmSegsB segs = some ls →
    TdmSegments Observation (segs.map TdmSeg.val) ls
  | [], ls, h => by cases h; exact .nil
  | s :: rest, ls, h => by
    unfold tdmSegsB at h
    split at h
    · rename_i lm ls' h1 h2
      split at h
      · rename_i hc
        obtain ⟨c1, c2, c3, c4, c5, c6⟩ := hc
        cases h
        refine .cons (keyBlock_of_b h1) (.mk (fun t ht => ?_) c2 ?_ (each_of_b (fun _ => obs_of_b) c4))
          (tdmSegs_of_b h2) c5 fun l hl => ?_
        · exact comment_of_b (List.all_eq_true.mp c1 t ht)
        · simpa using c3
        · rw [hl] at c6
          exact undated_of_b (by simpa using c6)
      · cases h
    · cases h

/-- The TDM with the given header and segments is well formed. -/
def tdmB (h : Val) (segs : List TdmSeg) : Bool :=
  (keyBlockB .TdmHeader h).isSome && (tdmSegsB segs).isSome && !segs.isEmpty

theorem tdm_of_b {h : Val} {segs : List TdmSeg} (hb : tdmB h segs = true) : WellFormedTdm (tdm h (segs.map TdmSeg.val)) := by
  simp only [tdmB, Bool.and_eq_true, Option.isSome_iff_exists] at hb
  obtain ⟨⟨⟨lh, h1⟩, ⟨ls, h2⟩⟩, h3⟩ := hb
  exact .mk (keyBlock_of_b h1) (by simpa using h3) (tdmSegs_of_b h2)

/-- Three segments with different quantities and comments. -/
def richTdm : List TdmSeg := [
  ⟨tdmMeta [(py "comment", .list [S (py "2000-01-01 is a date"), S (py "c = 2")]), (py "mode", .enum .ModeType (py "SEQUENTIAL")), (py "path", S (py "1,2"))], [py "data [x]"],
    [(py "range", py "2000-01-01T00:00:00.000", dec 5), (py "receive_freq_1", py "2000-01-01", dec (-70)), (py "rhumidity", py "2000-001", dec 0)]⟩,
  ⟨tdmMeta [(py "comment", .list [S (py "not a date")]), (py "path", S (py "2,1"))], [], [(py "doppler_integrated", py "2000-01-01T00:01", dec 1)]⟩,
  ⟨tdmMeta [], [py "c"], [(py "pressure", py "2000-01-01", dec 3), (py "pressure", py "2000-01-02", dec 4)]⟩]

example : WellFormedTdm (tdm tdmHeader (richTdm.map TdmSeg.val)) := tdm_of_b (by decide +kernel)

/-- A second segment with a metadata keyword the first one lacks, after repeated observations of one quantity. -/
def laterKeyword : List TdmSeg := [
  ⟨tdmMeta [], [], [(py "range", py "2000-01-01", dec 5), (py "doppler_integrated", py "2000-01-01", dec 1), (py "range", py "2000-01-02", dec 6)]⟩,
  ⟨tdmMeta [(py "path", S (py "2,1"))], [], [(py "doppler_integrated", py "2000-01-01T00:01", dec 1)]⟩]

example : WellFormedTdm (tdm tdmHeader (laterKeyword.map TdmSeg.val)) := tdm_of_b (by decide +kernel)

/-! ## C25 -/

/-- **C25**, what holds: a well-formed TDM is written, and what is written is read back as the same TDM. -/
theorem C25_partial (o : Val) (h : WellFormedTdm o) : ∃ text, kvnToString o = .ok text ∧ kvnFromString text = .ok o :=
  tdm_round_trip h

def oneObs : Val := tdmData [] [obsVal (py "range", py "2000-01-01", dec 5)]

def segmentPath (n : Nat) (rest : List Step) : List Step := [.f (py "body"), .f (py "segment"), .i n] ++ rest

/-- **C25 is false** as stated: when the second segment begins with a comment that begins with a date, this comment is
taken for an observation of the first segment, and the text that was written is not accepted. -/
theorem C25_refuted :
    writeRead (tdm tdmHeader [tdmSegment (tdmMeta []) oneObs,
      tdmSegment (tdmMeta [(py "comment", .list [S (py "2000-01-01 c")])]) oneObs]) = .error .parserError := by
  decide +kernel

/-- **C25 is false** also for segments of which a later one has a metadata keyword that an earlier one lacks, when the
earlier one observes every quantity once: the first block of metadata is then thought to reach up to that keyword. -/
theorem C25_refuted_keywords :
    writeRead (tdm tdmHeader [tdmSegment (tdmMeta []) oneObs, tdmSegment (tdmMeta [(py "path", S (py "1,2"))]) oneObs]) =
      .error .parserError := by
  decide +kernel

/-! ## C34 -/

/-- The quantities: all are numbers, except for the two angles, which may have a unit. -/
theorem C34_kinds : ∀ f ∈ Cls.keyAttrs .TrackingDataObservationType,
    f.name = py "epoch" ∨ f.ty = .dec ∨ ((f.name = py "angle_1" ∨ f.name = py "angle_2") ∧ f.ty = .cls .AngleType) := by
  decide +kernel

/-- What is written of an observation of a TDM is in the text. -/
theorem inTdm_written {h m co : Val} {segs obs : List Val} {x : Val} {text : Str}
    (hs : tdmSegment m (.obj .TdmData [(py "comment", co), (py "observation", .list obs)]) ∈ segs)
    (hx : x ∈ obs) (hw : kvnToString (tdm h segs) = .ok text) :
    ∃ full, text = joinWith (py "\n") full ∧ ObjLines (py "observation") x full := by
  obtain ⟨_, full, ho, rfl⟩ := kvnToString_obj (n := py "tdm") (i := (py "CCSDS_TDM_VERS", py "2.0")) (by decide) (by decide) (by decide) hw
  refine ⟨full, rfl, ?_⟩
  obtain ⟨_, a1, w1, p1⟩ := obj_inside (by decide) ho
  obtain ⟨_, a2, w2, p2⟩ := vars_inside (k := py "body") w1 (.tail _ (.head _))
  obtain ⟨_, a3, w3, p3⟩ := sub_inside (by decide) rfl w2
  obtain ⟨_, a4, w4, p4⟩ := vars_inside (k := py "segment") w3 (.head _)
  obtain ⟨_, a5, w5, p5⟩ := list_written (by decide) w4 hs
  obtain ⟨_, a6, w6, p6⟩ := obj_inside (by decide) w5
  obtain ⟨_, a7, w7, p7⟩ := vars_inside (k := py "data") w6 (.tail _ (.head _))
  obtain ⟨_, a8, w8, p8⟩ := sub_inside (by decide) rfl w7
  have p := ((((((p8.trans p7).trans p6).trans p5).trans p4).trans p3).trans p2).trans p1
  obtain ⟨_, a9, w9, p9⟩ := vars_inside (k := py "observation") w8 (.tail _ (.head _))
  obtain ⟨b, b', w, p'⟩ := list_written (by decide) w9 hx
  exact ⟨b, b', w, (p'.trans p9).trans p⟩

/-- **C34**, writing: whenever a TDM is written, every observation of a number in it appears as one line with the keyword,
the epoch and the number. -/
theorem C34_written (h m co : Val) (segs obs : List Val) (text e : Str) (f : Field) (d : Dec)
    (hw : kvnToString (tdm h segs) = .ok text)
    (hs : tdmSegment m (.obj .TdmData [(py "comment", co), (py "observation", .list obs)]) ∈ segs)
    (hx : observation f.name e (.dec d) ∈ obs) (hf : f ∈ Cls.keyAttrs .TrackingDataObservationType) (hty : f.ty = .dec) :
    HasLines text [ljust 20 (upper f.name) ++ py " = " ++ ljust 30 e ++ d.toStr ++ py " "] := by
  obtain ⟨full, rfl, out, o, h1, h2⟩ := inTdm_written hs hx hw
  rw [collate_observation hf hty] at h1
  cases h1
  exact lines_inside h2

/-- **C34**, what holds: an observation of any quantity other than the two angles, at any point in time of fewer than 30
characters and with any number, is written as one line and read back as the same observation. -/
theorem C34_partial (h m : Val) (lh lm : List Line) (e : Str) (f : Field) (d : Dec) (hh : KeyBlock .TdmHeader h lh)
    (hm : KeyBlock .TdmMetadata m lm) (he : DateText e) (hl : e.length < 30)
    (hf : f ∈ Cls.keyAttrs .TrackingDataObservationType) (hne : f.name ≠ py "epoch" ∧ f.name ≠ py "angle_1" ∧ f.name ≠ py "angle_2") :
    ∃ text, kvnToString (tdm h [tdmSegment m (tdmData [] [observation f.name e (.dec d)])]) = .ok text ∧
      HasLines text [ljust 20 (upper f.name) ++ py " = " ++ ljust 30 e ++ d.toStr ++ py " "] ∧
      kvnFromString text = .ok (tdm h [tdmSegment m (tdmData [] [observation f.name e (.dec d)])]) := by
  have hty : f.ty = .dec := by
    rcases C34_kinds f hf with h | h | ⟨h | h, -⟩
    · exact absurd h hne.1
    · exact h
    · exact absurd h hne.2.1
    · exact absurd h hne.2.2
  obtain ⟨text, h1, h2⟩ := C25_partial (tdm h [tdmSegment m (tdmData [] [observation f.name e (.dec d)])])
    (.mk hh (by simp) (.cons hm (.mk (texts := []) (by simp) (by simp) (by simp) (.cons (.mk he hl hf hty) .nil)) .nil
      (by simp) (by simp)))
  exact ⟨text, h1, C34_written h m (.list []) _ _ text e f d h1 (.head _) (.head _) hf hty, h2⟩

/-- **C34**, reading: a TDM text in which every observation line has a keyword of the schema (the two angles included), an
epoch and a number is read as a TDM with these observations. -/
theorem C34_read (src ver : Str) (raw lh ls : List Line) (h : Val) (segs : List Val) (hver : XmlText ver)
    (hsrc : (splitChar '\n' src).filterMap parseLine = [py "CCSDS_TDM_VERS", ver] :: raw)
    (hraw : raw.filter (fun l => !(l.key ∈ [py "META_START", py "META_STOP", py "DATA_START", py "DATA_STOP"])) = lh ++ ls)
    (hh : KeyBlockOf Spelled .TdmHeader h lh) (hs : TdmSegmentsOf Spelled Observed segs ls) (hne : segs ≠ []) :
    kvnFromString src = .ok (tdm h segs) := by
  refine read_tdm (ver₀ := py "2.0") (by decide) (xmlCheck_ok hver) hsrc ?_ hh hs hne
  rw [← hraw]
  unfold deleteMarkers
  congr 1
  funext l
  rw [List.contains_eq_mem]
  rfl

theorem collate_angle {n e : Str} {v : Val} (hv : ∀ d, v ≠ .dec d) {key : Str} {out : List Str} :
    collateObj key out (observation n e v) = .error .indexError := by
  have hso : isSpecialOut .TrackingDataObservationType = true := by decide
  have hitems : ((Cls.keyAttrs .TrackingDataObservationType).map fun g =>
      (g.name, if g.name = py "epoch" then Val.str e else if g.name = n then v else .none)).filter
      (fun p => (match p.2 with | .dec _ => true | _ => false) && p.1 != py "epoch") = [] := by
    rw [List.filter_eq_nil_iff]
    intro p hp
    obtain ⟨g, -, rfl⟩ := List.mem_map.mp hp
    by_cases h1 : g.name = py "epoch"
    · simp [h1]
    · by_cases h2 : g.name = n
      · rw [if_neg h1, if_pos h2]
        cases v with
        | dec d => exact absurd rfl (hv d)
        | _ => simp
      · simp [h1, h2]
  have : writeObservation ((Cls.keyAttrs .TrackingDataObservationType).map fun g =>
      (g.name, if g.name = py "epoch" then .str e else if g.name = n then v else .none)) = .error .indexError := by
    unfold writeObservation
    erw [hitems]
    rfl
  simp only [observation, collateObj, hso, if_true, writeSpecial, reduceCtorEq, if_false, this, bind, Except.bind]

/-- A text with an angle in degrees and a range, and what is read from it. -/
example : ∃ v1 v2 ls, TdmSegments Observed [tdmSegment (tdmMeta []) (tdmData [] [v1, v2])] ls ∧
    ls.drop 2 = [[py "ANGLE_1", py "2000-01-01  5"], [py "RANGE", py "2000-01-01 \t 7"]] := by
  have hm : ∃ lm, KeyBlock .TdmMetadata (tdmMeta []) lm ∧ lm.length = 2 := by
    obtain ⟨l, hl⟩ := Option.isSome_iff_exists.mp (show (keyBlockB .TdmMetadata (tdmMeta [])).isSome = true by decide +kernel)
    have h2 : (keyBlockB .TdmMetadata (tdmMeta [])).map List.length = some 2 := by decide +kernel
    rw [hl] at h2
    exact ⟨l, keyBlock_of_b hl, by simpa using h2⟩
  obtain ⟨lm, hm, hl⟩ := hm
  have hd : DateText (py "2000-01-01") := date_of_b (by decide)
  have h1 : ∃ f ∈ Cls.keyAttrs .TrackingDataObservationType, f.name = py "angle_1" ∧ f.ty = .cls .AngleType := by decide +kernel
  have h2 : ∃ f ∈ Cls.keyAttrs .TrackingDataObservationType, f.name = py "range" ∧ f.ty = .dec := by decide +kernel
  obtain ⟨f, hf, hn, hty⟩ := h1
  obtain ⟨g, hg, hn', hty'⟩ := h2
  have o1 : Observed (observation f.name (py "2000-01-01") (number .AngleType (.fin false 5 0))) [[py "ANGLE_1", py "2000-01-01  5"]] := by
    have := Observed.mk (f := f) (v := number .AngleType (.fin false 5 0)) hd (s := py "2000-01-01  5") (t := py "5") (by decide) hf
      (by rw [hn]; decide) (by exact .number (u := .AngleUnits) hty (quantity_of_units (by decide +kernel)) (by decide) (by decide))
    rw [hn] at this ⊢
    exact this
  have o2 : Observed (observation g.name (py "2000-01-01") (.dec (.fin false 7 0))) [[py "RANGE", py "2000-01-01 \t 7"]] := by
    have := Observed.mk (f := g) (v := .dec (.fin false 7 0)) hd (s := py "2000-01-01 \t 7") (t := py "7") (by decide) hg
      (by rw [hn']; decide) (by exact .dec hty' (by decide) (by decide))
    rw [hn'] at this ⊢
    exact this
  refine ⟨_, _, _, .cons hm (.mk (texts := []) (by simp) (by simp) (by simp) (.cons o1 (.cons o2 .nil))) .nil (by simp) (by simp), ?_⟩
  rw [List.append_nil, ← hl, List.drop_left]
  rfl

/-- **C34 is false** for the two angles: no TDM with an observation of an angle can be written. -/
theorem C34_refuted_angles (h m co : Val) (segs obs : List Val) (n e : Str) (v : Val) (hv : ∀ d, v ≠ .dec d)
    (hs : tdmSegment m (.obj .TdmData [(py "comment", co), (py "observation", .list obs)]) ∈ segs)
    (hx : observation n e v ∈ obs) : ∀ text, kvnToString (tdm h segs) ≠ .ok text := by
  intro text hw
  obtain ⟨full, rfl, out, o, h1, h2⟩ := inTdm_written hs hx hw
  rw [collate_angle hv] at h1
  cases h1

/-- **C34 is false** for points in time of 30 characters and more: the number is glued to the epoch. -/
theorem C34_refuted_epoch :
    ∃ v, writeRead (tdm tdmHeader [tdmSegment (tdmMeta []) (tdmData []
        [obsVal (py "range", py "2000-01-01T00:00:00.0000000000Z", dec 5)])]) = .ok v ∧
      v.at (segmentPath 0 [.f (py "data"), .f (py "observation"), .i 0, .f (py "epoch")]) = some (S (py "2000-01-01T00:00:00.0000000000Z0.005")) :=
  ok_of_check _ (by decide +kernel)

end Ndm
