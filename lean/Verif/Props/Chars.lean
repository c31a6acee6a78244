import Verif.Lemmas.Chars
import Verif.Lemmas.CharsRead
import Verif.Props.Files
import Verif.Props.Rewriting
import Verif.Props.XmlRoundTrip

/-! # C81: the characters of what is written in KVN -/

namespace Ndm

/-- **C81.** Writing KVN adds nothing to the texts of a message but printable ASCII characters and line feeds: whatever class of
characters has these, and with a character its upper case (names of user-defined parameters are written in upper case), it has the
characters of the written text if it has those of the texts in the message. -/
theorem C81_characters (P : Char → Prop) (hP : CharClass P) (c : Cls) (o : Val) (hc : HasType (.cls c) o) (h : TextsIn P o) (t : Str)
    (ht : kvnToString o = .ok t) : ∀ x ∈ t, P x :=
  kvnToString_in hP hc h ht

theorem upper_ascii {c u : Char} (h : c.toNat < 128) (hu : u ∈ upperChar c) : u = c ∨ Printable u := by
  unfold upperChar at hu
  have : isAscii c = true := by simp [isAscii, h]
  rw [if_pos this] at hu
  split at hu
  · next hl =>
    right
    rw [List.mem_singleton.mp hu]
    simp only [isAsciiLower, Bool.and_eq_true, decide_eq_true_eq] at hl
    have hv : (c.toNat - 32).isValidChar := Or.inl (by omega)
    have : (Char.ofNat (c.toNat - 32)).toNat = c.toNat - 32 := by
      rw [Char.ofNat, dif_pos hv]
      rfl
    unfold Printable
    omega
  · left
    exact List.mem_singleton.mp hu

theorem printable_class : CharClass fun c => Printable c ∨ c = '\n' where
  printable _ h := .inl h
  newline := .inr rfl
  upper c h u hu := by
    have h' : c.toNat < 128 := by
      rcases h with h | rfl
      · unfold Printable at h
        omega
      · decide
    rcases upper_ascii h' hu with rfl | hp
    · exact h
    · exact .inl hp

theorem ascii_class : CharClass fun c => c.toNat < 128 ∧ c ≠ '\r' where
  printable c h := by
    unfold Printable at h
    refine ⟨by omega, ?_⟩
    rintro rfl
    exact absurd h.1 (by decide)
  newline := by decide
  upper c h u hu := by
    rcases upper_ascii h.1 hu with rfl | hp
    · exact h
    · unfold Printable at hp
      refine ⟨by omega, ?_⟩
      rintro rfl
      exact absurd hp.1 (by decide)

/-- **C81.** If the texts of a message are printable ASCII, so are the lines written. -/
theorem C81_printable (c : Cls) (o : Val) (hc : HasType (.cls c) o) (h : TextsIn Printable o) (t : Str) (ht : kvnToString o = .ok t) :
    ∀ x ∈ t, Printable x ∨ x = '\n' :=
  kvnToString_in printable_class hc (fun s hs x hx => .inl (h s hs x hx)) ht

/-- **C81.** Reading does not add characters either: in any such class, if the characters of a text in KVN are in it, so are those of the
texts in the object it gives, and those of what is written for that object. -/
theorem C81_rewritten (P : Char → Prop) (hP : CharClass P) (s : KvnSelf) (src : Str) (hs : ∀ x ∈ src, P x) (v : Val)
    (h : (s.fromString src).1 = .ok v) : TextsIn P v ∧ ∀ t, kvnToString v = .ok t → ∀ x ∈ t, P x := by
  rw [kvn_history_independent] at h
  have hv := kvnFromString_in hP hs h
  obtain ⟨kind, -, hc⟩ := C38_conforms src v h
  exact ⟨hv, fun t ht => kvnToString_in hP hc hv ht⟩

theorem newlines_ascii (P : Platform) {t : Str} (h : ∀ x ∈ t, x.toNat < 128) : ∀ x ∈ P.newlines t, x.toNat < 128 := by
  unfold Platform.newlines
  split
  · intro x hx
    obtain ⟨y, hy, hx⟩ := List.mem_flatMap.mp hx
    split at hx
    · simp only [List.mem_cons, List.not_mem_nil, or_false] at hx
      rcases hx with rfl | rfl <;> decide
    · rw [List.mem_singleton.mp hx]
      exact h y hy
  · exact h

/-- **C81.** So a well-formed message with ASCII texts without carriage returns comes back from a file, wherever the file can be opened
and the text encoding of the platform covers ASCII, with either line separator. -/
theorem C81_files (lib : XmlLib) (P : Platform) (hP : AsciiFiles P) (d : Disk) (o : Val) (h : WellFormedMessage o)
    (ha : TextsIn (fun c => c.toNat < 128 ∧ c ≠ '\r') o) (p : Str) (hw : P.writable p = true) (loc noNs : Option Str) :
    ∃ d', ndmToFile lib P d o .kvn (.path p) loc noNs = (.ok (), d') ∧ kvnToFile P d o (.path p) = (.ok (), d') ∧
      ∀ path : PathArg, path.name = p → ndmFromPath lib P d' path = .ok o ∧ ∀ s : KvnSelf, (s.fromPath P d' path).1 = .ok o := by
  obtain ⟨c, vs, rfl, -⟩ := h.kind
  have key : ∀ t, kvnToString (.obj c vs) = .ok t → ∀ x ∈ t, x.toNat < 128 ∧ x ≠ '\r' :=
    fun t ht => kvnToString_in ascii_class (wellFormed_conforms h).2 ha ht
  refine C44_messages_partial lib P d _ h p loc noNs (fun t ht hx => (key t ht _ hx).2 rfl) fun t ht => ⟨hw, ?_⟩
  exact hP _ (newlines_ascii P fun x hx => (key t ht x hx).1)

/-! ## Cases -/

mutual
/-- A check of all texts. -/
def textsAll (p : Str → Bool) : Val → Bool
  | .str s => p s
  | .obj _ vs => textsAllVars p vs
  | .list xs => textsAllList p xs
  | _ => true
def textsAllVars (p : Str → Bool) : List (Str × Val) → Bool
  | [] => true
  | (_, v) :: vs => textsAll p v && textsAllVars p vs
def textsAllList (p : Str → Bool) : List Val → Bool
  | [] => true
  | v :: vs => textsAll p v && textsAllList p vs
end

theorem textsAllVars_mem {p : Str → Bool} {n : Str} {x : Val} : ∀ {vs : List (Str × Val)}, textsAllVars p vs = true → (n, x) ∈ vs → textsAll p x = true
  | [], _, h => by cases h
  | (k, v) :: vs, h, hm => by
    simp only [textsAllVars, Bool.and_eq_true] at h
    rcases List.mem_cons.mp hm with e | hm
    · cases e; exact h.1
    · exact textsAllVars_mem h.2 hm

theorem textsAllList_mem {p : Str → Bool} {x : Val} : ∀ {vs : List Val}, textsAllList p vs = true → x ∈ vs → textsAll p x = true
  | [], _, h => by cases h
  | v :: vs, h, hm => by
    simp only [textsAllList, Bool.and_eq_true] at h
    rcases List.mem_cons.mp hm with e | hm
    · cases e; exact h.1
    · exact textsAllList_mem h.2 hm

theorem textsAll_within {p : Str → Bool} {s : Str} {v : Val} (hw : Within (.str s) v) : textsAll p v = true → p s = true := by
  induction hw with
  | self => exact id
  | field hm _ ih => exact fun h => ih (textsAllVars_mem (by simpa only [textsAll] using h) hm)
  | item hm _ ih => exact fun h => ih (textsAllList_mem (by simpa only [textsAll] using h) hm)

theorem textsIn_of {v : Val} (h : textsAll (fun s => s.all printable) v = true) : TextsIn Printable v :=
  fun _ hs c hc => printable_of (List.all_eq_true.mp (textsAll_within hs h) c hc)

-- messages of several kinds are well-formed, and their texts printable
example : (WellFormedMessage richOpm ∧ TextsIn Printable richOpm) ∧
    (WellFormedMessage (oem header (richOem.map OemSeg.val)) ∧ TextsIn Printable (oem header (richOem.map OemSeg.val))) ∧
    (WellFormedMessage (tdm tdmHeader (richTdm.map TdmSeg.val)) ∧ TextsIn Printable (tdm tdmHeader (richTdm.map TdmSeg.val))) ∧
    (WellFormedMessage (aem header (richAem.map AemSeg.val)) ∧ TextsIn Printable (aem header (richAem.map AemSeg.val))) :=
  ⟨⟨.plain (c := .Opm) (by decide) (wellFormed_of_b (by decide +kernel)), textsIn_of (by decide +kernel)⟩,
    ⟨.oem (oem_of_b (by decide +kernel)), textsIn_of (by decide +kernel)⟩,
    ⟨.tdm (tdm_of_b (by decide +kernel)), textsIn_of (by decide +kernel)⟩,
    ⟨.aem (aem_of_b (by decide +kernel)), textsIn_of (by decide +kernel)⟩⟩

-- a text in such a class that can be read and written
example : CharClass (fun c => c.toNat < 128 ∧ c ≠ '\r') ∧ ∃ v t, (({} : KvnSelf).fromString freeOpmText).1 = .ok v ∧ kvnToString v = .ok t ∧ 10 ≤ t.length ∧
    ∀ x ∈ freeOpmText, x.toNat < 128 ∧ x ≠ '\r' := by
  refine ⟨ascii_class, ?_⟩
  have h : ((({} : KvnSelf).fromString freeOpmText).1.toOption.any fun v => (kvnToString v).toOption.any fun t => decide (10 ≤ t.length)) = true := by
    decide +kernel
  have hc : (freeOpmText.all fun c => decide (c.toNat < 128 ∧ c ≠ '\r')) = true := by decide +kernel
  cases hv : (({} : KvnSelf).fromString freeOpmText).1 with
  | error e => rw [hv] at h; cases h
  | ok v =>
    rw [hv] at h
    simp only [Except.toOption, Option.any_some] at h
    cases ht : kvnToString v with
    | error e => rw [ht] at h; cases h
    | ok t =>
      rw [ht] at h
      simp only [Option.any_some, decide_eq_true_eq] at h
      refine ⟨v, t, rfl, ht, h, fun x hx => ?_⟩
      exact of_decide_eq_true (List.all_eq_true.mp hc x hx)

-- a platform whose encoding is ASCII covers ASCII
example : AsciiFiles ascii := by
  intro s hs
  have h1 : (s.all (·.toNat < 128)) = true := List.all_eq_true.mpr fun c hc => by simp [hs c hc]
  have h8 : ∀ c ∈ s, (c.toNat.toUInt8).toNat = c.toNat := fun c hc => by
    have := hs c hc
    simp only [Nat.toUInt8, UInt8.toNat_ofNat']
    omega
  refine ⟨s.map fun c => c.toNat.toUInt8, by simp only [ascii]; rw [if_pos h1], ?_⟩
  have h2 : ((s.map fun c => c.toNat.toUInt8).all (·.toNat < 128)) = true := by
    refine List.all_eq_true.mpr fun b hb => ?_
    obtain ⟨c, hc, rfl⟩ := List.mem_map.mp hb
    rw [h8 c hc]
    simp [hs c hc]
  simp only [ascii]
  rw [if_pos h2, List.map_map]
  congr 1
  conv_rhs => rw [← List.map_id s]
  refine List.map_congr_left fun c hc => ?_
  simp only [Function.comp_apply, id, h8 c hc, Char.ofNat_toNat]

-- a text that is not ASCII is written as it is
example : ∃ t, kvnToString (namedOpm (py "é")) = .ok t ∧ 'é' ∈ t := by
  have h : ((kvnToString (namedOpm (py "é"))).toOption.any fun t => decide ('é' ∈ t)) = true := by decide +kernel
  cases ht : kvnToString (namedOpm (py "é")) with
  | error e => rw [ht] at h; cases h
  | ok t =>
    rw [ht] at h
    exact ⟨t, rfl, by simpa [Except.toOption] using h⟩

end Ndm
