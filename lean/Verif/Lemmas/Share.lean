import Verif.SpecShare
import Verif.Props.Files

/-! Threads that share a disk. -/

namespace Ndm

variable {lib : XmlLib} {P : Platform}

/-! ## One thread alone -/

theorem Disk.set_set (d : Disk) (p : Str) (b b' : List UInt8) : (d.set p b).set p b' = d.set p b' := by
  funext q
  unfold Disk.set
  split <;> rfl

theorem take_len {α : Type} (l : List α) (n : Nat) : l.take (l.take n).length = l.take n := by
  rw [List.length_take, List.take_eq_take_iff]
  omega

theorem overwrite_end (b : List UInt8) (k n : Nat) (hk : k ≤ b.length) :
    overwrite (b.take k) k ((b.drop k).take n) = b.take (k + ((b.drop k).take n).length) := by
  have hl : (b.take k).length = k := by rw [List.length_take]; omega
  have h1 : (b.take k).take k = b.take k := by rw [List.take_take, Nat.min_self]
  have h2 : (b.take k).drop (k + ((b.drop k).take n).length) = [] := List.drop_of_length_le (by omega)
  have h3 := List.take_add (l := b) (i := k) (j := ((b.drop k).take n).length)
  rw [take_len] at h3
  unfold overwrite
  rw [h1, h2, h3, hl, Nat.sub_self, List.replicate_zero, List.append_nil, List.append_nil]

/-- A thread that is executing the calls `cs`, begun with the disk `d` and the results `rs`: it needs at most `w` more steps. -/
inductive Point (lib : XmlLib) (P : Platform) (rs : List FileResult) (d : Disk) :
    List FileCall → Nat → FileThread → Disk → Prop
  | idle (cs : List FileCall) : Point lib P rs d cs (callSteps lib P d cs) ⟨none, cs, rs⟩ d
  | reading {path : PathArg} {b : List UInt8} (k : Nat) (cs : List FileCall) : d path.name = some b → k ≤ b.length →
      Point lib P rs d (.read path :: cs) (b.length - k + 1 + callSteps lib P d cs) ⟨some (.reading path.name (b.take k)), cs, rs⟩ d
  | writing {o : Val} {f : Fmt} {path : PathArg} {loc noNs : Option Str} {t : Str} {b : List UInt8} (k : Nat) (cs : List FileCall) :
      ndmFileText lib o f path loc noNs = .ok t → P.writable path.name = true → P.encode (P.newlines t) = some b → k ≤ b.length →
      Point lib P rs d (.write o f path loc noNs :: cs) (b.length - k + 1 + callSteps lib P (d.set path.name b) cs)
        ⟨some (.writing path.name (b.drop k) k), cs, rs⟩ (d.set path.name (b.take k))
  | failing {o : Val} {f : Fmt} {path : PathArg} {loc noNs : Option Str} {t : Str} (cs : List FileCall) :
      ndmFileText lib o f path loc noNs = .ok t → P.writable path.name = true → P.encode (P.newlines t) = none →
      Point lib P rs d (.write o f path loc noNs :: cs) (1 + callSteps lib P (d.set path.name []) cs)
        ⟨some .failing, cs, rs⟩ (d.set path.name [])

theorem steps_pos (d : Disk) (c : FileCall) : 0 < c.steps lib P d := by
  cases c with
  | read => simp [FileCall.steps]
  | write => simp only [FileCall.steps]; split <;> omega

theorem write_result {d : Disk} {o : Val} {f : Fmt} {path : PathArg} {loc noNs : Option Str} {t : Str}
    (h : ndmFileText lib o f path loc noNs = .ok t) : ndmToFile lib P d o f path loc noNs = writeText P d path.name t := by
  rw [ndmToFile_eq, h]
  rfl

theorem point_step {rs : List FileResult} {d : Disk} {cs : List FileCall} {w : Nat} {th : FileThread} {e : Disk}
    (h : Point lib P rs d cs w th e) (n : Nat) :
    ∃ rs' d' cs' w', Point lib P rs' d' cs' w' (th.step lib P e n).1 (th.step lib P e n).2 ∧ (w' < w ∨ w = 0 ∧ w' = 0) ∧
      rs' ++ callResults lib P d' cs' = rs ++ callResults lib P d cs ∧
      cs'.foldl (FileCall.run lib P) d' = cs.foldl (FileCall.run lib P) d := by
  cases h with
  | idle =>
    cases cs with
    | nil => exact ⟨rs, d, [], _, .idle [], .inr ⟨rfl, rfl⟩, rfl, rfl⟩
    | cons c cs =>
      cases c with
      | read path =>
        simp only [FileThread.step, FileCall.openFile, callSteps, FileCall.steps]
        cases hd : d path.name with
        | none =>
          refine ⟨rs ++ [.read (.error .osError)], d, cs, _, .idle cs, .inl ?_, ?_, rfl⟩
          · simp only [FileCall.run]; omega
          · simp [callResults, FileCall.result, FileCall.run, ndmFromPath, readText, hd, bind, Except.bind]
        | some b =>
          refine ⟨rs, d, .read path :: cs, _, .reading 0 cs hd (Nat.zero_le _), .inl ?_, rfl, rfl⟩
          simp only [Option.getD_some, FileCall.run]; omega
      | write o f path loc noNs =>
        simp only [FileThread.step, FileCall.openFile, callSteps, FileCall.steps]
        cases ht : ndmFileText lib o f path loc noNs with
        | error err =>
          have hr : ndmToFile lib P d o f path loc noNs = (.error err, d) := by rw [ndmToFile_eq, ht]; rfl
          refine ⟨rs ++ [.wrote (.error err)], d, cs, _, .idle cs, .inl ?_, ?_, ?_⟩
          · simp only [FileCall.run, hr]; omega
          · simp [callResults, FileCall.result, FileCall.run, hr]
          · simp [FileCall.run, hr]
        | ok t =>
          have hr := write_result (P := P) (d := d) ht
          dsimp only
          by_cases hw : P.writable path.name = true
          · rw [if_pos hw]
            cases hb : P.encode (P.newlines t) with
            | none =>
              refine ⟨rs, d, .write o f path loc noNs :: cs, _, .failing cs ht hw hb, .inl ?_, rfl, rfl⟩
              simp only [FileCall.run, hr, writeText, if_pos hw, hb]; simp
            | some b =>
              have := Point.writing (rs := rs) (d := d) 0 cs ht hw hb (Nat.zero_le _)
              refine ⟨rs, d, .write o f path loc noNs :: cs, _, this, .inl ?_, rfl, rfl⟩
              simp only [FileCall.run, hr, writeText, if_pos hw, hb, Option.getD_some]; omega
          · rw [if_neg hw]
            have hr' : ndmToFile lib P d o f path loc noNs = (.error .osError, d) := by rw [hr, writeText, if_neg hw]
            refine ⟨rs ++ [.wrote (.error .osError)], d, cs, _, .idle cs, .inl ?_, ?_, ?_⟩
            · simp only [FileCall.run, hr']; omega
            · simp [callResults, FileCall.result, FileCall.run, hr']
            · simp [FileCall.run, hr']
  | @reading path b k cs hd hk =>
    have hl : (b.take k).length = k := by rw [List.length_take]; omega
    simp only [FileThread.step, FileTask.step, hd, Option.getD_some, hl]
    cases hc : (b.drop k).take (n + 1) with
    | nil =>
      have hkb : k = b.length := by
        have := congrArg List.length hc
        simp only [List.length_take, List.length_drop, List.length_nil] at this
        omega
      subst hkb
      refine ⟨rs ++ [.read (readBytes lib P (b.take b.length))], d, cs, _, .idle cs, .inl (by omega), ?_, rfl⟩
      have : ndmFromPath lib P d path = readBytes lib P b := by
        unfold ndmFromPath readText readBytes
        rw [hd]
        dsimp only
        cases P.decode b <;> rfl
      simp [callResults, FileCall.result, FileCall.run, this]
    | cons x xs =>
      have hlen := congrArg List.length hc
      simp only [List.length_take, List.length_drop, List.length_cons] at hlen
      have hg : b.take k ++ x :: xs = b.take (k + (x :: xs).length) := by
        have := List.take_add (l := b) (i := k) (j := ((b.drop k).take (n + 1)).length)
        rw [take_len, hc] at this
        exact this.symm
      dsimp only
      rw [hg]
      refine ⟨rs, d, .read path :: cs, _, .reading (k + (x :: xs).length) cs hd ?_, .inl ?_, rfl, rfl⟩
      · simp only [List.length_cons]; omega
      · simp only [List.length_cons]; omega
  | @writing o f path loc noNs t b k cs ht hw hb hk =>
    have hr := write_result (P := P) (d := d) ht
    have hr' : ndmToFile lib P d o f path loc noNs = (.ok (), d.set path.name b) := by rw [hr, writeText, if_pos hw, hb]
    cases hc : b.drop k with
    | nil =>
      have hkb : k = b.length := by
        have := congrArg List.length hc
        simp only [List.length_drop, List.length_nil] at this
        omega
      subst hkb
      simp only [FileThread.step, FileTask.step, List.take_length]
      refine ⟨rs ++ [.wrote (.ok ())], d.set path.name b, cs, _, .idle cs, .inl (by omega), ?_, ?_⟩
      · simp [callResults, FileCall.result, FileCall.run, hr']
      · simp [FileCall.run, hr']
    | cons x xs =>
      simp only [FileThread.step, FileTask.step]
      rw [← hc]
      have hlen : (b.drop k).length ≠ 0 := by rw [hc]; simp
      rw [List.length_drop] at hlen
      rw [Disk.set_same, Disk.set_set, Option.getD_some, overwrite_end b k (n + 1) hk]
      have hL : ((b.drop k).take (n + 1)).length ≤ b.length - k := by rw [List.length_take, List.length_drop]; omega
      have hL' : 0 < ((b.drop k).take (n + 1)).length := by rw [List.length_take, List.length_drop]; omega
      have hdrop : (b.drop k).drop (n + 1) = b.drop (k + ((b.drop k).take (n + 1)).length) := by
        rw [List.drop_drop, List.length_take, List.length_drop]
        by_cases h : n + 1 ≤ b.length - k
        · rw [Nat.min_eq_left h]
        · rw [Nat.min_eq_right (by omega), List.drop_of_length_le (by omega), List.drop_of_length_le (by omega)]
      rw [hdrop]
      refine ⟨rs, d, .write o f path loc noNs :: cs, _,
        .writing (k + ((b.drop k).take (n + 1)).length) cs ht hw hb (by omega), .inl (by omega), rfl, rfl⟩
  | @failing o f path loc noNs t cs ht hw hb =>
    have hr := write_result (P := P) (d := d) ht
    have hr' : ndmToFile lib P d o f path loc noNs = (.error .valueError, d.set path.name []) := by rw [hr, writeText, if_pos hw, hb]
    simp only [FileThread.step, FileTask.step]
    refine ⟨rs ++ [.wrote (.error .valueError)], d.set path.name [], cs, _, .idle cs, .inl (by omega), ?_, ?_⟩
    · simp [callResults, FileCall.result, FileCall.run, hr']
    · simp [FileCall.run, hr']

/-- The steps of one thread, alone. -/
def soloRun (lib : XmlLib) (P : Platform) (x : FileThread × Disk) (ns : List Nat) : FileThread × Disk :=
  ns.foldl (fun x n => x.1.step lib P x.2 n) x

theorem point_run (ns : List Nat) : ∀ {rs : List FileResult} {d : Disk} {cs : List FileCall} {w : Nat} {th : FileThread} {e : Disk},
    Point lib P rs d cs w th e →
    ∃ rs' d' cs' w', Point lib P rs' d' cs' w' (soloRun lib P (th, e) ns).1 (soloRun lib P (th, e) ns).2 ∧ (w' + ns.length ≤ w ∨ w' = 0) ∧
      rs' ++ callResults lib P d' cs' = rs ++ callResults lib P d cs ∧
      cs'.foldl (FileCall.run lib P) d' = cs.foldl (FileCall.run lib P) d := by
  induction ns with
  | nil => intro rs d cs w th e h; exact ⟨rs, d, cs, w, h, .inl (by simp), rfl, rfl⟩
  | cons n ns ih =>
    intro rs d cs w th e h
    obtain ⟨rs1, d1, cs1, w1, h1, hw1, hr1, hd1⟩ := point_step h n
    obtain ⟨rs2, d2, cs2, w2, h2, hw2, hr2, hd2⟩ := ih h1
    refine ⟨rs2, d2, cs2, w2, h2, ?_, hr2.trans hr1, hd2.trans hd1⟩
    rw [List.length_cons]
    omega

theorem point_results {rs : List FileResult} {d : Disk} {cs : List FileCall} {w : Nat} {th : FileThread} {e : Disk}
    (h : Point lib P rs d cs w th e) : th.results = rs := by
  cases h <;> rfl

theorem point_done {rs : List FileResult} {d : Disk} {cs : List FileCall} {th : FileThread} {e : Disk}
    (h : Point lib P rs d cs 0 th e) : cs = [] ∧ e = d := by
  generalize hw : 0 = w at h
  cases h with
  | idle =>
    cases cs with
    | nil => exact ⟨rfl, rfl⟩
    | cons c cs =>
      have := steps_pos (lib := lib) (P := P) d c
      simp only [callSteps] at hw
      omega
  | reading => omega
  | writing => omega
  | failing => omega

theorem solo_results (d : Disk) (cs : List FileCall) (ns : List Nat) :
    let x := soloRun lib P ({ todo := cs }, d) ns
    x.1.results <+: callResults lib P d cs ∧ (callSteps lib P d cs ≤ ns.length →
      x.1.results = callResults lib P d cs ∧ x.2 = cs.foldl (FileCall.run lib P) d) := by
  obtain ⟨rs', d', cs', w', h, hw, hr, hd⟩ := point_run ns (Point.idle (lib := lib) (P := P) (rs := []) (d := d) cs)
  have hres := point_results h
  dsimp only
  rw [hres]
  rw [List.nil_append] at hr
  refine ⟨⟨_, hr⟩, fun hle => ?_⟩
  have : w' = 0 := by omega
  subst this
  obtain ⟨rfl, he⟩ := point_done h
  refine ⟨?_, ?_⟩
  · rw [← hr]; simp [callResults]
  · rw [he, ← hd]; rfl

/-! ## Threads that do not share what is written -/

/-- The thread executes calls of `cs`. -/
structure OfCalls (cs : List FileCall) (th : FileThread) : Prop where
  todo : ∀ c ∈ th.todo, c ∈ cs
  reading : ∀ p got, th.current = some (.reading p got) → ∃ c ∈ cs, c.file = p
  writing : ∀ p rest off, th.current = some (.writing p rest off) → ∃ c ∈ cs, c.Writes ∧ c.file = p

theorem ofCalls_step {cs : List FileCall} {th : FileThread} (h : OfCalls cs th) (d : Disk) (n : Nat) :
    OfCalls cs (th.step lib P d n).1 ∧ ∀ q, (∀ c ∈ cs, c.Writes → c.file ≠ q) → (th.step lib P d n).2 q = d q := by
  obtain ⟨current, todo, results⟩ := th
  obtain ⟨ht, hr, hw⟩ := h
  dsimp only at ht hr hw
  cases current with
  | none =>
    cases todo with
    | nil => exact ⟨⟨ht, hr, hw⟩, fun _ _ => rfl⟩
    | cons c todo =>
      have hc := ht c List.mem_cons_self
      have ht' : ∀ c ∈ todo, c ∈ cs := fun c hc => ht c (List.mem_cons_of_mem _ hc)
      cases c with
      | read path =>
        simp only [FileThread.step, FileCall.openFile]
        split
        · exact ⟨⟨ht', (by intro p got h; cases h), (by intro p rest off h; cases h)⟩, fun _ _ => rfl⟩
        · refine ⟨⟨ht', ?_, (by intro p rest off h; cases h)⟩, fun _ _ => rfl⟩
          intro p got h
          cases h
          exact ⟨_, hc, rfl⟩
      | write o f path loc noNs =>
        simp only [FileThread.step, FileCall.openFile]
        split
        · exact ⟨⟨ht', (by intro p got h; cases h), (by intro p rest off h; cases h)⟩, fun _ _ => rfl⟩
        · split
          · split
            · refine ⟨⟨ht', (by intro p got h; cases h), (by intro p rest off h; cases h)⟩, fun q hq => ?_⟩
              exact Disk.set_other _ _ (Ne.symm (hq _ hc trivial))
            · refine ⟨⟨ht', (by intro p got h; cases h), ?_⟩, fun q hq => ?_⟩
              · intro p rest off h
                cases h
                exact ⟨_, hc, trivial, rfl⟩
              · exact Disk.set_other _ _ (Ne.symm (hq _ hc trivial))
          · exact ⟨⟨ht', (by intro p got h; cases h), (by intro p rest off h; cases h)⟩, fun _ _ => rfl⟩
  | some k =>
    cases k with
    | reading p got =>
      simp only [FileThread.step, FileTask.step]
      split
      · exact ⟨⟨ht, (by intro p got h; cases h), (by intro p rest off h; cases h)⟩, fun _ _ => rfl⟩
      · refine ⟨⟨ht, ?_, (by intro p rest off h; cases h)⟩, fun _ _ => rfl⟩
        intro p' got' h
        cases h
        exact hr p got rfl
    | writing p rest off =>
      cases rest with
      | nil => exact ⟨⟨ht, (by intro p got h; cases h), (by intro p rest off h; cases h)⟩, fun _ _ => rfl⟩
      | cons x rest =>
        simp only [FileThread.step, FileTask.step]
        obtain ⟨c, hc, hcw, hcf⟩ := hw p _ off rfl
        refine ⟨⟨ht, (by intro p got h; cases h), ?_⟩, fun q hq => ?_⟩
        · intro p' rest' off' h
          cases h
          exact ⟨c, hc, hcw, hcf⟩
        · exact Disk.set_other _ _ (Ne.symm (hcf ▸ hq c hc hcw))
    | failing => exact ⟨⟨ht, (by intro p got h; cases h), (by intro p rest off h; cases h)⟩, fun _ _ => rfl⟩

theorem set_agree {d e : Disk} {p q : Str} {b : List UInt8} (h : d q = e q) : d.set p b q = e.set p b q := by
  unfold Disk.set
  split <;> simp [h]

theorem step_agree {cs : List FileCall} {th : FileThread} (h : OfCalls cs th) {d e : Disk} (hd : ∀ c ∈ cs, d c.file = e c.file) (n : Nat) :
    (th.step lib P d n).1 = (th.step lib P e n).1 ∧ ∀ c ∈ cs, (th.step lib P d n).2 c.file = (th.step lib P e n).2 c.file := by
  obtain ⟨current, todo, results⟩ := th
  obtain ⟨ht, hr, hw⟩ := h
  dsimp only at ht hr hw
  cases current with
  | none =>
    cases todo with
    | nil => exact ⟨rfl, hd⟩
    | cons c todo =>
      have hc := ht c List.mem_cons_self
      have hp := hd c hc
      cases c with
      | read path =>
        simp only [FileCall.file] at hp
        simp only [FileThread.step, FileCall.openFile, hp]
        split <;> exact ⟨rfl, hd⟩
      | write o f path loc noNs =>
        simp only [FileThread.step, FileCall.openFile]
        split
        · exact ⟨rfl, hd⟩
        · split
          · split <;> exact ⟨rfl, fun c hc => set_agree (hd c hc)⟩
          · exact ⟨rfl, hd⟩
  | some k =>
    cases k with
    | reading p got =>
      obtain ⟨c, hc, rfl⟩ := hr p got rfl
      simp only [FileThread.step, FileTask.step, hd c hc]
      split <;> exact ⟨rfl, hd⟩
    | writing p rest off =>
      cases rest with
      | nil => exact ⟨rfl, hd⟩
      | cons x rest =>
        obtain ⟨c, hc, -, rfl⟩ := hw p _ off rfl
        simp only [FileThread.step, FileTask.step, hd c hc]
        exact ⟨trivial, fun c hc => set_agree (hd c hc)⟩
    | failing => exact ⟨rfl, hd⟩

/-- The accesses of one thread in a schedule. -/
def accesses (t : Nat) (schedule : List (Nat × Nat)) : List Nat := (schedule.filter (·.1 == t)).map (·.2)

theorem run_solo (calls : Nat → List FileCall) (apart : Separate calls) (t : Nat) (schedule : List (Nat × Nat)) :
    ∀ (m : FileMachine) (e : Disk), (∀ t, OfCalls (calls t) (m.threads t)) → (∀ c ∈ calls t, m.disk c.file = e c.file) →
      let m' := m.run lib P schedule
      let x := soloRun lib P (m.threads t, e) (accesses t schedule)
      m'.threads t = x.1 ∧ ∀ c ∈ calls t, m'.disk c.file = x.2 c.file := by
  induction schedule with
  | nil => intro m e _ hd; exact ⟨rfl, hd⟩
  | cons s schedule ih =>
    obtain ⟨t', n⟩ := s
    intro m e ho hd
    have hs := ofCalls_step (lib := lib) (P := P) (ho t') m.disk n
    have ho' : ∀ t, OfCalls (calls t) ((m.step lib P (t', n)).threads t) := by
      intro u
      simp only [FileMachine.step]
      split
      · rename_i h; subst h; exact hs.1
      · exact ho u
    by_cases htt : t' = t
    · subst htt
      have ha := step_agree (lib := lib) (P := P) (ho t') hd n
      have := ih (m.step lib P (t', n)) ((m.threads t').step lib P e n).2 ho' ha.2
      have hth : (m.step lib P (t', n)).threads t' = ((m.threads t').step lib P e n).1 := by
        simp only [FileMachine.step, if_true]
        exact ha.1
      rw [hth] at this
      simpa [FileMachine.run, soloRun, accesses] using this
    · have hth : (m.step lib P (t', n)).threads t = m.threads t := by
        simp only [FileMachine.step]
        rw [if_neg (Ne.symm htt)]
      have hdisk : ∀ c ∈ calls t, (m.step lib P (t', n)).disk c.file = e c.file := by
        intro c hc
        have : (m.step lib P (t', n)).disk c.file = m.disk c.file :=
          hs.2 c.file fun c' hc' hw => apart t' t htt c' hc' c hc hw
        rw [this, hd c hc]
      have := ih (m.step lib P (t', n)) e ho' hdisk
      rw [hth] at this
      simpa [FileMachine.run, soloRun, accesses, htt] using this

theorem accesses_length (t : Nat) (schedule : List (Nat × Nat)) : (accesses t schedule).length = (schedule.map (·.1)).count t := by
  unfold accesses
  rw [List.length_map, List.count_eq_length_filter, List.filter_map, List.length_map]
  rfl

/-! ## A thread that reads while another one writes -/

/-- A beginning of the old contents, continued by what the new contents have there, with the lengths. -/
def MixedAt (old new b : List UInt8) : Prop :=
  ∃ k n, b = old.take k ++ (new.drop k).take n ∧ k ≤ old.length ∧ b.length = k + n

theorem mixed_old {old new : List UInt8} (k : Nat) : MixedAt old new (old.take k) := by
  refine ⟨(old.take k).length, 0, ?_, ?_, by simp⟩
  · rw [List.take_zero, List.append_nil, take_len]
  · rw [List.length_take]; omega

theorem mixed_more {old new b : List UInt8} (h : MixedAt old new b) (off m : Nat) :
    MixedAt old new (b ++ ((new.take off).drop b.length).take m) := by
  obtain ⟨k, n, hb, hk, hl⟩ := h
  have hc : ((new.take off).drop b.length).take m = (new.drop (k + n)).take (((new.take off).drop b.length).take m).length := by
    rw [hl, List.drop_take, List.take_take, List.length_take, List.take_eq_take_iff, List.length_drop]
    omega
  refine ⟨k, n + (((new.take off).drop b.length).take m).length, ?_, hk, ?_⟩
  · rw [List.take_add, List.drop_drop, ← hc, ← List.append_assoc, ← hb]
  · rw [List.length_append, hl]; omega

section
variable (lib P)
variable (o : Val) (f : Fmt) (path path' : PathArg) (loc noNs : Option Str) (old : List UInt8)

/-- The bytes that `to_file` writes; none if it fails. -/
def newBytes : List UInt8 :=
  match ndmFileText lib o f path loc noNs with
  | .error _ => []
  | .ok t => (P.encode (P.newlines t)).getD []

/-- The thread that writes, and the contents of the file; the flag tells whether the file has been opened for writing. -/
inductive Writer : Bool → FileThread → Option (List UInt8) → Prop
  | before : Writer false ⟨none, [.write o f path loc noNs], []⟩ (some old)
  | refused (rs : List FileResult) : Writer false ⟨none, [], rs⟩ (some old)
  | writing (k : Nat) : k ≤ (newBytes lib P o f path loc noNs).length →
      Writer true ⟨some (.writing path.name ((newBytes lib P o f path loc noNs).drop k) k), [], []⟩ (some ((newBytes lib P o f path loc noNs).take k))
  | failing (k : Nat) : Writer true ⟨some .failing, [], []⟩ (some ((newBytes lib P o f path loc noNs).take k))
  | over (k : Nat) (rs : List FileResult) : Writer true ⟨none, [], rs⟩ (some ((newBytes lib P o f path loc noNs).take k))

/-- The thread that reads. -/
inductive Reader : Bool → FileThread → Prop
  | before (x : Bool) : Reader x ⟨none, [.read path'], []⟩
  | old (k : Nat) : Reader false ⟨some (.reading path'.name (old.take k)), [], []⟩
  | mixed (b : List UInt8) : MixedAt old (newBytes lib P o f path loc noNs) b → Reader true ⟨some (.reading path'.name b), [], []⟩
  | done (x : Bool) (b : List UInt8) : MixedAt old (newBytes lib P o f path loc noNs) b →
      Reader x ⟨none, [], [.read (readBytes lib P b)]⟩
end

variable {o : Val} {f : Fmt} {path path' : PathArg} {loc noNs : Option Str} {old : List UInt8}

theorem reader_opened {th : FileThread} (h : Reader lib P o f path path' loc noNs old false th) :
    Reader lib P o f path path' loc noNs old true th := by
  cases h with
  | before => exact .before _
  | old k => exact .mixed _ (mixed_old k)
  | done x b hb => exact .done _ b hb

theorem writer_step {x : Bool} {th : FileThread} {d : Disk} (h : Writer lib P o f path loc noNs old x th (d path.name)) (n : Nat) :
    Writer lib P o f path loc noNs old x (th.step lib P d n).1 ((th.step lib P d n).2 path.name) ∨
    x = false ∧ Writer lib P o f path loc noNs old true (th.step lib P d n).1 ((th.step lib P d n).2 path.name) := by
  generalize hd : d path.name = c at h
  cases h with
  | before =>
    simp only [FileThread.step, FileCall.openFile]
    cases ht : ndmFileText lib o f path loc noNs with
    | error e => left; dsimp only; rw [hd]; exact .refused _
    | ok t =>
      dsimp only
      by_cases hw : P.writable path.name = true
      · rw [if_pos hw]
        right
        refine ⟨trivial, ?_⟩
        cases hb : P.encode (P.newlines t) with
        | none =>
          have := Writer.failing (lib := lib) (P := P) (o := o) (f := f) (path := path) (loc := loc) (noNs := noNs) (old := old) 0
          rw [List.take_zero] at this
          dsimp only
          rw [Disk.set_same]
          exact this
        | some b =>
          have hnew : newBytes lib P o f path loc noNs = b := by unfold newBytes; rw [ht]; dsimp only; rw [hb]; rfl
          have := Writer.writing (lib := lib) (P := P) (o := o) (f := f) (path := path) (loc := loc) (noNs := noNs) (old := old) 0 (Nat.zero_le _)
          rw [List.take_zero, List.drop_zero, hnew] at this
          dsimp only
          rw [Disk.set_same]
          exact this
      · rw [if_neg hw]
        left
        dsimp only
        rw [hd]
        exact .refused _
  | refused => left; simp only [FileThread.step]; rw [hd]; exact .refused _
  | writing k hk =>
    left
    generalize hnew : newBytes lib P o f path loc noNs = b at hd hk
    cases hc : b.drop k with
    | nil =>
      simp only [FileThread.step, FileTask.step]
      rw [hd, ← hnew]
      exact .over k _
    | cons y ys =>
      simp only [FileThread.step, FileTask.step]
      rw [← hc, hd, Disk.set_same, Option.getD_some, overwrite_end b k (n + 1) hk]
      have hlen : ((b.drop k).take (n + 1)).length ≤ b.length - k := by rw [List.length_take, List.length_drop]; omega
      have hdrop : (b.drop k).drop (n + 1) = b.drop (k + ((b.drop k).take (n + 1)).length) := by
        rw [List.drop_drop, List.length_take, List.length_drop]
        by_cases h : n + 1 ≤ b.length - k
        · rw [Nat.min_eq_left h]
        · rw [Nat.min_eq_right (by omega), List.drop_of_length_le (by omega), List.drop_of_length_le (by omega)]
      rw [hdrop]
      have := Writer.writing (lib := lib) (P := P) (o := o) (f := f) (path := path) (loc := loc) (noNs := noNs) (old := old)
        (k + ((b.drop k).take (n + 1)).length) (by rw [hnew]; omega)
      rw [hnew] at this
      exact this
  | failing k => left; simp only [FileThread.step, FileTask.step]; rw [hd]; exact .over k _
  | over k rs => left; simp only [FileThread.step]; rw [hd]; exact .over k rs

theorem reader_step {x : Bool} {th thw : FileThread} {d : Disk} (hp : path'.name = path.name)
    (hw : Writer lib P o f path loc noNs old x thw (d path.name)) (h : Reader lib P o f path path' loc noNs old x th) (n : Nat) :
    Reader lib P o f path path' loc noNs old x (th.step lib P d n).1 := by
  have hcont : ∃ c, d path'.name = some c ∧ (x = false → c = old) ∧ (x = true → ∃ off, c = (newBytes lib P o f path loc noNs).take off) := by
    rw [hp]
    generalize d path.name = c at hw
    cases hw with
    | before => exact ⟨_, rfl, fun _ => rfl, by intro h; cases h⟩
    | refused => exact ⟨_, rfl, fun _ => rfl, by intro h; cases h⟩
    | writing k => exact ⟨_, rfl, (by intro h; cases h), fun _ => ⟨k, rfl⟩⟩
    | failing k => exact ⟨_, rfl, (by intro h; cases h), fun _ => ⟨k, rfl⟩⟩
    | over k => exact ⟨_, rfl, (by intro h; cases h), fun _ => ⟨k, rfl⟩⟩
  obtain ⟨c, hc, hold, hnew⟩ := hcont
  cases h with
  | before =>
    simp only [FileThread.step, FileCall.openFile, hc]
    cases x with
    | false => exact .old 0
    | true => exact .mixed _ (mixed_old 0)
  | old k =>
    have := hold rfl
    subst this
    simp only [FileThread.step, FileTask.step, hc, Option.getD_some]
    split
    · exact .done _ _ (mixed_old k)
    · have : c.take k ++ (c.drop (c.take k).length).take (n + 1) = c.take ((c.take k).length + (n + 1)) := by
        have := List.take_add (l := c) (i := (c.take k).length) (j := n + 1)
        rw [take_len] at this
        exact this.symm
      simp only [FileThread.after]
      rw [this]
      exact .old _
  | mixed b hb =>
    obtain ⟨off, rfl⟩ := hnew rfl
    simp only [FileThread.step, FileTask.step, hc, Option.getD_some]
    split
    · exact .done _ _ hb
    · exact .mixed _ (mixed_more hb off (n + 1))
  | done _ b hb => exact .done _ b hb

theorem reader_disk {x : Bool} {th : FileThread} {d : Disk} (h : Reader lib P o f path path' loc noNs old x th) (n : Nat) :
    (th.step lib P d n).2 = d := by
  cases h with
  | before => simp only [FileThread.step, FileCall.openFile]; split <;> rfl
  | old k => simp only [FileThread.step, FileTask.step]; split <;> rfl
  | mixed b hb => simp only [FileThread.step, FileTask.step]; split <;> rfl
  | done => rfl

theorem run_mixed (calls : Nat → List FileCall) {w r : Nat} (hne : w ≠ r) (hp : path'.name = path.name)
    (others : ∀ t, t ≠ w → t ≠ r → ∀ c ∈ calls t, c.Writes → c.file ≠ path.name) (schedule : List (Nat × Nat)) :
    ∀ (m : FileMachine) (x : Bool), (∀ t, t ≠ w → t ≠ r → OfCalls (calls t) (m.threads t)) →
      Writer lib P o f path loc noNs old x (m.threads w) (m.disk path.name) → Reader lib P o f path path' loc noNs old x (m.threads r) →
      ∃ x, Reader lib P o f path path' loc noNs old x ((m.run lib P schedule).threads r) := by
  induction schedule with
  | nil => intro m x _ _ h; exact ⟨x, h⟩
  | cons s schedule ih =>
    obtain ⟨t, n⟩ := s
    intro m x ho hw hr
    have ho' : ∀ u, u ≠ w → u ≠ r → OfCalls (calls u) ((m.step lib P (t, n)).threads u) := by
      intro u h1 h2
      simp only [FileMachine.step]
      split
      · rename_i h; subst h; exact (ofCalls_step (ho u h1 h2) m.disk n).1
      · exact ho u h1 h2
    have goal : ∃ x', Writer lib P o f path loc noNs old x' ((m.step lib P (t, n)).threads w) ((m.step lib P (t, n)).disk path.name) ∧
        Reader lib P o f path path' loc noNs old x' ((m.step lib P (t, n)).threads r) := by
      simp only [FileMachine.step]
      by_cases h1 : t = w
      · subst h1
        rw [if_pos rfl, if_neg (Ne.symm hne)]
        rcases writer_step hw n with h | ⟨rfl, h⟩
        · exact ⟨x, h, hr⟩
        · exact ⟨true, h, reader_opened hr⟩
      · by_cases h2 : t = r
        · subst h2
          rw [if_neg hne, if_pos rfl, reader_disk hr]
          exact ⟨x, hw, reader_step hp hw hr n⟩
        · rw [if_neg (Ne.symm h1), if_neg (Ne.symm h2),
            (ofCalls_step (lib := lib) (P := P) (ho t h1 h2) m.disk n).2 path.name (others t h1 h2)]
          exact ⟨x, hw, hr⟩
    obtain ⟨x', h1, h2⟩ := goal
    exact ih (m.step lib P (t, n)) x' ho' h1 h2

end Ndm
