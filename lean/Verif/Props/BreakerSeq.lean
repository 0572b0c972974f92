import Verif.Props.Breaker
/-!
# C45: a circuit breaker used by one goroutine after the other
-/

namespace Gowrap.Props

open Gowrap Spec Tmpl Breaker

/-! ## The words of the specification -/

/-- The number of consecutive calls that count is at least `n` exactly when the last `n` calls count. -/
theorem C45_streak (p : Policy) (h : List Completion) (n : Nat) :
    n ≤ p.streak h ↔ ∃ h1 h2, h = h1 ++ h2 ∧ h2.length = n ∧ ∀ x ∈ h2, p.counts x.results = true := by
  have key : ∀ (l : List Completion) (n : Nat), n ≤ (l.takeWhile fun x => p.counts x.results).length ↔
      ∃ l1 l2, l = l1 ++ l2 ∧ l1.length = n ∧ ∀ x ∈ l1, p.counts x.results = true := by
    intro l
    induction l with
    | nil =>
      intro n
      constructor
      · intro hn
        exact ⟨[], [], rfl, by
          have : n ≤ 0 := hn
          simp
          omega, by intro x hx; cases hx⟩
      · rintro ⟨l1, l2, h1, rfl, _⟩
        obtain ⟨rfl, rfl⟩ := List.append_eq_nil_iff.1 h1.symm
        exact Nat.le_refl _
    | cons a l ih =>
      intro n
      cases n with
      | zero => exact ⟨fun _ => ⟨[], _, rfl, rfl, by intro x hx; cases hx⟩, fun _ => Nat.zero_le _⟩
      | succ n =>
        rw [List.takeWhile_cons]
        constructor
        · intro hn
          split at hn
          · rename_i ha
            rw [List.length_cons] at hn
            obtain ⟨l1, l2, rfl, h2, h3⟩ := (ih n).1 (by omega)
            refine ⟨a :: l1, l2, rfl, by simp [h2], ?_⟩
            intro x hx
            rcases List.mem_cons.1 hx with rfl | hx
            · exact ha
            · exact h3 x hx
          · simp at hn
        · rintro ⟨l1, l2, h1, h2, h3⟩
          cases l1 with
          | nil => simp at h2
          | cons b l1 =>
            simp only [List.cons_append, List.cons.injEq] at h1
            obtain ⟨rfl, rfl⟩ := h1
            rw [if_pos (h3 a (List.mem_cons_self ..)), List.length_cons]
            have := (ih n).2 ⟨l1, l2, rfl, by simpa using h2, fun x hx => h3 x (List.mem_cons_of_mem _ hx)⟩
            omega
  rw [Policy.streak, key]
  constructor
  · rintro ⟨l1, l2, h1, h2, h3⟩
    refine ⟨l2.reverse, l1.reverse, ?_, by simp [h2], by simpa using h3⟩
    rw [← List.reverse_append, ← h1, List.reverse_reverse]
  · rintro ⟨h1, h2, rfl, h3, h4⟩
    exact ⟨h2.reverse, h1.reverse, by simp, by simp [h3], by simpa using h4⟩

/-- **C45** (the rule) The circuit is open after a call exactly when the call counts and is at least number
`max` of consecutive ones, for the interval from the time that the call read; a call that does not count
resets the count and closes the circuit. -/
theorem C45_rule (p : Policy) (h : List Completion) (x : Completion) :
    (∀ u, p.openUntil (h ++ [x]) = some u ↔ p.counts x.results = true ∧ (p.streak (h ++ [x]) : Int) ≥ p.max ∧
      ∃ t, x.clock = some t ∧ u = t + p.interval) ∧
    (p.counts x.results = false → p.streak (h ++ [x]) = 0 ∧ p.openUntil (h ++ [x]) = none) := by
  constructor
  · intro u
    rw [openUntil_snoc, streak_snoc]
    by_cases hc : p.counts x.results = true
    · rw [if_pos hc]
      by_cases hm : ((p.streak h + 1 : Nat) : Int) ≥ p.max
      · rw [if_pos ⟨hc, hm⟩]
        cases x.clock with
        | none => simp
        | some t =>
          simp only [Option.map_some, Option.some.injEq]
          constructor
          · rintro rfl
            exact ⟨hc, hm, t, rfl, rfl⟩
          · rintro ⟨_, _, _, rfl, rfl⟩
            rfl
      · rw [if_neg (fun h => hm h.2)]
        constructor
        · intro h; cases h
        · rintro ⟨_, h, _⟩; exact absurd h hm
    · rw [if_neg (fun h => hc h.1)]
      constructor
      · intro h; cases h
      · rintro ⟨h, _⟩; exact absurd h hc
  · intro hc
    rw [openUntil_snoc, streak_snoc, hc]
    simp

/-! ## Histories of sequential executions -/

/-- The part of the history due to one goroutine. -/
def historyOf (pre : List Event) : List Event → List Completion
  | [] => []
  | ⟨.unlock, r⟩ :: tr => ⟨returnedTo pre, lastClock pre⟩ :: historyOf (pre ++ [⟨.unlock, r⟩]) tr
  | e :: tr => historyOf (pre ++ [e]) tr

theorem historyFrom_of (i : Nat) (tr : List Event) : ∀ (pre : List Label),
    historyFrom pre (tr.map (.op i)) = historyOf (mine i pre) tr := by
  induction tr with
  | nil => intro pre; rfl
  | cons e tr ih =>
    intro pre
    have hm : mine i (pre ++ [.op i e]) = mine i pre ++ [e] := by rw [mine_append, mine_op_same]
    obtain ⟨op, r⟩ := e
    cases op <;> simp only [List.map_cons, historyFrom, historyOf, ih, hm]

theorem historyOf_append (pre A B : List Event) : historyOf pre (A ++ B) = historyOf pre A ++ historyOf (pre ++ A) B := by
  induction A generalizing pre with
  | nil => simp [historyOf]
  | cons e A ih =>
    have h : pre ++ e :: A = (pre ++ [e]) ++ A := by simp
    rw [h]
    obtain ⟨op, r⟩ := e
    cases op <;> simp only [List.cons_append, historyOf, ih]

theorem historyOf_noUnlock (pre tr : List Event) (h : NoUnlock tr) : historyOf pre tr = [] := by
  induction tr generalizing pre with
  | nil => rfl
  | cons e tr ih =>
    have ih := ih (pre ++ [e]) fun r hm => h r (List.mem_cons_of_mem _ hm)
    obtain ⟨op, r⟩ := e
    cases op with
    | unlock => exact absurd (List.mem_cons_self ..) (h r)
    | _ => exact ih

/-- A call that has ended contributes its completion. -/
theorem historyOf_ended {o : Outcome} {tr : List Event} (h : (BLoc.over o).Local tr) :
    historyOf [] tr = (completionOf tr).toList := by
  rcases h with ⟨vs, tr', _, ⟨a, b, e, hg⟩, hu, rfl⟩ | ⟨v, a, b, e, _, hi, hu⟩ | ⟨tr', a, r, hi, hu, _⟩
  · rw [historyOf_append, historyOf_noUnlock _ _ hu, completionOf, implCalls_append, hg, lastClock_append]
    show [(⟨returnedTo tr', lastClock tr'⟩ : Completion)] = _
    rw [returnedTo, hg]
    rfl
  · rw [historyOf_noUnlock _ _ hu, completionOf, hi]
    rfl
  · rw [historyOf_noUnlock _ _ hu, completionOf, hi]
    rfl

/-- All steps are steps of goroutines. -/
def OnlyOps (L : List Label) : Prop := ∀ l ∈ L, ∃ i e, l = .op i e

theorem breaker_onlyOps {G : GoTypes} {d : Breaker} {same : Val → Val → Bool} {time : Int} {L : List Label}
    {c : Conf BreakerState BLoc} (h : BreakerExecL G d same time L c) : OnlyOps L := by
  induction h with
  | start => intro l hl; cases hl
  | call h ht ih => exact ih
  | step h hi ht hs ih =>
    intro l hl
    rcases List.mem_append.1 hl with hl | hl
    · exact ih l hl
    · exact ⟨_, _, List.mem_singleton.1 hl⟩
  | bg h hb ih => exact hb.elim

/-- The steps of the goroutines before `i`. -/
def before (i : Nat) (L : List Label) : List Label := L.filter fun l => Label.thread l < i

theorem filter_same {L : List Label} (h : OnlyOps L) (i : Nat) :
    (L.filter fun l => Label.thread l = i) = (mine i L).map (.op i) := by
  induction L with
  | nil => rfl
  | cons l L ih =>
    have ih := ih fun l hl => h l (List.mem_cons_of_mem _ hl)
    obtain ⟨j, e, rfl⟩ := h l (List.mem_cons_self ..)
    by_cases hj : j = i
    · subst hj
      rw [List.filter_cons, if_pos (by simp [Label.thread]), ih]
      simp [mine]
    · rw [List.filter_cons, if_neg (by simp [Label.thread, hj]), ih]
      simp [mine, hj]

theorem before_succ {L : List Label} (h : OneByOne L) (ho : OnlyOps L) (i : Nat) :
    before (i + 1) L = before i L ++ (mine i L).map (.op i) := by
  rw [← filter_same ho]
  unfold before
  induction L with
  | nil => rfl
  | cons l L ih =>
    have ih := ih (List.pairwise_cons.1 h).2 fun l hl => ho l (List.mem_cons_of_mem _ hl)
    have hge := (List.pairwise_cons.1 h).1
    by_cases h1 : Label.thread l < i
    · rw [List.filter_cons, List.filter_cons, List.filter_cons, if_pos (by simp; omega), if_pos (by simpa using h1),
        if_neg (by simp; omega), ih]
      rfl
    · have hnil : (L.filter fun l => Label.thread l < i) = [] := by
        rw [List.filter_eq_nil_iff]
        intro x hx
        have := hge x hx
        simp
        omega
      by_cases h2 : Label.thread l = i
      · rw [List.filter_cons, List.filter_cons, List.filter_cons, if_pos (by simp; omega), if_neg (by simpa using h1),
          if_pos (by simpa using h2), ih, hnil]
        rfl
      · rw [List.filter_cons, List.filter_cons, List.filter_cons, if_neg (by simp; omega), if_neg (by simpa using h1),
          if_neg (by simpa using h2), ih]

theorem mine_before {L : List Label} (i j : Nat) (h : OnlyOps L) (hij : i ≤ j) : mine j (before i L) = [] := by
  apply mine_eq_nil
  intro e he
  have := (List.mem_filter.1 he).2
  have : j < i := of_decide_eq_true this
  omega

/-- The history of the goroutines before `i`, one after the other. -/
theorem history_before {L : List Label} (h : OneByOne L) (ho : OnlyOps L) (i : Nat)
    (hend : ∀ j, j < i → historyOf [] (mine j L) = (completionOf (mine j L)).toList) :
    history (before i L) = (List.range i).filterMap fun j => completionOf (mine j L) := by
  induction i with
  | zero =>
    have : before 0 L = [] := by
      rw [before, List.filter_eq_nil_iff]
      intro l _
      simp
    rw [this]
    rfl
  | succ i ih =>
    rw [before_succ h ho, history, historyFrom_append]
    show history (before i L) ++ historyFrom ([] ++ before i L) _ = _
    rw [List.nil_append, historyFrom_of, mine_before i i ho (Nat.le_refl _), hend i (Nat.lt_succ_self _),
      ih fun j hj => hend j (Nat.lt_succ_of_lt hj), List.range_succ, List.filterMap_append]
    congr 1

theorem firstClock_append {tr tr' : List Event} (h : lastClock tr = none) : firstClock (tr ++ tr') = firstClock tr' := by
  induction tr with
  | nil => rfl
  | cons e tr ih =>
    obtain ⟨op, r⟩ := e
    cases op with
    | now =>
      rw [lastClock] at h
      cases hc : lastClock tr <;> rw [hc] at h <;> cases h
    | _ => exact ih h

/-- **C45** If the calls are made one after the other, the circuit breaker decides on every call by the
calls before it: if the circuit is closed after them the call goes to the implementation; if it is open
until `u` the call reads the clock and goes to the implementation exactly if it is not earlier than `u`. -/
theorem C45_sequential (G : GoTypes) (d : Breaker) (same : Val → Val → Bool) (time : Int) (L : List Label)
    (c : Conf BreakerState (Tree Outcome)) (h : BreakerExec G d same time L c) (hseq : OneByOne L)
    (hend : ∀ i, i < c.threads.length → ∃ o, Ended c i o) (i : Nat) (hi : i < c.threads.length) :
    match (d.policy same).openUntil ((List.range i).filterMap fun j => completionOf (mine j L)) with
    | none => WentThrough L c i
    | some u => ∃ t, firstClock (mine i L) = some t ∧ (WentThrough L c i ↔ u ≤ t) := by
  obtain ⟨ls, hls, he⟩ := breaker_locs h
  have ho := breaker_onlyOps he
  have hover : ∀ j, j < c.threads.length → ∃ o, ls[j]? = some (.over o) := by
    intro j hj
    obtain ⟨o, hj⟩ := hend j hj
    obtain ⟨l, hl, ht⟩ := breaker_loc hls j _ hj
    have hdat := (data_inv he).data j l hl
    cases l with
    | over o' => exact ⟨o', hl⟩
    | lost => exact hdat.elim
    | start | read1 | read2 | clock | pass | reject | makeErr | calling | returned | checking | reset1 | reset2 | count1
      | count2 | count3 | open1 | open2 | unlocking | unlockPanic => cases ht
  have hhist := history_before hseq ho i (fun j hj => by
    obtain ⟨o, hl⟩ := hover j (by omega)
    exact historyOf_ended (breaker_local he j _ hl))
  rw [← hhist]
  obtain ⟨o, hl⟩ := hover i hi
  have hloc := breaker_local he i _ hl
  -- the history at a decision
  have decide_at : ∀ A e B, L = A ++ .op i e :: B → history A = history (before i L) := by
    intro A e B hL
    have hA : ∀ l ∈ A, Label.thread l ≤ i := by
      intro l hl
      have := hseq
      rw [OneByOne, hL, List.pairwise_append] at this
      exact this.2.2 l hl (.op i e) (List.mem_cons_self ..)
    have hB : ∀ l ∈ B, i ≤ Label.thread l := by
      have := hseq
      rw [OneByOne, hL, List.pairwise_append] at this
      exact (List.pairwise_cons.1 this.2.1).1
    have hbefore : before i L = before i A := by
      have : before i (.op i e :: B) = [] := by
        rw [before, List.filter_eq_nil_iff]
        intro l hl
        rcases List.mem_cons.1 hl with rfl | hl
        · simp [Label.thread]
        · have := hB l hl
          simp
          omega
      rw [hL, before, List.filter_append]
      show before i A ++ before i (.op i e :: B) = _
      rw [this, List.append_nil]
    have hoA : OnlyOps A := fun l hl => ho l (by rw [hL]; exact List.mem_append_left _ hl)
    have hsA : OneByOne A := by
      have := hseq
      rw [OneByOne, hL, List.pairwise_append] at this
      exact this.1
    have hall : before (i + 1) A = A := by
      rw [before, List.filter_eq_self]
      intro l hl
      have := hA l hl
      simp
      omega
    rw [hbefore]
    conv => lhs; rw [← hall, before_succ hsA hoA, history, historyFrom_append]
    show history (before i A) ++ historyFrom ([] ++ before i A) _ = _
    rw [List.nil_append, historyFrom_of, mine_before i i hoA (Nat.le_refl _)]
    have hmine : mine i L = mine i A ++ e :: mine i B := by
      rw [hL, mine_append]
      simp [mine]
    have hno : NoUnlock (mine i A) := by
      intro r hm
      rcases hloc with ⟨vs, tr', _, _, hu, h4⟩ | ⟨v, a, b, e, _, _, hu⟩ | ⟨tr', a, r', _, hu, _⟩
      · rcases List.eq_nil_or_concat (mine i B) with hnil | ⟨B', b, hcon⟩
        · rw [hmine, hnil] at h4
          have := (List.append_inj' h4 rfl).1
          rw [this] at hm
          exact hu r hm
        · rw [hmine, hcon, List.concat_eq_append, ← List.cons_append, ← List.append_assoc] at h4
          have := (List.append_inj' h4 rfl).1
          rw [← this] at hu
          exact hu r (List.mem_append_left _ hm)
      · exact hu r (by rw [hmine]; exact List.mem_append_left _ hm)
      · exact hu r (by rw [hmine]; exact List.mem_append_left _ hm)
    rw [historyOf_noUnlock _ _ hno, List.append_nil]
  have hmine_of : ∀ A e B, L = A ++ .op i e :: B → mine i L = mine i A ++ e :: mine i B := by
    intro A e B hL
    rw [hL, mine_append]
    simp [mine]
  have hwhy := why_inv he i _ hl
  have hopen : FoundOpen (d.policy same) L i → ∃ t u, (d.policy same).openUntil (history (before i L)) = some u ∧
      firstClock (mine i L) = some t ∧ t < u := by
    rintro ⟨A, B, t, u, hL, _, hc, hu, ht⟩
    rw [decide_at A _ B hL] at hu
    refine ⟨t, u, hu, ?_, ht⟩
    rw [hmine_of A _ B hL, firstClock_append hc]
    rfl
  have hclosed : FoundClosed (d.policy same) L i → (d.policy same).openUntil (history (before i L)) = none ∨
      ∃ t u, (d.policy same).openUntil (history (before i L)) = some u ∧ firstClock (mine i L) = some t ∧ u ≤ t := by
    rintro ⟨A, e, B, hL, _, hc, hdec⟩
    rw [decide_at A _ B hL] at hdec
    rcases hdec with ⟨_, hn⟩ | ⟨t, u, rfl, hu, ht⟩
    · exact Or.inl hn
    · refine Or.inr ⟨t, u, hu, ?_, ht⟩
      rw [hmine_of A _ B hL, firstClock_append hc]
      rfl
  have hinside : ∀ v, ¬ Inside c i v := by
    rintro v ⟨name, args, n, k, hv⟩
    obtain ⟨o, hi⟩ := hend i hi
    rw [Ended] at hi
    rw [hi] at hv
    cases hv
  rcases hwhy with ⟨h1, h2⟩ | ⟨h1, h2⟩
  · obtain ⟨t, u, hu, hf, ht⟩ := hopen h2
    rw [hu]
    refine ⟨t, hf, ?_⟩
    constructor
    · rintro (hw | ⟨v, hw⟩)
      · exact absurd h1 hw
      · exact absurd hw (hinside v)
    · intro hle
      omega
  · rcases hclosed h2 with hn | ⟨t, u, hu, hf, ht⟩
    · rw [hn]
      exact Or.inl h1
    · rw [hu]
      exact ⟨t, hf, fun _ => ht, fun _ => Or.inl h1⟩

/-! ## An execution -/

/-- A call that fails and opens the circuit, one that is rejected, and one that succeeds at the end of the
interval. -/
def demoSeq : List Label :=
  [.op 0 ⟨.rlock, ()⟩, .op 0 ⟨.getClosesAt, none⟩, .op 0 ⟨.runlock, ()⟩,
   .op 0 ⟨.impl (.obj 0) find.name [.nil, .nil] find.results.length, Except.ok ⟨[.nil, .obj 1], rfl⟩⟩,
   .op 0 ⟨.lock, ()⟩, .op 0 ⟨.getErrors, (0 : Nat)⟩, .op 0 ⟨.setErrors 1, ()⟩, .op 0 ⟨.getErrors, (1 : Nat)⟩,
   .op 0 ⟨.now, (0 : Int)⟩, .op 0 ⟨.setClosesAt (some 10), ()⟩, .op 0 ⟨.unlock, ()⟩,
   .op 1 ⟨.rlock, ()⟩, .op 1 ⟨.getClosesAt, some 10⟩, .op 1 ⟨.getClosesAt, some 10⟩, .op 1 ⟨.now, (9 : Int)⟩,
   .op 1 ⟨.runlock, ()⟩,
   .op 1 ⟨.lib g!"errors.New" [.str (demoBreaker.dec ++ g!": circuit is open")] 1, Except.ok ⟨[.obj 7], rfl⟩⟩,
   .op 2 ⟨.rlock, ()⟩, .op 2 ⟨.getClosesAt, some 10⟩, .op 2 ⟨.getClosesAt, some 10⟩, .op 2 ⟨.now, (10 : Int)⟩,
   .op 2 ⟨.runlock, ()⟩,
   .op 2 ⟨.impl (.obj 0) find.name [.nil, .nil] find.results.length, Except.ok ⟨[.nil, .nil], rfl⟩⟩,
   .op 2 ⟨.lock, ()⟩, .op 2 ⟨.setErrors 0, ()⟩, .op 2 ⟨.setClosesAt none, ()⟩, .op 2 ⟨.unlock, ()⟩]

theorem demo_seq : DemoExec demoSeq ⟨⟨0, false, none, 0, 10⟩,
    [.over (.ret [.nil, .obj 1]), .over (.ret ((find.zeros demoTypes).dropLast ++ [.obj 7])), .over (.ret [.nil, .nil])]⟩ := by
  have e0 : DemoExec [] _ := Exec.call (Exec.call (Exec.call .start rfl) rfl) rfl
  have e1 := Exec.step (i := 0) e0 rfl (.rlock _ _) ⟨rfl, rfl⟩
  have e2 := Exec.step (i := 0) e1 rfl (.closed _ _) ⟨rfl, rfl⟩
  have e3 := Exec.step (i := 0) e2 rfl (.pass _ _) rfl
  have e7 := Exec.step (i := 0) e3 rfl (.ret _ _ ⟨[.nil, .obj 1], rfl⟩) rfl
  have e8 := Exec.step (i := 0) e7 rfl (.lockError _ rfl) ⟨rfl, rfl, rfl⟩
  have e9 := Exec.step (i := 0) e8 rfl (.count1 _ 0) ⟨rfl, rfl⟩
  have e10 := Exec.step (i := 0) e9 rfl (.count2 _ 0) rfl
  have e11 := Exec.step (i := 0) e10 rfl (.enough _ 1 (by decide)) ⟨rfl, rfl⟩
  have e12 := Exec.step (i := 0) e11 rfl (.open1 _ 0) ⟨by decide, rfl⟩
  have e13 := Exec.step (i := 0) e12 rfl (.open2 _ 0) rfl
  have e14 := Exec.step (i := 0) e13 rfl (.unlock _) rfl
  have f1 := Exec.step (i := 1) e14 rfl (.rlock _ _) ⟨rfl, rfl⟩
  have f2 := Exec.step (i := 1) f1 rfl (.notNil _ _ 10) ⟨rfl, rfl⟩
  have f3 := Exec.step (i := 1) f2 rfl (.deref _ _ 10) ⟨rfl, rfl⟩
  have f4 := Exec.step (i := 1) f3 rfl (.isOpen _ _ 10 9 (by decide)) ⟨by decide, rfl⟩
  have f5 := Exec.step (i := 1) f4 rfl (.reject _) rfl
  have f6 := Exec.step (i := 1) f5 rfl (.makeErr _ ⟨[.obj 7], rfl⟩) rfl
  have g1 := Exec.step (i := 2) f6 rfl (.rlock _ _) ⟨rfl, rfl⟩
  have g2 := Exec.step (i := 2) g1 rfl (.notNil _ _ 10) ⟨rfl, rfl⟩
  have g3 := Exec.step (i := 2) g2 rfl (.deref _ _ 10) ⟨rfl, rfl⟩
  have g4 := Exec.step (i := 2) g3 rfl (.isOver _ _ 10 10 (by decide)) ⟨by decide, rfl⟩
  have g5 := Exec.step (i := 2) g4 rfl (.pass _ _) rfl
  have g6 := Exec.step (i := 2) g5 rfl (.ret _ _ ⟨[.nil, .nil], rfl⟩) rfl
  have g7 := Exec.step (i := 2) g6 rfl (.lockSuccess _ rfl) ⟨rfl, rfl, rfl⟩
  have g8 := Exec.step (i := 2) g7 rfl (.reset1 _) rfl
  have g9 := Exec.step (i := 2) g8 rfl (.reset2 _) rfl
  have g10 := Exec.step (i := 2) g9 rfl (.unlock _) rfl
  exact g10

/-- The hypotheses of `C45_sequential` are met; it decides on all three calls. -/
example : let c : Conf BreakerState (Tree Outcome) := ⟨⟨0, false, none, 0, 10⟩,
      [.ret (.ret [.nil, .obj 1]), .ret (.ret ((find.zeros demoTypes).dropLast ++ [.obj 7])), .ret (.ret [.nil, .nil])]⟩
    WentThrough demoSeq c 0 ∧ ¬ WentThrough demoSeq c 1 ∧ WentThrough demoSeq c 2 := by
  intro c
  have hx : BreakerExec demoTypes demoBreaker (fun _ _ => false) 0 demoSeq c := demo_exec demo_seq
  have hs : OneByOne demoSeq := by
    simp [OneByOne, demoSeq, Label.thread]
  have hend : ∀ i, i < c.threads.length → ∃ o, Ended c i o := by
    intro i hi
    match i, hi with
    | 0, _ => exact ⟨_, rfl⟩
    | 1, _ => exact ⟨_, rfl⟩
    | 2, _ => exact ⟨_, rfl⟩
    | i + 3, h => exact absurd h (by simp [c])
  have h0 : WentThrough demoSeq c 0 := C45_sequential _ _ _ _ _ c hx hs hend 0 (by simp [c])
  have h1 : ∃ t, firstClock (mine 1 demoSeq) = some t ∧ (WentThrough demoSeq c 1 ↔ (10 : Int) ≤ t) :=
    C45_sequential _ _ _ _ _ c hx hs hend 1 (by simp [c])
  have h2 : ∃ t, firstClock (mine 2 demoSeq) = some t ∧ (WentThrough demoSeq c 2 ↔ (10 : Int) ≤ t) :=
    C45_sequential _ _ _ _ _ c hx hs hend 2 (by simp [c])
  obtain ⟨t1, ht1, h1⟩ := h1
  obtain ⟨t2, ht2, h2⟩ := h2
  have e1 : t1 = 9 := Option.some.inj (ht1.symm.trans (show firstClock (mine 1 demoSeq) = some 9 by rfl))
  have e2 : t2 = 10 := Option.some.inj (ht2.symm.trans (show firstClock (mine 2 demoSeq) = some 10 by rfl))
  subst e1 e2
  exact ⟨h0, fun h => absurd (h1.1 h) (by decide), h2.2 (by decide)⟩

end Gowrap.Props
