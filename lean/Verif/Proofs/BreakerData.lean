import Verif.Proofs.Breaker
/-! # What the circuit breaker remembers -/

namespace Gowrap.Tmpl

open Gowrap Spec Breaker

/-- The policy of a circuit breaker. -/
def Breaker.policy (d : Breaker) (same : Val → Val → Bool) : Policy :=
  .of d.maxErrors d.openInterval d.ignore same

theorem policy_counts (d : Breaker) (same : Val → Val → Bool) (vs : List Val) :
    (d.policy same).counts vs = (!(lastError vs).isNil && d.ignore.all fun x => !same (lastError vs) x) := by
  show (match vs.getLast? with | none => false | some e => _) = _
  rw [lastError]
  cases vs.getLast? <;> rfl

section

variable {p : Policy} {h : List Completion} {c : Completion}

theorem streak_snoc (h : List Completion) (c : Completion) :
    p.streak (h ++ [c]) = if p.counts c.results then p.streak h + 1 else 0 := by
  rw [Policy.streak, Policy.streak, List.reverse_append]
  show ((c :: h.reverse).takeWhile _).length = _
  rw [List.takeWhile_cons]
  split <;> simp

theorem openUntil_snoc (h : List Completion) (c : Completion) : p.openUntil (h ++ [c]) =
    if p.counts c.results = true ∧ ((p.streak h + 1 : Nat) : Int) ≥ p.max then c.clock.map (· + p.interval) else none := by
  rw [Policy.openUntil, List.getLast?_concat, streak_snoc]
  by_cases hc : p.counts c.results = true
  · simp [hc]
  · simp [hc]

theorem openUntil_few (hs : (p.streak h : Int) < p.max) : p.openUntil h = none := by
  rw [Policy.openUntil]
  split
  · rfl
  · rw [if_neg]
    rintro ⟨_, h2⟩
    omega

end

theorem historyFrom_append (pre A B : List Label) :
    historyFrom pre (A ++ B) = historyFrom pre A ++ historyFrom (pre ++ A) B := by
  induction A generalizing pre with
  | nil => simp [historyFrom]
  | cons l A ih =>
    have e : pre ++ l :: A = (pre ++ [l]) ++ A := by simp
    rw [e]
    cases l with
    | op i ev =>
      obtain ⟨op, r⟩ := ev
      cases op <;> simp only [List.cons_append, historyFrom, ih]
    | tick => simp only [List.cons_append, historyFrom, ih]
    | background => simp only [List.cons_append, historyFrom, ih]

theorem history_snoc (L : List Label) (l : Label) : history (L ++ [l]) = history L ++ historyFrom L [l] := by
  rw [history, historyFrom_append]
  rfl

theorem lastClock_append (tr tr' : List Event) : lastClock (tr ++ tr') = (lastClock tr').or (lastClock tr) := by
  induction tr with
  | nil => simp [lastClock]
  | cons e tr ih =>
    obtain ⟨op, r⟩ := e
    cases op <;> simp [lastClock, ih, Option.or_assoc]

/-- The fields say what the history says. -/
def Fits (p : Policy) (h : List Completion) (s : BreakerState) : Prop :=
  s.errors = p.streak h ∧ s.closesAt = p.openUntil h

/-- The goroutine has received these results. -/
def Got (tr : List Event) (vs : List Val) : Prop := ∃ a b e, implCalls tr = [⟨a, b, e, .ok vs⟩]

/-- Nothing happened with the implementation or the clock so far. -/
def Fresh (tr : List Event) : Prop := implCalls tr = [] ∧ lastClock tr = none

/-- The lock was not released. -/
def NoUnlock (tr : List Event) : Prop := ∀ r, (⟨.unlock, r⟩ : Event) ∉ tr

/-- What is true of the own operations of a goroutine. -/
def BLoc.Local : BLoc → List Event → Prop
  | .start .., tr => tr = []
  | .read1 .., tr | .read2 .., tr | .clock .., tr => Fresh tr ∧ NoUnlock tr
  | .pass .., tr | .calling .., tr | .reject .., tr | .makeErr .., tr => implCalls tr = [] ∧ NoUnlock tr
  | .returned vs, tr | .checking vs _ _, tr | .reset1 vs, tr | .reset2 vs, tr | .count1 vs, tr | .count2 vs _, tr
  | .count3 vs, tr | .open1 vs, tr | .unlocking vs, tr => Got tr vs ∧ NoUnlock tr
  | .open2 vs t, tr => Got tr vs ∧ lastClock tr = some t ∧ NoUnlock tr
  | .unlockPanic _, _ => False
  | .lost, _ => True
  | .over o, tr =>
    (∃ vs tr', o = .ret vs ∧ Got tr' vs ∧ NoUnlock tr' ∧ tr = tr' ++ [⟨.unlock, ()⟩]) ∨
    (∃ v a b e, o = .panic v ∧ implCalls tr = [⟨a, b, e, .error v⟩] ∧ NoUnlock tr) ∨
    (∃ tr' a, ∃ r : Except Val (Vals 1), implCalls tr = [] ∧ NoUnlock tr ∧ tr = tr' ++ [⟨.lib g!"errors.New" a 1, r⟩] ∧
      ((∃ vs init, r = .ok vs ∧ o = .ret (init ++ [vs.1.headD .nil])) ∨ ∃ v, r = .error v ∧ o = .panic v))

theorem NoUnlock.snoc {tr : List Event} {e : Event} (h : NoUnlock tr) (he : ∀ r, e ≠ ⟨.unlock, r⟩) :
    NoUnlock (tr ++ [e]) := by
  intro r hm
  rcases List.mem_append.1 hm with hm | hm
  · exact h r hm
  · exact he r (List.mem_singleton.1 hm).symm

theorem BLoc.local_step {G : GoTypes} {d : Breaker} {l l' : BLoc} {e : Event} {tr : List Event}
    {same : Val → Val → Bool} {s s' : BreakerState} (h : l.Local tr)
    (hs : BLoc.Step G d l e l') (hh : breakerHandler same s e s') : l'.Local (tr ++ [e]) := by
  have hnext : ∀ vs es tr', Got tr' vs ∧ NoUnlock tr' → (BLoc.next vs es).Local tr' := by
    intro vs es tr' h
    cases es <;> exact h
  cases hs with
  | rlock m args =>
    cases (show tr = [] from h)
    exact ⟨⟨rfl, rfl⟩, by intro r hm; simp at hm⟩
  | closed m args => exact ⟨by rw [implCalls_append, h.1.1]; rfl, h.2.snoc (by intro r hr; cases hr)⟩
  | notNil m args u =>
    exact ⟨⟨by rw [implCalls_append, h.1.1]; rfl, by rw [lastClock_append, h.1.2]; rfl⟩, h.2.snoc (by intro r hr; cases hr)⟩
  | deref m args u =>
    exact ⟨⟨by rw [implCalls_append, h.1.1]; rfl, by rw [lastClock_append, h.1.2]; rfl⟩, h.2.snoc (by intro r hr; cases hr)⟩
  | derefNil m args => trivial
  | isOpen m args u t ht => exact ⟨by rw [implCalls_append, h.1.1]; rfl, h.2.snoc (by intro r hr; cases hr)⟩
  | isOver m args u t ht => exact ⟨by rw [implCalls_append, h.1.1]; rfl, h.2.snoc (by intro r hr; cases hr)⟩
  | pass m args => exact ⟨by rw [implCalls_append, h.1]; rfl, h.2.snoc (by intro r hr; cases hr)⟩
  | reject m => exact ⟨by rw [implCalls_append, h.1]; rfl, h.2.snoc (by intro r hr; cases hr)⟩
  | makeErr m vs =>
    exact Or.inr (Or.inr ⟨tr, _, .ok vs, by rw [implCalls_append, h.1]; rfl,
      h.2.snoc (by intro r hr; cases hr), rfl, Or.inl ⟨vs, _, rfl, rfl⟩⟩)
  | makeErrPanic m v =>
    exact Or.inr (Or.inr ⟨tr, _, .error v, by rw [implCalls_append, h.1]; rfl,
      h.2.snoc (by intro r hr; cases hr), rfl, Or.inr ⟨v, rfl, rfl⟩⟩)
  | ret m args vs =>
    exact ⟨⟨_, _, _, by rw [implCalls_append, h.1]; rfl⟩, h.2.snoc (by intro r hr; cases hr)⟩
  | panic m args v =>
    exact Or.inr (Or.inl ⟨v, _, _, _, rfl, by rw [implCalls_append, h.1]; rfl, h.2.snoc (by intro r hr; cases hr)⟩)
  | lockSuccess vs hn =>
    obtain ⟨⟨a, b, e, hg⟩, hu⟩ := h
    exact ⟨⟨a, b, e, by rw [implCalls_append, hg]; rfl⟩, hu.snoc (by intro r hr; cases hr)⟩
  | lockError vs hn =>
    obtain ⟨⟨a, b, e, hg⟩, hu⟩ := h
    exact hnext _ _ _ ⟨⟨a, b, e, by rw [implCalls_append, hg]; rfl⟩, hu.snoc (by intro r hr; cases hr)⟩
  | isIgnored vs e es =>
    obtain ⟨⟨a, b, e, hg⟩, hu⟩ := h
    exact ⟨⟨a, b, e, by rw [implCalls_append, hg]; rfl⟩, hu.snoc (by intro r hr; cases hr)⟩
  | notIgnored vs e es =>
    obtain ⟨⟨a, b, e, hg⟩, hu⟩ := h
    exact hnext _ _ _ ⟨⟨a, b, e, by rw [implCalls_append, hg]; rfl⟩, hu.snoc (by intro r hr; cases hr)⟩
  | isPanic vs e es v => exact absurd hh (by intro hc; cases hc.1)
  | unlock vs =>
    obtain ⟨hg, hu⟩ := h
    exact Or.inl ⟨vs, tr, rfl, hg, hu, rfl⟩
  | unlockPanic v => exact h.elim
  | open1 vs t =>
    obtain ⟨⟨a, b, e, hg⟩, hu⟩ := h
    exact ⟨⟨a, b, e, by rw [implCalls_append, hg]; rfl⟩, by rw [lastClock_append]; rfl, hu.snoc (by intro r hr; cases hr)⟩
  | open2 vs t =>
    obtain ⟨⟨a, b, e, hg⟩, _, hu⟩ := h
    exact ⟨⟨a, b, e, by rw [implCalls_append, hg]; rfl⟩, hu.snoc (by intro r hr; cases hr)⟩
  | _ =>
    obtain ⟨⟨a, b, e, hg⟩, hu⟩ := h
    exact ⟨⟨a, b, e, by rw [implCalls_append, hg]; rfl⟩, hu.snoc (by intro r hr; cases hr)⟩

theorem breaker_local {G : GoTypes} {d : Breaker} {same : Val → Val → Bool} {time : Int} {L : List Label}
    {c : Conf BreakerState BLoc} (h : BreakerExecL G d same time L c) :
    ∀ (i : Nat) (l : BLoc), c.threads[i]? = some l → l.Local (mine i L) :=
  Exec.local BLoc.Local (fun _ _ _ h => h.elim) (by rintro t ⟨m, args, rfl⟩; rfl)
    (fun _ _ _ _ _ _ h hs hh => BLoc.local_step h hs hh) h

/-- What a goroutine that holds the lock knows about the fields. -/
def BLoc.Data (d : Breaker) (same : Val → Val → Bool) (h : List Completion) (s : BreakerState) (tr : List Event) :
    BLoc → Prop
  | .read1 .. => Fits (d.policy same) h s
  | .read2 .. => Fits (d.policy same) h s ∧ s.closesAt ≠ none
  | .clock u .. => Fits (d.policy same) h s ∧ s.closesAt = some u
  | .pass .. | .reject .. => Fits (d.policy same) h s
  | .lost => False
  | .checking vs e es => Fits (d.policy same) h s ∧ (lastError vs).isNil = false ∧ ∃ no, d.ignore = no ++ e :: es ∧
      ∀ x ∈ no, same (lastError vs) x = false
  | .reset1 vs => Fits (d.policy same) h s ∧ (d.policy same).counts vs = false
  | .reset2 vs => s.errors = 0 ∧ (d.policy same).counts vs = false
  | .count1 vs => Fits (d.policy same) h s ∧ (d.policy same).counts vs = true
  | .count2 vs n => Fits (d.policy same) h s ∧ (d.policy same).counts vs = true ∧ n = s.errors
  | .count3 vs => s.errors = (d.policy same).streak h + 1 ∧ s.closesAt = (d.policy same).openUntil h ∧
      (d.policy same).counts vs = true
  | .open1 vs => s.errors = (d.policy same).streak h + 1 ∧ (s.errors : Int) ≥ d.maxErrors ∧
      (d.policy same).counts vs = true
  | .open2 vs t => s.errors = (d.policy same).streak h + 1 ∧ (s.errors : Int) ≥ d.maxErrors ∧
      (d.policy same).counts vs = true
  | .unlocking vs => Fits (d.policy same) (h ++ [⟨vs, lastClock tr⟩]) s
  | .unlockPanic _ => False
  | _ => True

/-- Locations of threads that hold no lock say nothing about the fields. -/
theorem BLoc.data_free {d : Breaker} {same : Val → Val → Bool} {h : List Completion} {s : BreakerState}
    {tr : List Event} {l : BLoc} (hr : l.holdsR = false) (hw : l.holdsW = false) : l.Data d same h s tr := by
  cases l <;> first | trivial | cases hr | cases hw

/-- The knowledge depends only on the history and the fields. -/
theorem BLoc.data_same {d : Breaker} {same : Val → Val → Bool} {h : List Completion} {s s' : BreakerState}
    {tr : List Event} {l : BLoc} (hd : l.Data d same h s tr) (h1 : s'.errors = s.errors)
    (h2 : s'.closesAt = s.closesAt) : l.Data d same h s' tr := by
  cases l <;> simp only [BLoc.Data, Fits, h1, h2] at hd ⊢ <;> exact hd

/-- The whole invariant. -/
structure DataInv (d : Breaker) (same : Val → Val → Bool) (L : List Label) (s : BreakerState) (ls : List BLoc) : Prop where
  free : s.writer = false → Fits (d.policy same) (history L) s
  data : ∀ (i : Nat) (l : BLoc), ls[i]? = some l → l.Data d same (history L) s (mine i L)

/-- A step that writes no field and does not release the write lock. -/
theorem DataInv.keep {d : Breaker} {same : Val → Val → Bool} {L : List Label}
    {c : Conf BreakerState BLoc} {i : Nat} {t t' : BLoc} {e : Event} {s' : BreakerState}
    (ih : DataInv d same L c.shared c.threads) (hi : c.threads[i]? = some t)
    (hh : historyFrom L [.op i e] = []) (h1 : s'.errors = c.shared.errors) (h2 : s'.closesAt = c.shared.closesAt)
    (h3 : s'.writer = false → c.shared.writer = false)
    (hd : t'.Data d same (history L) s' (mine i L ++ [e])) : DataInv d same (L ++ [.op i e]) s' (c.threads.set i t') := by
  have hhist : history (L ++ [.op i e]) = history L := by rw [history_snoc, hh, List.append_nil]
  have hlt := (List.getElem?_eq_some_iff.1 hi).1
  constructor
  · intro hw
    rw [hhist, Fits, h1, h2]
    exact ih.free (h3 hw)
  · intro j l hj
    rw [hhist, mine_append]
    by_cases hij : i = j
    · subst hij
      rw [List.getElem?_set_self hlt] at hj
      cases hj
      rw [mine_op_same]
      exact hd
    · rw [List.getElem?_set_ne hij] at hj
      rw [mine_op_other _ hij, List.append_nil]
      exact BLoc.data_same (ih.data j l hj) h1 h2

/-- A step of the thread that holds the write lock. -/
theorem DataInv.write {d : Breaker} {same : Val → Val → Bool} {L : List Label}
    {c : Conf BreakerState BLoc} {i : Nat} {t t' : BLoc} {e : Event} {s' : BreakerState}
    (hl : LockInv c.shared c.threads) (hi : c.threads[i]? = some t) (hw : t.holdsW = true)
    (hfree : s'.writer = false → Fits (d.policy same) (history (L ++ [.op i e])) s')
    (hd : t'.Data d same (history (L ++ [.op i e])) s' (mine i L ++ [e])) :
    DataInv d same (L ++ [.op i e]) s' (c.threads.set i t') := by
  have hlt := (List.getElem?_eq_some_iff.1 hi).1
  constructor
  · exact hfree
  · intro j l hj
    rw [mine_append]
    by_cases hij : i = j
    · subst hij
      rw [List.getElem?_set_self hlt] at hj
      cases hj
      rw [mine_op_same]
      exact hd
    · rw [List.getElem?_set_ne hij] at hj
      obtain ⟨h1, h2⟩ := hl.alone hij hi hj hw
      exact BLoc.data_free h1 h2

theorem LockInv.writing {s : BreakerState} {ls : List BLoc} (h : LockInv s ls) {i : Nat} {l : BLoc}
    (hi : ls[i]? = some l) (hw : l.holdsW = true) : s.writer = true := by
  have hpos := List.countP_pos_iff.2 ⟨l, List.mem_of_getElem? hi, hw⟩
  have := h.writer
  cases hs : s.writer with
  | true => rfl
  | false => rw [hs] at this; simp at this; omega

theorem LockInv.reading {s : BreakerState} {ls : List BLoc} (h : LockInv s ls) {i : Nat} {l : BLoc}
    (hi : ls[i]? = some l) (hr : l.holdsR = true) : s.writer = false := by
  have hpos := List.countP_pos_iff.2 ⟨l, List.mem_of_getElem? hi, hr⟩
  cases hs : s.writer with
  | false => rfl
  | true =>
    have h0 := h.excl hs
    rw [h.readers] at h0
    omega

theorem data_inv {G : GoTypes} {d : Breaker} {same : Val → Val → Bool} {time : Int} {L : List Label}
    {c : Conf BreakerState BLoc} (h : BreakerExecL G d same time L c) : DataInv d same L c.shared c.threads := by
  induction h with
  | start => exact ⟨fun _ => ⟨rfl, rfl⟩, by intro i l h; simp at h⟩
  | @call L c t h ht ih =>
    obtain ⟨m, args, rfl⟩ := ht
    refine ⟨ih.free, ?_⟩
    intro j l hj
    rw [List.getElem?_append] at hj
    split at hj
    · exact ih.data j l hj
    · have : l = .start m args := by
        have := List.mem_of_getElem? hj
        simpa using this
      subst this
      trivial
  | @step L c i t t' e s' h hi ht hs ih =>
    have hl := lock_inv h
    have hloc := breaker_local h i t hi
    have hdat := ih.data i t hi
    have hnext : ∀ vs no es, Fits (d.policy same) (history L) c.shared → (lastError vs).isNil = false →
        d.ignore = no ++ es → (∀ x ∈ no, same (lastError vs) x = false) → ∀ s' : BreakerState,
        s'.errors = c.shared.errors → s'.closesAt = c.shared.closesAt → ∀ tr,
        (BLoc.next vs es).Data d same (history L) s' tr := by
      intro vs no es hf hn he hno s' h1 h2 tr
      have hf' : Fits (d.policy same) (history L) s' := by rw [Fits, h1, h2]; exact hf
      cases es with
      | nil =>
        refine ⟨hf', ?_⟩
        rw [policy_counts, hn, he, List.append_nil]
        simp only [Bool.not_false, Bool.true_and, List.all_eq_true]
        intro x hx
        rw [hno x hx]
        rfl
      | cons e es => exact ⟨hf', hn, no, he, hno⟩
    show DataInv d same (L ++ [.op i e]) s' (c.threads.set i t')
    cases ht with
    | rlock m args =>
      obtain ⟨hb, rfl⟩ := hs
      exact ih.keep hi rfl rfl rfl id (ih.free hb)
    | closed m args =>
      obtain ⟨hr, rfl⟩ := hs
      exact ih.keep hi rfl rfl rfl id hdat
    | notNil m args u =>
      obtain ⟨hr, rfl⟩ := hs
      have hr : some u = c.shared.closesAt := hr
      exact ih.keep hi rfl rfl rfl id ⟨hdat, by rw [← hr]; exact Option.some_ne_none _⟩
    | deref m args u =>
      obtain ⟨hr, rfl⟩ := hs
      have hr : some u = c.shared.closesAt := hr
      exact ih.keep hi rfl rfl rfl id ⟨hdat.1, hr.symm⟩
    | derefNil m args =>
      obtain ⟨hr, rfl⟩ := hs
      exact absurd hr.symm hdat.2
    | isOpen m args u t ht =>
      obtain ⟨_, rfl⟩ := hs
      exact ih.keep hi rfl rfl rfl id hdat.1
    | isOver m args u t ht =>
      obtain ⟨_, rfl⟩ := hs
      exact ih.keep hi rfl rfl rfl id hdat.1
    | pass m args =>
      cases (show s' = { c.shared with readers := c.shared.readers - 1 } from hs)
      exact ih.keep hi rfl rfl rfl id trivial
    | reject m =>
      cases (show s' = { c.shared with readers := c.shared.readers - 1 } from hs)
      exact ih.keep hi rfl rfl rfl id trivial
    | makeErr m vs =>
      cases (show s' = c.shared from hs)
      exact ih.keep hi rfl rfl rfl id trivial
    | makeErrPanic m v =>
      cases (show s' = c.shared from hs)
      exact ih.keep hi rfl rfl rfl id trivial
    | ret m args vs =>
      cases (show s' = c.shared from hs)
      exact ih.keep hi rfl rfl rfl id trivial
    | panic m args v =>
      cases (show s' = c.shared from hs)
      exact ih.keep hi rfl rfl rfl id trivial
    | lockSuccess vs hn =>
      obtain ⟨hb, _, rfl⟩ := hs
      refine ih.keep hi rfl rfl rfl (fun _ => hb) ⟨ih.free hb, ?_⟩
      rw [policy_counts, hn]
      rfl
    | lockError vs hn =>
      obtain ⟨hb, _, rfl⟩ := hs
      exact ih.keep hi rfl rfl rfl (fun _ => hb)
        (hnext vs [] d.ignore (ih.free hb) hn rfl (by intro x hx; cases hx) _ rfl rfl _)
    | isIgnored vs e es =>
      obtain ⟨hr, rfl⟩ := hs
      obtain ⟨hf, hn, no, he, hno⟩ := hdat
      refine ih.keep hi rfl rfl rfl id ⟨hf, ?_⟩
      have hr : same (lastError vs) e = true := by injection hr with hr; exact hr.symm
      rw [policy_counts, hn, he]
      simp [hr]
    | notIgnored vs e es =>
      obtain ⟨hr, rfl⟩ := hs
      obtain ⟨hf, hn, no, he, hno⟩ := hdat
      have hr : same (lastError vs) e = false := by injection hr with hr; exact hr.symm
      refine ih.keep hi rfl rfl rfl id
        (hnext vs (no ++ [e]) es hf hn (by rw [he]; simp) ?_ _ rfl rfl _)
      intro x hx
      rcases List.mem_append.1 hx with hx | hx
      · exact hno x hx
      · rw [List.mem_singleton.1 hx]; exact hr
    | isPanic vs e es v =>
      obtain ⟨hr, _⟩ := hs
      cases hr
    | reset1 vs =>
      have hw := hl.writing hi rfl
      cases (show s' = { c.shared with errors := 0 } from hs)
      exact DataInv.write hl hi rfl (fun hc => by rw [hw] at hc; cases hc) ⟨rfl, hdat.2⟩
    | reset2 vs =>
      have hw := hl.writing hi rfl
      cases (show s' = { c.shared with closesAt := none } from hs)
      refine DataInv.write hl hi rfl (fun hc => by rw [hw] at hc; cases hc) ⟨?_, ?_⟩
      · rw [streak_snoc, if_neg (by rw [hdat.2]; simp)]
        exact hdat.1
      · rw [openUntil_snoc, if_neg (by rw [hdat.2]; simp)]
    | count1 vs n =>
      obtain ⟨hr, rfl⟩ := hs
      exact ih.keep hi rfl rfl rfl id ⟨hdat.1, hdat.2, hr⟩
    | count2 vs n =>
      have hw := hl.writing hi rfl
      cases (show s' = { c.shared with errors := n + 1 } from hs)
      obtain ⟨⟨hf1, hf2⟩, hc, hn⟩ := hdat
      have hh : history (L ++ [.op i ⟨.setErrors (n + 1), ()⟩]) = history L := by
        rw [history_snoc]; exact List.append_nil _
      refine DataInv.write hl hi rfl (fun hc => by rw [hw] at hc; cases hc) ⟨?_, ?_, hc⟩
      · rw [hh, ← hf1, ← hn]
      · rw [hh]; exact hf2
    | enough vs n hn =>
      obtain ⟨hr, rfl⟩ := hs
      have hr : n = c.shared.errors := hr
      exact ih.keep hi rfl rfl rfl id ⟨hdat.1, by rw [← hr]; exact hn, hdat.2.2⟩
    | few vs n hn =>
      obtain ⟨hr, rfl⟩ := hs
      have hr : n = c.shared.errors := hr
      obtain ⟨h1, h2, h3⟩ := hdat
      have hmax : (d.policy same).max = d.maxErrors := rfl
      refine ih.keep hi rfl rfl rfl id ⟨?_, ?_⟩
      · rw [streak_snoc, if_pos h3]
        exact h1
      · rw [openUntil_snoc, if_neg (by rintro ⟨_, hc⟩; rw [← h1, ← hr, hmax] at hc; omega), h2]
        exact openUntil_few (by rw [hmax]; omega)
    | open1 vs t =>
      obtain ⟨_, rfl⟩ := hs
      exact ih.keep hi rfl rfl rfl id hdat
    | open2 vs t =>
      have hw := hl.writing hi rfl
      cases (show s' = { c.shared with closesAt := some (t + d.openInterval) } from hs)
      obtain ⟨h1, h2, h3⟩ := hdat
      have hh : history (L ++ [.op i ⟨.setClosesAt (some (t + d.openInterval)), ()⟩]) = history L := by
        rw [history_snoc]; exact List.append_nil _
      have hmax : (d.policy same).max = d.maxErrors := rfl
      refine DataInv.write hl hi rfl (fun hc => by rw [hw] at hc; cases hc) ⟨?_, ?_⟩
      · rw [hh, streak_snoc, if_pos h3]
        exact h1
      · rw [hh, openUntil_snoc, if_pos ⟨h3, by rw [← h1, hmax]; exact h2⟩, lastClock_append, hloc.2.1]
        rfl
    | unlock vs =>
      cases (show s' = { c.shared with writer := false } from hs)
      obtain ⟨⟨a, b, e, hg⟩, _⟩ := hloc
      have hh : history (L ++ [.op i ⟨.unlock, ()⟩]) = history L ++ [⟨vs, lastClock (mine i L)⟩] := by
        rw [history_snoc]
        show _ ++ [(⟨returnedTo (mine i L), _⟩ : Completion)] = _
        rw [returnedTo, hg]
      exact DataInv.write hl hi rfl (fun _ => by rw [hh]; exact hdat) trivial
    | unlockPanic v => exact hdat.elim
  | bg h hb ih => exact hb.elim

/-! ## Times -/

/-- What is known about times at a location. -/
def BLoc.Times (d : Breaker) (same : Val → Val → Bool) (h : List Completion) (s : BreakerState) : BLoc → Prop
  | .open2 _ t => t ≤ s.time ∧ ∀ u, (d.policy same).openUntil h = some u → u ≤ t + d.openInterval
  | .unlocking vs => (∀ u', s.closesAt = some u' → u' ≤ s.time + d.openInterval ∧
      ∀ u, (d.policy same).openUntil h = some u → u ≤ u') ∧
    ((d.policy same).counts vs = true → (s.errors : Int) ≥ d.maxErrors → s.closesAt ≠ none)
  | _ => True

/-- The circuit is never open for longer than the interval from now on. -/
structure TimeInv (d : Breaker) (same : Val → Val → Bool) (L : List Label) (s : BreakerState) (ls : List BLoc) : Prop where
  opened : ∀ u, (d.policy same).openUntil (history L) = some u → u ≤ s.time + d.openInterval
  times : ∀ (i : Nat) (l : BLoc), ls[i]? = some l → l.Times d same (history L) s

theorem BLoc.times_free {d : Breaker} {same : Val → Val → Bool} {h : List Completion} {s : BreakerState} {l : BLoc}
    (hw : l.holdsW = false) : l.Times d same h s := by
  cases l <;> first | trivial | cases hw

theorem BLoc.times_same {d : Breaker} {same : Val → Val → Bool} {h : List Completion} {s s' : BreakerState}
    {l : BLoc} (hd : l.Times d same h s) (h1 : s'.errors = s.errors) (h2 : s'.closesAt = s.closesAt)
    (h3 : s.time ≤ s'.time) : l.Times d same h s' := by
  cases l with
  | open2 vs t => exact ⟨Int.le_trans hd.1 h3, hd.2⟩
  | unlocking vs =>
    simp only [BLoc.Times, h1, h2] at hd ⊢
    refine ⟨fun u' hu => ⟨?_, (hd.1 u' hu).2⟩, hd.2⟩
    have := (hd.1 u' hu).1
    omega
  | _ => trivial

theorem TimeInv.keep {d : Breaker} {same : Val → Val → Bool} {L : List Label}
    {c : Conf BreakerState BLoc} {i : Nat} {t t' : BLoc} {e : Event} {s' : BreakerState}
    (ih : TimeInv d same L c.shared c.threads) (hi : c.threads[i]? = some t)
    (hh : historyFrom L [.op i e] = []) (h1 : s'.errors = c.shared.errors) (h2 : s'.closesAt = c.shared.closesAt)
    (h3 : c.shared.time ≤ s'.time)
    (hd : t'.Times d same (history L) s') : TimeInv d same (L ++ [.op i e]) s' (c.threads.set i t') := by
  have hhist : history (L ++ [.op i e]) = history L := by rw [history_snoc, hh, List.append_nil]
  have hlt := (List.getElem?_eq_some_iff.1 hi).1
  rw [← hhist] at hd
  constructor
  · intro u hu
    rw [hhist] at hu
    have := ih.opened u hu
    omega
  · intro j l hj
    by_cases hij : i = j
    · subst hij
      rw [List.getElem?_set_self hlt] at hj
      cases hj
      exact hd
    · rw [List.getElem?_set_ne hij] at hj
      rw [hhist]
      exact BLoc.times_same (ih.times j l hj) h1 h2 h3

theorem TimeInv.write {d : Breaker} {same : Val → Val → Bool} {L : List Label}
    {c : Conf BreakerState BLoc} {i : Nat} {t t' : BLoc} {e : Event} {s' : BreakerState}
    (hl : LockInv c.shared c.threads) (hi : c.threads[i]? = some t) (hw : t.holdsW = true)
    (ho : ∀ u, (d.policy same).openUntil (history (L ++ [.op i e])) = some u → u ≤ s'.time + d.openInterval)
    (hd : t'.Times d same (history (L ++ [.op i e])) s') :
    TimeInv d same (L ++ [.op i e]) s' (c.threads.set i t') := by
  have hlt := (List.getElem?_eq_some_iff.1 hi).1
  constructor
  · exact ho
  · intro j l hj
    by_cases hij : i = j
    · subst hij
      rw [List.getElem?_set_self hlt] at hj
      cases hj
      exact hd
    · rw [List.getElem?_set_ne hij] at hj
      exact BLoc.times_free (hl.alone hij hi hj hw).2

theorem time_inv {G : GoTypes} {d : Breaker} {same : Val → Val → Bool} {time : Int} {L : List Label}
    {c : Conf BreakerState BLoc} (h : BreakerExecL G d same time L c) : TimeInv d same L c.shared c.threads := by
  induction h with
  | start => exact ⟨by intro u hu; (cases hu), by intro i l h; simp at h⟩
  | @call L c t h ht ih =>
    obtain ⟨m, args, rfl⟩ := ht
    refine ⟨ih.opened, ?_⟩
    intro j l hj
    rw [List.getElem?_append] at hj
    split at hj
    · exact ih.times j l hj
    · have : l = .start m args := by
        have := List.mem_of_getElem? hj
        simpa using this
      subst this
      trivial
  | @step L c i t t' e s' h hi ht hs ih =>
    have hl := lock_inv h
    have hdat := (data_inv h).data i t hi
    have htim := ih.times i t hi
    have hnext : ∀ vs es (s' : BreakerState), (BLoc.next vs es).Times d same (history L) s' := by
      intro vs es s'
      cases es <;> trivial
    show TimeInv d same (L ++ [.op i e]) s' (c.threads.set i t')
    cases ht with
    | rlock m args =>
      obtain ⟨hb, rfl⟩ := hs
      exact ih.keep hi rfl rfl rfl (Int.le_refl _) trivial
    | closed m args =>
      obtain ⟨hr, rfl⟩ := hs
      exact ih.keep hi rfl rfl rfl (Int.le_refl _) trivial
    | notNil m args u =>
      obtain ⟨hr, rfl⟩ := hs
      exact ih.keep hi rfl rfl rfl (Int.le_refl _) trivial
    | deref m args u =>
      obtain ⟨hr, rfl⟩ := hs
      exact ih.keep hi rfl rfl rfl (Int.le_refl _) trivial
    | derefNil m args =>
      obtain ⟨hr, rfl⟩ := hs
      exact ih.keep hi rfl rfl rfl (Int.le_refl _) trivial
    | isOpen m args u t ht =>
      obtain ⟨hle, rfl⟩ := hs
      exact ih.keep hi rfl rfl rfl hle trivial
    | isOver m args u t ht =>
      obtain ⟨hle, rfl⟩ := hs
      exact ih.keep hi rfl rfl rfl hle trivial
    | pass m args =>
      cases (show s' = { c.shared with readers := c.shared.readers - 1 } from hs)
      exact ih.keep hi rfl rfl rfl (Int.le_refl _) trivial
    | reject m =>
      cases (show s' = { c.shared with readers := c.shared.readers - 1 } from hs)
      exact ih.keep hi rfl rfl rfl (Int.le_refl _) trivial
    | makeErr m vs =>
      cases (show s' = c.shared from hs)
      exact ih.keep hi rfl rfl rfl (Int.le_refl _) trivial
    | makeErrPanic m v =>
      cases (show s' = c.shared from hs)
      exact ih.keep hi rfl rfl rfl (Int.le_refl _) trivial
    | ret m args vs =>
      cases (show s' = c.shared from hs)
      exact ih.keep hi rfl rfl rfl (Int.le_refl _) trivial
    | panic m args v =>
      cases (show s' = c.shared from hs)
      exact ih.keep hi rfl rfl rfl (Int.le_refl _) trivial
    | lockSuccess vs hn =>
      obtain ⟨hb, _, rfl⟩ := hs
      exact ih.keep hi rfl rfl rfl (Int.le_refl _) trivial
    | lockError vs hn =>
      obtain ⟨hb, _, rfl⟩ := hs
      exact ih.keep hi rfl rfl rfl (Int.le_refl _) (hnext _ _ _)
    | isIgnored vs e es =>
      obtain ⟨hr, rfl⟩ := hs
      exact ih.keep hi rfl rfl rfl (Int.le_refl _) trivial
    | notIgnored vs e es =>
      obtain ⟨hr, rfl⟩ := hs
      exact ih.keep hi rfl rfl rfl (Int.le_refl _) (hnext _ _ _)
    | isPanic vs e es v =>
      obtain ⟨hr, _⟩ := hs
      cases hr
    | reset1 vs =>
      cases (show s' = { c.shared with errors := 0 } from hs)
      refine TimeInv.write hl hi rfl ?_ trivial
      rw [history_snoc, show historyFrom L [.op i ⟨.setErrors 0, ()⟩] = [] from rfl, List.append_nil]
      exact ih.opened
    | reset2 vs =>
      cases (show s' = { c.shared with closesAt := none } from hs)
      refine TimeInv.write hl hi rfl ?_ ⟨by intro u hu; (cases hu), ?_⟩
      · rw [history_snoc, show historyFrom L [.op i ⟨.setClosesAt none, ()⟩] = [] from rfl, List.append_nil]
        exact ih.opened
      · intro hc
        rw [hdat.2] at hc
        cases hc
    | count1 vs n =>
      obtain ⟨hr, rfl⟩ := hs
      exact ih.keep hi rfl rfl rfl (Int.le_refl _) trivial
    | count2 vs n =>
      cases (show s' = { c.shared with errors := n + 1 } from hs)
      refine TimeInv.write hl hi rfl ?_ trivial
      rw [history_snoc, show historyFrom L [.op i ⟨.setErrors (n + 1), ()⟩] = [] from rfl, List.append_nil]
      exact ih.opened
    | enough vs n hn =>
      obtain ⟨hr, rfl⟩ := hs
      exact ih.keep hi rfl rfl rfl (Int.le_refl _) trivial
    | few vs n hn =>
      obtain ⟨hr, rfl⟩ := hs
      have hr : n = c.shared.errors := hr
      obtain ⟨h1, h2, h3⟩ := hdat
      have hmax : (d.policy same).max = d.maxErrors := rfl
      have hnone : c.shared.closesAt = none := by
        rw [h2]
        exact openUntil_few (by rw [hmax]; omega)
      refine ih.keep hi rfl rfl rfl (Int.le_refl _) ⟨?_, ?_⟩
      · intro u' hu
        rw [hnone] at hu
        cases hu
      · intro _ hge
        omega
    | open1 vs t =>
      obtain ⟨hle, rfl⟩ := hs
      refine ih.keep hi rfl rfl rfl hle ⟨Int.le_refl _, ?_⟩
      intro u hu
      have hle : c.shared.time ≤ t := hle
      have := ih.opened u hu
      omega
    | open2 vs t =>
      cases (show s' = { c.shared with closesAt := some (t + d.openInterval) } from hs)
      have hh : history (L ++ [.op i ⟨.setClosesAt (some (t + d.openInterval)), ()⟩]) = history L := by
        rw [history_snoc]; exact List.append_nil _
      refine TimeInv.write hl hi rfl (by rw [hh]; exact ih.opened) ⟨?_, ?_⟩
      · intro u' hu
        have hu : some (t + d.openInterval) = some u' := hu
        cases hu
        refine ⟨?_, by rw [hh]; exact htim.2⟩
        have := htim.1
        show _ ≤ c.shared.time + _
        omega
      · intro _ _ hc
        cases hc
    | unlock vs =>
      cases (show s' = { c.shared with writer := false } from hs)
      obtain ⟨⟨a, b, e, hg⟩, _⟩ := breaker_local h i _ hi
      have hh : history (L ++ [.op i ⟨.unlock, ()⟩]) = history L ++ [⟨vs, lastClock (mine i L)⟩] := by
        rw [history_snoc]
        show _ ++ [(⟨returnedTo (mine i L), _⟩ : Completion)] = _
        rw [returnedTo, hg]
      refine TimeInv.write hl hi rfl ?_ trivial
      intro u hu
      rw [hh, ← hdat.2] at hu
      exact (htim.1 u hu).1
    | unlockPanic v => exact hdat.elim
  | bg h hb ih => exact hb.elim

/-! ## Decisions -/

theorem FoundClosed.snoc {p : Policy} {L : List Label} {i : Nat} (l : Label) (h : FoundClosed p L i) :
    FoundClosed p (L ++ [l]) i := by
  obtain ⟨L1, e, L2, rfl, h⟩ := h
  exact ⟨L1, e, L2 ++ [l], by simp, h⟩

theorem FoundOpen.snoc {p : Policy} {L : List Label} {i : Nat} (l : Label) (h : FoundOpen p L i) :
    FoundOpen p (L ++ [l]) i := by
  obtain ⟨L1, L2, t, u, rfl, h⟩ := h
  exact ⟨L1, L2 ++ [l], t, u, by simp, h⟩

/-- Why a goroutine is where it is. -/
def BLoc.Why (p : Policy) (L : List Label) (i : Nat) : BLoc → Prop
  | .start .. | .read1 .. | .read2 .. | .clock .. | .lost | .unlockPanic .. => True
  | .reject .. | .makeErr .. => FoundOpen p L i
  | .over _ => (implCalls (mine i L) = [] ∧ FoundOpen p L i) ∨ (implCalls (mine i L) ≠ [] ∧ FoundClosed p L i)
  | _ => FoundClosed p L i

theorem BLoc.why_other {p : Policy} {L : List Label} {i j : Nat} {e : Event} {l : BLoc} (h : l.Why p L i) (hij : j ≠ i) :
    l.Why p (L ++ [.op j e]) i := by
  have hm : mine i (L ++ [.op j e]) = mine i L := by rw [mine_append, mine_op_other _ hij, List.append_nil]
  cases l with
  | over o =>
    rw [BLoc.Why, hm]
    exact h.imp (fun h => ⟨h.1, FoundOpen.snoc _ h.2⟩) (fun h => ⟨h.1, FoundClosed.snoc _ h.2⟩)
  | start | read1 | read2 | clock | lost | unlockPanic => trivial
  | reject | makeErr => exact FoundOpen.snoc _ h
  | _ => exact FoundClosed.snoc _ h

theorem why_inv {G : GoTypes} {d : Breaker} {same : Val → Val → Bool} {time : Int} {L : List Label}
    {c : Conf BreakerState BLoc} (h : BreakerExecL G d same time L c) :
    ∀ (i : Nat) (l : BLoc), c.threads[i]? = some l → l.Why (d.policy same) L i := by
  induction h with
  | start => intro i l h; simp at h
  | @call L c t h ht ih =>
    obtain ⟨m, args, rfl⟩ := ht
    intro j l hj
    rw [List.getElem?_append] at hj
    split at hj
    · exact ih j l hj
    · have : l = .start m args := by
        have := List.mem_of_getElem? hj
        simpa using this
      subst this
      trivial
  | @step L c i t t' e s' h hi ht hs ih =>
    intro j l hj
    by_cases hij : i = j
    · subst hij
      have hlt := (List.getElem?_eq_some_iff.1 hi).1
      rw [List.getElem?_set_self hlt] at hj
      cases hj
      have hwhy := ih i t hi
      have hloc := breaker_local h i t hi
      have hdat := (data_inv h).data i t hi
      have hnext : ∀ vs es L, FoundClosed (d.policy same) L i → (BLoc.next vs es).Why (d.policy same) L i := by
        intro vs es L h
        cases es <;> exact h
      cases ht with
      | closed m args =>
        refine ⟨L, _, [], rfl, hloc.1.1, hloc.1.2, Or.inl ⟨rfl, ?_⟩⟩
        rw [← hdat.2]
        exact hs.1.symm
      | isOpen m args u t ht =>
        refine ⟨L, [], t, u, rfl, hloc.1.1, hloc.1.2, ?_, ht⟩
        rw [← hdat.1.2]
        exact hdat.2
      | isOver m args u t ht =>
        refine ⟨L, _, [], rfl, hloc.1.1, hloc.1.2, Or.inr ⟨t, u, rfl, ?_, ht⟩⟩
        rw [← hdat.1.2]
        exact hdat.2
      | makeErr m vs =>
        refine Or.inl ⟨?_, FoundOpen.snoc _ hwhy⟩
        rw [mine_append, mine_op_same, implCalls_append, hloc.1]
        rfl
      | makeErrPanic m v =>
        refine Or.inl ⟨?_, FoundOpen.snoc _ hwhy⟩
        rw [mine_append, mine_op_same, implCalls_append, hloc.1]
        rfl
      | panic m args v =>
        refine Or.inr ⟨?_, FoundClosed.snoc _ hwhy⟩
        rw [mine_append, mine_op_same, implCalls_append, hloc.1]
        simp [implCalls]
      | unlock vs =>
        refine Or.inr ⟨?_, FoundClosed.snoc _ hwhy⟩
        obtain ⟨⟨a, b, e, hg⟩, _⟩ := hloc
        rw [mine_append, mine_op_same, implCalls_append, hg]
        simp
      | unlockPanic v => exact hdat.elim
      | lockError vs hn => exact hnext _ _ _ (FoundClosed.snoc _ hwhy)
      | notIgnored vs e es => exact hnext _ _ _ (FoundClosed.snoc _ hwhy)
      | reject m => exact FoundOpen.snoc _ hwhy
      | rlock | notNil | deref | derefNil => trivial
      | isPanic vs e es v => cases hs.1
      | _ => exact FoundClosed.snoc _ hwhy
    · rw [List.getElem?_set_ne hij] at hj
      exact BLoc.why_other (ih j l hj) hij
  | bg h hb ih => exact hb.elim

end Gowrap.Tmpl
