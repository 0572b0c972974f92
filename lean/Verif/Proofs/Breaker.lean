import Verif.Proofs.Shared
import Verif.Spec.Breaker
/-! # The circuit breaker used by many goroutines -/

namespace Gowrap.Tmpl

open Gowrap Spec Breaker

/-! ## Locations -/

/-- Leave the first critical section and call the implementation. -/
def Breaker.passT (d : Breaker) (m : Method) (args : List Val) : Tree Outcome := .vis .runlock fun _ => d.attemptT m args

/-- Compare with the clock. -/
def Breaker.clockT (G : GoTypes) (d : Breaker) (u : Int) (m : Method) (args : List Val) : Tree Outcome :=
  .vis .now fun (now : Int) => if u > now then d.rejectT G m else d.passT m args

/-- Dereference the pointer. -/
def Breaker.read2T (G : GoTypes) (d : Breaker) (m : Method) (args : List Val) : Tree Outcome :=
  .vis .getClosesAt fun (c : Option Int) => match c with
    | none => .ret (.panic .nil)
    | some t => d.clockT G t m args

/-- Compare the pointer with nil. -/
def Breaker.read1T (G : GoTypes) (d : Breaker) (m : Method) (args : List Val) : Tree Outcome :=
  .vis .getClosesAt fun (c : Option Int) => if c.isNone then d.passT m args else d.read2T G m args

/-- Read the counter again and maybe open the circuit. -/
def Breaker.count3T (d : Breaker) (o : Outcome) : Tree Outcome :=
  .vis .getErrors fun (n : Nat) =>
    if (n : Int) ≥ d.maxErrors then
      .vis .now fun (t : Int) => .vis (.setClosesAt (some (t + d.openInterval))) fun _ => unlockT o
    else unlockT o

/-- The error of an open circuit. -/
def Breaker.makeErrT (G : GoTypes) (d : Breaker) (m : Method) : Tree Outcome :=
  .vis (.lib g!"errors.New" [.str (d.dec ++ g!": circuit is open")] 1) fun
    | .ok vs => .ret (.ret ((m.zeros G).dropLast ++ [vs.1.headD .nil]))
    | .error v => .ret (.panic v)

/-- Locations in a call. -/
inductive BLoc where
  | start (m : Method) (args : List Val)
  | read1 (m : Method) (args : List Val)
  | read2 (m : Method) (args : List Val)
  | clock (u : Int) (m : Method) (args : List Val)
  | pass (m : Method) (args : List Val)
  | reject (m : Method)
  | makeErr (m : Method)
  | calling (m : Method) (args : List Val)
  | returned (vs : List Val)
  | checking (vs : List Val) (e : Val) (es : List Val)
  | reset1 (vs : List Val)
  | reset2 (vs : List Val)
  | count1 (vs : List Val)
  | count2 (vs : List Val) (n : Nat)
  | count3 (vs : List Val)
  | open1 (vs : List Val)
  | open2 (vs : List Val) (t : Int)
  | unlocking (vs : List Val)
  | unlockPanic (v : Val)
  | lost
  | over (o : Outcome)

/-- The last result. -/
def lastError (vs : List Val) : Val := vs.getLast?.getD .nil

/-- What remains to be done at a location. -/
def BLoc.tree (G : GoTypes) (d : Breaker) : BLoc → Tree Outcome
  | .start m args => d.bodyT G m args
  | .read1 m args => d.read1T G m args
  | .read2 m args => d.read2T G m args
  | .clock u m args => d.clockT G u m args
  | .pass m args => d.passT m args
  | .reject m => d.rejectT G m
  | .makeErr m => d.makeErrT G m
  | .calling m args => d.attemptT m args
  | .returned vs => d.afterT vs
  | .checking vs e es => d.ignoredT (lastError vs) (.ret vs) (e :: es)
  | .reset1 vs => resetT (.ret vs)
  | .reset2 vs => .vis (.setClosesAt none) fun _ => unlockT (.ret vs)
  | .count1 vs => d.countT (.ret vs)
  | .count2 vs n => .vis (.setErrors (n + 1)) fun _ => d.count3T (.ret vs)
  | .count3 vs => d.count3T (.ret vs)
  | .open1 vs => .vis .now fun (t : Int) => .vis (.setClosesAt (some (t + d.openInterval))) fun _ => unlockT (.ret vs)
  | .open2 vs t => .vis (.setClosesAt (some (t + d.openInterval))) fun _ => unlockT (.ret vs)
  | .unlocking vs => unlockT (.ret vs)
  | .unlockPanic v => unlockT (.panic v)
  | .lost => .ret (.panic .nil)
  | .over o => .ret o

/-- Where the search in the list of ignored errors goes on. -/
def BLoc.next (vs : List Val) : List Val → BLoc
  | [] => .count1 vs
  | e :: es => .checking vs e es

/-- Steps between locations. -/
inductive BLoc.Step (G : GoTypes) (d : Breaker) : BLoc → Event → BLoc → Prop
  | rlock (m args) : Step G d (.start m args) ⟨.rlock, ()⟩ (.read1 m args)
  | closed (m args) : Step G d (.read1 m args) ⟨.getClosesAt, none⟩ (.pass m args)
  | notNil (m args) (u : Int) : Step G d (.read1 m args) ⟨.getClosesAt, some u⟩ (.read2 m args)
  | deref (m args) (u : Int) : Step G d (.read2 m args) ⟨.getClosesAt, some u⟩ (.clock u m args)
  | derefNil (m args) : Step G d (.read2 m args) ⟨.getClosesAt, none⟩ .lost
  | isOpen (m args) (u t : Int) (h : t < u) : Step G d (.clock u m args) ⟨.now, t⟩ (.reject m)
  | isOver (m args) (u t : Int) (h : u ≤ t) : Step G d (.clock u m args) ⟨.now, t⟩ (.pass m args)
  | pass (m args) : Step G d (.pass m args) ⟨.runlock, ()⟩ (.calling m args)
  | reject (m) : Step G d (.reject m) ⟨.runlock, ()⟩ (.makeErr m)
  | makeErr (m) (vs : Vals 1) : Step G d (.makeErr m)
      ⟨.lib g!"errors.New" [.str (d.dec ++ g!": circuit is open")] 1, Except.ok vs⟩
      (.over (.ret ((m.zeros G).dropLast ++ [vs.1.headD .nil])))
  | makeErrPanic (m) (v : Val) : Step G d (.makeErr m)
      ⟨.lib g!"errors.New" [.str (d.dec ++ g!": circuit is open")] 1, Except.error v⟩ (.over (.panic v))
  | ret (m : Method) (args) (vs : Vals m.results.length) :
      Step G d (.calling m args) ⟨.impl d.base m.name args m.results.length, Except.ok vs⟩ (.returned vs.1)
  | panic (m : Method) (args) (v : Val) :
      Step G d (.calling m args) ⟨.impl d.base m.name args m.results.length, Except.error v⟩ (.over (.panic v))
  | lockSuccess (vs) (h : (lastError vs).isNil = true) : Step G d (.returned vs) ⟨.lock, ()⟩ (.reset1 vs)
  | lockError (vs) (h : (lastError vs).isNil = false) : Step G d (.returned vs) ⟨.lock, ()⟩ (.next vs d.ignore)
  | isIgnored (vs e es) : Step G d (.checking vs e es) ⟨.errorsIs (lastError vs) e, Except.ok true⟩ (.reset1 vs)
  | notIgnored (vs e es) : Step G d (.checking vs e es) ⟨.errorsIs (lastError vs) e, Except.ok false⟩ (.next vs es)
  | isPanic (vs e es) (v : Val) :
      Step G d (.checking vs e es) ⟨.errorsIs (lastError vs) e, Except.error v⟩ (.unlockPanic v)
  | reset1 (vs) : Step G d (.reset1 vs) ⟨.setErrors 0, ()⟩ (.reset2 vs)
  | reset2 (vs) : Step G d (.reset2 vs) ⟨.setClosesAt none, ()⟩ (.unlocking vs)
  | count1 (vs) (n : Nat) : Step G d (.count1 vs) ⟨.getErrors, n⟩ (.count2 vs n)
  | count2 (vs) (n : Nat) : Step G d (.count2 vs n) ⟨.setErrors (n + 1), ()⟩ (.count3 vs)
  | enough (vs) (n : Nat) (h : (n : Int) ≥ d.maxErrors) : Step G d (.count3 vs) ⟨.getErrors, n⟩ (.open1 vs)
  | few (vs) (n : Nat) (h : (n : Int) < d.maxErrors) : Step G d (.count3 vs) ⟨.getErrors, n⟩ (.unlocking vs)
  | open1 (vs) (t : Int) : Step G d (.open1 vs) ⟨.now, t⟩ (.open2 vs t)
  | open2 (vs) (t : Int) : Step G d (.open2 vs t) ⟨.setClosesAt (some (t + d.openInterval)), ()⟩ (.unlocking vs)
  | unlock (vs) : Step G d (.unlocking vs) ⟨.unlock, ()⟩ (.over (.ret vs))
  | unlockPanic (v) : Step G d (.unlockPanic v) ⟨.unlock, ()⟩ (.over (.panic v))

theorem BLoc.next_tree (G : GoTypes) (d : Breaker) (vs es : List Val) :
    (BLoc.next vs es).tree G d = d.ignoredT (lastError vs) (.ret vs) es := by
  cases es <;> rfl

/-- Calls through a circuit breaker of methods that return an error. -/
def BreakerCall (G : GoTypes) (d : Breaker) (t : Tree Outcome) : Prop :=
  ∃ m recv args, Callable m recv [g!"time", g!"errors"] args ∧ m.returnsError = true ∧
    t = d.decorator.call G m recv args

/-- Executions of a circuit breaker. -/
def BreakerExec (G : GoTypes) (d : Breaker) (same : Val → Val → Bool) (time : Int) :
    List Label → Conf BreakerState (Tree Outcome) → Prop :=
  Exec Tree.Step (breakerHandler same) noBackground (BreakerCall G d) (.init time)

/-- The same with locations. -/
def BreakerExecL (G : GoTypes) (d : Breaker) (same : Val → Val → Bool) (time : Int) :
    List Label → Conf BreakerState BLoc → Prop :=
  Exec (BLoc.Step G d) (breakerHandler same) noBackground (fun l => ∃ m args, l = .start m args) (.init time)

theorem breaker_locs {G : GoTypes} {d : Breaker} {same : Val → Val → Bool} {time : Int} {L : List Label}
    {c : Conf BreakerState (Tree Outcome)} (h : BreakerExec G d same time L c) :
    ∃ ls, c.threads = ls.map (BLoc.tree G d) ∧ BreakerExecL G d same time L ⟨c.shared, ls⟩ := by
  refine Exec.locs (BLoc.tree G d) (BLoc.Step G d) (fun l => ∃ m args, l = .start m args) ?_ ?_ h
  · rintro t ⟨m, recv, args, hc, hr, rfl⟩
    exact ⟨.start m args, (breaker_call G d hc hr).symm, m, args, rfl⟩
  · rintro l ⟨op, r⟩ t' ⟨k, hk, rfl⟩
    cases l with
    | start m args =>
      rw [BLoc.tree, bodyT] at hk
      injection hk with h1 h2
      subst h1
      cases h2
      exact ⟨.read1 m args, rfl, .rlock m args⟩
    | read1 m args =>
      rw [BLoc.tree, read1T] at hk
      injection hk with h1 h2
      subst h1
      cases h2
      cases r with
      | none => exact ⟨.pass m args, rfl, .closed m args⟩
      | some u => exact ⟨.read2 m args, rfl, .notNil m args u⟩
    | read2 m args =>
      rw [BLoc.tree, read2T] at hk
      injection hk with h1 h2
      subst h1
      cases h2
      cases r with
      | none => exact ⟨.lost, rfl, .derefNil m args⟩
      | some u => exact ⟨.clock u m args, rfl, .deref m args u⟩
    | clock u m args =>
      rw [BLoc.tree, clockT] at hk
      injection hk with h1 h2
      subst h1
      cases h2
      by_cases hu : u > r
      · exact ⟨.reject m, (if_pos hu).symm, .isOpen m args u r hu⟩
      · exact ⟨.pass m args, (if_neg hu).symm, .isOver m args u r (Int.not_lt.1 hu)⟩
    | pass m args =>
      rw [BLoc.tree, passT] at hk
      injection hk with h1 h2
      subst h1
      cases h2
      exact ⟨.calling m args, rfl, .pass m args⟩
    | reject m =>
      rw [BLoc.tree, rejectT] at hk
      injection hk with h1 h2
      subst h1
      cases h2
      exact ⟨.makeErr m, Tree.vis_congr (fun x => by cases x <;> rfl), .reject m⟩
    | makeErr m =>
      rw [BLoc.tree, makeErrT] at hk
      injection hk with h1 h2
      subst h1
      cases h2
      cases r with
      | ok vs => exact ⟨_, rfl, .makeErr m vs⟩
      | error v => exact ⟨_, rfl, .makeErrPanic m v⟩
    | calling m args =>
      rw [BLoc.tree, attemptT] at hk
      injection hk with h1 h2
      subst h1
      cases h2
      cases r with
      | ok vs => exact ⟨_, rfl, .ret m args vs⟩
      | error v => exact ⟨_, rfl, .panic m args v⟩
    | returned vs =>
      rw [BLoc.tree, afterT] at hk
      injection hk with h1 h2
      subst h1
      cases h2
      by_cases hn : (lastError vs).isNil = true
      · exact ⟨.reset1 vs, (if_pos hn).symm, .lockSuccess vs hn⟩
      · refine ⟨.next vs d.ignore, ?_, .lockError vs (Bool.eq_false_iff.2 hn)⟩
        rw [BLoc.next_tree]
        exact (if_neg hn).symm
    | checking vs e es =>
      rw [BLoc.tree, ignoredT] at hk
      injection hk with h1 h2
      subst h1
      cases h2
      cases r with
      | error v => exact ⟨.unlockPanic v, rfl, .isPanic vs e es v⟩
      | ok b =>
        cases b with
        | true => exact ⟨.reset1 vs, rfl, .isIgnored vs e es⟩
        | false => exact ⟨.next vs es, BLoc.next_tree G d vs es, .notIgnored vs e es⟩
    | reset1 vs =>
      rw [BLoc.tree, resetT] at hk
      injection hk with h1 h2
      subst h1
      cases h2
      exact ⟨.reset2 vs, rfl, .reset1 vs⟩
    | reset2 vs =>
      rw [BLoc.tree] at hk
      injection hk with h1 h2
      subst h1
      cases h2
      exact ⟨.unlocking vs, rfl, .reset2 vs⟩
    | count1 vs =>
      rw [BLoc.tree, countT] at hk
      injection hk with h1 h2
      subst h1
      cases h2
      exact ⟨.count2 vs r, rfl, .count1 vs r⟩
    | count2 vs n =>
      rw [BLoc.tree] at hk
      injection hk with h1 h2
      subst h1
      cases h2
      exact ⟨.count3 vs, rfl, .count2 vs n⟩
    | count3 vs =>
      rw [BLoc.tree, count3T] at hk
      injection hk with h1 h2
      subst h1
      cases h2
      by_cases hn : ((r : Nat) : Int) ≥ d.maxErrors
      · exact ⟨.open1 vs, (if_pos hn).symm, .enough vs r hn⟩
      · exact ⟨.unlocking vs, (if_neg hn).symm, .few vs r (Int.not_le.1 hn)⟩
    | open1 vs =>
      rw [BLoc.tree] at hk
      injection hk with h1 h2
      subst h1
      cases h2
      exact ⟨.open2 vs r, rfl, .open1 vs r⟩
    | open2 vs t =>
      rw [BLoc.tree] at hk
      injection hk with h1 h2
      subst h1
      cases h2
      exact ⟨.unlocking vs, rfl, .open2 vs t⟩
    | unlocking vs =>
      rw [BLoc.tree, unlockT] at hk
      injection hk with h1 h2
      subst h1
      cases h2
      exact ⟨.over (.ret vs), rfl, .unlock vs⟩
    | unlockPanic v =>
      rw [BLoc.tree, unlockT] at hk
      injection hk with h1 h2
      subst h1
      cases h2
      exact ⟨.over (.panic v), rfl, .unlockPanic v⟩
    | lost => cases hk
    | over o => cases hk

/-! ## Locks -/

/-- The thread holds the lock for reading. -/
def BLoc.holdsR : BLoc → Bool
  | .read1 .. | .read2 .. | .clock .. | .pass .. | .reject .. | .lost => true
  | _ => false

/-- The thread holds the lock for writing. -/
def BLoc.holdsW : BLoc → Bool
  | .checking .. | .reset1 .. | .reset2 .. | .count1 .. | .count2 .. | .count3 .. | .open1 .. | .open2 ..
  | .unlocking .. | .unlockPanic .. => true
  | _ => false

theorem BLoc.next_holdsR (vs es : List Val) : (BLoc.next vs es).holdsR = false := by cases es <;> rfl

theorem BLoc.next_holdsW (vs es : List Val) : (BLoc.next vs es).holdsW = true := by cases es <;> rfl

/-- The state of the lock counts its holders. -/
structure LockInv (s : BreakerState) (ls : List BLoc) : Prop where
  readers : s.readers = ls.countP BLoc.holdsR
  writer : s.writer.toNat = ls.countP BLoc.holdsW
  excl : s.writer = true → s.readers = 0

theorem lock_inv {G : GoTypes} {d : Breaker} {same : Val → Val → Bool} {time : Int} {L : List Label}
    {c : Conf BreakerState BLoc} (h : BreakerExecL G d same time L c) : LockInv c.shared c.threads := by
  induction h with
  | start => exact ⟨rfl, rfl, by intro h; cases h⟩
  | call h ht ih =>
    obtain ⟨m, args, rfl⟩ := ht
    obtain ⟨h1, h2, h3⟩ := ih
    refine ⟨?_, ?_, h3⟩
    · simp [List.countP_append, BLoc.holdsR, h1]
    · simp [List.countP_append, BLoc.holdsW, h2]
  | @step L c i t t' e s' h hi ht hs ih =>
    obtain ⟨h1, h2, h3⟩ := ih
    have hr := countP_set' BLoc.holdsR (a' := t') hi
    have hw := countP_set' BLoc.holdsW (a' := t') hi
    have hpr : BLoc.holdsR t = true → 0 < c.threads.countP BLoc.holdsR := fun hp =>
      List.countP_pos_iff.2 ⟨t, List.mem_of_getElem? hi, hp⟩
    have hpw : BLoc.holdsW t = true → 0 < c.threads.countP BLoc.holdsW := fun hp =>
      List.countP_pos_iff.2 ⟨t, List.mem_of_getElem? hi, hp⟩
    show LockInv s' (c.threads.set i t')
    cases ht with
    | rlock m args =>
      obtain ⟨hb, rfl⟩ := hs
      refine ⟨?_, ?_, ?_⟩
      · simp [BLoc.holdsR] at hr; simp; omega
      · simp [BLoc.holdsW] at hw; simp; omega
      · intro hc; simp [hb] at hc
    | pass m args =>
      cases (show s' = { c.shared with readers := c.shared.readers - 1 } from hs)
      refine ⟨?_, ?_, ?_⟩
      · simp [BLoc.holdsR] at hr; simp; omega
      · simp [BLoc.holdsW] at hw; simp; omega
      · intro hc; have := h3 hc; simp; omega
    | reject m =>
      cases (show s' = { c.shared with readers := c.shared.readers - 1 } from hs)
      refine ⟨?_, ?_, ?_⟩
      · simp [BLoc.holdsR] at hr; simp; omega
      · simp [BLoc.holdsW] at hw; simp; omega
      · intro hc; have := h3 hc; simp; omega
    | lockSuccess vs hn =>
      obtain ⟨hb, h0, rfl⟩ := hs
      refine ⟨?_, ?_, fun _ => h0⟩
      · simp [BLoc.holdsR] at hr; simp; omega
      · simp [BLoc.holdsW] at hw; rw [hb] at h2; simp at h2; simp [hw, h2]
    | lockError vs hn =>
      obtain ⟨hb, h0, rfl⟩ := hs
      refine ⟨?_, ?_, fun _ => h0⟩
      · rw [BLoc.next_holdsR] at hr; simp [BLoc.holdsR] at hr; simp; omega
      · rw [BLoc.next_holdsW] at hw; simp [BLoc.holdsW] at hw; rw [hb] at h2; simp at h2; simp [hw, h2]
    | unlock vs =>
      cases (show s' = { c.shared with writer := false } from hs)
      have := hpw rfl
      have hle := Bool.toNat_le c.shared.writer
      refine ⟨?_, ?_, by intro hc; cases hc⟩
      · simp [BLoc.holdsR] at hr; simp; omega
      · simp [BLoc.holdsW] at hw; simp; omega
    | unlockPanic vs =>
      cases (show s' = { c.shared with writer := false } from hs)
      have := hpw rfl
      have hle := Bool.toNat_le c.shared.writer
      refine ⟨?_, ?_, by intro hc; cases hc⟩
      · simp [BLoc.holdsR] at hr; simp; omega
      · simp [BLoc.holdsW] at hw; simp; omega
    | notIgnored vs e es =>
      obtain ⟨_, rfl⟩ := hs
      rw [BLoc.next_holdsR] at hr
      rw [BLoc.next_holdsW] at hw
      refine ⟨?_, ?_, h3⟩
      · simp [BLoc.holdsR] at hr; omega
      · simp [BLoc.holdsW] at hw; omega
    | _ =>
      have hs' : s'.readers = c.shared.readers ∧ s'.writer = c.shared.writer := by
        first
          | obtain ⟨_, rfl⟩ := hs; exact ⟨rfl, rfl⟩
          | cases hs; exact ⟨rfl, rfl⟩
      refine ⟨?_, ?_, by rw [hs'.1, hs'.2]; exact h3⟩
      · rw [hs'.1]; simp only [BLoc.holdsR, Bool.false_eq_true, if_true, if_false] at hr; omega
      · rw [hs'.2]; simp only [BLoc.holdsW, Bool.false_eq_true, if_true, if_false] at hw; omega
  | bg h hb ih => exact hb.elim

theorem countP_two {α : Type} (p : α → Bool) : ∀ {l : List α} {i j : Nat} {a b : α}, i ≠ j → l[i]? = some a →
    l[j]? = some b → p a = true → p b = true → 2 ≤ l.countP p := by
  intro l
  induction l with
  | nil => intro i j a b _ h; simp at h
  | cons x l ih =>
    intro i j a b hij hi hj ha hb
    rw [List.countP_cons]
    cases i with
    | zero =>
      cases j with
      | zero => exact absurd rfl hij
      | succ j =>
        simp at hi hj
        subst hi
        have := List.countP_pos_iff.2 ⟨b, List.mem_of_getElem? hj, hb⟩
        rw [if_pos ha]
        omega
    | succ i =>
      cases j with
      | zero =>
        simp at hi hj
        subst hj
        have := List.countP_pos_iff.2 ⟨a, List.mem_of_getElem? hi, ha⟩
        rw [if_pos hb]
        omega
      | succ j =>
        simp at hi hj
        have := ih (by omega) hi hj ha hb
        omega

/-- Nobody else holds the lock beside a writer. -/
theorem LockInv.alone {s : BreakerState} {ls : List BLoc} (h : LockInv s ls) {i j : Nat} {a b : BLoc} (hij : i ≠ j)
    (hi : ls[i]? = some a) (hj : ls[j]? = some b) (hw : a.holdsW = true) : b.holdsR = false ∧ b.holdsW = false := by
  have hpos := List.countP_pos_iff.2 ⟨a, List.mem_of_getElem? hi, hw⟩
  have hle := Bool.toNat_le s.writer
  have hwr : s.writer = true := by
    have := h.writer
    cases hs : s.writer with
    | true => rfl
    | false => rw [hs] at this; simp at this; omega
  constructor
  · cases hb : b.holdsR with
    | false => rfl
    | true =>
      have h0 := h.excl hwr
      have := List.countP_pos_iff.2 ⟨b, List.mem_of_getElem? hj, hb⟩
      rw [h.readers] at h0
      omega
  · cases hb : b.holdsW with
    | false => rfl
    | true =>
      have := countP_two BLoc.holdsW hij hi hj hw hb
      have := h.writer
      omega

end Gowrap.Tmpl
