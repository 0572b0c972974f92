import Verif.Props.Control
import Verif.Proofs.BreakerData
/-!
# C45, C46, C62: the circuit breaker
-/

namespace Gowrap.Props

open Gowrap Spec Tmpl Breaker

variable {G : GoTypes} {d : Breaker} {same : Val → Val → Bool} {time : Int} {L : List Label}
  {c : Conf BreakerState (Tree Outcome)}

/-! ## C62: locks -/

theorem breaker_loc {ls : List BLoc} (hls : c.threads = ls.map (BLoc.tree G d)) (i : Nat) (t : Tree Outcome)
    (hi : c.threads[i]? = some t) : ∃ l : BLoc, ls[i]? = some l ∧ l.tree G d = t := by
  rw [hls, List.getElem?_map] at hi
  cases hl : ls[i]? with
  | none => rw [hl] at hi; cases hi
  | some l => rw [hl] at hi; exact ⟨l, rfl, Option.some.inj hi⟩

/-- Fields are accessed by goroutines that hold the lock. -/
theorem access_holds {l : BLoc} {op : Op} {k : op.Resp → Tree Outcome} {f : SharedField} {w : Bool}
    (ht : l.tree G d = .vis op k) (ha : access op = some (f, w)) :
    (w = true → l.holdsW = true) ∧ (l.holdsR = true ∨ l.holdsW = true) := by
  have key : ∀ {op' : Op} {k' : op'.Resp → Tree Outcome}, l.tree G d = .vis op' k' → access op' = some (f, w) := by
    intro op' k' h
    rw [h] at ht
    injection ht with h1 _
    rw [h1]
    exact ha
  cases l with
  | start m args => have := key rfl; cases this
  | read1 m args => have := key rfl; cases this; exact ⟨by intro h; (cases h), Or.inl rfl⟩
  | read2 m args => have := key rfl; cases this; exact ⟨by intro h; (cases h), Or.inl rfl⟩
  | clock u m args => have := key rfl; cases this
  | pass m args => have := key rfl; cases this
  | reject m => have := key rfl; cases this
  | makeErr m => have := key rfl; cases this
  | calling m args => have := key rfl; cases this
  | returned vs => have := key rfl; cases this
  | checking vs e es => have := key rfl; cases this
  | reset1 vs => exact ⟨fun _ => rfl, Or.inr rfl⟩
  | reset2 vs => exact ⟨fun _ => rfl, Or.inr rfl⟩
  | count1 vs => exact ⟨fun _ => rfl, Or.inr rfl⟩
  | count2 vs n => exact ⟨fun _ => rfl, Or.inr rfl⟩
  | count3 vs => exact ⟨fun _ => rfl, Or.inr rfl⟩
  | open1 vs => exact ⟨fun _ => rfl, Or.inr rfl⟩
  | open2 vs t => exact ⟨fun _ => rfl, Or.inr rfl⟩
  | unlocking vs => exact ⟨fun _ => rfl, Or.inr rfl⟩
  | unlockPanic v => exact ⟨fun _ => rfl, Or.inr rfl⟩
  | lost => cases ht
  | over o => cases ht

/-- **C62** Goroutines that use a circuit breaker never race for its fields. -/
theorem C62_no_race (h : BreakerExec G d same time L c) : ¬ Race c := by
  rintro ⟨i, j, op, k, op', k', f, w, w', hij, hi, hj, ha, ha', hw⟩
  obtain ⟨ls, hls, he⟩ := breaker_locs h
  have hl := lock_inv he
  obtain ⟨a, hla, hta⟩ := breaker_loc hls i _ hi
  obtain ⟨b, hlb, htb⟩ := breaker_loc hls j _ hj
  obtain ⟨a1, a2⟩ := access_holds hta ha
  obtain ⟨b1, b2⟩ := access_holds htb ha'
  have hw : w = true ∨ w' = true := by simpa using hw
  rcases hw with hw | hw
  · obtain ⟨h1, h2⟩ := hl.alone hij hla hlb (a1 hw)
    rcases b2 with h | h
    · rw [h1] at h; cases h
    · rw [h2] at h; cases h
  · obtain ⟨h1, h2⟩ := hl.alone (Ne.symm hij) hlb hla (b1 hw)
    rcases a2 with h | h
    · rw [h1] at h; cases h
    · rw [h2] at h; cases h

/-- **C62** The lock is not held during a call of the implementation and released at the end of a call:
when all goroutines are inside of the implementation or have ended, nobody holds the lock. -/
theorem C62_released (h : BreakerExec G d same time L c)
    (hall : ∀ i, i < c.threads.length → (∃ v, Inside c i v) ∨ ∃ o, Ended c i o) :
    c.shared.readers = 0 ∧ c.shared.writer = false := by
  obtain ⟨ls, hls, he⟩ := breaker_locs h
  have hl := lock_inv he
  have hfree : ∀ l ∈ ls, l.holdsR = false ∧ l.holdsW = false := by
    intro l hm
    obtain ⟨i, hi⟩ := List.getElem?_of_mem hm
    have ht : c.threads[i]? = some (l.tree G d) := by rw [hls, List.getElem?_map, hi]; rfl
    have hdat := (data_inv he).data i l hi
    rcases hall i (List.getElem?_eq_some_iff.1 ht).1 with ⟨v, name, args, n, k, hv⟩ | ⟨o, ho⟩
    · rw [ht] at hv
      have hv := Option.some.inj hv
      have key : ∀ {op' : Op} {k' : op'.Resp → Tree Outcome}, l.tree G d = .vis op' k' → op' = .impl v name args n := by
        intro op' k' h
        rw [h] at hv
        injection hv
      cases l <;> first | exact ⟨rfl, rfl⟩ | (have := key rfl; cases this) | cases hv
    · rw [Ended, ht] at ho
      have ho := Option.some.inj ho
      cases l <;> first | exact ⟨rfl, rfl⟩ | exact hdat.elim | cases ho
  have h1 : c.shared.readers = ls.countP BLoc.holdsR := hl.readers
  have h2 : c.shared.writer.toNat = ls.countP BLoc.holdsW := hl.writer
  rw [List.countP_eq_zero.2 (fun l hm => by rw [(hfree l hm).1]; simp)] at h1
  rw [List.countP_eq_zero.2 (fun l hm => by rw [(hfree l hm).2]; simp)] at h2
  refine ⟨h1, ?_⟩
  cases hw : c.shared.writer with
  | false => rfl
  | true => rw [hw] at h2; cases h2

/-- **C62** There is no deadlock: as long as a call has not ended some goroutine can go on. -/
theorem C62_no_deadlock (h : BreakerExec G d same time L c) (i : Nat) (hi : i < c.threads.length)
    (hne : ∀ o, ¬ Ended c i o) : ∃ j, CanStep (breakerHandler same) c j := by
  obtain ⟨ls, hls, he⟩ := breaker_locs h
  have hl := lock_inv he
  have hl1 : c.shared.readers = ls.countP BLoc.holdsR := hl.readers
  have hl2 : c.shared.writer.toNat = ls.countP BLoc.holdsW := hl.writer
  have go : ∀ (j : Nat) (l : BLoc), ls[j]? = some l → ∀ (op : Op) {k : op.Resp → Tree Outcome} (r : op.Resp) s',
      l.tree G d = .vis op k → breakerHandler same c.shared ⟨op, r⟩ s' → CanStep (breakerHandler same) c j := by
    intro j l hj op k r s' ht hs
    refine ⟨_, ⟨op, r⟩, k r, s', ?_, ⟨k, ht, rfl⟩, hs⟩
    rw [hls, List.getElem?_map, hj]
    rfl
  -- a goroutine that holds the lock can go on
  have holder : ∀ (j : Nat) (l : BLoc), ls[j]? = some l → l.holdsR = true ∨ l.holdsW = true →
      CanStep (breakerHandler same) c j := by
    intro j l hj hh
    have hdat := (data_inv he).data j l hj
    cases l with
    | read1 m args => exact go j _ hj .getClosesAt _ _ rfl ⟨rfl, rfl⟩
    | read2 m args => exact go j _ hj .getClosesAt _ _ rfl ⟨rfl, rfl⟩
    | clock u m args => exact go j _ hj .now c.shared.time _ rfl ⟨Int.le_refl _, rfl⟩
    | pass m args => exact go j _ hj .runlock () _ rfl rfl
    | reject m => exact go j _ hj .runlock () _ rfl rfl
    | lost => exact hdat.elim
    | checking vs e es => exact go j _ hj (.errorsIs (lastError vs) e) (Except.ok (same (lastError vs) e)) _ rfl ⟨rfl, rfl⟩
    | reset1 vs => exact go j _ hj (.setErrors 0) () _ rfl rfl
    | reset2 vs => exact go j _ hj (.setClosesAt none) () _ rfl rfl
    | count1 vs => exact go j _ hj .getErrors _ _ rfl ⟨rfl, rfl⟩
    | count2 vs n => exact go j _ hj (.setErrors (n + 1)) () _ rfl rfl
    | count3 vs => exact go j _ hj .getErrors _ _ rfl ⟨rfl, rfl⟩
    | open1 vs => exact go j _ hj .now c.shared.time _ rfl ⟨Int.le_refl _, rfl⟩
    | open2 vs t => exact go j _ hj (.setClosesAt (some (t + d.openInterval))) () _ rfl rfl
    | unlocking vs => exact go j _ hj .unlock () _ rfl rfl
    | unlockPanic v => exact hdat.elim
    | start | makeErr | calling | returned | over => rcases hh with hh | hh <;> cases hh
  have hlen : i < ls.length := by rw [hls, List.length_map] at hi; exact hi
  have hli : ls[i]? = some ls[i] := List.getElem?_eq_getElem hlen
  have hti : c.threads[i]? = some ((ls[i]).tree G d) := by rw [hls, List.getElem?_map, hli]; rfl
  -- a writer, or a reader, or nobody
  have wr : c.shared.writer = true → ∃ j, CanStep (breakerHandler same) c j := by
    intro hw
    rw [hw] at hl2
    obtain ⟨l, hm, hp⟩ := List.countP_pos_iff.1 (show 0 < ls.countP BLoc.holdsW by rw [← hl2]; decide)
    obtain ⟨j, hj⟩ := List.getElem?_of_mem hm
    exact ⟨j, holder j l hj (Or.inr hp)⟩
  have rd : 0 < c.shared.readers → ∃ j, CanStep (breakerHandler same) c j := by
    intro hr
    rw [hl1] at hr
    obtain ⟨l, hm, hp⟩ := List.countP_pos_iff.1 hr
    obtain ⟨j, hj⟩ := List.getElem?_of_mem hm
    exact ⟨j, holder j l hj (Or.inl hp)⟩
  generalize hl : ls[i] = l at hli hti
  cases l with
  | start m args =>
    cases hw : c.shared.writer with
    | true => exact wr hw
    | false => exact ⟨i, go i _ hli .rlock () _ rfl ⟨hw, rfl⟩⟩
  | returned vs =>
    cases hw : c.shared.writer with
    | true => exact wr hw
    | false =>
      by_cases hr : 0 < c.shared.readers
      · exact rd hr
      · exact ⟨i, go i _ hli .lock () _ rfl ⟨hw, by omega, rfl⟩⟩
  | makeErr m => exact ⟨i, go i _ hli (.lib g!"errors.New" [.str (d.dec ++ g!": circuit is open")] 1) (Except.error .nil) _ rfl rfl⟩
  | calling m args => exact ⟨i, go i _ hli (.impl d.base m.name args m.results.length) (Except.error .nil) _ rfl rfl⟩
  | over o => exact absurd hti (hne o)
  | _ => exact ⟨i, holder i _ hli (by first | exact Or.inl rfl | exact Or.inr rfl)⟩

/-! ## C46 -/

theorem why_through {ls : List BLoc} (hls : c.threads = ls.map (BLoc.tree G d))
    (he : BreakerExecL G d same time L ⟨c.shared, ls⟩) (i : Nat) (hw : WentThrough L c i) :
    FoundClosed (d.policy same) L i := by
  rcases hw with hw | ⟨v, name, args, n, k, hv⟩
  · have hne : mine i L ≠ [] := by intro h; rw [h] at hw; exact hw rfl
    obtain ⟨e, hm⟩ := List.exists_mem_of_ne_nil _ hne
    have hlt := he.thread_lt (fun _ _ _ h => h.elim) i e (mem_mine.1 hm)
    have hl : ls[i]? = some ls[i] := List.getElem?_eq_getElem hlt
    have hwhy := why_inv he i _ hl
    have hloc := breaker_local he i _ hl
    have hdat := (data_inv he).data i _ hl
    generalize ls[i] = l at hwhy hloc hdat
    cases l with
    | start m args => exact absurd hloc hne
    | read1 | read2 | clock => exact absurd hloc.1.1 hw
    | reject | makeErr | pass | calling => exact absurd hloc.1 hw
    | lost => exact hdat.elim
    | unlockPanic => exact hdat.elim
    | over o =>
      rcases hwhy with ⟨h1, _⟩ | ⟨_, h2⟩
      · exact absurd h1 hw
      · exact h2
    | _ => exact hwhy
  · obtain ⟨l, hl, ht⟩ := breaker_loc hls i _ hv
    have hwhy := why_inv he i _ hl
    have key : ∀ {op' : Op} {k' : op'.Resp → Tree Outcome}, l.tree G d = .vis op' k' → op' = .impl v name args n := by
      intro op' k' h
      rw [h] at ht
      injection ht
    cases l with
    | calling m args => exact hwhy
    | lost => cases ht
    | over o => cases ht
    | _ => have := key rfl; cases this

/-- **C46** (the decision) A call that goes to the implementation has found the circuit closed or the time
until which it was open reached; a call that ends without going to the implementation has found the circuit
open, at a time before its end, and returns the error of the circuit breaker. -/
theorem C46_decision (h : BreakerExec G d same time L c) :
    (∀ i, WentThrough L c i → FoundClosed (d.policy same) L i) ∧
    ∀ i o, Ended c i o → LibsReturn (mine i L) → WentThrough L c i ∨
      (FoundOpen (d.policy same) L i ∧ ∃ (a : List Val) (vs : Vals 1) (e : Val) (init : List Val), vs.1 = [e] ∧
        (⟨.lib g!"errors.New" a 1, Except.ok vs⟩ : Event) ∈ mine i L ∧ o = .ret (init ++ [e])) := by
  obtain ⟨ls, hls, he⟩ := breaker_locs h
  refine ⟨fun i hw => why_through hls he i hw, ?_⟩
  intro i o ho hlib
  obtain ⟨l, hl, ht⟩ := breaker_loc hls i _ ho
  have hwhy := why_inv he i _ hl
  have hloc := breaker_local he i _ hl
  have hdat := (data_inv he).data i _ hl
  cases l with
  | over o' =>
    cases ht
    rcases hwhy with ⟨h1, h2⟩ | ⟨h1, _⟩
    · refine Or.inr ⟨h2, ?_⟩
      rcases hloc with ⟨vs, tr', _, ⟨a, b, e, hg⟩, _, h3⟩ | ⟨v, a, b, e, _, h3, _⟩ | ⟨tr', a, r, _, _, h3, h4⟩
      · rw [h3, implCalls_append, hg] at h1
        cases h1
      · rw [h3] at h1
        cases h1
      · rcases h4 with ⟨vs, init, rfl, rfl⟩ | ⟨v, rfl, rfl⟩
        · obtain ⟨vs, hvs⟩ := vs
          match vs, hvs with
          | [e], hvs => exact ⟨a, ⟨[e], hvs⟩, e, init, rfl, by rw [h3]; simp, rfl⟩
        · have hm : (⟨g!"errors.New", a, .error v⟩ : LibCall) ∈ libCalls (mine i L) := by
            rw [h3, libCalls_append]
            exact List.mem_append_right _ (List.mem_singleton.2 rfl)
          obtain ⟨vs, hvs⟩ := hlib _ hm
          cases hvs
    · exact Or.inl (Or.inl h1)
  | lost => exact hdat.elim
  | start | read1 | read2 | clock | pass | reject | makeErr | calling | returned | checking | reset1 | reset2 | count1
    | count2 | count3 | open1 | open2 | unlocking | unlockPanic => cases ht

/-- The full claim of C46 about an open circuit: while it is open no call that begins goes to the
implementation. -/
def C46_full : Prop := ∀ (G : GoTypes) (d : Breaker) (same : Val → Val → Bool) (time : Int) (L1 L2 : List Label)
  (c : Conf BreakerState (Tree Outcome)) (u : Int), BreakerExec G d same time (L1 ++ L2) c →
  (d.policy same).openUntil (history L1) = some u → (∀ i t, .op i ⟨.now, t⟩ ∈ L2 → t < u) →
  ∀ i, mine i L1 = [] → ¬ WentThrough (L1 ++ L2) c i

/-- While only calls that count end, an open circuit stays open at least as long. -/
theorem stays_open {c : Conf BreakerState BLoc} (h : BreakerExecL G d same time L c) :
    ∀ L1 L2 u, L = L1 ++ L2 → (d.policy same).openUntil (history L1) = some u →
      (∀ x ∈ historyFrom L1 L2, (d.policy same).counts x.results = true) →
      ∃ u', (d.policy same).openUntil (history L) = some u' ∧ u ≤ u' := by
  induction h with
  | start =>
    intro L1 L2 u hL hu _
    obtain ⟨rfl, rfl⟩ := List.append_eq_nil_iff.1 hL.symm
    exact ⟨u, hu, Int.le_refl _⟩
  | call h ht ih => exact ih
  | bg h hb ih => exact hb.elim
  | @step L c i t t' e s' h hi ht hs ih =>
    intro L1 L2 u hL hu hcnt
    rcases List.eq_nil_or_concat L2 with rfl | ⟨L2', l', rfl⟩
    · rw [List.append_nil] at hL
      rw [hL]
      exact ⟨u, hu, Int.le_refl _⟩
    · rw [List.concat_eq_append, ← List.append_assoc] at hL
      obtain ⟨h1, h2⟩ := List.append_inj' hL rfl
      cases h2
      rw [List.concat_eq_append, historyFrom_append] at hcnt
      obtain ⟨u0, hu0, hle⟩ := ih L1 L2' u h1 hu fun x hx => hcnt x (List.mem_append_left _ hx)
      rw [history_snoc]
      have keep : historyFrom L [.op i e] = [] →
          ∃ u', (d.policy same).openUntil (history L ++ historyFrom L [.op i e]) = some u' ∧ u ≤ u' := by
        intro hk
        rw [hk, List.append_nil]
        exact ⟨u0, hu0, hle⟩
      cases ht with
      | unlock vs =>
        have hloc := breaker_local h i _ hi
        have hdat := (data_inv h).data i _ hi
        have htim := (time_inv h).times i _ hi
        obtain ⟨⟨a, b, e, hg⟩, _⟩ := hloc
        have hh : historyFrom L [.op i ⟨.unlock, ()⟩] = [⟨vs, lastClock (mine i L)⟩] := by
          show [(⟨returnedTo (mine i L), _⟩ : Completion)] = _
          rw [returnedTo, hg]
        have hcounts : (d.policy same).counts vs = true :=
          hcnt ⟨vs, lastClock (mine i L)⟩ (List.mem_append_right _ (by rw [← h1, hh]; simp))
        have hmax : (d.policy same).max = d.maxErrors := rfl
        have hge : (c.shared.errors : Int) ≥ d.maxErrors := by
          rw [hdat.1, streak_snoc, if_pos hcounts, ← hmax]
          by_cases hs : ((d.policy same).streak (history L) : Int) < (d.policy same).max
          · rw [openUntil_few hs] at hu0
            cases hu0
          · omega
        have hne := htim.2 hcounts hge
        rw [hh, ← hdat.2]
        cases hc : c.shared.closesAt with
        | none => exact absurd hc hne
        | some u' => exact ⟨u', rfl, Int.le_trans hle ((htim.1 u' hc).2 u0 hu0)⟩
      | unlockPanic v => exact ((data_inv h).data i _ hi).elim
      | _ => exact keep rfl

/-- **C46** (partial) While the circuit is open and the calls that were let through before and end now fail
with errors that count, no call that begins goes to the implementation.  What is missing: calls that were
let through before the circuit opened close it when they succeed (see `C46_full_false`). -/
theorem C46_open_partial (L1 L2 : List Label) (u : Int) (h : BreakerExec G d same time (L1 ++ L2) c)
    (hu : (d.policy same).openUntil (history L1) = some u) (hclock : ∀ i t, .op i ⟨.now, t⟩ ∈ L2 → t < u)
    (hcnt : ∀ x ∈ historyFrom L1 L2, (d.policy same).counts x.results = true) (i : Nat) (hi : mine i L1 = []) :
    ¬ WentThrough (L1 ++ L2) c i := by
  intro hw
  obtain ⟨ls, hls, he⟩ := breaker_locs h
  obtain ⟨A, e, B, hL, _, _, hdec⟩ := why_through hls he i hw
  -- the decision comes after the opening
  have hA : ∃ A', A = L1 ++ A' ∧ L2 = A' ++ .op i e :: B := by
    rcases List.append_eq_append_iff.1 hL with ⟨A', h1, h2⟩ | ⟨C', h1, h2⟩
    · exact ⟨A', h1, h2⟩
    · cases C' with
      | nil => exact ⟨[], by rw [h1, List.append_nil, List.append_nil], by simpa using h2.symm⟩
      | cons x C' =>
        simp only [List.cons_append, List.cons.injEq] at h2
        have : e ∈ mine i L1 := by
          rw [mem_mine, h1, ← h2.1]
          simp
        rw [hi] at this
        cases this
  obtain ⟨A', rfl, rfl⟩ := hA
  obtain ⟨c', hpre⟩ := he.prefix (L1 ++ A') (.op i e :: B) hL
  obtain ⟨u', hu', hle⟩ := stays_open hpre L1 A' u rfl hu (fun x hx => hcnt x (by
    rw [historyFrom_append]
    exact List.mem_append_left _ hx))
  rcases hdec with ⟨_, hnone⟩ | ⟨t, u'', rfl, hsome, ht⟩
  · rw [hnone] at hu'
    cases hu'
  · rw [hsome] at hu'
    cases hu'
    have := hclock i t (by simp)
    omega

/-- **C46** (re-opening) When a call that counts ends while the circuit has been opened before (and was not
closed by a success), the circuit is open again for the interval, from the time that this call read. -/
theorem C46_reopen (p : Policy) (h : List Completion) (x : Completion) (u : Int) (hu : p.openUntil h = some u)
    (hx : p.counts x.results = true) : p.openUntil (h ++ [x]) = x.clock.map (· + p.interval) := by
  rw [openUntil_snoc, if_pos]
  refine ⟨hx, ?_⟩
  by_cases hs : (p.streak h : Int) < p.max
  · rw [openUntil_few hs] at hu
    cases hu
  · omega

/-! ## Executions -/

theorem BLoc.Step.tree {l l' : BLoc} {e : Event} (h : BLoc.Step G d l e l') : (l.tree G d).Step e (l'.tree G d) := by
  cases h with
  | isOpen m args u t ht =>
    refine ⟨fun (now : Int) => if u > now then d.rejectT G m else d.passT m args, rfl, ?_⟩
    exact (if_pos ht).symm
  | isOver m args u t ht =>
    refine ⟨fun (now : Int) => if u > now then d.rejectT G m else d.passT m args, rfl, ?_⟩
    exact (if_neg (Int.not_lt.2 ht)).symm
  | reject m => exact ⟨_, rfl, Tree.vis_congr (fun x => by cases x <;> rfl)⟩
  | lockSuccess vs hn =>
    refine ⟨_, rfl, ?_⟩
    exact (if_pos hn).symm
  | lockError vs hn =>
    refine ⟨_, rfl, ?_⟩
    rw [BLoc.next_tree]
    exact (if_neg (by show ¬ (lastError vs).isNil = true; rw [hn]; simp)).symm
  | notIgnored vs e es =>
    refine ⟨_, rfl, ?_⟩
    rw [BLoc.next_tree]
  | enough vs n hn =>
    refine ⟨fun (n : Nat) => if (n : Int) ≥ d.maxErrors then _ else _, rfl, ?_⟩
    exact (if_pos hn).symm
  | few vs n hn =>
    refine ⟨fun (n : Nat) => if (n : Int) ≥ d.maxErrors then _ else _, rfl, ?_⟩
    exact (if_neg (Int.not_le.2 hn)).symm
  | _ => exact ⟨_, rfl, rfl⟩

/-- A circuit breaker that opens after one error, for ten units of time. -/
def demoBreaker : Breaker := ⟨g!"I", g!"D", .obj 0, 1, 10, []⟩

theorem demo_exec {c : Conf BreakerState BLoc}
    (h : Exec (BLoc.Step demoTypes demoBreaker) (breakerHandler fun _ _ => false) noBackground
      (· = .start find [.nil, .nil]) (.init 0) L c) :
    BreakerExec demoTypes demoBreaker (fun _ _ => false) 0 L ⟨c.shared, c.threads.map (BLoc.tree demoTypes demoBreaker)⟩ := by
  refine Exec.ofLocs (BLoc.tree demoTypes demoBreaker) ?_ (fun _ _ _ hs => BLoc.Step.tree hs) h
  rintro l rfl
  have hc : Callable find (g!"_d", .nil) [g!"time", g!"errors"] [.nil, .nil] := find_callable _ _ _ (by decide)
  exact ⟨find, _, _, hc, rfl, (breaker_call demoTypes demoBreaker hc rfl).symm⟩

/-- Two calls are let through; the first one fails and opens the circuit. -/
def demoOpened : List Label :=
  [.op 0 ⟨.rlock, ()⟩, .op 0 ⟨.getClosesAt, none⟩, .op 0 ⟨.runlock, ()⟩,
   .op 1 ⟨.rlock, ()⟩, .op 1 ⟨.getClosesAt, none⟩, .op 1 ⟨.runlock, ()⟩,
   .op 0 ⟨.impl (.obj 0) find.name [.nil, .nil] find.results.length, Except.ok ⟨[.nil, .obj 1], rfl⟩⟩,
   .op 0 ⟨.lock, ()⟩, .op 0 ⟨.getErrors, (0 : Nat)⟩, .op 0 ⟨.setErrors 1, ()⟩, .op 0 ⟨.getErrors, (1 : Nat)⟩,
   .op 0 ⟨.now, (0 : Int)⟩, .op 0 ⟨.setClosesAt (some 10), ()⟩, .op 0 ⟨.unlock, ()⟩]

/-- The other one succeeds, and a third call is let through. -/
def demoClosed : List Label :=
  [.op 1 ⟨.impl (.obj 0) find.name [.nil, .nil] find.results.length, Except.ok ⟨[.nil, .nil], rfl⟩⟩,
   .op 1 ⟨.lock, ()⟩, .op 1 ⟨.setErrors 0, ()⟩, .op 1 ⟨.setClosesAt none, ()⟩, .op 1 ⟨.unlock, ()⟩,
   .op 2 ⟨.rlock, ()⟩, .op 2 ⟨.getClosesAt, none⟩, .op 2 ⟨.runlock, ()⟩]

/-- A third call is rejected. -/
def demoRejected : List Label :=
  [.op 2 ⟨.rlock, ()⟩, .op 2 ⟨.getClosesAt, some 10⟩, .op 2 ⟨.getClosesAt, some 10⟩, .op 2 ⟨.now, (9 : Int)⟩,
   .op 2 ⟨.runlock, ()⟩]

/-- Executions of the demo on locations. -/
abbrev DemoExec : List Label → Conf BreakerState BLoc → Prop :=
  Exec (BLoc.Step demoTypes demoBreaker) (breakerHandler fun _ _ => false) noBackground
    (· = .start find [.nil, .nil]) (.init 0)

theorem demo_opened : DemoExec demoOpened ⟨⟨0, false, some 10, 1, 0⟩,
    [.over (.ret [.nil, .obj 1]), .calling find [.nil, .nil], .start find [.nil, .nil]]⟩ := by
  have e0 : DemoExec [] _ := Exec.call (Exec.call (Exec.call .start rfl) rfl) rfl
  have e1 := Exec.step (i := 0) e0 rfl (.rlock _ _) ⟨rfl, rfl⟩
  have e2 := Exec.step (i := 0) e1 rfl (.closed _ _) ⟨rfl, rfl⟩
  have e3 := Exec.step (i := 0) e2 rfl (.pass _ _) rfl
  have e4 := Exec.step (i := 1) e3 rfl (.rlock _ _) ⟨rfl, rfl⟩
  have e5 := Exec.step (i := 1) e4 rfl (.closed _ _) ⟨rfl, rfl⟩
  have e6 := Exec.step (i := 1) e5 rfl (.pass _ _) rfl
  have e7 := Exec.step (i := 0) e6 rfl (.ret _ _ ⟨[.nil, .obj 1], rfl⟩) rfl
  have e8 := Exec.step (i := 0) e7 rfl (.lockError _ rfl) ⟨rfl, rfl, rfl⟩
  have e9 := Exec.step (i := 0) e8 rfl (.count1 _ 0) ⟨rfl, rfl⟩
  have e10 := Exec.step (i := 0) e9 rfl (.count2 _ 0) rfl
  have e11 := Exec.step (i := 0) e10 rfl (.enough _ 1 (by decide)) ⟨rfl, rfl⟩
  have e12 := Exec.step (i := 0) e11 rfl (.open1 _ 0) ⟨by decide, rfl⟩
  have e13 := Exec.step (i := 0) e12 rfl (.open2 _ 0) rfl
  have e14 := Exec.step (i := 0) e13 rfl (.unlock _) rfl
  exact e14

theorem demo_closed : DemoExec (demoOpened ++ demoClosed) ⟨⟨0, false, none, 0, 0⟩,
    [.over (.ret [.nil, .obj 1]), .over (.ret [.nil, .nil]), .calling find [.nil, .nil]]⟩ := by
  have e1 := Exec.step (i := 1) demo_opened rfl (.ret _ _ ⟨[.nil, .nil], rfl⟩) rfl
  have e2 := Exec.step (i := 1) e1 rfl (.lockSuccess _ rfl) ⟨rfl, rfl, rfl⟩
  have e3 := Exec.step (i := 1) e2 rfl (.reset1 _) rfl
  have e4 := Exec.step (i := 1) e3 rfl (.reset2 _) rfl
  have e5 := Exec.step (i := 1) e4 rfl (.unlock _) rfl
  have e6 := Exec.step (i := 2) e5 rfl (.rlock _ _) ⟨rfl, rfl⟩
  have e7 := Exec.step (i := 2) e6 rfl (.closed _ _) ⟨rfl, rfl⟩
  have e8 := Exec.step (i := 2) e7 rfl (.pass _ _) rfl
  exact e8

theorem demo_rejected : DemoExec (demoOpened ++ demoRejected) ⟨⟨0, false, some 10, 1, 9⟩,
    [.over (.ret [.nil, .obj 1]), .calling find [.nil, .nil], .makeErr find]⟩ := by
  have e1 := Exec.step (i := 2) demo_opened rfl (.rlock _ _) ⟨rfl, rfl⟩
  have e2 := Exec.step (i := 2) e1 rfl (.notNil _ _ 10) ⟨rfl, rfl⟩
  have e3 := Exec.step (i := 2) e2 rfl (.deref _ _ 10) ⟨rfl, rfl⟩
  have e4 := Exec.step (i := 2) e3 rfl (.isOpen _ _ 10 9 (by decide)) ⟨by decide, rfl⟩
  have e5 := Exec.step (i := 2) e4 rfl (.reject _) rfl
  exact e5

theorem demo_open : (demoBreaker.policy fun _ _ => false).openUntil (history demoOpened) = some 10 := rfl

/-- C46 does not hold: a call that was let through before the circuit opened closes it. -/
theorem C46_full_false : ¬ C46_full := by
  intro h
  refine h _ _ _ _ demoOpened demoClosed _ 10 (demo_exec demo_closed) demo_open ?_ 2 rfl (Or.inr ⟨.obj 0, _, _, _, _, rfl⟩)
  intro i t hm
  simp [demoClosed] at hm

/-- The hypotheses of `C46_open_partial` are met: the third call is rejected. -/
example : ¬ WentThrough (demoOpened ++ demoRejected)
    (⟨⟨0, false, some 10, 1, 9⟩, [.over (.ret [.nil, .obj 1]), .calling find [.nil, .nil], .makeErr find].map (BLoc.tree demoTypes demoBreaker)⟩ :
      Conf BreakerState (Tree Outcome)) 2 := by
  refine C46_open_partial demoOpened demoRejected 10 (demo_exec demo_rejected) demo_open ?_ ?_ 2 rfl
  · intro i t hm
    simp only [demoRejected, List.mem_cons, Label.op.injEq, List.not_mem_nil, or_false] at hm
    rcases hm with ⟨_, h⟩ | ⟨_, h⟩ | ⟨_, h⟩ | ⟨_, h⟩ | ⟨_, h⟩ <;> cases h
    decide
  · intro x hx
    cases hx

/-- A re-opened circuit. -/
example : (demoBreaker.policy fun _ _ => false).openUntil (history demoOpened ++ [⟨[.nil, .obj 1], some 15⟩]) = some 25 :=
  C46_reopen _ _ _ 10 demo_open rfl

end Gowrap.Props
