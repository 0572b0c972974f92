import Verif.Props.Control
import Verif.Proofs.Shared
import Verif.Spec.Pool
/-!
# C48: the round robin pool
-/

namespace Gowrap.Props

open Gowrap Spec Tmpl

/-- Calls on a round robin pool. -/
def RobinCall (G : GoTypes) (pool : List Val) (t : Tree Outcome) : Prop :=
  ∃ m recv args, Callable m recv [g!"atomic", g!"_counter"] args ∧
    t = (robinPoolDecorator pool).call G m recv args

/-- Executions of a round robin pool. -/
def RobinExec (G : GoTypes) (pool : List Val) : List Label → Conf UInt32 (Tree Outcome) → Prop :=
  Exec Tree.Step robinHandler noBackground (RobinCall G pool) 0

/-- Locations in a call. -/
inductive RobinLoc where
  | start (m : Method) (args : List Val)
  | chosen (c : UInt32) (m : Method) (args : List Val)
  | over (o : Outcome)

/-- What remains to be done at a location. -/
def RobinLoc.tree (pool : List Val) : RobinLoc → Tree Outcome
  | .start m args => robinPoolT pool m args
  | .chosen c m args =>
    if UInt32.ofNat pool.length = 0 then .ret (.panic .nil)
    else match pool[(c % UInt32.ofNat pool.length).toNat]? with
      | none => .ret (.panic .nil)
      | some impl => callT impl m args
  | .over o => .ret o

/-- Steps between locations. -/
inductive RobinLoc.Step (pool : List Val) : RobinLoc → Event → RobinLoc → Prop
  | choose (m : Method) (args : List Val) (c : UInt32) : Step pool (.start m args) ⟨.addCounter, c⟩ (.chosen c m args)
  | call (c : UInt32) (m : Method) (args : List Val) (impl : Val) (x : Except Val (Vals m.results.length)) (o : Outcome)
      (hi : pool[(c % UInt32.ofNat pool.length).toNat]? = some impl) (h0 : UInt32.ofNat pool.length ≠ 0) :
      Step pool (.chosen c m args) ⟨.impl impl m.name args m.results.length, x⟩ (.over o)

theorem robin_locs {G : GoTypes} {pool : List Val} {L : List Label} {c : Conf UInt32 (Tree Outcome)}
    (h : RobinExec G pool L c) : ∃ ls, c.threads = ls.map (RobinLoc.tree pool) ∧
      Exec (RobinLoc.Step pool) robinHandler noBackground (fun l => ∃ m args, l = .start m args) 0 L
        ⟨c.shared, ls⟩ := by
  refine Exec.locs (RobinLoc.tree pool) (RobinLoc.Step pool) (fun l => ∃ m args, l = .start m args) ?_ ?_ h
  · rintro t ⟨m, recv, args, hc, rfl⟩
    exact ⟨.start m args, (robinPool_call G pool hc).symm, m, args, rfl⟩
  · rintro l ⟨op, r⟩ t' ⟨k, hk, rfl⟩
    cases l with
    | start m args =>
      rw [RobinLoc.tree, robinPoolT] at hk
      injection hk with h1 h2
      subst h1
      cases h2
      exact ⟨.chosen r m args, rfl, .choose m args r⟩
    | chosen c m args =>
      rw [RobinLoc.tree] at hk
      split at hk
      · cases hk
      · rename_i h0
        split at hk
        · cases hk
        · rename_i impl hi
          rw [callT] at hk
          injection hk with h1 h2
          subst h1
          cases h2
          cases r with
          | ok vs => exact ⟨.over (.ret vs.1), rfl, .call c m args impl _ _ hi h0⟩
          | error v => exact ⟨.over (.panic v), rfl, .call c m args impl _ _ hi h0⟩
    | over o => cases hk

theorem order_append (L L' : List Label) : order (L ++ L') = order L ++ order L' := by
  induction L with
  | nil => rfl
  | cons l L ih =>
    cases l with
    | op i e => obtain ⟨op, r⟩ := e; cases op <;> simp [order, ih]
    | tick => exact ih
    | background => exact ih

/-- The location of a thread that entered at position `k`. -/
def RobinEntered (pool : List Val) (L : List Label) (ls : List RobinLoc) (k i : Nat) : Prop :=
  (∃ m args, ls[i]? = some (.chosen (UInt32.ofNat (k + 1)) m args) ∧ implCalls (mine i L) = []) ∨
  ∃ o call, ls[i]? = some (.over o) ∧ implCalls (mine i L) = [call] ∧
    pool[(UInt32.ofNat (k + 1) % UInt32.ofNat pool.length).toNat]? = some call.impl ∧
    UInt32.ofNat pool.length ≠ 0

theorem robin_inv {pool : List Val} {L : List Label} {c : Conf UInt32 RobinLoc}
    (h : Exec (RobinLoc.Step pool) robinHandler noBackground (fun l => ∃ m args, l = .start m args) 0 L c) :
    c.shared = UInt32.ofNat (order L).length ∧
    (∀ i m args, c.threads[i]? = some (.start m args) → i ∉ order L ∧ mine i L = []) ∧
    (∀ i, i ∈ order L → i < c.threads.length) ∧
    ∀ k i, (order L)[k]? = some i → RobinEntered pool L c.threads k i := by
  have hbg : ∀ (s : UInt32) (l : Label) (s' : UInt32), noBackground s l s' → ∀ i e, l ≠ .op i e :=
    fun _ _ _ h => h.elim
  induction h with
  | start =>
    refine ⟨rfl, ?_, ?_, ?_⟩
    · intro i m args h; simp at h
    · intro i h; cases h
    · intro k i h; simp [order] at h
  | @call L c t h ht ih =>
    obtain ⟨h1, h2, h3, h4⟩ := ih
    refine ⟨h1, ?_, ?_, ?_⟩
    · intro i m args hi
      rw [List.getElem?_append] at hi
      split at hi
      · exact h2 i m args hi
      · have : c.threads.length ≤ i := by omega
        exact ⟨fun hm => absurd (h3 i hm) (by omega),
          mine_eq_nil fun e he => absurd (h.thread_lt hbg _ e he) (by omega)⟩
    · intro i hi
      have := h3 i hi
      simp only [List.length_append, List.length_singleton]
      omega
    · intro k i hk
      have hlt := h3 i (List.mem_of_getElem? hk)
      have := h4 k i hk
      unfold RobinEntered at this ⊢
      rw [List.getElem?_append_left hlt]
      exact this
  | @step L c i t t' e s' h hi ht hs ih =>
    obtain ⟨h1, h2, h3, h4⟩ := ih
    have hlt := (List.getElem?_eq_some_iff.1 hi).1
    cases ht with
    | choose m args r =>
      obtain ⟨rfl, rfl⟩ := hs
      have ho : order (L ++ [.op i ⟨.addCounter, c.shared + 1⟩]) = order L ++ [i] := by
        rw [order_append]; rfl
      obtain ⟨hno, hnil⟩ := h2 i m args hi
      refine ⟨?_, ?_, ?_, ?_⟩
      · show c.shared + 1 = _
        rw [ho, h1, List.length_append, List.length_singleton]
        apply UInt32.toNat.inj
        simp
      · intro j m' args' hj
        by_cases hij : i = j
        · subst hij
          rw [List.getElem?_set_self hlt] at hj
          cases hj
        · rw [List.getElem?_set_ne hij] at hj
          obtain ⟨a, b⟩ := h2 j m' args' hj
          rw [ho, mine_append, mine_op_other _ hij, b]
          exact ⟨by simp only [List.mem_append, List.mem_singleton, not_or]; exact ⟨a, fun hc => hij hc.symm⟩, rfl⟩
      · intro j hj
        rw [ho] at hj
        rw [List.length_set]
        rcases List.mem_append.1 hj with hj | hj
        · exact h3 j hj
        · simp at hj; subst hj; exact hlt
      · intro k j hk
        rw [ho, List.getElem?_append] at hk
        split at hk
        · have hij : i ≠ j := by rintro rfl; exact hno (List.mem_of_getElem? hk)
          have := h4 k j hk
          unfold RobinEntered at this ⊢
          rw [List.getElem?_set_ne hij, mine_append, mine_op_other _ hij, List.append_nil]
          exact this
        · rename_i hge
          have hk' : k = (order L).length := by
            have := (List.getElem?_eq_some_iff.1 hk).1
            simp at this
            omega
          subst hk'
          simp at hk
          subst hk
          refine Or.inl ⟨m, args, ?_, ?_⟩
          · rw [List.getElem?_set_self hlt, h1]
            congr 2
            apply UInt32.toNat.inj
            simp
          · rw [mine_append, hnil, mine_op_same]; rfl
    | call r m args impl x o himpl h0 =>
      have hs' : s' = c.shared := hs
      subst hs'
      have ho : order (L ++ [.op i ⟨.impl impl m.name args m.results.length, x⟩]) = order L := by
        rw [order_append]; exact List.append_nil _
      refine ⟨by rw [ho]; exact h1, ?_, ?_, ?_⟩
      · intro j m' args' hj
        by_cases hij : i = j
        · subst hij
          rw [List.getElem?_set_self hlt] at hj
          cases hj
        · rw [List.getElem?_set_ne hij] at hj
          rw [ho, mine_append, mine_op_other _ hij, List.append_nil]
          exact h2 j m' args' hj
      · intro j hj
        rw [ho] at hj
        rw [List.length_set]
        exact h3 j hj
      · intro k j hk
        rw [ho] at hk
        have := h4 k j hk
        by_cases hij : i = j
        · subst hij
          refine Or.inr ⟨o, ⟨impl, m.name, args, plain x⟩, ?_⟩
          rcases this with ⟨m', args', e1, e2⟩ | ⟨o', call, e1, _⟩
          · rw [hi] at e1
            cases e1
            refine ⟨List.getElem?_set_self hlt, ?_, himpl, h0⟩
            rw [mine_append, mine_op_same, implCalls_append, e2]
            rfl
          · rw [hi] at e1
            cases e1
        · unfold RobinEntered at this ⊢
          rw [List.getElem?_set_ne hij, mine_append, mine_op_other _ hij, List.append_nil]
          exact this
  | bg h hb ih => exact hb.elim

/-- The thread that enters as number `k + 1` is given the implementation with the index
`((k + 1) mod 2³²) mod n`. -/
theorem robin_target {G : GoTypes} {pool : List Val} {L : List Label} {c : Conf UInt32 (Tree Outcome)}
    (h : RobinExec G pool L c) (h0 : pool ≠ []) (hlen : pool.length < 2 ^ 32) {k i : Nat}
    (hk : (order L)[k]? = some i) : ∃ v, target L c i = some v ∧ pool[(k + 1) % 2 ^ 32 % pool.length]? = some v := by
  obtain ⟨ls, hls, he⟩ := robin_locs h
  obtain ⟨_, _, _, h4⟩ := robin_inv he
  have hidx : (UInt32.ofNat (k + 1) % UInt32.ofNat pool.length).toNat = (k + 1) % 2 ^ 32 % pool.length := by
    rw [UInt32.toNat_mod, UInt32.toNat_ofNat', UInt32.toNat_ofNat', Nat.mod_eq_of_lt hlen]
  have hpos : 0 < pool.length := List.length_pos_iff.2 h0
  have hne : UInt32.ofNat pool.length ≠ 0 := by
    intro hc
    have := congrArg UInt32.toNat hc
    rw [UInt32.toNat_ofNat', Nat.mod_eq_of_lt hlen] at this
    simp at this
    exact h0 this
  have hlt : (k + 1) % 2 ^ 32 % pool.length < pool.length := Nat.mod_lt _ hpos
  rcases h4 k i hk with ⟨m, args, e1, e2⟩ | ⟨o, call, e1, e2, e3, _⟩
  · refine ⟨pool[(k + 1) % 2 ^ 32 % pool.length], ?_, List.getElem?_eq_getElem hlt⟩
    have ht : c.threads[i]? = some (callT pool[(k + 1) % 2 ^ 32 % pool.length] m args) := by
      rw [hls, List.getElem?_map]
      have e1 : ls[i]? = some (.chosen (UInt32.ofNat (k + 1)) m args) := e1
      rw [e1]
      simp only [Option.map_some, RobinLoc.tree, if_neg hne, hidx, List.getElem?_eq_getElem hlt]
    rw [target, e2]
    simp only [ht, callT]
  · refine ⟨call.impl, ?_, by rw [← hidx]; exact e3⟩
    rw [target, e2]

/-- The numbers in a window of consecutive numbers with the rest `r`: `l / n` or one more. -/
theorem count_residue (n : Nat) (hn : 0 < n) : ∀ (l s r : Nat), r < n →
    l / n ≤ (List.range' s l).countP (fun k => k % n = r) ∧
    (List.range' s l).countP (fun k => k % n = r) ≤ l / n + 1 := by
  have short : ∀ (l s r : Nat), l ≤ n → (List.range' s l).countP (fun k => k % n = r) ≤ 1 := by
    intro l
    induction l with
    | zero => intro s r _; simp
    | succ l ih =>
      intro s r hl
      rw [List.range'_succ, List.countP_cons]
      have := ih (s + 1) r (by omega)
      split
      · rename_i hs
        simp only [decide_eq_true_eq] at hs
        have h0 : (List.range' (s + 1) l).countP (fun k => k % n = r) = 0 := by
          rw [List.countP_eq_zero]
          intro k hk
          simp only [decide_eq_true_eq]
          intro hc
          rw [List.mem_range'_1] at hk
          have : (k - s) % n = 0 := by
            have h1 := Nat.div_add_mod k n
            have h2 := Nat.div_add_mod s n
            have : k - s = n * (k / n - s / n) := by
              rw [Nat.mul_sub]
              omega
            rw [this, Nat.mul_mod_right]
          rw [Nat.mod_eq_of_lt (by omega)] at this
          omega
        omega
      · omega
  have full : ∀ (s r : Nat), r < n → (List.range' s n).countP (fun k => k % n = r) = 1 := by
    intro s r hr
    have h1 := short n s r (Nat.le_refl _)
    have h2 : 0 < (List.range' s n).countP (fun k => k % n = r) := by
      rw [List.countP_pos_iff]
      have hd := Nat.div_add_mod s n
      have hm : s % n < n := Nat.mod_lt _ hn
      by_cases hle : s % n ≤ r
      · refine ⟨n * (s / n) + r, ?_, ?_⟩
        · rw [List.mem_range'_1]; omega
        · simp [Nat.mod_eq_of_lt hr]
      · refine ⟨n * (s / n + 1) + r, ?_, ?_⟩
        · rw [List.mem_range'_1, Nat.mul_add]; omega
        · simp [Nat.mod_eq_of_lt hr]
    omega
  intro l
  induction l using Nat.strongRecOn with
  | ind l ih =>
    intro s r hr
    by_cases hl : l < n
    · rw [Nat.div_eq_of_lt hl]
      exact ⟨Nat.zero_le _, short l s r (by omega)⟩
    · have hl' : l = n + (l - n) := by omega
      have hdiv : l / n = (l - n) / n + 1 := by
        conv => lhs; rw [hl']
        rw [Nat.add_comm, Nat.add_div_right _ hn]
      have happ : List.range' s l = List.range' s n ++ List.range' (s + n) (l - n) := by
        rw [List.range'_append_1, ← hl']
      have := ih (l - n) (by omega) (s + n) r hr
      rw [happ, List.countP_append, full s r hr, hdiv]
      omega

/-- The full claim of C48: every call that enters the pool is given one of its implementations, and the
calls of every window are spread evenly. -/
def C48_full : Prop := ∀ (G : GoTypes) (pool : List Val) (L : List Label) (c : Conf UInt32 (Tree Outcome)),
  newRobinPool pool ≠ none → pool.Nodup → RobinExec G pool L c →
  (∀ i ∈ order L, ∃ v ∈ pool, target L c i = some v) ∧
  ∀ o1 W o3, order L = o1 ++ W ++ o3 → ∀ v ∈ pool, ∀ w ∈ pool, served L c W v ≤ served L c W w + 1

theorem range_offset (a : Nat) (P : Nat → Prop) [DecidablePred P]
    (Q : Nat → Bool) : ∀ (l : List Nat), (∀ k i, l[k]? = some i → (Q i = true ↔ P (a + k + 1))) →
    l.countP Q = (List.range' (a + 1) l.length).countP (fun k => P k) := by
  intro l
  induction l generalizing a with
  | nil => intro _; rfl
  | cons i l ih =>
    intro h
    rw [List.countP_cons, List.length_cons, List.range'_succ, List.countP_cons,
      ih (a + 1) (fun k j hk => by rw [show a + 1 + k + 1 = a + (k + 1) + 1 by omega]; exact h (k + 1) j (by simpa using hk))]
    have := h 0 i rfl
    congr 1
    by_cases hq : Q i = true
    · have hp := this.1 hq
      simp only [Nat.add_zero] at hp
      simp [hq, hp]
    · have hp : ¬ P (a + 0 + 1) := fun hp => hq (this.2 hp)
      simp only [Nat.add_zero] at hp
      simp [hq, hp]

open Classical in
/-- **C48** (partial) Every call that enters the pool is given one of its implementations, and within every
window of consecutive calls the numbers of calls given to two implementations differ by at most one.  What
is missing: pools of 2³² implementations and more, and windows in which the counter starts again at zero,
unless the number of implementations divides 2³² (see `C48_full_false`). -/
theorem C48_even_partial (G : GoTypes) (pool : List Val) (L : List Label) (c : Conf UInt32 (Tree Outcome))
    (hnew : newRobinPool pool ≠ none) (hlen : pool.length < 2 ^ 32) (hd : pool.Nodup) (h : RobinExec G pool L c) :
    (∀ i ∈ order L, ∃ v ∈ pool, target L c i = some v) ∧
    ∀ o1 W o3, order L = o1 ++ W ++ o3 →
      (pool.length ∣ 2 ^ 32 ∨ (o1.length + 1) / 2 ^ 32 = (o1.length + W.length) / 2 ^ 32) →
      ∀ v ∈ pool, ∀ w ∈ pool, served L c W v ≤ served L c W w + 1 := by
  have h0 : pool ≠ [] := by
    rintro rfl
    exact hnew rfl
  have hpos : 0 < pool.length := List.length_pos_iff.2 h0
  constructor
  · intro i hi
    obtain ⟨k, hk⟩ := List.getElem?_of_mem hi
    obtain ⟨v, h1, h2⟩ := robin_target h h0 hlen hk
    exact ⟨v, List.mem_of_getElem? h2, h1⟩
  · intro o1 W o3 ho hwin v hv w hw
    -- the number of calls given to the implementation with the index `j`
    have key : ∀ j (hj : j < pool.length), ∃ b r, r < pool.length ∧ served L c W pool[j] =
        (List.range' (b + 1) W.length).countP (fun k => k % pool.length = r) := by
      intro j hj
      have htarget : ∀ k i, W[k]? = some i →
          (target L c i = some pool[j] ↔ (o1.length + k + 1) % 2 ^ 32 % pool.length = j) := by
        intro k i hk
        have hk' : (order L)[o1.length + k]? = some i := by
          have hlt := (List.getElem?_eq_some_iff.1 hk).1
          rw [ho, List.append_assoc, List.getElem?_append_right (by omega), Nat.add_sub_cancel_left,
            List.getElem?_append_left hlt, hk]
        obtain ⟨u, h1, h2⟩ := robin_target h h0 hlen hk'
        have hlt : (o1.length + k + 1) % 2 ^ 32 % pool.length < pool.length := Nat.mod_lt _ hpos
        rw [List.getElem?_eq_getElem hlt] at h2
        rw [h1, ← h2, Option.some.injEq]
        constructor
        · intro he
          exact (List.getElem_inj hd).1 he
        · intro he
          simp only [he]
      by_cases hdvd : pool.length ∣ 2 ^ 32
      · refine ⟨o1.length, j, hj, ?_⟩
        rw [served]
        refine range_offset o1.length (fun k => k % pool.length = j) _ W ?_
        intro k i hk
        refine Iff.trans decide_eq_true_iff ?_
        rw [htarget k i hk, Nat.mod_mod_of_dvd _ hdvd]
      · have hblock := hwin.resolve_left hdvd
        by_cases hW : W = []
        · subst hW
          exact ⟨0, j, hj, by simp [served]⟩
        · -- all numbers of the window are `q * 2³² + rest`
          have hWpos : 0 < W.length := List.length_pos_iff.2 hW
          have hmod : ∀ k, k < W.length → (o1.length + k + 1) % 2 ^ 32 =
              o1.length + 1 - 2 ^ 32 * ((o1.length + 1) / 2 ^ 32) + k := by
            intro k hk
            have h1 : (o1.length + k + 1) / 2 ^ 32 = (o1.length + 1) / 2 ^ 32 := by
              apply Nat.le_antisymm
              · rw [hblock]; exact Nat.div_le_div_right (by omega)
              · exact Nat.div_le_div_right (by omega)
            have h2 := Nat.div_add_mod (o1.length + k + 1) (2 ^ 32)
            have h3 := Nat.div_add_mod (o1.length + 1) (2 ^ 32)
            rw [h1] at h2
            omega
          have hbase : ∀ b, b = o1.length + 1 - 2 ^ 32 * ((o1.length + 1) / 2 ^ 32) →
              ∃ b' r, r < pool.length ∧ served L c W pool[j] =
                (List.range' (b' + 1) W.length).countP (fun k => k % pool.length = r) := by
            intro b hb
            cases b with
            | succ b =>
              refine ⟨b, j, hj, ?_⟩
              rw [served]
              refine range_offset b (fun k => k % pool.length = j) _ W ?_
              intro k i hk
              have hlt := (List.getElem?_eq_some_iff.1 hk).1
              refine Iff.trans decide_eq_true_iff ?_
              rw [htarget k i hk, hmod k hlt, ← hb, show b + 1 + k = b + k + 1 by omega]
            | zero =>
              -- shift by the length of the pool
              refine ⟨pool.length - 1, j, hj, ?_⟩
              rw [served]
              refine range_offset (pool.length - 1) (fun k => k % pool.length = j) _ W ?_
              intro k i hk
              have hlt := (List.getElem?_eq_some_iff.1 hk).1
              refine Iff.trans decide_eq_true_iff ?_
              rw [htarget k i hk, hmod k hlt, ← hb,
                show pool.length - 1 + k + 1 = pool.length + k by omega, Nat.add_mod_left, Nat.zero_add]
          exact hbase _ rfl
    obtain ⟨j, hj, rfl⟩ := List.getElem_of_mem hv
    obtain ⟨j', hj', rfl⟩ := List.getElem_of_mem hw
    obtain ⟨b, r, hr, e1⟩ := key j hj
    obtain ⟨b', r', hr', e2⟩ := key j' hj'
    have h1 := count_residue pool.length hpos W.length (b + 1) r hr
    have h2 := count_residue pool.length hpos W.length (b' + 1) r' hr'
    omega

theorem served_append {S : Type} (L : List Label) (c : Conf S (Tree Outcome)) (W W' : List Nat) (v : Val) :
    served L c (W ++ W') v = served L c W v + served L c W' v := by
  simp [served]

/-- **C48** (partial) In every window of consecutive calls, however long, the numbers of calls given to two
implementations differ by at most one more than the number of times that the counter starts again at zero within
the window.  This bound is reached: see `C48_full_false`. -/
theorem C48_wraps_partial (G : GoTypes) (pool : List Val) (L : List Label) (c : Conf UInt32 (Tree Outcome))
    (hnew : newRobinPool pool ≠ none) (hlen : pool.length < 2 ^ 32) (hd : pool.Nodup) (h : RobinExec G pool L c) :
    ∀ o1 W o3, order L = o1 ++ W ++ o3 → ∀ v ∈ pool, ∀ w ∈ pool,
      served L c W v ≤ served L c W w + 1 + ((o1.length + W.length) / 2 ^ 32 - (o1.length + 1) / 2 ^ 32) := by
  suffices hs : ∀ q o1 W o3, order L = o1 ++ W ++ o3 →
      (o1.length + W.length) / 2 ^ 32 - (o1.length + 1) / 2 ^ 32 = q →
      ∀ v ∈ pool, ∀ w ∈ pool, served L c W v ≤ served L c W w + 1 + q from
    fun o1 W o3 ho v hv w hw => hs _ o1 W o3 ho rfl v hv w hw
  have hwin := (C48_even_partial G pool L c hnew hlen hd h).2
  intro q
  induction q with
  | zero =>
    intro o1 W o3 ho hq v hv w hw
    by_cases hW : W = []
    · subst hW; simp [served]
    · have : 0 < W.length := List.length_pos_iff.2 hW
      have hle : (o1.length + 1) / 2 ^ 32 ≤ (o1.length + W.length) / 2 ^ 32 := Nat.div_le_div_right (by omega)
      exact hwin o1 W o3 ho (.inr (by omega)) v hv w hw
  | succ q ih =>
    intro o1 W o3 ho hq v hv w hw
    -- the window up to the next time that the counter is zero, and the rest
    have hm : ∃ m, o1.length + m + 1 = 2 ^ 32 * ((o1.length + 1) / 2 ^ 32 + 1) ∧ 0 < m ∨
        o1.length + 1 = 2 ^ 32 * ((o1.length + 1) / 2 ^ 32 + 1) ∧ m = 0 := by
      refine ⟨2 ^ 32 * ((o1.length + 1) / 2 ^ 32 + 1) - 1 - o1.length, ?_⟩
      have := Nat.div_add_mod (o1.length + 1) (2 ^ 32)
      have := Nat.mod_lt (o1.length + 1) (y := 2 ^ 32) (by decide)
      omega
    obtain ⟨m, hm⟩ := hm
    have hm : o1.length + m + 1 = 2 ^ 32 * ((o1.length + 1) / 2 ^ 32 + 1) := by omega
    have hmW : m ≤ W.length := by omega
    have h1 : (W.take m).length = m := by simp; omega
    have hsplit : W = W.take m ++ W.drop m := (List.take_append_drop m W).symm
    have hA : served L c (W.take m) v ≤ served L c (W.take m) w + 1 := by
      refine hwin o1 (W.take m) (W.drop m ++ o3) ?_ (.inr ?_) v hv w hw
      · rw [ho]; conv => lhs; rw [hsplit]
        simp only [List.append_assoc]
      · rw [h1]; omega
    have hB : served L c (W.drop m) v ≤ served L c (W.drop m) w + 1 + q := by
      refine ih (o1 ++ W.take m) (W.drop m) o3 ?_ ?_ v hv w hw
      · rw [ho]; conv => lhs; rw [hsplit]
        simp only [List.append_assoc]
      · rw [List.length_append, h1, List.length_drop]
        have : o1.length + m + (W.length - m) = o1.length + W.length := by omega
        rw [this, hm, Nat.mul_div_cancel_left _ (by decide : 0 < 2 ^ 32)]
        omega
    rw [hsplit, served_append, served_append]
    omega

/-- Any number of goroutines can enter the pool. -/
theorem robin_enter (G : GoTypes) (pool : List Val) (n : Nat) :
    ∃ L c, RobinExec G pool L c ∧ (order L).length = n := by
  induction n with
  | zero => exact ⟨[], ⟨0, []⟩, .start, rfl⟩
  | succ n ih =>
    obtain ⟨L, c, he, hn⟩ := ih
    have hc : Callable find (g!"_d", .nil) [g!"atomic", g!"_counter"] [.nil, .nil] :=
      find_callable _ _ _ (by decide)
    have hcall : RobinCall G pool (robinPoolT pool find [.nil, .nil]) :=
      ⟨find, _, _, hc, (robinPool_call G pool hc).symm⟩
    have h1 := Exec.call he hcall
    have hs : (robinPoolT pool find [.nil, .nil]).Step ⟨.addCounter, c.shared + 1⟩
        ((RobinLoc.chosen (c.shared + 1) find [.nil, .nil]).tree pool) :=
      ⟨fun r => (RobinLoc.chosen r find [.nil, .nil]).tree pool, rfl, rfl⟩
    have h2 := Exec.step (i := c.threads.length) (s' := c.shared + 1) h1 (by simp) hs ⟨rfl, rfl⟩
    exact ⟨_, _, h2, by rw [order_append, List.length_append, hn]; rfl⟩

/-- C48 does not hold: with three implementations the calls number 2³² - 1 and 2³² are both given to the
first one. -/
theorem C48_full_false : ¬ C48_full := by
  intro h
  obtain ⟨L, c, he, hn⟩ := robin_enter demoTypes [.obj 0, .obj 1, .obj 2] (2 ^ 32)
  have hlt1 : 2 ^ 32 - 2 < (order L).length := by omega
  have hlt2 : 2 ^ 32 - 1 < (order L).length := by omega
  obtain ⟨_, hw⟩ := h demoTypes [.obj 0, .obj 1, .obj 2] L c (by simp [newRobinPool]) (by simp) he
  have hsplit : order L = (order L).take (2 ^ 32 - 2) ++ [(order L)[2 ^ 32 - 2], (order L)[2 ^ 32 - 1]] ++ [] := by
    rw [List.append_nil]
    conv => lhs; rw [← List.take_append_drop (2 ^ 32 - 2) (order L)]
    congr 1
    rw [List.drop_eq_getElem_cons hlt1]
    congr 1
    rw [List.drop_eq_getElem_cons hlt2]
    congr 1
    rw [List.drop_eq_nil_iff]
    omega
  have hle := hw _ _ _ hsplit (.obj 0) (by simp) (.obj 1) (by simp)
  obtain ⟨v1, t1, p1⟩ := robin_target he (by simp) (by decide) (List.getElem?_eq_getElem hlt1)
  obtain ⟨v2, t2, p2⟩ := robin_target he (by simp) (by decide) (List.getElem?_eq_getElem hlt2)
  have p1 : some (Val.obj 0) = some v1 := p1
  have p2 : some (Val.obj 0) = some v2 := p2
  cases p1
  cases p2
  simp [served, t1, t2] at hle

/-- The window of the first two calls of a pool of three. -/
example : ∃ L c, RobinExec demoTypes [.obj 0, .obj 1, .obj 2] L c ∧ ∃ i j, order L = [] ++ [i, j] ++ [] ∧
    served L c [i, j] (.obj 1) ≤ served L c [i, j] (.obj 0) + 1 := by
  obtain ⟨L, c, he, hn⟩ := robin_enter demoTypes [.obj 0, .obj 1, .obj 2] 2
  match ho : order L, hn with
  | [i, j], _ =>
    refine ⟨L, c, he, i, j, ho, ?_⟩
    exact (C48_even_partial demoTypes [.obj 0, .obj 1, .obj 2] L c (by simp [newRobinPool]) (by decide)
      (by simp) he).2 [] [i, j] [] ho (Or.inr (by simp)) _ (by simp) _ (by simp)

/-- All calls of a pool of three that has served ten billion calls; the counter started again twice. -/
example : ∃ L c, RobinExec demoTypes [.obj 0, .obj 1, .obj 2] L c ∧ (order L).length = 10 ^ 10 ∧
    served L c (order L) (.obj 1) ≤ served L c (order L) (.obj 0) + 1 + 2 := by
  obtain ⟨L, c, he, hn⟩ := robin_enter demoTypes [.obj 0, .obj 1, .obj 2] (10 ^ 10)
  have h := C48_wraps_partial demoTypes [.obj 0, .obj 1, .obj 2] L c (by simp [newRobinPool]) (by decide)
    (by simp) he [] (order L) [] (by simp) (.obj 1) (by simp) (.obj 0) (by simp)
  rw [hn] at h
  exact ⟨L, c, he, hn, h⟩

end Gowrap.Props
