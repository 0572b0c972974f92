import Verif.Props.RobinPool
/-!
# C48: exactly which pools spread all windows evenly
-/

namespace Gowrap.Props

open Gowrap Spec Tmpl

open Classical in
/-- **C48** (exact): a round robin pool spreads the calls of all windows of all executions evenly exactly if the number of its implementations
divides 2³². -/
theorem C48_exact (G : GoTypes) (pool : List Val) (hnew : newRobinPool pool ≠ none) (hlen : pool.length < 2 ^ 32) (hd : pool.Nodup) :
    (∀ (L : List Label) (c : Conf UInt32 (Tree Outcome)), RobinExec G pool L c → ∀ o1 W o3, order L = o1 ++ W ++ o3 →
      ∀ v ∈ pool, ∀ w ∈ pool, served L c W v ≤ served L c W w + 1) ↔ pool.length ∣ 2 ^ 32 := by
  refine ⟨fun hall => ?_, fun hdvd L c h o1 W o3 ho => (C48_even_partial G pool L c hnew hlen hd h).2 o1 W o3 ho (Or.inl hdvd)⟩
  refine Classical.byContradiction fun hnd => ?_
  have h0 : pool ≠ [] := by
    rintro rfl
    exact hnew rfl
  have hpos : 0 < pool.length := List.length_pos_iff.2 h0
  generalize hn : pool.length = n at hnd hlen hpos
  obtain ⟨M, hM⟩ : ∃ M, M = 2 ^ 32 := ⟨_, rfl⟩
  rw [← hM] at hnd hlen
  -- the last calls before the counter starts again go to the first `r` implementations
  obtain ⟨r, hr⟩ : ∃ r, r = M % n := ⟨_, rfl⟩
  have hrn : r < n := hr ▸ Nat.mod_lt _ hpos
  have hr0 : 0 < r := Nat.pos_of_ne_zero fun h => hnd (Nat.dvd_of_mod_eq_zero (hr ▸ h))
  have hq : n * (M / n) + r = M := by rw [hr]; exact Nat.div_add_mod M n
  obtain ⟨L, c, he, hl⟩ := robin_enter G pool M
  have hW : order L = (order L).take (M - r - 1) ++ (order L).drop (M - r - 1) ++ [] := by
    rw [List.append_nil, List.take_append_drop]
  generalize hWe : (order L).drop (M - r - 1) = W at hW
  have hWl : W.length = r + 1 := by rw [← hWe, List.length_drop, hl]; omega
  have ht : ∀ k i, W[k]? = some i → ∃ v, target L c i = some v ∧ pool[if k = r then 0 else k]? = some v := by
    intro k i hk
    have hkl : k < r + 1 := hWl ▸ (List.getElem?_eq_some_iff.1 hk).1
    rw [← hWe, List.getElem?_drop] at hk
    obtain ⟨v, h1, h2⟩ := robin_target he h0 (by rw [hn, ← hM]; exact hlen) hk
    refine ⟨v, h1, ?_⟩
    rw [← h2, hn, ← hM]
    congr 1
    by_cases hkr : k = r
    · rw [if_pos hkr, hkr, show M - r - 1 + r + 1 = M by omega, Nat.mod_self, Nat.zero_mod]
    · rw [if_neg hkr, Nat.mod_eq_of_lt (by omega : M - r - 1 + k + 1 < M), show M - r - 1 + k + 1 = k + n * (M / n) by omega,
        Nat.add_mul_mod_self_left, Nat.mod_eq_of_lt (by omega)]
  have hle := hall L c he _ _ _ hW (pool[0]'(by omega)) (List.getElem_mem _) (pool[n - 1]'(by omega)) (List.getElem_mem _)
  -- the last implementation is given none of them
  have hlast : served L c W (pool[n - 1]'(by omega)) = 0 := by
    rw [served, List.countP_eq_zero]
    intro i hi
    obtain ⟨k, hk⟩ := List.getElem?_of_mem hi
    have hkl : k < r + 1 := hWl ▸ (List.getElem?_eq_some_iff.1 hk).1
    obtain ⟨v, h1, h2⟩ := ht k i hk
    rw [decide_eq_true_iff, h1]
    intro h3
    cases h3
    obtain ⟨hlt, h4⟩ := List.getElem?_eq_some_iff.1 h2
    have := (List.getElem_inj hd).1 h4
    split at this <;> omega
  -- the first implementation is given two of them
  have hfirst : 2 ≤ served L c W (pool[0]'(by omega)) := by
    have hsplit : W = W.take r ++ W.drop r := (List.take_append_drop r W).symm
    have one : ∀ l : List Nat, (∃ i ∈ l, target L c i = some (pool[0]'(by omega))) → 0 < served L c l (pool[0]'(by omega)) := by
      rintro l ⟨i, hi, hti⟩
      rw [served, List.countP_pos_iff]
      exact ⟨i, hi, by rw [decide_eq_true_iff]; exact hti⟩
    have at' : ∀ k i, W[k]? = some i → (k = 0 ∨ k = r) → target L c i = some (pool[0]'(by omega)) := by
      intro k i hk hk0
      obtain ⟨v, h1, h2⟩ := ht k i hk
      have : (if k = r then 0 else k) = 0 := by split <;> omega
      rw [this, List.getElem?_eq_getElem (by omega)] at h2
      rw [h1, h2]
    have h1 := one (W.take r) ⟨W[0]'(by omega), List.mem_of_getElem? (i := 0) (by
      rw [List.getElem?_take_of_lt hr0, List.getElem?_eq_getElem (by omega)]), at' 0 _ (List.getElem?_eq_getElem (by omega)) (Or.inl rfl)⟩
    have h2 := one (W.drop r) ⟨W[r]'(by omega), List.mem_of_getElem? (i := 0) (by
      rw [List.getElem?_drop, Nat.add_zero, List.getElem?_eq_getElem (by omega)]), at' r _ (List.getElem?_eq_getElem (by omega)) (Or.inr rfl)⟩
    rw [hsplit, served_append]
    omega
  omega

/-- A pool of four is even in all windows of all executions, a pool of five is not. -/
example :
    (∀ (L : List Label) (c : Conf UInt32 (Tree Outcome)), RobinExec demoTypes [.obj 0, .obj 1, .obj 2, .obj 3] L c →
      ∀ o1 W o3, order L = o1 ++ W ++ o3 → ∀ v ∈ [.obj 0, .obj 1, .obj 2, .obj 3], ∀ w ∈ [.obj 0, .obj 1, .obj 2, .obj 3],
        served L c W v ≤ served L c W w + 1) ∧
    ¬ (∀ (L : List Label) (c : Conf UInt32 (Tree Outcome)), RobinExec demoTypes [.obj 0, .obj 1, .obj 2, .obj 3, .obj 4] L c →
      ∀ o1 W o3, order L = o1 ++ W ++ o3 → ∀ v ∈ [.obj 0, .obj 1, .obj 2, .obj 3, .obj 4], ∀ w ∈ [.obj 0, .obj 1, .obj 2, .obj 3, .obj 4],
        served L c W v ≤ served L c W w + 1) := by
  constructor
  · exact (C48_exact demoTypes [.obj 0, .obj 1, .obj 2, .obj 3] (by simp [newRobinPool]) (by decide) (by simp)).2 (by decide)
  · intro h
    have := (C48_exact demoTypes [.obj 0, .obj 1, .obj 2, .obj 3, .obj 4] (by simp [newRobinPool]) (by decide) (by simp)).1 h
    revert this
    decide

end Gowrap.Props
