import Verif.Proofs.Shared
import Verif.Spec.Progress
/-! # Executions that can be completed -/

namespace Gowrap

open Spec

/-- The number of operations. -/
def opCount (L : List Label) : Nat := L.countP fun l => !Label.outside l

theorem sum_ite (n j : Nat) (f : Nat → Nat) (hj : j < n) :
    ((List.range n).map fun i => if j = i then f i + 1 else f i).sum = ((List.range n).map f).sum + 1 := by
  induction n with
  | zero => omega
  | succ n ih =>
    rw [List.range_succ, List.map_append, List.map_append, List.sum_append, List.sum_append]
    simp only [List.map_cons, List.map_nil, List.sum_cons, List.sum_nil]
    by_cases h : j = n
    · subst h
      rw [if_pos rfl]
      have : (List.range j).map (fun i => if j = i then f i + 1 else f i) = (List.range j).map f := by
        apply List.map_congr_left
        intro i hi
        rw [if_neg]
        have := List.mem_range.1 hi
        omega
      rw [this]
      omega
    · rw [ih (by omega), if_neg h]
      omega

theorem opCount_sum (n : Nat) : ∀ L : List Label, (∀ i e, Label.op i e ∈ L → i < n) →
    opCount L = ((List.range n).map fun i => (mine i L).length).sum := by
  intro L
  induction L with
  | nil =>
    intro _
    show 0 = _
    induction n with
    | zero => rfl
    | succ n ih => rw [List.range_succ, List.map_append, List.sum_append, ← ih nofun]; rfl
  | cons l L ih =>
    intro h
    have ih := ih fun i e hm => h i e (List.mem_cons_of_mem _ hm)
    cases l with
    | op j e =>
      have hj := h j e List.mem_cons_self
      have : (fun i => (mine i (.op j e :: L)).length) = fun i => if j = i then (mine i L).length + 1 else (mine i L).length := by
        funext i
        simp only [mine]
        split <;> rfl
      rw [this, sum_ite n j _ hj, ← ih]
      simp [opCount, Label.outside]
    | tick => exact (by simpa [opCount, Label.outside, mine] using ih)
    | background => exact (by simpa [opCount, Label.outside, mine] using ih)

theorem sum_le (n K : Nat) (f : Nat → Nat) (h : ∀ i, f i ≤ K) : ((List.range n).map f).sum ≤ n * K := by
  induction n with
  | zero => simp
  | succ n ih =>
    rw [List.range_succ, List.map_append, List.sum_append, Nat.succ_mul]
    have := h n
    simp only [List.map_cons, List.map_nil, List.sum_cons, List.sum_nil]
    omega

variable {S : Type} {H : Handler S} {bg : S → Label → S → Prop} {calls : Tree Outcome → Prop} {init : S}

theorem Goes.length {L : List Label} {c c' : Conf S (Tree Outcome)} (h : Goes H bg c L c') : c'.threads.length = c.threads.length := by
  induction h with
  | now => rfl
  | step h hi ht hs ih => rw [List.length_set]; exact ih
  | bg h hb ih => exact ih

/-- Going on is part of an execution. -/
theorem Goes.exec {L L' : List Label} {c c' : Conf S (Tree Outcome)} (h : Exec Tree.Step H bg calls init L c) (hg : Goes H bg c L' c') :
    Exec Tree.Step H bg calls init (L ++ L') c' := by
  induction hg with
  | now => rw [List.append_nil]; exact h
  | step _ hi ht hs ih => rw [← List.append_assoc]; exact .step ih hi ht hs
  | bg _ hb ih => rw [← List.append_assoc]; exact .bg ih hb

theorem Goes.trans {L L' : List Label} {c c' c'' : Conf S (Tree Outcome)} (h : Goes H bg c L c') (hg : Goes H bg c' L' c'') :
    Goes H bg c (L ++ L') c'' := by
  induction hg with
  | now => rw [List.append_nil]; exact h
  | step _ hi ht hs ih => rw [← List.append_assoc]; exact .step ih hi ht hs
  | bg _ hb ih => rw [← List.append_assoc]; exact .bg ih hb

theorem opCount_append (L L' : List Label) : opCount (L ++ L') = opCount L + opCount L' := List.countP_append

/-- If calls are bounded and something can always be done then all calls can be brought to an end. -/
theorem live_of {K : Nat} (hbg : ∀ s l s', bg s l s' → ∀ i e, l ≠ .op i e)
    (hb : ∀ L c, Exec Tree.Step H bg calls init L c → ∀ i, (mine i L).length ≤ K)
    (hp : ∀ L c, Exec Tree.Step H bg calls init L c → ¬ AllEnded c →
      ∃ L' c', Goes H bg c L' c' ∧ (∀ l ∈ L', Label.outside l = true) ∧ ∃ j, CanStep H c' j)
    {L : List Label} {c : Conf S (Tree Outcome)} (h : Exec Tree.Step H bg calls init L c) : Live H bg K L c := by
  refine ⟨hb L c h, hp L c h, ?_⟩
  have key : ∀ (n : Nat) (L : List Label) (c : Conf S (Tree Outcome)), Exec Tree.Step H bg calls init L c →
      c.threads.length * K - opCount L = n → ∃ L' c', Goes H bg c L' c' ∧ AllEnded c' := by
    intro n
    induction n using Nat.strongRecOn with
    | _ n ih =>
      intro L c h hn
      by_cases ha : AllEnded c
      · exact ⟨[], c, .now, ha⟩
      · obtain ⟨L1, c1, hg, _, j, t, e, t', s', hj, ht, hs⟩ := hp L c h ha
        have h1 := Goes.exec h hg
        have g2 : Goes H bg c (L1 ++ [.op j e]) _ := .step hg hj ht hs
        have h2 := Goes.exec h g2
        have hlen := Goes.length g2
        have hop : opCount (L ++ (L1 ++ [.op j e])) ≤ c.threads.length * K := by
          rw [← hlen, opCount_sum _ _ (h2.thread_lt hbg)]
          exact sum_le _ _ _ (hb _ _ h2)
        have hmore : opCount (L ++ (L1 ++ [.op j e])) = opCount L + opCount L1 + 1 := by
          rw [opCount_append, opCount_append]
          have : opCount [.op j e] = 1 := rfl
          omega
        obtain ⟨L', c', hg', ha'⟩ := ih (c.threads.length * K - opCount (L ++ (L1 ++ [.op j e]))) (by omega) _ _ h2 (by rw [hlen])
        exact ⟨_, c', Goes.trans g2 hg', ha'⟩
  exact key _ L c h rfl

/-- Bounds from a measure of locations. -/
theorem bounded_of {Loc : Type} {lstep : Loc → Event → Loc → Prop} {lcalls : Loc → Prop} {L : List Label} {c : Conf S Loc} (measure : Loc → Nat) {K : Nat}
    (hbg : ∀ s l s', bg s l s' → ∀ i e, l ≠ .op i e) (h0 : ∀ l, lcalls l → measure l ≤ K)
    (h1 : ∀ l e l', lstep l e l' → measure l' + 1 ≤ measure l) (h : Exec lstep H bg lcalls init L c) : ∀ i, (mine i L).length ≤ K := by
  have := h.local (fun l tr => tr.length + measure l ≤ K) hbg (fun t ht => by simpa using h0 t ht) (fun t e t' tr _ _ hP hs _ => by
    have := h1 t e t' hs
    simp only [List.length_append, List.length_singleton]
    omega)
  intro i
  by_cases hi : i < c.threads.length
  · have := this i _ (List.getElem?_eq_getElem hi)
    omega
  · rw [mine_eq_nil fun e he => absurd (h.thread_lt hbg _ e he) hi]
    exact Nat.zero_le _

end Gowrap
