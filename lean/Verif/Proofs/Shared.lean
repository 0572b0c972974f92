import Verif.Proofs.ControlTrees
import Verif.Model.Shared
/-! # Reasoning about executions with many goroutines -/

namespace Gowrap

open Spec

theorem mine_append (i : Nat) (L L' : List Label) : mine i (L ++ L') = mine i L ++ mine i L' := by
  induction L with
  | nil => rfl
  | cons l L ih =>
    cases l with
    | op j e =>
      simp only [List.cons_append, mine]
      split
      · rw [ih]; rfl
      · exact ih
    | tick => exact ih
    | background => exact ih

@[simp] theorem mine_op_same (i : Nat) (e : Event) : mine i [.op i e] = [e] := by simp [mine]

theorem mine_op_other {i j : Nat} (e : Event) (h : j ≠ i) : mine i [.op j e] = [] := by simp [mine, h]

/-- The tree that remains after some operations. -/
def Tree.After : Tree Outcome → List Event → Tree Outcome → Prop
  | t, [], t' => t = t'
  | t, e :: tr, t' => ∃ k : e.1.Resp → Tree Outcome, t = .vis e.1 k ∧ (k e.2).After tr t'

theorem Tree.After.snoc {t t' t'' : Tree Outcome} {e : Event} : ∀ {tr : List Event}, t.After tr t' →
    t'.Step e t'' → t.After (tr ++ [e]) t'' := by
  intro tr
  induction tr generalizing t with
  | nil =>
    rintro rfl ⟨k, rfl, rfl⟩
    exact ⟨k, rfl, rfl⟩
  | cons e' tr ih =>
    rintro ⟨k, rfl, h⟩ hs
    exact ⟨k, rfl, ih h hs⟩

/-- A thread that is over has run its call. -/
theorem Tree.After.run {t : Tree Outcome} {o : Outcome} : ∀ {tr : List Event}, t.After tr (.ret o) → t.Run tr o := by
  intro tr
  induction tr generalizing t with
  | nil => rintro rfl; exact ⟨rfl, rfl⟩
  | cons e tr ih =>
    rintro ⟨k, rfl, h⟩
    obtain ⟨op, r⟩ := e
    exact ⟨r, tr, rfl, ih h⟩

section

variable {S T : Type} {step : T → Event → T → Prop} {H : Handler S} {bg : S → Label → S → Prop} {calls : T → Prop}
  {init : S} {L : List Label} {c : Conf S T}

theorem Exec.thread_lt (hbg : ∀ s l s', bg s l s' → ∀ i e, l ≠ .op i e) (h : Exec step H bg calls init L c) :
    ∀ i e, Label.op i e ∈ L → i < c.threads.length := by
  induction h with
  | start => intro i e h; cases h
  | call h ht ih =>
    intro i e hm
    have := ih i e hm
    simp only [List.length_append, List.length_singleton]
    omega
  | step h hi ht hs ih =>
    intro i e hm
    rw [List.length_set]
    rcases List.mem_append.1 hm with hm | hm
    · exact ih i e hm
    · simp only [List.mem_singleton, Label.op.injEq] at hm
      rw [hm.1]
      exact (List.getElem?_eq_some_iff.1 hi).1
  | bg h hb ih =>
    intro i e hm
    rcases List.mem_append.1 hm with hm | hm
    · exact ih i e hm
    · exact absurd (List.mem_singleton.1 hm).symm (hbg _ _ _ hb i e)

theorem mine_eq_nil {i : Nat} {L : List Label} (h : ∀ e, Label.op i e ∉ L) : mine i L = [] := by
  induction L with
  | nil => rfl
  | cons l L ih =>
    have ih := ih fun e he => h e (List.mem_cons_of_mem _ he)
    cases l with
    | op j e =>
      have : j ≠ i := by rintro rfl; exact h e (List.mem_cons_self ..)
      simp [mine, this, ih]
    | tick => exact ih
    | background => exact ih

theorem mem_mine {i : Nat} {e : Event} {L : List Label} : e ∈ mine i L ↔ Label.op i e ∈ L := by
  induction L with
  | nil => simp [mine]
  | cons l L ih =>
    cases l with
    | op j e' =>
      by_cases hj : j = i
      · subst hj; simp [mine, ih]
      · simp only [mine, if_neg hj, ih, List.mem_cons, Label.op.injEq]
        constructor
        · exact Or.inr
        · rintro (⟨rfl, _⟩ | h)
          · exact absurd rfl hj
          · exact h
    | tick => simp [mine, ih]
    | background => simp [mine, ih]

theorem mine_bg (hbg : ∀ s l s', bg s l s' → ∀ i e, l ≠ .op i e) {s s' : S} {l : Label} (hb : bg s l s') (i : Nat) :
    mine i [l] = [] := by
  cases l with
  | op j e => exact absurd rfl (hbg _ _ _ hb j e)
  | tick => rfl
  | background => rfl

/-- What is true of every thread and its own operations. -/
theorem Exec.local (P : T → List Event → Prop) (hbg : ∀ s l s', bg s l s' → ∀ i e, l ≠ .op i e)
    (h0 : ∀ t, calls t → P t []) (h1 : ∀ t e t' tr s s', P t tr → step t e t' → H s e s' → P t' (tr ++ [e]))
    (h : Exec step H bg calls init L c) : ∀ i t, c.threads[i]? = some t → P t (mine i L) := by
  induction h with
  | start => intro i t h; simp at h
  | @call L c t h ht ih =>
    intro i t' hi
    rw [List.getElem?_append] at hi
    split at hi
    · exact ih i t' hi
    · rename_i hlt
      have : i = c.threads.length := by
        have := (List.getElem?_eq_some_iff.1 hi).1
        simp at this
        omega
      subst this
      simp at hi
      subst hi
      rw [mine_eq_nil fun e he => absurd (h.thread_lt hbg _ e he) (by omega)]
      exact h0 t ht
  | @step L c i t t' e s' h hi ht hs ih =>
    intro j u hj
    rw [mine_append]
    by_cases hij : i = j
    · subst hij
      have hlt := (List.getElem?_eq_some_iff.1 hi).1
      rw [List.getElem?_set_self hlt] at hj
      cases hj
      rw [mine_op_same]
      exact h1 _ _ _ _ _ _ (ih i t hi) ht hs
    · rw [List.getElem?_set_ne hij] at hj
      rw [mine_op_other e hij, List.append_nil]
      exact ih j u hj
  | bg h hb ih =>
    intro i t hi
    rw [mine_append, mine_bg hbg hb, List.append_nil]
    exact ih i t hi

end

section

variable {S : Type} {H : Handler S} {bg : S → Label → S → Prop} {calls : Tree Outcome → Prop}
  {init : S} {L : List Label} {c : Conf S (Tree Outcome)}

/-- Every thread is what remains of a call after its own operations. -/
theorem Exec.after (hbg : ∀ s l s', bg s l s' → ∀ i e, l ≠ .op i e) (h : Exec Tree.Step H bg calls init L c) :
    ∀ i t, c.threads[i]? = some t → ∃ t0, calls t0 ∧ t0.After (mine i L) t := by
  induction h with
  | start => intro i t h; simp at h
  | @call L c t h ht ih =>
    intro i t' hi
    rw [List.getElem?_append] at hi
    split at hi
    · exact ih i t' hi
    · rename_i hlt
      have : i = c.threads.length := by
        have := (List.getElem?_eq_some_iff.1 hi).1
        simp at this
        omega
      subst this
      simp at hi
      subst hi
      refine ⟨t, ht, ?_⟩
      rw [mine_eq_nil fun e he => absurd (h.thread_lt hbg _ e he) (by omega)]
      rfl
  | @step L c i t t' e s' h hi ht hs ih =>
    intro j u hj
    rw [mine_append]
    by_cases hij : i = j
    · subst hij
      have hlt := (List.getElem?_eq_some_iff.1 hi).1
      rw [List.getElem?_set_self hlt] at hj
      cases hj
      obtain ⟨t0, h0, h1⟩ := ih i t hi
      exact ⟨t0, h0, by rw [mine_op_same]; exact h1.snoc ht⟩
    · rw [List.getElem?_set_ne hij] at hj
      obtain ⟨t0, h0, h1⟩ := ih j u hj
      exact ⟨t0, h0, by rw [mine_op_other e hij, List.append_nil]; exact h1⟩
  | bg h hb ih =>
    intro i t hi
    obtain ⟨t0, h0, h1⟩ := ih i t hi
    exact ⟨t0, h0, by rw [mine_append, mine_bg hbg hb, List.append_nil]; exact h1⟩

/-- Threads as locations in a program. -/
theorem Exec.locs {Loc : Type} (tree : Loc → Tree Outcome) (lstep : Loc → Event → Loc → Prop) (lcalls : Loc → Prop)
    (hcall : ∀ t, calls t → ∃ l, tree l = t ∧ lcalls l)
    (hstep : ∀ l e t', (tree l).Step e t' → ∃ l', tree l' = t' ∧ lstep l e l')
    (h : Exec Tree.Step H bg calls init L c) :
    ∃ ls, c.threads = ls.map tree ∧ Exec lstep H bg lcalls init L ⟨c.shared, ls⟩ := by
  induction h with
  | start => exact ⟨[], rfl, .start⟩
  | call h ht ih =>
    obtain ⟨ls, hl, he⟩ := ih
    obtain ⟨l, rfl, hc⟩ := hcall _ ht
    exact ⟨ls ++ [l], by simp [hl], .call he hc⟩
  | @step L c i t t' e s' h hi ht hs ih =>
    obtain ⟨ls, hl, he⟩ := ih
    rw [hl, List.getElem?_map] at hi
    cases hli : ls[i]? with
    | none => rw [hli] at hi; cases hi
    | some l =>
      rw [hli] at hi
      simp only [Option.map_some, Option.some.injEq] at hi
      subst hi
      obtain ⟨l', rfl, hls⟩ := hstep l e t' ht
      exact ⟨ls.set i l', by simp [hl, List.map_set], .step he hli hls hs⟩
  | bg h hb ih =>
    obtain ⟨ls, hl, he⟩ := ih
    exact ⟨ls, hl, .bg he hb⟩

/-- And back. -/
theorem Exec.ofLocs {Loc : Type} (tree : Loc → Tree Outcome) {lstep : Loc → Event → Loc → Prop} {lcalls : Loc → Prop}
    (hcall : ∀ l, lcalls l → calls (tree l)) (hstep : ∀ l e l', lstep l e l' → (tree l).Step e (tree l'))
    {c : Conf S Loc} (h : Exec lstep H bg lcalls init L c) :
    Exec Tree.Step H bg calls init L ⟨c.shared, c.threads.map tree⟩ := by
  induction h with
  | start => exact .start
  | call h ht ih => rw [List.map_append]; exact .call ih (hcall _ ht)
  | step h hi ht hs ih =>
    rw [List.map_set]
    exact .step ih (by rw [List.getElem?_map, hi]; rfl) (hstep _ _ _ ht) hs
  | bg h hb ih => exact .bg ih hb

end

section

variable {S T : Type} {step : T → Event → T → Prop} {H : Handler S} {bg : S → Label → S → Prop} {calls : T → Prop}
  {init : S}

/-- The beginning of an execution is an execution. -/
theorem Exec.prefix {L : List Label} {c : Conf S T} (h : Exec step H bg calls init L c) :
    ∀ A B, L = A ++ B → ∃ c', Exec step H bg calls init A c' := by
  have snoc : ∀ {L : List Label} {c c' : Conf S T} {l : Label}, Exec step H bg calls init (L ++ [l]) c' →
      (∀ A B, L = A ++ B → ∃ c', Exec step H bg calls init A c') →
      ∀ A B, L ++ [l] = A ++ B → ∃ c', Exec step H bg calls init A c' := by
    intro L c c' l h ih A B hL
    rcases List.eq_nil_or_concat B with rfl | ⟨B', l', rfl⟩
    · rw [List.append_nil] at hL
      rw [← hL]
      exact ⟨_, h⟩
    · rw [List.concat_eq_append, ← List.append_assoc] at hL
      exact ih A B' (List.append_inj' hL rfl).1
  induction h with
  | start =>
    intro A B hL
    obtain ⟨rfl, rfl⟩ := List.append_eq_nil_iff.1 hL.symm
    exact ⟨_, .start⟩
  | call h ht ih => exact ih
  | @step L c i t t' e s' h hi ht hs ih => exact snoc (c := c) (.step h hi ht hs) ih
  | @bg L c l s' h hb ih => exact snoc (c := c) (.bg h hb) ih

end

/-! ## Counting threads -/

theorem countP_set' {α : Type} (p : α → Bool) {a a' : α} : ∀ {l : List α} {i : Nat}, l[i]? = some a →
    (l.set i a').countP p + (if p a then 1 else 0) = l.countP p + (if p a' then 1 else 0) := by
  intro l
  induction l with
  | nil => intro i h; simp at h
  | cons b l ih =>
    intro i h
    cases i with
    | zero =>
      simp at h
      subst h
      simp only [List.set_cons_zero, List.countP_cons]
      omega
    | succ i =>
      simp at h
      have := ih h
      simp only [List.set_cons_succ, List.countP_cons]
      omega

theorem filterMap_set_some {α β : Type} (f : α → Option β) {a a' : α} {v : β} (ha : f a = none) (ha' : f a' = some v) :
    ∀ {l : List α} {i : Nat}, l[i]? = some a → ((l.set i a').filterMap f).Perm (v :: l.filterMap f) := by
  intro l
  induction l with
  | nil => intro i h; simp at h
  | cons b l ih =>
    intro i h
    cases i with
    | zero =>
      simp at h
      subst h
      simp [ha, ha']
    | succ i =>
      simp at h
      have := ih h
      simp only [List.set_cons_succ, List.filterMap_cons]
      split
      · exact this
      · exact (List.Perm.cons _ this).trans (.swap ..)

theorem filterMap_set_same {α β : Type} (f : α → Option β) {a a' : α} (ha : f a = f a') :
    ∀ {l : List α} {i : Nat}, l[i]? = some a → (l.set i a').filterMap f = l.filterMap f := by
  intro l
  induction l with
  | nil => intro i h; simp at h
  | cons b l ih =>
    intro i h
    cases i with
    | zero =>
      simp at h
      subst h
      simp [List.filterMap_cons, ha]
    | succ i =>
      simp at h
      simp only [List.set_cons_succ, List.filterMap_cons, ih h]

theorem filterMap_inj {α β : Type} (f : α → Option β) {a b : α} {v : β} : ∀ {l : List α} {i j : Nat},
    (l.filterMap f).Nodup → l[i]? = some a → l[j]? = some b → f a = some v → f b = some v → i = j := by
  intro l
  induction l with
  | nil => intro i j _ h; simp at h
  | cons x l ih =>
    intro i j hd hi hj ha hb
    have hd' : (l.filterMap f).Nodup := by
      rw [List.filterMap_cons] at hd
      split at hd
      · exact hd
      · exact (List.nodup_cons.1 hd).2
    cases i with
    | zero =>
      cases j with
      | zero => rfl
      | succ j =>
        simp at hi hj
        subst hi
        rw [List.filterMap_cons, ha] at hd
        exact absurd (List.mem_filterMap.2 ⟨b, List.mem_of_getElem? hj, hb⟩) (List.nodup_cons.1 hd).1
    | succ i =>
      cases j with
      | zero =>
        simp at hi hj
        subst hj
        rw [List.filterMap_cons, hb] at hd
        exact absurd (List.mem_filterMap.2 ⟨a, List.mem_of_getElem? hi, ha⟩) (List.nodup_cons.1 hd).1
      | succ j =>
        simp at hi hj
        rw [ih hd' hi hj ha hb]

end Gowrap
