import Verif.Spec.Text
/-! Lemmas about the text reader -/

namespace Gowrap

open Spec

theorem depth_append (sep : Char) : ∀ (d : Nat) (a b : Str),
    depth sep d (a ++ b) = (depth sep d a).bind fun d' => depth sep d' b
  | d, [], b => rfl
  | d, c :: a, b => by
    simp only [List.cons_append, depth]
    split
    · exact depth_append sep (d + 1) a b
    · split
      · cases d with
        | zero => rfl
        | succ d => exact depth_append sep d a b
      · split
        · rfl
        · exact depth_append sep d a b

/-- Starting deeper only forgives more. -/
theorem depth_mono (sep : Char) : ∀ (d d' k : Nat) (a : Str), depth sep d a = some d' →
    depth sep (d + k) a = some (d' + k)
  | d, d', k, [], h => by simp [depth] at h ⊢; omega
  | d, d', k, c :: a, h => by
    simp only [depth] at h ⊢
    by_cases ho : isOpen c = true
    · rw [if_pos ho] at h ⊢
      have e : d + k + 1 = d + 1 + k := by omega
      rw [e]
      exact depth_mono sep (d + 1) d' k a h
    · rw [if_neg ho] at h ⊢
      by_cases hc : isClose c = true
      · rw [if_pos hc] at h ⊢
        cases d with
        | zero => simp at h
        | succ d =>
          simp only at h
          have e : d + 1 + k = (d + k) + 1 := by omega
          rw [e]
          exact depth_mono sep d d' k a h
      · rw [if_neg hc] at h ⊢
        by_cases h1 : d = 0 ∧ c = sep
        · rw [if_pos h1] at h; cases h
        · rw [if_neg h1] at h
          rw [if_neg (by rintro ⟨e1, e2⟩; exact h1 ⟨by omega, e2⟩)]
          exact depth_mono sep d d' k a h

theorem splitTop_skip (sep : Char) : ∀ (d d' : Nat) (acc x rest : Str), depth sep d x = some d' →
    splitTop sep d acc (x ++ rest) = splitTop sep d' (x.reverse ++ acc) rest
  | d, d', acc, [], rest, h => by simp [depth] at h; subst h; rfl
  | d, d', acc, c :: x, rest, h => by
    simp only [depth] at h
    simp only [List.cons_append, splitTop, List.reverse_cons, List.append_assoc, List.nil_append]
    by_cases ho : isOpen c = true
    · rw [if_pos ho] at h ⊢
      rw [splitTop_skip sep (d + 1) d' (c :: acc) x rest h]
    · rw [if_neg ho] at h ⊢
      by_cases hc : isClose c = true
      · rw [if_pos hc] at h ⊢
        cases d with
        | zero => simp at h
        | succ d =>
          simp only at h
          rw [Nat.add_sub_cancel, splitTop_skip sep d d' (c :: acc) x rest h]
      · rw [if_neg hc] at h ⊢
        by_cases h1 : d = 0 ∧ c = sep
        · rw [if_pos h1] at h; cases h
        · rw [if_neg h1] at h ⊢
          rw [splitTop_skip sep d d' (c :: acc) x rest h]

theorem group_skip (sep : Char) : ∀ (d d' : Nat) (acc x rest : Str), depth sep d x = some d' →
    group d acc (x ++ rest) = group d' (x.reverse ++ acc) rest
  | d, d', acc, [], rest, h => by simp [depth] at h; subst h; rfl
  | d, d', acc, c :: x, rest, h => by
    simp only [depth] at h
    simp only [List.cons_append, group, List.reverse_cons, List.append_assoc, List.nil_append]
    by_cases ho : isOpen c = true
    · rw [if_pos ho] at h ⊢
      rw [group_skip sep (d + 1) d' (c :: acc) x rest h]
    · rw [if_neg ho] at h ⊢
      by_cases hc : isClose c = true
      · rw [if_pos hc] at h ⊢
        cases d with
        | zero => simp at h
        | succ d =>
          simp only at h ⊢
          rw [group_skip sep d d' (c :: acc) x rest h]
      · rw [if_neg hc] at h ⊢
        by_cases h1 : d = 0 ∧ c = sep
        · rw [if_pos h1] at h; cases h
        · rw [if_neg h1] at h
          rw [group_skip sep d d' (c :: acc) x rest h]

/-- Characters other than brackets do not matter inside a group. -/
theorem group_plain : ∀ (d : Nat) (acc x rest : Str), (∀ c ∈ x, isOpen c = false ∧ isClose c = false) →
    group d acc (x ++ rest) = group d (x.reverse ++ acc) rest
  | d, acc, [], rest, _ => rfl
  | d, acc, c :: x, rest, h => by
    have hc := h c (by simp)
    simp only [List.cons_append, group, hc.1, hc.2, List.reverse_cons, List.append_assoc]
    rw [if_neg (by simp), if_neg (by simp), group_plain d (c :: acc) x rest (fun c hc => h c (by simp [hc]))]
    simp

/-- Reading the contents of a list of closed items up to the closing bracket. -/
theorem group_join (sep : Str) (hs : ∀ c ∈ sep, isOpen c = false ∧ isClose c = false) (cl : Char)
    (hcl : isClose cl = true) (rest : Str) : ∀ (xs : List Str) (acc : Str),
    (∀ x ∈ xs, depth ',' 0 x = some 0) →
    group 0 acc (join sep xs ++ cl :: rest) = some (acc.reverse ++ join sep xs, rest)
  | [], acc, _ => by
    have ho : isOpen cl = false := by
      revert hcl; simp only [isOpen, isClose, decide_eq_true_eq]
      rintro (rfl | rfl | rfl) <;> rfl
    simp [join, group, hcl, ho]
  | [x], acc, h => by
    have ho : isOpen cl = false := by
      revert hcl; simp only [isOpen, isClose, decide_eq_true_eq]
      rintro (rfl | rfl | rfl) <;> rfl
    simp only [join]
    rw [group_skip ',' 0 0 acc x _ (h x (by simp))]
    simp [group, hcl, ho]
  | x :: y :: xs, acc, h => by
    simp only [join, List.append_assoc]
    rw [group_skip ',' 0 0 acc x _ (h x (by simp)), group_plain 0 _ sep _ hs,
      group_join sep hs cl hcl rest (y :: xs) _ (fun z hz => h z (by simp [hz]))]
    simp

theorem splitTop_join (sep : Char) (pad : Str) (hb : isOpen sep = false ∧ isClose sep = false)
    (hp : ∀ c ∈ pad, isOpen c = false ∧ isClose c = false ∧ c ≠ sep) :
    ∀ (xs : List Str) (acc : Str), xs ≠ [] → (∀ x ∈ xs, depth sep 0 x = some 0) →
    ∃ x0 xt, xs = x0 :: xt ∧
      splitTop sep 0 acc (join (sep :: pad) xs) = (acc.reverse ++ x0) :: xt.map (pad ++ ·)
  | [], acc, h, _ => absurd rfl h
  | [x], acc, _, h => by
    refine ⟨x, [], rfl, ?_⟩
    have := splitTop_skip sep 0 0 acc x [] (h x (by simp))
    simp only [List.append_nil] at this
    simp [join, this, splitTop]
  | x :: y :: xs, acc, _, h => by
    refine ⟨x, y :: xs, rfl, ?_⟩
    have hskip : ∀ (acc pad : Str) (s : Str), (∀ c ∈ pad, isOpen c = false ∧ isClose c = false ∧ c ≠ sep) →
        splitTop sep 0 acc (pad ++ s) = splitTop sep 0 (pad.reverse ++ acc) s := by
      intro acc pad
      induction pad generalizing acc with
      | nil => intro s _; rfl
      | cons c pad ih =>
        intro s hp
        have hc := hp c (by simp)
        simp only [List.cons_append, splitTop, hc.1, hc.2.1]
        rw [if_neg (by simp), if_neg (by simp), if_neg (by simp [hc.2.2]), ih _ _ (fun c hc => hp c (by simp [hc]))]
        simp
    obtain ⟨y0, yt, he, hrec⟩ := splitTop_join sep pad hb hp (y :: xs) pad.reverse (by simp)
      (fun z hz => h z (by simp [hz]))
    cases he
    simp only [join, List.append_assoc]
    rw [splitTop_skip sep 0 0 acc x _ (h x (by simp))]
    simp only [List.cons_append, splitTop, hb.1, hb.2]
    rw [if_neg (by simp), if_neg (by simp), if_pos (by simp), hskip [] pad _ hp]
    simp only [List.append_nil]
    rw [hrec]
    simp

theorem trimLeft_pad : ∀ (pad x : Str), (∀ c ∈ pad, c = ' ' ∨ c = '\n') → trimLeft (pad ++ x) = trimLeft x
  | [], x, _ => rfl
  | c :: pad, x, h => by
    simp only [List.cons_append, trimLeft, if_pos (h c (by simp))]
    exact trimLeft_pad pad x (fun c hc => h c (by simp [hc]))

/-- Items starting with a non-blank. -/
def Starts (x : Str) : Prop := ∃ c s, x = c :: s ∧ c ≠ ' ' ∧ c ≠ '\n'

theorem Starts.trim {x : Str} (h : Starts x) : trimLeft x = x := by
  obtain ⟨c, s, rfl, h1, h2⟩ := h
  simp [trimLeft, h1, h2]

theorem join_ne_nil {sep : Str} : ∀ {xs : List Str}, xs ≠ [] → (∀ x ∈ xs, x ≠ []) → join sep xs ≠ []
  | [], h, _ => absurd rfl h
  | [x], _, h => by simpa [join] using h x (by simp)
  | x :: y :: xs, _, h => by
    have := h x (by simp)
    simp [join, this]

/-- Reading a separated list gives back its items. -/
theorem items_join (sep : Char) (pad : Str) (hb : isOpen sep = false ∧ isClose sep = false)
    (hp : ∀ c ∈ pad, isOpen c = false ∧ isClose c = false ∧ c ≠ sep)
    (hw : ∀ c ∈ pad, c = ' ' ∨ c = '\n') (xs : List Str)
    (hx : ∀ x ∈ xs, depth sep 0 x = some 0) (hst : ∀ x ∈ xs, Starts x) :
    items sep (join (sep :: pad) xs) = xs := by
  unfold items
  by_cases h0 : xs = []
  · subst h0; rfl
  · have hne : join (sep :: pad) xs ≠ [] := join_ne_nil h0 (fun x hx => by
      obtain ⟨c, s, rfl, _⟩ := hst x hx; simp)
    rw [if_neg hne]
    obtain ⟨x0, xt, rfl, hs⟩ := splitTop_join sep pad hb hp xs [] h0 hx
    rw [hs]
    simp only [List.reverse_nil, List.nil_append, List.map_cons, List.map_map]
    rw [(hst x0 (by simp)).trim]
    congr 1
    conv => rhs; rw [← List.map_id xt]
    apply List.map_congr_left
    intro x hx'
    simp only [Function.comp, id]
    rw [trimLeft_pad pad x hw, (hst x (by simp [hx'])).trim]

theorem plain_chars {s : Str} (h : PlainName s) : ∀ c ∈ s, isOpen c = false ∧ isClose c = false ∧
    c ≠ ',' ∧ c ≠ '\n' ∧ c ≠ ' ' ∧ c ≠ '.' ∧ c ≠ ':' ∧ c ≠ '"' := by
  intro c hc
  have := h.2 c hc
  simp only [isPunct, Bool.or_eq_false_iff, decide_eq_false_iff_not] at this
  simpa [and_assoc] using this

theorem depth_noSpecial (sep : Char) : ∀ (d : Nat) (s : Str),
    (∀ c ∈ s, isOpen c = false ∧ isClose c = false ∧ c ≠ sep) → depth sep d s = some d
  | d, [], _ => rfl
  | d, c :: s, h => by
    have hc := h c (by simp)
    simp only [depth, hc.1, hc.2.1]
    rw [if_neg (by simp), if_neg (by simp), if_neg (by simp [hc.2.2])]
    exact depth_noSpecial sep d s (fun c hc => h c (by simp [hc]))

theorem plain_closed {s : Str} (h : PlainName s) : Closed s :=
  ⟨depth_noSpecial _ _ _ fun c hc => ⟨(plain_chars h c hc).1, (plain_chars h c hc).2.1, (plain_chars h c hc).2.2.1⟩,
   depth_noSpecial _ _ _ fun c hc => ⟨(plain_chars h c hc).1, (plain_chars h c hc).2.1, (plain_chars h c hc).2.2.2.1⟩⟩

theorem plain_starts {s rest : Str} (h : PlainName s) : Starts (s ++ rest) := by
  cases s with
  | nil => exact absurd rfl h.1
  | cons c s =>
    have := plain_chars h c (by simp)
    exact ⟨c, s ++ rest, rfl, this.2.2.2.2.1, this.2.2.2.1⟩

theorem Spec.Closed.append {a b : Str} (ha : Closed a) (hb : Closed b) : Closed (a ++ b) := by
  unfold Closed at *
  rw [depth_append, depth_append, ha.1, ha.2]
  exact hb

theorem splitAtChar_not_mem (c : Char) : ∀ (a b : Str), c ∉ a →
    splitAtChar c (a ++ c :: b) = (a, c :: b)
  | [], b, _ => by simp [splitAtChar]
  | x :: a, b, h => by
    simp only [List.mem_cons, not_or] at h
    simp only [List.cons_append, splitAtChar]
    rw [if_neg (fun e => h.1 e.symm), splitAtChar_not_mem c a b h.2]

theorem splitAtChar_all (c : Char) : ∀ (a : Str), c ∉ a → splitAtChar c a = (a, [])
  | [], _ => rfl
  | x :: a, h => by
    simp only [List.mem_cons, not_or] at h
    simp only [splitAtChar]
    rw [if_neg (fun e => h.1 e.symm), splitAtChar_all c a h.2]

end Gowrap
