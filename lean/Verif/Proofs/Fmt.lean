import Verif.Model.Fmt
/-!
# Lemmas about `fmt.Sprintf` without operands
-/

namespace Gowrap

/-- The number of `%` and `*`. -/
def marks (s : Str) : Nat := s.countP fun c => c = '%' || c = '*'

theorem marks_append (a b : Str) : marks (a ++ b) = marks a + marks b := List.countP_append

theorem marks_cons (c : Char) (s : Str) : marks (c :: s) = marks [c] + marks s := marks_append [c] s

theorem marks_suffix {a b : Str} (h : a <:+ b) : marks a ≤ marks b := by
  obtain ⟨x, rfl⟩ := h
  rw [marks_append]
  omega

theorem fmtNumber_suffix : ∀ (n : Nat) (b : Bool) (s : Str), (fmtNumber n b s).2 <:+ s
  | _, _, [] => List.suffix_refl _
  | n, b, c :: cs => by
    rw [fmtNumber]
    split
    · split
      · exact List.nil_suffix
      · exact (fmtNumber_suffix _ _ cs).trans (List.suffix_cons c cs)
    · exact List.suffix_refl _

theorem fmtBracket_suffix : ∀ {s a b : Str}, fmtBracket s = some (a, b) → b <:+ s
  | [], _, _, h => nomatch h
  | c :: cs, a, b, h => by
    rw [fmtBracket] at h
    split at h
    · cases h
      exact List.suffix_cons c _
    · cases hb : fmtBracket cs with
      | none => rw [hb] at h; exact nomatch h
      | some x =>
        rw [hb] at h
        cases h
        exact (fmtBracket_suffix hb).trans (List.suffix_cons c cs)

theorem fmtIndex_suffix (s : Str) : (fmtIndex s).2.2 <:+ s := by
  unfold fmtIndex
  split
  · rename_i r
    split
    · exact List.suffix_cons _ r
    · rename_i a b hb
      have hs := (fmtBracket_suffix hb).trans (List.suffix_cons '[' r)
      split
      · exact List.suffix_cons _ r
      · split <;> exact hs
  · exact List.suffix_refl _

theorem fmtLastIndex_suffix (k : Bool) (s : Str) : (fmtLastIndex k s).2 <:+ s := by
  cases k
  · exact fmtIndex_suffix s
  · exact List.suffix_refl _

theorem fmtWidth_spec (k : Bool) (s : Str) : (fmtWidth k s).2.2.2 <:+ s ∧ marks (fmtWidth k s).1 + marks (fmtWidth k s).2.2.2 ≤ marks s ∧
    ((fmtWidth k s).1 = [] ∨ ∃ z, (fmtWidth k s).1 = '%' :: '!' :: z) := by
  unfold fmtWidth
  split
  · rename_i r
    exact ⟨List.suffix_cons _ r, by rw [marks_cons '*' r]; exact Nat.le_refl _, .inr ⟨_, rfl⟩⟩
  · refine ⟨fmtNumber_suffix _ _ _, ?_, .inl rfl⟩
    exact Nat.le_trans (Nat.le_of_eq (Nat.zero_add _)) (marks_suffix (fmtNumber_suffix 0 false s))

theorem fmtPrecision_spec (k : Bool) (s : Str) : (fmtPrecision k s).2.2.2 <:+ s ∧
    marks (fmtPrecision k s).1 + marks (fmtPrecision k s).2.2.2 ≤ marks s ∧
    ((fmtPrecision k s).1 = [] ∨ ∃ z, (fmtPrecision k s).1 = '%' :: '!' :: z) := by
  unfold fmtPrecision
  split
  · rename_i r
    have h1 := (fmtIndex_suffix r).trans (List.suffix_cons '.' r)
    split
    · rename_i r' hr
      rw [hr] at h1
      refine ⟨(List.suffix_cons '*' r').trans h1, ?_, .inr ⟨_, rfl⟩⟩
      have := marks_suffix h1
      rw [marks_cons] at this
      exact this
    · refine ⟨(fmtNumber_suffix _ _ _).trans h1, ?_, .inl rfl⟩
      exact Nat.le_trans (Nat.le_of_eq (Nat.zero_add _)) (marks_suffix ((fmtNumber_suffix 0 false (fmtIndex r).2.2).trans h1))
  · exact ⟨List.suffix_refl _, Nat.le_of_eq (Nat.zero_add _), .inl rfl⟩

theorem marks_verb (c : Char) (z : Str) (hz : marks z = 0) : marks (g!"%!" ++ c :: z) = 1 + marks [c] := by
  rw [marks_append, marks_cons c z, hz]
  rfl

theorem fmtVerb_spec (bad : Bool) (s : Str) : (fmtVerb bad s).2 <:+ s ∧ marks (fmtVerb bad s).1 + marks (fmtVerb bad s).2 ≤ 1 + marks s ∧
    (((fmtVerb bad s).1 = g!"%" ∧ s = '%' :: (fmtVerb bad s).2) ∨ ∃ z, (fmtVerb bad s).1 = '%' :: '!' :: z) := by
  cases s with
  | nil => exact ⟨List.suffix_refl _, Nat.le_refl _, .inr ⟨_, rfl⟩⟩
  | cons c r =>
    rw [fmtVerb, marks_cons c r]
    by_cases h1 : c = '%'
    · rw [if_pos h1]
      subst h1
      refine ⟨List.suffix_cons _ r, ?_, .inl ⟨rfl, rfl⟩⟩
      show marks ['%'] + marks r ≤ _
      omega
    · rw [if_neg h1]
      by_cases h2 : bad = true
      · rw [if_pos h2]
        refine ⟨List.suffix_cons _ r, ?_, .inr ⟨_, rfl⟩⟩
        show marks (g!"%!" ++ c :: g!"(BADINDEX)") + marks r ≤ _
        rw [marks_verb c _ rfl]
        omega
      · rw [if_neg h2]
        refine ⟨List.suffix_cons _ r, ?_, .inr ⟨_, rfl⟩⟩
        show marks (g!"%!" ++ c :: g!"(MISSING)") + marks r ≤ _
        rw [marks_verb c _ rfl]
        omega

theorem directive_parts {s s0 s1 s4 : Str} {r2 r3 : Str × Bool × Bool × Str} {r5 : Str × Str} (h0 : s0 <:+ s) (h1 : s1 <:+ s0)
    (h2 : r2.2.2.2 <:+ s1 ∧ marks r2.1 + marks r2.2.2.2 ≤ marks s1 ∧ (r2.1 = [] ∨ ∃ z, r2.1 = '%' :: '!' :: z))
    (h3 : r3.2.2.2 <:+ r2.2.2.2 ∧ marks r3.1 + marks r3.2.2.2 ≤ marks r2.2.2.2 ∧ (r3.1 = [] ∨ ∃ z, r3.1 = '%' :: '!' :: z))
    (h4 : s4 <:+ r3.2.2.2)
    (h5 : r5.2 <:+ s4 ∧ marks r5.1 + marks r5.2 ≤ 1 + marks s4 ∧ ((r5.1 = g!"%" ∧ s4 = '%' :: r5.2) ∨ ∃ z, r5.1 = '%' :: '!' :: z)) :
    r5.2 <:+ s ∧ marks (r2.1 ++ r3.1 ++ r5.1) + marks r5.2 ≤ 1 + marks s ∧
      ((r2.1 ++ r3.1 ++ r5.1 = g!"%" ∧ 1 + marks r5.2 ≤ marks s) ∨ ∃ z, r2.1 ++ r3.1 ++ r5.1 = '%' :: '!' :: z) := by
  have m0 := marks_suffix h0
  have m1 := marks_suffix h1
  have m4 := marks_suffix h4
  refine ⟨h5.1.trans (h4.trans (h3.1.trans (h2.1.trans (h1.trans h0)))), ?_, ?_⟩
  · rw [marks_append, marks_append]
    omega
  · rcases h2.2.2 with e2 | ⟨z, e2⟩
    · rcases h3.2.2 with e3 | ⟨z, e3⟩
      · rcases h5.2.2 with ⟨e5, e⟩ | ⟨z, e5⟩
        · refine .inl ⟨by rw [e2, e3, e5]; rfl, ?_⟩
          have : marks s4 = 1 + marks r5.2 := by rw [e, marks_cons]; rfl
          omega
        · exact .inr ⟨z, by rw [e2, e3, e5]; rfl⟩
      · exact .inr ⟨z ++ r5.1, by rw [e2, e3]; rfl⟩
    · exact .inr ⟨z ++ r3.1 ++ r5.1, by rw [e2]; rfl⟩

/-- What a directive writes: a `%` for one that ends in `%`, or something that begins with `%!`. -/
theorem fmtDirective_spec (s : Str) : (fmtDirective s).2 <:+ s ∧ marks (fmtDirective s).1 + marks (fmtDirective s).2 ≤ 1 + marks s ∧
    (((fmtDirective s).1 = g!"%" ∧ 1 + marks (fmtDirective s).2 ≤ marks s) ∨ ∃ z, (fmtDirective s).1 = '%' :: '!' :: z) := by
  exact directive_parts (List.dropWhile_suffix isFmtFlag) (fmtIndex_suffix _) (fmtWidth_spec _ _) (fmtPrecision_spec _ _)
    (fmtLastIndex_suffix _ _) (fmtVerb_spec _ _)

theorem fmtLoop_fuel : ∀ {n m : Nat} {s : Str}, s.length ≤ n → s.length ≤ m → fmtLoop n s = fmtLoop m s
  | n, m, [], _, _ => by rw [fmtLoop, fmtLoop]
  | 0, _, _ :: _, h, _ => by simp at h
  | _ + 1, 0, _ :: _, _, h => by simp at h
  | n + 1, m + 1, c :: cs, h1, h2 => by
    simp only [List.length_cons, Nat.add_le_add_iff_right] at h1 h2
    have hl := (fmtDirective_spec cs).1.length_le
    rw [fmtLoop, fmtLoop, fmtLoop_fuel (s := (fmtDirective cs).2) (by omega) (by omega : _ ≤ m), fmtLoop_fuel h1 h2]

theorem sprintf0_nil : sprintf0 [] = [] := rfl

theorem sprintf0_percent (s : Str) : sprintf0 ('%' :: s) = (fmtDirective s).1 ++ sprintf0 (fmtDirective s).2 := by
  have hl := (fmtDirective_spec s).1.length_le
  show fmtLoop (s.length + 1) _ = _
  rw [fmtLoop, if_pos rfl, fmtLoop_fuel hl (Nat.le_refl _)]
  rfl

theorem sprintf0_cons {c : Char} (h : c ≠ '%') (s : Str) : sprintf0 (c :: s) = c :: sprintf0 s := by
  show fmtLoop (s.length + 1) _ = _
  rw [fmtLoop, if_neg h]
  rfl

theorem sprintf0_append {a : Str} (h : '%' ∉ a) (s : Str) : sprintf0 (a ++ s) = a ++ sprintf0 s := by
  induction a with
  | nil => rfl
  | cons c a ih =>
    rw [List.cons_append, sprintf0_cons (fun e => h (e ▸ List.mem_cons_self)), ih fun hm => h (List.mem_cons_of_mem _ hm)]
    rfl

theorem sprintf0_marks (n : Nat) : ∀ s : Str, s.length ≤ n → marks (sprintf0 s) ≤ marks s := by
  induction n with
  | zero =>
    intro s h
    cases s with
    | nil => exact Nat.le_refl _
    | cons => simp at h
  | succ n ih =>
    intro s h
    cases s with
    | nil => exact Nat.le_refl _
    | cons c s =>
      simp only [List.length_cons, Nat.add_le_add_iff_right] at h
      by_cases hc : c = '%'
      · subst hc
        obtain ⟨h1, h2, _⟩ := fmtDirective_spec s
        have h3 := ih (fmtDirective s).2 (Nat.le_trans h1.length_le h)
        rw [sprintf0_percent, marks_append, marks_cons]
        show _ ≤ 1 + marks s
        omega
      · have := ih s h
        rw [sprintf0_cons hc, marks_cons, marks_cons c s]
        omega

theorem sprintf0_grows (n : Nat) : ∀ t : Str, t.length ≤ n → t ≠ g!"!(MISSING)" ++ sprintf0 t := by
  induction n with
  | zero =>
    intro t h e
    have := congrArg List.length e
    simp at this
    omega
  | succ n ih =>
    intro t h e
    have hl : (sprintf0 t).length ≤ n := by
      have := congrArg List.length e
      simp at this
      omega
    apply ih (sprintf0 t) hl
    have h2 : sprintf0 t = sprintf0 (g!"!(MISSING)" ++ sprintf0 t) := congrArg sprintf0 e
    rw [sprintf0_append (by decide)] at h2
    exact h2

/-- `fmt.Sprintf(s)` is `s` exactly if `s` contains no `%`. -/
theorem sprintf0_eq_iff (s : Str) : sprintf0 s = s ↔ '%' ∉ s := by
  constructor
  · induction s with
    | nil => exact fun _ => nofun
    | cons c s ih =>
      intro h
      by_cases hc : c = '%'
      · exfalso
        subst hc
        rw [sprintf0_percent] at h
        obtain ⟨h1, h2, ⟨h3, h4⟩ | ⟨z, h3⟩⟩ := fmtDirective_spec s
        · rw [h3] at h
          have h5 : sprintf0 (fmtDirective s).2 = s := (List.cons.inj h).2
          have h6 := sprintf0_marks _ (fmtDirective s).2 (Nat.le_refl _)
          rw [h5] at h6
          omega
        · rw [h3] at h
          have h5 : '!' :: (z ++ sprintf0 (fmtDirective s).2) = s := (List.cons.inj h).2
          cases s with
          | nil => exact nomatch h5
          | cons c t =>
            cases (List.cons.inj h5).1
            have hd : fmtDirective ('!' :: t) = (g!"%!!(MISSING)", t) := rfl
            rw [← h3, hd] at h
            have h6 : g!"!(MISSING)" ++ sprintf0 t = t := (List.cons.inj (List.cons.inj h).2).2
            exact sprintf0_grows _ t (Nat.le_refl _) h6.symm
      · rw [sprintf0_cons hc] at h
        have := ih (List.cons.inj h).2
        exact fun hm => (List.mem_cons.mp hm).elim (fun e => hc e.symm) this
  · intro h
    have := sprintf0_append h []
    rwa [List.append_nil, sprintf0_nil, List.append_nil] at this

theorem sprintf0_ne_nil {s : Str} (h : s ≠ []) : sprintf0 s ≠ [] := by
  cases s with
  | nil => exact absurd rfl h
  | cons c s =>
    by_cases hc : c = '%'
    · subst hc
      rw [sprintf0_percent]
      obtain ⟨_, _, ⟨h3, _⟩ | ⟨z, h3⟩⟩ := fmtDirective_spec s <;> rw [h3] <;> simp
    · rw [sprintf0_cons hc]; simp

end Gowrap
