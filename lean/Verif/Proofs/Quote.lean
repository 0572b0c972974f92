import Verif.Model.Quote
import Verif.Spec.Quote
/-!
# `strconv.Quote` writes string literals
-/

namespace Gowrap

open Spec

theorem hexVal_hexDigit : ∀ d, d < 16 → hexVal (hexDigit d) = some d := by decide

theorem hexDigit_plain : ∀ d, d < 16 → hexDigit d ≠ '%' ∧ hexDigit d ≠ '\n' := by decide

theorem hexDigits_length : ∀ w n, (hexDigits w n).length = w
  | 0, _ => rfl
  | w + 1, n => by simp [hexDigits, hexDigits_length w]

theorem hexDigits_plain : ∀ w n, ∀ c ∈ hexDigits w n, c ≠ '%' ∧ c ≠ '\n'
  | 0, _, c, h => by cases h
  | w + 1, n, c, h => by
    simp only [hexDigits, List.mem_append, List.mem_singleton] at h
    rcases h with h | rfl
    · exact hexDigits_plain w _ c h
    · exact hexDigit_plain _ (by omega)

theorem hexNumber_hexDigits : ∀ w n, n < 16 ^ w → hexNumber (hexDigits w n) = some n
  | 0, n, h => by
    have : n = 0 := by simpa using h
    subst this; rfl
  | w + 1, n, h => by
    have ih := hexNumber_hexDigits w (n / 16) (by rw [Nat.pow_succ] at h; omega)
    unfold hexNumber at ih ⊢
    rw [hexDigits, List.foldl_append, ih]
    simp only [List.foldl_cons, List.foldl_nil, Option.bind_some, hexVal_hexDigit _ (show n % 16 < 16 by omega), Option.map_some,
      Option.some.injEq]
    omega

/-- `strconv.IsPrint` for ASCII. -/
def PrintsAscii (isPrint : Char → Bool) : Prop := ∀ c : Char, c.toNat < 128 → (isPrint c = true ↔ 32 ≤ c.toNat ∧ c.toNat < 127)

theorem char_lt (c : Char) : c.toNat < 16 ^ 8 := by
  have := c.valid
  have e : c.toNat = c.val.toNat := rfl
  rw [e]
  have := c.val.toNat_lt
  have : (16:Nat)^8 = 2^32 := by decide
  omega

/-- What a rune is quoted as, followed by the rest of a literal. -/
theorem quoteRune_literal {isPrint : Char → Bool} (hp : PrintsAscii isPrint) (c : Char) {t s : Str} (h : LiteralRest t s) :
    LiteralRest (quoteRune isPrint c ++ t) (c :: s) := by
  unfold quoteRune
  split
  · rename_i hc
    refine .letter c c ?_ h
    rcases hc with rfl | rfl <;> decide
  rename_i hc
  rw [not_or] at hc
  split
  · rename_i hpr
    refine .plain c hc.1 hc.2 ?_ h
    rintro rfl
    exact absurd ((hp '\n' (by decide)).1 hpr) (by decide)
  split
  · subst_vars; exact .letter 'a' _ (by decide) h
  split
  · subst_vars; exact .letter 'b' _ (by decide) h
  split
  · subst_vars; exact .letter 'f' _ (by decide) h
  split
  · subst_vars; exact .letter 'n' _ (by decide) h
  split
  · subst_vars; exact .letter 'r' _ (by decide) h
  split
  · subst_vars; exact .letter 't' _ (by decide) h
  split
  · subst_vars; exact .letter 'v' _ (by decide) h
  split
  · rename_i hn
    exact .number 'x' (hexDigits 2 c.toNat) c (by rw [hexDigits_length]; decide) (hexNumber_hexDigits 2 _ (by omega)) (fun _ => by omega) h
  split
  · rename_i hn
    exact .number 'u' (hexDigits 4 c.toNat) c (by rw [hexDigits_length]; decide) (hexNumber_hexDigits 4 _ (by omega)) (fun e => absurd e (by decide)) h
  · exact .number 'U' (hexDigits 8 c.toNat) c (by rw [hexDigits_length]; decide) (hexNumber_hexDigits 8 _ (char_lt c)) (fun e => absurd e (by decide)) h

theorem quoteText_literal {isPrint : Char → Bool} (hp : PrintsAscii isPrint) (s : Str) : StringLiteral (quoteText isPrint s) s := by
  refine ⟨s.flatMap (quoteRune isPrint) ++ g!"\"", rfl, ?_⟩
  induction s with
  | nil => exact .close
  | cons c s ih =>
    rw [List.flatMap_cons, List.append_assoc]
    exact quoteRune_literal hp c ih

/-- A literal is on one line. -/
theorem literal_line {r s : Str} (h : LiteralRest r s) : '\n' ∉ r := by
  have hhex : ∀ (ds : Str) (a : Option Nat) n,
      ds.foldl (fun acc c => acc.bind fun a => (hexVal c).map fun d => a * 16 + d) a = some n → '\n' ∉ ds := by
    intro ds
    induction ds with
    | nil => intro _ _ _ h; cases h
    | cons d ds ih =>
      intro a n hn hm
      rw [List.foldl_cons] at hn
      have hnone : ∀ ds : Str, ds.foldl (fun acc c => acc.bind fun a => (hexVal c).map fun d => a * 16 + d) none = none := by
        intro ds
        induction ds with
        | nil => rfl
        | cons d ds ih => rw [List.foldl_cons]; exact ih
      rcases List.mem_cons.1 hm with e | hm
      · rw [← e, show hexVal '\n' = none from rfl] at hn
        cases a <;> (simp only [Option.map_none, Option.bind_none, Option.bind_some] at hn; rw [hnone] at hn; cases hn)
      · exact ih _ _ hn hm
  induction h with
  | close => decide
  | plain c h1 h2 h3 _ ih =>
    intro h
    rcases List.mem_cons.1 h with e | h
    · exact h3 e.symm
    · exact ih h
  | letter e c h1 _ ih =>
    intro h
    simp only [List.mem_cons] at h
    rcases h with h | h | h
    · exact absurd h (by decide)
    · subst h
      simp [letterEscapes] at h1
    · exact ih h
  | number k ds c h1 h2 _ _ ih =>
    intro h
    simp only [List.cons_append, List.mem_cons, List.mem_append] at h
    rcases h with h | h | h | h
    · exact absurd h (by decide)
    · subst h
      simp [numberEscapes] at h1
    · exact hhex ds _ _ h2 h
    · exact ih h

/-- A literal stands for one text. -/
theorem literal_unique {r s : Str} (h : LiteralRest r s) : ∀ {s'}, LiteralRest r s' → s = s' := by
  have hk : ∀ {k n e c}, (k, n) ∈ numberEscapes → (e, c) ∈ letterEscapes → k ≠ e := by
    intro k n e c h1 h2
    simp only [numberEscapes, letterEscapes, List.mem_cons, Prod.mk.injEq, List.not_mem_nil, or_false] at h1 h2
    rcases h1 with ⟨rfl, _⟩ | ⟨rfl, _⟩ | ⟨rfl, _⟩ <;>
      rcases h2 with ⟨rfl, _⟩ | ⟨rfl, _⟩ | ⟨rfl, _⟩ | ⟨rfl, _⟩ | ⟨rfl, _⟩ | ⟨rfl, _⟩ | ⟨rfl, _⟩ | ⟨rfl, _⟩ | ⟨rfl, _⟩ <;> decide
  have hl : ∀ {e c c'}, (e, c) ∈ letterEscapes → (e, c') ∈ letterEscapes → c = c' := by
    intro e c c' h1 h2
    simp only [letterEscapes, List.mem_cons, Prod.mk.injEq, List.not_mem_nil, or_false] at h1 h2
    rcases h1 with ⟨rfl, rfl⟩ | ⟨rfl, rfl⟩ | ⟨rfl, rfl⟩ | ⟨rfl, rfl⟩ | ⟨rfl, rfl⟩ | ⟨rfl, rfl⟩ | ⟨rfl, rfl⟩ | ⟨rfl, rfl⟩ | ⟨rfl, rfl⟩ <;>
      simp at h2 <;> exact h2.symm
  have hw : ∀ {k n n'}, (k, n) ∈ numberEscapes → (k, n') ∈ numberEscapes → n = n' := by
    intro k n n' h1 h2
    simp only [numberEscapes, List.mem_cons, Prod.mk.injEq, List.not_mem_nil, or_false] at h1 h2
    rcases h1 with ⟨rfl, rfl⟩ | ⟨rfl, rfl⟩ | ⟨rfl, rfl⟩ <;> simp at h2 <;> exact h2.symm
  induction h with
  | close =>
    intro s' h'
    generalize hr : g!"\"" = r at h'
    cases h' with
    | close => rfl
    | plain c h1 h2 h3 _ => injection hr with e _; exact absurd e.symm h1
    | letter => simp at hr
    | number => simp at hr
  | plain c h1 h2 h3 _ ih =>
    intro s' h'
    generalize hr : c :: _ = r at h'
    cases h' with
    | close => injection hr with e _; exact absurd e h1
    | plain c' _ _ _ h' =>
      injection hr with e1 e2
      subst e1; subst e2
      rw [ih h']
    | letter => injection hr with e _; exact absurd e h2
    | number => injection hr with e _; exact absurd e h2
  | letter e c h1 _ ih =>
    intro s' h'
    generalize hr : '\\' :: e :: _ = r at h'
    cases h' with
    | close => simp at hr
    | plain c' _ h2 _ _ => injection hr with e _; exact absurd e.symm h2
    | letter e' c' h2 h' =>
      injection hr with _ hr
      injection hr with e1 e2
      subst e1; subst e2
      rw [ih h', hl h1 h2]
    | number k ds c' h2 =>
      injection hr with _ hr
      injection hr with e1 _
      exact absurd e1.symm (hk h2 h1)
  | number k ds c h1 h2 _ _ ih =>
    intro s' h'
    generalize hr : '\\' :: k :: ds ++ _ = r at h'
    cases h' with
    | close => simp at hr
    | plain c' _ h2 _ _ => injection hr with e _; exact absurd e.symm h2
    | letter e' c' h3 h' =>
      injection hr with _ hr
      injection hr with e1 _
      exact absurd e1 (hk h1 h3)
    | number k' ds' c' h3 h4 _ h' =>
      injection hr with _ hr
      injection hr with e1 e2
      subst e1
      obtain ⟨e3, e4⟩ := List.append_inj e2 (hw h1 h3)
      subst e3; subst e4
      rw [ih h']
      rw [h2] at h4
      have : c.toNat = c'.toNat := by simpa using h4
      rw [show c = c' from Char.toNat_inj.1 this]

theorem stringLiteral_unique {q s s' : Str} (h : StringLiteral q s) (h' : StringLiteral q s') : s = s' := by
  obtain ⟨r, e, h⟩ := h
  obtain ⟨r', e', h'⟩ := h'
  rw [e] at e'
  injection e' with _ e'
  subst e'
  exact literal_unique h h'

/-- Quoting keeps percent signs, and adds none. -/
theorem quoteText_percent {isPrint : Char → Bool} (hp : PrintsAscii isPrint) (s : Str) : '%' ∈ quoteText isPrint s ↔ '%' ∈ s := by
  have hone : ∀ c, '%' ∈ quoteRune isPrint c ↔ c = '%' := by
    intro c
    constructor
    · intro h
      unfold quoteRune at h
      split at h
      · simpa [eq_comm] using h
      split at h
      · simpa [eq_comm] using h
      split at h
      · exact absurd h (by decide)
      split at h
      · exact absurd h (by decide)
      split at h
      · exact absurd h (by decide)
      split at h
      · exact absurd h (by decide)
      split at h
      · exact absurd h (by decide)
      split at h
      · exact absurd h (by decide)
      split at h
      · exact absurd h (by decide)
      split at h
      · rcases List.mem_append.1 h with h | h
        · exact absurd h (by decide)
        · exact absurd rfl (hexDigits_plain _ _ _ h).1
      split at h
      · rcases List.mem_append.1 h with h | h
        · exact absurd h (by decide)
        · exact absurd rfl (hexDigits_plain _ _ _ h).1
      · rcases List.mem_append.1 h with h | h
        · exact absurd h (by decide)
        · exact absurd rfl (hexDigits_plain _ _ _ h).1
    · rintro rfl
      unfold quoteRune
      rw [if_neg (by decide), if_pos ((hp '%' (by decide)).2 (by decide))]
      simp
  unfold quoteText
  simp only [List.cons_append, List.mem_cons, List.mem_append, List.mem_flatMap, hone]
  constructor
  · rintro (h | ⟨c, hc, rfl⟩ | h | h)
    · exact absurd h (by decide)
    · exact hc
    · exact absurd h (by decide)
    · cases h
  · intro h
    exact Or.inr (Or.inl ⟨_, h, rfl⟩)

end Gowrap
