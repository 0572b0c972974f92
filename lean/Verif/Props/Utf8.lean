import Verif.Model.Utf8
import Verif.Spec.Utf8
/-!
# upFirst and downFirst (C42)
-/

namespace Gowrap.Props

open Gowrap Spec

theorem validRune_iff (r : Nat) : validRune r = true ↔ Scalar r := by
  simp only [validRune, Bool.or_eq_true, Bool.and_eq_true, decide_eq_true_eq, Scalar]; omega

theorem byte_toNat {n : Nat} (h : n < 256) : (UInt8.ofNat n).toNat = n := by
  rw [UInt8.toNat_ofNat']; omega

theorem utf8_scalar {r : Nat} {bs : List UInt8} (h : Utf8 r bs) : Scalar r := by
  cases h with
  | one b hb => left; omega
  | two b c w x h1 h2 h3 h4 => obtain ⟨_, h5⟩ := h3; left; omega
  | three => assumption
  | four => assumption

/-- Every rune has its encoding. -/
theorem encodeRune_scalar {r : Nat} (h : Scalar r) : Utf8 r (encodeRune r) := by
  unfold encodeRune
  simp only [if_pos ((validRune_iff r).2 h)]
  have hs := h
  unfold Scalar at h
  split
  · have := Utf8.one (UInt8.ofNat r) (by rw [byte_toNat (by omega)]; omega)
    rwa [byte_toNat (by omega)] at this
  split
  · have := Utf8.two (.ofNat (0xC0 + r / 64)) (.ofNat (0x80 + r % 64)) (r / 64) (r % 64)
      (by rw [byte_toNat (by omega)]) (by omega) ⟨by rw [byte_toNat (by omega)], by omega⟩ (by omega)
    rwa [show r / 64 * 64 + r % 64 = r by omega] at this
  split
  · have e : (r / 4096 * 64 + r / 64 % 64) * 64 + r % 64 = r := by omega
    have := Utf8.three (.ofNat (0xE0 + r / 4096)) (.ofNat (0x80 + r / 64 % 64)) (.ofNat (0x80 + r % 64))
      (r / 4096) (r / 64 % 64) (r % 64) (by rw [byte_toNat (by omega)]) (by omega)
      ⟨by rw [byte_toNat (by omega)], by omega⟩ ⟨by rw [byte_toNat (by omega)], by omega⟩
      (by rw [e]; omega) (by rw [e]; exact hs)
    rwa [e] at this
  · have e : ((r / 262144 * 64 + r / 4096 % 64) * 64 + r / 64 % 64) * 64 + r % 64 = r := by omega
    have := Utf8.four (.ofNat (0xF0 + r / 262144)) (.ofNat (0x80 + r / 4096 % 64))
      (.ofNat (0x80 + r / 64 % 64)) (.ofNat (0x80 + r % 64))
      (r / 262144) (r / 4096 % 64) (r / 64 % 64) (r % 64) (by rw [byte_toNat (by omega)]) (by omega)
      ⟨by rw [byte_toNat (by omega)], by omega⟩ ⟨by rw [byte_toNat (by omega)], by omega⟩
      ⟨by rw [byte_toNat (by omega)], by omega⟩
      (by rw [e]; omega) (by rw [e]; exact hs)
    rwa [e] at this

theorem encodeRune_text (r : Nat) : RuneText r (encodeRune r) := by
  by_cases h : Scalar r
  · exact Or.inl ⟨h, encodeRune_scalar h⟩
  · refine Or.inr ⟨h, ?_⟩
    have : encodeRune r = encodeRune 0xFFFD := by
      unfold encodeRune
      rw [if_neg (fun hv => h ((validRune_iff r).1 hv))]
      rfl
    rw [this]
    exact encodeRune_scalar (Or.inr ⟨by omega, by omega⟩)

/-- A rune has only one encoding. -/
theorem utf8_unique {r : Nat} {a b : List UInt8} (ha : Utf8 r a) (hb : Utf8 r b) : a = b := by
  have inj : ∀ x y : UInt8, x.toNat = y.toNat → x = y := fun x y h => UInt8.toNat_inj.1 h
  generalize hr : r = r' at hb
  cases ha <;> cases hb <;> (try simp only [Cont] at *) <;>
    first
    | omega
    | (simp only [List.cons.injEq, and_true]
       refine ⟨?_, ?_, ?_, ?_⟩ <;> apply inj <;> omega)
    | (simp only [List.cons.injEq, and_true]
       refine ⟨?_, ?_, ?_⟩ <;> apply inj <;> omega)
    | (simp only [List.cons.injEq, and_true]
       refine ⟨?_, ?_⟩ <;> apply inj <;> omega)
    | (simp only [List.cons.injEq, and_true]; apply inj; omega)

theorem decode_utf8 {r : Nat} {bs : List UInt8} (h : Utf8 r bs) (rest : List UInt8) :
    decodeRune (bs ++ rest) = r := by
  cases h with
  | one b hb => simp [decodeRune, hb]
  | two b c w x h1 h2 h3 h4 =>
    obtain ⟨h5, h6⟩ := h3
    have : secondOk b c = true := by
      unfold secondOk
      rw [if_neg (by omega), if_neg (by omega), if_neg (by omega), if_neg (by omega)]
      simp only [isCont, Bool.and_eq_true, decide_eq_true_eq]; omega
    simp only [decodeRune, List.cons_append]
    rw [if_neg (by omega), if_neg (by omega), if_pos (by omega), if_pos this]
    omega
  | three b c d w x y h1 h2 h3 h4 h5 h6 =>
    obtain ⟨h7, h8⟩ := h3
    obtain ⟨h9, h10⟩ := h4
    unfold Scalar at h6
    have : secondOk b c = true := by
      unfold secondOk
      simp only [isCont]
      split
      · simp only [Bool.and_eq_true, decide_eq_true_eq]; omega
      split
      · simp only [Bool.and_eq_true, decide_eq_true_eq]; omega
      rw [if_neg (by omega), if_neg (by omega)]
      simp only [Bool.and_eq_true, decide_eq_true_eq]; omega
    have h' : isCont d = true := by simp only [isCont, Bool.and_eq_true, decide_eq_true_eq]; omega
    simp only [decodeRune, List.cons_append]
    rw [if_neg (by omega), if_neg (by omega), if_neg (by omega), if_pos (by omega), if_pos (by rw [this, h']; rfl)]
    omega
  | four b c d e w x y z h1 h2 h3 h4 h5 h6 h7 =>
    obtain ⟨h8, h9⟩ := h3
    obtain ⟨h10, h11⟩ := h4
    obtain ⟨h12, h13⟩ := h5
    unfold Scalar at h7
    have : secondOk b c = true := by
      unfold secondOk
      simp only [isCont]
      rw [if_neg (by omega), if_neg (by omega)]
      split
      · simp only [Bool.and_eq_true, decide_eq_true_eq]; omega
      split
      · simp only [Bool.and_eq_true, decide_eq_true_eq]; omega
      simp only [Bool.and_eq_true, decide_eq_true_eq]; omega
    have h' : isCont d = true := by simp only [isCont, Bool.and_eq_true, decide_eq_true_eq]; omega
    have h'' : isCont e = true := by simp only [isCont, Bool.and_eq_true, decide_eq_true_eq]; omega
    simp only [decodeRune, List.cons_append]
    rw [if_neg (by omega), if_neg (by omega), if_neg (by omega), if_neg (by omega), if_pos (by omega),
      if_pos (by rw [this, h', h'']; rfl)]
    omega

/-- What is decoded from a text that does not begin with an encoded rune. -/
theorem decode_invalid {s : List UInt8} (h : ∀ r bs rest, s = bs ++ rest → ¬ Utf8 r bs) :
    decodeRune s = 0xFFFD := by
  cases s with
  | nil => rfl
  | cons b rest =>
    simp only [decodeRune]
    have e64 : ∀ c : UInt8, 0x80 ≤ c.toNat → c.toNat ≤ 0xBF → Cont c (c.toNat % 64) := by
      intro c h1 h2; constructor <;> omega
    split
    · rename_i hb
      exact absurd (Utf8.one b hb) (h _ [b] rest rfl)
    split
    · rfl
    split
    · rename_i h1 h2 h3
      split
      · rename_i c tl
        split
        · rename_i hc
          unfold secondOk at hc
          rw [if_neg (by omega), if_neg (by omega), if_neg (by omega), if_neg (by omega)] at hc
          simp only [isCont, Bool.and_eq_true, decide_eq_true_eq] at hc
          exact absurd (Utf8.two b c (b.toNat % 32) (c.toNat % 64) (by omega) (by omega) (e64 c hc.1 hc.2)
            (by omega)) (h _ [b, c] tl rfl)
        · rfl
      · rfl
    split
    · rename_i h1 h2 h3 h4
      split
      · rename_i c d tl
        split
        · rename_i hc
          rw [Bool.and_eq_true] at hc
          obtain ⟨hc, hd⟩ := hc
          simp only [isCont, Bool.and_eq_true, decide_eq_true_eq] at hd
          unfold secondOk at hc
          have key : 0x80 ≤ c.toNat ∧ c.toNat ≤ 0xBF ∧
              0x800 ≤ (b.toNat % 16 * 64 + c.toNat % 64) * 64 + d.toNat % 64 ∧
              Scalar ((b.toNat % 16 * 64 + c.toNat % 64) * 64 + d.toNat % 64) := by
            unfold Scalar
            simp only [isCont] at hc
            split at hc
            · simp only [Bool.and_eq_true, decide_eq_true_eq] at hc; omega
            split at hc
            · simp only [Bool.and_eq_true, decide_eq_true_eq] at hc; omega
            rw [if_neg (by omega), if_neg (by omega)] at hc
            simp only [Bool.and_eq_true, decide_eq_true_eq] at hc
            omega
          obtain ⟨k1, k2, k3, k4⟩ := key
          exact absurd (Utf8.three b c d (b.toNat % 16) (c.toNat % 64) (d.toNat % 64) (by omega) (by omega)
            (e64 c k1 k2) (e64 d hd.1 hd.2) k3 k4) (h _ [b, c, d] tl rfl)
        · rfl
      · rfl
    split
    · rename_i h1 h2 h3 h4 h5
      split
      · rename_i c d e tl
        split
        · rename_i hc
          rw [Bool.and_eq_true, Bool.and_eq_true] at hc
          obtain ⟨⟨hc, hd⟩, he⟩ := hc
          simp only [isCont, Bool.and_eq_true, decide_eq_true_eq] at hd he
          unfold secondOk at hc
          have key : 0x80 ≤ c.toNat ∧ c.toNat ≤ 0xBF ∧
              0x10000 ≤ ((b.toNat % 8 * 64 + c.toNat % 64) * 64 + d.toNat % 64) * 64 + e.toNat % 64 ∧
              Scalar (((b.toNat % 8 * 64 + c.toNat % 64) * 64 + d.toNat % 64) * 64 + e.toNat % 64) := by
            unfold Scalar
            simp only [isCont] at hc
            rw [if_neg (by omega), if_neg (by omega)] at hc
            split at hc
            · simp only [Bool.and_eq_true, decide_eq_true_eq] at hc; omega
            split at hc
            · simp only [Bool.and_eq_true, decide_eq_true_eq] at hc; omega
            simp only [Bool.and_eq_true, decide_eq_true_eq] at hc
            omega
          obtain ⟨k1, k2, k3, k4⟩ := key
          exact absurd (Utf8.four b c d e (b.toNat % 8) (c.toNat % 64) (d.toNat % 64) (e.toNat % 64) (by omega)
            (by omega) (e64 c k1 k2) (e64 d hd.1 hd.2) (e64 e he.1 he.2) k3 k4) (h _ [b, c, d, e] tl rfl)
        · rfl
      · rfl
    · rfl

/-- **C42**, for strings that begin with a well-formed rune (in particular for all valid UTF-8): the
helper maps the first rune and leaves the rest unchanged; it does not panic.  `f` is `unicode.ToUpper`
or `unicode.ToLower` (any function).  Missing for the full claim: strings beginning with an invalid
byte, see `C42_full_false` and `C42_invalid`. -/
theorem C42_first_rune_partial (f : Nat → Nat) (r : Nat) (bs rest : List UInt8) (h : Utf8 r bs) :
    ∃ out, RuneText (f r) out ∧ mapFirst f (bs ++ rest) = .ok (out ++ rest) := by
  refine ⟨encodeRune (f r), encodeRune_text _, ?_⟩
  have he : encodeRune r = bs := utf8_unique (encodeRune_scalar (utf8_scalar h)) h
  have hne : bs ≠ [] := by cases h <;> simp
  cases hs : bs ++ rest with
  | nil => simp [hne] at hs
  | cons b tl =>
    show (do
      let tail ← sliceFrom (b :: tl) (encodeRune (decodeRune (b :: tl))).length
      pure (encodeRune (f (decodeRune (b :: tl))) ++ tail) : Res (List UInt8)) = _
    rw [← hs, decode_utf8 h, he, sliceFrom, if_pos (by simp), List.drop_left]
    rfl

/-- **C42**, the empty string. -/
theorem C42_empty (f : Nat → Nat) : mapFirst f [] = .ok [] := rfl

/-- **C42**, what happens for all other strings: three bytes are replaced by the image of U+FFFD, and a
shorter string panics. -/
theorem C42_invalid (f : Nat → Nat) (s : List UInt8) (hne : s ≠ [])
    (h : ∀ r bs rest, s = bs ++ rest → ¬ Utf8 r bs) :
    (s.length < 3 → mapFirst f s = .panic) ∧
    (∀ a b c rest, s = a :: b :: c :: rest → ∃ out, RuneText (f 0xFFFD) out ∧ mapFirst f s = .ok (out ++ rest)) := by
  have hd := decode_invalid h
  have hm : mapFirst f s = (do
      let tail ← sliceFrom s 3
      pure (encodeRune (f 0xFFFD) ++ tail) : Res (List UInt8)) := by
    cases s with
    | nil => exact absurd rfl hne
    | cons b tl =>
      show (do
        let tail ← sliceFrom (b :: tl) (encodeRune (decodeRune (b :: tl))).length
        pure (encodeRune (f (decodeRune (b :: tl))) ++ tail) : Res (List UInt8)) = _
      rw [hd]
      rfl
  constructor
  · intro hl
    rw [hm, sliceFrom, if_neg (by omega)]
    rfl
  · rintro a b c rest rfl
    refine ⟨_, encodeRune_text _, ?_⟩
    rw [hm, sliceFrom, if_pos (by simp)]
    rfl

/-- The full claim C42 (a part of it): no string makes the helpers panic. -/
def C42_full : Prop := ∀ (f : Nat → Nat) (s : List UInt8), mapFirst f s ≠ .panic

/-- `{{ upFirst "\xff" }}` panics. -/
theorem C42_full_false : ¬ C42_full := by
  intro h
  exact h id [0xFF] rfl

/-- Non-vacuity of C42: `ä` and `€x`, and an invalid text. -/
example : Utf8 0xE4 [0xC3, 0xA4] ∧ Utf8 0x20AC [0xE2, 0x82, 0xAC] ∧
    mapFirst (fun r => if r = 0xE4 then 0xC4 else r) [0xC3, 0xA4, 0x78] = .ok [0xC3, 0x84, 0x78] ∧
    mapFirst id [0xFF, 0x61, 0x62, 0x63] = .ok [0xEF, 0xBF, 0xBD, 0x63] := by
  refine ⟨.two 0xC3 0xA4 3 36 rfl (by decide) ⟨rfl, by decide⟩ (by decide),
    .three 0xE2 0x82 0xAC 2 2 44 rfl (by decide) ⟨rfl, by decide⟩ ⟨rfl, by decide⟩ (by decide) (Or.inl (by decide)),
    by rfl, by rfl⟩

end Gowrap.Props
