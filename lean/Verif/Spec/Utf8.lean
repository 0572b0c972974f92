import Verif.Model.GoStr
/-!
# UTF-8

The encoding of a Unicode scalar value by its table (RFC 3629), in terms of the bits of the bytes.
-/

namespace Gowrap.Spec

/-- Unicode scalar values. -/
def Scalar (r : Nat) : Prop := r < 0xD800 ∨ (0xE000 ≤ r ∧ r ≤ 0x10FFFF)

/-- A byte whose bits are the prefix `p` followed by the six bits `x`. -/
def Cont (b : UInt8) (x : Nat) : Prop := b.toNat = 0x80 + x ∧ x < 64

/-- `bs` is the UTF-8 encoding of `r` (the shortest one). -/
inductive Utf8 : Nat → List UInt8 → Prop
  | one (b : UInt8) : b.toNat < 0x80 → Utf8 b.toNat [b]
  | two (b c : UInt8) (w x : Nat) : b.toNat = 0xC0 + w → w < 32 → Cont c x → 0x80 ≤ w * 64 + x →
      Utf8 (w * 64 + x) [b, c]
  | three (b c d : UInt8) (w x y : Nat) : b.toNat = 0xE0 + w → w < 16 → Cont c x → Cont d y →
      0x800 ≤ (w * 64 + x) * 64 + y → Scalar ((w * 64 + x) * 64 + y) → Utf8 ((w * 64 + x) * 64 + y) [b, c, d]
  | four (b c d e : UInt8) (w x y z : Nat) : b.toNat = 0xF0 + w → w < 8 → Cont c x → Cont d y → Cont e z →
      0x10000 ≤ ((w * 64 + x) * 64 + y) * 64 + z → Scalar (((w * 64 + x) * 64 + y) * 64 + z) →
      Utf8 (((w * 64 + x) * 64 + y) * 64 + z) [b, c, d, e]

/-- The code of a rune in a Go string: its encoding, or that of U+FFFD if it is not a scalar value. -/
def RuneText (r : Nat) (bs : List UInt8) : Prop := (Scalar r ∧ Utf8 r bs) ∨ (¬ Scalar r ∧ Utf8 0xFFFD bs)

end Gowrap.Spec
