import Verif.Model.GoStr
/-!
# Where `snake` puts underscores
-/

namespace Gowrap.Spec

open Gowrap

def Capital (c : Char) : Prop := 'A'.val ≤ c.val ∧ c.val ≤ 'Z'.val
def Small (c : Char) : Prop := 'a'.val ≤ c.val ∧ c.val ≤ 'z'.val
def Digit (c : Char) : Prop := '0'.val ≤ c.val ∧ c.val ≤ '9'.val

/-- A word ends between `x` and `y` when `y` is a capital letter and `x` is a small letter or a digit, or
`y` begins a capitalised word (and `x` is not the end of a line). -/
def WordEnd (x y : Char) (next : Option Char) : Prop :=
  Capital y ∧ (Small x ∨ Digit x ∨ (x ≠ '\n' ∧ ∃ z, next = some z ∧ Small z))

/-- `t` is `s` with an underscore at the end of every word and nowhere else. -/
inductive Underscored : Str → Str → Prop
  | nil : Underscored [] []
  | one (c : Char) : Underscored [c] [c]
  | here (x y : Char) (rest t : Str) : WordEnd x y rest.head? → Underscored (y :: rest) t →
      Underscored (x :: y :: rest) (x :: '_' :: t)
  | on (x y : Char) (rest t : Str) : ¬ WordEnd x y rest.head? → Underscored (y :: rest) t →
      Underscored (x :: y :: rest) (x :: t)

end Gowrap.Spec
