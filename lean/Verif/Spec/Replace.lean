import Verif.Model.GoStr
/-!
# What it means to replace a text (C93)
-/

namespace Gowrap

/-- `r` is `s` with the occurrences of `old` replaced by `new`, each found to the right of the one before and as far
to the left as possible. -/
inductive Replaced (old new : Str) : Str → Str → Prop
  | rest {s : Str} : ¬ old <:+: s → Replaced old new s s
  | hit {p q r : Str} : (∀ p' q', p ++ old ++ q = p' ++ old ++ q' → p.length ≤ p'.length) → Replaced old new q r →
      Replaced old new (p ++ old ++ q) (p ++ new ++ r)

/-- A text that can stand between the quotes of a string in a template as it is. -/
def PlainText (s : Str) : Prop := '"' ∉ s ∧ '\\' ∉ s ∧ '\n' ∉ s

end Gowrap
