import Verif.Spec.Pool
/-!
# Calls that come to an end
-/

namespace Gowrap.Spec

open Gowrap

variable {S : Type}

/-- `Goes H bg c L c'`: the goroutines that have called the decorator and the background lead from `c` to `c'` by the steps `L`, while nobody else
calls it. -/
inductive Goes (H : Handler S) (bg : S → Label → S → Prop) (c : Conf S (Tree Outcome)) : List Label → Conf S (Tree Outcome) → Prop
  | now : Goes H bg c [] c
  | step {L : List Label} {c' : Conf S (Tree Outcome)} {i : Nat} {t t' : Tree Outcome} {e : Event} {s' : S} (h : Goes H bg c L c')
      (hi : c'.threads[i]? = some t) (ht : t.Step e t') (hs : H c'.shared e s') :
      Goes H bg c (L ++ [.op i e]) ⟨s', c'.threads.set i t'⟩
  | bg {L : List Label} {c' : Conf S (Tree Outcome)} {l : Label} {s' : S} (h : Goes H bg c L c') (hb : bg c'.shared l s') :
      Goes H bg c (L ++ [l]) ⟨s', c'.threads⟩

/-- The step does not belong to a call. -/
def Label.outside : Label → Bool
  | .op _ _ => false
  | _ => true

/-- All calls have ended. -/
def AllEnded (c : Conf S (Tree Outcome)) : Prop := ∀ i, i < c.threads.length → ∃ o, Ended c i o

/-- Nothing holds up the calls for ever: each call needs at most `bound` operations; as long as one of them has not ended some goroutine can perform
its next operation, now or after steps of the background; and so all of them can be brought to an end. -/
structure Live (H : Handler S) (bg : S → Label → S → Prop) (bound : Nat) (L : List Label) (c : Conf S (Tree Outcome)) : Prop where
  bounded : ∀ i, (mine i L).length ≤ bound
  goesOn : ¬ AllEnded c → ∃ L' c', Goes H bg c L' c' ∧ (∀ l ∈ L', Label.outside l = true) ∧ ∃ j, CanStep H c' j
  ends : ∃ L' c', Goes H bg c L' c' ∧ AllEnded c'

end Gowrap.Spec
