import Verif.Props.Exact
/-!
# C44: exactly when gowrap crashes
-/

namespace Gowrap.Props

open Gowrap Spec

/-- **C44** (exact): gowrap crashes exactly if its only argument is `--` or the command it runs panics. -/
theorem C44_exact (p : Proc) (hs : p.stderrOk = true) (args : List Str) (h : List Ev) :
    (p.main args h).1 = .crash ↔ args = [g!"--"] ∨ Runs p args h (.error .panic) := by
  by_cases ha : args = [g!"--"]
  · subst ha
    rw [C44_dashes_crash]
    simp
  · rw [(C44_exit_partial p hs args ha h).2.2.2.1]
    simp [ha]

/-- `gowrap -- --` does not crash, and a run of the generator that does not panic does not either. -/
example : ¬ Runs Demo.proc [g!"--", g!"--"] [] (.error .panic) :=
  fun h => absurd ((C44_exact Demo.proc rfl _ []).2 (.inr h)) (by decide +kernel)

example : ¬ Runs Demo.proc [g!"gen", g!"-i", g!"I", g!"-t", g!"http://h/t", g!"-o", g!"d/full.go"] [] (.error .panic) :=
  fun h => absurd ((C44_exact Demo.proc rfl _ []).2 (.inr h)) (fun e => by
    have : (Demo.proc.main [g!"gen", g!"-i", g!"I", g!"-t", g!"http://h/t", g!"-o", g!"d/full.go"] []).1 = .code 1 := rfl
    rw [this] at e
    cases e)

end Gowrap.Props
