import Verif.Model.GoNew
/-!
# What the semantics of constructors refuses

C68 says what the generated constructors do.  The statements here show that the semantics it uses is not
more generous than Go: they fail if a send to a full channel, a missing return or a function declared twice
is accepted.
-/

namespace Gowrap.Props

open Gowrap Go

/-- A channel takes as many values as its capacity says, and no more. -/
theorem sendVal_iff (cap : Nat) (vs : List Val) (v : Val) :
    sendVal (chanVal cap vs) v = some (chanVal cap (vs ++ [v])) ∧ vs.length < cap ∨
    sendVal (chanVal cap vs) v = none ∧ cap ≤ vs.length := by
  by_cases h : vs.length < cap
  · left
    refine ⟨?_, h⟩
    simp only [sendVal, chanVal]
    rw [if_pos ⟨trivial, trivial, by omega⟩]
  · right
    refine ⟨?_, by omega⟩
    simp only [sendVal, chanVal]
    rw [if_neg (by rintro ⟨_, _, h'⟩; omega)]

/-- A function with results has to return them. -/
theorem endFunc_next (results : List Str) (env : Env) :
    endFunc results (env, .next) = .ret (.ret []) ↔ results = [] := by
  simp only [endFunc]
  by_cases h : results = []
  · simp [h]
  · simp [h]

/-- A function that returns gives the values of its results. -/
theorem endFunc_ret (results : List Str) (env : Env) (vs : List Val) (h : env.all results = some vs) :
    endFunc results (env, .ret) = .ret (.ret vs) := by
  simp [endFunc, h]

/-- A file with two functions of a name does not have a function of the name. -/
theorem callFunc_twice (fuel : Nat) (ds : List Go.Decl) (x : Str) (args : List Val) (f g : List Group × Results × List Stmt)
    (r : List (List Group × Results × List Stmt)) (h : (flatDecls ds).filterMap (Go.Decl.funcOf x) = f :: g :: r) :
    callFunc fuel ds x args = .ret .stuck := by
  simp [callFunc, h]

example : sendVal (chanVal 1 [.nil]) (.int 3) = none ∧
    sendVal (chanVal 2 [.nil]) (.int 3) = some (chanVal 2 [.nil, .int 3]) := by
  constructor <;> simp [sendVal, chanVal]

end Gowrap.Props
