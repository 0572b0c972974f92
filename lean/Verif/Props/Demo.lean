import Verif.Model.Types
/-! Concrete environments used only in the non-vacuity examples. -/

namespace Gowrap.Demo

open Gowrap

/-- A stand-in for go/printer on the nodes used in the examples. -/
def raw : Expr → Str
  | .ident (c :: n) => c :: n
  | .selector (.ident a) s => a ++ g!"." ++ s
  | .lit (c :: t) => c :: t
  | .other (c :: t) => c :: t
  | _ => g!"?"

/-- Same-package printing. -/
def env : SigEnv := ⟨⟨Uni.ascii, raw, [], []⟩, [], []⟩

/-- A field without documentation or tag. -/
def fld (names : List Str) (t : Expr) : Field := .mk [] [] names t none

def string_ : Expr := .ident g!"string"
def int_ : Expr := .ident g!"int"
def error_ : Expr := .ident g!"error"
def context_ : Expr := .selector (.ident g!"context") g!"Context"

end Gowrap.Demo
