/-!
# Go strings and outcomes

Go strings are modelled as lists of Unicode code points (i.e. valid UTF-8 strings).  The places in
gowrap which slice *bytes* are modelled separately (see `typePrefix` in `Model/Types.lean` and
`Model/Utf8.lean`).
-/

namespace Gowrap

/-- A Go string with valid UTF-8 contents, as the list of its code points. -/
abbrev Str := List Char

open Lean in
/-- `g!"abc"` is the explicit list `['a', 'b', 'c']`. -/
macro:max "g!" s:str : term => do
  let cs := s.getString.toList.toArray.map (fun c => Syntax.mkCharLit c)
  `(([$cs,*] : List Char))

/-- Error values that can be returned by gowrap.  Messages and `errors.Wrap` texts are dropped; the
constructor records which error it is and, where the code includes it, the offending name. -/
inductive Err where
  /-- generator/types.go:72 `"%q is not a method"` -/
  | notAMethod (name : Str)
  /-- printer/printer.go:134 -/
  | unexportedType (name : Str)
  /-- generator/generator.go:342 -/
  | targetNotFound (name : Str)
  /-- generator/generator.go:636 -/
  | notAnInterface (name : Str)
  /-- generator/generator.go:666 -/
  | unknownSelector (name : Str)
  /-- generator/generator.go:598 -/
  | packageNotFound (name : Str)
  /-- generator/generator.go:192, 394-397 (`pkg.Load` failed) -/
  | loadFailed (path : Str)
  /-- generator/generator.go:208, 401, 602 (`pkg.AST` failed) -/
  | parseFailed (path : Str)
  /-- generator/generator.go:161 -/
  | emptyInterface
  /-- generator/generator.go:162 -/
  | unexportedMethod (name : Str)
  /-- generator/generator.go:288 -/
  | noPackageName
  /-- generator/generator.go:172 -/
  | headerTemplate
  /-- generator/generator.go:177 -/
  | bodyTemplate
  /-- an error from a function outside gowrap, identified by a number -/
  | external (code : Nat)
  deriving DecidableEq, Repr

/-- Outcome of running a Go function: normal return, returned error, run-time panic, or not
returning (infinite recursion, in Go a stack overflow). -/
inductive Res (α : Type) where
  | ok (a : α)
  | err (e : Err)
  | panic
  | diverge
  deriving DecidableEq, Repr

namespace Res

/-- Sequencing: everything that is not a normal return is propagated. -/
def bind {α β : Type} : Res α → (α → Res β) → Res β
  | .ok a, f => f a
  | .err e, _ => .err e
  | .panic, _ => .panic
  | .diverge, _ => .diverge

instance : Monad Res where
  pure := .ok
  bind := Res.bind

@[simp] theorem ok_bind {α β : Type} (a : α) (f : α → Res β) : (Res.ok a >>= f) = f a := rfl
@[simp] theorem err_bind {α β : Type} (e : Err) (f : α → Res β) :
    ((Res.err e : Res α) >>= f) = .err e := rfl
@[simp] theorem panic_bind {α β : Type} (f : α → Res β) :
    ((Res.panic : Res α) >>= f) = .panic := rfl
@[simp] theorem diverge_bind {α β : Type} (f : α → Res β) :
    ((Res.diverge : Res α) >>= f) = .diverge := rfl
@[simp] theorem pure_eq {α : Type} (a : α) : (pure a : Res α) = .ok a := rfl

theorem bind_eq_ok {α β : Type} {x : Res α} {f : α → Res β} {b : β} :
    (x >>= f) = .ok b ↔ ∃ a, x = .ok a ∧ f a = .ok b := by
  cases x <;> simp

/-- Did the call return normally? -/
def isOk {α : Type} : Res α → Bool
  | .ok _ => true
  | _ => false

end Res

/-- `strings.Join` of the Go standard library. -/
def join (sep : Str) : List Str → Str
  | [] => []
  | [a] => a
  | a :: b :: t => a ++ sep ++ join sep (b :: t)

/-- `strings.HasPrefix`. -/
def hasPrefix (s p : Str) : Bool := p.isPrefixOf s

/-- `fmt.Sprintf("%d", n)` for `n ≥ 0`. -/
def natDec (n : Nat) : Str := Nat.toDigits 10 n

/-- The facts about Go's `unicode` package used in the model: simple case mapping of code points.
The structure is a parameter of the model; the laws are those of the ASCII range together with the
fact that lower-casing never produces an ASCII capital letter. -/
structure Uni where
  /-- `unicode.ToLower` -/
  toLower : Char → Char
  /-- `unicode.ToUpper` -/
  toUpper : Char → Char
  /-- `unicode.IsUpper` (Go's definition of an exported identifier looks at the first letter) -/
  isUpper : Char → Bool
  lower_ascii : ∀ c : Char, c.val < 128 → toLower c = c.toLower
  upper_ascii : ∀ c : Char, c.val < 128 → toUpper c = c.toUpper
  isUpper_ascii : ∀ c : Char, c.val < 128 → isUpper c = c.isUpper
  lower_not_cap : ∀ c : Char, (toLower c).isUpper = false

/-- `strings.ToLower` on valid UTF-8: maps every code point. -/
def Uni.lower (u : Uni) (s : Str) : Str := s.map u.toLower

/-- `strings.ToUpper` on valid UTF-8: maps every code point. -/
def Uni.upper (u : Uni) (s : Str) : Str := s.map u.toUpper

/-- The test used in generator/generator.go:242 and printer/printer.go:144 to find out that `name` is
unexported: `[]rune(name)[0] == []rune(strings.ToLower(name))[0]`.  On the empty string the Go
expression panics; identifiers produced by the Go parser are never empty, and the model makes the
empty case explicit by `none`. -/
def Uni.looksUnexported (u : Uni) (name : Str) : Option Bool :=
  match name with
  | [] => none
  | c :: _ => some (c == u.toLower c)

/-- An instance of `Uni` (used in non-vacuity examples only): ASCII case mapping. -/
def Uni.ascii : Uni where
  toLower := Char.toLower
  toUpper := Char.toUpper
  isUpper := Char.isUpper
  lower_ascii := fun _ _ => rfl
  upper_ascii := fun _ _ => rfl
  isUpper_ascii := fun _ _ => rfl
  lower_not_cap := by
    intro c
    unfold Char.toLower Char.isUpper
    grind

end Gowrap
