import Verif.Model.GoStr
/-!
# Model of `fmt.Fprintf` without operands

cmd/gowrap/gowrap.go:52 and 38 pass the text of an error as the format of `fmt.Fprintf` (`die`, line 57).  This file follows `doPrintf` of the
standard library for calls without operands.  Strings are sequences of code points (the format is valid UTF-8).
-/

namespace Gowrap

/-- `case '#', '0', '+', '-', ' '` of `doPrintf`. -/
def isFmtFlag (c : Char) : Bool := c = '#' || c = '0' || c = '+' || c = '-' || c = ' '

/-- `'0' <= s[newi] && s[newi] <= '9'` of `parsenum`. -/
def isFmtDigit (c : Char) : Bool := '0' ≤ c && c ≤ '9'

/-- The loop of `parsenum`: was there a number, and what follows it.  A number above 1000000 that goes on (`tooLarge`) ends everything. -/
def fmtNumber (num : Nat) (isnum : Bool) : Str → Bool × Str
  | [] => (isnum, [])
  | c :: cs =>
    if isFmtDigit c then
      if num > 1000000 then (false, []) else fmtNumber (num * 10 + (c.toNat - '0'.toNat)) true cs
    else (isnum, c :: cs)

/-- The search for the closing bracket in `parseArgNumber`: the text before and after it. -/
def fmtBracket : Str → Option (Str × Str)
  | [] => none
  | c :: cs => if c = ']' then some ([], cs) else (fmtBracket cs).map fun (a, b) => (c :: a, b)

/-- What `argNumber` does at a position of the format: was an index found, is there a bad index, and what follows.  There are no operands, so
that every index is bad. -/
def fmtIndex : Str → Bool × Bool × Str
  | '[' :: r =>
    match fmtBracket r with
    | none => (false, true, r)
    | some (a, b) =>
      -- "There must be at least 3 bytes: [n]."
      if a = [] ∧ b = [] then (false, true, r)
      else
        match fmtNumber 0 false a with
        | (true, []) => (true, true, b)
        | _ => (false, true, b)
  | s => (false, false, s)

/-- The width in `doPrintf`, after an argument index (`afterIndex`): what is written, is the index still
relevant, was the index misplaced, and what follows. -/
def fmtWidth (afterIndex : Bool) : Str → Str × Bool × Bool × Str
  | '*' :: r => (g!"%!(BADWIDTH)", false, false, r)
  | s => ([], afterIndex, afterIndex && (fmtNumber 0 false s).1, (fmtNumber 0 false s).2)

/-- The precision in `doPrintf`: as `fmtWidth`. -/
def fmtPrecision (afterIndex : Bool) : Str → Str × Bool × Bool × Str
  | '.' :: r =>
    match (fmtIndex r).2.2 with
    | '*' :: r' => (g!"%!(BADPREC)", false, afterIndex || (fmtIndex r).2.1, r')
    | r' => ([], (fmtIndex r).1, afterIndex || (fmtIndex r).2.1, (fmtNumber 0 false r').2)
  | s => ([], afterIndex, false, s)

/-- `if !afterIndex { argNum, i, afterIndex = p.argNumber(...) }`. -/
def fmtLastIndex (afterIndex : Bool) (s : Str) : Bool × Str := if afterIndex then (false, s) else (fmtIndex s).2

/-- The verb at the end of a directive: `badArgNum`, `missingArg` and the cases of `doPrintf`; `bad` is `!p.goodArgNum`. -/
def fmtVerb (bad : Bool) : Str → Str × Str
  | [] => (g!"%!(NOVERB)", [])
  | c :: r =>
    if c = '%' then (g!"%", r)
    else if bad then (g!"%!" ++ c :: g!"(BADINDEX)", r)
    else (g!"%!" ++ c :: g!"(MISSING)", r)

/-- One round of the loop of `doPrintf` after a `%`: what is written, and what follows the directive. -/
def fmtDirective (s : Str) : Str × Str :=
  let s := s.dropWhile isFmtFlag
  let (after1, bad1, s) := fmtIndex s
  let (out2, after2, bad2, s) := fmtWidth after1 s
  let (out3, after3, bad3, s) := fmtPrecision after2 s
  let (bad4, s) := fmtLastIndex after3 s
  let (out5, s) := fmtVerb (bad1 || bad2 || bad3 || bad4) s
  (out2 ++ out3 ++ out5, s)

/-- `doPrintf` without operands; `fuel` bounds the number of characters looked at. -/
def fmtLoop : (fuel : Nat) → Str → Str
  | _, [] => []
  | 0, s => s
  | fuel + 1, c :: cs =>
    if c = '%' then (fmtDirective cs).1 ++ fmtLoop fuel (fmtDirective cs).2
    else c :: fmtLoop fuel cs

/-- `fmt.Sprintf(format)`: what `fmt.Fprintf(w, format)` writes. -/
def sprintf0 (format : Str) : Str := fmtLoop format.length format

#guard sprintf0 g!"100" = g!"100"
#guard sprintf0 g!"50%% of %d" = g!"50% of %!d(MISSING)"
#guard sprintf0 g!"100%" = g!"100%!(NOVERB)"
#guard sprintf0 g!"%*.*s %[1]d %[x]d %-5.2f%%" = g!"%!(BADWIDTH)%!(BADPREC)%!s(MISSING) %!d(BADINDEX) %!d(BADINDEX) %!f(MISSING)%"

end Gowrap
