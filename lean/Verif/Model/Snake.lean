import Verif.Model.GoStr
/-!
# Model of the helper function `snake`

Strings are valid UTF-8 here (`Str`).
-/

namespace Gowrap

/-- `[A-Z]` -/
def isCap (c : Char) : Bool := 'A' ≤ c && c ≤ 'Z'

/-- `[a-z]` -/
def isLow (c : Char) : Bool := 'a' ≤ c && c ≤ 'z'

/-- `[a-z0-9]` -/
def isLowDigit (c : Char) : Bool := isLow c || ('0' ≤ c && c ≤ '9')

/-- `matchFirstCap.ReplaceAllString(s, "${1}_${2}")`, cmd_generate.go:294, 298: the regular expression is
`(.)([A-Z][a-z]+)`.  Matches are leftmost, do not overlap, and `[a-z]+` takes as many letters as possible:
`eat` means that a match is taking letters.  `.` does not match a newline. -/
def firstCap (eat : Bool) : Str → Str
  | [] => []
  | [c] => [c]
  | [c, d] => [c, d]
  | c :: d :: e :: rest =>
    if eat && isLow c then c :: firstCap true (d :: e :: rest)
    else if c ≠ '\n' ∧ isCap d ∧ isLow e then c :: '_' :: d :: firstCap true (e :: rest)
    else c :: firstCap false (d :: e :: rest)

/-- `matchAllCap.ReplaceAllString(s, "${1}_${2}")`, cmd_generate.go:295, 299: the regular expression is
`([a-z0-9])([A-Z])`. -/
def allCap : Str → Str
  | [] => []
  | [c] => [c]
  | c :: d :: rest =>
    if isLowDigit c && isCap d then c :: '_' :: d :: allCap rest else c :: allCap (d :: rest)

/-- `toSnakeCase`, cmd_generate.go:297-301. -/
def Uni.snake (u : Uni) (s : Str) : Str := u.lower (allCap (firstCap false s))

end Gowrap
