import Verif.Model.GoStr
/-!
# Model of the verb `%q` for strings

cmd/gowrap/gowrap.go:45 and 74 print the name of an unknown command with `%q`.  For strings and without
flags that is `strconv.AppendQuote` of the standard library (`appendQuotedWith` with the quote `"`), which
this file follows.  Strings are sequences of code points (valid UTF-8), so that the case of an invalid byte
does not occur.
-/

namespace Gowrap

/-- `lowerhex[d]`. -/
def hexDigit (d : Nat) : Char := if d < 10 then Char.ofNat (48 + d) else Char.ofNat (87 + d)

/-- The `w` last hexadecimal digits of a number. -/
def hexDigits : Nat → Nat → Str
  | 0, _ => []
  | w + 1, n => hexDigits w (n / 16) ++ [hexDigit (n % 16)]

/-- `appendEscapedRune` with the quote `"`; `isPrint` is `strconv.IsPrint`. -/
def quoteRune (isPrint : Char → Bool) (c : Char) : Str :=
  if c = '"' ∨ c = '\\' then ['\\', c]
  else if isPrint c then [c]
  else if c = '\x07' then g!"\\a"
  else if c = '\x08' then g!"\\b"
  else if c = '\x0c' then g!"\\f"
  else if c = '\n' then g!"\\n"
  else if c = '\r' then g!"\\r"
  else if c = '\t' then g!"\\t"
  else if c = '\x0b' then g!"\\v"
  else if c.toNat < 32 ∨ c.toNat = 127 then g!"\\x" ++ hexDigits 2 c.toNat
  else if c.toNat < 65536 then g!"\\u" ++ hexDigits 4 c.toNat
  else g!"\\U" ++ hexDigits 8 c.toNat

/-- `strconv.Quote`. -/
def quoteText (isPrint : Char → Bool) (s : Str) : Str := '"' :: s.flatMap (quoteRune isPrint) ++ g!"\""

end Gowrap
