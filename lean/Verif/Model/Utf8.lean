import Verif.Model.GoStr
/-!
# Model of the helper functions `upFirst` and `downFirst`

They work on the bytes of a Go string, which need not be valid UTF-8.  `decodeRune` follows
`utf8.DecodeRuneInString` (which a `range` loop uses) and `encodeRune` the conversion `string(r)`, both
of the Go standard library.
-/

namespace Gowrap

/-- The replacement character U+FFFD. -/
def runeError : Nat := 0xFFFD

/-- Is the rune a Unicode scalar value? -/
def validRune (r : Nat) : Bool := r < 0xD800 || (0xE000 ≤ r && r < 0x110000)

/-- `utf8.EncodeRune`: the conversion `string(r)`. -/
def encodeRune (r : Nat) : List UInt8 :=
  let r := if validRune r then r else runeError
  if r < 0x80 then [.ofNat r]
  else if r < 0x800 then [.ofNat (0xC0 + r / 64), .ofNat (0x80 + r % 64)]
  else if r < 0x10000 then
    [.ofNat (0xE0 + r / 4096), .ofNat (0x80 + r / 64 % 64), .ofNat (0x80 + r % 64)]
  else
    [.ofNat (0xF0 + r / 262144), .ofNat (0x80 + r / 4096 % 64), .ofNat (0x80 + r / 64 % 64),
     .ofNat (0x80 + r % 64)]

/-- A continuation byte. -/
def isCont (b : UInt8) : Bool := 0x80 ≤ b.toNat && b.toNat ≤ 0xBF

/-- The range accepted for the second byte after the first byte `b` (`acceptRanges` in
unicode/utf8/utf8.go). -/
def secondOk (b c : UInt8) : Bool :=
  if b.toNat = 0xE0 then 0xA0 ≤ c.toNat && c.toNat ≤ 0xBF
  else if b.toNat = 0xED then 0x80 ≤ c.toNat && c.toNat ≤ 0x9F
  else if b.toNat = 0xF0 then 0x90 ≤ c.toNat && c.toNat ≤ 0xBF
  else if b.toNat = 0xF4 then 0x80 ≤ c.toNat && c.toNat ≤ 0x8F
  else isCont c

/-- `utf8.DecodeRuneInString` of a non-empty string: the rune (the width is not needed here). -/
def decodeRune : List UInt8 → Nat
  | [] => runeError
  | b :: rest =>
    if b.toNat < 0x80 then b.toNat
    else if b.toNat < 0xC2 then runeError
    else if b.toNat < 0xE0 then
      match rest with
      | c :: _ => if secondOk b c then b.toNat % 32 * 64 + c.toNat % 64 else runeError
      | _ => runeError
    else if b.toNat < 0xF0 then
      match rest with
      | c :: d :: _ =>
        if secondOk b c && isCont d then b.toNat % 16 * 4096 + c.toNat % 64 * 64 + d.toNat % 64 else runeError
      | _ => runeError
    else if b.toNat < 0xF5 then
      match rest with
      | c :: d :: e :: _ =>
        if secondOk b c && isCont d && isCont e then
          b.toNat % 8 * 262144 + c.toNat % 64 * 4096 + d.toNat % 64 * 64 + e.toNat % 64
        else runeError
      | _ => runeError
    else runeError

/-- `s[n:]`; the slice expression panics if `n` is greater than the length. -/
def sliceFrom (s : List UInt8) (n : Nat) : Res (List UInt8) :=
  if n ≤ s.length then .ok (s.drop n) else .panic

/-- `upFirst` with `unicode.ToUpper` and `downFirst` with `unicode.ToLower` for `f`,
cmd_generate.go:280-292. -/
def mapFirst (f : Nat → Nat) (s : List UInt8) : Res (List UInt8) :=
  match s with
  | [] => .ok []
  | s => do
    let v := decodeRune s
    let tail ← sliceFrom s (encodeRune v).length
    pure (encodeRune (f v) ++ tail)

end Gowrap
