import Verif.Props.Reading
import Verif.Props.CommandDemo
/-!
# Examples for C82
-/

namespace Gowrap.Demo

open Gowrap Spec Tmpl Go Props

/-- Non-vacuity of C82: what `gen` writes for the interface `Cache` is read, with every template. -/
example (p : Builtin × Locals) (hp : p ∈ builtins.zip locals) :
    ∃ ev f o g input text l is rs, ((shell p.1.text).main (g!"gen" :: genArgs g!"out") []).2 = ev ∧
      GenRun cacheWorld inOrder 20 (disk p.1.text) (genArgs g!"out") ev f o g input ∧ Encodes text input ∧
      Go.tokens text = some l ∧ ReadsFile l g.dstName is rs := by
  obtain ⟨_, ev, f, o, g, input, h1, h2, q, _, _, text, h3, h4⟩ := cache_written p hp
  obtain ⟨l, is, rs, h5, h6, _⟩ := Props.C82_command h4
  exact ⟨ev, f, o, g, input, text, l, is, rs, h1, h2, h3, h5, h6⟩

/-- Copied parts of types. -/
example : CopiedLen g!"2*(n+1)" :=
  ⟨_, .num (.op (by decide) (.round (l := [.word g!"n", .op g!"+", .num g!"1"]) (.word (.op (by decide) (.num .nil))) .nil)), fun _ _ => rfl⟩

example : Enclosed (typeToks g!"interface{ Len() int }") :=
  ⟨_, .word (x := g!"Len") (.round .nil (.word (x := g!"int") .nil)), .inl (by decide +kernel)⟩

/-! ## Tests of the reader -/

/-- The tokens of what is read. -/
def reread (s : Str) : Option (List Go.Tok) := do
  let l ← Go.tokens s
  let ds ← Reader.decls 1000 l
  return putDecls ds []

/-- What is read has the tokens of the text. -/
def faithful (s : Str) : Bool :=
  match Go.tokens s, reread s with
  | some a, some b => a = b
  | _, _ => false

#guard builtins.all fun b => match render Uni.ascii b.text Props.storeInputs with
  | some s => faithful s
  | none => false

#guard faithful g!"func f(a, b int, c ...string) (x map[string][]int, err error) {\nif a == b && !(c[0] < x.y(1, 2)) {\nreturn nil, (*T)(nil)\n}\nreturn g(a)(b), T{a: 1}\n}\n"
#guard faithful g!"type T struct {\nA, B int\nio.Reader\n}\n"
#guard ! faithful g!"type T struct {\nA, B\n}\n"
#guard ! faithful g!"func f() {\nreturn 1 +\n}\n"
#guard ! faithful g!"func f() {\nif T{} {\n}\n}\n"
#guard ! faithful g!"func f(a b c) {\n}\n"
#guard ! faithful g!"func f() {\nx := \n}\n"
#guard ! faithful g!"x := 1\n"

/-- Operators bind as they should. -/
example : (Go.tokens g!"var x = a + b * c - d\n").bind (Reader.decls 100) =
    some [.var g!"x" (.bin g!"-" (.bin g!"+" (.id g!"a") (.bin g!"*" (.id g!"b") (.id g!"c"))) (.id g!"d"))] := by rfl

end Gowrap.Demo
