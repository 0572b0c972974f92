import Verif.Props.Helpers
import Verif.Props.ExactInputs
/-!
# C94: `.Import` in a template

A template calls the method `Import` of its data (generator/generator.go:48-84) with the imports it needs itself, as
strings between quotes or back quotes.
-/

namespace Gowrap.Props

open Gowrap Tmpl

/-- What stands between quotes, and what it stands for: characters for themselves, and some after a backslash. -/
inductive Quoted : Str → Str → Prop
  | nil : Quoted [] []
  | plain {c : Char} {w s : Str} : c ≠ '"' → c ≠ '\\' → c ≠ '\n' → Quoted w s → Quoted (c :: w) (c :: s)
  | quote {w s : Str} : Quoted w s → Quoted ('\\' :: '"' :: w) ('"' :: s)
  | backslash {w s : Str} : Quoted w s → Quoted ('\\' :: '\\' :: w) ('\\' :: s)
  | newline {w s : Str} : Quoted w s → Quoted ('\\' :: 'n' :: w) ('\n' :: s)
  | tab {w s : Str} : Quoted w s → Quoted ('\\' :: 't' :: w) ('\t' :: s)
  | ret {w s : Str} : Quoted w s → Quoted ('\\' :: 'r' :: w) ('\r' :: s)

theorem quoted_plain : ∀ {s : Str}, PlainText s → Quoted s s
  | [], _ => .nil
  | c :: s, h => by
    simp only [PlainText, List.mem_cons, not_or] at h
    exact .plain (Ne.symm h.1.1) (Ne.symm h.2.1.1) (Ne.symm h.2.2.1) (quoted_plain ⟨h.1.2, h.2.1.2, h.2.2.2⟩)

/-- A string of a template, as it is written and what it stands for.  "Carriage return characters ('\r') inside raw string literals are discarded
from the raw string value" (Go specification, "String literals"). -/
inductive Written : Str → Str → Prop
  | quoted {w s : Str} : Quoted w s → Written ('"' :: (w ++ g!"\"")) s
  | raw {w s : Str} : '`' ∉ w → s = w.filter (fun c => c ≠ '\r') → Written ('`' :: (w ++ g!"`")) s

/-- The template `{{.Import "a" "b"}}` for strings as they are written. -/
def importTemplate (ws : List Str) : Str := g!"{{.Import" ++ (ws.flatMap (fun w => ' ' :: w) ++ g!"}}")

/-- The texts stand for the imports. -/
inductive WrittenAll : List Str → List Str → Prop
  | nil : WrittenAll [] []
  | cons {w s : Str} {ws ss : List Str} : Written w s → WrittenAll ws ss → WrittenAll (w :: ws) (s :: ss)

theorem raw_run (toks : List Tok) : ∀ (s acc : Str), '`' ∉ s →
    s.foldl Lex.step ⟨.raw acc, toks⟩ = ⟨.raw ((s.filter (fun c => c ≠ '\r')).reverse ++ acc), toks⟩
  | [], _, _ => rfl
  | c :: s, acc, h => by
    simp only [List.mem_cons, not_or] at h
    by_cases hc : c = '\r'
    · have e : Lex.step ⟨.raw acc, toks⟩ c = ⟨.raw acc, toks⟩ := by
        simp only [Lex.step]
        rw [if_neg (Ne.symm h.1), if_pos hc]
      rw [List.foldl_cons, e, raw_run toks s acc h.2]
      simp [hc]
    · have e : Lex.step ⟨.raw acc, toks⟩ c = ⟨.raw (c :: acc), toks⟩ := by
        simp only [Lex.step]
        rw [if_neg (Ne.symm h.1), if_neg hc]
      rw [List.foldl_cons, e, raw_run toks s (c :: acc) h.2]
      simp [hc]

theorem quoted_run (toks : List Tok) {w s : Str} (h : Quoted w s) : ∀ acc : Str,
    w.foldl Lex.step ⟨.str acc, toks⟩ = ⟨.str (s.reverse ++ acc), toks⟩ := by
  induction h with
  | nil => intro acc; rfl
  | plain h1 h2 h3 _ ih =>
    intro acc
    rename_i c w s _
    have e : Lex.step ⟨.str acc, toks⟩ c = ⟨.str (c :: acc), toks⟩ := by
      simp only [Lex.step]
      rw [if_neg h1, if_neg h2, if_neg h3]
    rw [List.foldl_cons, e, ih]
    simp
  | quote _ ih | backslash _ ih | newline _ ih | tab _ ih | ret _ ih =>
    intro acc
    simp only [List.foldl_cons]
    refine (ih (_ :: acc)).trans ?_
    simp

theorem written_run {w s : Str} (h : Written w s) (toks : List Tok) :
    w.foldl Lex.step ⟨.spaces, toks⟩ = ⟨.action, .str s :: .space :: toks⟩ := by
  cases h with
  | quoted h =>
    rw [List.foldl_cons, List.foldl_append]
    have e : Lex.step ⟨.spaces, toks⟩ '"' = ⟨.str [], .space :: toks⟩ := rfl
    rw [e, quoted_run _ h]
    have e' : g!"\"".foldl Lex.step ⟨.str (s.reverse ++ []), .space :: toks⟩ =
      ⟨.action, .str (s.reverse ++ []).reverse :: .space :: toks⟩ := rfl
    rw [e']
    simp
  | @raw w _ h hs =>
    subst hs
    rw [List.foldl_cons, List.foldl_append]
    have e : Lex.step ⟨.spaces, toks⟩ '`' = ⟨.raw [], .space :: toks⟩ := rfl
    rw [e, raw_run _ w [] h]
    have e' : ∀ s : Str, g!"`".foldl Lex.step ⟨.raw s, .space :: toks⟩ = ⟨.action, .str s.reverse :: .space :: toks⟩ := fun _ => rfl
    rw [e']
    simp

theorem writtenAll_run {ws ss : List Str} (h : WrittenAll ws ss) : ∀ toks : List Tok,
    (ws.flatMap (fun w => ' ' :: w)).foldl Lex.step ⟨.action, toks⟩ =
      ⟨.action, (ss.flatMap fun s => [Tok.space, .str s]).reverse ++ toks⟩ := by
  induction h with
  | nil => intro toks; rfl
  | @cons w s ws ss hw hs ih =>
    intro toks
    rw [List.flatMap_cons, List.cons_append, List.foldl_cons, List.foldl_append]
    have e : Lex.step ⟨.action, toks⟩ ' ' = ⟨.spaces, toks⟩ := rfl
    rw [e, written_run hw, ih]
    simp

theorem lex_import {ws ss : List Str} (h : WrittenAll ws ss) :
    lex (importTemplate ws) = some ([.left, .field g!"Import"] ++ (ss.flatMap (fun s => [Tok.space, .str s]) ++ [.right])) := by
  have key : (importTemplate ws).foldl Lex.step ⟨.text [], []⟩ =
      ⟨.text [], .right :: ((ss.flatMap fun s => [Tok.space, .str s]).reverse ++ [.field g!"Import", .left])⟩ := by
    unfold importTemplate
    rw [List.foldl_append]
    have e : g!"{{.Import".foldl Lex.step ⟨.text [], []⟩ = ⟨.field g!"Import".reverse, [.left]⟩ := by decide
    rw [e]
    have e2 : ∀ rest : Str, (∀ c ∈ rest.head?, wordChar c = false) → rest ≠ [] →
        rest.foldl Lex.step ⟨.field g!"Import".reverse, [.left]⟩ = rest.foldl Lex.step ⟨.action, [.field g!"Import", .left]⟩ := by
      intro rest hr hne
      cases rest with
      | nil => exact absurd rfl hne
      | cons c rest =>
        have hc := hr c (by simp)
        rw [List.foldl_cons, List.foldl_cons]
        have : Lex.step ⟨.field g!"Import".reverse, [.left]⟩ c = Lex.step ⟨.action, [.field g!"Import", .left]⟩ c := by
          simp only [Lex.step]
          rw [if_neg (fun h => absurd (Bool.and_eq_true_iff.1 h).1 (by decide)), if_neg (by rw [hc]; decide)]
          rfl
        rw [this]
    rw [e2]
    · rw [List.foldl_append, writtenAll_run h]
      rfl
    · cases h with
      | nil => intro c hc; simp at hc; subst hc; decide
      | cons _ _ => intro c hc; simp at hc; subst hc; decide
    · simp
  unfold lex
  rw [key]
  simp [pushText]

theorem parsePipe_strs : ∀ (ss : List Str) (n : Nat) (acc : List Arg), acc ≠ [] → 2 * ss.length < n →
    parsePipe n none acc (ss.flatMap (fun s => [Tok.space, .str s]) ++ [.right]) =
      some (acc.reverse ++ ss.map .str, [.right])
  | [], n, acc, ha, h => by
    obtain ⟨n, rfl⟩ : ∃ k, n = k + 1 := ⟨n - 1, by simp at h; omega⟩
    show (endCmd none acc).map (fun cmd => (cmd, [Tok.right])) = _
    unfold endCmd
    have : acc.reverse ≠ [] := by simpa using ha
    cases hr : acc.reverse with
    | nil => exact absurd hr this
    | cons a as => simp
  | s :: ss, n, acc, ha, h => by
    simp only [List.length_cons] at h
    obtain ⟨n, rfl⟩ : ∃ k, n = k + 2 := ⟨n - 2, by omega⟩
    have he : endsOperand (ss.flatMap (fun s => [Tok.space, .str s]) ++ [.right]) = true := by cases ss <;> rfl
    show (if endsOperand (ss.flatMap (fun s => [Tok.space, .str s]) ++ [.right]) then
      parsePipe n none (.str s :: acc) (ss.flatMap (fun s => [Tok.space, .str s]) ++ [.right]) else none) = _
    rw [if_pos he, parsePipe_strs ss n (.str s :: acc) (by simp) (by omega)]
    simp

theorem parseCmd_import (ss : List Str) :
    parseCmd (.field g!"Import" :: (ss.flatMap (fun s => [Tok.space, .str s]) ++ [.right])) =
      some (.dot [g!"Import"] :: ss.map .str, []) := by
  unfold parseCmd
  have hl : (Tok.field g!"Import" :: (ss.flatMap (fun s => [Tok.space, .str s]) ++ [Tok.right])).length =
      (2 * ss.length + 1) + 1 := by
    have : (ss.flatMap (fun s => [Tok.space, .str s])).length = 2 * ss.length := by
      induction ss with
      | nil => rfl
      | cons s ss ih => simp only [List.flatMap_cons, List.length_append, ih]; simp; omega
    simp [this]
  rw [hl]
  have hf : parseFields (ss.flatMap (fun s => [Tok.space, .str s]) ++ [.right]) =
      ([], ss.flatMap (fun s => [Tok.space, .str s]) ++ [.right]) := by cases ss <;> rfl
  have he : endsOperand (ss.flatMap (fun s => [Tok.space, .str s]) ++ [.right]) = true := by cases ss <;> rfl
  have : parsePipe (2 * ss.length + 1 + 1) none [] (.field g!"Import" :: (ss.flatMap (fun s => [Tok.space, .str s]) ++ [.right])) =
      parsePipe (2 * ss.length + 1) none [.dot [g!"Import"]] (ss.flatMap (fun s => [Tok.space, .str s]) ++ [.right]) := by
    simp only [parsePipe, hf, he, if_true]
  rw [this, parsePipe_strs ss _ _ (by simp) (by omega)]
  simp

theorem parse_import {ws ss : List Str} (h : WrittenAll ws ss) :
    parse (importTemplate ws) = some [.print (.dot [g!"Import"] :: ss.map .str)] := by
  unfold parse
  rw [lex_import h]
  have hp : ∀ n, parseNodes (n + 2) ([.left, .field g!"Import"] ++ (ss.flatMap (fun s => [Tok.space, .str s]) ++ [.right])) =
      some ([.print (.dot [g!"Import"] :: ss.map .str)], .eof, []) := by
    intro n
    have hs : skipSpace (.field g!"Import" :: (ss.flatMap (fun s => [Tok.space, .str s]) ++ [.right])) =
      .field g!"Import" :: (ss.flatMap (fun s => [Tok.space, .str s]) ++ [.right]) := rfl
    simp only [List.cons_append, List.nil_append, parseNodes, hs, parseCmd_import]
    rfl
  have hl : ∃ n, ([Tok.left, Tok.field g!"Import"] ++ (ss.flatMap (fun s => [Tok.space, Tok.str s]) ++ [Tok.right])).length + 1 =
      n + 2 := ⟨(ss.flatMap (fun s => [Tok.space, Tok.str s]) ++ [Tok.right]).length + 1, by simp⟩
  obtain ⟨n, hl⟩ := hl
  have hsc : ∀ (vars : List Str) (ss : List Str), argsScoped vars (ss.map .str) = true := by
    intro vars ss
    induction ss with
    | nil => rfl
    | cons s ss ih => simpa [argsScoped, Arg.scoped] using ih
  show (parseNodes _ _).bind _ = _
  rw [hl, hp]
  simp [nodesScoped, Node.scoped, argsScoped, Arg.scoped, hsc]

theorem strings_map (ss : List Str) : strings (ss.map .str) = some ss := by
  induction ss with
  | nil => rfl
  | cons s ss ih => simp [strings, ih]

theorem evalArgs_strs (u : Uni) (sc : Scope) (ss : List Str) : evalArgs u sc (ss.map .str) = some (ss.map .str) := by
  induction ss with
  | nil => simp [evalArgs]
  | cons s ss ih => simp [evalArgs, evalArg, ih]

theorem render_import (u : Uni) (d : Inputs) {ws ss : List Str} (h : WrittenAll ws ss) :
    render u (importTemplate ws) d = match importBlock id d.imports ss with
      | .ok s => some s
      | _ => none := by
  unfold render
  rw [parse_import h]
  have ha : d.value.chain [g!"Import"] (ss.map .str) = match importBlock id d.imports ss with
      | .ok s => some (.str s)
      | _ => none := by
    have e : d.value.chain [g!"Import"] (ss.map .str) = d.value.access g!"Import" (ss.map .str) := by
      simp [TVal.chain]
    rw [e]
    unfold Inputs.value TVal.access
    dsimp only
    rw [if_pos rfl]
    unfold importCall
    have hk : List.lookup g!"Imports" [(g!"Interface", TVal.struct [
        (g!"Name", .str d.name), (g!"Type", .str d.type),
        (g!"Generics", .struct [(g!"Types", .str d.genericTypes), (g!"Params", .str d.genericParams)]),
        (g!"Methods", .map (d.methods.map fun e => (e.1, .method e.2)))]),
        (g!"Vars", .vars d.vars), (g!"Imports", .list (d.imports.map .str))] = some (TVal.list (d.imports.map .str)) := rfl
    rw [hk]
    simp only [strings_map]
    rfl
  simp [execute, execNodes, execNode, evalCmd, evalArgs_strs, ha]
  cases importBlock id d.imports ss <;> rfl

theorem addTemplateImports_ends (imports : List Str) : ∀ set,
    (∀ e, addTemplateImports set imports ≠ .err e) ∧ addTemplateImports set imports ≠ .diverge := by
  induction imports with
  | nil => intro set; simp [addTemplateImports]
  | cons i rest ih =>
    intro set
    unfold addTemplateImports
    split
    · exact ih set
    · have hq : quoteImport i = .panic ∨ ∃ q, quoteImport i = .ok q := by
        unfold quoteImport
        dsimp only
        split
        · exact .inl rfl
        · split
          · exact .inl rfl
          · exact .inr ⟨_, rfl⟩
      rcases hq with hq | ⟨q, hq⟩
      · rw [hq]; exact ⟨fun e h => (by cases h), fun h => (by cases h)⟩
      · rw [hq]; exact ih _

theorem importBlock_ends (order : List Str → List Str) (source imports : List Str) :
    (∀ e, importBlock order source imports ≠ .err e) ∧ importBlock order source imports ≠ .diverge := by
  have h := addTemplateImports_ends imports (source.foldl (fun set i => insertKey (trimSpace i) set) [])
  unfold importBlock allImports
  revert h
  cases addTemplateImports (source.foldl (fun set i => insertKey (trimSpace i) set) []) imports <;>
    simp [Bind.bind, Res.bind, Pure.pure]

/-- **C94** Whatever strings a template passes to `.Import`, written between quotes or between back quotes: either the
template prints a block that lists, each once and in increasing order, exactly the imports of the source and those of the
template, or one of the strings is not empty but blank, and then the execution of the template fails. -/
theorem C94_import (u : Uni) (d : Inputs) {ws imports : List Str} (h : WrittenAll ws imports) :
    (∃ lines : List Str, render u (importTemplate ws) d = some (block lines) ∧ lines.Pairwise (· < ·) ∧
      (∀ i ∈ d.imports, ∀ t, Trims i t → t ∈ lines) ∧
      (∀ i ∈ imports, i ≠ [] → ∀ t, Trims i t → ∃ q ∈ lines, Quotes t q) ∧
      (∀ l ∈ lines, (∃ i ∈ d.imports, Trims i l) ∨ ∃ i ∈ imports, i ≠ [] ∧ ∃ t, Trims i t ∧ Quotes t l)) ∨
    (render u (importTemplate ws) d = none ∧ ∃ i ∈ imports, i ≠ [] ∧ ∀ c ∈ i, c ∈ blanks) := by
  rw [render_import u d h]
  cases hb : importBlock id d.imports imports with
  | ok s =>
    obtain ⟨lines, rfl, h2⟩ := C29_block id (fun _ => List.Perm.refl _) _ _ _ hb
    exact .inl ⟨lines, rfl, h2⟩
  | panic => exact .inr ⟨rfl, (C30_panics_exact id _ _).1 hb⟩
  | err e => exact absurd hb ((importBlock_ends _ _ _).1 e)
  | diverge => exact absurd hb (importBlock_ends _ _ _).2

/-- C94. The execution fails exactly if one of the strings is not empty but blank. -/
theorem C94_fails_exact (u : Uni) (d : Inputs) {ws imports : List Str} (h : WrittenAll ws imports) :
    render u (importTemplate ws) d = none ↔ ∃ i ∈ imports, i ≠ [] ∧ ∀ c ∈ i, c ∈ blanks := by
  rw [render_import u d h, ← C30_panics_exact id d.imports imports]
  cases hb : importBlock id d.imports imports with
  | ok s => simp
  | panic => simp
  | err e => exact absurd hb ((importBlock_ends _ _ _).1 e)
  | diverge => exact absurd hb (importBlock_ends _ _ _).2

namespace Demo94

/-- Data with one import of the source. -/
def data : Inputs := { Demo93.reader with imports := [g!"\"io\""] }

/-- The template of a decorator that needs two packages itself. -/
def written : List Str := [g!"`context`", g!"\"time\""]

example : importTemplate written = g!"{{.Import `context` \"time\"}}" := by decide +kernel

example : WrittenAll written [g!"context", g!"time"] :=
  .cons (.raw (w := g!"context") (by decide) (by decide)) (.cons (.quoted (w := g!"time") (quoted_plain (by unfold PlainText; decide))) .nil)

example (u : Uni) : render u (importTemplate written) data =
    some g!"import (\n\"context\"\n\"io\"\n\"time\")\n" := by
  have h : WrittenAll written [g!"context", g!"time"] :=
    .cons (.raw (w := g!"context") (by decide) (by decide)) (.cons (.quoted (w := g!"time") (quoted_plain (by unfold PlainText; decide))) .nil)
  rw [render_import u data h]
  decide +kernel

example (u : Uni) : render u (importTemplate [g!"` `"]) data = none :=
  (C94_fails_exact u data (.cons (.raw (w := g!" ") (s := g!" ") (by decide) (by decide)) .nil)).2 ⟨g!" ", by decide, by decide, by decide⟩

/-- A template with the line ends of Windows in a string. -/
example : WrittenAll [g!"`a\r\nb`"] [g!"a\nb"] := .cons (.raw (w := g!"a\r\nb") (by decide) (by decide)) .nil

end Demo94

end Gowrap.Props
