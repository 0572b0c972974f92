import Verif.Props.ImportCall
import Verif.Props.TemplateLang
/-!
# C93: helper functions called with any strings

The theorems of Props/Helpers.lean are about the name of the interface.  Here the arguments are any number of strings of the template, written between
quotes or between back quotes.
-/

namespace Gowrap.Props

open Gowrap Spec Tmpl

/-- The template `{{f "a" "b"}}` for strings as they are written. -/
def callTemplate (f : Str) (ws : List Str) : Str := g!"{{" ++ f ++ (ws.flatMap (fun w => ' ' :: w) ++ g!"}}")

/-- The helper functions and the comparisons. -/
inductive Callable : Str → Prop
  | up : Callable g!"up"
  | down : Callable g!"down"
  | upFirst : Callable g!"upFirst"
  | downFirst : Callable g!"downFirst"
  | snake : Callable g!"snake"
  | replace : Callable g!"replace"
  | eq : Callable g!"eq"
  | ne : Callable g!"ne"

/-- What is between the name of the function and the end of the template. -/
def strToks (ss : List Str) : List Tok := ss.flatMap (fun s => [Tok.space, .str s]) ++ [.right]

theorem lex_call {f : Str} (hf : Callable f) {ws ss : List Str} (h : WrittenAll ws ss) :
    lex (callTemplate f ws) = some (.left :: .ident f :: strToks ss) := by
  have e : (g!"{{" ++ f).foldl Lex.step ⟨.text [], []⟩ = ⟨.ident f.reverse, [.left]⟩ := by cases hf <;> decide
  have e2 : ∀ c rest, wordChar c = false →
      (c :: rest).foldl Lex.step ⟨.ident f.reverse, [.left]⟩ = (c :: rest).foldl Lex.step ⟨.action, [.ident f, .left]⟩ := by
    intro c rest hc
    rw [List.foldl_cons, List.foldl_cons]
    have : Lex.step ⟨.ident f.reverse, [.left]⟩ c = Lex.step ⟨.action, [.ident f, .left]⟩ c := by
      simp only [Lex.step]
      rw [if_neg (by rw [hc]; decide), List.reverse_reverse]
    rw [this]
  have e3 : (ws.flatMap (fun w => ' ' :: w) ++ g!"}}").foldl Lex.step ⟨.ident f.reverse, [.left]⟩ =
      (ws.flatMap (fun w => ' ' :: w) ++ g!"}}").foldl Lex.step ⟨.action, [.ident f, .left]⟩ := by
    cases ws with
    | nil => exact e2 _ _ (by decide)
    | cons w ws => exact e2 _ _ (by decide)
  unfold lex callTemplate
  rw [List.foldl_append, e, e3, List.foldl_append, writtenAll_run h]
  have e4 : ∀ toks : List Tok, g!"}}".foldl Lex.step ⟨.action, toks⟩ = ⟨.text [], .right :: toks⟩ := fun _ => rfl
  rw [e4]
  simp [pushText, strToks]

theorem parseCmd_call {f : Str} (hf : Callable f) (ss : List Str) :
    parseCmd (.ident f :: strToks ss) = some (.fn f :: ss.map .str, []) := by
  unfold parseCmd
  have hl : (Tok.ident f :: strToks ss).length = (2 * ss.length + 1) + 1 := by
    have : (ss.flatMap (fun s => [Tok.space, .str s])).length = 2 * ss.length := by
      induction ss with
      | nil => rfl
      | cons s ss ih => simp only [List.flatMap_cons, List.length_append, ih]; simp; omega
    simp [strToks, this]
  rw [hl]
  have he : endsOperand (strToks ss) = true := by cases ss <;> rfl
  have hw : wordArg f = some (.fn f) := by cases hf <;> rfl
  have : parsePipe (2 * ss.length + 1 + 1) none [] (.ident f :: strToks ss) = parsePipe (2 * ss.length + 1) none [.fn f] (strToks ss) := by
    simp only [parsePipe, hw, Option.bind_eq_bind, Option.bind_some, he, if_true]
  rw [this]
  unfold strToks
  rw [parsePipe_strs ss _ _ (by simp) (by omega)]
  simp

theorem parse_call {f : Str} (hf : Callable f) {ws ss : List Str} (h : WrittenAll ws ss) :
    parse (callTemplate f ws) = some [.print (.fn f :: ss.map .str)] := by
  unfold parse
  rw [lex_call hf h]
  have hp : ∀ n, parseNodes (n + 2) (.left :: .ident f :: strToks ss) = some ([.print (.fn f :: ss.map .str)], .eof, []) := by
    intro n
    have hs : skipSpace (.ident f :: strToks ss) = .ident f :: strToks ss := rfl
    have hk : f ≠ g!"end" ∧ f ≠ g!"else" ∧ f ≠ g!"if" ∧ f ≠ g!"with" ∧ f ≠ g!"range" := by cases hf <;> decide
    obtain ⟨k1, k2, k3, k4, k5⟩ := hk
    simp only [parseNodes, hs, if_neg k1, if_neg k2, if_neg k3, if_neg k4, if_neg k5, parseCmd_call hf]
    rfl
  have hsc : ∀ (vars : List Str) (ss : List Str), argsScoped vars (ss.map .str) = true := by
    intro vars ss
    induction ss with
    | nil => rfl
    | cons s ss ih => simpa [argsScoped, Arg.scoped] using ih
  show (parseNodes _ _).bind _ = _
  rw [List.length_cons, hp]
  simp [nodesScoped, Node.scoped, argsScoped, Arg.scoped, hsc]

theorem render_call (u : Uni) (d : Inputs) {f : Str} (hf : Callable f) {ws ss : List Str} (h : WrittenAll ws ss) :
    render u (callTemplate f ws) d = (callFn u f (ss.map .str)).bind TVal.print := by
  unfold render
  rw [parse_call hf h]
  simp only [Option.bind_eq_bind, Option.bind_some, execute, execNodes, execNode, evalCmd, evalArgs_strs]
  cases callFn u f (ss.map .str) with
  | none => rfl
  | some v =>
    simp only [Option.bind_some]
    cases v.print <;> rfl

/-- `r` is `s` with `new` before every character and at the end: what replacing the empty text means. -/
inductive Around (new : Str) : Str → Str → Prop
  | nil : Around new [] new
  | cons {c : Char} {s r : Str} : Around new s r → Around new (c :: s) (new ++ c :: r)

theorem around_replaceAll (new : Str) : ∀ s : Str, Around new s (replaceAll s [] new)
  | [] => by
    have : replaceAll [] [] new = new := by simp [Tmpl.replaceAll]
    rw [this]
    exact .nil
  | c :: s => by
    have e : replaceAll (c :: s) [] new = new ++ c :: replaceAll s [] new := by simp [Tmpl.replaceAll]
    rw [e]
    exact .cons (around_replaceAll new s)

theorem around_unique {new s r r' : Str} (h : Around new s r) (h' : Around new s r') : r = r' := by
  induction h generalizing r' with
  | nil => cases h'; rfl
  | cons _ ih =>
    cases h' with
    | cons h' => rw [ih h']

/-- C93: `replace` prints a text exactly if it is called with three strings, and then it prints the first one with all occurrences of the second one
replaced by the third one; the empty text is found before every character and at the end. -/
theorem C93_replace_exact (u : Uni) (d : Inputs) {ws ss : List Str} (h : WrittenAll ws ss) (t : Str) :
    render u (callTemplate g!"replace" ws) d = some t ↔
      ∃ s old new, ss = [s, old, new] ∧ ((old ≠ [] ∧ Replaced old new s t) ∨ (old = [] ∧ Around new s t)) := by
  rw [render_call u d .replace h]
  have e : callFn u g!"replace" (ss.map .str) = match strings (ss.map .str) with
    | some [s, old, new] => some (.str (replaceAll s old new))
    | _ => none := rfl
  rw [e, strings_map]
  constructor
  · intro hr
    match ss with
    | [s, old, new] =>
      have hr : replaceAll s old new = t := Option.some.inj hr
      refine ⟨s, old, new, rfl, ?_⟩
      by_cases ho : old = []
      · subst ho
        exact .inr ⟨rfl, hr ▸ around_replaceAll new s⟩
      · exact .inl ⟨ho, hr ▸ replaceAll_replaced new ho⟩
    | [] => cases hr
    | [_] => cases hr
    | [_, _] => cases hr
    | _ :: _ :: _ :: _ :: _ => cases hr
  · rintro ⟨s, old, new, rfl, ⟨ho, hr⟩ | ⟨rfl, hr⟩⟩
    · show some (replaceAll s old new) = some t
      rw [replaced_unique (replaceAll_replaced new ho) hr]
    · show some (replaceAll s [] new) = some t
      rw [around_unique (around_replaceAll new s) hr]

/-- C93: a helper of one argument prints a text exactly if it is called with one string. -/
theorem C93_helper_exact (u : Uni) (d : Inputs) {f : Str} {φ : Str → Str} (hf : Helper u f φ) {ws ss : List Str} (h : WrittenAll ws ss) (t : Str) :
    render u (callTemplate f ws) d = some t ↔ ∃ s, ss = [s] ∧ t = φ s := by
  have hc : Callable f := by
    cases hf <;> first | exact .up | exact .down | exact .upFirst | exact .downFirst | exact .snake
  rw [render_call u d hc h]
  have e : callFn u f (ss.map .str) = match ss with
    | [s] => some (.str (φ s))
    | _ => none := by
    match ss with
    | [s] => cases hf <;> (try simp only [← onFirst_eq]) <;> rfl
    | [] => cases hf <;> rfl
    | _ :: _ :: _ => cases hf <;> rfl
  rw [e]
  match ss with
  | [s] =>
    constructor
    · intro hr
      exact ⟨s, rfl, (Option.some.inj hr).symm⟩
    · rintro ⟨_, hs, rfl⟩
      cases hs
      rfl
  | [] => exact ⟨fun hr => (by cases hr), fun ⟨_, hs, _⟩ => (by cases hs)⟩
  | _ :: _ :: _ => exact ⟨fun hr => (by cases hr), fun ⟨_, hs, _⟩ => (by cases hs)⟩

/-- C93: `eq` and `ne` of two strings. -/
theorem C93_compare (u : Uni) (d : Inputs) {v w a b : Str} (hv : Written v a) (hw : Written w b) :
    (a = b → render u (callTemplate g!"eq" [v, w]) d = some g!"true" ∧ render u (callTemplate g!"ne" [v, w]) d = some g!"false") ∧
    (a ≠ b → render u (callTemplate g!"eq" [v, w]) d = some g!"false" ∧ render u (callTemplate g!"ne" [v, w]) d = some g!"true") := by
  have h : WrittenAll [v, w] [a, b] := .cons hv (.cons hw .nil)
  rw [render_call u d .eq h, render_call u d .ne h]
  have e1 : callFn u g!"eq" ([a, b].map .str) = some (.bool (decide (a = b))) := rfl
  have e2 : callFn u g!"ne" ([a, b].map .str) = some (.bool !(decide (a = b))) := rfl
  rw [e1, e2]
  constructor
  · intro hab
    rw [decide_eq_true hab]
    exact ⟨rfl, rfl⟩
  · intro hab
    rw [decide_eq_false hab]
    exact ⟨rfl, rfl⟩

/-- C93: a string cannot take the value of a pipeline; such a template is not even parsed. -/
theorem C93_constant {s : Str} (hs : PlainText s) : parse (g!"{{.Interface.Name | \"" ++ (s ++ g!"\"}}")) = none := by
  have hl : lex (g!"{{.Interface.Name | \"" ++ (s ++ g!"\"}}")) =
      some [.left, .field g!"Interface", .field g!"Name", .space, .pipe, .space, .str s, .right] := by
    unfold lex
    rw [List.foldl_append, List.foldl_append]
    have e : g!"{{.Interface.Name | \"".foldl Lex.step ⟨.text [], []⟩ =
      ⟨.str [], [.space, .pipe, .space, .field g!"Name", .field g!"Interface", .left]⟩ := by decide
    rw [e, str_run _ s [] hs]
    generalize hm : s.reverse ++ [] = o
    have hn' : o.reverse = s := by rw [← hm]; simp
    subst hn'
    rfl
  unfold parse
  rw [hl]
  rfl

/-- C93: `printf "%s"` of a variable: its value, or what fmt prints for nil and for a flag without a value. -/
theorem C93_printf (u : Uni) (d : Inputs) {x : Str} (hx : Flat.Word x) :
    render u (g!"{{printf \"%s\" .Vars." ++ (x ++ g!"}}")) d = some (match d.vars x with
      | none => g!"%!s(<nil>)"
      | some (.text s) => s
      | some .flag => g!"%!s(bool=true)") := by
  have hl : lex (g!"{{printf \"%s\" .Vars." ++ (x ++ g!"}}")) =
      some [.left, .ident g!"printf", .space, .str g!"%s", .space, .field g!"Vars", .field x, .right] := by
    have e : g!"{{printf \"%s\" .Vars.".foldl Lex.step ⟨.text [], []⟩ =
      ⟨.field [], [.field g!"Vars", .space, .str g!"%s", .space, .ident g!"printf", .left]⟩ := by decide
    have := field_end x.reverse (by simpa using hx.1) [.field g!"Vars", .space, .str g!"%s", .space, .ident g!"printf", .left] false
    simp only [Bool.false_eq_true, if_false, List.nil_append] at this
    unfold lex
    rw [List.foldl_append, e, List.foldl_append, field_run _ x [] hx.2.1 (fun _ => hx.2.2), List.append_nil, this]
    simp [afterItem, pushText]
  have hp : parse (g!"{{printf \"%s\" .Vars." ++ (x ++ g!"}}")) = some [.print [.fn g!"printf", .str g!"%s", .dot [g!"Vars", x]]] := by
    unfold parse
    rw [hl]
    rfl
  have hc : d.value.chain [g!"Vars", x] [] = some (ofVar (d.vars x)) := rfl
  have hf : callFn u g!"printf" [.str g!"%s", ofVar (d.vars x)] = (sprintf g!"%s" [ofVar (d.vars x)]).map .str := rfl
  unfold render
  rw [hp]
  simp only [Option.bind_eq_bind, Option.bind_some, execute, execNodes, execNode, evalCmd, evalArgs, evalArg, hc, Option.pure_def, hf]
  match d.vars x with
  | none => rfl
  | some .flag => rfl
  | some (.text s) =>
    show some ([] ++ (s ++ [])) = some s
    rw [List.append_nil, List.nil_append]

theorem ident_run (toks : List Tok) : ∀ (f acc : Str), (∀ c ∈ f, c.isAlphanum = true ∨ c = '_') →
    f.foldl Lex.step ⟨.ident acc, toks⟩ = ⟨.ident (f.reverse ++ acc), toks⟩
  | [], _, _ => rfl
  | c :: f, acc, h => by
    have hw : wordChar c = true := by simpa [wordChar] using h c (by simp)
    have e : Lex.step ⟨.ident acc, toks⟩ c = ⟨.ident (c :: acc), toks⟩ := by simp only [Lex.step]; rw [if_pos hw]
    rw [List.foldl_cons, e, ident_run toks f _ (fun d hd => h d (by simp [hd]))]
    simp

/-- The words that begin something else than a call, the constants and the functions that are modelled. -/
def modelled : List Str :=
  [g!"end", g!"else", g!"if", g!"with", g!"range", g!"true", g!"false", g!"or", g!"and", g!"not", g!"eq", g!"ne", g!"printf", g!"up", g!"down",
    g!"upFirst", g!"downFirst", g!"replace", g!"snake"]

/-- C93: a template that calls any other function is not accepted: either Go does not know the function either, or it is one of those that are not
modelled, and then nothing is claimed about the template. -/
theorem C93_other_function (u : Uni) (d : Inputs) {f : Str} (hf : Flat.Word f) (hm : f ∉ modelled) : render u (g!"{{" ++ (f ++ g!"}}")) d = none := by
  obtain ⟨h0, h1, _⟩ := hf
  simp only [modelled, List.mem_cons, List.not_mem_nil, or_false, not_or] at hm
  obtain ⟨m1, m2, m3, m4, m5, m6, m7, m8, m9, m10, m11, m12, m13, m14, m15, m16, m17, m18, m19⟩ := hm
  have hl : lex (g!"{{" ++ (f ++ g!"}}")) = some [.left, .ident f, .right] := by
    cases f with
    | nil => exact absurd rfl h0
    | cons c f =>
      have hc := h1 c (by simp)
      have hw : wordChar c = true := by simpa [wordChar] using hc
      have hn : ∀ x : Char, wordChar x = false → c ≠ x := by
        intro x hx h
        rw [h, hx] at hw
        cases hw
      have hs : space c = false := by
        have k1 := hn ' ' (by decide); have k2 := hn '\t' (by decide); have k3 := hn '\r' (by decide); have k4 := hn '\n' (by decide)
        simp [space, k1, k2, k3, k4]
      have e : Lex.step ⟨.opened [], []⟩ c = ⟨.ident [c], [.left]⟩ := by
        simp only [Lex.step]
        rw [if_neg (hn _ (by decide)), if_neg (hn _ (by decide))]
        unfold Lex.start
        rw [if_neg (by rw [hs]; decide), if_neg (hn _ (by decide)), if_neg (hn _ (by decide)), if_neg (hn _ (by decide)), if_neg (hn _ (by decide)),
          if_neg (hn _ (by decide)), if_neg (hn _ (by decide)), if_neg (hn _ (by decide)), if_neg (hn _ (by decide)), if_neg (hn _ (by decide)),
          if_neg (hn _ (by decide)), if_pos hw]
        rfl
      have e0 : g!"{{".foldl Lex.step ⟨.text [], []⟩ = ⟨.opened [], []⟩ := rfl
      have e1 : ∀ acc : Str, g!"}}".foldl Lex.step ⟨.ident acc, [.left]⟩ = ⟨.text [], [.right, .ident acc.reverse, .left]⟩ := fun _ => rfl
      unfold lex
      rw [List.foldl_append, e0, List.cons_append, List.foldl_cons, e, List.foldl_append, ident_run _ f _ (fun d hd => h1 d (by simp [hd])), e1]
      simp [pushText]
  have hw : wordArg f = none := by
    unfold wordArg knownFn
    simp [m6, m7, m8, m9, m10, m11, m12, m13, m14, m15, m16, m17, m18, m19]
  have hc : parseCmd [.ident f, .right] = none := by
    unfold parseCmd
    simp [parsePipe, hw]
  have hp : parseNodes ([Tok.left, .ident f, .right].length + 1) [.left, .ident f, .right] = none := by
    have hs : skipSpace [.ident f, .right] = [.ident f, .right] := rfl
    simp only [List.length_cons, parseNodes, hs, if_neg m1, if_neg m2, if_neg m3, if_neg m4, if_neg m5, hc]
    rfl
  unfold render parse
  rw [hl]
  show ((parseNodes ([Tok.left, .ident f, .right].length + 1) [.left, .ident f, .right]).bind _).bind _ = none
  rw [hp]
  rfl

/-! ## Examples -/

namespace Demo93

/-- `{{replace "ab" "" "-"}}` -/
def dashes : List Str := [g!"\"ab\"", g!"``", g!"\"-\""]

theorem dashes_written : WrittenAll dashes [g!"ab", [], g!"-"] :=
  .cons (.quoted (w := g!"ab") (quoted_plain (by unfold PlainText; decide))) (.cons (.raw (w := []) (by decide) rfl)
    (.cons (.quoted (w := g!"-") (quoted_plain (by unfold PlainText; decide))) .nil))

example (u : Uni) (d : Inputs) : render u (callTemplate g!"replace" dashes) d = some g!"-a-b-" :=
  (C93_replace_exact u d dashes_written _).2 ⟨_, _, _, rfl, .inr ⟨rfl, .cons (.cons .nil)⟩⟩

/-- Two strings are not enough. -/
example (u : Uni) (d : Inputs) (t : Str) : render u (callTemplate g!"replace" [g!"``", g!"``"]) d ≠ some t := by
  intro h
  obtain ⟨_, _, _, h, _⟩ := (C93_replace_exact u d (.cons (.raw (w := []) (by decide) rfl) (.cons (.raw (w := []) (by decide) rfl) .nil)) t).1 h
  cases h

example (d : Inputs) : render Uni.ascii (callTemplate g!"upFirst" [g!"`ab`"]) d = some g!"Ab" :=
  (C93_helper_exact Uni.ascii d .upFirst (.cons (.raw (w := g!"ab") (s := g!"ab") (by decide) (by decide)) .nil) _).2 ⟨_, rfl, by decide⟩

example (u : Uni) (d : Inputs) : render u (callTemplate g!"ne" [g!"`a`", g!"`b`"]) d = some g!"true" :=
  ((C93_compare u d (.raw (w := g!"a") (s := g!"a") (by decide) (by decide)) (.raw (w := g!"b") (s := g!"b") (by decide) (by decide))).2 (by decide)).2

example : parse g!"{{.Interface.Name | \"a\"}}" = none := C93_constant (s := g!"a") (by unfold PlainText; decide)

example (u : Uni) (d : Inputs) : render u g!"{{title}}" d = none := C93_other_function u d (f := g!"title") ⟨by decide, by decide, by simp⟩ (by decide)

example (u : Uni) : render u g!"{{printf \"%s\" .Vars.mode}}" reader = some g!"%!s(<nil>)" :=
  C93_printf u reader (x := g!"mode") ⟨by decide, by decide, by simp⟩

end Demo93

end Gowrap.Props
