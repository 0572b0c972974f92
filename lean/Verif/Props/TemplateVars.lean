import Verif.Spec.TemplateVars
import Verif.Props.NestedLang
/-!
# C101: variables of templates
-/

namespace Gowrap.Props

open Gowrap Spec Tmpl Scoped

/-! ## Items -/

def progToks : Prog → List Tok
  | .done => []
  | .set x v rest => .left :: .var x :: .space :: .declare :: .space :: .str v :: .right :: progToks rest
  | .use x rest => .left :: .var x :: .right :: progToks rest
  | .block body rest => .left :: .ident g!"if" :: .space :: .ident g!"true" :: .right :: (progToks body ++ (endToks ++ progToks rest))

theorem var_run (toks : List Tok) : ∀ (x acc : Str), (∀ c ∈ x, c.isAlphanum = true ∨ c = '_') →
    x.foldl Lex.step ⟨.var acc, toks⟩ = ⟨.var (x.reverse ++ acc), toks⟩
  | [], _, _ => rfl
  | c :: x, acc, h => by
    have hw : wordChar c = true := by simpa [wordChar] using h c (by simp)
    have e : Lex.step ⟨.var acc, toks⟩ c = ⟨.var (c :: acc), toks⟩ := by simp only [Lex.step]; rw [if_pos hw]
    rw [List.foldl_cons, e, var_run toks x _ (fun d hd => h d (by simp [hd]))]
    simp

theorem prog_run : ∀ (p : Prog), p.Ok → ∀ toks : List Tok, p.source.foldl Lex.step ⟨.text [], toks⟩ = ⟨.text [], (progToks p).reverse ++ toks⟩
  | .done, _, _ => rfl
  | .set x v rest, h, toks => by
    obtain ⟨hx, hv, hr⟩ := h
    have e1 : g!"{{$".foldl Lex.step ⟨.text [], toks⟩ = ⟨.var [], .left :: toks⟩ := rfl
    have e2 : ∀ acc toks, g!" := \"".foldl Lex.step ⟨.var acc, toks⟩ = ⟨.str [], .space :: .declare :: .space :: .var acc.reverse :: toks⟩ := fun _ _ => rfl
    have e3 : ∀ acc toks, g!"\"}}".foldl Lex.step ⟨.str acc, toks⟩ = ⟨.text [], .right :: .str acc.reverse :: toks⟩ := fun _ _ => rfl
    unfold Prog.source progToks
    rw [List.foldl_append, e1, List.foldl_append, var_run _ x [] hx.2.1, List.foldl_append, e2, List.foldl_append, str_run _ v [] hv,
      List.foldl_append, e3, prog_run rest hr]
    simp
  | .use x rest, h, toks => by
    obtain ⟨hx, hr⟩ := h
    have e1 : g!"{{$".foldl Lex.step ⟨.text [], toks⟩ = ⟨.var [], .left :: toks⟩ := rfl
    have e2 : ∀ acc toks, g!"}}".foldl Lex.step ⟨.var acc, toks⟩ = ⟨.text [], .right :: .var acc.reverse :: toks⟩ := fun _ _ => rfl
    unfold Prog.source progToks
    rw [List.foldl_append, e1, List.foldl_append, var_run _ x [] hx.2.1, List.foldl_append, e2, prog_run rest hr]
    simp
  | .block body rest, h, toks => by
    have e1 : g!"{{if true}}".foldl Lex.step ⟨.text [], toks⟩ = ⟨.text [], .right :: .ident g!"true" :: .space :: .ident g!"if" :: .left :: toks⟩ := rfl
    have e2 : ∀ toks, g!"{{end}}".foldl Lex.step ⟨.text [], toks⟩ = ⟨.text [], endToks.reverse ++ toks⟩ := fun _ => rfl
    unfold Prog.source progToks
    rw [List.foldl_append, e1, List.foldl_append, prog_run body h.1, List.foldl_append, e2, prog_run rest h.2]
    simp

/-! ## Parsing -/

def progNodes : Prog → List Node
  | .done => []
  | .set x v rest => .declare x [.str v] :: progNodes rest
  | .use x rest => .print [.var x []] :: progNodes rest
  | .block body rest => .cond [.bool true] (progNodes body) [] :: progNodes rest

def progFuel : Prog → Nat
  | .done => 1
  | .set _ _ rest => progFuel rest + 1
  | .use _ rest => progFuel rest + 1
  | .block body rest => progFuel body + progFuel rest + 1

theorem parseCmd_str (v : Str) (more : List Tok) : parseCmd (.space :: .str v :: .right :: more) = some ([.str v], more) := rfl

theorem parseCmd_var (x : Str) (more : List Tok) : parseCmd (.var x :: .right :: more) = some ([.var x []], more) := rfl

theorem parseCmd_true (more : List Tok) : parseCmd (.space :: .ident g!"true" :: .right :: more) = some ([.bool true], more) := rfl

/-- What follows: nothing, or the end of a block. -/
def Closes (tail : List Tok) (stop : Stop) (rest : List Tok) : Prop :=
  (tail = [] ∧ stop = .eof ∧ rest = []) ∨ (tail = endToks ++ rest ∧ stop = .fin)

theorem prog_parse : ∀ (p : Prog) (n : Nat) (tail rest : List Tok) (stop : Stop), progFuel p ≤ n → Closes tail stop rest →
    parseNodes n (progToks p ++ tail) = some (progNodes p, stop, rest)
  | .done, n, tail, rest, stop, hn, hc => by
    obtain ⟨n, rfl⟩ : ∃ k, n = k + 1 := ⟨n - 1, by simp only [progFuel] at hn; omega⟩
    rcases hc with ⟨rfl, rfl, rfl⟩ | ⟨rfl, rfl⟩ <;> rfl
  | .set x v p, n, tail, rest, stop, hn, hc => by
    simp only [progFuel] at hn
    obtain ⟨n, rfl⟩ : ∃ k, n = k + 1 := ⟨n - 1, by omega⟩
    have ih := prog_parse p n tail rest stop (by omega) hc
    show (do
      let (cmd, rest') ← parseCmd (.space :: .str v :: .right :: (progToks p ++ tail))
      let (ns, stop, rest') ← parseNodes n rest'
      return (Node.declare x cmd :: ns, stop, rest')) = _
    rw [parseCmd_str]
    simp only [Option.bind_eq_bind, Option.bind_some, ih]
    rfl
  | .use x p, n, tail, rest, stop, hn, hc => by
    simp only [progFuel] at hn
    obtain ⟨n, rfl⟩ : ∃ k, n = k + 1 := ⟨n - 1, by omega⟩
    have ih := prog_parse p n tail rest stop (by omega) hc
    show (do
      let (cmd, rest') ← parseCmd (.var x :: .right :: (progToks p ++ tail))
      let (ns, stop, rest') ← parseNodes n rest'
      return (Node.print cmd :: ns, stop, rest')) = _
    rw [parseCmd_var]
    simp only [Option.bind_eq_bind, Option.bind_some, ih]
    rfl
  | .block body p, n, tail, rest, stop, hn, hc => by
    simp only [progFuel] at hn
    obtain ⟨n, rfl⟩ : ∃ k, n = k + 1 := ⟨n - 1, by omega⟩
    have ih := prog_parse p n tail rest stop (by omega) hc
    have ihb := prog_parse body n (endToks ++ (progToks p ++ tail)) (progToks p ++ tail) .fin (by omega) (.inr ⟨rfl, rfl⟩)
    have e : progToks (.block body p) ++ tail =
      .left :: .ident g!"if" :: .space :: .ident g!"true" :: .right :: (progToks body ++ (endToks ++ (progToks p ++ tail))) := by
      simp [progToks]
    rw [e]
    have hs : ∀ l, skipSpace (.ident g!"if" :: l) = .ident g!"if" :: l := fun _ => rfl
    have k1 : g!"if" ≠ g!"end" := by decide
    have k2 : g!"if" ≠ g!"else" := by decide
    simp only [parseNodes, hs, if_neg k1, if_neg k2, if_true, parseCmd_true, Option.bind_eq_bind, Option.bind_some, ihb, ih]
    rfl

theorem progFuel_le : ∀ p : Prog, progFuel p ≤ (progToks p).length + 1
  | .done => by simp [progFuel]
  | .set _ _ p => by have := progFuel_le p; simp [progFuel, progToks]; omega
  | .use _ p => by have := progFuel_le p; simp [progFuel, progToks]; omega
  | .block b p => by have := progFuel_le p; have := progFuel_le b; simp [progFuel, progToks, endToks]; omega

theorem prog_nodes (p : Prog) (h : p.Ok) : parse p.source = if (nodesScoped [[]] (progNodes p)).isSome then some (progNodes p) else none := by
  have hl : lex p.source = some (progToks p) := by
    unfold lex
    rw [prog_run p h]
    simp [pushText]
  have hp := prog_parse p ((progToks p).length + 1) [] [] .eof (progFuel_le p) (.inl ⟨rfl, rfl, rfl⟩)
  rw [List.append_nil] at hp
  unfold parse
  simp only [hl, Option.bind_eq_bind, Option.bind_some, hp]
  rfl

/-! ## Scope -/

def declaredVars (env : List (Str × Str)) : List Str := env.map (·.1) ++ [[]]

theorem latest_iff {env : List (Str × Str)} {x : Str} : (∃ v, Latest env x v) ↔ x ∈ env.map (·.1) := by
  induction env with
  | nil => exact ⟨fun ⟨_, h⟩ => (by cases h), fun h => (by cases h)⟩
  | cons e env ih =>
    obtain ⟨y, w⟩ := e
    simp only [List.map_cons, List.mem_cons]
    constructor
    · rintro ⟨v, h⟩
      cases h with
      | here => exact .inl rfl
      | there _ h => exact .inr (ih.1 ⟨v, h⟩)
    · intro h
      by_cases hy : y = x
      · subst hy
        exact ⟨w, .here⟩
      · rcases h with h | h
        · exact absurd h.symm hy
        · obtain ⟨v, h⟩ := ih.2 h
          exact ⟨v, .there hy h⟩

theorem prog_scoped : ∀ (p : Prog), p.Ok → ∀ env, (nodesScoped (declaredVars env) (progNodes p)).isSome = true ↔ ∃ out, Runs env p out
  | .done, _, _ => ⟨fun _ => ⟨_, .done⟩, fun _ => rfl⟩
  | .set x v p, h, env => by
    have ih := prog_scoped p h.2.2 ((x, v) :: env)
    have e : nodesScoped (declaredVars env) (progNodes (.set x v p)) = nodesScoped (declaredVars ((x, v) :: env)) (progNodes p) := by
      simp [progNodes, nodesScoped, Node.scoped, argsScoped, Arg.scoped, declaredVars]
    rw [e, ih]
    exact ⟨fun ⟨o, h⟩ => ⟨o, .set h⟩, fun ⟨o, h⟩ => by cases h with | set h => exact ⟨o, h⟩⟩
  | .use x p, h, env => by
    have ih := prog_scoped p h.2 env
    have hx : (declaredVars env).contains x = true ↔ ∃ v, Latest env x v := by
      rw [latest_iff]
      simp [declaredVars, h.1.1]
    by_cases hc : (declaredVars env).contains x = true
    · have e : nodesScoped (declaredVars env) (progNodes (.use x p)) = nodesScoped (declaredVars env) (progNodes p) := by
        simp only [progNodes, nodesScoped, Node.scoped, argsScoped, Arg.scoped, hc, Bool.and_true, if_true, Option.bind_some]
      obtain ⟨v, hv⟩ := hx.1 hc
      rw [e, ih]
      exact ⟨fun ⟨o, h⟩ => ⟨_, .use hv h⟩, fun ⟨o, h⟩ => by cases h with | use _ h => exact ⟨_, h⟩⟩
    · have e : nodesScoped (declaredVars env) (progNodes (.use x p)) = none := by
        have hc : (declaredVars env).contains x = false := by simpa using hc
        simp only [progNodes, nodesScoped, Node.scoped, argsScoped, Arg.scoped, hc, Bool.false_and, Bool.false_eq_true, if_false, Option.bind_none]
      rw [e]
      refine ⟨fun h => (by cases h), fun ⟨o, h⟩ => ?_⟩
      cases h with
      | use hv _ => exact absurd (hx.2 ⟨_, hv⟩) hc
  | .block b p, h, env => by
    have ihb := prog_scoped b h.1 env
    have ih := prog_scoped p h.2 env
    have e : nodesScoped (declaredVars env) (progNodes (.block b p)) =
        (nodesScoped (declaredVars env) (progNodes b)).bind fun _ => nodesScoped (declaredVars env) (progNodes p) := by
      simp only [progNodes, nodesScoped, Node.scoped, argsScoped, Arg.scoped, Bool.and_true, if_true]
      cases nodesScoped (declaredVars env) (progNodes b) <;> rfl
    rw [e]
    constructor
    · intro hs
      cases hb : nodesScoped (declaredVars env) (progNodes b) with
      | none => rw [hb] at hs; cases hs
      | some vs =>
        rw [hb] at hs ihb
        obtain ⟨o, ho⟩ := ihb.1 rfl
        obtain ⟨o', ho'⟩ := ih.1 hs
        exact ⟨_, .block ho ho'⟩
    · rintro ⟨_, h⟩
      cases h with
      | block h1 h2 =>
        have := ihb.2 ⟨_, h1⟩
        cases hb : nodesScoped (declaredVars env) (progNodes b) with
        | none => rw [hb] at this; cases this
        | some vs => exact ih.2 ⟨_, h2⟩

/-! ## Execution -/

def boundVars (env : List (Str × Str)) (data : TVal) : List (Str × TVal) := env.map (fun e => (e.1, TVal.str e.2)) ++ [([], data)]

theorem lookup_latest {env : List (Str × Str)} {x v : Str} (h : Latest env x v) (data : TVal) : (boundVars env data).lookup x = some (.str v) := by
  induction h with
  | here => simp [boundVars, List.lookup]
  | @there x y v w env hy _ ih =>
    have : (x == y) = false := by simpa using Ne.symm hy
    show ((y, TVal.str w) :: boundVars env data).lookup x = _
    rw [List.lookup_cons, this]
    exact ih

theorem prog_exec (u : Uni) (data dot : TVal) {env : List (Str × Str)} {p : Prog} {out : Str} (h : Runs env p out) : ∀ w : Str,
    execNodes u ⟨boundVars env data, dot⟩ (progNodes p) w = some (w ++ out) := by
  induction h with
  | done => intro w; simp [progNodes, execNodes]
  | @set env x v out rest _ ih =>
    intro w
    have e : execNodes u ⟨boundVars env data, dot⟩ (progNodes (.set x v rest)) w =
        execNodes u ⟨boundVars ((x, v) :: env) data, dot⟩ (progNodes rest) w := by
      simp only [progNodes, execNodes, evalCmd, Option.bind_eq_bind, Option.bind_some]
      rfl
    rw [e, ih]
  | @use env x v out rest hv _ ih =>
    intro w
    simp only [progNodes, execNodes, execNode, evalCmd, evalArgs, Option.bind_eq_bind, Option.bind_some, lookup_latest hv, TVal.chain, TVal.print,
      Option.pure_def, ih]
    simp
  | @block env out out' body rest _ _ ihb ih =>
    intro w
    have ht : (TVal.bool true).truth = true := rfl
    have ho : (TVal.bool true).opaque = false := rfl
    simp only [progNodes, execNodes, execNode, evalCmd, Option.bind_eq_bind, Option.bind_some, ho, ht, if_true, Bool.false_eq_true, if_false, ihb, ih]
    simp

/-- **C101** Whatever variables a template declares, prints and puts into blocks: it prints exactly what lexical scope says, and it is rejected exactly if
it uses a variable that is not declared at this place. -/
theorem C101_scope (u : Uni) (d : Inputs) (p : Prog) (h : p.Ok) (out : Str) : render u p.source d = some out ↔ Runs [] p out := by
  have hs := prog_scoped p h []
  have hx : ∀ {o}, Runs [] p o → render u p.source d = some o := by
    intro o ho
    have e := prog_exec u d.value d.value ho []
    have hs : (nodesScoped [[]] (progNodes p)).isSome = true := hs.2 ⟨_, ho⟩
    unfold render
    rw [prog_nodes p h, if_pos hs]
    exact e
  refine ⟨fun hr => ?_, hx⟩
  by_cases hc : (nodesScoped [[]] (progNodes p)).isSome = true
  · obtain ⟨o, ho⟩ := hs.1 hc
    rw [hx ho] at hr
    cases hr
    exact ho
  · unfold render at hr
    rw [prog_nodes p h, if_neg hc] at hr
    cases hr

/-- C101: a template that uses an unknown variable is already rejected when it is parsed, that is, before gowrap writes anything. -/
theorem C101_parse (p : Prog) (h : p.Ok) : parse p.source = none ↔ ¬ ∃ out, Runs [] p out := by
  have hs : (nodesScoped [[]] (progNodes p)).isSome = true ↔ _ := prog_scoped p h []
  rw [prog_nodes p h]
  by_cases hc : (nodesScoped [[]] (progNodes p)).isSome = true
  · rw [if_pos hc]
    exact ⟨fun h => (by cases h), fun h => absurd (hs.1 hc) h⟩
  · rw [if_neg hc]
    exact ⟨fun _ hr => hc (hs.2 hr), fun _ => rfl⟩

/-! ## Examples -/

namespace Demo101

/-- A block hides a variable, which is there again after it. -/
def hides : Prog := .set g!"x" g!"a" (.block (.set g!"x" g!"b" (.use g!"x" .done)) (.use g!"x" .done))

example : hides.source = g!"{{$x := \"a\"}}{{if true}}{{$x := \"b\"}}{{$x}}{{end}}{{$x}}" := by decide +kernel

theorem x_word : Flat.Word g!"x" := ⟨by decide, by decide, by simp⟩

theorem hides_ok : hides.Ok :=
  ⟨x_word, by unfold PlainText; decide, ⟨x_word, by unfold PlainText; decide, x_word, trivial⟩, x_word, trivial⟩

example (u : Uni) (d : Inputs) : render u hides.source d = some g!"ba" :=
  (C101_scope u d hides hides_ok _).2 (.set (.block (out := g!"b") (.set (.use (v := g!"b") (out := []) .here .done)) (.use (v := g!"a") (out := []) .here .done)))

/-- A variable of a block is not known after it. -/
def lost : Prog := .block (.set g!"x" g!"b" .done) (.use g!"x" .done)

example : parse lost.source = none := by
  refine (C101_parse lost ⟨⟨x_word, by unfold PlainText; decide, trivial⟩, x_word, trivial⟩).2 ?_
  rintro ⟨_, h⟩
  cases h with
  | block _ h =>
    cases h with
    | use h _ => cases h

end Demo101

end Gowrap.Props
