import Verif.Proofs.TmplFile
/-!
# The built-in templates produce declarations

`Template` collects what distinguishes the built-in templates, `Template.Sound` what is checked by computation for each of them.
`Template.Sound.ok` says that the output of the template consists of the tokens of declarations.
-/

namespace Gowrap.Tmpl

open Gowrap Go

/-- Which templates loop over the parameters of methods. -/
inductive LoopKind where
  | none
  /-- for methods that return an error -/
  | errs
  /-- for methods that accept a context -/
  | ctx
  deriving DecidableEq

structure Template where
  text : Str
  /-- the variables, the innermost first -/
  vars : Inputs → Names → List (Str × TVal)
  names : Uni → Inputs → Names
  /-- the text before the last declaration of a variable -/
  pre : Str
  /-- the nodes after it -/
  rest : List Node
  kind : LoopKind
  /-- the template has a loop over the methods in a struct type -/
  config : Bool

/-- `not (and $method.AcceptsContext (eq $param.Name "ctx"))` -/
def notCtxArg : List Arg :=
  [.fn g!"not", .paren [.fn g!"and", .var g!"method" [g!"AcceptsContext"], .paren [.fn g!"eq", .var g!"param" [g!"Name"], .str g!"ctx"]]]

/-- `not (eq $param.Name "ctx")` -/
def notEqArg : List Arg := [.fn g!"not", .paren [.fn g!"eq", .var g!"param" [g!"Name"], .str g!"ctx"]]

/-- The parameter is named `ctx`. -/
def Param.isCtx (p : Param) : Bool := decide (p.name = g!"ctx")

/-- The body of the first loop. -/
def configBody (t : Str) : List Node := ((rangeBodies (nodes t)).head?).getD []

def configPieces (t : Str) (m : Method) : List Piece := piecesOf (Method.shape m) (configBody t)

def fieldsOf (f : Fill) (ps : List Piece) : List FieldDecl :=
  match Parse.fields f 400 ((symRun f false ps).toks.reverse ++ [.op g!"}"]) with
  | some (fs, _) => fs
  | none => []

namespace Template

variable (T : Template)

def semi (m : Method) : Bool := match T.kind with
  | .ctx => m.acceptsContext
  | _ => false

/-- The loops in a method. -/
def loops : List Node := match T.kind with
  | .none => []
  | _ => [.range g!"param" paramsArg (paramBody T.text) []]

/-- The variables declared in a method. -/
def inner : List Str := match T.kind with
  | .ctx => [g!"span_name"]
  | _ => []

def fileLoops : List Node := match T.config with
  | true => [.range g!"method" methodsArg (configBody T.text) [], .range g!"method" methodsArg (methodBody T.text) []]
  | false => [.range g!"method" methodsArg (methodBody T.text) []]

/-- What is checked by computation. -/
structure Sound : Prop where
  parse : parse T.text = some (nodes T.text)
  exec : ∀ u d, (∀ k, d.vars k ≠ some .flag) → execNodes u ⟨[([], d.value)], d.value⟩ (nodes T.text) [] =
    execNodes u ⟨T.vars d (T.names u d), d.value⟩ T.rest T.pre
  file : ∀ u d n ct cs mt ms, FileChecked (T.vars d n) d (fileFill u d n ct cs mt ms) T.pre T.rest T.fileLoops
  isMethods : loopHole g!"method" (methodBody T.text) = .methods
  method : ∀ u d n text stmts m, MethodChecked T.text (T.vars d n) (methodFill u d n ⟨text, stmts, T.semi m⟩ m) T.loops T.inner
  errs : T.kind = .errs → ∀ sc u d n m p ac c, ParamChecked T.text notCtxArg sc (paramFill u d n m p) ac c (!(ac && c)) false
  ctx : T.kind = .ctx → ∀ sc u d n m p ac, ParamChecked T.text notEqArg sc (paramFill u d n m p) ac true false true ∧
    ∀ c, ParamChecked T.text notEqArg sc (paramFill u d n m p) ac c (!c) false
  config : T.config = true → loopHole g!"method" (configBody T.text) = .config ∧
    ∀ u d n m, Checked (methodFill u d n .none m) (methodScope (T.vars d n) m) (configBody T.text) false (configPieces T.text m) ∧
    putFields (fieldsOf (methodFill u d n .none m) (configPieces T.text m)) [] =
      toksOf (methodFill u d n .none m) false (configPieces T.text m) ∧
    loopsOf (configBody T.text) = ([], [])

variable (u : Uni) (d : Inputs)

def paramText (m : Method) (p : Param) : Str :=
  textOf (paramFill u d (T.names u d) m p) (paramPieces T.text m.acceptsContext (Param.isCtx p))

def paramStmts (m : Method) (p : Param) : List Stmt :=
  stmtsOf (paramFill u d (T.names u d) m p) false (paramPieces T.text m.acceptsContext (Param.isCtx p))

/-- The text of the loop over the parameters. -/
def loopText (m : Method) : Str := match T.kind with
  | .none => []
  | _ => m.params.flatMap (T.paramText u d m)

def loopStmts (m : Method) : List Stmt := match T.kind with
  | .none => []
  | _ => m.params.flatMap (T.paramStmts u d m)

def methodFill (m : Method) : Fill := Tmpl.methodFill u d (T.names u d) ⟨T.loopText u d m, T.loopStmts u d m, T.semi m⟩ m

/-- The text of a method. -/
def methodText (m : Method) : Str := textOf (T.methodFill u d m) (methodPieces T.text m)

/-- The declarations for a method. -/
def methodDecls (m : Method) : List Go.Decl := declsOf (T.methodFill u d m) (methodPieces T.text m)

def configText (m : Method) : Str := textOf (Tmpl.methodFill u d (T.names u d) .none m) (configPieces T.text m)

def configFields (m : Method) : List FieldDecl := fieldsOf (Tmpl.methodFill u d (T.names u d) .none m) (configPieces T.text m)

def fill : Fill := match T.config with
  | true => fileFill u d (T.names u d) (d.sorted.flatMap (T.configText u d)) (d.sorted.flatMap (T.configFields u d))
    (d.sorted.flatMap (T.methodText u d)) (d.sorted.flatMap (T.methodDecls u d))
  | false => fileFill u d (T.names u d) [] [] (d.sorted.flatMap (T.methodText u d)) (d.sorted.flatMap (T.methodDecls u d))

/-- The output. -/
def out : Str := textOf (T.fill u d) (filePieces T.pre T.rest)

/-- The declarations of the output. -/
def decls : List Go.Decl := declsOf (T.fill u d) (filePieces T.pre T.rest)

end Template

theorem eval_notCtx (u : Uni) (sc : Scope) (m : Method) (hs : sc.HasMethod m) (p : Param) :
    evalCmd u (paramScope sc p) notCtxArg = some (.bool !(m.acceptsContext && Param.isCtx p)) := by
  have hs' : List.lookup g!"method" sc.vars = some (TVal.method m) := hs
  have hm : evalArg u (paramScope sc p) (.var g!"method" [g!"AcceptsContext"]) = some (.bool m.acceptsContext) := by
    show (List.lookup g!"method" sc.vars).bind _ = _
    rw [hs']
    rfl
  have he : evalArg u (paramScope sc p) (.paren [.fn g!"eq", .var g!"param" [g!"Name"], .str g!"ctx"]) = some (.bool (Param.isCtx p)) := rfl
  have ha : evalArg u (paramScope sc p) (.paren [.fn g!"and", .var g!"method" [g!"AcceptsContext"],
      .paren [.fn g!"eq", .var g!"param" [g!"Name"], .str g!"ctx"]]) = some (.bool (m.acceptsContext && Param.isCtx p)) := by
    show (evalArgs u (paramScope sc p) [_, _]).bind _ = _
    simp only [evalArgs, hm, he]
    cases m.acceptsContext <;> rfl
  show (evalArgs u (paramScope sc p) [_]).bind _ = _
  simp only [evalArgs, ha]
  rfl

theorem eval_notEq (u : Uni) (sc : Scope) (p : Param) :
    evalCmd u (paramScope sc p) notEqArg = some (.bool !(Param.isCtx p)) := rfl

variable {T : Template} {u : Uni} {d : Inputs}

/-- What a loop over the parameters writes, and its statements. -/
theorem Template.Sound.loop_ok (h : T.Sound) (hd : GoodInputs u d) (hn : GoodNames (T.names u d)) (m : Method) (hm : m ∈ d.sorted)
    (hk : T.kind ≠ .none) (sc : Scope) (hs : sc.HasMethod m) (p : Param) (hp : p ∈ m.params) :
    (∀ w, execNodes u (paramScope sc p) (paramBody T.text) w = some (w ++ T.paramText u d m p)) ∧
    LinesOk false (T.paramText u d m p) (putStmts (T.paramStmts u d m p) []) := by
  cases hk' : T.kind with
  | none => exact absurd hk' hk
  | errs =>
    exact (h.errs hk' sc u d (T.names u d) m p m.acceptsContext (Param.isCtx p)).ok (paramFill_good hd hn hm hp) (eval_notCtx _ _ _ hs _)
  | ctx =>
    exact ((h.ctx hk' sc u d (T.names u d) m p m.acceptsContext).2 (Param.isCtx p)).ok (paramFill_good hd hn hm hp) (eval_notEq _ _ _)

/-- The methods of the file. -/
theorem Template.Sound.method_ok (h : T.Sound) (hd : GoodInputs u d) (hn : GoodNames (T.names u d))
    (hc : T.kind = .ctx → ∀ m ∈ d.sorted, m.acceptsContext = true → ∃ p ps, m.params = p :: ps ∧ p.name = g!"ctx")
    (m : Method) (hm : m ∈ d.sorted) :
    (∀ w, execNodes u (methodScope (T.vars d (T.names u d)) m) (methodBody T.text) w = some (w ++ T.methodText u d m)) ∧
    LinesOk false (T.methodText u d m) (putDecls (T.methodDecls u d m) []) := by
  have hmc := h.method u d (T.names u d) (T.loopText u d m) (T.loopStmts u d m) m
  have hx : g!"method" ∉ T.inner := by
    unfold Template.inner
    cases T.kind <;> decide
  by_cases hk : T.kind = .none
  · refine hmc.ok (methodFill_good hd hn hm ?_) hx ?_
    · have : T.semi m = false ∧ T.loopText u d m = [] ∧ T.loopStmts u d m = [] := by
        unfold Template.semi Template.loopText Template.loopStmts; rw [hk]; exact ⟨rfl, rfl, rfl⟩
      rw [this.1, this.2.1, this.2.2]
      exact linesOk_nil _ rfl
    · unfold Template.loops
      rw [hk]
      exact fun r hr => nomatch hr
  · have e2 : T.loopText u d m = m.params.flatMap (T.paramText u d m) ∧
        T.loopStmts u d m = m.params.flatMap (T.paramStmts u d m) := by
      unfold Template.loopText Template.loopStmts
      cases hk' : T.kind with
      | none => exact absurd hk' hk
      | _ => exact ⟨rfl, rfl⟩
    have hp := h.loop_ok hd hn m hm hk
    refine hmc.ok (methodFill_good hd hn hm ?_) hx ?_
    · rw [e2.1, e2.2]
      have hall : ∀ ps : List Param, (∀ p ∈ ps, p ∈ m.params) →
          LinesOk false (ps.flatMap (T.paramText u d m)) (putStmts (ps.flatMap (T.paramStmts u d m)) []) := fun ps hps =>
        linesOk_stmts _ _ _ fun q hq => (hp (methodScope [] m) rfl q (hps q hq)).2
      cases hsm : T.semi m with
      | false => exact hall _ fun _ h => h
      | true =>
        have hk' : T.kind = .ctx ∧ m.acceptsContext = true := by
          unfold Template.semi at hsm
          cases hk' : T.kind <;> rw [hk'] at hsm
          · cases hsm
          · cases hsm
          · exact ⟨rfl, hsm⟩
        obtain ⟨p, ps, h1, h2⟩ := hc hk'.1 m hm hk'.2
        have hc' : Param.isCtx p = true := by unfold Param.isCtx; rw [h2]; rfl
        have h0 := (h.ctx hk'.1 (methodScope [] m) u d (T.names u d) m p m.acceptsContext).1.ok
          (paramFill_good hd hn hm (by rw [h1]; simp))
          (by rw [show (paramFill u d (T.names u d) m p).p = p from rfl, eval_notEq, hc']; rfl)
        rw [h1, List.flatMap_cons, List.flatMap_cons, putStmts_concat]
        refine LinesOk.append (k := _ :: _) ?_ (hall ps fun q hq => by rw [h1]; exact List.mem_cons_of_mem _ hq)
        unfold Template.paramText Template.paramStmts
        rw [hc']
        exact h0.2
    · have e3 : T.loops = [.range g!"param" paramsArg (paramBody T.text) []] := by
        unfold Template.loops
        cases hk' : T.kind with
        | none => exact absurd hk' hk
        | _ => rfl
      rw [e3]
      intro r hr sc hs w
      cases List.mem_singleton.mp hr
      refine (exec_params u _ m hs _ (T.paramText u d m) (fun p hp' => (hp sc hs p hp').1) w).trans ?_
      show _ = some (w ++ T.loopText u d m)
      rw [e2.1]

/-- The output of a built-in template consists of the tokens of declarations. -/
theorem Template.Sound.ok (h : T.Sound) (hd : GoodInputs u d) (hn : GoodNames (T.names u d)) (hv : ∀ k, d.vars k ≠ some .flag)
    (hc : T.kind = .ctx → ∀ m ∈ d.sorted, m.acceptsContext = true → ∃ p ps, m.params = p :: ps ∧ p.name = g!"ctx") :
    render u T.text d = some (T.out u d) ∧ Go.tokens (T.out u d) = some (putDecls (T.decls u d) []) := by
  have hm := fun m hm => h.method_ok hd hn hc m hm
  have hml := linesOk_decls (T.methodText u d) (T.methodDecls u d) d.sorted fun m hm' => (hm m hm').2
  have hme := exec_methods u d _ (methodBody T.text) (T.methodText u d) fun m hm' => (hm m hm').1
  have hmt : ∀ f : Fill, f.methodsText = d.sorted.flatMap (T.methodText u d) → ∀ w, execNode u ⟨T.vars d (T.names u d), d.value⟩
      (.range g!"method" methodsArg (methodBody T.text) []) w =
      some (w ++ nodeText f (.range g!"method" methodsArg (methodBody T.text) [])) := by
    intro f hf w
    show _ = some (w ++ Fill.htext f (loopHole g!"method" (methodBody T.text)))
    rw [h.isMethods, hme w, ← hf]
    rfl
  unfold Template.out Template.decls
  cases hcf : T.config with
  | false =>
    have e : T.fill u d = fileFill u d (T.names u d) [] [] (d.sorted.flatMap (T.methodText u d)) (d.sorted.flatMap (T.methodDecls u d)) := by
      unfold Template.fill; rw [hcf]
    rw [e]
    refine (h.file u d (T.names u d) _ _ _ _).ok (fileFill_good hd hn (linesOk_nil _ rfl) hml) T.text h.parse (h.exec u d hv) ?_
    unfold Template.fileLoops
    rw [hcf]
    intro x hx
    cases List.mem_singleton.mp hx
    refine hmt _ ?_
    rfl
  | true =>
    have e : T.fill u d = fileFill u d (T.names u d) (d.sorted.flatMap (T.configText u d)) (d.sorted.flatMap (T.configFields u d))
        (d.sorted.flatMap (T.methodText u d)) (d.sorted.flatMap (T.methodDecls u d)) := by
      unfold Template.fill; rw [hcf]
    rw [e]
    have hcc := (h.config hcf).2 u d (T.names u d)
    have hcl := linesOk_fields (T.configText u d) (T.configFields u d) d.sorted fun m hm' => by
      unfold Template.configFields
      rw [(hcc m).2.1]
      exact (hcc m).1.lines (methodFill_good hd hn hm' (linesOk_nil _ rfl))
    have hce := exec_methods u d _ (configBody T.text) (T.configText u d) fun m _ =>
      (hcc m).1.text (fun _ => True) trivial (by rw [(hcc m).2.2]; exact fun x hx => nomatch hx)
        (by rw [(hcc m).2.2]; exact fun x hx => nomatch hx)
    refine (h.file u d (T.names u d) _ _ _ _).ok (fileFill_good hd hn hcl hml) T.text h.parse (h.exec u d hv) ?_
    unfold Template.fileLoops
    rw [hcf]
    intro x hx
    rcases List.mem_cons.mp hx with rfl | hx
    · intro w
      show _ = some (w ++ Fill.htext _ (loopHole g!"method" (configBody T.text)))
      rw [(h.config hcf).1]
      exact hce w
    · cases List.mem_singleton.mp hx
      refine hmt _ ?_
      rfl

end Gowrap.Tmpl
