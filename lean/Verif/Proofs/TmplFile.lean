import Verif.Proofs.TmplExec
import Verif.Model.TemplateText
/-!
# From a template to declarations

What has to be checked for each built-in template (`MethodChecked`, `FileChecked`), and what follows.
-/

namespace Gowrap.Tmpl

open Gowrap Go

/-- The variables that templates declare. -/
structure Names where
  dec : Str
  option : Str
  component : Str
  metric : Str
  span : Str

/-- What the loop over the parameters of a method writes. -/
structure Loop where
  text : Str
  stmts : List Stmt
  semi : Bool

def Loop.none : Loop := ⟨[], [], false⟩

def noMethod : Method := ⟨[], [], g!"M", [], [], false, false⟩
def noParam : Param := ⟨[], [], g!"p", g!"int", false⟩

/-- The holes in a file. -/
def fileFill (u : Uni) (d : Inputs) (n : Names) (ct : Str) (cs : List FieldDecl) (mt : Str) (ms : List Go.Decl) : Fill :=
  ⟨u, d.name, d.type, n.dec, n.option, n.component, n.metric, n.span, noMethod, noParam, [], [], false, ct, cs, mt, ms⟩

/-- The holes in a method. -/
def methodFill (u : Uni) (d : Inputs) (n : Names) (lp : Loop) (m : Method) : Fill :=
  ⟨u, d.name, d.type, n.dec, n.option, n.component, n.metric, n.span, m, noParam, lp.text, lp.stmts, lp.semi, [], [], [], []⟩

/-- The holes in the loop over the parameters. -/
def paramFill (u : Uni) (d : Inputs) (n : Names) (m : Method) (p : Param) : Fill :=
  ⟨u, d.name, d.type, n.dec, n.option, n.component, n.metric, n.span, m, p, [], [], false, [], [], [], []⟩

/-- The parts of an interface are as the Go grammar requires. -/
structure GoodInputs (u : Uni) (d : Inputs) : Prop where
  name : IsName d.name
  down : IsWord (u.lower d.name)
  type : TypeText d.type
  typeLead : ∃ c r, d.type = c :: r ∧ letter c = true
  typeInert : Inert d.type
  method : ∀ m ∈ d.sorted, IsName m.name ∧ ParamsGood m.params ∧ ParamsGood m.results
  snake : ∀ m ∈ d.sorted, ∀ p ∈ m.params, Inert (u.snake p.name)

structure GoodNames (n : Names) : Prop where
  dec : IsName n.dec
  option : IsName n.option
  component : Inert n.component
  metric : Inert n.metric
  span : Inert n.span

theorem isName_M : IsName g!"M" := ⟨⟨⟨'M', [], rfl, by decide⟩, by decide⟩, by decide +kernel⟩
theorem isName_p : IsName g!"p" := ⟨⟨⟨'p', [], rfl, by decide⟩, by decide⟩, by decide +kernel⟩

theorem inert_snake_p (u : Uni) : Inert (u.snake g!"p") := by
  have : u.snake g!"p" = [u.toLower 'p'] := rfl
  rw [this, u.lower_ascii 'p' (by decide)]
  intro c hc
  cases List.mem_singleton.mp hc
  decide

theorem fileFill_good {u : Uni} {d : Inputs} {n : Names} {ct : Str} {cs : List FieldDecl} {mt : Str} {ms : List Go.Decl}
    (hd : GoodInputs u d) (hn : GoodNames n) (hc : LinesOk false ct (putFields cs [])) (hm : LinesOk false mt (putDecls ms [])) :
    (fileFill u d n ct cs mt ms).Good :=
  ⟨hd.name, hd.down, hd.type, hd.typeLead, hd.typeInert, hn.dec, hn.option, hn.component, hn.metric, hn.span, isName_M,
    (fun p hp => nomatch hp), (fun p hp => nomatch hp), isName_p, inert_snake_p u, linesOk_nil _ rfl, hc, hm⟩

theorem methodFill_good {u : Uni} {d : Inputs} {n : Names} {lp : Loop} {m : Method} (hd : GoodInputs u d) (hn : GoodNames n)
    (hm : m ∈ d.sorted)
    (hl : LinesOk lp.semi lp.text (bif lp.semi then .op g!";" :: putStmts lp.stmts [] else putStmts lp.stmts [])) :
    (methodFill u d n lp m).Good :=
  ⟨hd.name, hd.down, hd.type, hd.typeLead, hd.typeInert, hn.dec, hn.option, hn.component, hn.metric, hn.span, (hd.method m hm).1,
    (hd.method m hm).2.1, (hd.method m hm).2.2, isName_p, inert_snake_p u, hl, linesOk_nil _ rfl, linesOk_nil _ rfl⟩

theorem paramFill_good {u : Uni} {d : Inputs} {n : Names} {m : Method} {p : Param} (hd : GoodInputs u d) (hn : GoodNames n)
    (hm : m ∈ d.sorted) (hp : p ∈ m.params) : (paramFill u d n m p).Good :=
  ⟨hd.name, hd.down, hd.type, hd.typeLead, hd.typeInert, hn.dec, hn.option, hn.component, hn.metric, hn.span, (hd.method m hm).1,
    (hd.method m hm).2.1, (hd.method m hm).2.2, ((hd.method m hm).2.1 p hp).1, hd.snake m hm p hp, linesOk_nil _ rfl,
    linesOk_nil _ rfl, linesOk_nil _ rfl⟩

/-! ## Loops -/

/-- The bodies of the loops. -/
def rangeBodies : List Node → List (List Node)
  | [] => []
  | .range _ _ b _ :: r => b :: rangeBodies r
  | _ :: r => rangeBodies r

/-- The body of the last loop: the one over the methods. -/
def methodBody (t : Str) : List Node := ((rangeBodies (nodes t)).getLast?).getD []

/-- `.Interface.Methods` -/
def methodsArg : List Arg := [.dot [g!"Interface", g!"Methods"]]

/-- `$method.Params` -/
def paramsArg : List Arg := [.var g!"method" [g!"Params"]]

def Method.shape (m : Method) : Shape := ⟨m.hasParams, m.hasResults, m.returnsError, m.acceptsContext, false⟩

def methodScope (vars : List (Str × TVal)) (m : Method) : Scope := ⟨(g!"method", .method m) :: vars, .method m⟩

def methodPieces (t : Str) (m : Method) : List Piece := piecesOf (Method.shape m) (methodBody t)

/-- What is checked for the methods: `loops` are the loops, `xs` the declared variables. -/
structure MethodChecked (t : Str) (vars : List (Str × TVal)) (f : Fill) (loops : List Node) (xs : List Str) : Prop where
  checked : Checked f (methodScope vars f.m) (methodBody t) false (methodPieces t f.m)
  put : putDecls (declsOf f (methodPieces t f.m)) [] = toksOf f false (methodPieces t f.m)
  loops : loopsOf (methodBody t) = (loops, xs)

/-- `$method` is the method. -/
def Scope.HasMethod (m : Method) (sc : Scope) : Prop := sc.vars.lookup g!"method" = some (.method m)

theorem Scope.HasMethod.bind {m : Method} {sc : Scope} (h : sc.HasMethod m) (x : Str) (hx : x ≠ g!"method") (v : TVal) :
    (sc.bind x v).HasMethod m := by
  unfold Scope.HasMethod Scope.bind
  show List.lookup _ ((x, v) :: sc.vars) = _
  rw [List.lookup_cons, beq_eq_false_iff_ne.mpr (Ne.symm hx)]
  exact h

/-- The text of a method is the text of declarations. -/
theorem MethodChecked.ok {t : Str} {vars : List (Str × TVal)} {f : Fill} {loops : List Node} {xs : List Str}
    (h : MethodChecked t vars f loops xs) (hf : f.Good) (hx : g!"method" ∉ xs)
    (hl : ∀ r ∈ loops, ∀ sc, Scope.HasMethod f.m sc → ∀ w, execNode f.u sc r w = some (w ++ nodeText f r)) :
    (∀ w, execNodes f.u (methodScope vars f.m) (methodBody t) w = some (w ++ textOf f (methodPieces t f.m))) ∧
    LinesOk false (textOf f (methodPieces t f.m)) (putDecls (declsOf f (methodPieces t f.m)) []) :=
  ⟨h.checked.text (Scope.HasMethod f.m) rfl (by rw [h.loops]; exact fun x hx' sc v hs => hs.bind x (fun e => hx (e ▸ hx')) v)
    (by rw [h.loops]; exact hl), by rw [h.put]; exact h.checked.lines hf⟩

/-- The pieces of a file. -/
def filePieces (pre : Str) (rest : List Node) : List Piece := .lit pre :: piecesOf ⟨false, false, false, false, false⟩ rest

/-- What is checked for the file. -/
structure FileChecked (vars : List (Str × TVal)) (d : Inputs) (f : Fill) (pre : Str) (rest : List Node)
    (loops : List Node) : Prop where
  exec : execNodes f.u ⟨vars, d.value⟩ (fillLoops f rest) pre = some (writePieces f (filePieces pre rest) [])
  mode : (symRun f false (filePieces pre rest)).mode = .start
  semi : (symRun f false (filePieces pre rest)).semi = some false
  put : putDecls (declsOf f (filePieces pre rest)) [] = toksOf f false (filePieces pre rest)
  loops : loopsOf rest = (loops, [])

theorem tokens_of_lines {s : Str} {k : List Go.Tok} (h : LinesOk false s k) : Go.tokens s = some k := by
  unfold Go.tokens
  rw [h []]
  simp [State.flush]

/-- A template gives the text of declarations. -/
theorem FileChecked.ok {vars : List (Str × TVal)} {d : Inputs} {f : Fill} {pre : Str} {rest : List Node}
    {loops : List Node} (h : FileChecked vars d f pre rest loops) (hf : f.Good) (t : Str)
    (hp : parse t = some (nodes t))
    (hd : execNodes f.u ⟨[([], d.value)], d.value⟩ (nodes t) [] = execNodes f.u ⟨vars, d.value⟩ rest pre)
    (hl : ∀ r ∈ loops, ∀ w, execNode f.u ⟨vars, d.value⟩ r w = some (w ++ nodeText f r)) :
    render f.u t d = some (textOf f (filePieces pre rest)) ∧
    Go.tokens (textOf f (filePieces pre rest)) = some (putDecls (declsOf f (filePieces pre rest)) []) := by
  constructor
  · unfold render execute
    rw [hp]
    show execNodes f.u ⟨[([], d.value)], d.value⟩ (nodes t) [] = _
    rw [hd, exec_fillLoops f (· = ⟨vars, d.value⟩) rest (by rw [h.loops]; exact fun x hx => nomatch hx)
      (by rw [h.loops]; intro r hr sc hs w; subst hs; exact hl r hr w) _ rfl, h.exec, writePieces_sound]
    rfl
  · rw [h.put]
    exact tokens_of_lines (lines_of_mode hf _ _ h.mode h.semi)

/-! ## Variables -/

def preOf (ns : List Node) : Str := match untilDeclare ns with
  | some x => x.1
  | none => []
def cmdOf (ns : List Node) : List Arg := match untilDeclare ns with
  | some x => x.2.2.1
  | none => []
def restOf (ns : List Node) : List Node := match untilDeclare ns with
  | some x => x.2.2.2
  | none => []

theorem exec_declare (u : Uni) (d : Inputs) (vars : List (Str × TVal)) (ns : List Node) (x : Str) (key dflt : Str) (w : Str)
    (hu : untilDeclare ns = some (preOf ns, x, cmdOf ns, restOf ns))
    (hv : evalCmd u ⟨vars, d.value⟩ (cmdOf ns) = callFn.orFn [ofVar (d.vars key), .str dflt]) (hf : d.vars key ≠ some .flag) :
    execNodes u ⟨vars, d.value⟩ ns w = execNodes u ⟨(x, .str (varOr (d.vars key) dflt)) :: vars, d.value⟩ (restOf ns) (w ++ preOf ns) :=
  exec_untilDeclare u ⟨vars, d.value⟩ x _ _ _ (by rw [hv, or_var _ hf]) ns _ w hu

/-- The loop over the methods. -/
theorem exec_methods (u : Uni) (d : Inputs) (vars : List (Str × TVal)) (body : List Node) (text : Method → Str)
    (h : ∀ m ∈ d.sorted, ∀ w, execNodes u (methodScope vars m) body w = some (w ++ text m)) (w : Str) :
    execNode u ⟨vars, d.value⟩ (.range g!"method" methodsArg body []) w = some (w ++ d.sorted.flatMap text) :=
  exec_range u ⟨vars, d.value⟩ _ _ _ TVal.method text (TVal.map (d.methods.map fun e => (e.1, TVal.method e.2))) d.sorted (by krfl)
    (methods_elements d) h w

/-! ## Loops over parameters -/

/-- The conditions in a list of nodes. -/
def condCmds : List Node → List (List Arg)
  | [] => []
  | .cond cmd _ _ :: r => cmd :: condCmds r
  | _ :: r => condCmds r

def condsFree : List Node → Bool
  | [] => true
  | .cond _ y n :: r => noDeclare y && noDeclare n && condsFree r
  | .declare _ _ :: _ => false
  | _ :: r => condsFree r

theorem condsAre_of (u : Uni) (sc : Scope) (b : Bool) : ∀ ns : List Node, condsFree ns = true →
    (∀ c ∈ condCmds ns, evalCmd u sc c = some (.bool b)) → CondsAre u sc b ns
  | [], _, _ => trivial
  | .cond cmd y n :: r, hf, h => by
    simp only [condsFree, Bool.and_eq_true] at hf
    exact ⟨h cmd (by simp [condCmds]), hf.1.1, hf.1.2, condsAre_of u sc b r hf.2 fun c hc => h c (by simp [condCmds, hc])⟩
  | .declare _ _ :: _, hf, _ => by simp [condsFree] at hf
  | .text _ :: r, hf, h => condsAre_of u sc b r hf h
  | .print _ :: r, hf, h => condsAre_of u sc b r hf h
  | .range _ _ _ _ :: r, hf, h => condsAre_of u sc b r hf h
  | .each _ _ _ :: r, hf, h => condsAre_of u sc b r hf h
  | .with_ _ _ _ :: r, hf, h => condsAre_of u sc b r hf h

/-- The body of the loop over the parameters. -/
def paramBody (t : Str) : List Node :=
  match (loopsOf (methodBody t)).1 with
  | .range _ _ b _ :: _ => b
  | _ => []

def paramScope (sc : Scope) (p : Param) : Scope := ⟨(g!"param", .param p) :: sc.vars, .param p⟩

def paramPieces (t : Str) (ac isCtx : Bool) : List Piece := piecesOf ⟨true, true, true, ac, isCtx⟩ (paramBody t)

/-- What is checked for the loop over the parameters: `cmd` is the condition, `b` its value. -/
structure ParamChecked (t : Str) (cmd : List Arg) (sc : Scope) (f : Fill) (ac isCtx b need : Bool) : Prop where
  checked : Checked f (paramScope sc f.p) (branch b (paramBody t)) need (paramPieces t ac isCtx)
  put : toksOf f need (paramPieces t ac isCtx) = bif need then .op g!";" :: putStmts (stmtsOf f false (paramPieces t ac isCtx)) []
    else putStmts (stmtsOf f false (paramPieces t ac isCtx)) []
  loops : loopsOf (branch b (paramBody t)) = ([], [])
  free : condsFree (paramBody t) = true
  cond : condCmds (paramBody t) = [cmd]

/-- The text of an iteration is the text of statements. -/
theorem ParamChecked.ok {t : Str} {cmd : List Arg} {sc : Scope} {f : Fill} {ac isCtx b need : Bool}
    (h : ParamChecked t cmd sc f ac isCtx b need) (hf : f.Good) (hc : evalCmd f.u (paramScope sc f.p) cmd = some (.bool b)) :
    (∀ w, execNodes f.u (paramScope sc f.p) (paramBody t) w = some (w ++ textOf f (paramPieces t ac isCtx))) ∧
    LinesOk need (textOf f (paramPieces t ac isCtx))
      (bif need then .op g!";" :: putStmts (stmtsOf f false (paramPieces t ac isCtx)) []
        else putStmts (stmtsOf f false (paramPieces t ac isCtx)) []) := by
  constructor
  · intro w
    rw [exec_branch f.u _ b _ w (condsAre_of f.u _ b _ h.free (by
      rw [h.cond]
      intro c hc'
      cases List.mem_singleton.mp hc'
      exact hc))]
    exact h.checked.text (fun _ => True) trivial (by rw [h.loops]; exact fun x hx => nomatch hx)
      (by rw [h.loops]; exact fun x hx => nomatch hx) w
  · rw [← h.put]
    exact h.checked.lines hf

/-- The loop over the parameters. -/
theorem exec_params (u : Uni) (sc : Scope) (m : Method) (hm : sc.HasMethod m) (body : List Node)
    (text : Param → Str) (h : ∀ p ∈ m.params, ∀ w, execNodes u (paramScope sc p) body w = some (w ++ text p)) (w : Str) :
    execNode u sc (.range g!"param" paramsArg body []) w = some (w ++ m.params.flatMap text) :=
  exec_range u sc _ _ _ TVal.param text (.list (m.params.map .param)) m.params (by
    show (sc.vars.lookup g!"method").bind _ = _
    rw [hm]
    rfl) rfl h w

end Gowrap.Tmpl
