import Verif.Proofs.SymLex
import Verif.Model.GoAst
import Verif.Model.TextTemplate
/-!
# The parts of generated code that depend on the interface

The holes (`Hole`) of the text that the built-in templates produce, and what they are filled with (`Fill`).
-/

namespace Gowrap.Tmpl

open Gowrap Go

/-- The part of a type text between tokens: the tokens of a text without the semicolon at its end. -/
def lexed (s : Str) : List Go.Tok := (State.run ⟨.start, false, []⟩ s).flush.toks.reverse

inductive Hole where
  /-- `.Interface.Name` -/
  | iface
  /-- `down .Interface.Name` -/
  | down
  /-- `.Interface.Type` -/
  | typ
  /-- `$decorator` -/
  | dec
  /-- `$decorator_option` -/
  | option
  /-- `$component` -/
  | component
  /-- `$metric_name` -/
  | metric
  /-- `$spanNameType` -/
  | span
  /-- `$method.Name` -/
  | method
  /-- the parameters in `$method.Declaration` -/
  | plist
  /-- the results in `$method.Declaration` -/
  | rlist
  /-- the arguments in `$method.Call` -/
  | args
  /-- `$method.ParamsNames` -/
  | pnames
  /-- `$method.ResultsNames` -/
  | rnames
  /-- `$method.ParamsMap` -/
  | pmap
  /-- `$method.ResultsMap` -/
  | rmap
  /-- `$method.ResultsStruct` -/
  | rstruct
  /-- the results in `$method.ReturnStruct "_res"` -/
  | resFields
  /-- the loop over the parameters -/
  | ploop
  /-- `$param.Name` -/
  | param
  /-- `snake $param.Name` -/
  | snake
  /-- the loop over the methods in the configuration of timeout -/
  | config
  /-- the loop over the methods -/
  | methods
  deriving DecidableEq, Repr

/-- What the holes are filled with. -/
structure Fill where
  u : Uni
  name : Str
  type : Str
  dec : Str
  option : Str
  component : Str
  metric : Str
  span : Str
  m : Method
  p : Param
  ploopText : Str
  ploop : List Stmt
  /-- the semicolon before the loop over the parameters belongs to it -/
  ploopSemi : Bool
  configText : Str
  config : List FieldDecl
  methodsText : Str
  methods : List Go.Decl

/-- The arguments in `$method.Call`. -/
def argExpr (p : Param) : Go.Expr := if p.variadic then .spread (.id p.name) else .id p.name

/-- `map[string]interface{}`. -/
def mapType : Ty := .map (.name g!"string") (.iface [])

/-- `$method.ParamsMap`. -/
def mapExpr (ps : List Param) : Go.Expr := .lit mapType (ps.map fun p => .pair (.str p.name) (.id p.name)) false

/-- Parameters with their types. -/
def paramDecls (ps : List Param) : List Group := ps.map fun p => .mk [p.name] (.toks (lexed p.type))

/-- `$method.ResultsStruct`. -/
def resultsStructType (ps : List Param) : Ty := .struct (paramDecls ps)

namespace Fill

variable (f : Fill)

def pnames : List Go.Expr := f.m.params.map fun p => .id p.name
def rnames : List Go.Expr := f.m.results.map fun p => .id p.name
def args : List Go.Expr := f.m.params.map argExpr
def resFields : List Go.Expr := f.m.results.map fun r => .sel (.id g!"_res") r.name

def hkind : Hole → Kind
  | .iface | .dec | .option | .method | .param => .name
  | .down => .part
  | .component | .metric | .span | .snake => .text
  | _ => .toks

def htext : Hole → Str
  | .iface => f.name
  | .down => f.u.lower f.name
  | .typ => f.type
  | .dec => f.dec
  | .option => f.option
  | .component => f.component
  | .metric => f.metric
  | .span => f.span
  | .method => f.m.name
  | .plist => join g!", " (f.m.params.map fun p => p.name ++ g!" " ++ p.type)
  | .rlist => join g!", " (f.m.results.map fun p => p.name ++ g!" " ++ p.type)
  | .args => join g!", " (f.m.params.map Param.pass)
  | .pnames => f.m.paramsNames
  | .rnames => f.m.resultsNames
  | .pmap => f.m.paramsMap
  | .rmap => f.m.resultsMap
  | .rstruct => f.m.resultsStruct
  | .resFields => join g!", " (f.m.results.map fun r => g!"_res" ++ g!"." ++ r.name)
  | .ploop => f.ploopText
  | .param => f.p.name
  | .snake => f.u.snake f.p.name
  | .config => f.configText
  | .methods => f.methodsText

def htoks : Hole → List Go.Tok
  | .typ => lexed f.type
  | .plist => putGroups (paramDecls f.m.params) []
  | .rlist => putGroups (paramDecls f.m.results) []
  | .args => putExprs f.args []
  | .pnames => putExprs f.pnames []
  | .rnames => putExprs f.rnames []
  | .pmap => putExprs [mapExpr f.m.params] []
  | .rmap => putExprs [mapExpr f.m.results] []
  | .rstruct => (resultsStructType f.m.results).put []
  | .resFields => putExprs f.resFields []
  | .ploop => bif f.ploopSemi then .op g!";" :: putStmts f.ploop [] else putStmts f.ploop []
  | .config => putFields f.config []
  | .methods => putDecls f.methods []
  | _ => []

def hsemi : Hole → Option Bool
  | .typ | .pmap | .rmap | .rstruct => some true
  | .resFields => bif f.m.hasResults then some true else none
  | .ploop | .config | .methods => some false
  | _ => none

def hneed : Hole → Option Bool
  | .ploop => some f.ploopSemi
  | .config | .methods => some false
  | _ => none

def hlead : Hole → Bool
  | .typ | .pmap | .rmap | .rstruct => true
  | .resFields => f.m.hasResults
  | _ => false

def hdone : Hole → Bool
  | .ploop | .config | .methods => true
  | _ => false

def hinert : Hole → Bool
  | .typ => true
  | _ => false

/-- The substitution. -/
def sub : Subst Hole :=
  ⟨hkind, f.htext, f.htoks, f.hsemi, f.hneed, f.hlead, f.hlead, hdone, hinert⟩

end Fill

end Gowrap.Tmpl
