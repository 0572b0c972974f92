import Verif.Model.Template
import Verif.Model.Snake
import Verif.Model.Flags
/-!
# The part of text/template that gowrap's templates use

`text/template` is part of the Go standard library; the definitions follow its documentation.  Modelled are
the actions that occur in /repo/templates and in the header (cmd_generate.go:303-316): text, `{{pipeline}}`,
variables, `if`/`else`/`end`, `range`/`else`/`end`, trimming with `{{-` and `-}}`, fields, methods, functions
with arguments, string constants and parentheses; and of what other templates may contain: `else if`, `with`,
`range` without a variable, pipelines with `|`, comments, raw strings, escapes in strings, `true` and `false`,
and gowrap's own functions (cmd_generate.go:269-278).  Not modelled: `define`, `template`, `block`, `break`,
`continue`, assignments, variables in `if`, `with` and for the index of `range`, numbers, fields of
parenthesised pipelines, the other functions; a template that uses them is not accepted.
-/

namespace Gowrap.Tmpl

open Gowrap

/-! ## Lexing -/

/-- The items of `text/template/parse/lex.go`. -/
inductive Tok where
  | text (s : Str)
  | left
  | right
  | space
  | ident (s : Str)
  | field (s : Str)
  | var (s : Str)
  | str (s : Str)
  | dot
  | lparen
  | rparen
  | declare
  | comma
  | pipe
  deriving DecidableEq, Repr

/-- Where the lexer is; texts are collected in reverse. -/
inductive Mode where
  /-- in text -/
  | text (acc : Str)
  /-- after `{` in text -/
  | brace (acc : Str)
  /-- after `{{` -/
  | opened (acc : Str)
  /-- after `{{-` -/
  | openedDash (acc : Str)
  /-- in an action, between items -/
  | action
  /-- in a run of spaces -/
  | spaces
  /-- after a run of spaces and `-` -/
  | dash
  /-- after `-}` -/
  | dashBrace
  /-- after `}` in an action -/
  | closing
  | ident (acc : Str)
  | field (acc : Str)
  | var (acc : Str)
  | str (acc : Str)
  | escape (acc : Str)
  /-- in a string between back quotes -/
  | raw (acc : Str)
  | colon
  /-- after `{{- ` -/
  | openedSpace
  /-- after `{{/` or `{{- /` -/
  | slash
  /-- in a comment -/
  | comment
  /-- after `*` in a comment -/
  | star
  /-- after the end of a comment -/
  | commentEnd
  /-- after the end of a comment and `}` -/
  | commentBrace
  /-- after the end of a comment and a space -/
  | commentSpace
  /-- after the end of a comment, a space and `-` -/
  | commentDash
  /-- after the end of a comment, a space and `-}` -/
  | commentDashBrace
  /-- after `-}}`: spaces are dropped -/
  | trimmed
  | failed
  deriving DecidableEq, Repr

/-- The state of the lexer: the items so far, in reverse. -/
structure Lex where
  mode : Mode
  toks : List Tok
  deriving DecidableEq, Repr

/-- `isSpace` of lex.go. -/
def space (c : Char) : Bool := c = ' ' || c = '\t' || c = '\r' || c = '\n'

/-- `isAlphaNumeric` of lex.go, for ASCII. -/
def wordChar (c : Char) : Bool := c.isAlphanum || c = '_'

/-- A text item, if it is not empty. -/
def pushText (acc : Str) (toks : List Tok) : List Tok := if acc = [] then toks else .text acc.reverse :: toks

/-- `lexInsideAction`: the first character of an item. -/
def Lex.start (toks : List Tok) (c : Char) : Lex :=
  if space c then ⟨.spaces, toks⟩
  else if c = '}' then ⟨.closing, toks⟩
  else if c = '(' then ⟨.action, .lparen :: toks⟩
  else if c = ')' then ⟨.action, .rparen :: toks⟩
  else if c = ',' then ⟨.action, .comma :: toks⟩
  else if c = ':' then ⟨.colon, toks⟩
  else if c = '"' then ⟨.str [], toks⟩
  else if c = '`' then ⟨.raw [], toks⟩
  else if c = '|' then ⟨.action, .pipe :: toks⟩
  else if c = '.' then ⟨.field [], toks⟩
  else if c = '$' then ⟨.var [], toks⟩
  else if wordChar c then ⟨.ident [c], toks⟩
  else ⟨.failed, toks⟩

/-- The escapes in strings: `\n`, `\t`, `\r`, `\"` and `\\`. -/
def unescape (c : Char) : Option Char :=
  if c = 'n' then some '\n'
  else if c = 't' then some '\t'
  else if c = 'r' then some '\r'
  else if c = '"' || c = '\\' then some c
  else none

/-- One character of the template.  A digit after `.` begins a number, which is not modelled.  Carriage returns in a string between back quotes are
dropped: `strconv.Unquote`. -/
def Lex.step (l : Lex) (c : Char) : Lex :=
  match l.mode with
  | .text acc => if c = '{' then { l with mode := .brace acc } else { l with mode := .text (c :: acc) }
  | .brace acc =>
    if c = '{' then { l with mode := .opened acc } else { l with mode := .text (c :: '{' :: acc) }
  | .opened acc =>
    if c = '-' then { l with mode := .openedDash acc }
    else if c = '/' then ⟨.slash, pushText acc l.toks⟩
    else Lex.start (.left :: pushText acc l.toks) c
  | .openedDash acc =>
    if space c then ⟨.openedSpace, pushText (acc.dropWhile space) l.toks⟩ else { l with mode := .failed }
  | .openedSpace =>
    if c = '/' then { l with mode := .slash } else Lex.start (.left :: l.toks) c
  | .action => Lex.start l.toks c
  | .spaces =>
    if space c then l
    else if c = '-' then { l with mode := .dash }
    else Lex.start (.space :: l.toks) c
  | .dash => if c = '}' then { l with mode := .dashBrace } else { l with mode := .failed }
  | .dashBrace => if c = '}' then ⟨.trimmed, .right :: l.toks⟩ else { l with mode := .failed }
  | .closing => if c = '}' then ⟨.text [], .right :: l.toks⟩ else { l with mode := .failed }
  | .ident acc => if wordChar c then { l with mode := .ident (c :: acc) } else Lex.start (.ident acc.reverse :: l.toks) c
  | .field acc =>
    if acc = [] && c.isDigit then { l with mode := .failed }
    else if wordChar c then { l with mode := .field (c :: acc) }
    else Lex.start ((if acc = [] then .dot else .field acc.reverse) :: l.toks) c
  | .var acc => if wordChar c then { l with mode := .var (c :: acc) } else Lex.start (.var acc.reverse :: l.toks) c
  | .str acc =>
    if c = '"' then ⟨.action, .str acc.reverse :: l.toks⟩
    else if c = '\\' then { l with mode := .escape acc }
    else if c = '\n' then { l with mode := .failed }
    else { l with mode := .str (c :: acc) }
  | .escape acc =>
    match unescape c with
    | some d => { l with mode := .str (d :: acc) }
    | none => { l with mode := .failed }
  | .raw acc =>
    if c = '`' then ⟨.action, .str acc.reverse :: l.toks⟩
    else if c = '\r' then l
    else { l with mode := .raw (c :: acc) }
  | .colon => if c = '=' then ⟨.action, .declare :: l.toks⟩ else { l with mode := .failed }
  | .trimmed =>
    if space c then l
    else if c = '{' then { l with mode := .brace [] }
    else { l with mode := .text [c] }
  | .slash => if c = '*' then { l with mode := .comment } else { l with mode := .failed }
  | .comment => if c = '*' then { l with mode := .star } else l
  | .star =>
    if c = '/' then { l with mode := .commentEnd }
    else if c = '*' then l
    else { l with mode := .comment }
  | .commentEnd =>
    if c = '}' then { l with mode := .commentBrace }
    else if space c then { l with mode := .commentSpace }
    else { l with mode := .failed }
  | .commentBrace => if c = '}' then { l with mode := .text [] } else { l with mode := .failed }
  | .commentSpace => if c = '-' then { l with mode := .commentDash } else { l with mode := .failed }
  | .commentDash => if c = '}' then { l with mode := .commentDashBrace } else { l with mode := .failed }
  | .commentDashBrace => if c = '}' then { l with mode := .trimmed } else { l with mode := .failed }
  | .failed => l

/-- All items of a template; an action must be closed. -/
def lex (s : Str) : Option (List Tok) :=
  let l := s.foldl Lex.step ⟨.text [], []⟩
  match l.mode with
  | .text acc => some (pushText acc l.toks).reverse
  | .brace acc => some (pushText ('{' :: acc) l.toks).reverse
  | .trimmed => some l.toks.reverse
  | _ => none

/-! ## Parsing -/

/-- Operands. -/
inductive Arg where
  /-- `.A.B`, and `.` without fields -/
  | dot (fields : List Str)
  /-- `$x.A.B`; `$` has the empty name -/
  | var (name : Str) (fields : List Str)
  | str (s : Str)
  | bool (b : Bool)
  /-- a function -/
  | fn (name : Str)
  /-- `(f x y)` -/
  | paren (args : List Arg)
  deriving Repr

/-- The nodes of a template. -/
inductive Node where
  | text (s : Str)
  /-- `{{pipeline}}` -/
  | print (cmd : List Arg)
  /-- `{{$x := pipeline}}` -/
  | declare (x : Str) (cmd : List Arg)
  /-- `{{if pipeline}} ... {{else}} ... {{end}}` -/
  | cond (cmd : List Arg) (yes no : List Node)
  /-- `{{range $x := pipeline}} ... {{else}} ... {{end}}` -/
  | range (x : Str) (cmd : List Arg) (body none : List Node)
  /-- `{{range pipeline}} ... {{else}} ... {{end}}` -/
  | each (cmd : List Arg) (body none : List Node)
  /-- `{{with pipeline}} ... {{else}} ... {{end}}` -/
  | with_ (cmd : List Arg) (yes no : List Node)
  deriving Repr

/-- The fields that follow an operand. -/
def parseFields : List Tok → List Str × List Tok
  | .field f :: rest => let (fs, rest) := parseFields rest; (f :: fs, rest)
  | rest => ([], rest)

def skipSpace : List Tok → List Tok
  | .space :: rest => rest
  | rest => rest

/-- The functions that templates may call here: builtins of text/template and those of cmd_generate.go:269-278.
A template with another function is not accepted, even where the function is not called: `Parse` looks functions
up. -/
def knownFn (f : Str) : Bool :=
  f = g!"or" || f = g!"and" || f = g!"not" || f = g!"eq" || f = g!"ne" || f = g!"printf" || f = g!"up" || f = g!"down" ||
    f = g!"upFirst" || f = g!"downFirst" || f = g!"replace" || f = g!"snake"

/-- An operand ends where a space, a pipe, `)` or `}}` follows. -/
def endsOperand : List Tok → Bool
  | .space :: _ => true
  | .pipe :: _ => true
  | .rparen :: _ => true
  | .right :: _ => true
  | _ => false

/-- `checkPipeline`: constants and `.` cannot take the value of the command before. -/
def executable : Arg → Bool
  | .dot [] => false
  | .str _ => false
  | .bool _ => false
  | _ => true

/-- The end of a command of a pipeline, with its operands in reverse: the value of the command before, `prev`, is
its last operand. -/
def endCmd (prev : Option Arg) (acc : List Arg) : Option (List Arg) :=
  match acc.reverse, prev with
  | [], _ => none
  | a :: as, none => some (a :: as)
  | a :: as, some p => if executable a then some (a :: as ++ [p]) else none

/-- A word in a command: a constant or a function. -/
def wordArg (f : Str) : Option Arg :=
  if f = g!"true" then some (.bool true)
  else if f = g!"false" then some (.bool false)
  else if knownFn f then some (.fn f)
  else none

/-- `pipeline`, `command` and `operand` of text/template/parse/parse.go: commands separated by `|`, of operands
separated by spaces, up to `}}` or `)`, which is not consumed.  `x | f y` is `f y (x)`. -/
def parsePipe : Nat → Option Arg → List Arg → List Tok → Option (List Arg × List Tok)
  | 0, _, _, _ => none
  | fuel + 1, prev, acc, toks =>
    match toks with
    | .right :: _ => (endCmd prev acc).map fun cmd => (cmd, toks)
    | .rparen :: _ => (endCmd prev acc).map fun cmd => (cmd, toks)
    | .pipe :: rest => do
      let cmd ← endCmd prev acc
      parsePipe fuel (some (.paren cmd)) [] rest
    | .space :: rest => parsePipe fuel prev acc rest
    | .dot :: rest => if endsOperand rest then parsePipe fuel prev (.dot [] :: acc) rest else none
    | .field f :: rest =>
      let (fs, rest) := parseFields rest
      if endsOperand rest then parsePipe fuel prev (.dot (f :: fs) :: acc) rest else none
    | .var x :: rest =>
      let (fs, rest) := parseFields rest
      if endsOperand rest then parsePipe fuel prev (.var x fs :: acc) rest else none
    | .str s :: rest => if endsOperand rest then parsePipe fuel prev (.str s :: acc) rest else none
    | .ident f :: rest => do
      let a ← wordArg f
      if endsOperand rest then parsePipe fuel prev (a :: acc) rest else none
    | .lparen :: rest => do
      let (inner, rest) ← parsePipe fuel none [] rest
      match rest with
      | .rparen :: rest => if endsOperand rest then parsePipe fuel prev (.paren inner :: acc) rest else none
      | _ => none
    | _ => none

/-- A pipeline up to and including `}}`. -/
def parseCmd (toks : List Tok) : Option (List Arg × List Tok) := do
  let (as, rest) ← parsePipe toks.length none [] toks
  match rest with
  | .right :: rest => return (as, rest)
  | _ => none

/-- What ends a list of nodes. -/
inductive Stop where
  | eof
  | els
  /-- `{{else if`, the condition follows -/
  | elsIf
  | fin
  deriving DecidableEq, Repr

/-- `$x :=` after `range`, if it is there. -/
def rangeVar (toks : List Tok) : Option Str × List Tok :=
  match skipSpace toks with
  | .var x :: rest =>
    match skipSpace rest with
    | .declare :: rest => (some x, rest)
    | _ => (none, toks)
  | _ => (none, toks)

def rangeNode (x : Option Str) (cmd : List Arg) (body no : List Node) : Node :=
  match x with
  | some x => .range x cmd body no
  | none => .each cmd body no

/-- `itemList`, `action`, `ifControl`, `rangeControl`, `withControl`, `elseControl`, `endControl` of parse.go. -/
def parseNodes : Nat → List Tok → Option (List Node × Stop × List Tok)
  | 0, _ => none
  | fuel + 1, toks =>
    match toks with
    | [] => some ([], .eof, [])
    | .text s :: rest => do
      let (ns, stop, rest) ← parseNodes fuel rest
      return (.text s :: ns, stop, rest)
    | .left :: rest =>
      match skipSpace rest with
      | .ident f :: rest' =>
        if f = g!"end" then
          match skipSpace rest' with
          | .right :: rest' => some ([], .fin, rest')
          | _ => none
        else if f = g!"else" then
          match skipSpace rest' with
          | .right :: rest' => some ([], .els, rest')
          | .ident f :: rest' => if f = g!"if" then some ([], .elsIf, rest') else none
          | _ => none
        else if f = g!"if" then do
          let (cmd, rest') ← parseCmd rest'
          let (yes, stop, rest') ← parseNodes fuel rest'
          match stop with
          | .elsIf => do
            match ← parseNodes fuel (.left :: .ident g!"if" :: rest') with
            | (no :: ns, stop, rest') => return (.cond cmd yes [no] :: ns, stop, rest')
            | _ => none
          | _ => do
            let (no, stop, rest') ← match stop with
              | .els => parseNodes fuel rest'
              | _ => some ([], stop, rest')
            match stop with
            | .fin => do
              let (ns, stop, rest') ← parseNodes fuel rest'
              return (.cond cmd yes no :: ns, stop, rest')
            | _ => none
        else if f = g!"with" then do
          let (cmd, rest') ← parseCmd rest'
          let (yes, stop, rest') ← parseNodes fuel rest'
          let (no, stop, rest') ← match stop with
            | .els => parseNodes fuel rest'
            | _ => some ([], stop, rest')
          match stop with
          | .fin => do
            let (ns, stop, rest') ← parseNodes fuel rest'
            return (.with_ cmd yes no :: ns, stop, rest')
          | _ => none
        else if f = g!"range" then do
          let (x, rest') := rangeVar rest'
          let (cmd, rest') ← parseCmd rest'
          let (yes, stop, rest') ← parseNodes fuel rest'
          let (no, stop, rest') ← match stop with
            | .els => parseNodes fuel rest'
            | _ => some ([], stop, rest')
          match stop with
          | .fin => do
            let (ns, stop, rest') ← parseNodes fuel rest'
            return (rangeNode x cmd yes no :: ns, stop, rest')
          | _ => none
        else do
          let (cmd, rest') ← parseCmd (.ident f :: rest')
          let (ns, stop, rest') ← parseNodes fuel rest'
          return (.print cmd :: ns, stop, rest')
      | .var x :: rest' =>
        match skipSpace rest' with
        | .declare :: rest' => do
          let (cmd, rest') ← parseCmd rest'
          let (ns, stop, rest') ← parseNodes fuel rest'
          return (.declare x cmd :: ns, stop, rest')
        | _ => do
          let (cmd, rest') ← parseCmd (.var x :: rest')
          let (ns, stop, rest') ← parseNodes fuel rest'
          return (.print cmd :: ns, stop, rest')
      | rest' => do
        let (cmd, rest') ← parseCmd rest'
        let (ns, stop, rest') ← parseNodes fuel rest'
        return (.print cmd :: ns, stop, rest')
    | _ => none

mutual

/-- The variables in an operand are known. -/
def Arg.scoped (vars : List Str) : Arg → Bool
  | .var x _ => vars.contains x
  | .paren args => argsScoped vars args
  | _ => true

def argsScoped (vars : List Str) : List Arg → Bool
  | [] => true
  | a :: as => a.scoped vars && argsScoped vars as

end

mutual

/-- `useVar` of parse.go: the variables known after a node; `none` if the node uses an unknown variable.  A variable
is known in the pipeline that declares it, and what is declared in one branch is known in the next. -/
def Node.scoped : List Str → Node → Option (List Str)
  | vars, .text _ => some vars
  | vars, .print cmd => if argsScoped vars cmd then some vars else none
  | vars, .declare x cmd => if argsScoped (x :: vars) cmd then some (x :: vars) else none
  | vars, .cond cmd yes no =>
    if argsScoped vars cmd then ((nodesScoped vars yes).bind fun vs => nodesScoped vs no).map fun _ => vars else none
  | vars, .range x cmd body no =>
    if argsScoped (x :: vars) cmd then ((nodesScoped (x :: vars) body).bind fun vs => nodesScoped vs no).map fun _ => vars
    else none
  | vars, .each cmd body no =>
    if argsScoped vars cmd then ((nodesScoped vars body).bind fun vs => nodesScoped vs no).map fun _ => vars else none
  | vars, .with_ cmd yes no =>
    if argsScoped vars cmd then ((nodesScoped vars yes).bind fun vs => nodesScoped vs no).map fun _ => vars else none

def nodesScoped : List Str → List Node → Option (List Str)
  | vars, [] => some vars
  | vars, n :: ns => (n.scoped vars).bind fun vs => nodesScoped vs ns

end

/-- `template.Parse`.  The variable `$`, with the empty name, is always known. -/
def parse (s : Str) : Option (List Node) := do
  let toks ← lex s
  let (ns, stop, _) ← parseNodes (toks.length + 1) toks
  match stop with
  | .eof => if (nodesScoped [[]] ns).isSome then return ns else none
  | _ => none

/-! ## Values -/

/-- The values that templates see. -/
inductive TVal where
  /-- a missing key of a map -/
  | nil
  | str (s : Str)
  | bool (b : Bool)
  | list (l : List TVal)
  /-- a map with string keys, in the order of the Go map -/
  | map (entries : List (Str × TVal))
  | struct (fields : List (Str × TVal))
  /-- `Options.Vars`, a map given by its lookup function -/
  | vars (vs : Str → Option VarValue)
  | method (m : Method)
  | param (p : Param)

/-- `.Vars` as a whole: whether it is empty is not modelled. -/
def TVal.opaque : TVal → Bool
  | .vars _ => true
  | _ => false

/-- `text/template.IsTrue`, for values that are not opaque.  Structs are true. -/
def TVal.truth : TVal → Bool
  | .nil => false
  | .str s => s ≠ []
  | .bool b => b
  | .list l => l ≠ []
  | .map es => es ≠ []
  | .struct _ => true
  | .vars _ => true
  | .method _ => true
  | .param _ => true

/-- `fmt.Fprint` in `printValue`. -/
def TVal.print : TVal → Option Str
  | .nil => some g!"<no value>"
  | .str s => some s
  | .bool b => some (if b then g!"true" else g!"false")
  | _ => none

/-- `%s` of `fmt.Sprintf`. -/
def TVal.percentS : TVal → Option Str
  | .nil => some g!"%!s(<nil>)"
  | .str s => some s
  | .bool b => some (if b then g!"%!s(bool=true)" else g!"%!s(bool=false)")
  | _ => none

/-- `fmt.Sprintf` with a format in which every verb is `%s` and the number of verbs is that of the arguments. -/
def sprintf : Str → List TVal → Option Str
  | [], [] => some []
  | '%' :: 's' :: rest, v :: vs => do
    let s ← v.percentS
    let r ← sprintf rest vs
    return s ++ r
  | '%' :: _, _ => none
  | c :: rest, vs => do
    let r ← sprintf rest vs
    return c :: r
  | [], _ :: _ => none

/-- The fields and methods of `Method` and `Param` (generator/types.go:13-32, 230-369). -/
def Method.access (m : Method) (f : Str) (args : List TVal) : Option TVal :=
  match args with
  | [] =>
    if f = g!"Name" then some (.str m.name)
    else if f = g!"Params" then some (.list (m.params.map .param))
    else if f = g!"Results" then some (.list (m.results.map .param))
    else if f = g!"ReturnsError" then some (.bool m.returnsError)
    else if f = g!"AcceptsContext" then some (.bool m.acceptsContext)
    else if f = g!"HasParams" then some (.bool m.hasParams)
    else if f = g!"HasResults" then some (.bool m.hasResults)
    else if f = g!"Call" then some (.str m.call)
    else if f = g!"ParamsNames" then some (.str m.paramsNames)
    else if f = g!"ResultsNames" then some (.str m.resultsNames)
    else if f = g!"ParamsStruct" then some (.str m.paramsStruct)
    else if f = g!"ParamPtrsStruct" then some (.str m.paramPtrsStruct)
    else if f = g!"ResultsStruct" then some (.str m.resultsStruct)
    else if f = g!"ParamsMap" then some (.str m.paramsMap)
    else if f = g!"ResultsMap" then some (.str m.resultsMap)
    else if f = g!"Signature" then some (.str m.signature)
    else if f = g!"Declaration" then some (.str m.declaration)
    else none
  | [.str s] =>
    if f = g!"Pass" then some (.str (m.pass s))
    else if f = g!"ReturnStruct" then some (.str (m.returnStruct s))
    else none
  | _ => none

/-- The fields and methods of `Param`. -/
def Param.access (p : Param) (f : Str) : Option TVal :=
  if f = g!"Name" then some (.str p.name)
  else if f = g!"Type" then some (.str p.type)
  else if f = g!"Variadic" then some (.bool p.variadic)
  else if f = g!"Pass" then some (.str p.pass)
  else none

/-- The value of a `-v` flag; a missing key is nil. -/
def ofVar : Option VarValue → TVal
  | none => .nil
  | some (.text s) => .str s
  | some .flag => .bool true

/-- All values are strings. -/
def strings : List TVal → Option (List Str)
  | [] => some []
  | .str s :: vs => do
    let ss ← strings vs
    return s :: ss
  | _ :: _ => none

/-- `TemplateInputs.Import`, generator/generator.go:48-84, called by a template.  The order of the map does not
matter (C29).  A panic in a method makes the execution fail. -/
def importCall (fs : List (Str × TVal)) (args : List TVal) : Option TVal :=
  match fs.lookup g!"Imports" with
  | some (.list l) => do
    let source ← strings l
    let imports ← strings args
    match importBlock id source imports with
    | .ok s => some (.str s)
    | _ => none
  | _ => none

/-- `evalField`: a field, a method or a key. -/
def TVal.access (v : TVal) (f : Str) (args : List TVal) : Option TVal :=
  match v with
  | .method m => Method.access m f args
  | .param p => match args with
    | [] => Param.access p f
    | _ => none
  | .map es => match args with
    | [] => some ((es.lookup f).getD .nil)
    | _ => none
  | .struct fs =>
    if f = g!"Import" then importCall fs args
    else match args with
      | [] => fs.lookup f
      | _ => none
  | .vars vs => match args with
    | [] => some (ofVar (vs f))
    | _ => none
  | _ => none

/-- `evalFieldChain`: the arguments belong to the last field. -/
def TVal.chain (v : TVal) : List Str → List TVal → Option TVal
  | [], [] => some v
  | [], _ :: _ => none
  | [f], args => v.access f args
  | f :: fs, args => do
    let v ← v.access f []
    v.chain fs args

/-- `basicEq` for strings and bools. -/
def TVal.eqv : TVal → TVal → Option Bool
  | .str a, .str b => some (a = b)
  | .bool a, .bool b => some (a = b)
  | _, _ => none

/-- `upFirst` with `unicode.ToUpper` and `downFirst` with `unicode.ToLower` for `f`, cmd_generate.go:280-292, on valid
UTF-8 (for all strings see `mapFirst`). -/
def onFirst (f : Char → Char) : Str → Str
  | [] => []
  | c :: s => f c :: s

/-- The loop of `strings.Replace` for an `old` that is not empty; the first argument is a bound on the length. -/
def replaceLoop (old new : Str) : Nat → Str → Str
  | 0, s => s
  | _ + 1, [] => []
  | n + 1, c :: s =>
    if hasPrefix (c :: s) old then new ++ replaceLoop old new n ((c :: s).drop old.length) else c :: replaceLoop old new n s

/-- `strings.ReplaceAll` on valid UTF-8: an empty `old` is found before every code point and at the end. -/
def replaceAll (s old new : Str) : Str :=
  if old = [] then new ++ s.flatMap (fun c => c :: new) else replaceLoop old new s.length s

/-- The functions that only templates from elsewhere call: `ne`, and of cmd_generate.go:269-278 `up`, `upFirst`,
`downFirst` and `replace`. -/
def moreFn (u : Uni) (f : Str) (args : List TVal) : Option TVal :=
  if f = g!"ne" then match args with
    | [a, b] => (a.eqv b).map fun b => .bool !b
    | _ => none
  else if f = g!"up" then match args with
    | [.str s] => some (.str (u.upper s))
    | _ => none
  else if f = g!"upFirst" then match args with
    | [.str s] => some (.str (onFirst u.toUpper s))
    | _ => none
  else if f = g!"downFirst" then match args with
    | [.str s] => some (.str (onFirst u.toLower s))
    | _ => none
  else if f = g!"replace" then match strings args with
    | some [s, old, new] => some (.str (replaceAll s old new))
    | _ => none
  else none

/-- The functions: builtins of text/template and those of cmd_generate.go:269-278; the functions of sprig are
left out. -/
def callFn (u : Uni) (f : Str) (args : List TVal) : Option TVal :=
  if f = g!"or" then orFn args
  else if f = g!"and" then andFn args
  else if f = g!"not" then match args with
    | [v] => if v.opaque then none else some (.bool !v.truth)
    | _ => none
  else if f = g!"eq" then match args with
    | [a, b] => (a.eqv b).map .bool
    | _ => none
  else if f = g!"printf" then match args with
    | .str fmt :: vs => (sprintf fmt vs).map .str
    | _ => none
  else if f = g!"down" then match args with
    | [.str s] => some (.str (u.lower s))
    | _ => none
  else if f = g!"snake" then match args with
    | [.str s] => some (.str (u.snake s))
    | _ => none
  else moreFn u f args
where
  /-- the first true argument, or the last -/
  orFn : List TVal → Option TVal
    | [] => none
    | [v] => some v
    | v :: vs => if v.opaque then none else if v.truth then some v else orFn vs
  /-- the first false argument, or the last -/
  andFn : List TVal → Option TVal
    | [] => none
    | [v] => some v
    | v :: vs => if v.opaque then none else if v.truth then andFn vs else some v

/-! ## Execution -/

/-- The variables, the innermost first, and the value of `.`. -/
structure Scope where
  vars : List (Str × TVal)
  dot : TVal

def Scope.bind (sc : Scope) (x : Str) (v : TVal) : Scope := { sc with vars := (x, v) :: sc.vars }

mutual

/-- `evalArg`: an operand as an argument. -/
def evalArg (u : Uni) (sc : Scope) : Arg → Option TVal
  | .dot fs => sc.dot.chain fs []
  | .var x fs => do
    let v ← sc.vars.lookup x
    v.chain fs []
  | .str s => some (.str s)
  | .bool b => some (.bool b)
  | .fn f => callFn u f []
  | .paren args => evalCmd u sc args

def evalArgs (u : Uni) (sc : Scope) : List Arg → Option (List TVal)
  | [] => some []
  | a :: as => do
    let v ← evalArg u sc a
    let vs ← evalArgs u sc as
    return v :: vs

/-- `evalCommand`: the first operand is applied to the others. -/
def evalCmd (u : Uni) (sc : Scope) : List Arg → Option TVal
  | [] => none
  | .dot fs :: as => do
    let vs ← evalArgs u sc as
    sc.dot.chain fs vs
  | .var x fs :: as => do
    let vs ← evalArgs u sc as
    let v ← sc.vars.lookup x
    v.chain fs vs
  | .fn f :: as => do
    let vs ← evalArgs u sc as
    callFn u f vs
  | .str s :: [] => some (.str s)
  | .str _ :: _ :: _ => none
  | .bool b :: [] => some (.bool b)
  | .bool _ :: _ :: _ => none
  | .paren args :: [] => evalCmd u sc args
  | .paren _ :: _ :: _ => none

end

/-- The elements over which `range` goes; the entries of a map in the order of the keys. -/
def TVal.elements : TVal → Option (List TVal)
  | .list l => some l
  | .map es => some ((sortBy (fun a b => decide (a.1 ≤ b.1)) es).map (·.2))
  | _ => none

/-- The body of a `range` for every element. -/
def rangeLoop (body : TVal → Str → Option Str) : List TVal → Str → Option Str
  | [], w => some w
  | v :: vs, w => do
    let w ← body v w
    rangeLoop body vs w

mutual

/-- `walk`; `w` is what has been written so far. -/
def execNode (u : Uni) (sc : Scope) : Node → Str → Option Str
  | .text s, w => some (w ++ s)
  | .print cmd, w => do
    let v ← evalCmd u sc cmd
    let s ← v.print
    return w ++ s
  | .declare _ _, w => some w
  | .cond cmd yes no, w => do
    let v ← evalCmd u sc cmd
    if v.opaque then none else if v.truth then execNodes u sc yes w else execNodes u sc no w
  | .range x cmd body no, w => do
    let v ← evalCmd u sc cmd
    match ← v.elements with
    | [] => execNodes u sc no w
    | vs => rangeLoop (fun v w => execNodes u { sc.bind x v with dot := v } body w) vs w
  | .each cmd body no, w => do
    let v ← evalCmd u sc cmd
    match ← v.elements with
    | [] => execNodes u sc no w
    | vs => rangeLoop (fun v w => execNodes u { sc with dot := v } body w) vs w
  | .with_ cmd yes no, w => do
    let v ← evalCmd u sc cmd
    if v.opaque then none else if v.truth then execNodes u { sc with dot := v } yes w else execNodes u sc no w

/-- `walk` over a list; a variable is known in the rest of the list. -/
def execNodes (u : Uni) (sc : Scope) : List Node → Str → Option Str
  | [], w => some w
  | n :: ns, w =>
    match n with
    | .declare x cmd => do
      let v ← evalCmd u sc cmd
      execNodes u (sc.bind x v) ns w
    | n => do
      let w ← execNode u sc n w
      execNodes u sc ns w

end

/-- `Template.Execute`. -/
def execute (u : Uni) (ns : List Node) (data : TVal) : Option Str := execNodes u ⟨[([], data)], data⟩ ns []

/-! ## The data of gowrap -/

/-- `TemplateInputs`, generator/generator.go:39-46 and 86-96; its method `Import` is `importCall`.
The methods are in the order of the Go map. -/
structure Inputs where
  name : Str
  type : Str
  genericTypes : Str
  genericParams : Str
  methods : Methods
  vars : Str → Option VarValue
  imports : List Str

/-- The data with which the body template is executed, generator/generator.go:315-327. -/
def Inputs.value (d : Inputs) : TVal :=
  .struct [
    (g!"Interface", .struct [
      (g!"Name", .str d.name),
      (g!"Type", .str d.type),
      (g!"Generics", .struct [(g!"Types", .str d.genericTypes), (g!"Params", .str d.genericParams)]),
      (g!"Methods", .map (d.methods.map fun e => (e.1, .method e.2)))]),
    (g!"Vars", .vars d.vars),
    (g!"Imports", .list (d.imports.map .str))]

/-- Executing the body template, generator/generator.go:175 and 315-327; `none` if it cannot be parsed or
executed, or uses what is not modelled. -/
def render (u : Uni) (body : Str) (d : Inputs) : Option Str := do
  let ns ← parse body
  execute u ns d.value

end Gowrap.Tmpl
