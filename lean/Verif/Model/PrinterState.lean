import Verif.Model.Printer
/-!
# printer/printer.go with its scratch buffer

`Model/Printer.lean` describes what `PrintType` computes.  Here the same functions are modelled as they
are written: with the buffer `p.buf` shared by all calls, with the deferred `Reset`, and with
`go/printer.Fprint` as a writer that can fail after having written a part of its output.
-/

namespace Gowrap

/-- `Printer` (printer/printer.go:14-32) without the buffer. `fprint` is `go/printer.Fprint`: what it
writes and the error it returns. -/
structure PrinterCfg where
  uni : Uni
  fprint : Expr → Str × Option Err
  types : List Str
  pref : Str

/-- What a Go function with results `(string, error)` can do: return, or panic. -/
inductive Ret where
  | ret (s : Str) (err : Option Err)
  | panic
  deriving DecidableEq, Repr

/-- A method of `*Printer`: from the contents of the buffer to the result and the new contents. -/
abbrev PM := Str → Ret × Str

/-- `x, err := m; if err != nil { return "", err }; rest` -/
def PM.andThen (m : PM) (rest : Str → PM) : PM := fun buf =>
  match m buf with
  | (.ret s none, buf) => rest s buf
  | (.ret _ (some e), buf) => (.ret [] (some e), buf)
  | (.panic, buf) => (.panic, buf)

/-- `defer p.buf.Reset()` around a function body (printer/printer.go:39, 51); it also runs on a panic. -/
def PM.resetting (m : PM) : PM := fun buf => ((m buf).1, [])

/-- `return s, nil` -/
def PM.pure (s : Str) : PM := fun buf => (.ret s none, buf)

/-- `err := printer.Fprint(p.buf, p.fs, node); return p.buf.String(), err`
(printer/printer.go:41-43, 76-77, 154-155): the output goes behind whatever is in the buffer. -/
def fprintBuf (cfg : PrinterCfg) (node : Expr) : PM := fun buf =>
  let out := buf ++ (cfg.fprint node).1
  (.ret out (cfg.fprint node).2, out)

/-- `(*Printer).Print`, printer/printer.go:35-44. -/
def printNodeM (cfg : PrinterCfg) : Option Expr → PM
  | none => PM.pure []
  | some node => PM.resetting (fprintBuf cfg node)

/-- `(*Printer).printIdent`, printer/printer.go:136-156. -/
def printIdentM (cfg : PrinterCfg) (name : Str) : PM :=
  if cfg.types.contains name then
    if cfg.pref.length > 0 then
      match cfg.uni.looksUnexported name with
      | none => fun buf => (.panic, buf)
      | some true => fun buf => (.ret [] (some (.unexportedType name)), buf)
      | some false => PM.pure (cfg.pref ++ g!"." ++ name)
    else PM.pure name
  else fprintBuf cfg (.ident name)

mutual
/-- `(*Printer).PrintType`, printer/printer.go:50-78. -/
def printTypeM (cfg : PrinterCfg) : Expr → PM
  | .funcT params results => PM.resetting <|
    printFieldsM cfg params fun ps => printResultsM cfg results fun rs =>
      PM.pure (g!"func(" ++ join g!", " ps ++ g!") (" ++ join g!", " rs ++ g!")")
  | .star x => PM.resetting <| (printTypeM cfg x).andThen fun s => PM.pure (g!"*" ++ s)
  | .ellipsis elt => PM.resetting <| (printTypeM cfg elt).andThen fun s => PM.pure (g!"..." ++ s)
  | .chanT dir value => PM.resetting <| (printTypeM cfg value).andThen fun s => PM.pure (chanTypes dir ++ s)
  | .array len elt => PM.resetting <| (printTypeM cfg elt).andThen fun s =>
      (printNodeM cfg len).andThen fun l => PM.pure (g!"[" ++ l ++ g!"]" ++ s)
  | .mapT key value => PM.resetting <| (printTypeM cfg key).andThen fun k =>
      (printTypeM cfg value).andThen fun v => PM.pure (g!"map[" ++ k ++ g!"]" ++ v)
  | .structT fields => PM.resetting <|
      printFieldsM cfg fields fun fs => PM.pure (g!"struct{\n" ++ join g!"\n" fs ++ g!"\n}")
  | .ident name => PM.resetting <| printIdentM cfg name
  | .index x idx => PM.resetting <| (printTypeM cfg x).andThen fun t =>
      (printTypeM cfg idx).andThen fun g => PM.pure (t ++ g!"[" ++ g ++ g!"]")
  | .indexList x indices => PM.resetting <| (printTypeM cfg x).andThen fun t =>
      printIndicesM cfg (t ++ g!"[") indices
  | .selector x sel => PM.resetting <| fprintBuf cfg (.selector x sel)
  | .sliceExpr x => PM.resetting <| fprintBuf cfg (.sliceExpr x)
  | .ifaceT ms => PM.resetting <| fprintBuf cfg (.ifaceT ms)
  | .paren x => PM.resetting <| fprintBuf cfg (.paren x)
  | .lit t => PM.resetting <| fprintBuf cfg (.lit t)
  | .unary o x => PM.resetting <| fprintBuf cfg (.unary o x)
  | .binary o x y => PM.resetting <| fprintBuf cfg (.binary o x y)
  | .other t => PM.resetting <| fprintBuf cfg (.other t)

/-- The loop of `printGenericList`, printer/printer.go:179-190. -/
def printIndicesM (cfg : PrinterCfg) (baseStr : Str) : List Expr → PM
  | [] => PM.pure baseStr
  | e :: es => (printTypeM cfg e).andThen fun generic =>
    if es.isEmpty then printIndicesM cfg (baseStr ++ generic ++ g!"]") es
    else printIndicesM cfg (baseStr ++ generic ++ g!", ") es

/-- `(*Printer).fieldList`, printer/printer.go:222-244, followed by the rest of its caller (which
returns `""` and the error if there is one). -/
def printFieldsM (cfg : PrinterCfg) : List Field → (List Str → PM) → PM
  | [], k => k []
  | f :: fs, k => printFieldM cfg f fun s => printFieldsM cfg fs fun rest => k (s :: rest)

/-- One iteration of `fieldList`, printer/printer.go:230-240. -/
def printFieldM (cfg : PrinterCfg) : Field → (Str → PM) → PM
  | .mk _ _ names type _, k => (printTypeM cfg type).andThen fun t => k (join g!", " names ++ g!" " ++ t)

/-- `fieldList` on a possibly nil list, printer/printer.go:223-225. -/
def printResultsM (cfg : PrinterCfg) : Option (List Field) → (List Str → PM) → PM
  | none, k => k []
  | some fs, k => printFieldsM cfg fs k
end

/-- One call on a printer. -/
inductive PrinterCall where
  | print (node : Option Expr)
  | printType (node : Expr)

/-- A call of an exported method. -/
def PrinterCall.run (cfg : PrinterCfg) : PrinterCall → PM
  | .print node => printNodeM cfg node
  | .printType node => printTypeM cfg node

/-- A sequence of calls on one printer; a caller that recovers from a panic can go on using it. -/
def runCalls (cfg : PrinterCfg) (buf : Str) : List PrinterCall → List Ret
  | [] => []
  | c :: cs => (c.run cfg buf).1 :: runCalls cfg (c.run cfg buf).2 cs

/-- The buffer of a new printer, printer/printer.go:30. -/
def freshBuf : Str := []

end Gowrap
