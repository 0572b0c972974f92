import Verif.Proofs.SymFill
/-!
# Executing templates on holes

`symExec` computes the text which the body of a template produces for a method of which only the shape is known.
It is not trusted: the results are compared with the template language by computation.
-/

namespace Gowrap.Tmpl

open Gowrap Go

/-- What templates ask about a method and a parameter. -/
structure Shape where
  hasParams : Bool
  hasResults : Bool
  returnsError : Bool
  acceptsContext : Bool
  isCtx : Bool

def chars (s : Str) : List (Sym Hole) := s.map .c

/-- A part of the text. -/
inductive Piece where
  | lit (s : Str)
  | hole (h : Hole)
  /-- `$method.Call` -/
  | call
  /-- `$method.Declaration` -/
  | decl
  /-- `$method.Pass` -/
  | pass (pre : List (Sym Hole))
  /-- `$method.ReturnStruct "_res"` -/
  | retStruct
  /-- `printf "%s.%s" $component $method.Name` -/
  | spanName

/-- The value of `$span_name`. -/
def Fill.spanName (f : Fill) : Str := f.component ++ '.' :: (f.m.name ++ [])

def Piece.text (f : Fill) : Piece → Str
  | .lit s => s
  | .hole h => f.htext h
  | .call => f.m.call
  | .decl => f.m.declaration
  | .pass pre => f.m.pass (f.sub.expand pre)
  | .retStruct => f.m.returnStruct g!"_res"
  | .spanName => f.spanName

def callFlat : List (Sym Hole) := [.h .method, .c '(', .h .args, .c ')']

/-- The characters and holes of a piece. -/
def Piece.flat (hasResults : Bool) : Piece → List (Sym Hole)
  | .lit s => chars s
  | .hole h => [.h h]
  | .call => callFlat
  | .decl => [.h .method, .c '(', .h .plist, .c ')', .c ' ', .c '(', .h .rlist, .c ')']
  | .pass pre => bif hasResults then chars g!"return " ++ (pre ++ callFlat) else pre ++ (callFlat ++ chars g!"\nreturn")
  | .retStruct => bif hasResults then chars g!"return " ++ [.h .resFields] else chars g!"return"
  | .spanName => [.h .component, .c '.', .h .method]

def flatten (hasResults : Bool) : List Piece → List (Sym Hole)
  | [] => []
  | p :: ps => p.flat hasResults ++ flatten hasResults ps

/-- Writing the pieces. -/
def writePieces (f : Fill) : List Piece → Str → Str
  | [], w => w
  | p :: ps, w => writePieces f ps (w ++ p.text f)

/-- Conditions. -/
def symBool (sh : Shape) : Arg → Option Bool
  | .var x [f] =>
    if x = g!"method" then
      if f = g!"ReturnsError" then some sh.returnsError
      else if f = g!"AcceptsContext" then some sh.acceptsContext
      else if f = g!"HasParams" then some sh.hasParams
      else if f = g!"HasResults" then some sh.hasResults
      else none
    else none
  | .paren [.fn f, a, b] =>
    if f = g!"and" then do
      let a ← symBool sh a
      let b ← symBool sh b
      return a && b
    else match a, b with
      | .var _ _, .str _ => if f = g!"eq" then some sh.isCtx else none
      | _, _ => none
  | _ => none

def symCond (sh : Shape) : List Arg → Option Bool
  | [a] => symBool sh a
  | [.fn f, a] => if f = g!"not" then (symBool sh a).map (!·) else none
  | _ => none

def ifaceField (f : Str) : Option Hole :=
  if f = g!"Name" then some .iface else if f = g!"Type" then some .typ else none

/-- The text of an action. -/
def symPrint : List Arg → Option Piece
  | [.dot [_, f]] => (ifaceField f).map .hole
  | [.var x []] =>
    if x = g!"decorator" then some (.hole .dec)
    else if x = g!"decorator_option" then some (.hole .option)
    else if x = g!"component" then some (.hole .component)
    else if x = g!"metric_name" then some (.hole .metric)
    else if x = g!"spanNameType" then some (.hole .span)
    else if x = g!"span_name" then some .spanName
    else none
  | [.var x [f]] =>
    if x = g!"param" then if f = g!"Name" then some (.hole .param) else none
    else if f = g!"Name" then some (.hole .method)
    else if f = g!"Declaration" then some .decl
    else if f = g!"Call" then some .call
    else if f = g!"ParamsNames" then some (.hole .pnames)
    else if f = g!"ResultsNames" then some (.hole .rnames)
    else if f = g!"ParamsMap" then some (.hole .pmap)
    else if f = g!"ResultsMap" then some (.hole .rmap)
    else if f = g!"ResultsStruct" then some (.hole .rstruct)
    else none
  | [.var _ [_, f]] => (ifaceField f).map .hole
  | [.fn _, _] => some (.hole .down)
  | [.paren _] => some (.hole .snake)
  | [.var _ [f], .str s] =>
    if f = g!"Pass" then some (.pass (chars s))
    else if f = g!"ReturnStruct" then some .retStruct
    else none
  | [.var _ [_], .paren _] => some (.pass [.c '_', .c 'd', .c '.', .h .iface, .c '.'])
  | _ => none

/-- Which loop it is. -/
def loopHole (x : Str) (body : List Node) : Hole :=
  if x = g!"param" then .ploop
  else match body with
    | [_, .cond _ (.print _ :: _) _, _] => .config
    | _ => .methods

mutual

/-- The loops replaced by the text that they write. -/
def fillLoop (f : Fill) : Node → Node
  | .text s => .text s
  | .print cmd => .print cmd
  | .declare x cmd => .declare x cmd
  | .cond cmd yes no => .cond cmd (fillLoops f yes) (fillLoops f no)
  | .range x _ body _ => .text (f.htext (loopHole x body))
  | .each cmd body no => .each cmd body no
  | .with_ cmd yes no => .with_ cmd yes no

def fillLoops (f : Fill) : List Node → List Node
  | [] => []
  | n :: ns => fillLoop f n :: fillLoops f ns

end

mutual

/-- The loops, and the names that are declared outside of the loops. -/
def loopsIn : Node → List Node × List Str
  | .text _ => ([], [])
  | .print _ => ([], [])
  | .declare x _ => ([], [x])
  | .cond _ yes no => ((loopsOf yes).1 ++ (loopsOf no).1, (loopsOf yes).2 ++ (loopsOf no).2)
  | .range x cmd body no => ([.range x cmd body no], [])
  | .each _ _ _ => ([], [])
  | .with_ _ _ _ => ([], [])

def loopsOf : List Node → List Node × List Str
  | [] => ([], [])
  | n :: ns => ((loopsIn n).1 ++ (loopsOf ns).1, (loopsIn n).2 ++ (loopsOf ns).2)

end

mutual

def symNode (sh : Shape) : Node → Option (List Piece)
  | .text s => some [.lit s]
  | .print cmd => (symPrint cmd).map ([·])
  | .declare _ _ => some []
  | .cond cmd yes no => do
    if ← symCond sh cmd then symNodes sh yes else symNodes sh no
  | .range x _ body _ => some [.hole (loopHole x body)]
  | .each _ _ _ => none
  | .with_ _ _ _ => none

def symNodes (sh : Shape) : List Node → Option (List Piece)
  | [] => some []
  | n :: ns => do
    let a ← symNode sh n
    let b ← symNodes sh ns
    return a ++ b

end

end Gowrap.Tmpl
