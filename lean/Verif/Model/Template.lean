import Verif.Model.Generator
/-!
# Model of what a template sees: the import block and the order of methods
-/

namespace Gowrap

/-- `unicode.IsSpace`. -/
def isSpace (c : Char) : Bool :=
  let v := c.val
  (9 ≤ v && v ≤ 13) || v = 0x20 || v = 0x85 || v = 0xA0 || v = 0x1680 || (0x2000 ≤ v && v ≤ 0x200a) ||
    v = 0x2028 || v = 0x2029 || v = 0x202f || v = 0x205f || v = 0x3000

/-- `strings.TrimSpace`. -/
def trimSpace (s : Str) : Str := ((s.dropWhile isSpace).reverse.dropWhile isSpace).reverse

/-- Insertion into a sorted list, see `sortBy`. -/
def insertSorted {α : Type} (le : α → α → Bool) (x : α) : List α → List α
  | [] => [x]
  | y :: ys => if le x y then x :: y :: ys else y :: insertSorted le x ys

/-- Sorting.  The sorted arrangement of distinct keys is unique, so the algorithm does not matter. -/
def sortBy {α : Type} (le : α → α → Bool) : List α → List α
  | [] => []
  | x :: xs => insertSorted le x (sortBy le xs)

/-- `sort.Strings`: the order of the bytes of valid UTF-8 strings is the order of their code points. -/
def sortStrings (l : List Str) : List Str := sortBy (fun a b => decide (a ≤ b)) l

/-- `allImports[i] = struct{}{}`, generator/generator.go:54, 72; the set is a list of distinct keys. -/
def insertKey (k : Str) (l : List Str) : List Str := if l.contains k then l else l ++ [k]

/-- generator/generator.go:62-70: trim, then add the missing quotes.  Indexing an empty string panics. -/
def quoteImport (i : Str) : Res Str :=
  let i := trimSpace i
  match i.getLast? with
  | none => .panic
  | some l =>
    let i := if l ≠ '"' then i ++ g!"\"" else i
    match i with
    | [] => .panic
    | c :: _ => .ok (if c ≠ '"' then '"' :: i else i)

/-- The loop generator/generator.go:57-73 over the template's own imports. -/
def addTemplateImports (set : List Str) : List Str → Res (List Str)
  | [] => .ok set
  | i :: rest =>
    if i.length = 0 then addTemplateImports set rest
    else do
      let q ← quoteImport i
      addTemplateImports (insertKey q set) rest

/-- The keys of `allImports`, generator/generator.go:51-73; `source` is `t.Imports`. -/
def allImports (source imports : List Str) : Res (List Str) :=
  addTemplateImports (source.foldl (fun set i => insertKey (trimSpace i) set) []) imports

/-- `TemplateInputs.Import`, generator/generator.go:48-84; `order` is the iteration order of the map. -/
def importBlock (order : List Str → List Str) (source imports : List Str) : Res Str := do
  let set ← allImports source imports
  return g!"import (\n" ++ join g!"\n" (sortStrings (order set)) ++ g!")\n"

/-- The methods in the order of `{{range $method := .Interface.Methods}}` (all templates/): text/template
visits the entries of a map in sorted key order.  `order` is the iteration order of the Go map. -/
def rangeMethods (order : Methods → Methods) (ms : Methods) : Methods :=
  sortBy (fun a b => decide (a.1 ≤ b.1)) (order ms)

end Gowrap
