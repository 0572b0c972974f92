import Verif.Model.Header
import Verif.Model.GoLex
import Verif.Props.DemoWorld
import Verif.Props.Loader
import Verif.Tests.GoldenText
/-!
# The model against files that gowrap generated

/repo/templates_tests contains the output of gowrap for 17 of the 18 templates (there is none for templates/opentelemetry).  The tests run the model with the
command line that the header of such a file records, on the declarations of that package, and compare the result with the file: the lines
of the header have to be the same, and the tokens after the imports have to be the same.  Not compared is what goimports
changes: white space, the import section and what `gofmt` below lists.  These are tests of the model, not properties
of gowrap; `#guard` evaluates them while the file is compiled.
-/

namespace Gowrap.Golden

open Gowrap Demo Tmpl

/-! ## The package templates_tests -/

def chan_ (d : ChanDir) : Expr := .chanT d (.ident g!"bool")

/-- templates_tests/interface.go:7 -/
def f_ : Field := fld [g!"F"] (.funcT [fld [g!"ctx"] context_, fld [g!"a1"] string_, fld [g!"a2"] (.ellipsis string_)]
  (some [fld [g!"result1", g!"result2"] string_, fld [g!"err"] error_]))
/-- templates_tests/interface.go:8 -/
def contextNoError : Field :=
  fld [g!"ContextNoError"] (.funcT [fld [g!"ctx"] context_, fld [g!"a1"] string_, fld [g!"a2"] string_] none)
/-- templates_tests/interface.go:9 -/
def noError : Field := fld [g!"NoError"] (.funcT [fld [] string_] (some [fld [] string_]))
/-- templates_tests/interface.go:10 -/
def noParamsOrResults : Field := fld [g!"NoParamsOrResults"] (.funcT [] none)
/-- templates_tests/interface.go:11 -/
def channels : Field :=
  fld [g!"Channels"] (.funcT [fld [g!"chA"] (chan_ .both), fld [g!"chB"] (chan_ .send), fld [g!"chanC"] (chan_ .recv)] none)

/-- templates_tests/interface.go -/
def interfaceFile : File := file [⟨none, g!"\"context\""⟩]
  [iface g!"TestInterface" [f_, contextNoError, noError, noParamsOrResults, channels],
   iface g!"AnotherTestInterface" [f_, noError, noParamsOrResults, channels]]

/-- templates_tests/interface_with_twirp_error_test.go:3-23 -/
def twirpErrorFile : File := file [⟨none, g!"\"context\""⟩, ⟨none, g!"\"fmt\""⟩, ⟨none, g!"\"testing\""⟩,
    ⟨none, g!"\"github.com/stretchr/testify/require\""⟩, ⟨none, g!"\"github.com/twitchtv/twirp\""⟩]
  [⟨g!"WithTwirpError", none, .structT []⟩, ⟨g!"MethodRequest", none, .structT [fld [g!"Foo"] string_]⟩, ⟨g!"MethodResponse", none, .structT []⟩,
   iface g!"InterfaceWithTwirpError" [fld [g!"Method"] (.funcT [fld [g!"ctx"] context_, fld [g!"r"] (.star (.ident g!"MethodRequest"))]
     (some [fld [] (.star (.ident g!"MethodResponse")), fld [] error_]))]]

/-- templates_tests/interface_with_validation_test.go:3-23 -/
def validationFile : File := file [⟨none, g!"\"context\""⟩, ⟨none, g!"\"errors\""⟩, ⟨none, g!"\"testing\""⟩,
    ⟨none, g!"\"github.com/stretchr/testify/require\""⟩]
  [⟨g!"ValidatableRequest", none, .structT []⟩,
   iface g!"InterfaceWithValidtableArg" [fld [g!"Method"] (.funcT [fld [g!"ctx"] context_, fld [g!"r"] (.star (.ident g!"ValidatableRequest"))]
     (some [fld [] error_]))]]

def path : Str := g!"github.com/hexdigest/gowrap/templates_tests"

/-- The package, which is found under its import path and in the working directory. -/
def tests : World := { world [⟨g!"templatestests", path, [(g!"context", 1)], [interfaceFile, twirpErrorFile, validationFile]⟩,
    ⟨g!"context", g!"context", [], []⟩] with
  load := fun p => if p = path ∨ p = g!"./." then .ok 0 else .err (.loadFailed p)
  dir := dirPath }

/-! ## Running the model -/

/-- The options for a command line, with the directory templates_tests as working directory.  The command sees the given template. -/
def options (args : List Str) : Option GenOptions :=
  let s : Sys := {
    net := { Props.Demo.net (fun _ => ⟨404, .ok [], none⟩) with readFile := fun _ _ => .contents [] }
    cwd := [g!"gowrap", g!"templates_tests"]
    loadPackage := fun _ _ => .ok (0, path)
    newGenerator := fun _ _ => .ok ()
    header := fun _ _ => .ok []
    body := fun _ _ => .ok []
    process := fun _ _ _ b => .ok b
    mkdirAll := fun _ _ => none
    writeFile := fun _ _ _ => none }
  match parseGen {} args with
  | .ok (f, _) =>
    match s.getOptions f [] with
    | (.ok o, _) => some o
    | _ => none
  | .error _ => none

/-- The text that gowrap passes to goimports. -/
def run (args : List Str) (template : Str) : Option Str := do
  let o ← options args
  match newGenerator tests inOrder 20 (o.forGenerator 0) with
  | .ok g => g.source tests o template
  | _ => none

/-! ## Comparing -/

/-- The lines of a text, in reverse. -/
def lines (s : Str) : List Str :=
  (s.foldl (fun l c => if c = '\n' then [] :: l else match l with | [] => [[c]] | x :: r => (c :: x) :: r) [[]]).map List.reverse

/-- The lines of the header but for blank lines and imports (goimports can move the imports before the last line). -/
def head (s : Str) : List Str :=
  (lines s).reverse.filter fun l => [g!"// Code generated", g!"// template:", g!"// gowrap:", g!"package ", g!"//go:generate"].any (hasPrefix l)

/-- The tokens outside import declarations.  The number says what is being read: 0 outside, 1 the token after `import`, 2 the declarations between
parentheses, 3 the semicolon after a declaration. -/
def afterImports : Nat → List Go.Tok → List Go.Tok
  | _, [] => []
  | 0, t :: ts => if t = .word g!"import" then afterImports 1 ts else t :: afterImports 0 ts
  | 1, t :: ts => afterImports (if t = .op g!"(" then 2 else 3) ts
  | 2, t :: ts => afterImports (if t = .op g!")" then 3 else 2) ts
  | _, _ :: ts => afterImports 0 ts

/-- What gofmt does to the tokens of the generated files: it removes the parentheses of an empty result list and those around one result
without name (templates/circuitbreaker), and semicolons before closing braces. -/
def gofmt : List Go.Tok → List Go.Tok
  | .op [')'] :: .op ['('] :: .op [')'] :: .op ['{'] :: ts => .op [')'] :: .op ['{'] :: gofmt ts
  | .op [')'] :: .op ['('] :: .op ['*'] :: .word x :: .op [')'] :: .op ['{'] :: ts => .op [')'] :: .op ['*'] :: .word x :: .op ['{'] :: gofmt ts
  | .op [';'] :: .op ['}'] :: ts => .op ['}'] :: gofmt ts
  | t :: ts => t :: gofmt ts
  | [] => []

/-- The tokens that are compared. -/
def content (s : Str) : Option (List Go.Tok) := (Go.tokens s).map fun l => gofmt (afterImports 0 l)

/-- The comparison. -/
def same (model : Option Str) (real : Str) : Bool :=
  match model with
  | some m => head m = head real ∧ (content m = content real ∧ (content real).isSome)
  | none => false

/-- templates_tests/interface_with_fallback.go has been generated before templates/fallback:80 was changed from `fmt.Errorf` to
`errors.New`. -/
def older (skip : Nat) : Str → Str
  | [] => []
  | c :: s =>
    match skip with
    | n + 1 => older n s
    | 0 => if hasPrefix (c :: s) g!"errors.New(" then g!"fmt.Errorf(" ++ older 10 s else c :: older 0 s

#guard same (run [g!"-p", g!"github.com/hexdigest/gowrap/templates_tests", g!"-i", g!"TestInterface", g!"-t", g!"../templates/circuitbreaker", g!"-o", g!"interface_with_circuitbreaker.go", g!"-l", g!""] Text.circuitbreaker) circuitbreaker

#guard same (run [g!"-p", g!"github.com/hexdigest/gowrap/templates_tests", g!"-i", g!"TestInterface", g!"-t", g!"../templates/elasticapm", g!"-o", g!"interface_with_elasticapm.go", g!"-l", g!""] Text.elasticapm) elasticapm

#guard same (run [g!"-p", g!"github.com/hexdigest/gowrap/templates_tests", g!"-i", g!"TestInterface", g!"-t", g!"../templates/fallback", g!"-o", g!"interface_with_fallback.go", g!"-l", g!""] (older 0 Text.fallback)) fallback

#guard same (run [g!"-p", g!"github.com/hexdigest/gowrap/templates_tests", g!"-i", g!"InterfaceWithValidtableArg", g!"-t", g!"../templates/grpc_validate", g!"-o", g!"interface_with_grpc_validation.go", g!"-l", g!""] Text.grpcValidate) grpcValidation

#guard same (run [g!"-p", g!"github.com/hexdigest/gowrap/templates_tests", g!"-i", g!"TestInterface", g!"-t", g!"../templates/log", g!"-o", g!"interface_with_log.go", g!"-v", g!"DecoratorName=TestInterfaceWithLogger", g!"-l", g!""] Text.log) log

#guard same (run [g!"-p", g!"github.com/hexdigest/gowrap/templates_tests", g!"-i", g!"TestInterface", g!"-t", g!"../templates/logrus", g!"-o", g!"interface_with_logrus.go", g!"-l", g!""] Text.logrus) logrus

#guard same (run [g!"-p", g!"github.com/hexdigest/gowrap/templates_tests", g!"-i", g!"TestInterface", g!"-t", g!"../templates/opencensus", g!"-o", g!"interface_with_opencensus.go", g!"-v", g!"DecoratorName=TestInterfaceWithOpenCensus", g!"-l", g!""] Text.opencensus) opencensus

#guard same (run [g!"-p", g!"github.com/hexdigest/gowrap/templates_tests", g!"-i", g!"TestInterface", g!"-t", g!"../templates/opentracing", g!"-o", g!"interface_with_opentracing.go", g!"-l", g!""] Text.opentracing) opentracing

#guard same (run [g!"-p", g!"github.com/hexdigest/gowrap/templates_tests", g!"-i", g!"TestInterface", g!"-t", g!"../templates/prometheus", g!"-o", g!"interface_with_prometheus.go", g!"-l", g!""] Text.prometheus) prometheus

#guard same (run [g!"-p", g!"github.com/hexdigest/gowrap/templates_tests", g!"-i", g!"AnotherTestInterface", g!"-t", g!"../templates/prometheus", g!"-o", g!"interface_with_prometheus_metric_name.go", g!"-v", g!"MetricName=custom_metric_name_seconds", g!"-l", g!""] Text.prometheus) prometheusMetricName

#guard same (run [g!"-p", g!"github.com/hexdigest/gowrap/templates_tests", g!"-i", g!"TestInterface", g!"-t", g!"../templates/ratelimit", g!"-o", g!"interface_with_ratelimit.go", g!"-l", g!""] Text.ratelimit) ratelimit

#guard same (run [g!"-p", g!"github.com/hexdigest/gowrap/templates_tests", g!"-i", g!"TestInterface", g!"-t", g!"../templates/retry", g!"-o", g!"interface_with_retry.go", g!"-l", g!""] Text.retry) retry

#guard same (run [g!"-p", g!"github.com/hexdigest/gowrap/templates_tests", g!"-i", g!"TestInterface", g!"-t", g!"../templates/robinpool", g!"-o", g!"interface_with_robinpool.go", g!"-l", g!""] Text.robinpool) robinpool

#guard same (run [g!"-p", g!"github.com/hexdigest/gowrap/templates_tests", g!"-i", g!"TestInterface", g!"-t", g!"../templates/syncpool", g!"-o", g!"interface_with_syncpool.go", g!"-l", g!""] Text.syncpool) syncpool

#guard same (run [g!"-p", g!"github.com/hexdigest/gowrap/templates_tests", g!"-i", g!"TestInterface", g!"-t", g!"../templates/timeout", g!"-o", g!"interface_with_timeout.go", g!"-l", g!""] Text.timeout) timeout

#guard same (run [g!"-p", g!"github.com/hexdigest/gowrap/templates_tests", g!"-i", g!"InterfaceWithTwirpError", g!"-t", g!"../templates/twirp_error", g!"-o", g!"interface_with_twirp_error.go", g!"-l", g!""] Text.twirpError) twirpError

#guard same (run [g!"-p", g!"github.com/hexdigest/gowrap/templates_tests", g!"-i", g!"InterfaceWithValidtableArg", g!"-t", g!"../templates/twirp_validate", g!"-o", g!"interface_with_twirp_validation.go", g!"-l", g!""] Text.twirpValidate) twirpValidation

#guard same (run [g!"-p", g!"github.com/hexdigest/gowrap/templates_tests", g!"-i", g!"InterfaceWithValidtableArg", g!"-t", g!"../templates/validate", g!"-o", g!"interface_with_validation.go", g!"-l", g!""] Text.validate) validation

end Gowrap.Golden
