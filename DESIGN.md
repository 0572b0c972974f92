# Formal model of hexdigest/gowrap in Lean 4

## 1. Layout

    lean/Verif/Model/*.lean   executable model, one definition per Go function, each citing file:lines in /repo
    lean/Verif/Spec/*.lean    small independent specifications (what the English property says)
    lean/Verif/Proofs/*.lean  helper lemmas
    lean/Verif/Props/*.lean   the property theorems C01..; nothing else, plus non-vacuity examples
    seeded/LOG.jsonl          log of the seeded-bug experiments
    MANIFEST.json             property -> theorem names, status

## 2. Plan per property (what is modelled, how it is proved)

* Go strings are `Str = List Char` (valid UTF-8 sequences of code points). Where the code slices bytes
  (`Name[0:1]`, `upFirst`, `downFirst`) the byte behaviour is modelled explicitly.
* Error returns are values, panics and non-termination are explicit outcomes: `Res = ok | err | panic | diverge`.
* Go maps are lists whose order is the iteration order; theorems quantify over all orders.
* External code (go/printer.Fprint on unhandled nodes, go/packages, go/parser, HTTP client, file system,
  text/template, goimports, clock, runtime scheduler) appears as parameters/oracles over which theorems quantify.

| id | modelled | technique |
|----|----------|-----------|
| C01-C07, C10 | `NewMethod`, `NewParam`, `makeParams`, `typePrefix`, `genName` over a go/ast type-expression datatype | invariant on the used-name set along the field list; pigeonhole for genName; counterexamples for blank names, `F() ()` and foreign `X.Context` |
| C08, C09 | all string renderings of `Method` | independent decoder (comma splitting) composed with the rendering is the identity |
| C11-C13, C15, C16 | `Printer.PrintType` and its helpers on all node kinds | equality with (plain rendering after an independent qualifying rewrite); mutual induction on expressions; counterexamples for verbatim positions and struct tags |
| C14 | stateful printer with its buffer | simulation by the pure printer, induction on the call history |
| C17-C19 | generics.go | list induction over the accumulators; counterexamples for nested positions |
| C20-C27 | generator.go discovery functions, fuel-indexed, over a world of packages with an iteration-order oracle per call path | inductive method-set specification, soundness and completeness by induction on fuel / derivation; order independence by simulation of two runs; acyclicity rank for termination; divergence for all fuel for the self-argument interface |
| C28-C31 | `NewGenerator` tail, `makeImports`, `Import`, template map range | sorting and set reasoning |
| C32-C39, C44 | command line: `vars`, flag parsing, header line, `Run`, `TemplateCommand`, `main` | round trips, effect traces over arbitrary oracles |
| C40-C41 | `loader` package as effect traces over an arbitrary HTTP client | case analysis over the oracle |
| C42-C43 | helper functions, byte-level UTF-8 and the two regexp replacements | induction on strings |
| C45, C46, C62 | circuitbreaker: the method as a program (`Model/TmplControl`), the fields, the RWMutex and the clock as a handler (`Model/Shared`), any number of goroutines | invariant over all reachable states; a decision is a function of the history of completed calls; a counterexample schedule |
| C47, C51 | retry and ratelimit as programs | all runs of a tree, induction on the number of attempts |
| C48, C49, C50 | robinpool, syncpool, ratelimit with atomics and channels as handlers | inductive invariants for all interleavings; counting arguments; explicit executions that reach the bounds |
| C52, C53 | fallback: method, launcher and one goroutine per implementation (`Model/TmplFallback`) | invariant relating the four kinds of program counters; ranking function for the decorator's own steps; explicit executions that lose the answer and leak the launcher |
| C54-C59 | decorators as programs in a small Go-like statement language produced from a `Method`, names resolved in an environment | symbolic evaluation for every method produced by `NewMethod`; name clashes as counterexamples |
| C60, C61 | generated names are identifiers; output package | character classes; path reasoning |
| C63-C66 | the text of the templates, text/template, the lexical rules and the syntax trees of Go, a meaning of method bodies (`GoSem`) | the template is executed symbolically once per template and kind of method, with holes for names and lists; a soundness theorem carries the parsed trees to all interfaces; the interpreted bodies equal the decorator programs |
| C67, C68 | the same trees: terminating statements (`Spec/Terminating`), the constructors (`GoNew`) | the shape of every generated file (`Proofs/Shape`); induction over the pool and the burst for the loops |
| C69, C70 | the whole way from parsed packages to generated declarations (`Model/Inputs` joins generator and template) | the printer's text of every type expression is lexed into a derivation of the grammar of types (`Proofs/TypeToks`, mutual induction); every method found meets `GoMethod` (`Proofs/MethodOk`, `Proofs/Accepted`); then C64, C65 and C20 |
| C71 | the text of the templates does not contain the two fields | both executions are equal to the same generated text |
| C72 | rules of declarations and scope (`Spec/Scope`) on the trees of C64 | symbolic evaluation per template; lists of parameters by induction; `Spec/ScopeNames` lists the names that an interface must not use |
| C75 | rules about types (`Spec/Typ`, `Spec/Typing`) on the same trees, with a table of what the templates use of other packages | symbolic evaluation of the checker per template body and per group of declarations; parameters and results by induction; `Spec/TypeInputs` lists what is required of the interface |
| C76 | C65, C67, C69, C72 and C75 on one tree of declarations, from the source to the generated file (`Spec/Compiles`) | the conditions of C72 and C75 on methods (distinct names, `err`) follow from what `NewMethod` produces; the remaining conditions are about names (`Unambiguous`) and about two templates (`Suits`) |
| C77 | `newMethod`: identifier `error` against the printed and instantiated type | correspondence of C02 at the last result |
| C78 | `renderHeader` (execution of the header template), `Generator.source` | the header is executed for arbitrary data; its tokens by the lexer, line by line and by induction over the imports; declarations from C69 and C76 |
| C79 | the declarations of all templates (`trees`) | which names every statement assigns, uses and takes addresses of, computed on the syntax trees (Spec/Shared); for each template by unfolding its statements, for loops over parameters by induction |
| C80 | the whole way from parsed packages to executions of the generated declarations (`Spec/Works`, `Props/Promises`) | C76 for the text, C66 for the meaning of its declarations, then C45-C59 and C62; executions of concurrent calls of the text are executions of the model (`Exec.mono`; for fallback the goroutines of the text are those of the model) |
| C81 | the command as a whole: `Model/Command` puts the modelled packages, generator and templates in the place of the oracles of `Model/Cli` | C34 for the events, C44 for the exit code, a round trip for UTF-8 (both directions: `Props/TextOf`), then C78 and C80 for the text |
| C82 | the texts of C64, C69 and C78; a recursive-descent parser of Go (`Spec/Reader`) | mutual induction over the trees: the parser applied to the tokens of a grammatical tree returns it in the normal form of `Spec/Reading`; where a type ends is found by an automaton over tokens that is correct for every type of `IsType` (`Proofs/ReaderTypes`); uniqueness follows because the parser is a function |
| C83 | C10, C25, C44; the shapes of syntax trees that go/parser builds (`Spec/Parsed`) | induction over the recursion bound of discovery with an invariant on what is passed on (`Proofs/NoPanic`): no step panics and all methods found have names; with C25 the outcome of `NewGenerator` is constant from some bound on, which is lifted through all commands to `main` |
| C84 | C23; text/template's sorting of map keys (`Model/TextTemplate`) | a logical relation between template values that differ in the order of map entries only, preserved by every construct of the template language (`Proofs/MapOrder`); commands that agree up to the message of an error (`Props/Deterministic`); with C98 the conditions are needed for dependencies only (`Props/LocalCommand`) |
| C85 | the executions of C45, C48-C50 and C62 (`Spec/Pool`, `Spec/Progress`) | invariants of C49, C50 and C62 say who holds the lock or the implementation; that goroutine can go on, and a measure decreases with each of its operations |
| C86 | the programs of C45-C59, put into each other (`Spec/Stack`) | induction over the stack; runs of the combined program are runs of the outer one with runs of the inner ones for its calls (`Proofs/Stack`, in both directions), then C56 and C59 |
| C87 | `stderr` (`Model/Messages`), `sprintf0` (`Model/Fmt`) | `sprintf0 s = s` exactly if `s` has no percent sign (`Proofs/Fmt`: directives never add percent signs, except where the text grows); cases of `main` |
| C88 | `Registry` (`Model/Usage`) | reading the table back line by line (`Spec/Usage`, `Proofs/Usage`); registering by induction from the end |
| C89 | `printDefaults` (`Model/Usage`) | reading the descriptions back; `unquote` shortens the usage exactly if there are two back quotes |
| C90 | the programs of C45-C59, put into each other in trees (`Tower`, `Props/Tower`) | every decorator alone is honest (`deco_honest`, from C47, C51, C54-C59); induction over the tower: the calls of the whole run come in blocks, one for each call of the outer decorator (`Proofs/Tower`) |
| C91 | as C90 (`Props/Guard`) | every guard alone (from C46, C51, C54, C55); induction over the tower: a call of an implementation is split into the call of the outer decorator and the run inside |
| C92 | `Voice.quote` (`Model/Quote`), `Proc.stderr` (`Model/Messages`) | each rune is quoted as a piece of a literal (induction over the text); literals have one value (induction over `LiteralRest`) |
| C93 | `callFn`, `moreFn`, `parsePipe` (`Model/TextTemplate`) | the lexer over arbitrary strings by induction, for any number of arguments in `Props/HelpersExact`; `replaceAll` finds the occurrences of `Spec/Replace`, which are unique |
| C94 | `importCall` (`Model/TextTemplate`), `importBlock` | lexing and parsing of any number of strings by induction, then C29 and C30 |
| C95 | `lex`, `parse`, `execute` (`Model/TextTemplate`) | lexing, parsing and execution by induction over the list of actions, against `Spec/FlatTemplate` |
| C96 | `lex`, `parse`, `execute` (`Model/TextTemplate`) | mutual induction over blocks and their else parts: lexing, parsing with enough fuel whatever follows, scope, execution against the rules of `Spec/NestedTemplate` |
| C97 | `newGenerator`, `findTarget` and everything below in two worlds (`Spec.addFile`) | induction on the recursion bound: what is found before the file is added is found after it (`Proofs/Regen`), reading maps in order; all other orders by C23; a new directory or another package by C98 (`Props/Local`, `Props/LocalRegen`) |
| C98 | `newGenerator`, `findTarget` and everything below in two worlds (`Spec.SameAround`) | induction on the recursion bound, the current package staying among the dependencies of the source package (`Proofs/Local`) |
| C99 | `getOptions`, `headerComment`, go generate's splitting, `runChecked`, `main` in two directories | composition of C33 (the words of the line), idempotence of the template reference, C98 for an output file given by its name (`C98_moved`), C23 for the orders and C97 for the generated file in place (`Props/GoGenerate`) |
| C100 | `main` with the executed template (`Model/Inputs`, `World.body`) | what a run with exit code 0 was made of (`run_parts`), then C95 and C96 for the inputs of this run, and C20 for the methods (`Props/OwnTemplate`) |
| C101 | `lex`, `parse`, `nodesScoped`, `execute` (`Model/TextTemplate`) | induction over the template: items, nodes with enough fuel whatever follows, known variables, execution, against the rules of `Spec/TemplateVars` (`Props/TemplateVars`); from the command line on with the parts of a successful run (`Props/OwnVars`) |
| C73, C74 | pkg/package.go over the answers of the go command, the file system and go/parser (`Model/Package`) | induction over the directory listing; the world of method discovery is computed from these answers |

## 3. Trusted base

* Lean's kernel. No axiom is added; every theorem uses at most `propext`, `Classical.choice` and `Quot.sound`
  (`#print axioms`). No `sorry`, `native_decide` or `bv_decide`.
* The model is tied to /repo by the citations in the comments: each definition names the file and the lines it
  follows, and its comment states what it simplifies.
* Theorems about false claims: `Cxx_full : Prop` is the claim as written in properties.jsonl, `Cxx_full_false`
  refutes it with a concrete case, and `Cxx_..._partial` proves the claim under the condition named there.
  `Cxx_exact` (`Props/Exact`, `Props/ExactInputs`, `Props/ExactMore`, `Props/VarsExact`, `Props/UsageExact`, `Props/QualifiedExact`, `Props/PrinterExact`, `Props/InstanceExact`, `Props/TwirpExact`, `Props/RobinExact`, `Props/LimitExact`, `Props/RetryExact`, `Props/TimeoutExact`, `Props/RerunExact`, `Props/ValidateExact`, `Props/ErrorExact`, `Props/ConstraintExact`, `Props/ExitExact`, C03 in `Props/Signature`) shows that this condition is also necessary, or says what happens
  elsewhere.

## 4. What is modelled and what is not

### 4.1 Modules

| module | follows | left out |
|--------|---------|----------|
| `Ast` | the node kinds of go/ast that gowrap inspects | positions, comments other than those of params and fields, bodies |
| `GoStr`, `Utf8`, `Snake` | strings, `upFirst`, `downFirst`, `snake` (cmd_generate.go), Go's rune decoding | strings that are not UTF-8 outside `Utf8`; the Unicode tables are the parameter `Uni` |
| `Types`, `Generics` | generator/types.go, generator/generics.go, all functions | - |
| `Printer`, `PrinterState` | printer/printer.go, all functions | go/printer.Fprint itself (parameter `raw`) |
| `Generator` | generator/generator.go, all functions but `Generate`'s calls of text/template and goimports | go/packages and go/parser are the world `W` of packages; map order is the schedule `Sched` |
| `Package` | pkg/package.go, all functions; `parser.ParseDir` of the standard library | `packages.Load`, `os.ReadDir`, `parser.ParseFile` (parameter `Tools`) |
| `Template` | sorting in a template's `range`, `Import`, import block | - |
| `TextTemplate`, `TemplateText` | the part of text/template used by the built-in templates and the header, `else if`, `with`, `range` without variables, pipelines with `\|`, comments, raw strings, the method `Import`, gowrap's own functions; the text of all built-in templates | `define`, `template`, `block`, `break`, `continue`, assignments, variables in `if` and `with` and for the index of `range`, numbers, fields of parenthesised pipelines; sprig functions (a template that uses them is not accepted by `parse`) |
| `Flags`, `Cli`, `Main`, `Path`, `Effects` | cmd_generate.go, cmd_template.go, command.go, cmd/gowrap/gowrap.go; of the standard library `flag` and `filepath` | file contents are values |
| `Fmt`, `Quote`, `Messages`, `Usage` | cmd/gowrap/gowrap.go (what is printed), command.go, the descriptions in cmd_generate.go and cmd_template.go; of the standard library `fmt.Sprintf` without operands, `strconv.Quote` and `flag.PrintDefaults` | texts of errors other than command line errors and the table of printable characters beyond ASCII are parameters; default values of flags are left out; widths are counted in runes |
| `Loader` | loader/loader.go | HTTP client and file system are oracles |
| `Header` | the header template and `Generate` up to goimports | `imports.Process`; of the data only what the header mentions |
| `Command` | the gen command with the modelled packages, generator and templates; UTF-8 | templates that are not UTF-8 or use more of text/template than `TextTemplate` covers are left to the oracle |
| `Exec` | a statement language for generated methods | static types, aliasing, `Goexit`, fatal errors |
| `TmplObserve`, `TmplValidate`, `TmplControl`, `TmplFallback` | the method bodies of all 18 templates | - |
| `GoLex`, `GoAst`, `GoFile` | tokens with semicolon insertion, syntax trees and the tokens of a tree, methods (with value or pointer receivers) and fields of a declared type | runes and raw strings, numbers other than those in templates; the grammar of types that come from the interface (but see `Spec/Accepted`) |
| `GoSem`, `Links` | the meaning of method bodies as programs of `Exec`; per template, which library calls and fields are which operations | static types; expressions no template contains |
| `GoNew` | the meaning of the constructors | the bodies of function literals that constructors store or start as goroutines; arithmetic on floating point numbers |
| `Shared` | mutex, atomics, channels, clock, ticker for many goroutines | weak memory; data races are proved absent for the circuit breaker (C62); the methods of the other templates assign to no shared memory (C79) |

`Proofs/SymLex`, `SymFill`, `SymParse`, `SymExec` contain a symbolic executor of templates and a parser. They are not
trusted: `SymSound`, `SymFillOk`, `TmplSound` prove that the trees they produce have the tokens of the executed template
(`Consists`), and `Spec/Grammar` says independently of the parser which trees are grammatical. `Spec/Reader` is a second parser, written for
C82: it reads every grammatical tree back from its tokens, so a text has one grammatical tree up to `Spec/Reading` (types are
compared by their tokens, lists of the model that stand for several items are flattened). The tactic
`krfl` closes an equation between closed terms by `Eq.refl` and leaves the check to the kernel; `kexact` closes a goal with a
proof whose type is compared with the goal by the kernel only.
Trusted in C66 and C68 are the interpreter `GoSem`, the tables in `Links` and `GoNew` and the rule that an embedded field has the name of its
type.

### 4.2 Assumptions that appear as hypotheses

* On the outside world: `RawOk` (go/printer returns the text of a node), `LoadsImports`, `PlainImports` (what
  go/packages loads), `ExternalsReturn`, `stderrOk`, `IsDir` for the working directory, `RealPaths`; `ParsedPackages` (identifiers are not empty, qualifiers
  are identifiers, C83).
* On the source given to gowrap: `QualifiersAgree`, `UniqueTypes`, `UniqueImports`, `Supported`, the acyclicity
  conditions, `Printable`, `Foreign`. Each excludes a case refuted next to the theorem. `Unembedded`, `DependsOn` (C97: the added file
  and import cycles; programs without them do not compile before the file is added).
* On Unicode: lowering a letter twice is lowering it once (C43).
* On libraries called by generated code: `LibsReturn` (they do not panic), the documented results of
  `context.WithTimeout`/`WithCancel`, `time.NewTicker`, `errors.Is`, twirp metadata (`TimeoutLaw`, `TickerLaw`,
  `ErrorsIsReturns`, `MetaLaw`), and `GoTypes` (zero values, which values are nil).
* On generated code: `Callable`, and that names of parameters and results do not coincide with names the
  template uses; the clashes are the counterexamples of C54-C59.
* On the text of the interface (C63-C68): `GoInputs`. Names are identifiers, types are token sequences that begin and end
  like types, template variables are names or can stand between quotes, `...` stands before variadic types only.
  C69 derives this from `SourceOk`, which says that the packages were parsed.
* C72: types copied from the source, other files of the package and the imports that come from the source are not looked at; `NamedMethod`
  says what gowrap does with the names of parameters and results (C02-C05).
* C75: types copied from the source are compared as token sequences and not looked into, except `error`, `context.Context` and the
  decorated interface, whose methods are those that were found. Constants have types but no values. The tables `Lib.types` and
  `Lib.values` in `Spec/Typ` say what other packages declare (only what the templates use) and are trusted; which package a name
  without import stands for (`encoding/json`, `context`) is what goimports is expected to add. A method that has the
  name of a field of the decorator, and unused imports, are not looked at.
* C76: "compiles" means the rules listed in `Spec/Compiles`; rules not listed there are unused imports (removed by `goimports`, outside the
  model), constant overflow and the rules about types copied from the source, which compile where they come from.
* Goroutines: sequential consistency, a clock that does not run backwards, channels as bounded buffers, a panic in
  a goroutine ends the program.

### 4.3 The model against real output

`Tests/Golden` runs the model (flags, options, discovery, signatures, header, templates) with the command lines recorded in the 18 generated files of
/repo/templates_tests and compares header lines and tokens with these files (`Tests/GoldenText`, unchanged). All agree, but for what gofmt
changes and for one line of interface_with_fallback.go, which is older than the template. These are tests of the model, by `#guard`, and no claim
rests on them.

### 4.4 Wrong programs

seeded/LOG.jsonl records the wrong variants of the model that were tried and which theorems reject them.
