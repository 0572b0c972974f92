{"id": "C01", "title": "Parameter and result names of a generated method are pairwise distinct", "statement": "For every method of the source interface that gowrap accepts, the names of all parameters and results in the method handed to the template are pairwise distinct, whatever names (or no names) the source used.", "quantifier": "every method signature: any number of fields, any names including anonymous, repeated, blank, err, ctx and names that look generated", "why_tests_cant": "The clash depends on the combination of user names, generated names and the reserved names err/ctx; the space of signatures is unbounded.", "anchors": ["generator/types.go:NewMethod", "generator/types.go:NewParam", "generator/types.go:makeParams", "generator/types.go:genName"]}
{"id": "C02", "title": "The generated signature has the same arity, order, types and variadic flag as the source", "statement": "For every accepted method the template sees exactly one parameter (result) per declared source parameter (result), in source order, each with the printed type of its field, flagged variadic exactly when the source type is an ellipsis, carrying the field's documentation and comments.", "quantifier": "every method signature and every printer environment", "why_tests_cant": "Grouped names (a, b int), anonymous fields and any number of fields must all be flattened correctly.", "anchors": ["generator/types.go:makeParams", "generator/types.go:NewParam", "generator/types.go:NewMethod"]}
{"id": "C03", "title": "User-chosen names survive", "statement": "If all parameters and results are named in the source with distinct names and neither err nor ctx is used away from its conventional place (last error result, first context parameter), every name in the generated declaration equals the source name, except that the last error result is called err and a leading context parameter is called ctx.", "quantifier": "every fully named signature without clashes", "why_tests_cant": "Universally quantified over names and arities.", "anchors": ["generator/types.go:NewParam", "generator/types.go:NewMethod"]}
{"id": "C04", "title": "The error result is recognised and called err", "statement": "A generated method reports ReturnsError exactly when the type of the last result is the identifier error; in that case the last result is named err, and no other parameter or result is named err.", "quantifier": "every accepted signature", "why_tests_cant": "Templates read and assign err by name; a single signature in which another variable is called err breaks every bundled template.", "anchors": ["generator/types.go:NewMethod"]}
{"id": "C05", "title": "The context parameter is recognised and called ctx", "statement": "A generated method reports AcceptsContext exactly when the type of its first parameter is context.Context; in that case the first parameter is named ctx and no other parameter or result is named ctx.", "quantifier": "every accepted signature", "why_tests_cant": "Templates read ctx by name; quantified over all selectors that can appear as first parameter type.", "anchors": ["generator/types.go:NewMethod"]}
{"id": "C06", "title": "Generated names are fresh, minimal and always found", "statement": "Generating a name for a prefix always terminates and returns prefix followed by the least positive decimal number such that the result is not among the used names.", "quantifier": "every prefix and every finite set of used names", "why_tests_cant": "The search is an unbounded recursion; termination and freshness need a pigeonhole argument.", "anchors": ["generator/types.go:genName"]}
{"id": "C07", "title": "Every parameter can be forwarded by its name", "statement": "No parameter of a generated method is called _ (which cannot be used as a value), so that the generated call of the wrapped implementation compiles.", "quantifier": "every accepted signature", "why_tests_cant": "Quantified over all user parameter names including blank ones.", "anchors": ["generator/types.go:NewParam", "generator/types.go:Method.Call"]}
{"id": "C08", "title": "The generated call passes exactly the declared parameters in order", "statement": "For every method, the argument list of Call (and of Pass, and of the parameter slice's Pass) is exactly the list of declared parameter names in declaration order, separated by commas, with ... after exactly the variadic ones; Pass returns the call's results exactly when the method has results; Declaration lists the same names in the same order, each followed by its type.", "quantifier": "every method value", "why_tests_cant": "The text must be decodable back to the parameter list for every arity and every name.", "anchors": ["generator/types.go:Method.Call", "generator/types.go:Method.Pass", "generator/types.go:ParamsSlice.Pass", "generator/types.go:Param.Pass", "generator/types.go:Method.Declaration", "generator/types.go:Method.Signature", "generator/types.go:Method.ParamsNames", "generator/types.go:Method.ResultsNames"]}
{"id": "C09", "title": "Struct and map renderings list every parameter/result once, variadics as slices", "statement": "ParamsStruct, ParamPtrsStruct, ResultsStruct, ParamsMap, ResultsMap and ReturnStruct mention every parameter (result) exactly once, in order, under its own name; a variadic parameter of type ...T becomes a field of type []T (or *[]T), all other types are unchanged; ReturnStruct selects the fields in the order of the declared results.", "quantifier": "every method value", "why_tests_cant": "Positional composite literals in the bundled templates are only right if the orders agree for every arity.", "anchors": ["generator/types.go:Method.ParamsStruct", "generator/types.go:Method.ParamPtrsStruct", "generator/types.go:Method.ResultsStruct", "generator/types.go:Method.ParamsMap", "generator/types.go:Method.ResultsMap", "generator/types.go:Method.ReturnStruct"]}
{"id": "C10", "title": "Signatures never crash the generator", "statement": "Building a method from any signature the Go parser accepts returns a method or an error; it never panics.", "quantifier": "every parsed method signature", "why_tests_cant": "A panic needs one particular shape of signature; tests sample shapes.", "anchors": ["generator/types.go:NewMethod", "generator/types.go:typePrefix"]}
{"id": "C11", "title": "References to source-package types are qualified", "statement": "When the decorator lives in another package, PrintType returns the text of the given type in which every reference to a type declared in the source package, at any depth of pointers, slices, arrays, maps, channels, functions, structs, variadics and generic instantiations, is prefixed with the source package selector, and every other part of the type is unchanged.", "quantifier": "every type expression, every set of declared types, every selector", "why_tests_cant": "Types nest without bound; each constructor could lose or misplace a component.", "anchors": ["printer/printer.go:Printer.PrintType", "printer/printer.go:Printer.printIdent", "printer/printer.go:Printer.fieldList"]}
{"id": "C12", "title": "Unexported source types are refused, and only those", "statement": "When the decorator lives in another package PrintType fails exactly when the printed type refers, at a position it qualifies, to an unexported type of the source package; when it lives in the same package it never fails.", "quantifier": "every type expression and set of declared types", "why_tests_cant": "An unexported name can hide at any depth.", "anchors": ["printer/printer.go:Printer.printIdent", "printer/printer.go:errUnexportedType"]}
{"id": "C13", "title": "Printing in the same package changes nothing", "statement": "When the decorator lives in the source package, PrintType returns the plain text of the type, independent of which types the package declares.", "quantifier": "every type expression and set of declared types", "why_tests_cant": "Universally quantified over type expressions.", "anchors": ["printer/printer.go:Printer.PrintType"]}
{"id": "C14", "title": "A printer gives the same answer regardless of what it printed before", "statement": "For every sequence of Print/PrintType calls on one Printer, each call returns what a fresh Printer would return, including after errors.", "quantifier": "every history of print calls", "why_tests_cant": "The printer reuses one buffer; leftovers would only show for particular histories.", "anchors": ["printer/printer.go:Printer.Print", "printer/printer.go:Printer.PrintType"]}
{"id": "C15", "title": "No reference to a source-package declaration is left unqualified", "statement": "When the decorator lives in another package, the printed text contains no unqualified reference to a declaration of the source package anywhere, including inside interface literals, parenthesised types and array lengths.", "quantifier": "every type expression and set of declarations", "why_tests_cant": "The positions that are printed verbatim are exactly those no test covers.", "anchors": ["printer/printer.go:Printer.PrintType", "printer/printer.go:Printer.printArray"]}
{"id": "C16", "title": "The printed type is identical to the source type", "statement": "Two different source types never print to the same text, and every component of the type that matters for type identity (including struct tags) is present in the printed text.", "quantifier": "every pair of type expressions", "why_tests_cant": "Injectivity is a statement about all pairs of types.", "anchors": ["printer/printer.go:Printer.printStruct", "printer/printer.go:Printer.fieldList", "printer/printer.go:Printer.PrintType"]}
{"id": "C17", "title": "Generic declaration and instantiation list the same type parameters", "statement": "For a generic interface, the Types string declares exactly the type parameters of the source in source order, each group followed by its constraint, and the Params string lists exactly the same names in the same order; both are empty exactly when the interface declares no type parameter.", "quantifier": "every list of type parameter groups", "why_tests_cant": "Accumulators with separators must be right for every number of groups and names.", "anchors": ["generator/generics.go:genericTypes.buildVars", "generator/generics.go:buildGenericTypesFromSpec"]}
{"id": "C18", "title": "Type-parameter constraints are reproduced faithfully", "statement": "The constraint printed for a type parameter denotes the constraint of the source: same unions, same ~ terms, source-package types qualified.", "quantifier": "every constraint expression", "why_tests_cant": "Constraints nest; unsupported shapes silently become empty.", "anchors": ["generator/generics.go:parseGenericType", "generator/generics.go:parseBinaryExpr", "generator/generics.go:getPrefix"]}
{"id": "C19", "title": "Embedding an instantiated generic interface substitutes the type arguments", "statement": "When an interface embeds G[A1..An], every occurrence of G's i-th type parameter in the signatures of the methods it contributes is replaced by Ai, at any depth and through any number of embedding levels.", "quantifier": "every generic interface, argument list and nesting", "why_tests_cant": "Quantified over positions of a type parameter inside types and over embedding chains.", "anchors": ["generator/generics.go:buildGenericParamsString", "generator/generator.go:processEmbedded", "generator/generator.go:processIdent", "generator/generator.go:processSelector"]}
{"id": "C20", "title": "The decorated methods are exactly the method set of the interface", "statement": "For a named interface, the methods given to the template are exactly the methods of the interface's Go method set: those declared in it plus, transitively, those of every embedded interface of the same or another package; each with the signature of its declaration.", "quantifier": "every package graph and every nesting of embedded interfaces", "why_tests_cant": "Embedding graphs are unbounded; a lost or extra method only shows for particular shapes.", "anchors": ["generator/generator.go:findTarget", "generator/generator.go:findMethods", "generator/generator.go:processInterface", "generator/generator.go:processEmbedded", "generator/generator.go:processIdent", "generator/generator.go:processSelector", "generator/generator.go:mergeMethods"]}
{"id": "C21", "title": "No method is silently lost", "statement": "If the interface embeds something gowrap cannot resolve to an interface declaration, generation fails with an error; it never produces a decorator lacking some of the interface's methods.", "quantifier": "every interface and every kind of embedded element", "why_tests_cant": "The silently ignored kinds of elements are those nobody tested.", "anchors": ["generator/generator.go:processIdent", "generator/generator.go:getEmbeddedMethods", "generator/generator.go:findMethods"]}
{"id": "C22", "title": "Merging keeps every method and prefers the outer declaration", "statement": "Merging the methods of an embedded interface keeps all methods of both lists, keeps the already present signature when both define a name, is idempotent and does not depend on map iteration order.", "quantifier": "every pair of method lists", "why_tests_cant": "Algebraic laws over all finite maps.", "anchors": ["generator/generator.go:mergeMethods"]}
{"id": "C23", "title": "Output does not depend on the iteration order of the parsed files", "statement": "Running the generator twice on the same sources finds the same interface, methods, type parameters and imports, for every order in which Go's map iteration visits the files of each package on each visit.", "quantifier": "every schedule of map iteration orders", "why_tests_cant": "Go randomises map iteration; a test observes a handful of orders.", "anchors": ["generator/generator.go:iterateFiles", "generator/generator.go:findTarget"]}
{"id": "C24", "title": "A package selector resolves to the package imported under that name by the file", "statement": "An embedded pkg.Iface is looked up in the package which the file declaring the embedding imports under the name pkg, whatever other packages of the same name other files import.", "quantifier": "every import table and every map iteration order", "why_tests_cant": "The fallback ranges over a Go map; the wrong choice appears only for some orders.", "anchors": ["generator/generator.go:findImportPathForName", "generator/generator.go:findSourcePackage", "generator/generator.go:processSelector", "generator/generator.go:unquote"]}
{"id": "C25", "title": "Generation terminates on valid programs", "statement": "Method discovery terminates for every interface whose embedding relation is acyclic.", "quantifier": "every valid package graph", "why_tests_cant": "Termination is not testable.", "anchors": ["generator/generator.go:findMethods", "generator/generator.go:processInterface", "generator/generator.go:processEmbedded"]}
{"id": "C26", "title": "Unexported methods are refused across packages", "statement": "If the decorator lives in another package, generation fails when some method of the interface is unexported; if it lives in the same package, unexported methods are accepted.", "quantifier": "every method set", "why_tests_cant": "Any one method among any number may be unexported.", "anchors": ["generator/generator.go:NewGenerator", "generator/generator.go:errUnexportedMethod"]}
{"id": "C27", "title": "Missing and empty interfaces are refused", "statement": "NewGenerator fails when the source package has no type of the requested name and when the type has no methods; a returned generator always has at least one method.", "quantifier": "every package and interface name", "why_tests_cant": "Universal over packages.", "anchors": ["generator/generator.go:NewGenerator", "generator/generator.go:findTarget", "generator/generator.go:errTargetNotFound", "generator/generator.go:errEmptyInterface"]}
{"id": "C28", "title": "The interface type is qualified consistently with its import", "statement": "If source and destination package differ, the interface type text is selector.Name with the selector equal to the alias or the default alias, and the import list contains an import of the source package under exactly that selector; if they are the same package the type is the bare name and no self-import is added.", "quantifier": "every pair of packages, alias and interface name", "why_tests_cant": "Universal over package names.", "anchors": ["generator/generator.go:NewGenerator"]}
{"id": "C29", "title": "The import section is sorted, duplicate-free and order independent", "statement": "Import returns an import block listing each distinct import exactly once in sorted order; the result depends only on the set of imports (not on order, repetition or surrounding blanks), and contains every source import and every non-empty template import.", "quantifier": "all lists of imports and all map iteration orders", "why_tests_cant": "Uses a Go map and sort; must hold for every order.", "anchors": ["generator/generator.go:TemplateInputs.Import", "generator/generator.go:makeImports"]}
{"id": "C30", "title": "Template imports are quoted exactly once", "statement": "A template import given with or without quotes is emitted as a quoted path; an import with an alias (name \"path\") is emitted unchanged; no argument makes Import panic.", "quantifier": "all import strings", "why_tests_cant": "Universal over strings, including blank ones.", "anchors": ["generator/generator.go:TemplateInputs.Import"]}
{"id": "C31", "title": "Methods are emitted once each in a deterministic order", "statement": "The methods seen by ranging over the interface's methods in a template come in increasing order of name, each exactly once, independent of the order in which they were discovered.", "quantifier": "every method set and map iteration order", "why_tests_cant": "Map iteration order is random.", "anchors": ["generator/generator.go:TemplateInputInterface.Methods", "generator/generator.go:Generator.Generate"]}
{"id": "C32", "title": "Template variables survive the command line and the go:generate line", "statement": "For every sequence of -v arguments, the parsed variables are exactly those given (name, value; flag without = is true), the last occurrence of a name wins in the template, and rendering the variables as arguments and parsing them again yields the same variables.", "quantifier": "all sequences of -v arguments", "why_tests_cant": "Round trip over all strings, including values containing = and empty values.", "anchors": ["cmd_generate.go:vars.Set", "cmd_generate.go:vars.toMap", "cmd_generate.go:varsToArgs"]}
{"id": "C33", "title": "The go:generate line reproduces the invocation", "statement": "Executing the //go:generate comment of the generated file (word splitting as go generate does, flag parsing as the gen command does) runs the gen command with the same source package, interface, template, output file, variables and local prefix.", "quantifier": "all option values", "why_tests_cant": "Universal over option strings; quoting bugs only show for particular characters.", "anchors": ["cmd_generate.go:headerTemplate", "cmd_generate.go:varsToArgs", "cmd_generate.go:GenerateCommand.getOptions"]}
{"id": "C34", "title": "A failed generation leaves the output file alone", "statement": "If any step of the gen command fails (flags, template, package loading, generation, formatting, directory creation) the output file is not written; if the command succeeds the output file contains exactly the generated source. Nothing else is written.", "quantifier": "every failure point of every run", "why_tests_cant": "Quantified over all failure points.", "anchors": ["cmd_generate.go:GenerateCommand.Run", "generator/generator.go:Generator.Generate"]}
{"id": "C35", "title": "Required flags are enforced before any work", "statement": "The gen command fails with a command line error, without loading templates or packages or touching the file system, exactly when the flags do not parse or the output file, interface name or template is missing.", "quantifier": "all argument lists", "why_tests_cant": "Universal over argument lists.", "anchors": ["cmd_generate.go:GenerateCommand.Run", "cmd_generate.go:GenerateCommand.checkFlags"]}
{"id": "C36", "title": "Local templates take precedence; remote ones are used only if no local file exists", "statement": "The template is taken from the local file when it can be read; the remote loader is consulted exactly when the local file does not exist; any other read error is reported without a remote request.", "quantifier": "all outcomes of the local read and the remote loader", "why_tests_cant": "Universal over file-system and network outcomes.", "anchors": ["cmd_generate.go:loader.Load", "cmd_generate.go:GenerateCommand.loadTemplate"]}
{"id": "C37", "title": "The template reference in the header is usable", "statement": "The template reference recorded in the generated header is the URL for templates fetched over HTTP(S) and otherwise the path of the template relative to the directory of the output file.", "quantifier": "all template locations", "why_tests_cant": "Universal over URLs and paths.", "anchors": ["cmd_generate.go:GenerateCommand.loadTemplate"]}
{"id": "C38", "title": "template copy writes the fetched bytes or nothing", "statement": "template copy writes exactly the fetched template to the destination and reports success only after the write succeeded; on any failure it writes nothing and returns the error.", "quantifier": "all loader and write outcomes and argument lists", "why_tests_cant": "Quantified over failure points.", "anchors": ["cmd_template.go:TemplateCommand.fetch", "cmd_template.go:TemplateCommand.Run"]}
{"id": "C39", "title": "template list prints exactly the repository's templates", "statement": "List returns, in tree order, exactly the non-empty names n such that templates/n is in the repository tree; template list prints one line per name and fails when there is none.", "quantifier": "all repository trees", "why_tests_cant": "Universal over trees.", "anchors": ["loader/loader.go:Loader.List", "cmd_template.go:TemplateCommand.list"]}
{"id": "C40", "title": "Remote content is returned only from a successful response, and the body is always closed", "statement": "An HTTP fetch returns content without error only if the request succeeded with status 200, the body was read completely and closing succeeded; whenever a response was obtained its body is closed exactly once.", "quantifier": "all HTTP client behaviours", "why_tests_cant": "Universal over failure combinations.", "anchors": ["loader/loader.go:Loader.get"]}
{"id": "C41", "title": "Templates from the repository are pinned to the commit that last changed them", "statement": "Loading a template by name performs the commit lookup first and, only if it yields a commit, one fetch of the raw file at the first returned commit; the returned URL is the fetched URL; no commit means a not-found error; URLs and file references are dispatched by prefix without contacting the repository.", "quantifier": "all template names and server behaviours", "why_tests_cant": "Universal over names and server answers.", "anchors": ["loader/loader.go:Loader.Load", "loader/loader.go:Loader.fetchFromGithub"]}
{"id": "C42", "title": "upFirst and downFirst change only the first letter", "statement": "For every string the helper returns the string with its first Unicode letter mapped and the rest unchanged, and never panics.", "quantifier": "all strings (as Go byte strings)", "why_tests_cant": "Byte-level slicing must be right for every encoding length and for invalid UTF-8.", "anchors": ["cmd_generate.go:upFirst", "cmd_generate.go:downFirst"]}
{"id": "C43", "title": "snake only inserts underscores and lowers case", "statement": "snake(s) is lower case, deleting underscores from it gives the lower-cased s without underscores, it never adds a leading or trailing underscore, and applying it twice gives the same result as once.", "quantifier": "all strings", "why_tests_cant": "Regexp replacement over all strings.", "anchors": ["cmd_generate.go:toSnakeCase"]}
{"id": "C44", "title": "Exit codes distinguish usage errors from failures", "statement": "The process exits 0 exactly when the command (or help) succeeded, 2 on usage errors (no arguments, unknown subcommand, bad flags, command line errors), 1 on other failures; it never crashes whatever the arguments.", "quantifier": "all argument vectors and command outcomes", "why_tests_cant": "Universal over argument vectors.", "anchors": ["cmd/gowrap/gowrap.go:main", "cmd/gowrap/gowrap.go:help", "cmd/gowrap/gowrap.go:die", "command.go:GetCommand", "command.go:RegisterCommand"]}
{"id": "C45", "title": "Circuit breaker opens after exactly the configured number of consecutive errors", "statement": "For sequential use: the circuit opens at a call exactly when that call fails with a non-ignored error and it is at least the N-th consecutive one; successes and ignored errors reset the count and close the circuit.", "quantifier": "every history of call outcomes and times", "why_tests_cant": "Histories are unbounded.", "anchors": ["templates/circuitbreaker"]}
{"id": "C46", "title": "An open circuit rejects without calling the wrapped implementation", "statement": "From the moment the circuit opens until the open interval has elapsed every call is rejected with an error and the wrapped implementation is not called; from the end of the interval on calls go through, and the first failing one re-opens the circuit. Holds for every interleaving of concurrent callers.", "quantifier": "every interleaving of concurrent calls and all clocks", "why_tests_cant": "Races between in-flight calls cannot be enumerated by tests.", "anchors": ["templates/circuitbreaker"]}
{"id": "C47", "title": "Retry calls at most 1+retryCount times and stops at the first success", "statement": "The decorated method calls the wrapped implementation once, then again after each tick while the error is non-nil, at most retryCount more times, never after a success and never after it observed the context cancelled; it returns exactly what the last attempt returned.", "quantifier": "every sequence of attempt outcomes, every timing of ticks and cancellation, every configuration", "why_tests_cant": "Quantified over outcome sequences and select choices.", "anchors": ["templates/retry"]}
{"id": "C48", "title": "Round-robin pool distributes calls evenly", "statement": "For every interleaving of concurrent calls, any sequence of consecutive calls is distributed so that the numbers of calls given to any two implementations differ by at most one; the chosen index is always inside the pool.", "quantifier": "every pool size, number of calls and interleaving", "why_tests_cant": "The counter wraps around after 2^32 calls.", "anchors": ["templates/robinpool"]}
{"id": "C49", "title": "Pool implementations are never used by two calls at once and never lost", "statement": "For every interleaving, each pooled implementation is used by at most one call at a time, every implementation returns to the pool when its call ends (even by panic), returning never blocks, and a waiting call can proceed whenever an implementation is idle.", "quantifier": "every interleaving of calls, returns and panics", "why_tests_cant": "Concurrency invariant over all schedules.", "anchors": ["templates/syncpool"]}
{"id": "C50", "title": "Rate limiter bounds the number of calls", "statement": "For every schedule, the number of wrapped calls started in any time window is at most burst plus the number of ticks in the window; from creation on it is at most burst plus the number of ticks so far.", "quantifier": "every schedule of ticks, callers and cancellations", "why_tests_cant": "Concurrency and channel buffering over all schedules.", "anchors": ["templates/ratelimit"]}
{"id": "C51", "title": "Rate-limited calls with a cancelled context do not reach the implementation", "statement": "A rate-limited method accepting a context and returning an error either consumes one tick and calls the implementation once with unchanged arguments and results, or returns the context's error without calling it and without consuming a tick.", "quantifier": "every schedule", "why_tests_cant": "Quantified over select choices.", "anchors": ["templates/ratelimit"]}
{"id": "C52", "title": "Fallback returns a real success or all the errors", "statement": "A decorated method that accepts a context and returns an error returns without error only a result some implementation returned without error; it returns the aggregated error only when every implementation was called and failed; otherwise it returns a context error only if the context was done. Each implementation is called at most once per call, the first is started immediately, and the next one is started only after a tick or a failure of an earlier one.", "quantifier": "every number of implementations, every outcome, every schedule of goroutines, ticks and cancellation", "why_tests_cant": "Concurrency over all schedules.", "anchors": ["templates/fallback"]}
{"id": "C53", "title": "Fallback always answers when an implementation answers", "statement": "If some implementation returns successfully the decorated method returns, for every method shape and schedule; goroutines started by a call do not outlive it forever.", "quantifier": "every schedule and method shape", "why_tests_cant": "A lost wake-up appears only under particular schedules.", "anchors": ["templates/fallback"]}
{"id": "C54", "title": "Timeout bounds the context and only the context", "statement": "A decorated method that accepts a context calls the implementation exactly once with the same arguments except that, when the configured timeout is positive, the context carries a deadline not later than now+timeout and not later than the caller's, and is cancelled on return; results are passed through unchanged; with a non-positive timeout the context is passed unchanged.", "quantifier": "every method signature, argument list, configuration and implementation behaviour", "why_tests_cant": "Universal over signatures.", "anchors": ["templates/timeout"]}
{"id": "C55", "title": "Validation runs before the call and blocks invalid requests", "statement": "For every method returning an error, validate/grpc_validate/twirp_validate call Validate on every validatable non-context argument in order; the first failure is returned (wrapped as InvalidArgument for grpc/twirp) and the implementation is not called; if all pass the implementation is called exactly once with the unchanged arguments and its results are returned unchanged.", "quantifier": "every method signature, argument list and validation outcome", "why_tests_cant": "Universal over signatures and outcomes.", "anchors": ["templates/validate", "templates/grpc_validate", "templates/twirp_validate"]}
{"id": "C56", "title": "Observability decorators are transparent", "statement": "For log, logrus, prometheus, opentracing, opencensus, opentelemetry and elasticapm: every decorated method calls the implementation exactly once, with the caller's arguments in order (the context possibly replaced by the span's context), and returns exactly its results; a panic propagates.", "quantifier": "every method signature, argument list and implementation behaviour", "why_tests_cant": "Universal over signatures; relies on name hygiene.", "anchors": ["templates/log", "templates/logrus", "templates/prometheus", "templates/opentracing", "templates/opencensus", "templates/opentelemetry", "templates/elasticapm"]}
{"id": "C57", "title": "Observability decorators record exactly what happened", "statement": "log and logrus write one line before and one after each call, the latter at error level exactly when a non-nil error is returned; prometheus observes one duration labelled error exactly when a non-nil error is returned; tracing decorators finish the span exactly once, also on panic, and mark it as failed exactly when a non-nil error is returned (and no custom span decorator is installed).", "quantifier": "every method signature, argument list and implementation behaviour", "why_tests_cant": "Universal over signatures and outcomes.", "anchors": ["templates/log", "templates/logrus", "templates/prometheus", "templates/opentracing", "templates/opencensus", "templates/opentelemetry", "templates/elasticapm"]}
{"id": "C58", "title": "twirp_error annotates errors with the request", "statement": "If the implementation returns nil error the decorator returns nil error; otherwise it returns a twirp error (the original one or an internal error wrapping it) whose request metadata is the JSON of the request argument; all other results are unchanged.", "quantifier": "every method signature and outcome", "why_tests_cant": "Universal over signatures, depends on the LIFO order of deferred calls.", "anchors": ["templates/twirp_error"]}
{"id": "C59", "title": "The circuit breaker, retry and rate limiter pass arguments and results through", "statement": "Whenever these decorators call the wrapped implementation they pass the caller's arguments in order, and what they return from a call is exactly that call's results.", "quantifier": "every method signature, argument list and implementation behaviour", "why_tests_cant": "Universal over signatures.", "anchors": ["templates/circuitbreaker", "templates/retry", "templates/ratelimit", "templates/robinpool", "templates/syncpool"]}
{"id": "C60", "title": "Generated parameter names are identifiers", "statement": "Every parameter and result name of an accepted method is a valid Go identifier, given that the names and types in the source are.", "quantifier": "every parsed method signature, every notion of letter", "why_tests_cant": "Universal over names and types; the failing inputs (types beginning with a non-ASCII letter) never occur in tests.", "anchors": ["generator/types.go:196-228", "generator/types.go:69-165"]}
{"id": "C61", "title": "The generated file belongs to the package of its directory", "statement": "The destination package is looked up by the directory of the output file (never as an import path); its name and import path are those of the package found there, and if there is none the file starts a package named like the directory.", "quantifier": "all output file names, working directories and package loaders", "why_tests_cant": "Universal over path shapes (., .., repeated slashes, relative and absolute) and loader outcomes.", "anchors": ["generator/generator.go:NewGenerator", "generator/generator.go:loadDestinationPackage", "generator/generator.go:makePackage"]}
{"id": "C62", "title": "The circuit breaker's lock protects its fields and is always released", "statement": "For every interleaving of concurrent calls: no two calls access the error count or the closing time at once when one of them writes, no lock is held while the wrapped implementation runs or after a call has ended (even by panic), and as long as a call has not ended some call can make a step.", "quantifier": "every interleaving of concurrent calls, outcomes and panics", "why_tests_cant": "Concurrency invariant over all schedules; data races and lost unlocks need particular interleavings.", "anchors": ["templates/circuitbreaker"]}
{"id": "C63", "title": "Built-in templates always produce Go declarations", "statement": "Executing any of the 18 built-in templates for an interface whose names are identifiers and whose types are Go types, with any values of the template variables that are names or can stand between quotes, does not fail, and the tokens of its output are those of a sequence of declarations that the grammar of Go generates: imports come first, names are identifiers, operands bind tighter than their operators, parameter lists are all named or all unnamed, only last parameters are variadic, no composite literal stands in the header of a statement.", "quantifier": "every built-in template, every interface, every set of methods and every command line variables", "why_tests_cant": "Template output is checked in tests for one interface only; missing spaces, unbalanced braces or failing template actions show for particular signatures (no parameters, no results, variadic parameters) and variable values.", "anchors": ["templates/*", "generator/generator.go:Generate", "cmd_generate.go:helperFuncs", "generator/types.go:Method.*"]}
{"id": "C64", "title": "Generated types declare exactly the intended methods", "statement": "The text produced by a built-in template declares, for the generated type, exactly one method for each method of the interface the template is about (all, those accepting a context, or those returning an error), with the parameter and result names and types of that method, in increasing order of name; whether the type embeds the interface depends only on the template.", "quantifier": "every built-in template and every interface", "why_tests_cant": "Universal over method sets and signatures.", "anchors": ["templates/*", "generator/types.go:Method.Declaration", "generator/types.go:Method.Signature"]}
{"id": "C65", "title": "Generated types implement the interface", "statement": "The type produced by any built-in template has every method of the decorated interface, with the same parameters and results: declared, or promoted from the embedded interface and not hidden by a field; no field has the name of a method.", "quantifier": "every built-in template and every interface", "why_tests_cant": "The test interface always has a context in every method that is not embedded, and no method is called like the interface or like a field; templates/elasticapm omits methods without a context.", "anchors": ["templates/*"]}
{"id": "C66", "title": "The generated files are the decorators", "statement": "For every built-in template, a call of a method of the interface on the type declared by the generated text performs the same effects in the same order and returns the same values as the decorator program about which the properties of that template (C45-C59, C62) are stated, provided no name of the interface coincides with a name used by the template where that would change its meaning.", "quantifier": "every built-in template, interface, method, receiver and arguments, and all answers of the environment", "why_tests_cant": "Relates the text of the templates to the verified programs for every interface; tests execute a single generated file.", "anchors": ["templates/*"]}
{"id": "C67", "title": "Functions with results return", "statement": "In the text produced by any built-in template every function, method and function literal that has results ends in a terminating statement, as the Go compiler demands.", "quantifier": "every built-in template and every interface", "why_tests_cant": "Which statement comes last depends on the kind of method; the test interface of templates/fallback has no method that returns an error without accepting a context.", "anchors": ["templates/*", "templates/fallback:94-101"]}
{"id": "C68", "title": "The constructors store their arguments where the methods read them", "statement": "In the text produced by every built-in template the function New… returns a struct whose fields are exactly what the methods of the same file read, so that the methods of the decorator made by New… do what the decorator program does with the arguments of New…: the tracing templates use the first optional function as span decorator, templates/log makes its two loggers for stdout and stderr, templates/syncpool puts every implementation into a channel of that capacity, templates/ratelimit puts `burst` ticks into a channel of that capacity before it starts the goroutine that adds further ones, a new circuit breaker is closed and has counted no errors; robinpool and syncpool report an empty pool by an error or a panic, and a negative burst panics. (templates/elasticapm is called without options.)", "quantifier": "every built-in template, interface and all arguments of the constructors, in particular pools of every size and every burst", "why_tests_cant": "The tests construct decorators with a few arguments; a pool or burst of any size, and every interface, needs induction.", "anchors": ["templates/*"]}
{"id": "C69", "title": "Every interface that is accepted gives Go declarations", "statement": "If NewGenerator succeeds for an interface of packages that the Go parser accepted, then every built-in template, executed on what Generate passes to it, produces a text that is a sequence of Go declarations derived from the grammar of Go, in which the types of all parameters and results are types of the grammar too (interface literals, types in parentheses and array lengths are copied from the source), and which declares the methods of C64. Parameters and results are not named nil, true or false, and unnamed ones do not have a type whose name begins with a letter outside ASCII (C60); template variables are as in C63.", "quantifier": "every package graph, interface, map order, option and built-in template", "why_tests_cant": "The set of interfaces is infinite: types nest without bound, methods come from any number of embedded interfaces in other packages, generic ones with arguments; tests use a handful.", "anchors": ["generator/generator.go:178-341", "generator/types.go", "generator/generics.go", "printer/printer.go", "templates/*"]}
{"id": "C70", "title": "The generated type implements the source interface", "statement": "Under the conditions of C69 the type in the generated text implements the interface of the source: each method of its method set, as defined by the Go specification, is a method of the generated type with the signature written in the source (C19 for type arguments), or the type embeds the interface.", "quantifier": "every package graph, interface, map order, option and built-in template", "why_tests_cant": "As C69; the method set is defined over all declarations an interface reaches in any number of packages.", "anchors": ["generator/generator.go:178-560", "templates/*"]}
{"id": "C71", "title": "Type parameters of the interface do not reach the output of built-in templates", "statement": "For every interface, the text that a built-in template generates is the same whatever .Interface.GenericsTypes and .Interface.GenericsParams are: the decorator of a generic interface is declared without type parameters.", "quantifier": "every interface, template variable setting, pair of type parameter lists and built-in template", "why_tests_cant": "It is about the absence of an effect for all inputs; a test shows it for the interfaces it contains.", "anchors": ["generator/generator.go:178-341", "templates/*"]}
{"id": "C72", "title": "Generated code obeys the rules of declarations and scope", "statement": "In the file generated by a built-in template every name is declared, as a package, type or value where one is needed; no name is declared twice in a block; every := declares a new variable; local variables are used; results are not hidden where a bare return stands; and no package, function or package level variable that the template refers to is hidden by a parameter or result.", "quantifier": "every interface, template variable setting and built-in template", "why_tests_cant": "Names of parameters, results, interfaces and decorators are chosen by users; a clash with a name inside a template appears only for that name.", "anchors": ["templates/*", "generator/types.go:60-140", "cmd_generate.go:205-230"]}
{"id": "C73", "title": "The declarations are read from the files of the package", "statement": "pkg.AST returns the declarations of exactly the files that the go command selects for the package (its GoFiles): no file of the package is left out, and files excluded by build constraints, tests and broken files that are not part of the package have no influence on the methods, imports and type parameters that are found.", "quantifier": "every directory listing, choice of files by the go command, package, map order and option", "why_tests_cant": "Depends on which other files lie in the directory and on the order in which a Go map is iterated; tests use directories with a single package for a single platform.", "anchors": ["pkg/package.go:39-66", "generator/generator.go:207-251"]}
{"id": "C74", "title": "Load returns the package that the pattern names", "statement": "pkg.Load succeeds exactly if the pattern matches one package and the go command reports no error for it, and then returns that package; otherwise it returns an error.", "quantifier": "every answer of the go command to every pattern", "why_tests_cant": "The answers of the go command depend on the environment; tests load a few existing packages.", "anchors": ["pkg/package.go:20-37", "cmd_generate.go:149", "generator/generator.go:191"]}
{"id": "C75", "title": "Generated code is well typed", "statement": "The file generated by a built-in template obeys the type rules of Go: every call passes arguments that fit the parameters of the function or method called, every assignment and return stores values of fitting types, conditions are boolean, fields and methods that are selected exist, struct literals fit their structs, and no variable hides a package or type where a type copied from the interface stands.", "quantifier": "every interface, template variable setting and built-in template", "why_tests_cant": "Depends on the types and names of parameters and results and on the combination of error, context and variadic parameters that users choose; a template is compiled only for the interfaces that are tried.", "anchors": ["templates/*", "generator/types.go:60-260"]}
{"id": "C76", "title": "Generated code compiles", "statement": "For an interface that the generator accepts, the file a built-in template generates compiles: it follows the grammar of Go, obeys the rules of declarations and scope, the rules about types and the rule about terminating statements, and its decorator has every method of the interface with the signature of the interface.", "quantifier": "every set of parsed packages, every accepted interface, template variable setting and built-in template", "why_tests_cant": "Tests compile the output for a handful of interfaces; whether the output compiles depends on all names and types in the source.", "anchors": ["generator/generator.go:152-300", "generator/types.go:60-260", "templates/*"]}
{"id": "C77", "title": "What is taken for an error is one", "statement": "If a method is reported to return an error (ReturnsError), its last result has the type error in the generated code.", "quantifier": "every method declaration, package and instantiation of generic interfaces", "why_tests_cant": "Depends on how type parameters and types of the package are named.", "anchors": ["generator/types.go:92-97", "generator/types.go:139-150", "generator/generics.go:154-167"]}
{"id": "C78", "title": "The generated text is a Go source file", "statement": "The text that gen passes to the formatter consists of a header and the declarations of the template: the mark of generated code, the package clause, the go:generate line, the imports of the file that declares the interface (and of its package, if that is another one), then the declarations. Its tokens are those of a Go source file.", "quantifier": "every set of parsed packages, accepted interface, command line and built-in template", "why_tests_cant": "Depends on directory names, import declarations and template variables that users choose.", "anchors": ["cmd_generate.go:303-316", "generator/generator.go:302-329", "generator/generator.go:278-299", "cmd_generate.go:125-158"]}
{"id": "C79", "title": "Generated code shares no memory that changes", "statement": "In the generated code no goroutine shares a variable with the function that starts it if one of them assigns to that variable after the start. Except for the circuit breaker, which locks, methods assign only to their own parameters, results and local variables, and take no address of other memory except for sync/atomic: calls at the same time do not interfere in the decorator.", "quantifier": "every interface with compilable methods and every built-in template", "why_tests_cant": "Data races depend on the schedule; the race detector sees only the executions and the interfaces of the tests.", "anchors": ["templates/fallback:28-106", "templates/ratelimit:14-51", "templates/robinpool:1-41", "templates/syncpool:1-32", "templates/retry:20-48"]}
{"id": "C80", "title": "Generated decorators do what their templates promise", "statement": "For every interface that gowrap accepts and every built-in template, the generated file declares a decorator that compiles and whose methods, called from any number of goroutines where that matters, behave as the template promises: observers pass calls on once and unchanged and record them, validators reject invalid arguments, timeouts bound the context, retries repeat failed calls, the breaker refuses calls while open, the rate limiter bounds calls, pools spread calls or hold implementations exclusively, the fallback returns the first success.", "quantifier": "all parsed packages, accepted interfaces, template variables, templates, implementations, arguments, executions and schedules", "why_tests_cant": "The behaviour of generated code depends on the interface and on schedules and library results; the tests of the repository run generated decorators for one interface each.", "anchors": ["generator/generator.go:165-263", "generator/generator.go:302-342", "templates/log:1-50", "templates/retry:20-48", "templates/circuitbreaker:1-73", "templates/fallback:11-106", "templates/ratelimit:14-51", "templates/robinpool:1-41", "templates/syncpool:1-32"]}
{"id": "C81", "title": "gowrap gen writes the decorator", "statement": "Whenever `gowrap gen` with a built-in template exits with code 0, the only file it has written is the output file named by -o, and its contents is what goimports makes (with the local prefix given by -l) of a Go file in the package of that directory which declares, for the interface named by -i of the package named by -p and with the variables given by -v, a decorator that compiles and does what the template promises. Conversely it exits with code 0 if the flags are complete, package and template can be loaded, the interface is accepted, and goimports and the file system succeed.", "quantifier": "all argument vectors, parsed packages, histories of the environment, sources of the template (local file, URL, repository), built-in templates and map orders", "why_tests_cant": "The tests of the repository run the commands with mocks or check single steps; that the steps compose to the promised file for every command line cannot be enumerated.", "anchors": ["cmd/gowrap/gowrap.go:21-55", "cmd_generate.go:71-101", "cmd_generate.go:125-187", "generator/generator.go:165-263", "generator/generator.go:302-340"]}
{"id": "C82", "title": "The generated text has exactly one reading", "statement": "For every interface that gowrap accepts and every built-in template, a parser that follows the grammar of Go reads the generated text completely, the declarations it reads are those of which the other properties speak, and no other declarations of the grammar have the same tokens. So what is proved about the declarations of a generated file is a statement about its text.", "quantifier": "all parsed packages, accepted interfaces, template variables and built-in templates; for uniqueness all derivations of the grammar, whatever the types in the source are", "why_tests_cant": "Whether a text could also be read in another way (precedence, composite literals after if, names and types in parameter lists, missing semicolons) depends on the names and types of the interface that are put into the template; a test compiles one text and cannot see that another text parses as something else.", "anchors": ["templates/log:1-50", "templates/fallback:11-106", "templates/validate:1-31", "generator/generator.go:120-160", "generator/generator.go:302-340", "printer/printer.go:50-222"]}
{"id": "C83", "title": "gowrap always exits with an exit code", "statement": "Whatever the command line (except a lone --, see C44), the packages, the templates and the answers of the network and of the file system are: gowrap neither panics nor runs forever, it ends with exit code 0, 1 or 2.", "quantifier": "all argument vectors, all parsed packages with acyclic imports and embedding, all iteration orders of maps, all behaviours of network, file system, goimports and template execution", "why_tests_cant": "Crashes come from shapes of syntax trees nobody thought of (an empty result list, an embedded function type, an identifier without letters), non-termination from cycles through type arguments; a test runs gowrap on a handful of interfaces.", "anchors": ["cmd/gowrap/gowrap.go:21-62", "cmd_generate.go:71-101", "generator/generator.go:164-263", "generator/generator.go:342-664", "generator/types.go:110-330", "cmd_template.go:48-101", "loader/loader.go:44-154"]}
{"id": "C84", "title": "The same invocation writes the same file", "statement": "Two invocations of gowrap with the same arguments that find the same packages, templates, files and network do exactly the same: they write the same bytes and end with the same exit code, although Go visits maps in a random order (files of packages, imports, the methods given to the template). This holds for every template, also those written by users.", "quantifier": "all argument vectors, parsed packages, templates of the modelled subset (with variables, ranges over maps, lookups by name), iteration orders of all maps in both invocations, behaviours of the environment", "why_tests_cant": "Go randomises map iteration: a test that passes has seen a few of the orders, and a golden file test compares one run. No finite number of runs excludes an order that changes the output.", "anchors": ["generator/generator.go:165-263", "generator/generator.go:302-340", "generator/generator.go:342-664", "generator/types.go:60-108", "cmd_generate.go:71-101"]}
{"id": "C85", "title": "Calls through shared decorators come to an end", "statement": "However many goroutines call the same circuit breaker, round robin pool, sync pool or rate limited decorator, in whatever order, nothing holds them up for ever: each call performs a bounded number of operations (circuit breaker: 13 and one for each ignored error, round robin pool: 2, sync pool: 3, rate limit: 2); as long as a call has not ended, some goroutine can go on; and every state that is reached can be continued until all calls have returned. A call through the round robin pool never waits at all; a call waiting for the rate limit can go on after one tick; no call waits for the rate limit before burst calls have started.", "quantifier": "all interfaces and methods, implementations (any results, errors and panics), numbers of goroutines, interleavings, pools, bursts and lists of ignored errors", "why_tests_cant": "A deadlock needs a particular interleaving, and a test that hangs on one of them in a million runs is called flaky; that there is none can only be shown for all interleavings and all numbers of callers.", "anchors": ["templates/circuitbreaker:35-71", "templates/robinpool:35-41", "templates/syncpool:23-32", "templates/ratelimit:20-51"]}
{"id": "C86", "title": "Decorators can be put around each other", "statement": "A stack of observability decorators (log, logrus, prometheus, opentracing, opencensus, opentelemetry, elasticapm), in any order and of any height, is transparent: one call of a method calls the implementation inside exactly once, with the arguments of the caller except that a context may have been replaced by one made from it, and returns its results or its panic. The circuit breaker, retry, the rate limiter and the pools cannot tell whether the implementations they call are wrapped in such stacks: they do what they do with implementations that give the same results, call by call. In particular retry calls the implementation inside a stack at most 1+retryCount times.", "quantifier": "all interfaces whose methods use no name of the templates and which the decorators implement, stacks of any height, receivers, arguments, implementations, library functions that return, runs", "why_tests_cant": "The templates are tested one by one around a mock; the number of combinations and of behaviours of the implementation inside is unbounded. That the decorators compose follows only from an induction over the stack.", "anchors": ["templates/log:23-50", "templates/logrus:22-47", "templates/prometheus:35-50", "templates/opentracing:30-51", "templates/opencensus:28-49", "templates/opentelemetry:34-56", "templates/elasticapm:60-83", "templates/retry:24-48", "templates/circuitbreaker:32-73"]}
{"id": "C87", "title": "Error messages reach standard error as they are", "statement": "When a command fails, the text of its error is printed on standard error as it is (command line errors followed by the hint which help to ask for); standard error stays empty exactly when gowrap succeeds; and whatever is wrong with the command line, the message says how to get help.", "quantifier": "all argument vectors, outcomes of the commands, error texts (also such with format directives) and names of commands", "why_tests_cant": "The text of an error is used as the format of Fprintf: the claim is about all texts with and without percent signs, flags, widths, precisions and argument indexes, most of which no test writes down.", "anchors": ["cmd/gowrap/gowrap.go:21-61", "cmd/gowrap/gowrap.go:63-87", "errors.go:4-8"]}
{"id": "C88", "title": "The usage text lists the registered commands", "statement": "After any sequence of registrations, GetCommand finds the command registered last under a name, and the table of commands in the usage text is strictly sorted and shows exactly the names that can be looked up, each with the short description of this command. The commands gowrap registers are the ones it runs.", "quantifier": "all sequences of registrations (also repeated names), names, descriptions and versions", "why_tests_cant": "A claim about every registry and about reading the table back; a golden file shows two commands with names of fitting length.", "anchors": ["command.go:55-90", "cmd/gowrap/gowrap.go:14-19"]}
{"id": "C89", "title": "Help describes exactly the flags of a command", "statement": "gowrap help COMMAND begins with the usage line of the command and describes exactly its flags, in the order of their names, each with the type of its argument and its usage text as it is, however many lines it has. gowrap help gen describes exactly the flags that gowrap gen accepts.", "quantifier": "all sets of flags with any usage texts, all commands and registries", "why_tests_cant": "A claim about reading back the text printed for every set of flags; a golden file repeats whatever was printed, including the misprint of -t.", "anchors": ["cmd/gowrap/gowrap.go:63-87", "cmd_generate.go:50-66", "cmd_template.go:18-36", "command.go:12-53"]}
{"id": "C90", "title": "A success seen through decorators is a success of the implementation", "statement": "However decorators (of all templates but fallback) are put around each other, and also if the implementations in a pool are decorated in different ways: every call that reaches an implementation is a call of the same method with the arguments of the caller (only the context may have been replaced, by one made from it); if the caller gets results without an error, they are the results of the last call; if the last call did not fail, the caller gets its results, or its panic; after a success or a panic no implementation is called again; and the number of calls is at most the product of the numbers of attempts of the retry decorators on the way.", "quantifier": "all interfaces, towers of decorators of any height and shape, receivers, configurations, arguments, implementations, states of the breakers, limiters and pools, runs", "why_tests_cant": "Each template is tested alone, around a mock. Whether a success can get lost, be made up, or be repeated when, say, retry is around a circuit breaker around twirp_error around a pool depends on all of them together, and there are infinitely many combinations.", "anchors": ["templates/retry:24-48", "templates/circuitbreaker:32-73", "templates/ratelimit:36-51", "templates/robinpool:35-41", "templates/syncpool:23-32", "templates/timeout:28-40", "templates/validate:16-31", "templates/grpc_validate:20-37", "templates/twirp_validate:20-36", "templates/twirp_error:20-44", "templates/log:23-50"]}
{"id": "C91", "title": "Guards hold wherever they are in a tower of decorators", "statement": "However decorators (of all templates but fallback) are put around each other: if every way to an implementation passes a validating decorator (validate, grpc_validate, twirp_validate), then no implementation is called before all arguments of the caller that can be validated have been validated without an error; if every way passes a timeout decorator with a duration for the method, then every implementation gets a context made, directly or through other contexts, by WithTimeout with that duration from the context of the caller; if every way passes a rate limiter, then at most k times as many calls reach implementations as tokens have been taken, where k bounds the attempts made below the limiters; if every way passes a circuit breaker and all circuits on the way are open, no implementation is called.", "quantifier": "all interfaces, towers of decorators of any height and shape, receivers, configurations, arguments, implementations, states of the breakers, limiters and pools, runs", "why_tests_cant": "A guard is tested directly around a mock. That it still guards when it is below retries, above pools of differently decorated implementations, or in different places on different ways is a statement about all trees of decorators and all their runs.", "anchors": ["templates/validate:16-31", "templates/grpc_validate:20-37", "templates/twirp_validate:20-36", "templates/timeout:28-40", "templates/ratelimit:36-51", "templates/circuitbreaker:32-73"]}
{"id": "C92", "title": "The message about an unknown command names it", "statement": "When the first argument is not the name of a command, or the argument of gowrap help is not, standard error names it by a Go string literal on one line, whatever characters (line feeds, quotes, control characters, other scripts) it has: the name can be read back from the message, so that different unknown names get different messages.", "quantifier": "all command lines, names made of Unicode characters, tables of printable characters that agree with ASCII", "why_tests_cant": "Tests try a few plain names. Control characters, characters that are not printable and percent signs, which are interpreted a second time by die, are not among them.", "anchors": ["cmd/gowrap/gowrap.go:36-46", "cmd/gowrap/gowrap.go:56-61", "cmd/gowrap/gowrap.go:72-75"]}
{"id": "C93", "title": "Helper functions work in both ways templates write them", "statement": "In a custom template {{f x}} and {{x | f}} print the same for every helper function of gowrap: up, down, upFirst, downFirst and snake print the text with all letters or the first letter mapped or in snake case, alone or applied to each other; {{replace x \"old\" \"new\"}} and {{x | replace \"old\" \"new\"}} print x with every occurrence of old, found from the left without overlaps, replaced by new.", "quantifier": "all interfaces, names, texts old and new without quotes, backslashes and line feeds, case tables", "why_tests_cant": "The tests call the Go functions directly. How templates pass arguments, in particular that a pipeline passes its value last, is only seen when templates are executed, for all argument texts including overlapping and empty ones.", "anchors": ["cmd_generate.go:267-292"]}
{"id": "C94", "title": "Imports requested by a template are all in its import block", "statement": "When a template calls .Import with any number of strings, written between quotes or between back quotes, it prints an import block that lists, each once and in increasing order, exactly the imports of the source file and those of the template with quotes around them; empty strings are ignored; the execution fails exactly if one of the strings is not empty but blank.", "quantifier": "all lists of imports of the source, all lists of strings in both notations", "why_tests_cant": "Tests call Import directly with a few strings. That the strings written in a template arrive there and the block is what the template prints, for any number of strings and any characters, and that no other call fails, is a statement about all templates of this form.", "anchors": ["generator/generator.go:48-84", "generator/generator.go:315-327"]}
{"id": "C95", "title": "What templates without control structures print", "statement": "Every custom template made of texts, comments, {{.Interface.Name}} and {{.Vars.x}}, each action with or without trim markers on either side, is accepted and prints its texts unchanged except for the blanks next to a trim marker, nothing for comments, the name of the interface, and for variables the value given with -v, true for a variable given without a value, and <no value> for a variable that was not given.", "quantifier": "all texts without {{, comments, variable names, trim markers, interfaces and -v flags", "why_tests_cant": "Tests render a few templates. Here the number, order and contents of texts, comments and actions and all combinations of trim markers are arbitrary.", "anchors": ["generator/generator.go:174-178", "generator/generator.go:315-327", "cmd_generate.go:267-278"]}
{"id": "C96", "title": "What templates with control structures print", "statement": "Every custom template made of texts, the name of the interface, variables, names of methods, {{if}} with any number of {{else if}}, {{with}} and {{range $.Interface.Methods}}, each with or without {{else}} and nested to any depth, is accepted and prints exactly: of an if the branch of the first variable that was given with -v and is not empty, otherwise the else branch or nothing; of a with the same, with . being the value of the variable; of a range its body once for every method of the interface, in the order of the names, or its else branch for an interface without methods; and everything else as without control structures.", "quantifier": "all nestings of control structures of any depth, texts without {{, variable names, interfaces with any methods, orders of the Go map, -v flags", "why_tests_cant": "Tests render the built-in templates for a few interfaces. Here nesting, conditions and texts are arbitrary, and the output is fixed for all of them at once.", "anchors": ["generator/generator.go:174-178", "generator/generator.go:315-327", "cmd_generate.go:267-278"]}
{"id": "C97", "title": "Generating again gives the same code", "statement": "If gowrap succeeds, then running it again with the same flags, after the file it generated (or any other file) was added to the destination package, finds the same methods, type parameters, imports and package names and produces the same header and body, byte for byte, whatever the template; whether the destination is the package of the interface or another one. Provided the added file declares no type that the package already declares or that one of its interfaces embeds, the packages form no import cycle, and no two packages imported by a package have the same name. Without the last condition it is false: after the template log was used for an interface that embeds an interface of another package called log, the second run may drop the embedded methods without any error.", "quantifier": "all package graphs, added files with any declarations and imports, options, templates, iteration orders of Go maps in both runs", "why_tests_cant": "Tests generate each file once, into an empty directory or package. The claim relates two runs in two different package graphs, for all graphs, added files and iteration orders.", "anchors": ["generator/generator.go:164-263", "generator/generator.go:438-452", "generator/generator.go:587-615", "generator/generator.go:638-664", "generator/generator.go:668-682", "templates/log:1-4"]}
{"id": "C98", "title": "Only the packages the source package depends on matter", "statement": "What gowrap does is determined by the source package, the packages it depends on through imports, and the name and import path of the destination package. If two workspaces agree on these they give the same methods, type parameters, imports, interface type and package names, or the same error, the same panic or no termination, whatever the other packages of the workspace contain.", "quantifier": "all pairs of package graphs that agree on the dependencies of the source package, options, iteration orders of Go maps", "why_tests_cant": "It compares runs in all pairs of workspaces that differ anywhere outside the dependencies; tests have one workspace.", "anchors": ["generator/generator.go:164-263", "generator/generator.go:344-416", "generator/generator.go:587-615", "generator/generator.go:668-682"]}
{"id": "C99", "title": "Executing the go:generate line reproduces the file", "statement": "If gowrap gen exits with code 0, then the command in the go:generate comment of the generated file, run in the directory of that file and with the generated file in place, hands the generator the same options (interface, source package, template and its text, variables, local prefix and everything the header mentions), exits with code 0 and writes the same bytes to the same file, for all iteration orders of Go maps in both runs.", "quantifier": "all command lines, working directories, output paths, templates, package graphs, iteration orders of Go maps", "why_tests_cant": "It relates two runs in different directories through the text of a comment that is split into words by go generate, for all option values, paths and workspaces; the project has no test that executes the comment.", "anchors": ["cmd_generate.go:45-62", "cmd_generate.go:69-122", "cmd_generate.go:125-187", "generator/generator.go:182-210", "generator/generator.go:300-340"]}
{"id": "C100", "title": "A template of one's own gets exactly the interface name, methods and variables of the invocation", "statement": "If gowrap gen exits with code 0 and the template loaded for -t is made of texts, comments, {{.Interface.Name}}, {{.Vars.x}} (with or without trim markers), or of if, else if, with and range over the methods put into each other to any depth, then the file written to -o is what goimports makes of the header followed by exactly the text that the template describes, with the value of -i, the value of the last -v flag for each name and the methods that were discovered, in the order of their names, in place; where method discovery is exact (C20) these are exactly the methods of the interface.", "quantifier": "all templates of these two languages, command lines, package graphs, iteration orders of Go maps, answers of file system, network and goimports", "why_tests_cant": "The claim runs from the argument list to the written bytes for every template that a user may write in these languages and every set of variables; tests only try a few fixed templates.", "anchors": ["cmd_generate.go:69-122", "cmd_generate.go:125-187", "generator/generator.go:40-46", "generator/generator.go:301-340"]}
{"id": "C101", "title": "Variables of templates are lexically scoped", "statement": "A custom template made of {{$x := \"v\"}}, {{$x}} and blocks, put into each other to any depth, is accepted exactly if every variable that it prints has been declared before, at this place or around it; then it prints for each variable the value given to it last in the innermost block that declares it, and what a block declares ends with the block. Otherwise it is rejected when the template is parsed, before anything is written.", "quantifier": "all templates of this language, names and values of variables, interfaces", "why_tests_cant": "Scope is a property of all nestings of declarations and blocks; the tests of gowrap use fixed templates only.", "anchors": ["cmd_generate.go:267-292", "generator/generator.go:160-180"]}
