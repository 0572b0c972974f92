{"claims": [
{"property": "C01", "status": "proved", "theorems": ["Gowrap.Props.C01_names_distinct"], "note": "for every signature NewMethod accepts"},
{"property": "C02", "status": "proved", "theorems": ["Gowrap.Props.C02_signature_preserved"], "note": "index-wise correspondence of arity, order, type text (with top-level type parameter substitution), variadic flag and comments"},
{"property": "C03", "status": "partial", "theorems": ["Gowrap.Props.C03_names_kept_partial", "Gowrap.Props.C03_full_false", "Gowrap.Props.C03_exact"], "note": "the full claim is false (user's c1 is renamed when the context parameter is called ctx); proved in all other cases, and C03_exact shows that the names are kept in no others (c1 may be the name of the error)"},
{"property": "C04", "status": "proved", "theorems": ["Gowrap.Props.C04_error_result"], "note": ""},
{"property": "C05", "status": "partial", "theorems": ["Gowrap.Props.C05_context_param_partial", "Gowrap.Props.C05_full_false", "Gowrap.Props.C05_exact"], "note": "any X.Context is taken for a context (e.g. gin.Context): full claim refuted, the rest proved; C05_exact: AcceptsContext is right exactly if the first parameter is not a Context with another qualifier than context"},
{"property": "C06", "status": "proved", "theorems": ["Gowrap.Props.C06_fresh_minimal"], "note": ""},
{"property": "C07", "status": "partial", "theorems": ["Gowrap.Props.C07_forwardable_partial", "Gowrap.Props.C07_exact", "Gowrap.Props.C07_full_false"], "note": "a parameter called _ in the source stays _: full claim refuted, the rest proved; C07_exact says for every parameter whether it can be forwarded"},
{"property": "C08", "status": "proved", "theorems": ["Gowrap.Props.C08_forwarding", "Gowrap.Props.C08_C09_applicable"], "note": "the renderings are read back by an independent reader; C08_C09_applicable shows the premises hold for every method NewMethod makes from parsed source"},
{"property": "C09", "status": "proved", "theorems": ["Gowrap.Props.C09_structs", "Gowrap.Props.C08_C09_applicable"], "note": "as for C08"},
{"property": "C10", "status": "partial", "theorems": ["Gowrap.Props.C10_no_crash_partial", "Gowrap.Props.C10_exact", "Gowrap.Props.C10_full_false"], "note": "M() () panics: full claim refuted, the rest proved; C10_exact: it is the only reason for a panic"},
{"property": "C100", "status": "proved", "theorems": ["Gowrap.Props.C100_flat", "Gowrap.Props.C100_nested", "Gowrap.Props.C100_method_set"], "note": "From the command line to the written bytes: C100_flat for texts, comments, the interface name and variables with trim markers, C100_nested for conditions, with and range over the discovered methods, C100_method_set for the methods of the declared interface under the conditions of C20_supported_partial. What goimports does with the text is a parameter."},
{"property": "C101", "status": "proved", "theorems": ["Gowrap.Props.C101_scope", "Gowrap.Props.C101_parse", "Gowrap.Props.C101_command"], "note": "Against the model of text/template (Model/TextTemplate). Blocks are {{if true}} ... {{end}}; values are texts without quotes, backslashes and line feeds. That Parse runs before anything is written is C34. C101_command: from the command line to the text that goimports gets, if gowrap exits with code 0."},
{"property": "C11", "status": "partial", "theorems": ["Gowrap.Props.C11_qualified_partial", "Gowrap.Props.C11_full_false", "Gowrap.Props.C11_exact"], "note": "a type parameter with the name of a declared type gets a selector: full claim refuted, the rest proved by reading the text back with an independent type reader; C11_exact: a printed type has its meaning exactly if no type parameter that occurs in it has the name of a declared type"},
{"property": "C12", "status": "partial", "theorems": ["Gowrap.Props.C12_refused_iff_partial", "Gowrap.Props.C12_full_false", "Gowrap.Props.C12_ascii", "Gowrap.Props.C12_exact"], "note": "exported names whose first letter has no lower case form are refused: full claim refuted; exact for all names beginning with an ASCII letter; C12_exact: for all tables, refused are exactly the types whose first letter is its own lower case form"},
{"property": "C13", "status": "proved", "theorems": ["Gowrap.Props.C13_same_package"], "note": ""},
{"property": "C14", "status": "proved", "theorems": ["Gowrap.Props.C14_history_independent", "Gowrap.Props.C14_refines"], "note": "printer with its buffer, deferred resets, failing writer"},
{"property": "C15", "status": "partial", "theorems": ["Gowrap.Props.C15_unqualified_partial", "Gowrap.Props.C15_full_false", "Gowrap.Props.C15_array_length_false", "Gowrap.Props.C15_exact"], "note": "interface literals, parenthesised types and array lengths are printed raw: full claim refuted; proved that nothing else leaks; C15_exact: the declarations left unqualified are exactly those named in such parts"},
{"property": "C16", "status": "partial", "theorems": ["Gowrap.Props.C16_injective_partial", "Gowrap.Props.C16_full_false", "Gowrap.Props.C16_selector_clash", "Gowrap.Props.C16_exact"], "note": "struct tags are dropped and a selector may clash: full claim refuted; injective otherwise; C16_exact: apart from that clash two types print alike exactly if they differ in struct tags only"},
{"property": "C17", "status": "proved", "theorems": ["Gowrap.Props.C17_type_params"], "note": "read back by an independent reader"},
{"property": "C18", "status": "partial", "theorems": ["Gowrap.Props.C18_constraint_partial", "Gowrap.Props.C18_full_false", "Gowrap.Props.C18_dropped", "Gowrap.Props.C18_exact"], "note": "~T of a source type is not qualified and constraints other than unions of names and ~names are dropped: full claim refuted, the supported unions proved; C18_exact: of the constraints the Go parser accepts, exactly these unions are reproduced"},
{"property": "C19", "status": "partial", "theorems": ["Gowrap.Props.C19_arguments_partial", "Gowrap.Props.C19_whole_partial", "Gowrap.Props.C19_full_false", "Gowrap.Props.C19_exact"], "note": "full claim refuted ([]T is left as it is); proved that exactly the types which are a type parameter as a whole are replaced, by the printed argument of the innermost instantiation; C19_exact: with one type parameter, a type is right exactly if it is the type parameter or does not contain it (interface literals and parentheses left aside)"},
{"property": "C20", "status": "partial", "theorems": ["Gowrap.Props.C20_followed_partial", "Gowrap.Props.C20_supported_partial", "Gowrap.Props.C20_full_false"], "note": "full claim refuted (embedded error, embedded interface literals, names of dot imports); proved: exactly the methods reachable along followed embeddings, which is the Go method set for supported declarations"},
{"property": "C21", "status": "partial", "theorems": ["Gowrap.Props.C21_no_loss_partial", "Gowrap.Props.C21_full_false"], "note": "full claim refuted (an embedded interface literal loses its methods silently); proved for supported declarations"},
{"property": "C22", "status": "proved", "theorems": ["Gowrap.Props.C22_merge", "Gowrap.Props.C22_idempotent", "Gowrap.Props.C22_nil"], "note": ""},
{"property": "C23", "status": "partial", "theorems": ["Gowrap.Props.C23_order_independent_partial", "Gowrap.Props.C23_full_false", "Gowrap.Props.C23_dependencies_partial"], "note": "full claim refuted (two imported packages of the same name); proved when imported packages have distinct names. C23_dependencies_partial needs this only of the packages that the source package depends on, whatever the rest of the workspace contains."},
{"property": "C24", "status": "partial", "theorems": ["Gowrap.Props.C24_selector_partial", "Gowrap.Props.C24_rhs", "Gowrap.Props.C24_full_false"], "note": "full claim refuted (an alias meaning different packages in two files); proved when the files of a package agree on qualifiers"},
{"property": "C25", "status": "partial", "theorems": ["Gowrap.Props.C25_terminates_partial", "Gowrap.Props.C25_full_false"], "note": "full claim refuted (an interface occurring in a type argument of an interface it embeds makes gowrap recurse without end); proved when embedding including type arguments is acyclic"},
{"property": "C26", "status": "partial", "theorems": ["Gowrap.Props.C26_exported_partial", "Gowrap.Props.C26_same_package", "Gowrap.Props.C26_full_false", "Gowrap.Props.C26_exact"], "note": "full claim refuted (title case letters); proved otherwise; C26_exact: accepted exactly if lower-casing changes the first letter of every method"},
{"property": "C27", "status": "proved", "theorems": ["Gowrap.Props.C27_returned", "Gowrap.Props.C27_missing", "Gowrap.Props.C27_empty"], "note": ""},
{"property": "C28", "status": "proved", "theorems": ["Gowrap.Props.C28_interface_type"], "note": ""},
{"property": "C29", "status": "proved", "theorems": ["Gowrap.Props.C29_block", "Gowrap.Props.C29_set_only"], "note": "the import block is sorted, free of duplicates and depends only on the set of imports"},
{"property": "C30", "status": "partial", "theorems": ["Gowrap.Props.C30_quoting_partial", "Gowrap.Props.C30_full_false", "Gowrap.Props.C30_alias_broken", "Gowrap.Props.C30_blank_panics", "Gowrap.Props.C30_exact", "Gowrap.Props.C30_panics_exact", "Gowrap.Props.C30_alias_exact"], "note": "imports with an alias given to the template function are quoted as a whole and a blank string panics: full claim refuted, the rest proved; the exact result for every argument is C30_exact, Import panics exactly for blank arguments (C30_panics_exact), an alias never survives (C30_alias_exact)"},
{"property": "C31", "status": "proved", "theorems": ["Gowrap.Props.C31_sorted", "Gowrap.Props.C31_order_independent"], "note": ""},
{"property": "C32", "status": "partial", "theorems": ["Gowrap.Props.C32_vars", "Gowrap.Props.C32_round_trip_partial", "Gowrap.Props.C32_full_false", "Gowrap.Props.C32_exact"], "note": "full claim refuted (a value containing a newline, a quote, a dollar sign or a space does not survive the go:generate line); parsing and last-wins proved for all arguments, the round trip for plain ones; C32_exact: a single variable survives exactly if it is not empty, contains no blank, tab or line break and does not begin with a quote (where unquoting never lengthens a text)"},
{"property": "C33", "status": "partial", "theorems": ["Gowrap.Props.C33_rerun_partial", "Gowrap.Props.C33_full_false", "Gowrap.Props.C33_exact"], "note": "full claim refuted (values go generate splits or expands, and an output file outside the working directory); proved for plain option values. For values without quotes, backslashes, dollar signs and carriage returns the boundary is exact (C33_exact): the arguments of the header are run exactly if no bare value is empty or contains blanks or line breaks and the local prefix has no line break."},
{"property": "C34", "status": "proved", "theorems": ["Gowrap.Props.C34_atomic_output"], "note": ""},
{"property": "C35", "status": "proved", "theorems": ["Gowrap.Props.C35_required_flags", "Gowrap.Props.C35_flags"], "note": "assuming the external functions do not themselves return a gowrap command line error; flag syntax stated by an independent grammar"},
{"property": "C36", "status": "proved", "theorems": ["Gowrap.Props.C36_local_first"], "note": ""},
{"property": "C37", "status": "partial", "theorems": ["Gowrap.Props.C37_reference_partial", "Gowrap.Props.C37_total", "Gowrap.Props.C37_full_false", "Gowrap.Props.C37_exact"], "note": "full claim refuted (templates fetched over http:// rather than https:// are recorded as a path); proved otherwise; C37_exact: of the templates from the network exactly those fetched over HTTPS are referred to by their URL"},
{"property": "C38", "status": "proved", "theorems": ["Gowrap.Props.C38_copy"], "note": ""},
{"property": "C39", "status": "proved", "theorems": ["Gowrap.Props.C39_names", "Gowrap.Props.C39_list", "Gowrap.Props.C39_prints"], "note": ""},
{"property": "C40", "status": "proved", "theorems": ["Gowrap.Props.C40_get", "Gowrap.Props.C40_bodies_closed"], "note": ""},
{"property": "C41", "status": "proved", "theorems": ["Gowrap.Props.C41_pinned", "Gowrap.Props.C41_requests", "Gowrap.Props.C41_dispatch"], "note": ""},
{"property": "C42", "status": "partial", "theorems": ["Gowrap.Props.C42_first_rune_partial", "Gowrap.Props.C42_empty", "Gowrap.Props.C42_invalid", "Gowrap.Props.C42_full_false", "Gowrap.Props.C42_exact"], "note": "full claim refuted (a string beginning with an invalid byte panics or loses bytes); proved for strings beginning with a well-formed rune; C42_exact: the helpers panic exactly for texts of one or two bytes that do not begin with a rune"},
{"property": "C43", "status": "proved", "theorems": ["Gowrap.Props.C43_exact", "Gowrap.Props.C43_snake"], "note": "for valid UTF-8, assuming that lowering a letter twice is lowering it once"},
{"property": "C44", "status": "partial", "theorems": ["Gowrap.Props.C44_exit_partial", "Gowrap.Props.C44_stderr", "Gowrap.Props.C44_dashes_crash", "Gowrap.Props.C44_full_false", "Gowrap.Props.C44_exact"], "note": "full claim refuted (gowrap -- panics, in every process: C44_dashes_crash); proved for all other argument vectors; C44_exact: gowrap crashes exactly if its only argument is -- or the command it runs panics"},
{"property": "C45", "status": "proved", "theorems": ["Gowrap.Props.C45_sequential", "Gowrap.Props.C45_rule", "Gowrap.Props.C45_streak"], "note": "C45_sequential: in every execution in which the calls are made one after the other, each call is let through or rejected by the history of completed calls before it; C45_rule and C45_streak spell out when the circuit is open after a history. Calls that panic do not count. errors.Is is an arbitrary function, the clock any non-decreasing sequence of readings."},
{"property": "C46", "status": "partial", "theorems": ["Gowrap.Props.C46_decision", "Gowrap.Props.C46_open_partial", "Gowrap.Props.C46_reopen", "Gowrap.Props.C46_full_false"], "note": "For all interleavings the decision on each call is exactly given by the history at the time of the decision (C46_decision), and calls that begin after the circuit has opened are rejected as long as only calls that count complete (C46_open_partial). The full claim is refuted: a call let through before the circuit opened closes it when it succeeds."},
{"property": "C47", "status": "partial", "theorems": ["Gowrap.Props.C47_full_false", "Gowrap.Props.C47_retry_partial", "Gowrap.Props.C47_bounds", "Gowrap.Props.C47_no_interval", "Gowrap.Props.C47_exact"], "note": "The full claim is false: with an interval that is not positive time.NewTicker panics after the first failed attempt. With such an interval C47_no_interval says what happens. Proved for positive intervals, every sequence of outcomes and every choice of the selects; C47_bounds spells out the numbers. C47_exact: a call is retried as documented exactly if the interval is positive, no retries are wanted or the first attempt does not fail."},
{"property": "C48", "status": "partial", "theorems": ["Gowrap.Props.C48_even_partial", "Gowrap.Props.C48_wraps_partial", "Gowrap.Props.C48_full_false", "Gowrap.Props.C48_exact"], "note": "Every call that enters a pool of fewer than 2^32 implementations is given one of them, and in every window of consecutive calls the shares differ by at most one, for all interleavings. Missing: windows in which the 32 bit counter starts again at zero, unless the pool size divides 2^32; there the full claim is refuted (three implementations, calls 2^32-1 and 2^32), and C48_wraps_partial proves the exact loss: the difference is at most one plus the number of restarts in the window. C48_exact: all windows of all executions are even exactly if the size of the pool divides 2^32."},
{"property": "C49", "status": "proved", "theorems": ["Gowrap.Props.C49_pool", "Gowrap.Props.C49_empty"], "note": "For every interleaving of any number of goroutines. The channel is modelled as a bounded buffer; implementations may return or panic."},
{"property": "C50", "status": "partial", "theorems": ["Gowrap.Props.C50_bound_partial", "Gowrap.Props.C50_entered", "Gowrap.Props.C50_negative", "Gowrap.Props.C50_full_false", "Gowrap.Props.C50_exact"], "note": "The bound from creation on is proved as claimed; in a window at most burst + 2 + ticks calls are let through, and this bound is reached, so the claim for windows is refuted. C50_entered says that the calls let through are the calls that enter the implementation. C50_exact: for every burst these bounds are the least ones."},
{"property": "C51", "status": "proved", "theorems": ["Gowrap.Props.C51_limited", "Gowrap.Props.C51_other"], "note": "For every run of a rate limited method; ctx.Err is assumed not to panic."},
{"property": "C52", "status": "proved", "theorems": ["Gowrap.Props.C52_outcome", "Gowrap.Props.C52_returns", "Gowrap.Props.C52_success", "Gowrap.Props.C52_failure", "Gowrap.Props.C52_calls", "Gowrap.Props.C52_starts"], "note": "For every number of implementations, every outcome and every schedule of the goroutines, ticks and cancellation, for all method shapes for which the template generates code that compiles (a method that returns an error without accepting a context does not compile, templates/fallback:100). Library functions are assumed to behave as documented; names must not clash with identifiers of the template."},
{"property": "C53", "status": "partial", "theorems": ["Gowrap.Props.C53_full_false", "Gowrap.Props.C53_answer_lost", "Gowrap.Props.C53_launcher_leaks", "Gowrap.Props.C53_answers_partial", "Gowrap.Props.C53_all_returned_partial", "Gowrap.Props.C53_plain_partial", "Gowrap.Props.C53_children_end_partial", "Gowrap.Props.C53_bounded"], "note": "Both halves of the full claim are false: a method without a context never returns if the implementation returns before the method waits (C53_answer_lost), and the goroutine that starts the implementations waits for ever after an early success (C53_launcher_leaks). Proved: methods with a context return when an implementation succeeded or all returned; methods without a context return unless the result was dropped; goroutines of implementations end; the number of steps is bounded."},
{"property": "C54", "status": "partial", "theorems": ["Gowrap.Props.C54_full_false", "Gowrap.Props.C54_timeout_partial", "Gowrap.Props.C54_other", "Gowrap.Props.C54_exact"], "note": "The full claim is false: a parameter called cancelFunc is redeclared and the generated method does not compile. Proved for all other methods, with the documented behaviour of context.WithTimeout as a hypothesis on the run; methods without a context are promoted unchanged. C54_exact: a method with a context and a positive timeout gets its deadline exactly if nothing in its signature is called cancelFunc or context, otherwise it does not compile."},
{"property": "C55", "status": "partial", "theorems": ["Gowrap.Props.C55_full_false", "Gowrap.Props.C55_validate", "Gowrap.Props.C55_validate_other", "Gowrap.Props.C55_grpc_partial", "Gowrap.Props.C55_twirp_partial", "Gowrap.Props.C55_twirp_exact", "Gowrap.Props.C55_grpc_exact"], "note": "validate is proved in full; grpc_validate and twirp_validate are proved for methods whose parameters do not hide the imported packages, the full claim is refuted by a parameter called twirp. C55_twirp_exact and C55_grpc_exact: a call is validated as claimed exactly if nothing hides the packages or all arguments turn out to be valid."},
{"property": "C56", "status": "partial", "theorems": ["Gowrap.Props.C56_transparent_partial", "Gowrap.Props.C56_at_most_once", "Gowrap.Props.C56_full_false", "Gowrap.Props.methodOk_of_newMethod", "Gowrap.Props.callable_of_newMethod"], "note": "All seven templates as programs over an environment of variables; exactly one call, arguments in order, context only replaced by the one returned with the span, results or panic passed on, for every run in which library functions return; at most one call in every run and every prefix. Missing: methods with a parameter or result named like an identifier of the template (does not compile, refuted in C56_full_false)."},
{"property": "C57", "status": "partial", "theorems": ["Gowrap.Props.C57_log_partial", "Gowrap.Props.C57_logrus_partial", "Gowrap.Props.C57_prometheus_partial", "Gowrap.Props.C57_opentracing_partial", "Gowrap.Props.C57_opencensus_partial", "Gowrap.Props.C57_opentelemetry_partial", "Gowrap.Props.C57_elasticapm_partial", "Gowrap.Props.C57_full_false"], "note": "Exact sequence of library calls around the call of the implementation for each template, with the error marks exactly if the call failed. Missing: a panicking custom span decorator leaves the span open (C57_full_false), and methods that clash with identifiers of the template."},
{"property": "C58", "status": "partial", "theorems": ["Gowrap.Props.C58_full_false", "Gowrap.Props.C58_twirp_error_partial", "Gowrap.Props.C58_no_request", "Gowrap.Props.C58_exact"], "note": "The full claim is false: a method without a request argument returns a plain error unchanged. Proved for methods with at least one request argument; the metadata is the first result of json.Marshal, whose error the template ignores. C58_exact: an error is returned as a twirp error exactly if the method has a request argument or it already is one."},
{"property": "C59", "status": "partial", "theorems": ["Gowrap.Props.C59_full_false", "Gowrap.Props.C59_pass_through_partial"], "note": "The full claim is false: a parameter called _i is replaced by the loop counter of retry. Proved for circuitbreaker, retry, ratelimit, robinpool and syncpool when no parameter or result has a name which the template uses itself."},
{"property": "C60", "status": "partial", "theorems": ["Gowrap.Props.C60_identifiers_partial", "Gowrap.Props.C60_full_false", "Gowrap.Props.C60_exact"], "note": "types beginning with a non-ASCII letter give invalid names: full claim refuted, the rest proved; C60_exact: a parameter without a name gets an identifier exactly if the named type at the core of its type begins with an ASCII letter"},
{"property": "C61", "status": "partial", "theorems": ["Gowrap.Props.C61_destination_partial", "Gowrap.Props.C61_full_false", "Gowrap.Props.C61_exact"], "note": "full claim refuted (an output file in the parent directory starts a package named ..); proved otherwise; C61_exact: a new package is named like its directory exactly if its name is not .."},
{"property": "C62", "status": "proved", "theorems": ["Gowrap.Props.C62_no_race", "Gowrap.Props.C62_released", "Gowrap.Props.C62_no_deadlock"], "note": "Reader and writer locks of the circuit breaker, for every interleaving of any number of goroutines."},
{"property": "C63", "status": "proved", "theorems": ["Gowrap.Props.C63_declarations"], "note": "for all 18 templates; lexical structure as in Model/GoLex, trees as in Model/GoAst, grammar as in Spec/Grammar; the types of the interface are taken as they are"},
{"property": "C64", "status": "proved", "theorems": ["Gowrap.Props.C64_methods"], "note": "for all 18 templates"},
{"property": "C65", "status": "partial", "theorems": ["Gowrap.Props.C65_full_false", "Gowrap.Props.C65_implements_partial", "Gowrap.Props.C65_field_hides_method", "Gowrap.Props.C65_exact"], "note": "false for templates/elasticapm, which neither declares the methods without a context nor embeds the interface, and whenever a method has the name of a field (for templates that embed the interface: the name of the interface); proved for all other cases; C65_exact states the boundary as an equivalence"},
{"property": "C66", "status": "proved", "theorems": ["Gowrap.Props.C66_log", "Gowrap.Props.C66_logrus", "Gowrap.Props.C66_prometheus", "Gowrap.Props.C66_opentracing", "Gowrap.Props.C66_opencensus", "Gowrap.Props.C66_opentelemetry", "Gowrap.Props.C66_elasticapm", "Gowrap.Props.C66_validate", "Gowrap.Props.C66_twirp_validate", "Gowrap.Props.C66_grpc_validate", "Gowrap.Props.C66_twirp_error", "Gowrap.Props.C66_timeout", "Gowrap.Props.C66_circuitbreaker", "Gowrap.Props.C66_retry", "Gowrap.Props.C66_ratelimit", "Gowrap.Props.C66_robinpool", "Gowrap.Props.C66_syncpool", "Gowrap.Props.C66_fallback", "Gowrap.Props.C66_call_declared"], "note": "one theorem per template, under the conditions on names stated there C66_call_declared: the model gives a call a meaning only if the type declares the method once and with its signature, or declares no method of this name and embeds the interface."},
{"property": "C67", "status": "partial", "theorems": ["Gowrap.Props.C67_returns_partial", "Gowrap.Props.C67_fallback_missing_return", "Gowrap.Props.C67_exact", "Gowrap.Props.C67_full_false"], "note": "Full claim refuted: with templates/fallback a method that returns an error and takes no context lacks a return (C67_fallback_missing_return); by C82 the text has no other reading (C67_full_false). Proved for all 18 templates, for templates/fallback if every method that returns an error accepts a context; C67_exact states the boundary as an equivalence, for every accepted interface and every reading of the text."},
{"property": "C68", "status": "proved", "theorems": ["Gowrap.Props.C68_log", "Gowrap.Props.C68_logrus", "Gowrap.Props.C68_prometheus", "Gowrap.Props.C68_opentracing", "Gowrap.Props.C68_opencensus", "Gowrap.Props.C68_opentelemetry", "Gowrap.Props.C68_elasticapm", "Gowrap.Props.C68_validate", "Gowrap.Props.C68_twirp_validate", "Gowrap.Props.C68_grpc_validate", "Gowrap.Props.C68_twirp_error", "Gowrap.Props.C68_timeout", "Gowrap.Props.C68_circuitbreaker", "Gowrap.Props.C68_retry", "Gowrap.Props.C68_fallback", "Gowrap.Props.C68_ratelimit", "Gowrap.Props.C68_robinpool", "Gowrap.Props.C68_syncpool"], "note": "one theorem per template; the methods are those of C66 in the same file. templates/elasticapm without options; the interface is not named like a field of the struct"},
{"property": "C69", "status": "proved", "theorems": ["Gowrap.Props.C69_inputs", "Gowrap.Props.C69_source_to_declarations"], "note": "SourceOk says what the Go parser guarantees, with the two conditions on names in the statement; C69_inputs proves the hypotheses of C63 to C68 for everything NewGenerator returns"},
{"property": "C70", "status": "partial", "theorems": ["Gowrap.Props.C70_implements_partial", "Gowrap.Props.C70_full_false"], "note": "The full claim is refuted in C70_full_false (templates/elasticapm and a method without a context); it also fails for the reasons refuted in C20 (declarations of kinds gowrap does not follow), C65 (templates/elasticapm without context, methods named like fields) and C19 (type parameters inside types); proved under the conditions that exclude them"},
{"property": "C71", "status": "proved", "theorems": ["Gowrap.Props.C71_type_parameters_ignored", "Gowrap.Props.C71_generic_decorators_false"], "note": "C71_generic_decorators_false: hence the methods of the decorator of a generic interface name type parameters that are declared nowhere"},
{"property": "C72", "status": "partial", "theorems": ["Gowrap.Props.C72_scoped_partial", "Gowrap.Props.C72_receiver", "Gowrap.Props.C72_blank", "Gowrap.Props.C72_span", "Gowrap.Props.C72_cancelFunc", "Gowrap.Props.C72_retry_result", "Gowrap.Props.C72_hidden_time", "Gowrap.Props.C72_hidden_context", "Gowrap.Props.C72_apm_decorator", "Gowrap.Props.C72_full_false"], "note": "Full claim (C72_full) refuted (C72_full_false: parameter _d; by C82 the text has no other reading); it fails for names that also occur in a template: C72_receiver (_d), C72_blank (_), C72_span, C72_cancelFunc, C72_retry_result (_i), C72_hidden_time (parameter time with prometheus), C72_hidden_context, C72_apm_decorator (DecoratorName with elasticapm); proved for all other names. Types copied from the source and other files of the package are not looked at"},
{"property": "C73", "status": "partial", "theorems": ["Gowrap.Props.C73_files_partial", "Gowrap.Props.C73_generator_partial", "Gowrap.Props.C73_full_false", "Gowrap.Props.C73_platform", "Gowrap.Props.C73_test", "Gowrap.Props.C73_broken", "Gowrap.Props.C73_exact"], "note": "Full claim refuted: AST parses every Go file of the directory with the name of the package, selected by the go command or not. Findings: with one declaration per platform the map order decides which is used (C73_platform), an interface of a test is accepted (C73_test), a file for another platform that does not parse stops generation (C73_broken). Proved: no selected file is left out; if the remaining Go files parse and belong to other packages the result is exactly the selected files, and generation equals generation on them. packages.Load, os.ReadDir and go/parser are the parameters Tools. C73_exact: the claim holds exactly if the other Go files parse and belong to other packages."},
{"property": "C74", "status": "partial", "theorems": ["Gowrap.Props.C74_load_partial", "Gowrap.Props.C74_full_false", "Gowrap.Props.C74_exact"], "note": "Full claim refuted: of several matching packages the first is used silently. Proved: a returned package matches and has no errors; for patterns with at most one match Load succeeds exactly if there is one without errors; all failures are errors, not crashes. C74_exact: Load succeeds exactly if the first match has no errors."},
{"property": "C75", "status": "partial", "theorems": ["Gowrap.Props.C75_typed_partial", "Gowrap.Props.C75_config", "Gowrap.Props.C75_impls", "Gowrap.Props.C75_fallback_results", "Gowrap.Props.C75_full_false"], "note": "Full claim (C75_full) refuted (C75_full_false: interface config with templates/timeout; by C82 the text has no other reading); it fails for names that occur in a template or hide a type: an interface config with templates/timeout (C75_config, field redeclared), an interface of a package impls with templates/syncpool (C75_impls), a parameter with the name of a package or type that a result type mentions with templates/fallback (C75_fallback_results, correct Go such as Get(url string) (url.URL, error)); proved for interfaces that meet TypedInputs, all 18 templates. Types from the source are compared as text; the types of the library functions are the tables of Spec/Typ."},
{"property": "C76", "status": "partial", "theorems": ["Gowrap.Props.C76_compiles_partial", "Gowrap.Props.C76_full_false"], "note": "Full claim refuted (elasticapm leaves out methods without context; the findings of C67, C72 and C75 are further counterexamples). Proved for all parsed packages, accepted interfaces and variables, all 18 templates, if no names are confused (Unambiguous, a condition on names in the source) and the template supports the interface (Suits, conditions for elasticapm and fallback only); one tree of declarations meets all rules at once."},
{"property": "C77", "status": "partial", "theorems": ["Gowrap.Props.C77_error_type_partial", "Gowrap.Props.C77_full_false", "Gowrap.Props.C77_type_parameter", "Gowrap.Props.C77_exact"], "note": "Full claim refuted: a type parameter called error is taken for the error type, the decorator gets a result err of the type argument (C77_type_parameter). Proved if neither a type parameter nor a type of the package is called error. C77_exact: if no type of the package is called error, the result has the type error exactly if a type parameter of this name is given the argument error."},
{"property": "C78", "status": "partial", "theorems": ["Gowrap.Props.C78_header", "Gowrap.Props.C78_source_file_partial", "Gowrap.Props.C78_compiles_partial", "Gowrap.Props.C78_full_false", "Gowrap.Props.C78_directory", "Gowrap.Props.C78_line_break"], "note": "Full claim refuted: a new directory my-pkg gives the clause package my-pkg (C78_directory); a line break in a template variable ends the comment with the command line, the rest of the line becomes code (C78_line_break). Proved for package names that are identifiers and one-line options: exact text of the header for all data, tokens of the whole text for all worlds, interfaces and templates; together with C76 the whole file compiles. Imports written with raw strings are outside the lexer."},
{"property": "C79", "status": "partial", "theorems": ["Gowrap.Props.C79_apart_partial", "Gowrap.Props.C79_fallback_counter", "Gowrap.Props.C79_full_false"], "note": "Full claim refuted (C79_full_false; by C82 the text has no other reading). Finding: with templates/fallback a parameter _i is hidden by the counter of the goroutine that starts the implementations, so their goroutines read the counter while it is incremented (C79_fallback_counter; with the loop variables of Go 1.22 no race is left, but the implementations receive the counter instead of the argument). Proved for all templates with other names. The check is syntactic: aliases through values of the user (slices, maps, pointers that the caller shares) are not looked at; the circuit breaker is C62."},
{"property": "C80", "status": "partial", "theorems": ["Gowrap.Props.C80_works_partial", "Gowrap.Props.C80_log_partial", "Gowrap.Props.C80_logrus_partial", "Gowrap.Props.C80_prometheus_partial", "Gowrap.Props.C80_opentracing_partial", "Gowrap.Props.C80_opencensus_partial", "Gowrap.Props.C80_opentelemetry_partial", "Gowrap.Props.C80_elasticapm_partial", "Gowrap.Props.C80_validate_partial", "Gowrap.Props.C80_twirpValidate_partial", "Gowrap.Props.C80_grpcValidate_partial", "Gowrap.Props.C80_twirpError_partial", "Gowrap.Props.C80_timeout_partial", "Gowrap.Props.C80_circuitbreaker_partial", "Gowrap.Props.C80_retry_partial", "Gowrap.Props.C80_ratelimit_partial", "Gowrap.Props.C80_robinpool_partial", "Gowrap.Props.C80_syncpool_partial", "Gowrap.Props.C80_fallback_partial", "Gowrap.Props.C80_full_false"], "note": "Full claim (C80_full) refuted through C76. Proved end to end, from the parsed packages to the behaviour of the text: for every accepted interface, if no names are confused (Unambiguous) and the template supports the interface (Suits), one text is rendered that compiles and whose declarations, run by the semantics of Model/GoSem, have the properties C45-C59 and C62; for circuitbreaker, ratelimit, robinpool, syncpool and fallback over all executions of concurrent calls, including that they come to an end (C85, C53). The error type in the source is the one of Go (see C77)."},
{"property": "C81", "status": "partial", "theorems": ["Gowrap.Props.C81_gen_partial", "Gowrap.Props.C81_succeeds", "Gowrap.Props.C81_full_false", "Gowrap.Props.C81_text_exact", "Gowrap.Props.C81_not_utf8"], "note": "The whole tool: from the argument vector through flags, loading of the package and the template, NewGenerator and both templates to the bytes of the output file (C81_gen_partial, for every run with exit code 0), and success whenever the environment cooperates (C81_succeeds). goimports, the file system, the network and go/packages are oracles; UTF-8 is part of the model. Full claim refuted (a new directory my-pkg); the decorator is described for names and options for which C78 and C80 hold. C81_text_exact: template bytes are read as a text exactly when they are its UTF-8 encoding; C81_not_utf8: for other bytes the model claims nothing about executing the template."},
{"property": "C82", "status": "proved", "theorems": ["Gowrap.Props.C82_reads", "Gowrap.Props.C82_unique", "Gowrap.Props.C82_generated", "Gowrap.Props.C82_file_unique", "Gowrap.Props.C82_file", "Gowrap.Props.C82_command"], "note": "The reader is Spec/Reader, a recursive-descent parser for the part of Go that the templates use, with fuel; types are read up to their end and compared as token lists, Spec/Reading says what is equal after reading (grouping of lists in the trees of the model). The tokens come from the lexer of Model/GoLex with automatic semicolons."},
{"property": "C83", "status": "partial", "theorems": ["Gowrap.Props.C83_exits_partial", "Gowrap.Props.C83_full_false", "Gowrap.Props.C83_element_crashes", "Gowrap.Props.C83_recursion"], "note": "Full claim (C83_full) refuted by three kinds of valid Go: the method M() () (index out of range in NewMethod, C83_full_false), a function type as an element of an interface, interface { M(); func() } (field.Names[0] of no names, C83_element_crashes), and type Item interface { Ordered[Item] } (endless recursion, C83_recursion). Proved for all other parsed packages: the whole process ends with 0, 1 or 2 for every argument vector and every behaviour of the outside world; template execution, goimports and go/packages return (they are oracles)."},
{"property": "C84", "status": "partial", "theorems": ["Gowrap.Props.C84_any_template", "Gowrap.Props.C84_same_run_partial", "Gowrap.Props.C84_full_false", "Gowrap.Props.C84_dependencies_partial"], "note": "Full claim (C84_full) refuted by the finding of C23, now at the level of the command: in a package with two files that import different packages of the same name, the map order decides which methods are written. Proved for all other programs in which no type is declared twice: the whole effect history and exit code of the process is the same for all orders. C84_any_template needs no hypotheses on the template: every template of the modelled subset renders to the same text for all orders of the map of methods (or fails for all). Messages on stderr are not modelled. C84_dependencies_partial has the conditions only on the source package and its dependencies; the rest of the workspace is arbitrary."},
{"property": "C85", "status": "proved", "theorems": ["Gowrap.Props.C85_circuitbreaker", "Gowrap.Props.C85_robinpool", "Gowrap.Props.C85_syncpool", "Gowrap.Props.C85_ratelimit"], "note": "For every execution of the concurrent semantics (Spec/Pool, Spec/Progress): the number of operations per call is bounded, no state is a deadlock, and every state leads to one in which all calls have returned. Also part of the promises of C80, that is for the text gowrap renders. Implementations return (with any results or a panic) and do not call the decorator themselves; memory is sequentially consistent; that the Go scheduler lets every goroutine go on that can is assumed by those who conclude that the calls do end. Deadlocks of fallback are the subject of C53."},
{"property": "C86", "status": "proved", "theorems": ["Gowrap.Props.C86_stack", "Gowrap.Props.C86_control", "Gowrap.Props.C86_pass_through", "Gowrap.Props.C86_retry"], "note": "Stacking is defined on the programs of the methods (Spec/Stack): a call of an implementation that is itself a decorator runs the program of its method. C86_stack is by induction over the stack; C86_control is a simulation: for each run of a controlling decorator around observed implementations there is a run around plain ones with the same results, outcome and other operations. Hypotheses as in C56: no method uses a name of the templates, library functions return. Calls are sequential here; fallback, timeout and the validating decorators are not part of stacks."},
{"property": "C87", "status": "partial", "theorems": ["Gowrap.Props.C87_text_partial", "Gowrap.Props.C87_silent", "Gowrap.Props.C87_hint_partial", "Gowrap.Props.C87_full_false"], "note": "The full claim (C87_full) is false: die uses the text of an error as a format, so that a text with a percent sign is garbled (C87_full_false: 'open 100%.go: ...' is printed as 'open 100%!g(MISSING)o: ...'). Proved: command line errors are always printed as they are; any other error text is printed as it is exactly if it contains no percent sign; standard error is empty exactly if the exit code is 0; every usage error is answered with how to get help (if the arguments contain no percent sign). The texts of errors of the file system, network and generator are parameters."},
{"property": "C88", "status": "partial", "theorems": ["Gowrap.Props.C88_lookup", "Gowrap.Props.C88_table_partial", "Gowrap.Props.C88_gowrap", "Gowrap.Props.C88_full_false", "Gowrap.Props.C88_exact"], "note": "The full claim (C88_full) is false for names of 10 characters and more, which are printed without a blank before the description. Proved for all shorter names; lookup is proved for all names. Names and descriptions are without line feeds, and the version too. C88_exact: the table is right exactly if all names that can be looked up have less than 10 characters or no description."},
{"property": "C89", "status": "partial", "theorems": ["Gowrap.Props.C89_flags_partial", "Gowrap.Props.C89_help", "Gowrap.Props.C89_gen", "Gowrap.Props.C89_full_false"], "note": "The full claim (C89_full) is false: a usage with two back quotes is taken apart by flag.UnquoteUsage, so that help shows '-t gowrap template list' instead of '-t string' (C89_full_false, with the flags of gen). Proved: all descriptions are right exactly if no usage has two back quotes; the names are right for all flags with placeholders within a line; for gen, the described names are exactly the accepted ones. Default values are not modelled (they are all zero values, which are not printed)."},
{"property": "C90", "status": "partial", "theorems": ["Gowrap.Props.C90_tower_partial", "Gowrap.Props.C90_count_partial", "Gowrap.Props.C90_full_false"], "note": "The full claim (C90_full) is false: with a parameter called _i retries pass the loop counter instead of the argument (C90_full_false). Proved for all towers whose interface uses no name of the templates in its methods and whose retry intervals are positive (time.NewTicker panics otherwise), by induction over the tower. Assumed of libraries (Spec.Lawful): they return, and functions that make errors do not return nil; ctx.Err is among them because it is only called when the context is done. Calls are sequential here: what other callers do meanwhile shows as arbitrary answers of the shared state. fallback is not part of towers."},
{"property": "C91", "status": "partial", "theorems": ["Gowrap.Props.C91_validated_partial", "Gowrap.Props.C91_timeout_partial", "Gowrap.Props.C91_limit_partial", "Gowrap.Props.C91_open_partial", "Gowrap.Props.C91_full_false"], "note": "The full claim for validation (C91_full) is false: methods without an error result are not validated by templates/validate (C91_full_false). Proved for all towers whose interface uses no name of the templates in its methods and whose retry intervals are positive: validation and open circuits for methods that return an error, timeouts for methods with a context (the others have nothing to bound) and positive durations, rate limits for all methods. By induction over the tower, with the blocks of C90. Calls are sequential here: what other callers do meanwhile shows as arbitrary answers of the shared state. fallback is not part of towers."},
{"property": "C92", "status": "partial", "theorems": ["Gowrap.Props.C92_unknown_partial", "Gowrap.Props.C92_distinct", "Gowrap.Props.C92_exact", "Gowrap.Props.C92_full_false"], "note": "The full claim (C92_full) is false: die uses the text of the error of help as a format, gowrap help %% says unknown command \"%\" (C92_full_false). Proved for all names in the message of main, and for names without a percent sign in that of help; C92_exact: help quotes the name as it is in no other case. %q is strconv.Quote as modelled in Model/Quote, for arguments that are valid UTF-8; string literals are those of Spec/Quote."},
{"property": "C93", "status": "partial", "theorems": ["Gowrap.Props.C93_replace_partial", "Gowrap.Props.C93_exact", "Gowrap.Props.C93_helpers", "Gowrap.Props.C93_full_false", "Gowrap.Props.C93_replace_exact", "Gowrap.Props.C93_helper_exact", "Gowrap.Props.C93_compare", "Gowrap.Props.C93_constant", "Gowrap.Props.C93_printf", "Gowrap.Props.C93_other_function"], "note": "The full claim for replace (C93_full) is false: gowrap puts strings.ReplaceAll in the place of sprig's replace, and a pipeline passes its value last, so that {{x | replace \"a\" \"b\"}} replaces b by x in a (C93_exact says what it prints in every case; C93_full_false: Reader | replace \"R\" \"L\" prints R). Proved: replace called with three arguments, and the functions of one argument in both notations. Demonstrated on the name of the interface. C93_replace_exact and C93_helper_exact: called with any number of strings of the template, written between quotes or back quotes, replace prints a text exactly for three strings (the empty text is found before every character and at the end) and the other helpers exactly for one. C93_compare: eq and ne of strings. C93_constant: a string cannot take the value of a pipeline. C93_printf: printf of a variable, also a missing one. C93_other_function: nothing is claimed about templates with other functions."},
{"property": "C94", "status": "proved", "theorems": ["Gowrap.Props.C94_import", "Gowrap.Props.C94_fails_exact"], "note": "The template consists of the call; strings between quotes may contain the escapes of a quote, a backslash, a line feed, a tab and a carriage return. The order of the map is irrelevant by C29."},
{"property": "C95", "status": "proved", "theorems": ["Gowrap.Props.C95_flat", "Gowrap.Props.C95_text", "Gowrap.Props.C95_digit"], "note": "Texts do not end with a brace { (before an action it would be part of the delimiter). C95_digit: a field name that begins with a digit is rejected whatever follows."},
{"property": "C96", "status": "proved", "theorems": ["Gowrap.Props.C96_nested", "Gowrap.Props.C96_accepted"], "note": "Conditions are variables ($.Vars.x), ranges go over the methods; texts are without {{ and do not end with {. Trim markers and comments are in C95. The answer of the specification (Spec/NestedTemplate) is shown to be unique."},
{"property": "C97", "status": "partial", "theorems": ["Gowrap.Props.C97_again_partial", "Gowrap.Props.C97_new_directory", "Gowrap.Props.C97_full_false", "Gowrap.Props.C97_process_partial", "Gowrap.Props.C97_process_new_directory", "Gowrap.Props.C97_other_package", "Gowrap.Props.C97_dependencies_partial", "Gowrap.Props.C97_process_other_package", "Gowrap.Props.C97_process_dependencies_partial"], "note": "Proved for all package graphs, added files, options, templates and iteration orders, whether the destination is the source package, another existing one (C97_again_partial) or a directory that had no Go files before (C97_new_directory, without restriction on the added file). Missing for the full claim, and refuted there (C97_full_false): files whose imports have the same package name as another import of the package; with the template log the second run can silently lose embedded methods. The full claim already excludes duplicate types, import cycles and embedding of types of the added file. goimports, which runs last, is outside. C97_process_partial and C97_process_new_directory are about the whole process: if the first run exits with code 0, the second one has the same effects and writes the same bytes, if everything outside (file system, network, goimports) answers the same. The theorems about new directories have their conditions only on the source package and its dependencies. C97_other_package and C97_process_other_package: for an existing destination package other than the source package the claim holds without any restriction on the added file (the source package must not depend on the destination). C97_dependencies_partial and C97_process_dependencies_partial: the conditions are needed for the source package and its dependencies only."},
{"property": "C98", "status": "proved", "theorems": ["Gowrap.Props.C98_local"], "note": "For all outcomes including errors, panics and divergence. Dependencies are those through the imports of packages and through pkg.Load of the import paths in their files."},
{"property": "C99", "status": "partial", "theorems": ["Gowrap.Props.C99_process_partial", "Gowrap.Props.C99_regenerate_partial", "Gowrap.Props.C99_options_partial", "Gowrap.Props.C98_moved", "Gowrap.Props.C99_full_false"], "note": "Proved from the text of the comment to the written bytes, for all workspaces, schedules, templates and paths: C99_options_partial (same options), C99_process_partial (same exit code and bytes, whole process), C99_regenerate_partial (with the generated file in the destination package, also if that is the source package). Missing for the full claim, and refuted there (C99_full_false): option values with blanks, quotes, dollar signs or line breaks (a variable with a blank is cut off). As in C23 and C97, among the dependencies no package may declare a type twice or import two packages of the same name. Hypotheses on the environment: the import path, the dependencies and the destination package are found from the directory of the file as before, the template reference has the same text, goimports answers the same for the same file."}
]}
