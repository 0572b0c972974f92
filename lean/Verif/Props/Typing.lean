import Verif.Proofs.TypingAll
import Verif.Props.Scope
/-!
# C75: types
-/

namespace Gowrap.Props

open Gowrap Tmpl Go Spec

set_option maxRecDepth 100000

/-- The generated file obeys the rules about types. -/
def C75_full : Prop := ∀ (u : Uni) (d : Inputs), GoInputs u d → (∀ e ∈ d.methods, NamedMethod e.2) → ∀ bl ∈ builtins.zip locals,
  ∃ s ds, render u bl.1.text d = some s ∧ Consists d s ds ∧ FileTyped bl.2.paths (typeToks d.type) (sourceMethods d) (flatDecls ds)

theorem typed_trees {u : Uni} {d : Inputs} (h : GoInputs u d) (hn : ∀ e ∈ d.methods, NamedMethod e.2) {x : (Builtin × Locals) × List Go.Decl}
    (hx : x ∈ (builtins.zip locals).zip (trees u d)) (hf : ∀ e ∈ d.methods, x.1.1.which.holds e.2 → FreshMethod x.1.2 e.2) (hd : FreshName u d x.1.1)
    (ht : TypedInputs d x.1.1 x.1.2) :
    Gives u d x.1.1.text x.2 ∧ FileTyped x.1.2.paths (typeToks d.type) (sourceMethods d) (flatDecls x.2) := by
  simp only [builtins, locals, trees, List.zip_cons_cons, List.zip_nil_right, List.mem_cons, List.not_mem_nil, or_false] at hx
  rcases hx with rfl | rfl | rfl | rfl | rfl | rfl | rfl | rfl | rfl | rfl | rfl | rfl | rfl | rfl | rfl | rfl | rfl | rfl
  all_goals dsimp only at hf hd ht ⊢
  · exact typed_Log h hn hf hd ht
  · exact typed_Logrus h hn hf hd ht
  · exact typed_Prometheus h hn hf hd ht
  · exact typed_Opentracing h hn hf hd ht
  · exact typed_Opencensus h hn hf hd ht
  · exact typed_Opentelemetry h hn hf hd ht
  · exact typed_Elasticapm h hn hf hd ht
  · exact typed_Validate h hn hf hd ht
  · exact typed_TwirpValidate h hn hf hd ht
  · exact typed_GrpcValidate h hn hf hd ht
  · exact typed_TwirpError h hn hf hd ht
  · exact typed_Timeout h hn hf hd ht
  · exact typed_Circuitbreaker h hn hf hd ht
  · exact typed_Retry h hn hf hd ht
  · exact typed_Ratelimit h hn hf hd ht
  · exact typed_Robinpool h hn hf hd ht
  · exact typed_Syncpool h hn hf hd ht
  · exact typed_Fallback h hn hf hd ht

/-- The claim for interfaces and decorators that have no name in common with the templates. -/
theorem C75_typed_partial (u : Uni) (d : Inputs) (h : GoInputs u d) (hn : ∀ e ∈ d.methods, NamedMethod e.2) (bl : Builtin × Locals)
    (hb : bl ∈ builtins.zip locals) (hf : ∀ e ∈ d.methods, bl.1.which.holds e.2 → FreshMethod bl.2 e.2) (hd : FreshName u d bl.1)
    (ht : TypedInputs d bl.1 bl.2) :
    ∃ s ds, render u bl.1.text d = some s ∧ Consists d s ds ∧ FileTyped bl.2.paths (typeToks d.type) (sourceMethods d) (flatDecls ds) := by
  obtain ⟨ds, hx⟩ := exists_zip (k := trees u d) (by simp [builtins, locals, trees]) hb
  obtain ⟨⟨s, h1, h2⟩, h3⟩ := typed_trees h hn hx hf hd ht
  exact ⟨s, ds, h1, h2, h3⟩

/-! ## The example -/

theorem store_typed : ∀ bl ∈ builtins.zip locals, TypedInputs storeInputs bl.1 bl.2 := by
  intro bl hb
  have hty : typeToks storeInputs.type = [.word g!"store", .op g!".", .word g!"Store"] := by decide +kernel
  have hm : ∀ e ∈ storeInputs.methods, TypedMethod e.2 := by
    intro e he
    simp only [storeInputs, List.mem_cons, List.not_mem_nil, or_false] at he
    rcases he with rfl | rfl
    · exact ⟨nofun, nofun⟩
    · refine ⟨fun _ => ⟨_, _, rfl, by decide +kernel⟩, fun _ => by decide +kernel⟩
  have hall : (builtins.zip locals).all (fun bl => decide (storeInputs.name ∉ bl.1.fields) &&
      storeInputs.methods.all (fun e => e.2.params.all fun p => decide (p.name ∉ bl.2.inner)) &&
      storeInputs.methods.all (fun e => (g!"_d" :: g!"_i" :: bl.2.names ++ (e.2.params ++ e.2.results).map (·.name)).all
        fun x => decide (Go.Tok.word x ∉ typeToks storeInputs.type))) = true := by decide +kernel
  have h0 := List.all_eq_true.mp hall bl hb
  simp only [Bool.and_eq_true, List.all_eq_true, decide_eq_true_eq] at h0
  have hres : ∀ e ∈ storeInputs.methods, ∀ p ∈ e.2.results, ∀ x ∈ g!"_d" :: (e.2.params ++ e.2.results).map (·.name),
      Go.Tok.word x ∉ typeToks p.type := by decide +kernel
  exact {
    type := by rw [hty]; exact ⟨⟨_, _, rfl⟩, by decide, by decide⟩
    field := fun _ => ⟨by decide +kernel, h0.1.1⟩
    methods := fun e he _ => hm e he
    inner := fun e he _ => h0.1.2 e he
    pool := fun _ => by decide +kernel
    counter := fun _ => by decide +kernel
    iface := fun _ e he x hx => h0.2 e he x hx
    results := fun _ => hres }

/-- The claim holds for the example and every template. -/
example (bl : Builtin × Locals) (hb : bl ∈ builtins.zip locals) :
    ∃ s ds, render Uni.ascii bl.1.text storeInputs = some s ∧ Consists storeInputs s ds ∧
      FileTyped bl.2.paths (typeToks storeInputs.type) (sourceMethods storeInputs) (flatDecls ds) :=
  C75_typed_partial Uni.ascii storeInputs store_good store_named bl hb (fun e he _ => store_fresh bl hb e he)
    (freshName_default _ _ (by decide) _ (List.of_mem_zip hb).1 (by decide)) (store_typed bl hb)

/-! ## Types that clash -/

/-- An interface `config` in templates/timeout: *config redeclared*. -/
theorem C75_config (u : Uni) (d : Inputs) (h : GoInputs u d) (hx : (Ty.toks (typeToks d.type)).fieldName = g!"config") :
    ∃ s ds, render u Text.timeout d = some s ∧ Consists d s ds ∧ ∀ added iface methods, ¬ FileTyped added iface methods (flatDecls ds) := by
  obtain ⟨⟨s, hr, hc⟩, hf⟩ := shape_timeout h
  refine ⟨s, _, hr, hc, fun added iface methods ht => ?_⟩
  have hm := ht (.struct (tmTimeout.names u d).dec (fieldsTimeout d (tmTimeout.names u d))) (by
    rw [hf]
    refine List.mem_append_left _ ?_
    simp [beforeTimeout, flatDecls, Decl.flat])
  have hn := hm.2
  rw [typeToks_eq h.type] at hx
  simp [fieldsTimeout, flatFields, FieldDecl.flat, FieldDecl.vars, hx] at hn

/-- An interface of a package `impls` in templates/syncpool: *impls.Store undefined*, as the parameter of the constructor hides the package. -/
theorem C75_impls (u : Uni) (d : Inputs) (h : GoInputs u d) (hx : .word g!"impls" ∈ typeToks d.type) :
    ∃ s ds, render u Text.syncpool d = some s ∧ Consists d s ds ∧ ∀ added iface methods, ¬ FileTyped added iface methods (flatDecls ds) := by
  obtain ⟨⟨s, hr, hc⟩, hf⟩ := shape_syncpool h
  refine ⟨s, _, hr, hc, fun added iface methods ht => ?_⟩
  have hm := ht ((beforeSyncpool u d (tmSyncpool.names u d) [])[1]'(by simp [beforeSyncpool])) (by
    rw [hf]
    refine List.mem_append_left _ ?_
    simp [beforeSyncpool, flatDecls, Decl.flat])
  obtain ⟨_, _, hb⟩ := hm
  have h1 : Ty.Typed _ (.chan (.toks (lexed d.type))) := hb.2.1.1.1.2.1.1
  rw [typeToks_eq h.type] at hx
  exact h1 g!"impls" (.head _) hx

theorem vars_inside {l : List (Str × Typ)} {x : Str} {Γ : Ctx} (hx : x ∈ l.map (·.1) ∨ x ∈ Γ.inside) : x ∈ (Γ.addVars l).inside := by
  induction l generalizing Γ with
  | nil => simpa [Ctx.addVars] using hx
  | cons a l ih =>
    refine ih ?_
    simp only [List.map_cons, List.mem_cons] at hx
    rcases hx with (rfl | hx) | hx
    · exact .inr (.head _)
    · exact .inl hx
    · exact .inr (.tail _ hx)

/-- A parameter with the name of a package or type that occurs in the types of the results, as in `Get(url string) (url.URL, error)`, which
is correct Go: templates/fallback declares a type with the results inside the method, where the name is that of the parameter:
*url is not a type*. -/
theorem C75_fallback_results (u : Uni) (d : Inputs) (h : GoInputs u d) (e : Str × Method) (he : e ∈ d.methods)
    (p : Param) (hp : p ∈ e.2.params ++ e.2.results) (r : Param) (hr : r ∈ e.2.results) (hx : .word p.name ∈ typeToks r.type) :
    ∃ s ds, render u Text.fallback d = some s ∧ Consists d s ds ∧ ∀ added iface methods, ¬ FileTyped added iface methods (flatDecls ds) := by
  obtain ⟨⟨s, hrd, hc⟩, hf⟩ := shape_fallback h
  generalize tmFallback.decls u d = ds at hc hf
  refine ⟨s, _, hrd, hc, fun added iface methods ht => ?_⟩
  have hl : ∀ p ∈ e.2.params ++ e.2.results, lexed p.type = typeToks p.type := fun p hp => (typeToks_eq ((h.methods e he).2.types p hp)).symm
  have hm := ht (methodOn _ (fallbackStmts d.type) e.2) (by
    rw [hf]
    refine List.mem_append_right _ (List.mem_append_left _ ?_)
    exact List.mem_map.mpr ⟨e.2, List.mem_filter.mpr ⟨mem_sorted.mpr ⟨e, he, rfl⟩, rfl⟩, rfl⟩)
  have hb := hm.2.2.2
  simp only [groupVars_params fun p hp => hl p (List.mem_append_left _ hp), groupVars_params fun p hp => hl p (List.mem_append_right _ hp)] at hb
  have h1 : Ty.Typed _ (.part (resultsTy e.2.results)) := hb.1
  have h2 : ∀ (ps : List Param) (Γ : Ctx), groupsTyped Γ (paramDecls ps) → ∀ r ∈ ps, ∀ x ∈ Γ.inside, .word x ∉ lexed r.type := by
    intro ps Γ hg
    unfold paramDecls at hg
    induction ps with
    | nil => simp
    | cons q ps ih =>
      intro r hr
      rcases List.mem_cons.mp hr with rfl | hr
      · exact hg.1
      · exact ih hg.2 r hr
  have h3 : ∀ Γ, Ty.Typed Γ (.part (resultsTy e.2.results)) → groupsTyped Γ (paramDecls e.2.results) := by
    intro Γ hq
    unfold resultsTy at hq
    cases hres : e.2.results with
    | nil => exact trivial
    | cons q qs => rw [hres] at hq; exact hq
  refine h2 _ _ (h3 _ h1) r hr p.name ?_ (hl r (List.mem_append_right _ hr) ▸ hx)
  refine vars_inside (.inl ?_)
  simp only [List.map_append, List.map_map, List.mem_append]
  rcases List.mem_append.mp hp with hp | hp
  · exact .inl (.inr (List.mem_map.mpr ⟨p, hp, rfl⟩))
  · exact .inr (List.mem_map.mpr ⟨p, hp, rfl⟩)

/-! ## Interfaces for the examples -/

/-- `gowrap gen -p example.com/store -i config` -/
def configInputs : Inputs := { storeInputs with name := g!"config", type := g!"store.config" }

/-- The vars of the other example. -/
theorem renamed_vars (d : Inputs) (h : d.vars = storeInputs.vars) : GoVars d where
  values := by rw [h]; exact store_vars.values
  decorator := by rw [h]; exact store_vars.decorator
  component := by rw [h]; exact store_vars.component
  metric := by rw [h]; exact store_vars.metric
  span := by rw [h]; exact store_vars.span

theorem config_good : GoInputs Uni.ascii configInputs :=
  { store_good with
    name := (by decide +kernel : GoName g!"config")
    type := typeSource_of [.word g!"store", .op g!"."] (.word g!"config") _ _ ⟨.inl ⟨_, rfl⟩, by decide +kernel⟩
    typeName := ⟨_, _, rfl, by decide⟩
    typeQuotable := by unfold InQuotes; decide
    vars := renamed_vars _ rfl }

example := C75_config Uni.ascii configInputs config_good (by decide +kernel)

/-- `gowrap gen -p example.com/impls -i Store` -/
def implsInputs : Inputs := { storeInputs with type := g!"impls.Store" }

theorem impls_good : GoInputs Uni.ascii implsInputs :=
  { store_good with
    type := typeSource_of [.word g!"impls", .op g!"."] (.word g!"Store") _ _ ⟨.inl ⟨_, rfl⟩, by decide +kernel⟩
    typeName := ⟨_, _, rfl, by decide⟩
    typeQuotable := by unfold InQuotes; decide
    vars := renamed_vars _ rfl }

example := C75_impls Uni.ascii implsInputs impls_good (by decide +kernel)

/-- `Trace(ctx context.Context, int int) (n int, err error)` -/
example := C75_fallback_results Uni.ascii (traceInputs g!"int" g!"n") (trace_good (by decide +kernel) (by decide +kernel) (by decide))
  (g!"Trace", traceMethod g!"int" g!"n") List.mem_cons_self ⟨[], [], g!"int", g!"int", false⟩ (by simp [traceMethod])
  ⟨[], [], g!"n", g!"int", false⟩ (by simp [traceMethod]) (by decide +kernel)

/-! ## Programs that break the rules -/

namespace TypingDemo

/-- `Store` with the method `Get(string) error` -/
def F : FileTypes := ⟨[], [.word g!"Store"], [(g!"Get", .fn [.string] .error)]⟩

/-- `func f(s Store) (err error)` with the package time -/
def Γ : Ctx := Ctx.enter ⟨fun x => if x = g!"time" then some (.pkg g!"time") else predeclaredEntity x, [], [], [], false⟩
  [(g!"s", .src [.word g!"Store"]), (g!"err", .error)] [.error] true

/-- `s.Get(args)` -/
def get (args : List Go.Expr) : Go.Expr := .call (.sel (.id g!"s") g!"Get") args false

/-- `err = s.Get("a")` -/
example : (Stmt.assign [.id g!"err"] [get [.str g!"a"]]).Typed F Γ := by
  refine ⟨⟨trivial, trivial⟩, ⟨⟨?_, ⟨trivial, trivial⟩, .inl rfl, rfl⟩, trivial⟩, ?_⟩
  · intro h
    exact nomatch h
  · simp only [flatExprs]
    exact ⟨⟨rfl, rfl, .inl rfl⟩, trivial⟩

/-- `err = s.Get(1)`: *cannot use 1 as string value in argument* -/
example : ¬ (Stmt.assign [.id g!"err"] [get [.num g!"1"]]).Typed F Γ := by
  intro h
  have h1 : Accepts F [.string] none [.untyped .int] := h.2.1.1.2.2
  rcases h1.1 with h | h
  · revert h; decide
  · exact nomatch h

/-- `err = s.Get()`: *not enough arguments in call* -/
example : ¬ (Stmt.assign [.id g!"err"] [get []]).Typed F Γ := fun h => h.2.1.1.2.2

/-- `err = s.Put("a")`: *s.Put undefined* -/
example : ¬ (Stmt.assign [.id g!"err"] [.call (.sel (.id g!"s") g!"Put") [.str g!"a"] false]).Typed F Γ := fun h => h.2.1.1.1

/-- `err = time.Now()`: *cannot use time.Now() as error value in assignment* -/
example : ¬ (Stmt.assign [.id g!"err"] [.call (.sel (.id g!"time") g!"Now") [] false]).Typed F Γ := by
  intro h
  have h0 := h.2.2
  simp only [flatExprs] at h0
  have h1 : Lib.timeT.Assignable F .error := h0.1.2
  rcases h1.2 with h | h | h | ⟨_, h, _⟩
  · exact nomatch h
  · exact h.1 rfl
  · obtain ⟨k, hk, hn, _⟩ := h (g!"Error", .fn [] .string) (.head _)
    have : ∀ k ∈ Lib.timeT.methods F, k.name ≠ g!"Error" := by
      intro k hk
      have hk : k ∈ [(⟨g!"Add", false, _⟩ : Meth), ⟨g!"After", false, _⟩] := hk
      simp only [List.mem_cons, List.not_mem_nil, or_false] at hk
      rcases hk with rfl | rfl <;> decide
    exact this k hk hn
  · exact nomatch h

/-- `return "a"`: *cannot use "a" as error value in return statement* -/
example : ¬ (Stmt.ret [.str g!"a"]).Typed F Γ := by
  intro h
  rcases h.2.2.1 with h | h <;> exact nomatch h

/-- `if err { return }`: *non-boolean condition in if statement* -/
example : ¬ (Stmt.cond (.id g!"err") [.ret []]).Typed F Γ := fun h => nomatch h.2.1

/-- `s.Get("a").Close()`: *s.Get("a").Close undefined* -/
example : ¬ (Stmt.expr (.call (.sel (get [.str g!"a"]) g!"Close") [] false)).Typed F Γ := fun h => h.1.1.2

end TypingDemo

end Gowrap.Props
