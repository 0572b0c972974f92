import Verif.Proofs.TypingDecls
/-!
# What else the generated files declare obeys the rules about types
-/

namespace Gowrap.Tmpl

open Gowrap Go Spec

set_option maxRecDepth 100000
set_option linter.unusedSimpArgs false
set_option linter.unusedVariables false

set_option maxHeartbeats 4000000 in
theorem tfile_Log {u : Uni} {d : Inputs} {n : Names} (hd : n.dec ∉ templateNames) (hs : srcVar (lexed d.type) = .src (lexed d.type)) (hdt : dotsToks (lexed d.type) = none)
    {methods : List (Str × Typ)} {F : FileTypes} {Γ : Ctx} (hF : F = fileTypes [] (lexed d.type) methods (flatDecls (beforeLog u d n []) ++ flatDecls afterLog))
    (hΓ : Γ = fileCtx [] F (flatDecls (beforeLog u d n []) ++ flatDecls afterLog)) :
    (∀ x ∈ (flatDecls (beforeLog u d n []) ++ flatDecls afterLog), x.Typed F Γ) ∧ Γ.see n.dec = some (.type (.decl n.dec)) ∧
      Knows Γ [(g!"nil", .value (.untyped .nil))] ∧ Has F (.decl n.dec) [(g!"_stdlog", .ptr (.lib g!"log" g!"Logger")), (g!"_errlog", .ptr (.lib g!"log" g!"Logger")), (g!"_base", .src (lexed d.type))] := by
  replace hd := fresh_both (a := n.dec) (l := [g!"_", g!"nil", g!"apm", g!"io", g!"log", g!"base", g!"ctx", g!"err", g!"span", g!"stderr", g!"stdout", g!"_d", g!"_span", g!"_ticker", g!"_v", g!"_impl", g!"_res", g!"_cancelFunc", g!"cancelFunc", g!"_since", g!"_counter", g!"result"]) hd (by decide)
  have h1 : ¬ n.dec = g!"New" ++ n.dec := length_ne (by simp only [List.length_append, List.length_cons]; omega)
  have h2 : ¬ g!"New" ++ n.dec = n.dec := length_ne (by simp only [List.length_append, List.length_cons]; omega)
  have hi : Γ.inside = [] := by rw [hΓ]; rfl
  have hif : F.iface = lexed d.type := by rw [hF]; rfl
  obtain ⟨ds, hds⟩ : ∃ ds, ds = flatDecls (beforeLog u d n []) ++ flatDecls afterLog := ⟨_, rfl⟩
  rw [← hds] at hF hΓ ⊢
  unfold beforeLog afterLog fieldsLog at hds
  simp at hd h1 h2
  have hk : Knows Γ [(g!"io", .pkg g!"io"), (g!"log", .pkg g!"log"), (g!"nil", .value (.untyped .nil)), (n.dec, .type (.decl n.dec))] := by
    rw [hΓ]
    filetypes [Knows, hds, hd, h1, h2]
  have hd1 : find n.dec F.decls = some (.struct [(g!"_stdlog", .ptr (.lib g!"log" g!"Logger")), (g!"_errlog", .ptr (.lib g!"log" g!"Logger")), (g!"_base", .src (lexed d.type))]) := by
    rw [hF]
    filetypes [hds, hd, h1, h2, hs]
  clear hF
  have hh : Has F (.decl n.dec) [(g!"_stdlog", .ptr (.lib g!"log" g!"Logger")), (g!"_errlog", .ptr (.lib g!"log" g!"Logger")), (g!"_base", .src (lexed d.type))] := has_struct hd1 (by simp [Go.find])
  have hm := hh.members
  have hm2 := hh.ptr.members
  simp [Typ.string, Typ.int, Typ.error, Typ.uint32, Typ.any, Lib.ctx, Lib.duration, Lib.timeT] at hm hm2
  refine ⟨?_, hk (n.dec, .type (.decl n.dec)) (by simp), fun e he => hk e (by simp only [List.mem_cons, List.not_mem_nil, or_false] at he ⊢ <;> grind), hh⟩
  clear hΓ
  rw [hds]
  simp [Knows] at hk
  typing [Go.find, flatDecls, Decl.flat, Decl.Typed, FuncTyped, flatFields, FieldDecl.flat, FieldDecl.vars, FieldDecl.Typed, mapType, hk, hi, hd1, hm, hm2, hs, hdt, hd, h1, h2, convertible_basic, twirp_assignable]

set_option maxHeartbeats 4000000 in
theorem tfile_Logrus {u : Uni} {d : Inputs} {n : Names} (hd : n.dec ∉ templateNames) (hs : srcVar (lexed d.type) = .src (lexed d.type)) (hdt : dotsToks (lexed d.type) = none)
    {methods : List (Str × Typ)} {F : FileTypes} {Γ : Ctx} (hF : F = fileTypes [] (lexed d.type) methods (flatDecls (beforeLogrus u d n []) ++ flatDecls afterLogrus))
    (hΓ : Γ = fileCtx [] F (flatDecls (beforeLogrus u d n []) ++ flatDecls afterLogrus)) :
    (∀ x ∈ (flatDecls (beforeLogrus u d n []) ++ flatDecls afterLogrus), x.Typed F Γ) ∧ Γ.see n.dec = some (.type (.decl n.dec)) ∧
      Knows Γ [(g!"nil", .value (.untyped .nil)), (g!"string", .type (.basic g!"string")), (g!"logrus", .pkg Lib.logrusP)] ∧ Has F (.decl n.dec) [(g!"_log", .ptr (.lib Lib.logrusP g!"Entry")), (g!"_base", .src (lexed d.type))] := by
  replace hd := fresh_both (a := n.dec) (l := [g!"_", g!"string", g!"nil", g!"apm", g!"io", g!"log", g!"_log", g!"logrus", g!"base", g!"ctx", g!"err", g!"span", g!"_d", g!"_span", g!"_ticker", g!"_v", g!"_impl", g!"_res", g!"_cancelFunc", g!"cancelFunc", g!"_since", g!"_counter", g!"result"]) hd (by decide)
  have h1 : ¬ n.dec = g!"New" ++ n.dec := length_ne (by simp only [List.length_append, List.length_cons]; omega)
  have h2 : ¬ g!"New" ++ n.dec = n.dec := length_ne (by simp only [List.length_append, List.length_cons]; omega)
  have hi : Γ.inside = [] := by rw [hΓ]; rfl
  have hif : F.iface = lexed d.type := by rw [hF]; rfl
  obtain ⟨ds, hds⟩ : ∃ ds, ds = flatDecls (beforeLogrus u d n []) ++ flatDecls afterLogrus := ⟨_, rfl⟩
  rw [← hds] at hF hΓ ⊢
  unfold beforeLogrus afterLogrus fieldsLogrus at hds
  simp at hd h1 h2
  have hk : Knows Γ [(g!"io", .pkg g!"io"), (g!"logrus", .pkg Lib.logrusP), (g!"nil", .value (.untyped .nil)), (g!"string", .type (.basic g!"string")), (n.dec, .type (.decl n.dec))] := by
    rw [hΓ]
    filetypes [Knows, hds, hd, h1, h2]
  have hd1 : find n.dec F.decls = some (.struct [(g!"_log", .ptr (.lib Lib.logrusP g!"Entry")), (g!"_base", .src (lexed d.type))]) := by
    rw [hF]
    filetypes [hds, hd, h1, h2, hs]
  clear hF
  have hh : Has F (.decl n.dec) [(g!"_log", .ptr (.lib Lib.logrusP g!"Entry")), (g!"_base", .src (lexed d.type))] := has_struct hd1 (by simp [Go.find])
  have hm := hh.members
  have hm2 := hh.ptr.members
  simp [Typ.string, Typ.int, Typ.error, Typ.uint32, Typ.any, Lib.ctx, Lib.duration, Lib.timeT] at hm hm2
  refine ⟨?_, hk (n.dec, .type (.decl n.dec)) (by simp), fun e he => hk e (by simp only [List.mem_cons, List.not_mem_nil, or_false] at he ⊢ <;> grind), hh⟩
  clear hΓ
  rw [hds]
  simp [Knows] at hk
  typing [Go.find, flatDecls, Decl.flat, Decl.Typed, FuncTyped, flatFields, FieldDecl.flat, FieldDecl.vars, FieldDecl.Typed, mapType, hk, hi, hd1, hm, hm2, hs, hdt, hd, h1, h2, convertible_basic, twirp_assignable]

set_option maxHeartbeats 4000000 in
theorem tfile_Prometheus {u : Uni} {d : Inputs} {n : Names} (hd : n.dec ∉ templateNames) (hvec : u.lower d.name ++ g!"DurationSummaryVec" ∉ [n.dec, g!"New" ++ n.dec]) (hs : srcVar (lexed d.type) = .src (lexed d.type)) (hdt : dotsToks (lexed d.type) = none)
    {methods : List (Str × Typ)} {F : FileTypes} {Γ : Ctx} (hF : F = fileTypes [] (lexed d.type) methods (flatDecls (beforePrometheus u d n []) ++ flatDecls afterPrometheus))
    (hΓ : Γ = fileCtx [] F (flatDecls (beforePrometheus u d n []) ++ flatDecls afterPrometheus)) :
    (∀ x ∈ (flatDecls (beforePrometheus u d n []) ++ flatDecls afterPrometheus), x.Typed F Γ) ∧ Γ.see n.dec = some (.type (.decl n.dec)) ∧
      Knows Γ [(g!"nil", .value (.untyped .nil)), (g!"time", .pkg g!"time")] ∧ Has F (.decl n.dec) [(g!"base", .src (lexed d.type)), (g!"instanceName", .string)] ∧
      Γ.see (u.lower d.name ++ g!"DurationSummaryVec") = some (.var (.ptr (.lib Lib.promP g!"SummaryVec"))) := by
  replace hd := fresh_both (a := n.dec) (l := [g!"_", g!"float64", g!"string", g!"nil", g!"apm", g!"promauto", g!"prometheus", g!"time", g!"base", g!"ctx", g!"err", g!"instanceName", g!"span", g!"_d", g!"_span", g!"_ticker", g!"_v", g!"_impl", g!"_res", g!"_cancelFunc", g!"cancelFunc", g!"_since", g!"_counter", g!"result"]) hd (by decide)
  have h1 : ¬ n.dec = g!"New" ++ n.dec := length_ne (by simp only [List.length_append, List.length_cons]; omega)
  have h2 : ¬ g!"New" ++ n.dec = n.dec := length_ne (by simp only [List.length_append, List.length_cons]; omega)
  have x1 := fresh_both (a := u.lower d.name ++ g!"DurationSummaryVec") (l := [g!"_", g!"float64", g!"string", g!"nil", g!"apm", g!"promauto", g!"prometheus", g!"time", g!"base", g!"ctx", g!"err", g!"instanceName", g!"span", g!"_d", g!"_span", g!"_ticker", g!"_v", g!"_impl", g!"_res", g!"_cancelFunc", g!"cancelFunc", g!"_since", g!"_counter", g!"result"]) (fresh_suffix (by decide)) (by decide)
  have x3 := sym_ne (a := u.lower d.name ++ g!"DurationSummaryVec") (b := n.dec) (fun e => hvec (by simp [e]))
  have x4 := sym_ne (a := u.lower d.name ++ g!"DurationSummaryVec") (b := g!"New" ++ n.dec) (fun e => hvec (by simp [e]))
  have hi : Γ.inside = [] := by rw [hΓ]; rfl
  have hif : F.iface = lexed d.type := by rw [hF]; rfl
  obtain ⟨ds, hds⟩ : ∃ ds, ds = flatDecls (beforePrometheus u d n []) ++ flatDecls afterPrometheus := ⟨_, rfl⟩
  rw [← hds] at hF hΓ ⊢
  unfold beforePrometheus afterPrometheus fieldsPrometheus at hds
  generalize u.lower d.name ++ g!"DurationSummaryVec" = x at *
  simp at hd h1 h2 x1 x3 x4
  have hv : ∀ Γ : Ctx, Γ.see g!"promauto" = some (.pkg Lib.promautoP) → ds.flatMap (Decl.fileVars F Γ) = [(x, .ptr (.lib Lib.promP g!"SummaryVec"))] := by
    intro Γ h
    rw [hds]
    typing [flatDecls, Decl.flat, Decl.fileVars, h]
  have hk0 : (funcsCtx [] ds).see g!"promauto" = some (.pkg Lib.promautoP) := by
    filetypes [hds, hd, h1, h2, x1, x3, x4]
  have hk : Knows Γ [(g!"time", .pkg g!"time"), (g!"prometheus", .pkg Lib.promP), (g!"promauto", .pkg Lib.promautoP), (g!"float64", .type (.basic g!"float64")), (g!"nil", .value (.untyped .nil)), (g!"string", .type (.basic g!"string")), (n.dec, .type (.decl n.dec)), (x, .var (.ptr (.lib Lib.promP g!"SummaryVec")))] := by
    rw [hΓ, fileCtx, hv _ hk0]
    filetypes [Knows, hds, hd, h1, h2, x1, x3, x4]
  have hd1 : find n.dec F.decls = some (.struct [(g!"base", .src (lexed d.type)), (g!"instanceName", .string)]) := by
    rw [hF]
    filetypes [hds, hd, h1, h2, x1, x3, x4, hs]
  clear hF
  have hh : Has F (.decl n.dec) [(g!"base", .src (lexed d.type)), (g!"instanceName", .string)] := has_struct hd1 (by simp [Go.find])
  have hm := hh.members
  have hm2 := hh.ptr.members
  simp [Typ.string, Typ.int, Typ.error, Typ.uint32, Typ.any, Lib.ctx, Lib.duration, Lib.timeT] at hm hm2
  refine ⟨?_, hk (n.dec, .type (.decl n.dec)) (by simp), fun e he => hk e (by simp only [List.mem_cons, List.not_mem_nil, or_false] at he ⊢ <;> grind), hh, hk (x, _) (by simp)⟩
  clear hΓ
  rw [hds]
  simp [Knows] at hk
  typing [Go.find, flatDecls, Decl.flat, Decl.Typed, FuncTyped, flatFields, FieldDecl.flat, FieldDecl.vars, FieldDecl.Typed, mapType, hk, hi, hd1, hm, hm2, hs, hdt, hd, h1, h2, x1, x3, x4, convertible_basic, twirp_assignable]

set_option maxHeartbeats 4000000 in
theorem tfile_Opentracing {u : Uni} {d : Inputs} {n : Names} (hd : n.dec ∉ templateNames) (hn : (Ty.toks (lexed d.type)).fieldName = d.name) (hfn : d.name ∉ [g!"_instance", g!"_spanDecorator"]) (hs : srcVar (lexed d.type) = .src (lexed d.type)) (hdt : dotsToks (lexed d.type) = none)
    {methods : List (Str × Typ)} {F : FileTypes} {Γ : Ctx} (hF : F = fileTypes [] (lexed d.type) methods (flatDecls (beforeOpentracing u d n []) ++ flatDecls afterOpentracing))
    (hΓ : Γ = fileCtx [] F (flatDecls (beforeOpentracing u d n []) ++ flatDecls afterOpentracing)) :
    (∀ x ∈ (flatDecls (beforeOpentracing u d n []) ++ flatDecls afterOpentracing), x.Typed F Γ) ∧ Γ.see n.dec = some (.type (.decl n.dec)) ∧
      Knows Γ [(g!"nil", .value (.untyped .nil)), (g!"true", .value (.untyped .bool)), (g!"string", .type (.basic g!"string")), (g!"opentracing", .pkg Lib.tracingP), (g!"_ext", .pkg Lib.tracingExtP), (g!"_log", .pkg Lib.tracingLogP)] ∧ Has F (.decl n.dec) [(d.name, .src (lexed d.type)), (g!"_instance", .string), (g!"_spanDecorator", .func [.lib Lib.tracingP g!"Span", .map .string (.iface []), .map .string (.iface [])] none [])] := by
  replace hd := fresh_both (a := n.dec) (l := [g!"_", g!"string", g!"true", g!"nil", g!"len", g!"apm", g!"_ext", g!"_log", g!"opentracing", g!"base", g!"ctx", g!"d", g!"err", g!"instance", g!"span", g!"spanDecorator", g!"_d", g!"_span", g!"_ticker", g!"_v", g!"_impl", g!"_res", g!"_cancelFunc", g!"cancelFunc", g!"_since", g!"_counter", g!"result"]) hd (by decide)
  have h1 : ¬ n.dec = g!"New" ++ n.dec := length_ne (by simp only [List.length_append, List.length_cons]; omega)
  have h2 : ¬ g!"New" ++ n.dec = n.dec := length_ne (by simp only [List.length_append, List.length_cons]; omega)
  have hi : Γ.inside = [] := by rw [hΓ]; rfl
  have hif : F.iface = lexed d.type := by rw [hF]; rfl
  obtain ⟨ds, hds⟩ : ∃ ds, ds = flatDecls (beforeOpentracing u d n []) ++ flatDecls afterOpentracing := ⟨_, rfl⟩
  rw [← hds] at hF hΓ ⊢
  unfold beforeOpentracing afterOpentracing fieldsOpentracing at hds
  simp at hd h1 h2
  have hfn2 : ∀ x ∈ [g!"_instance", g!"_spanDecorator"], ¬ x = d.name := fun x hx e => hfn (e ▸ hx)
  simp at hfn hfn2
  have hk : Knows Γ [(g!"opentracing", .pkg Lib.tracingP), (g!"_ext", .pkg Lib.tracingExtP), (g!"_log", .pkg Lib.tracingLogP), (g!"len", .builtin), (g!"nil", .value (.untyped .nil)), (g!"string", .type (.basic g!"string")), (g!"true", .value (.untyped .bool)), (n.dec, .type (.decl n.dec))] := by
    rw [hΓ]
    filetypes [Knows, hds, hd, h1, h2, hfn, hfn2]
  have hd1 : find n.dec F.decls = some (.struct [(d.name, .src (lexed d.type)), (g!"_instance", .string), (g!"_spanDecorator", .func [.lib Lib.tracingP g!"Span", .map .string (.iface []), .map .string (.iface [])] none [])]) := by
    rw [hF]
    filetypes [hds, hd, h1, h2, hfn, hfn2, hs, hn]
  clear hF
  have hh : Has F (.decl n.dec) [(d.name, .src (lexed d.type)), (g!"_instance", .string), (g!"_spanDecorator", .func [.lib Lib.tracingP g!"Span", .map .string (.iface []), .map .string (.iface [])] none [])] := has_struct hd1 (by simp [Go.find, hfn2, hfn])
  have hm := hh.members
  have hm2 := hh.ptr.members
  simp [Typ.string, Typ.int, Typ.error, Typ.uint32, Typ.any, Lib.ctx, Lib.duration, Lib.timeT] at hm hm2
  refine ⟨?_, hk (n.dec, .type (.decl n.dec)) (by simp), fun e he => hk e (by simp only [List.mem_cons, List.not_mem_nil, or_false] at he ⊢ <;> grind), hh⟩
  clear hΓ
  rw [hds]
  simp [Knows] at hk
  typing [Go.find, flatDecls, Decl.flat, Decl.Typed, FuncTyped, flatFields, FieldDecl.flat, FieldDecl.vars, FieldDecl.Typed, mapType, hk, hi, hd1, hm, hm2, hs, hdt, hd, h1, h2, hfn, hfn2, hn, convertible_basic, twirp_assignable]

set_option maxHeartbeats 4000000 in
theorem tfile_Opencensus {u : Uni} {d : Inputs} {n : Names} (hd : n.dec ∉ templateNames) (hn : (Ty.toks (lexed d.type)).fieldName = d.name) (hfn : d.name ∉ [g!"_instance", g!"_spanDecorator"]) (hs : srcVar (lexed d.type) = .src (lexed d.type)) (hdt : dotsToks (lexed d.type) = none)
    {methods : List (Str × Typ)} {F : FileTypes} {Γ : Ctx} (hF : F = fileTypes [] (lexed d.type) methods (flatDecls (beforeOpencensus u d n []) ++ flatDecls afterOpencensus))
    (hΓ : Γ = fileCtx [] F (flatDecls (beforeOpencensus u d n []) ++ flatDecls afterOpencensus)) :
    (∀ x ∈ (flatDecls (beforeOpencensus u d n []) ++ flatDecls afterOpencensus), x.Typed F Γ) ∧ Γ.see n.dec = some (.type (.decl n.dec)) ∧
      Knows Γ [(g!"nil", .value (.untyped .nil)), (g!"true", .value (.untyped .bool)), (g!"string", .type (.basic g!"string")), (g!"trace", .pkg Lib.censusP)] ∧ Has F (.decl n.dec) [(d.name, .src (lexed d.type)), (g!"_instance", .string), (g!"_spanDecorator", .func [.ptr (.lib Lib.censusP g!"Span"), .map .string (.iface []), .map .string (.iface [])] none [])] := by
  replace hd := fresh_both (a := n.dec) (l := [g!"_", g!"string", g!"true", g!"nil", g!"len", g!"apm", g!"trace", g!"base", g!"ctx", g!"d", g!"err", g!"instance", g!"span", g!"spanDecorator", g!"_d", g!"_span", g!"_ticker", g!"_v", g!"_impl", g!"_res", g!"_cancelFunc", g!"cancelFunc", g!"_since", g!"_counter", g!"result"]) hd (by decide)
  have h1 : ¬ n.dec = g!"New" ++ n.dec := length_ne (by simp only [List.length_append, List.length_cons]; omega)
  have h2 : ¬ g!"New" ++ n.dec = n.dec := length_ne (by simp only [List.length_append, List.length_cons]; omega)
  have hi : Γ.inside = [] := by rw [hΓ]; rfl
  have hif : F.iface = lexed d.type := by rw [hF]; rfl
  obtain ⟨ds, hds⟩ : ∃ ds, ds = flatDecls (beforeOpencensus u d n []) ++ flatDecls afterOpencensus := ⟨_, rfl⟩
  rw [← hds] at hF hΓ ⊢
  unfold beforeOpencensus afterOpencensus fieldsOpencensus at hds
  simp at hd h1 h2
  have hfn2 : ∀ x ∈ [g!"_instance", g!"_spanDecorator"], ¬ x = d.name := fun x hx e => hfn (e ▸ hx)
  simp at hfn hfn2
  have hk : Knows Γ [(g!"trace", .pkg Lib.censusP), (g!"len", .builtin), (g!"nil", .value (.untyped .nil)), (g!"string", .type (.basic g!"string")), (g!"true", .value (.untyped .bool)), (n.dec, .type (.decl n.dec))] := by
    rw [hΓ]
    filetypes [Knows, hds, hd, h1, h2, hfn, hfn2]
  have hd1 : find n.dec F.decls = some (.struct [(d.name, .src (lexed d.type)), (g!"_instance", .string), (g!"_spanDecorator", .func [.ptr (.lib Lib.censusP g!"Span"), .map .string (.iface []), .map .string (.iface [])] none [])]) := by
    rw [hF]
    filetypes [hds, hd, h1, h2, hfn, hfn2, hs, hn]
  clear hF
  have hh : Has F (.decl n.dec) [(d.name, .src (lexed d.type)), (g!"_instance", .string), (g!"_spanDecorator", .func [.ptr (.lib Lib.censusP g!"Span"), .map .string (.iface []), .map .string (.iface [])] none [])] := has_struct hd1 (by simp [Go.find, hfn2, hfn])
  have hm := hh.members
  have hm2 := hh.ptr.members
  simp [Typ.string, Typ.int, Typ.error, Typ.uint32, Typ.any, Lib.ctx, Lib.duration, Lib.timeT] at hm hm2
  refine ⟨?_, hk (n.dec, .type (.decl n.dec)) (by simp), fun e he => hk e (by simp only [List.mem_cons, List.not_mem_nil, or_false] at he ⊢ <;> grind), hh⟩
  clear hΓ
  rw [hds]
  simp [Knows] at hk
  typing [Go.find, flatDecls, Decl.flat, Decl.Typed, FuncTyped, flatFields, FieldDecl.flat, FieldDecl.vars, FieldDecl.Typed, mapType, hk, hi, hd1, hm, hm2, hs, hdt, hd, h1, h2, hfn, hfn2, hn, convertible_basic, twirp_assignable]

set_option maxHeartbeats 4000000 in
theorem tfile_Opentelemetry {u : Uni} {d : Inputs} {n : Names} (hd : n.dec ∉ templateNames) (hn : (Ty.toks (lexed d.type)).fieldName = d.name) (hfn : d.name ∉ [g!"_instance", g!"_spanDecorator"]) (hs : srcVar (lexed d.type) = .src (lexed d.type)) (hdt : dotsToks (lexed d.type) = none)
    {methods : List (Str × Typ)} {F : FileTypes} {Γ : Ctx} (hF : F = fileTypes [] (lexed d.type) methods (flatDecls (beforeOpentelemetry u d n []) ++ flatDecls afterOpentelemetry))
    (hΓ : Γ = fileCtx [] F (flatDecls (beforeOpentelemetry u d n []) ++ flatDecls afterOpentelemetry)) :
    (∀ x ∈ (flatDecls (beforeOpentelemetry u d n []) ++ flatDecls afterOpentelemetry), x.Typed F Γ) ∧ Γ.see n.dec = some (.type (.decl n.dec)) ∧
      Knows Γ [(g!"nil", .value (.untyped .nil)), (g!"true", .value (.untyped .bool)), (g!"string", .type (.basic g!"string")), (g!"otel", .pkg Lib.otelP), (g!"_codes", .pkg Lib.otelCodesP), (g!"attribute", .pkg Lib.otelAttrP)] ∧ Has F (.decl n.dec) [(d.name, .src (lexed d.type)), (g!"_instance", .string), (g!"_spanDecorator", .func [.lib Lib.otelTraceP g!"Span", .map .string (.iface []), .map .string (.iface [])] none [])] := by
  replace hd := fresh_both (a := n.dec) (l := [g!"_", g!"string", g!"true", g!"nil", g!"len", g!"apm", g!"attribute", g!"_codes", g!"context", g!"otel", g!"trace", g!"base", g!"ctx", g!"d", g!"err", g!"instance", g!"span", g!"spanDecorator", g!"_d", g!"_span", g!"_ticker", g!"_v", g!"_impl", g!"_res", g!"_cancelFunc", g!"cancelFunc", g!"_since", g!"_counter", g!"result"]) hd (by decide)
  have h1 : ¬ n.dec = g!"New" ++ n.dec := length_ne (by simp only [List.length_append, List.length_cons]; omega)
  have h2 : ¬ g!"New" ++ n.dec = n.dec := length_ne (by simp only [List.length_append, List.length_cons]; omega)
  have hi : Γ.inside = [] := by rw [hΓ]; rfl
  have hif : F.iface = lexed d.type := by rw [hF]; rfl
  obtain ⟨ds, hds⟩ : ∃ ds, ds = flatDecls (beforeOpentelemetry u d n []) ++ flatDecls afterOpentelemetry := ⟨_, rfl⟩
  rw [← hds] at hF hΓ ⊢
  unfold beforeOpentelemetry afterOpentelemetry fieldsOpentelemetry at hds
  simp at hd h1 h2
  have hfn2 : ∀ x ∈ [g!"_instance", g!"_spanDecorator"], ¬ x = d.name := fun x hx e => hfn (e ▸ hx)
  simp at hfn hfn2
  have hk : Knows Γ [(g!"context", .pkg g!"context"), (g!"_codes", .pkg Lib.otelCodesP), (g!"otel", .pkg Lib.otelP), (g!"attribute", .pkg Lib.otelAttrP), (g!"trace", .pkg Lib.otelTraceP), (g!"len", .builtin), (g!"nil", .value (.untyped .nil)), (g!"string", .type (.basic g!"string")), (g!"true", .value (.untyped .bool)), (n.dec, .type (.decl n.dec))] := by
    rw [hΓ]
    filetypes [Knows, hds, hd, h1, h2, hfn, hfn2]
  have hd1 : find n.dec F.decls = some (.struct [(d.name, .src (lexed d.type)), (g!"_instance", .string), (g!"_spanDecorator", .func [.lib Lib.otelTraceP g!"Span", .map .string (.iface []), .map .string (.iface [])] none [])]) := by
    rw [hF]
    filetypes [hds, hd, h1, h2, hfn, hfn2, hs, hn]
  clear hF
  have hh : Has F (.decl n.dec) [(d.name, .src (lexed d.type)), (g!"_instance", .string), (g!"_spanDecorator", .func [.lib Lib.otelTraceP g!"Span", .map .string (.iface []), .map .string (.iface [])] none [])] := has_struct hd1 (by simp [Go.find, hfn2, hfn])
  have hm := hh.members
  have hm2 := hh.ptr.members
  simp [Typ.string, Typ.int, Typ.error, Typ.uint32, Typ.any, Lib.ctx, Lib.duration, Lib.timeT] at hm hm2
  refine ⟨?_, hk (n.dec, .type (.decl n.dec)) (by simp), fun e he => hk e (by simp only [List.mem_cons, List.not_mem_nil, or_false] at he ⊢ <;> grind), hh⟩
  clear hΓ
  rw [hds]
  simp [Knows] at hk
  typing [Go.find, flatDecls, Decl.flat, Decl.Typed, FuncTyped, flatFields, FieldDecl.flat, FieldDecl.vars, FieldDecl.Typed, mapType, hk, hi, hd1, hm, hm2, hs, hdt, hd, h1, h2, hfn, hfn2, hn, convertible_basic, twirp_assignable]

end Gowrap.Tmpl
