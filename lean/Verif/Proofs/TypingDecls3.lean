import Verif.Proofs.TypingDecls
/-!
# What else the generated files declare obeys the rules about types
-/

namespace Gowrap.Tmpl

open Gowrap Go Spec

set_option maxRecDepth 100000
set_option linter.unusedSimpArgs false
set_option linter.unusedVariables false

set_option maxHeartbeats 4000000 in
theorem tfile_Elasticapm {u : Uni} {d : Inputs} {n : Names} (hd : n.dec ∉ templateNames) (ho : n.option = n.dec ++ g!"Option") (hs : srcVar (lexed d.type) = .src (lexed d.type)) (hdt : dotsToks (lexed d.type) = none)
    {methods : List (Str × Typ)} {F : FileTypes} {Γ : Ctx} (hF : F = fileTypes [] (lexed d.type) methods (flatDecls (beforeElasticapm u d n []) ++ flatDecls afterElasticapm))
    (hΓ : Γ = fileCtx [] F (flatDecls (beforeElasticapm u d n []) ++ flatDecls afterElasticapm)) :
    (∀ x ∈ (flatDecls (beforeElasticapm u d n []) ++ flatDecls afterElasticapm), x.Typed F Γ) ∧ Γ.see n.dec = some (.type (.decl n.dec)) ∧
      Knows Γ [(g!"nil", .value (.untyped .nil))] ∧ Has F (.decl n.dec) [(g!"base", .src (lexed d.type)), (g!"startSpan", .func [Lib.ctx, .string, .string] none [.ptr (.lib Lib.apmP g!"Span"), Lib.ctx]), (g!"endSpan", .func [.ptr (.lib Lib.apmP g!"Span")] none []), (g!"setLabel", .func [.ptr (.lib Lib.apmP g!"Span"), .string, .any] none []), (g!"captureError", .func [Lib.ctx, .error] none []), (g!"spanType", .string)] := by
  replace hd := fresh_both (a := n.dec) (l := [g!"_", g!"error", g!"string", g!"nil", g!"apm", g!"context", g!"base", g!"ctx", g!"err", g!"fn", g!"key", g!"opts", g!"r", g!"span", g!"spanType", g!"v", g!"value", g!"_d", g!"_span", g!"_ticker", g!"_v", g!"_impl", g!"_res", g!"_cancelFunc", g!"cancelFunc", g!"_since", g!"_counter", g!"result"]) hd (by decide)
  have h1 : ¬ n.dec = g!"New" ++ n.dec := length_ne (by simp only [List.length_append, List.length_cons]; omega)
  have h2 : ¬ g!"New" ++ n.dec = n.dec := length_ne (by simp only [List.length_append, List.length_cons]; omega)
  have x1 := fresh_both (a := n.dec ++ g!"Option") (l := [g!"_", g!"error", g!"string", g!"nil", g!"apm", g!"context", g!"base", g!"ctx", g!"err", g!"fn", g!"key", g!"opts", g!"r", g!"span", g!"spanType", g!"v", g!"value", g!"_d", g!"_span", g!"_ticker", g!"_v", g!"_impl", g!"_res", g!"_cancelFunc", g!"cancelFunc", g!"_since", g!"_counter", g!"result"]) (fresh_suffix (by decide)) (by decide)
  have x3 := sym_ne (a := n.dec ++ g!"Option") (b := n.dec) (length_ne (by simp only [List.length_append, List.length_cons, List.length_nil]; omega))
  have x4 := sym_ne (a := n.dec ++ g!"Option") (b := g!"New" ++ n.dec) (length_ne (by simp only [List.length_append, List.length_cons, List.length_nil]; omega))
  have y1 := fresh_both (a := n.dec ++ g!"WithUsingSetLabel") (l := [g!"_", g!"error", g!"string", g!"nil", g!"apm", g!"context", g!"base", g!"ctx", g!"err", g!"fn", g!"key", g!"opts", g!"r", g!"span", g!"spanType", g!"v", g!"value", g!"_d", g!"_span", g!"_ticker", g!"_v", g!"_impl", g!"_res", g!"_cancelFunc", g!"cancelFunc", g!"_since", g!"_counter", g!"result"]) (fresh_suffix (by decide)) (by decide)
  have y3 := sym_ne (a := n.dec ++ g!"WithUsingSetLabel") (b := n.dec) (length_ne (by simp only [List.length_append, List.length_cons, List.length_nil]; omega))
  have y4 := sym_ne (a := n.dec ++ g!"WithUsingSetLabel") (b := g!"New" ++ n.dec) (length_ne (by simp only [List.length_append, List.length_cons, List.length_nil]; omega))
  have yx := sym_ne (a := n.dec ++ g!"WithUsingSetLabel") (b := n.dec ++ g!"Option") (length_ne (by simp only [List.length_append, List.length_cons, List.length_nil]; omega))
  have z1 := fresh_both (a := n.dec ++ g!"WithSpanType") (l := [g!"_", g!"error", g!"string", g!"nil", g!"apm", g!"context", g!"base", g!"ctx", g!"err", g!"fn", g!"key", g!"opts", g!"r", g!"span", g!"spanType", g!"v", g!"value", g!"_d", g!"_span", g!"_ticker", g!"_v", g!"_impl", g!"_res", g!"_cancelFunc", g!"cancelFunc", g!"_since", g!"_counter", g!"result"]) (fresh_suffix (by decide)) (by decide)
  have z3 := sym_ne (a := n.dec ++ g!"WithSpanType") (b := n.dec) (length_ne (by simp only [List.length_append, List.length_cons, List.length_nil]; omega))
  have z4 := sym_ne (a := n.dec ++ g!"WithSpanType") (b := g!"New" ++ n.dec) (length_ne (by simp only [List.length_append, List.length_cons, List.length_nil]; omega))
  have zx := sym_ne (a := n.dec ++ g!"WithSpanType") (b := n.dec ++ g!"Option") (length_ne (by simp only [List.length_append, List.length_cons, List.length_nil]; omega))
  have zy := sym_ne (a := n.dec ++ g!"WithSpanType") (b := n.dec ++ g!"WithUsingSetLabel") (length_ne (by simp only [List.length_append, List.length_cons, List.length_nil]; omega))
  have hi : Γ.inside = [] := by rw [hΓ]; rfl
  have hif : F.iface = lexed d.type := by rw [hF]; rfl
  obtain ⟨ds, hds⟩ : ∃ ds, ds = flatDecls (beforeElasticapm u d n []) ++ flatDecls afterElasticapm := ⟨_, rfl⟩
  rw [← hds] at hF hΓ ⊢
  rw [show flatDecls (beforeElasticapm u d n []) = flatDecls (beforeElasticapm u d ⟨n.dec, n.dec ++ g!"Option", n.component, n.metric, n.span⟩ []) by unfold beforeElasticapm; rw [ho]; rfl] at hds
  unfold beforeElasticapm afterElasticapm fieldsElasticapm at hds
  generalize n.dec ++ g!"Option" = x at *
  generalize n.dec ++ g!"WithUsingSetLabel" = y at *
  generalize n.dec ++ g!"WithSpanType" = z at *
  simp at hd h1 h2 x1 x3 x4 y1 y3 y4 yx z1 z3 z4 zx zy
  have hk : Knows Γ [(g!"context", .pkg g!"context"), (g!"apm", .pkg Lib.apmP), (g!"error", .type (.basic g!"error")), (g!"nil", .value (.untyped .nil)), (g!"string", .type (.basic g!"string")), (n.dec, .type (.decl n.dec)), (x, .type (.decl x))] := by
    rw [hΓ]
    filetypes [Knows, hds, hd, h1, h2, x1, x3, x4, y1, y3, y4, yx, z1, z3, z4, zx, zy]
  have hd1 : find n.dec F.decls = some (.struct [(g!"base", .src (lexed d.type)), (g!"startSpan", .func [Lib.ctx, .string, .string] none [.ptr (.lib Lib.apmP g!"Span"), Lib.ctx]), (g!"endSpan", .func [.ptr (.lib Lib.apmP g!"Span")] none []), (g!"setLabel", .func [.ptr (.lib Lib.apmP g!"Span"), .string, .any] none []), (g!"captureError", .func [Lib.ctx, .error] none []), (g!"spanType", .string)]) := by
    rw [hF]
    filetypes [hds, hd, h1, h2, x1, x3, x4, y1, y3, y4, yx, z1, z3, z4, zx, zy, hs]
  have hd2 : find x F.decls = some (.func [.ptr (.decl n.dec)] none []) := by
    rw [hF]
    filetypes [hds, hd, h1, h2, x1, x3, x4, y1, y3, y4, yx, z1, z3, z4, zx, zy]
  clear hF
  have hh : Has F (.decl n.dec) [(g!"base", .src (lexed d.type)), (g!"startSpan", .func [Lib.ctx, .string, .string] none [.ptr (.lib Lib.apmP g!"Span"), Lib.ctx]), (g!"endSpan", .func [.ptr (.lib Lib.apmP g!"Span")] none []), (g!"setLabel", .func [.ptr (.lib Lib.apmP g!"Span"), .string, .any] none []), (g!"captureError", .func [Lib.ctx, .error] none []), (g!"spanType", .string)] := has_struct hd1 (by simp [Go.find])
  have hm := hh.members
  have hm2 := hh.ptr.members
  simp [Typ.string, Typ.int, Typ.error, Typ.uint32, Typ.any, Lib.ctx, Lib.duration, Lib.timeT] at hm hm2
  refine ⟨?_, hk (n.dec, .type (.decl n.dec)) (by simp), fun e he => hk e (by simp only [List.mem_cons, List.not_mem_nil, or_false] at he ⊢ <;> grind), hh⟩
  clear hΓ
  rw [hds]
  simp [Knows] at hk
  typing [Go.find, flatDecls, Decl.flat, Decl.Typed, FuncTyped, flatFields, FieldDecl.flat, FieldDecl.vars, FieldDecl.Typed, mapType, hk, hi, hd1, hm, hm2, hs, hdt, hd, h1, h2, x1, x3, x4, y1, y3, y4, yx, z1, z3, z4, zx, zy, hd2, assignable_func hd2, convertible_basic, twirp_assignable]

set_option maxHeartbeats 4000000 in
theorem tfile_Validate {u : Uni} {d : Inputs} {n : Names} (hd : n.dec ∉ templateNames) (hn : (Ty.toks (lexed d.type)).fieldName = d.name) (hs : srcVar (lexed d.type) = .src (lexed d.type)) (hdt : dotsToks (lexed d.type) = none)
    {methods : List (Str × Typ)} {F : FileTypes} {Γ : Ctx} (hF : F = fileTypes [] (lexed d.type) methods (flatDecls (beforeValidate u d n []) ++ flatDecls afterValidate))
    (hΓ : Γ = fileCtx [] F (flatDecls (beforeValidate u d n []) ++ flatDecls afterValidate)) :
    (∀ x ∈ (flatDecls (beforeValidate u d n []) ++ flatDecls afterValidate), x.Typed F Γ) ∧ Γ.see n.dec = some (.type (.decl n.dec)) ∧
      Knows Γ [(g!"nil", .value (.untyped .nil)), (g!"error", .type (.basic g!"error"))] ∧ Has F (.decl n.dec) [(d.name, .src (lexed d.type))] := by
  replace hd := fresh_both (a := n.dec) (l := [g!"_", g!"error", g!"nil", g!"apm", g!"base", g!"ctx", g!"err", g!"span", g!"_d", g!"_span", g!"_ticker", g!"_v", g!"_impl", g!"_res", g!"_cancelFunc", g!"cancelFunc", g!"_since", g!"_counter", g!"result"]) hd (by decide)
  have h1 : ¬ n.dec = g!"New" ++ n.dec := length_ne (by simp only [List.length_append, List.length_cons]; omega)
  have h2 : ¬ g!"New" ++ n.dec = n.dec := length_ne (by simp only [List.length_append, List.length_cons]; omega)
  have hi : Γ.inside = [] := by rw [hΓ]; rfl
  have hif : F.iface = lexed d.type := by rw [hF]; rfl
  obtain ⟨ds, hds⟩ : ∃ ds, ds = flatDecls (beforeValidate u d n []) ++ flatDecls afterValidate := ⟨_, rfl⟩
  rw [← hds] at hF hΓ ⊢
  unfold beforeValidate afterValidate fieldsValidate at hds
  simp at hd h1 h2
  have hk : Knows Γ [(g!"error", .type (.basic g!"error")), (g!"nil", .value (.untyped .nil)), (n.dec, .type (.decl n.dec))] := by
    rw [hΓ]
    filetypes [Knows, hds, hd, h1, h2]
  have hd1 : find n.dec F.decls = some (.struct [(d.name, .src (lexed d.type))]) := by
    rw [hF]
    filetypes [hds, hd, h1, h2, hs, hn]
  clear hF
  have hh : Has F (.decl n.dec) [(d.name, .src (lexed d.type))] := has_struct hd1 (by simp [Go.find])
  have hm := hh.members
  have hm2 := hh.ptr.members
  simp [Typ.string, Typ.int, Typ.error, Typ.uint32, Typ.any, Lib.ctx, Lib.duration, Lib.timeT] at hm hm2
  refine ⟨?_, hk (n.dec, .type (.decl n.dec)) (by simp), fun e he => hk e (by simp only [List.mem_cons, List.not_mem_nil, or_false] at he ⊢ <;> grind), hh⟩
  clear hΓ
  rw [hds]
  simp [Knows] at hk
  typing [Go.find, flatDecls, Decl.flat, Decl.Typed, FuncTyped, flatFields, FieldDecl.flat, FieldDecl.vars, FieldDecl.Typed, mapType, hk, hi, hd1, hm, hm2, hs, hdt, hd, h1, h2, hn, convertible_basic, twirp_assignable]

set_option maxHeartbeats 4000000 in
theorem tfile_TwirpValidate {u : Uni} {d : Inputs} {n : Names} (hd : n.dec ∉ templateNames) (hn : (Ty.toks (lexed d.type)).fieldName = d.name) (hs : srcVar (lexed d.type) = .src (lexed d.type)) (hdt : dotsToks (lexed d.type) = none)
    {methods : List (Str × Typ)} {F : FileTypes} {Γ : Ctx} (hF : F = fileTypes [] (lexed d.type) methods (flatDecls (beforeTwirpValidate u d n []) ++ flatDecls afterTwirpValidate))
    (hΓ : Γ = fileCtx [] F (flatDecls (beforeTwirpValidate u d n []) ++ flatDecls afterTwirpValidate)) :
    (∀ x ∈ (flatDecls (beforeTwirpValidate u d n []) ++ flatDecls afterTwirpValidate), x.Typed F Γ) ∧ Γ.see n.dec = some (.type (.decl n.dec)) ∧
      Knows Γ [(g!"nil", .value (.untyped .nil)), (g!"error", .type (.basic g!"error")), (g!"twirp", .pkg Lib.twirpP)] ∧ Has F (.decl n.dec) [(d.name, .src (lexed d.type))] := by
  replace hd := fresh_both (a := n.dec) (l := [g!"_", g!"error", g!"nil", g!"apm", g!"twirp", g!"base", g!"ctx", g!"err", g!"span", g!"_d", g!"_span", g!"_ticker", g!"_v", g!"_impl", g!"_res", g!"_cancelFunc", g!"cancelFunc", g!"_since", g!"_counter", g!"result"]) hd (by decide)
  have h1 : ¬ n.dec = g!"New" ++ n.dec := length_ne (by simp only [List.length_append, List.length_cons]; omega)
  have h2 : ¬ g!"New" ++ n.dec = n.dec := length_ne (by simp only [List.length_append, List.length_cons]; omega)
  have hi : Γ.inside = [] := by rw [hΓ]; rfl
  have hif : F.iface = lexed d.type := by rw [hF]; rfl
  obtain ⟨ds, hds⟩ : ∃ ds, ds = flatDecls (beforeTwirpValidate u d n []) ++ flatDecls afterTwirpValidate := ⟨_, rfl⟩
  rw [← hds] at hF hΓ ⊢
  unfold beforeTwirpValidate afterTwirpValidate fieldsTwirpValidate at hds
  simp at hd h1 h2
  have hk : Knows Γ [(g!"twirp", .pkg Lib.twirpP), (g!"error", .type (.basic g!"error")), (g!"nil", .value (.untyped .nil)), (n.dec, .type (.decl n.dec))] := by
    rw [hΓ]
    filetypes [Knows, hds, hd, h1, h2]
  have hd1 : find n.dec F.decls = some (.struct [(d.name, .src (lexed d.type))]) := by
    rw [hF]
    filetypes [hds, hd, h1, h2, hs, hn]
  clear hF
  have hh : Has F (.decl n.dec) [(d.name, .src (lexed d.type))] := has_struct hd1 (by simp [Go.find])
  have hm := hh.members
  have hm2 := hh.ptr.members
  simp [Typ.string, Typ.int, Typ.error, Typ.uint32, Typ.any, Lib.ctx, Lib.duration, Lib.timeT] at hm hm2
  refine ⟨?_, hk (n.dec, .type (.decl n.dec)) (by simp), fun e he => hk e (by simp only [List.mem_cons, List.not_mem_nil, or_false] at he ⊢ <;> grind), hh⟩
  clear hΓ
  rw [hds]
  simp [Knows] at hk
  typing [Go.find, flatDecls, Decl.flat, Decl.Typed, FuncTyped, flatFields, FieldDecl.flat, FieldDecl.vars, FieldDecl.Typed, mapType, hk, hi, hd1, hm, hm2, hs, hdt, hd, h1, h2, hn, convertible_basic, twirp_assignable]

set_option maxHeartbeats 4000000 in
theorem tfile_GrpcValidate {u : Uni} {d : Inputs} {n : Names} (hd : n.dec ∉ templateNames) (hn : (Ty.toks (lexed d.type)).fieldName = d.name) (hs : srcVar (lexed d.type) = .src (lexed d.type)) (hdt : dotsToks (lexed d.type) = none)
    {methods : List (Str × Typ)} {F : FileTypes} {Γ : Ctx} (hF : F = fileTypes [] (lexed d.type) methods (flatDecls (beforeGrpcValidate u d n []) ++ flatDecls afterGrpcValidate))
    (hΓ : Γ = fileCtx [] F (flatDecls (beforeGrpcValidate u d n []) ++ flatDecls afterGrpcValidate)) :
    (∀ x ∈ (flatDecls (beforeGrpcValidate u d n []) ++ flatDecls afterGrpcValidate), x.Typed F Γ) ∧ Γ.see n.dec = some (.type (.decl n.dec)) ∧
      Knows Γ [(g!"nil", .value (.untyped .nil)), (g!"error", .type (.basic g!"error")), (g!"grpc_status", .pkg Lib.statusP), (g!"grpc_codes", .pkg Lib.codesP)] ∧ Has F (.decl n.dec) [(d.name, .src (lexed d.type))] := by
  replace hd := fresh_both (a := n.dec) (l := [g!"_", g!"error", g!"nil", g!"apm", g!"grpc_codes", g!"grpc_status", g!"base", g!"ctx", g!"err", g!"span", g!"_d", g!"_span", g!"_ticker", g!"_v", g!"_impl", g!"_res", g!"_cancelFunc", g!"cancelFunc", g!"_since", g!"_counter", g!"result"]) hd (by decide)
  have h1 : ¬ n.dec = g!"New" ++ n.dec := length_ne (by simp only [List.length_append, List.length_cons]; omega)
  have h2 : ¬ g!"New" ++ n.dec = n.dec := length_ne (by simp only [List.length_append, List.length_cons]; omega)
  have hi : Γ.inside = [] := by rw [hΓ]; rfl
  have hif : F.iface = lexed d.type := by rw [hF]; rfl
  obtain ⟨ds, hds⟩ : ∃ ds, ds = flatDecls (beforeGrpcValidate u d n []) ++ flatDecls afterGrpcValidate := ⟨_, rfl⟩
  rw [← hds] at hF hΓ ⊢
  unfold beforeGrpcValidate afterGrpcValidate fieldsGrpcValidate at hds
  simp at hd h1 h2
  have hk : Knows Γ [(g!"grpc_codes", .pkg Lib.codesP), (g!"grpc_status", .pkg Lib.statusP), (g!"error", .type (.basic g!"error")), (g!"nil", .value (.untyped .nil)), (n.dec, .type (.decl n.dec))] := by
    rw [hΓ]
    filetypes [Knows, hds, hd, h1, h2]
  have hd1 : find n.dec F.decls = some (.struct [(d.name, .src (lexed d.type))]) := by
    rw [hF]
    filetypes [hds, hd, h1, h2, hs, hn]
  clear hF
  have hh : Has F (.decl n.dec) [(d.name, .src (lexed d.type))] := has_struct hd1 (by simp [Go.find])
  have hm := hh.members
  have hm2 := hh.ptr.members
  simp [Typ.string, Typ.int, Typ.error, Typ.uint32, Typ.any, Lib.ctx, Lib.duration, Lib.timeT] at hm hm2
  refine ⟨?_, hk (n.dec, .type (.decl n.dec)) (by simp), fun e he => hk e (by simp only [List.mem_cons, List.not_mem_nil, or_false] at he ⊢ <;> grind), hh⟩
  clear hΓ
  rw [hds]
  simp [Knows] at hk
  typing [Go.find, flatDecls, Decl.flat, Decl.Typed, FuncTyped, flatFields, FieldDecl.flat, FieldDecl.vars, FieldDecl.Typed, mapType, hk, hi, hd1, hm, hm2, hs, hdt, hd, h1, h2, hn, convertible_basic, twirp_assignable]

set_option maxHeartbeats 4000000 in
theorem tfile_TwirpError {u : Uni} {d : Inputs} {n : Names} (hd : n.dec ∉ templateNames) (hn : (Ty.toks (lexed d.type)).fieldName = d.name) (hs : srcVar (lexed d.type) = .src (lexed d.type)) (hdt : dotsToks (lexed d.type) = none)
    {methods : List (Str × Typ)} {F : FileTypes} {Γ : Ctx} (hF : F = fileTypes [(g!"json", g!"encoding/json")] (lexed d.type) methods (flatDecls (beforeTwirpError u d n []) ++ flatDecls afterTwirpError))
    (hΓ : Γ = fileCtx [(g!"json", g!"encoding/json")] F (flatDecls (beforeTwirpError u d n []) ++ flatDecls afterTwirpError)) :
    (∀ x ∈ (flatDecls (beforeTwirpError u d n []) ++ flatDecls afterTwirpError), x.Typed F Γ) ∧ Γ.see n.dec = some (.type (.decl n.dec)) ∧
      Knows Γ [(g!"nil", .value (.untyped .nil))] ∧ Has F (.decl n.dec) [(d.name, .src (lexed d.type))] ∧
      Γ.see g!"injectRequestDataToError" = some (.value (.func [.any, .ptr .error] none [])) := by
  replace hd := fresh_both (a := n.dec) (l := [g!"_", g!"error", g!"string", g!"nil", g!"apm", g!"json", g!"twirp", g!"base", g!"ctx", g!"err", g!"jsonReq", g!"ok", g!"perr", g!"req", g!"span", g!"twerr", g!"injectRequestDataToError", g!"_d", g!"_span", g!"_ticker", g!"_v", g!"_impl", g!"_res", g!"_cancelFunc", g!"cancelFunc", g!"_since", g!"_counter", g!"result"]) hd (by decide)
  have h1 : ¬ n.dec = g!"New" ++ n.dec := length_ne (by simp only [List.length_append, List.length_cons]; omega)
  have h2 : ¬ g!"New" ++ n.dec = n.dec := length_ne (by simp only [List.length_append, List.length_cons]; omega)
  have hi : Γ.inside = [] := by rw [hΓ]; rfl
  have hif : F.iface = lexed d.type := by rw [hF]; rfl
  obtain ⟨ds, hds⟩ : ∃ ds, ds = flatDecls (beforeTwirpError u d n []) ++ flatDecls afterTwirpError := ⟨_, rfl⟩
  rw [← hds] at hF hΓ ⊢
  unfold beforeTwirpError afterTwirpError fieldsTwirpError at hds
  simp at hd h1 h2
  have hk : Knows Γ [(g!"twirp", .pkg Lib.twirpP), (g!"json", .pkg Lib.jsonP), (g!"error", .type (.basic g!"error")), (g!"nil", .value (.untyped .nil)), (g!"string", .type (.basic g!"string")), (n.dec, .type (.decl n.dec)), (g!"injectRequestDataToError", .value (.func [.any, .ptr .error] none []))] := by
    rw [hΓ]
    filetypes [Knows, hds, hd, h1, h2]
  have hd1 : find n.dec F.decls = some (.struct [(d.name, .src (lexed d.type))]) := by
    rw [hF]
    filetypes [hds, hd, h1, h2, hs, hn]
  clear hF
  have hh : Has F (.decl n.dec) [(d.name, .src (lexed d.type))] := has_struct hd1 (by simp [Go.find])
  have hm := hh.members
  have hm2 := hh.ptr.members
  simp [Typ.string, Typ.int, Typ.error, Typ.uint32, Typ.any, Lib.ctx, Lib.duration, Lib.timeT] at hm hm2
  refine ⟨?_, hk (n.dec, .type (.decl n.dec)) (by simp), fun e he => hk e (by simp only [List.mem_cons, List.not_mem_nil, or_false] at he ⊢ <;> grind), hh, hk (g!"injectRequestDataToError", _) (by simp)⟩
  clear hΓ
  rw [hds]
  simp [Knows] at hk
  typing [Go.find, flatDecls, Decl.flat, Decl.Typed, FuncTyped, flatFields, FieldDecl.flat, FieldDecl.vars, FieldDecl.Typed, mapType, hk, hi, hd1, hm, hm2, hs, hdt, hd, h1, h2, hn, convertible_basic, twirp_assignable]

set_option maxHeartbeats 4000000 in
theorem tfile_Timeout {u : Uni} {d : Inputs} {n : Names} (hd : n.dec ∉ templateNames) {config : List FieldDecl} (hc : ∀ Γ : Ctx, Γ.inside = [] → Γ.see g!"time" = some (.pkg g!"time") → (∀ f ∈ flatFields config, f.Typed Γ) ∧ (((flatFields config).flatMap (FieldDecl.vars Γ)).map (·.1)).Nodup) (hn : (Ty.toks (lexed d.type)).fieldName = d.name) (hfn : d.name ∉ [g!"config"]) (hs : srcVar (lexed d.type) = .src (lexed d.type)) (hdt : dotsToks (lexed d.type) = none)
    {methods : List (Str × Typ)} {F : FileTypes} {Γ : Ctx} (hF : F = fileTypes [] (lexed d.type) methods (flatDecls (beforeTimeout u d n config) ++ flatDecls afterTimeout))
    (hΓ : Γ = fileCtx [] F (flatDecls (beforeTimeout u d n config) ++ flatDecls afterTimeout)) :
    (∀ x ∈ (flatDecls (beforeTimeout u d n config) ++ flatDecls afterTimeout), x.Typed F Γ) ∧ Γ.see n.dec = some (.type (.decl n.dec)) ∧
      Knows Γ [(g!"context", .pkg g!"context")] ∧ Has F (.decl n.dec) [(d.name, .src (lexed d.type)), (g!"config", .decl (n.dec ++ g!"Config"))] ∧
      ∃ fs, find (n.dec ++ g!"Config") F.decls = some (.struct fs) ∧ ∃ Γ', Γ'.see g!"time" = some (.pkg g!"time") ∧ fs = (flatFields config).flatMap (FieldDecl.vars Γ') := by
  replace hd := fresh_both (a := n.dec) (l := [g!"nil", g!"_", g!"apm", g!"context", g!"time", g!"base", g!"config", g!"ctx", g!"err", g!"span", g!"_d", g!"_span", g!"_ticker", g!"_v", g!"_impl", g!"_res", g!"_cancelFunc", g!"cancelFunc", g!"_since", g!"_counter", g!"result"]) hd (by decide)
  have h1 : ¬ n.dec = g!"New" ++ n.dec := length_ne (by simp only [List.length_append, List.length_cons]; omega)
  have h2 : ¬ g!"New" ++ n.dec = n.dec := length_ne (by simp only [List.length_append, List.length_cons]; omega)
  have x1 := fresh_both (a := n.dec ++ g!"Config") (l := [g!"nil", g!"_", g!"apm", g!"context", g!"time", g!"base", g!"config", g!"ctx", g!"err", g!"span", g!"_d", g!"_span", g!"_ticker", g!"_v", g!"_impl", g!"_res", g!"_cancelFunc", g!"cancelFunc", g!"_since", g!"_counter", g!"result"]) (fresh_suffix (by decide)) (by decide)
  have x3 := sym_ne (a := n.dec ++ g!"Config") (b := n.dec) (length_ne (by simp only [List.length_append, List.length_cons, List.length_nil]; omega))
  have x4 := sym_ne (a := n.dec ++ g!"Config") (b := g!"New" ++ n.dec) (length_ne (by simp only [List.length_append, List.length_cons, List.length_nil]; omega))
  have hi : Γ.inside = [] := by rw [hΓ]; rfl
  have hif : F.iface = lexed d.type := by rw [hF]; rfl
  obtain ⟨ds, hds⟩ : ∃ ds, ds = flatDecls (beforeTimeout u d n config) ++ flatDecls afterTimeout := ⟨_, rfl⟩
  rw [← hds] at hF hΓ ⊢
  unfold beforeTimeout afterTimeout fieldsTimeout at hds
  generalize n.dec ++ g!"Config" = x at *
  simp at hd h1 h2 x1 x3 x4
  have hfn2 : ∀ x ∈ [g!"config"], ¬ x = d.name := fun x hx e => hfn (e ▸ hx)
  simp at hfn hfn2
  have hk : Knows Γ [(g!"context", .pkg g!"context"), (g!"time", .pkg g!"time"), (n.dec, .type (.decl n.dec)), (x, .type (.decl x))] := by
    rw [hΓ]
    filetypes [Knows, hds, hd, h1, h2, x1, x3, x4, hfn, hfn2]
  have hd1 : find n.dec F.decls = some (.struct [(d.name, .src (lexed d.type)), (g!"config", .decl x)]) := by
    rw [hF]
    filetypes [hds, hd, h1, h2, x1, x3, x4, hfn, hfn2, hs, hn]
  have hc1 : find x F.decls = some (.struct ((flatFields config).flatMap (FieldDecl.vars (typesCtx [] ds)))) := by
    have : ∀ Γ : Ctx, find x (ds.flatMap (Decl.unders Γ)) = some (.struct ((flatFields config).flatMap (FieldDecl.vars Γ))) := by
      intro Γ
      rw [hds]
      simp [flatDecls, Decl.flat, Decl.unders, Go.find, flatFields, FieldDecl.flat, hd, h1, h2, x1, x3, x4, hfn, hfn2]
    rw [hF]
    exact this _
  have hk0 : (typesCtx [] ds).see g!"time" = some (.pkg g!"time") := by
    filetypes [hds, hd, h1, h2, x1, x3, x4, hfn, hfn2]
  clear hF
  have hh : Has F (.decl n.dec) [(d.name, .src (lexed d.type)), (g!"config", .decl x)] := has_struct hd1 (by simp [Go.find, hfn2, hfn])
  have hm := hh.members
  have hm2 := hh.ptr.members
  simp [Typ.string, Typ.int, Typ.error, Typ.uint32, Typ.any, Lib.ctx, Lib.duration, Lib.timeT] at hm hm2
  refine ⟨?_, hk (n.dec, .type (.decl n.dec)) (by simp), fun e he => hk e (by simp only [List.mem_cons, List.not_mem_nil, or_false] at he ⊢ <;> grind), hh, _, hc1, _, hk0, rfl⟩
  clear hΓ
  rw [hds]
  simp [Knows] at hk
  have hc2 := hc Γ hi hk.2.1
  typing [Go.find, flatDecls, Decl.flat, Decl.Typed, FuncTyped, flatFields, FieldDecl.flat, FieldDecl.vars, FieldDecl.Typed, mapType, hk, hi, hd1, hm, hm2, hs, hdt, hd, h1, h2, x1, x3, x4, hfn, hfn2, List.map_flatMap, hn, convertible_basic, twirp_assignable]
  exact ⟨hc2.1, by have := hc2.2; rw [List.map_flatMap] at this; exact this⟩

end Gowrap.Tmpl
