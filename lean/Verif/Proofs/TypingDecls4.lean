import Verif.Proofs.TypingDecls
/-!
# What else the generated files declare obeys the rules about types
-/

namespace Gowrap.Tmpl

open Gowrap Go Spec

set_option maxRecDepth 100000
set_option linter.unusedSimpArgs false
set_option linter.unusedVariables false

set_option maxHeartbeats 4000000 in
theorem tfile_Circuitbreaker {u : Uni} {d : Inputs} {n : Names} (hd : n.dec ∉ templateNames) (hn : (Ty.toks (lexed d.type)).fieldName = d.name) (hfn : d.name ∉ [g!"_lock", g!"_maxConsecutiveErrors", g!"_consecutiveErrors", g!"_openInterval", g!"_closesAt", g!"_ignoreErrors"]) (hs : srcVar (lexed d.type) = .src (lexed d.type)) (hdt : dotsToks (lexed d.type) = none)
    {methods : List (Str × Typ)} {F : FileTypes} {Γ : Ctx} (hF : F = fileTypes [] (lexed d.type) methods (flatDecls (beforeCircuitbreaker u d n []) ++ flatDecls afterCircuitbreaker))
    (hΓ : Γ = fileCtx [] F (flatDecls (beforeCircuitbreaker u d n []) ++ flatDecls afterCircuitbreaker)) :
    (∀ x ∈ (flatDecls (beforeCircuitbreaker u d n []) ++ flatDecls afterCircuitbreaker), x.Typed F Γ) ∧ Γ.see n.dec = some (.type (.decl n.dec)) ∧
      Knows Γ [(g!"nil", .value (.untyped .nil)), (g!"errors", .pkg g!"errors"), (g!"time", .pkg g!"time")] ∧ Has F (.decl n.dec) [(d.name, .src (lexed d.type)), (g!"_lock", .lib g!"sync" g!"RWMutex"), (g!"_maxConsecutiveErrors", .int), (g!"_consecutiveErrors", .int), (g!"_openInterval", Lib.duration), (g!"_closesAt", .ptr Lib.timeT), (g!"_ignoreErrors", .slice .error)] := by
  replace hd := fresh_both (a := n.dec) (l := [g!"_", g!"error", g!"int", g!"nil", g!"apm", g!"errors", g!"sync", g!"time", g!"base", g!"consecutiveErrors", g!"ctx", g!"err", g!"ignoreErrors", g!"openInterval", g!"span", g!"_d", g!"_span", g!"_ticker", g!"_v", g!"_impl", g!"_res", g!"_cancelFunc", g!"cancelFunc", g!"_since", g!"_counter", g!"result"]) hd (by decide)
  have h1 : ¬ n.dec = g!"New" ++ n.dec := length_ne (by simp only [List.length_append, List.length_cons]; omega)
  have h2 : ¬ g!"New" ++ n.dec = n.dec := length_ne (by simp only [List.length_append, List.length_cons]; omega)
  have hi : Γ.inside = [] := by rw [hΓ]; rfl
  have hif : F.iface = lexed d.type := by rw [hF]; rfl
  obtain ⟨ds, hds⟩ : ∃ ds, ds = flatDecls (beforeCircuitbreaker u d n []) ++ flatDecls afterCircuitbreaker := ⟨_, rfl⟩
  rw [← hds] at hF hΓ ⊢
  unfold beforeCircuitbreaker afterCircuitbreaker fieldsCircuitbreaker at hds
  simp at hd h1 h2
  have hfn2 : ∀ x ∈ [g!"_lock", g!"_maxConsecutiveErrors", g!"_consecutiveErrors", g!"_openInterval", g!"_closesAt", g!"_ignoreErrors"], ¬ x = d.name := fun x hx e => hfn (e ▸ hx)
  simp at hfn hfn2
  have hk : Knows Γ [(g!"errors", .pkg g!"errors"), (g!"sync", .pkg g!"sync"), (g!"time", .pkg g!"time"), (g!"error", .type (.basic g!"error")), (g!"int", .type (.basic g!"int")), (g!"nil", .value (.untyped .nil)), (n.dec, .type (.decl n.dec))] := by
    rw [hΓ]
    filetypes [Knows, hds, hd, h1, h2, hfn, hfn2]
  have hd1 : find n.dec F.decls = some (.struct [(d.name, .src (lexed d.type)), (g!"_lock", .lib g!"sync" g!"RWMutex"), (g!"_maxConsecutiveErrors", .int), (g!"_consecutiveErrors", .int), (g!"_openInterval", Lib.duration), (g!"_closesAt", .ptr Lib.timeT), (g!"_ignoreErrors", .slice .error)]) := by
    rw [hF]
    filetypes [hds, hd, h1, h2, hfn, hfn2, hs, hn]
  clear hF
  have hh : Has F (.decl n.dec) [(d.name, .src (lexed d.type)), (g!"_lock", .lib g!"sync" g!"RWMutex"), (g!"_maxConsecutiveErrors", .int), (g!"_consecutiveErrors", .int), (g!"_openInterval", Lib.duration), (g!"_closesAt", .ptr Lib.timeT), (g!"_ignoreErrors", .slice .error)] := has_struct hd1 (by simp [Go.find, hfn2, hfn])
  have hm := hh.members
  have hm2 := hh.ptr.members
  simp [Typ.string, Typ.int, Typ.error, Typ.uint32, Typ.any, Lib.ctx, Lib.duration, Lib.timeT] at hm hm2
  refine ⟨?_, hk (n.dec, .type (.decl n.dec)) (by simp), fun e he => hk e (by simp only [List.mem_cons, List.not_mem_nil, or_false] at he ⊢ <;> grind), hh⟩
  clear hΓ
  rw [hds]
  simp [Knows] at hk
  typing [Go.find, flatDecls, Decl.flat, Decl.Typed, FuncTyped, flatFields, FieldDecl.flat, FieldDecl.vars, FieldDecl.Typed, mapType, hk, hi, hd1, hm, hm2, hs, hdt, hd, h1, h2, hfn, hfn2, hn, convertible_basic, twirp_assignable]

set_option maxHeartbeats 4000000 in
theorem tfile_Retry {u : Uni} {d : Inputs} {n : Names} (hd : n.dec ∉ templateNames) (hn : (Ty.toks (lexed d.type)).fieldName = d.name) (hfn : d.name ∉ [g!"_retryCount", g!"_retryInterval"]) (hs : srcVar (lexed d.type) = .src (lexed d.type)) (hdt : dotsToks (lexed d.type) = none)
    {methods : List (Str × Typ)} {F : FileTypes} {Γ : Ctx} (hF : F = fileTypes [] (lexed d.type) methods (flatDecls (beforeRetry u d n []) ++ flatDecls afterRetry))
    (hΓ : Γ = fileCtx [] F (flatDecls (beforeRetry u d n []) ++ flatDecls afterRetry)) :
    (∀ x ∈ (flatDecls (beforeRetry u d n []) ++ flatDecls afterRetry), x.Typed F Γ) ∧ Γ.see n.dec = some (.type (.decl n.dec)) ∧
      Knows Γ [(g!"nil", .value (.untyped .nil)), (g!"time", .pkg g!"time")] ∧ Has F (.decl n.dec) [(d.name, .src (lexed d.type)), (g!"_retryCount", .int), (g!"_retryInterval", Lib.duration)] := by
  replace hd := fresh_both (a := n.dec) (l := [g!"_", g!"int", g!"nil", g!"apm", g!"time", g!"base", g!"ctx", g!"err", g!"retryCount", g!"retryInterval", g!"span", g!"_d", g!"_span", g!"_ticker", g!"_v", g!"_impl", g!"_res", g!"_cancelFunc", g!"cancelFunc", g!"_since", g!"_counter", g!"result"]) hd (by decide)
  have h1 : ¬ n.dec = g!"New" ++ n.dec := length_ne (by simp only [List.length_append, List.length_cons]; omega)
  have h2 : ¬ g!"New" ++ n.dec = n.dec := length_ne (by simp only [List.length_append, List.length_cons]; omega)
  have hi : Γ.inside = [] := by rw [hΓ]; rfl
  have hif : F.iface = lexed d.type := by rw [hF]; rfl
  obtain ⟨ds, hds⟩ : ∃ ds, ds = flatDecls (beforeRetry u d n []) ++ flatDecls afterRetry := ⟨_, rfl⟩
  rw [← hds] at hF hΓ ⊢
  unfold beforeRetry afterRetry fieldsRetry at hds
  simp at hd h1 h2
  have hfn2 : ∀ x ∈ [g!"_retryCount", g!"_retryInterval"], ¬ x = d.name := fun x hx e => hfn (e ▸ hx)
  simp at hfn hfn2
  have hk : Knows Γ [(g!"time", .pkg g!"time"), (g!"int", .type (.basic g!"int")), (g!"nil", .value (.untyped .nil)), (n.dec, .type (.decl n.dec))] := by
    rw [hΓ]
    filetypes [Knows, hds, hd, h1, h2, hfn, hfn2]
  have hd1 : find n.dec F.decls = some (.struct [(d.name, .src (lexed d.type)), (g!"_retryCount", .int), (g!"_retryInterval", Lib.duration)]) := by
    rw [hF]
    filetypes [hds, hd, h1, h2, hfn, hfn2, hs, hn]
  clear hF
  have hh : Has F (.decl n.dec) [(d.name, .src (lexed d.type)), (g!"_retryCount", .int), (g!"_retryInterval", Lib.duration)] := has_struct hd1 (by simp [Go.find, hfn2, hfn])
  have hm := hh.members
  have hm2 := hh.ptr.members
  simp [Typ.string, Typ.int, Typ.error, Typ.uint32, Typ.any, Lib.ctx, Lib.duration, Lib.timeT] at hm hm2
  refine ⟨?_, hk (n.dec, .type (.decl n.dec)) (by simp), fun e he => hk e (by simp only [List.mem_cons, List.not_mem_nil, or_false] at he ⊢ <;> grind), hh⟩
  clear hΓ
  rw [hds]
  simp [Knows] at hk
  typing [Go.find, flatDecls, Decl.flat, Decl.Typed, FuncTyped, flatFields, FieldDecl.flat, FieldDecl.vars, FieldDecl.Typed, mapType, hk, hi, hd1, hm, hm2, hs, hdt, hd, h1, h2, hfn, hfn2, hn, convertible_basic, twirp_assignable]

set_option maxHeartbeats 4000000 in
theorem tfile_Ratelimit {u : Uni} {d : Inputs} {n : Names} (hd : n.dec ∉ templateNames) (hs : srcVar (lexed d.type) = .src (lexed d.type)) (hdt : dotsToks (lexed d.type) = none)
    {methods : List (Str × Typ)} {F : FileTypes} {Γ : Ctx} (hF : F = fileTypes [] (lexed d.type) methods (flatDecls (beforeRatelimit u d n []) ++ flatDecls afterRatelimit))
    (hΓ : Γ = fileCtx [] F (flatDecls (beforeRatelimit u d n []) ++ flatDecls afterRatelimit)) :
    (∀ x ∈ (flatDecls (beforeRatelimit u d n []) ++ flatDecls afterRatelimit), x.Typed F Γ) ∧ Γ.see n.dec = some (.type (.decl n.dec)) ∧
      Knows Γ [(g!"nil", .value (.untyped .nil))] ∧ Has F (.decl n.dec) [(g!"_base", .src (lexed d.type)), (g!"_ticks", .chan Lib.timeT)] := by
  replace hd := fresh_both (a := n.dec) (l := [g!"nil", g!"_", g!"float64", g!"int", g!"make", g!"apm", g!"time", g!"base", g!"burst", g!"ctx", g!"d", g!"delay", g!"err", g!"i", g!"now", g!"rps", g!"span", g!"t", g!"_d", g!"_span", g!"_ticker", g!"_v", g!"_impl", g!"_res", g!"_cancelFunc", g!"cancelFunc", g!"_since", g!"_counter", g!"result"]) hd (by decide)
  have h1 : ¬ n.dec = g!"New" ++ n.dec := length_ne (by simp only [List.length_append, List.length_cons]; omega)
  have h2 : ¬ g!"New" ++ n.dec = n.dec := length_ne (by simp only [List.length_append, List.length_cons]; omega)
  have hi : Γ.inside = [] := by rw [hΓ]; rfl
  have hif : F.iface = lexed d.type := by rw [hF]; rfl
  obtain ⟨ds, hds⟩ : ∃ ds, ds = flatDecls (beforeRatelimit u d n []) ++ flatDecls afterRatelimit := ⟨_, rfl⟩
  rw [← hds] at hF hΓ ⊢
  unfold beforeRatelimit afterRatelimit fieldsRatelimit at hds
  simp at hd h1 h2
  have hk : Knows Γ [(g!"time", .pkg g!"time"), (g!"float64", .type (.basic g!"float64")), (g!"int", .type (.basic g!"int")), (g!"make", .builtin), (g!"nil", .value (.untyped .nil)), (n.dec, .type (.decl n.dec))] := by
    rw [hΓ]
    filetypes [Knows, hds, hd, h1, h2]
  have hd1 : find n.dec F.decls = some (.struct [(g!"_base", .src (lexed d.type)), (g!"_ticks", .chan Lib.timeT)]) := by
    rw [hF]
    filetypes [hds, hd, h1, h2, hs]
  clear hF
  have hh : Has F (.decl n.dec) [(g!"_base", .src (lexed d.type)), (g!"_ticks", .chan Lib.timeT)] := has_struct hd1 (by simp [Go.find])
  have hm := hh.members
  have hm2 := hh.ptr.members
  simp [Typ.string, Typ.int, Typ.error, Typ.uint32, Typ.any, Lib.ctx, Lib.duration, Lib.timeT] at hm hm2
  refine ⟨?_, hk (n.dec, .type (.decl n.dec)) (by simp), fun e he => hk e (by simp only [List.mem_cons, List.not_mem_nil, or_false] at he ⊢ <;> grind), hh⟩
  clear hΓ
  rw [hds]
  simp [Knows] at hk
  typing [Go.find, flatDecls, Decl.flat, Decl.Typed, FuncTyped, flatFields, FieldDecl.flat, FieldDecl.vars, FieldDecl.Typed, mapType, hk, hi, hd1, hm, hm2, hs, hdt, hd, h1, h2, convertible_basic, twirp_assignable]

set_option maxHeartbeats 4000000 in
theorem tfile_Robinpool {u : Uni} {d : Inputs} {n : Names} (hd : n.dec ∉ templateNames) (hs : srcVar (lexed d.type) = .src (lexed d.type)) (hdt : dotsToks (lexed d.type) = none)
    {methods : List (Str × Typ)} {F : FileTypes} {Γ : Ctx} (hF : F = fileTypes [] (lexed d.type) methods (flatDecls (beforeRobinpool u d n []) ++ flatDecls afterRobinpool))
    (hΓ : Γ = fileCtx [] F (flatDecls (beforeRobinpool u d n []) ++ flatDecls afterRobinpool)) :
    (∀ x ∈ (flatDecls (beforeRobinpool u d n []) ++ flatDecls afterRobinpool), x.Typed F Γ) ∧ Γ.see n.dec = some (.type (.decl n.dec)) ∧
      Knows Γ [(g!"atomic", .pkg g!"sync/atomic")] ∧ Has F (.decl n.dec) [(g!"pool", .slice (.src (lexed d.type))), (g!"poolSize", .uint32), (g!"counter", .uint32)] := by
  replace hd := fresh_both (a := n.dec) (l := [g!"_", g!"error", g!"uint32", g!"nil", g!"len", g!"panic", g!"apm", g!"atomic", g!"errors", g!"ctx", g!"err", g!"pool", g!"span", g!"_d", g!"_span", g!"_ticker", g!"_v", g!"_impl", g!"_res", g!"_cancelFunc", g!"cancelFunc", g!"_since", g!"_counter", g!"result"]) hd (by decide)
  have h1 : ¬ n.dec = g!"New" ++ n.dec := length_ne (by simp only [List.length_append, List.length_cons]; omega)
  have h2 : ¬ g!"New" ++ n.dec = n.dec := length_ne (by simp only [List.length_append, List.length_cons]; omega)
  have x1 := fresh_both (a := g!"MustNew" ++ n.dec) (l := [g!"_", g!"error", g!"uint32", g!"nil", g!"len", g!"panic", g!"apm", g!"atomic", g!"errors", g!"ctx", g!"err", g!"pool", g!"span", g!"_d", g!"_span", g!"_ticker", g!"_v", g!"_impl", g!"_res", g!"_cancelFunc", g!"cancelFunc", g!"_since", g!"_counter", g!"result"]) (fresh_must) (by decide)
  have x3 := sym_ne (a := g!"MustNew" ++ n.dec) (b := n.dec) (length_ne (by simp only [List.length_append, List.length_cons, List.length_nil]; omega))
  have x4 := sym_ne (a := g!"MustNew" ++ n.dec) (b := g!"New" ++ n.dec) (length_ne (by simp only [List.length_append, List.length_cons, List.length_nil]; omega))
  have hi : Γ.inside = [] := by rw [hΓ]; rfl
  have hif : F.iface = lexed d.type := by rw [hF]; rfl
  obtain ⟨ds, hds⟩ : ∃ ds, ds = flatDecls (beforeRobinpool u d n []) ++ flatDecls afterRobinpool := ⟨_, rfl⟩
  rw [← hds] at hF hΓ ⊢
  unfold beforeRobinpool afterRobinpool fieldsRobinpool at hds
  simp at hd h1 h2 x1 x3 x4
  have hk : Knows Γ [(g!"atomic", .pkg g!"sync/atomic"), (g!"errors", .pkg g!"errors"), (g!"error", .type (.basic g!"error")), (g!"len", .builtin), (g!"nil", .value (.untyped .nil)), (g!"panic", .builtin), (g!"uint32", .type (.basic g!"uint32")), (n.dec, .type (.decl n.dec))] := by
    rw [hΓ]
    filetypes [Knows, hds, hd, h1, h2, x1, x3, x4]
  have hd1 : find n.dec F.decls = some (.struct [(g!"pool", .slice (.src (lexed d.type))), (g!"poolSize", .uint32), (g!"counter", .uint32)]) := by
    rw [hF]
    filetypes [hds, hd, h1, h2, x1, x3, x4, hs]
  clear hF
  have hh : Has F (.decl n.dec) [(g!"pool", .slice (.src (lexed d.type))), (g!"poolSize", .uint32), (g!"counter", .uint32)] := has_struct hd1 (by simp [Go.find])
  have hm := hh.members
  have hm2 := hh.ptr.members
  simp [Typ.string, Typ.int, Typ.error, Typ.uint32, Typ.any, Lib.ctx, Lib.duration, Lib.timeT] at hm hm2
  refine ⟨?_, hk (n.dec, .type (.decl n.dec)) (by simp), fun e he => hk e (by simp only [List.mem_cons, List.not_mem_nil, or_false] at he ⊢ <;> grind), hh⟩
  clear hΓ
  rw [hds]
  simp [Knows] at hk
  typing [Go.find, flatDecls, Decl.flat, Decl.Typed, FuncTyped, flatFields, FieldDecl.flat, FieldDecl.vars, FieldDecl.Typed, mapType, hk, hi, hd1, hm, hm2, hs, hdt, hd, h1, h2, x1, x3, x4, convertible_basic, twirp_assignable]

set_option maxHeartbeats 4000000 in
theorem tfile_Syncpool {u : Uni} {d : Inputs} {n : Names} (hd : n.dec ∉ templateNames) (hp : .word g!"impls" ∉ lexed d.type) (hs : srcVar (lexed d.type) = .src (lexed d.type)) (hdt : dotsToks (lexed d.type) = none)
    {methods : List (Str × Typ)} {F : FileTypes} {Γ : Ctx} (hF : F = fileTypes [] (lexed d.type) methods (flatDecls (beforeSyncpool u d n []) ++ flatDecls afterSyncpool))
    (hΓ : Γ = fileCtx [] F (flatDecls (beforeSyncpool u d n []) ++ flatDecls afterSyncpool)) :
    (∀ x ∈ (flatDecls (beforeSyncpool u d n []) ++ flatDecls afterSyncpool), x.Typed F Γ) ∧ Γ.see n.dec = some (.type (.decl n.dec)) ∧
      Knows Γ [] ∧ Has F (.decl n.dec) [(g!"pool", .chan (.src (lexed d.type)))] := by
  replace hd := fresh_both (a := n.dec) (l := [g!"nil", g!"_", g!"len", g!"make", g!"panic", g!"apm", g!"ctx", g!"err", g!"i", g!"impls", g!"pool", g!"span", g!"_d", g!"_span", g!"_ticker", g!"_v", g!"_impl", g!"_res", g!"_cancelFunc", g!"cancelFunc", g!"_since", g!"_counter", g!"result"]) hd (by decide)
  have h1 : ¬ n.dec = g!"New" ++ n.dec := length_ne (by simp only [List.length_append, List.length_cons]; omega)
  have h2 : ¬ g!"New" ++ n.dec = n.dec := length_ne (by simp only [List.length_append, List.length_cons]; omega)
  have hi : Γ.inside = [] := by rw [hΓ]; rfl
  have hif : F.iface = lexed d.type := by rw [hF]; rfl
  obtain ⟨ds, hds⟩ : ∃ ds, ds = flatDecls (beforeSyncpool u d n []) ++ flatDecls afterSyncpool := ⟨_, rfl⟩
  rw [← hds] at hF hΓ ⊢
  unfold beforeSyncpool afterSyncpool fieldsSyncpool at hds
  simp at hd h1 h2
  have hk : Knows Γ [(g!"len", .builtin), (g!"make", .builtin), (g!"panic", .builtin), (n.dec, .type (.decl n.dec))] := by
    rw [hΓ]
    filetypes [Knows, hds, hd, h1, h2]
  have hd1 : find n.dec F.decls = some (.struct [(g!"pool", .chan (.src (lexed d.type)))]) := by
    rw [hF]
    filetypes [hds, hd, h1, h2, hs]
  clear hF
  have hh : Has F (.decl n.dec) [(g!"pool", .chan (.src (lexed d.type)))] := has_struct hd1 (by simp [Go.find])
  have hm := hh.members
  have hm2 := hh.ptr.members
  simp [Typ.string, Typ.int, Typ.error, Typ.uint32, Typ.any, Lib.ctx, Lib.duration, Lib.timeT] at hm hm2
  refine ⟨?_, hk (n.dec, .type (.decl n.dec)) (by simp), fun e he => hk e (by simp only [List.mem_cons, List.not_mem_nil, or_false] at he ⊢ <;> grind), hh⟩
  clear hΓ
  rw [hds]
  simp [Knows] at hk
  typing [Go.find, flatDecls, Decl.flat, Decl.Typed, FuncTyped, flatFields, FieldDecl.flat, FieldDecl.vars, FieldDecl.Typed, mapType, hk, hi, hd1, hm, hm2, hs, hdt, hd, h1, h2, hp, convertible_basic, twirp_assignable]

set_option maxHeartbeats 4000000 in
theorem tfile_Fallback {u : Uni} {d : Inputs} {n : Names} (hd : n.dec ∉ templateNames) (hs : srcVar (lexed d.type) = .src (lexed d.type)) (hdt : dotsToks (lexed d.type) = none)
    {methods : List (Str × Typ)} {F : FileTypes} {Γ : Ctx} (hF : F = fileTypes [(g!"context", g!"context")] (lexed d.type) methods (flatDecls (beforeFallback u d n []) ++ flatDecls afterFallback))
    (hΓ : Γ = fileCtx [(g!"context", g!"context")] F (flatDecls (beforeFallback u d n []) ++ flatDecls afterFallback)) :
    (∀ x ∈ (flatDecls (beforeFallback u d n []) ++ flatDecls afterFallback), x.Typed F Γ) ∧ Γ.see n.dec = some (.type (.decl n.dec)) ∧
      Knows Γ [(g!"nil", .value (.untyped .nil)), (g!"fmt", .pkg g!"fmt"), (g!"errors", .pkg g!"errors"), (g!"strings", .pkg g!"strings"), (g!"time", .pkg g!"time"), (g!"context", .pkg g!"context"), (g!"len", .builtin), (g!"append", .builtin), (g!"make", .builtin), (g!"string", .type (.basic g!"string"))] ∧ Has F (.decl n.dec) [(g!"implementations", .slice (.src (lexed d.type))), (g!"interval", Lib.duration)] := by
  replace hd := fresh_both (a := n.dec) (l := [g!"_", g!"string", g!"nil", g!"append", g!"len", g!"make", g!"apm", g!"context", g!"errors", g!"fmt", g!"strings", g!"time", g!"ctx", g!"err", g!"impls", g!"interval", g!"span", g!"_d", g!"_span", g!"_ticker", g!"_v", g!"_impl", g!"_res", g!"_cancelFunc", g!"cancelFunc", g!"_since", g!"_counter", g!"result"]) hd (by decide)
  have h1 : ¬ n.dec = g!"New" ++ n.dec := length_ne (by simp only [List.length_append, List.length_cons]; omega)
  have h2 : ¬ g!"New" ++ n.dec = n.dec := length_ne (by simp only [List.length_append, List.length_cons]; omega)
  have hi : Γ.inside = [] := by rw [hΓ]; rfl
  have hif : F.iface = lexed d.type := by rw [hF]; rfl
  obtain ⟨ds, hds⟩ : ∃ ds, ds = flatDecls (beforeFallback u d n []) ++ flatDecls afterFallback := ⟨_, rfl⟩
  rw [← hds] at hF hΓ ⊢
  unfold beforeFallback afterFallback fieldsFallback at hds
  simp at hd h1 h2
  have hk : Knows Γ [(g!"errors", .pkg g!"errors"), (g!"fmt", .pkg g!"fmt"), (g!"strings", .pkg g!"strings"), (g!"time", .pkg g!"time"), (g!"context", .pkg g!"context"), (g!"append", .builtin), (g!"len", .builtin), (g!"make", .builtin), (g!"nil", .value (.untyped .nil)), (g!"string", .type (.basic g!"string")), (n.dec, .type (.decl n.dec))] := by
    rw [hΓ]
    filetypes [Knows, hds, hd, h1, h2]
  have hd1 : find n.dec F.decls = some (.struct [(g!"implementations", .slice (.src (lexed d.type))), (g!"interval", Lib.duration)]) := by
    rw [hF]
    filetypes [hds, hd, h1, h2, hs]
  clear hF
  have hh : Has F (.decl n.dec) [(g!"implementations", .slice (.src (lexed d.type))), (g!"interval", Lib.duration)] := has_struct hd1 (by simp [Go.find])
  have hm := hh.members
  have hm2 := hh.ptr.members
  simp [Typ.string, Typ.int, Typ.error, Typ.uint32, Typ.any, Lib.ctx, Lib.duration, Lib.timeT] at hm hm2
  refine ⟨?_, hk (n.dec, .type (.decl n.dec)) (by simp), fun e he => hk e (by simp only [List.mem_cons, List.not_mem_nil, or_false] at he ⊢ <;> grind), hh⟩
  clear hΓ
  rw [hds]
  simp [Knows] at hk
  typing [Go.find, flatDecls, Decl.flat, Decl.Typed, FuncTyped, flatFields, FieldDecl.flat, FieldDecl.vars, FieldDecl.Typed, mapType, hk, hi, hd1, hm, hm2, hs, hdt, hd, h1, h2, convertible_basic, twirp_assignable]

end Gowrap.Tmpl
