import Verif.Proofs.TypingBody
/-!
# The body of the methods that templates/fallback generates
-/

namespace Gowrap.Tmpl

open Gowrap Go Spec

set_option maxRecDepth 100000
set_option linter.unusedSimpArgs false
set_option linter.unusedVariables false

variable {F : FileTypes} {Γ : Ctx} {D : Typ} {m : Method}

/-- The fields of `_resultStruct`. -/
def resFields (m : Method) : List (Str × Typ) := m.results.map fun p => (p.name, varTyp p)

/-- The type `_resultStruct`. -/
def resTyp (m : Method) : Typ := .inner g!"_resultStruct" (.struct (resFields m))

theorem find_fields {ps : List Param} (hd : (ps.map (·.name)).Nodup) : ∀ p ∈ ps, find p.name (ps.map fun p => (p.name, varTyp p)) = some (varTyp p) := by
  induction ps with
  | nil => exact nofun
  | cons q ps ih =>
    intro p hp
    rw [List.map_cons, List.nodup_cons] at hd
    cases hp with
    | head => simp [find]
    | tail _ hp =>
      have : ¬ p.name = q.name := fun e => hd.1 (e ▸ List.mem_map.mpr ⟨p, hp, rfl⟩)
      simp only [find, List.map_cons, this, if_false] at ih ⊢
      simpa [find, this] using ih hd.2 p hp

/-- The fields of `_res`. -/
theorem res_members (h : BodyOk F Γ D m) : ∀ p ∈ m.results, Typ.member F (resTyp m) p.name = varTyp p ∧ ∀ a, Typ.HasMember F (resTyp m) p.name a := by
  intro p hp
  have hf : Typ.field F (resTyp m) p.name = some (varTyp p) := find_fields h.keys.2 p hp
  refine ⟨?_, fun a => ?_⟩
  · unfold Typ.member; rw [hf]
  · unfold Typ.HasMember; rw [hf]; trivial

theorem addVars_see {ps : List Param} {x : Str} {Γ' : Ctx} (hx : x ∉ ps.map (·.name)) :
    (Γ'.addVars (ps.map fun p => (p.name, varTyp p))).see x = Γ'.see x := by
  induction ps generalizing Γ' with
  | nil => rfl
  | cons p ps ih =>
    simp only [List.map_cons, List.mem_cons, not_or] at hx
    rw [List.map_cons, Ctx.addVars, ih hx.2]
    simp [Ctx.add, hx.1]

theorem addVars_vars {ps : List Param} {Γ' : Ctx} (hd : (ps.map (·.name)).Nodup) (hn : ∀ p ∈ ps, p.name ≠ g!"_") :
    ∀ p ∈ ps, (Γ'.addVars (ps.map fun p => (p.name, varTyp p))).see p.name = some (.var (varTyp p)) := by
  induction ps generalizing Γ' with
  | nil => exact nofun
  | cons q ps ih =>
    intro p hp
    rw [List.map_cons, List.nodup_cons] at hd
    rw [List.map_cons, Ctx.addVars]
    cases hp with
    | head => rw [addVars_see hd.1]; simp [Ctx.add, hn q (.head _)]
    | tail _ hp => exact ih hd.2 (fun r hr => hn r (.tail _ hr)) p hp

theorem idNames_many (ps : List Param) : Go.idNames [.many (idExprs ps)] = ps.map (·.name) := by
  have : ∀ ps : List Param, Go.idNames (idExprs ps) = ps.map (·.name) := by
    intro ps
    induction ps with
    | nil => rfl
    | cons p ps ih => unfold idExprs at ih ⊢; simp [Go.idNames, Go.Expr.idNames, ih]
  simp [Go.idNames, Go.Expr.idNames, this]

theorem defines_new {block : List Str} {ps : List Param} (hb : Γ.block = block) (hx : ∀ p ∈ ps, p.name ∉ block) :
    Defines F Γ (ps.map (·.name)) (ps.map varTyp) ∧ newVars block (ps.map (·.name)) (ps.map varTyp) = ps.map fun p => (p.name, varTyp p) := by
  induction ps with
  | nil => exact ⟨trivial, rfl⟩
  | cons p ps ih =>
    have := ih fun q hq => hx q (.tail _ hq)
    have hp := hx p (.head _)
    refine ⟨⟨?_, this.1⟩, ?_⟩
    · rw [hb]
      simp [hp, varTyp_default, varTyp_single]
    · simp only [List.map_cons, newVars, this.2, hp, if_false, varTyp_default, List.singleton_append]

/-- The results are declared. -/
theorem define_call {recv : Go.Expr} (h : BodyOk F Γ D m) {Γ' : Ctx} (hp : ∀ p ∈ m.params, Γ'.see p.name = some (.var (varTyp p)))
    (hb : ∀ p ∈ m.results, p.name ∉ Γ'.block) (h1 : (Go.Expr.sel recv m.name).CalleeTyped F Γ')
    (h2 : (Go.Expr.sel recv m.name).callee F Γ' = .func (sourceSig m)) :
    (Stmt.define [.many (idExprs m.results)] [callExpr recv m]).Typed F Γ' ∧
      Ctx.after F Γ' (Stmt.define [.many (idExprs m.results)] [callExpr recv m]) = Γ'.addVars (m.results.map fun p => (p.name, varTyp p)) := by
  have hc := callExpr_typed h hp h1 h2
  have hr : ∀ n, rightTyps F Γ' n [callExpr recv m] = m.results.map varTyp := by
    intro n
    have := hc.2.1
    rw [show callExpr recv m = .call (.sel recv m.name) [.many (m.params.map argExpr)] false from rfl] at this ⊢
    exact right_call this
  have hd := defines_new (F := F) (Γ := Γ') rfl hb
  refine ⟨⟨⟨hc.1, trivial⟩, ?_⟩, ?_⟩
  · rw [hr, idNames_many]
    exact hd.1
  · rw [Ctx.after, hr, idNames_many, hd.2]

theorem plain_elems (ps : List Param) : PlainElems F (ps.map fun p => (p.name, varTyp p)) (ps.map fun p => .one (varTyp p)) := by
  induction ps with
  | nil => trivial
  | cons p ps ih => exact ⟨assignable_refl (varTyp_single p), ih⟩

/-- `_resultStruct{results}` -/
theorem res_lit {Γ' : Ctx} (hs : Γ'.see g!"_resultStruct" = some (.type (resTyp m))) (hp : ∀ p ∈ m.results, Γ'.see p.name = some (.var (varTyp p))) :
    (Go.Expr.lit (.name g!"_resultStruct") [.many (idExprs m.results)] false).Typed F Γ' ∧
      (Go.Expr.lit (.name g!"_resultStruct") [.many (idExprs m.results)] false).typ F Γ' = resTyp m := by
  refine ⟨⟨?_, ⟨typed_ids hp, trivial⟩, ?_⟩, ?_⟩
  · simp [Ty.Typed, hs]
  · rw [elemsOf, Expr.elems, elems_ids hp]
    simp only [elemsOf, List.append_nil, Ty.typ, hs]
    exact .inr (plain_elems _)
  · simp [Expr.typ, Ty.typ, hs]

theorem childStmts_typed (h : BodyOk F Γ D m) {Γ' : Ctx} (hn : Unused [g!"_impl", g!"_ch", g!"_resultStruct", g!"nil", g!"fmt"] (allNames m))
    (hp : ∀ p ∈ m.params, Γ'.see p.name = some (.var (varTyp p)))
    (hv : Knows Γ' [(g!"_impl", .var (.src F.iface)), (g!"_ch", .var (.chan (resTyp m))), (g!"_resultStruct", .type (resTyp m)), (g!"nil", .value (.untyped .nil)),
      (g!"fmt", .pkg g!"fmt")])
    (hb : Γ'.block = [g!"_impl"]) (he : m.returnsError = true → g!"err" ∈ m.results.map (·.name) ∧ Γ.see g!"err" = some (.var .error))
    (hctx : m.acceptsContext = true → Γ'.see g!"ctx" = some (.var Lib.ctx) ∧ g!"ctx" ∈ m.params.map (·.name)) :
    stmtsTyped F Γ' (childStmts m) := by
  have ha := h.apart hn
  have hc := h.call
  have hr := h.results
  simp [Knows] at hv ha
  have hdef := define_call (recv := .id g!"_impl") h (Γ' := Γ') hp (fun p hq => by rw [hb]; simpa using (ha.2 p hq).1)
    (by typing [hv, hc]) (by typing [hv, hc])
  have hcall := callExpr_typed (recv := .id g!"_impl") h (Γ' := Γ') hp (by typing [hv, hc]) (by typing [hv, hc])
  have hin := addVars_vars (Γ' := Γ') h.keys.2 fun p hq => (hr p hq).2
  have hout := fun x hx => addVars_see (Γ' := Γ') (ps := m.results) (x := x) hx
  have hun : ∀ x ∈ [g!"_impl", g!"_ch", g!"_resultStruct", g!"nil", g!"fmt"], x ∉ m.results.map (·.name) :=
    fun x hx hm => hn x hx (List.mem_append_right _ hm)
  simp only [List.forall_mem_cons] at hun
  have herr : m.returnsError = true → (Γ'.addVars (m.results.map fun p => (p.name, varTyp p))).see g!"err" = some (.var .error) := by
    intro h0
    obtain ⟨hm, hs⟩ := he h0
    obtain ⟨p, hq, hpe⟩ := List.mem_map.mp hm
    have := hin p hq
    rw [hpe] at this
    rw [this]
    have := (hr p hq).1
    rw [hpe, hs] at this
    simpa using this.symm
  have hct : m.acceptsContext = true → (Γ'.addVars (m.results.map fun p => (p.name, varTyp p))).see g!"ctx" = some (.var Lib.ctx) := by
    intro h0
    obtain ⟨hs, hm⟩ := hctx h0
    rw [hout _ fun hm' => ?_, hs]
    obtain ⟨p, hq, hpe⟩ := List.mem_map.mp hm
    exact (List.nodup_append.mp h.distinct).2.2 _ hm _ hm' rfl
  have hlit := fun (Γ₂ : Ctx) (h2 : Γ₂.see = (Γ'.addVars (m.results.map fun p => (p.name, varTyp p))).see) =>
    res_lit (F := F) (m := m) (Γ' := Γ₂) (by rw [h2, hout _ hun.2.2.1]; exact hv.2.2.1) (h2 ▸ hin)
  generalize hG : Γ'.addVars (m.results.map fun p => (p.name, varTyp p)) = Γ₁ at *
  have hv1 : Γ₁.see g!"_impl" = some (.var (.src F.iface)) := by rw [hout _ hun.1]; exact hv.1
  have hv2 : Γ₁.see g!"_ch" = some (.var (.chan (resTyp m))) := by rw [hout _ hun.2.1]; exact hv.2.1
  have hv3 : Γ₁.see g!"nil" = some (.value (.untyped .nil)) := by rw [hout _ hun.2.2.2.1]; exact hv.2.2.2.1
  have hv4 : Γ₁.see g!"fmt" = some (.pkg g!"fmt") := by rw [hout _ hun.2.2.2.2.1]; exact hv.2.2.2.2
  have hsend : ∀ Γ₂ : Ctx, Γ₂.see = Γ₁.see → (sendChS m).Typed F Γ₂ := by
    intro Γ₂ h2
    unfold sendChS
    refine ⟨?_, (hlit Γ₂ h2).1, resTyp m, ?_, ?_⟩
    · typing [h2, hv2]
    · typing [h2, hv2]
    · rw [(hlit Γ₂ h2).2]; exact assignable_refl rfl
  have hrest : stmtsTyped F Γ₁ (wrapStmts m ++ [sendStmt m]) := by
    unfold wrapStmts sendStmt doneS
    cases h1 : m.returnsError <;> cases h2 : m.acceptsContext <;> simp [h1, h2] at herr hct ⊢ <;>
      typing [hv1, hv2, hv3, hv4, herr, hct, hsend]
  unfold childStmts implStmts
  cases h0 : m.hasResults
  · have hnil : m.results = [] := by simpa [Method.hasResults] using h0
    have : Γ₁ = Γ' := by rw [← hG, hnil]; rfl
    rw [this] at hrest
    exact ⟨⟨hcall.1, hcall.2.2⟩, hrest⟩
  · exact ⟨hdef.1, hdef.2 ▸ hrest⟩

theorem typsOf_res {Γ' : Ctx} {ps : List Param} (hs : Γ'.see g!"_res" = some (.var (resTyp m)))
    (hp : ∀ p ∈ ps, Typ.member F (resTyp m) p.name = varTyp p ∧ ∀ a, Typ.HasMember F (resTyp m) p.name a) :
    typsOf F Γ' (resExprs ps) = ps.map varTyp ∧ allTyped F Γ' (resExprs ps) := by
  unfold resExprs
  induction ps with
  | nil => exact ⟨rfl, trivial⟩
  | cons p ps ih =>
    have := ih fun q hq => hp q (.tail _ hq)
    have h0 := hp p (.head _)
    refine ⟨?_, ?_, this.2⟩
    · rw [List.map_cons, List.map_cons, ← this.1]
      simp [typsOf, Expr.typ, Ctx.selected, Ctx.typ, hs, h0]
    · simp [Expr.Typed, Ctx.Selects, hs, h0]

/-- `return _res.a, _res.b` -/
theorem ret_res (h : BodyOk F Γ D m) {Γ' : Ctx} (hs : Γ'.see g!"_res" = some (.var (resTyp m))) (hr : Γ'.results = m.results.map varTyp) :
    (Stmt.ret [.many (resExprs m.results)]).Typed F Γ' := by
  have h0 := typsOf_res (F := F) (Γ' := Γ') hs (res_members h)
  refine ⟨h0.2, trivial, ?_⟩
  have : rightTyps F Γ' 1 [.many (resExprs m.results)] = m.results.map varTyp := by
    have h1 : typsOf F Γ' [.many (resExprs m.results)] = m.results.map varTyp := by rw [← h0.1]; simp [typsOf]
    unfold rightTyps
    simp only [h1]
    cases m.results with
    | nil => rfl
    | cons p ps => cases ps with
      | nil =>
        show (match [varTyp p] with | [Typ.tuple ts] => ts | ts => ts) = _
        cases hv : varTyp p <;> simp_all
        exact absurd hv (varTyp_tuple p _)
      | cons q ps =>
        rw [List.map_cons, List.map_cons]
        cases varTyp p <;> rfl
  rw [this, hr]
  exact allAssignable_vars _

theorem awaitStmts_typed (h : BodyOk F Γ D m) {Γ' : Ctx}
    (hd : Γ'.see g!"_d" = some (.var D))
    (hv : Knows Γ' [(g!"_ch", .var (.chan (resTyp m))), (g!"_next", .var (.chan (.struct []))), (g!"nil", .value (.untyped .nil)), (g!"fmt", .pkg g!"fmt"),
      (g!"errors", .pkg g!"errors"), (g!"strings", .pkg g!"strings"), (g!"len", .builtin), (g!"append", .builtin)])
    (hl : m.returnsError = true → Γ'.see g!"_errorsList" = some (.var (.slice .string)))
    (hb : g!"_res" ∉ Γ'.block) (hr : Γ'.results = m.results.map varTyp) (hn : m.results = [] ∨ Γ'.named = true)
    (he : m.returnsError = true → Γ'.see g!"err" = some (.var .error) ∧ Γ.see g!"err" = some (.var .error) ∧ g!"err" ∈ m.results.map (·.name))
    (hctx : m.acceptsContext = true → Γ'.see g!"ctx" = some (.var Lib.ctx))
    (hf : Has F D [(g!"implementations", .slice (.src F.iface))]) :
    stmtsTyped F Γ' (awaitStmts m) := by
  have hf := hf.members
  simp [Knows] at hf hv
  have hm : m.returnsError = true → Typ.member F (resTyp m) g!"err" = .error ∧ ∀ a, Typ.HasMember F (resTyp m) g!"err" a := by
    intro h0
    obtain ⟨_, h1, h2⟩ := he h0
    obtain ⟨p, hq, hpe⟩ := List.mem_map.mp h2
    have h3 := (h.results p hq).1
    rw [hpe, h1] at h3
    have h4 := res_members h p hq
    rw [hpe] at h4
    refine ⟨h4.1.trans ?_, h4.2⟩
    simpa using h3.symm
  have hhas : m.returnsError = true → m.hasResults = true := by
    intro h0
    obtain ⟨_, h1, h2⟩ := he h0
    cases hres : m.results with
    | nil => rw [hres] at h2; exact nomatch h2
    | cons _ _ => simp [Method.hasResults, hres]
  have hempty : m.hasResults = false → m.results = [] := by
    intro h0
    simpa [Method.hasResults] using h0
  have hret := fun (Γ₂ : Ctx) a b => ret_res h (Γ' := Γ₂) a b
  have hsg : (resTyp m).single = true ∧ (resTyp m).default = resTyp m := ⟨rfl, rfl⟩
  have hrr : (Stmt.ret [.many (resExprs m.results)]) = (Stmt.ret [.many (resExprs m.results)]) := rfl
  obtain ⟨rs, hrs, haf⟩ : ∃ rs, rs = Stmt.ret [.many (resExprs m.results)] ∧ ∀ Γ' : Ctx, Ctx.after F Γ' rs = Γ' := ⟨_, rfl, fun _ => rfl⟩
  have hgot : ∀ Γ₂ : Ctx, (∀ x, x ≠ g!"_res" → Γ₂.see x = Γ'.see x) → (m.hasResults = true → Γ₂.see g!"_res" = some (.var (resTyp m))) → Γ₂.results = Γ'.results →
      Γ₂.named = Γ'.named → stmtsTyped F Γ₂ (gotStmts m) := by
    intro Γ₂ ha h2 h3 h4
    unfold gotStmts joinE countE
    simp only [← hrs] at hret ⊢
    cases h1 : m.returnsError
    · simp [h1] at hhas ⊢
      cases h0 : m.hasResults
      · simp [h0] at hempty ⊢
        typing [h3, hr, hempty]
      · simp [h0] at h2 ⊢
        typing [hret, h2, h3, hr]
    · have h5 := hhas h1
      simp [h5] at h2
      simp [h1] at hm hl he ⊢
      typing [ha, hv, hf, hd, he, h3, h4, hr, hn, h2, hm, hl, hret, haf, error_members]
  have hdone : ∀ Γ₂ : Ctx, m.acceptsContext = true → (∀ x, Γ₂.see x = Γ'.see x) → Γ₂.results = Γ'.results → Γ₂.named = Γ'.named →
      doneS.Typed F Γ₂ ∧ stmtsTyped F Γ₂ (doneStmts m) := by
    intro Γ₂ hac ha h3 h4
    simp [hac] at hctx
    unfold doneS doneStmts joinE
    cases h1 : m.returnsError <;> simp [h1] at hl he ⊢ <;> typing [ha, hv, hl, he, hr, hn, hctx, h3, h4]
  have hafd : ∀ Γ₂ : Ctx, Ctx.after F Γ₂ doneS = Γ₂ := fun _ => rfl
  obtain ⟨U, hU⟩ : ∃ U, resTyp m = .inner g!"_resultStruct" U := ⟨_, rfl⟩
  rw [hU] at hv hm hgot hsg
  simp only [hU] at hret
  clear hU
  unfold awaitStmts recvS
  simp only [← hrs] at hret ⊢
  cases h1 : m.returnsError <;> cases h2 : m.acceptsContext <;> cases h3 : m.hasResults <;>
    simp [h1, h2, h3] at hhas hempty hdone hgot hm hl ⊢
  all_goals try typing [hv, hb, hr, hret, hsg, haf, hgot, hdone, hafd, hempty, hm, hl, error_members]

/-- The names that the method declares. -/
def fallbackLocals : List Str := [g!"_resultStruct", g!"_ch", g!"_next", g!"_errorsList", g!"_ticker", g!"_cancelFunc", g!"_i"]

theorem resultsTy_typ {ps : List Param} (hl : ∀ p ∈ ps, lexed p.type = typeToks p.type) :
    Ty.typ Γ (.part (resultsTy ps)) = .struct (ps.map fun p => (p.name, varTyp p)) := by
  have : groupVars Γ (paramDecls ps) = ps.map fun p => (p.name, varTyp p) := by
    unfold paramDecls
    induction ps with
    | nil => rfl
    | cons p ps ih =>
      have h0 := ih fun q hq => hl q (.tail _ hq)
      rw [List.map_cons, List.map_cons, ← h0]
      simp [groupVars, Ty.typ, hl p (.head _), varTyp]
  unfold resultsTy
  cases ps with
  | nil => rfl
  | cons p ps => simpa [Ty.typ, resultsStructType] using this

theorem resultsTy_typed {ps : List Param} (hl : ∀ p ∈ ps, ∀ x ∈ Γ.inside, .word x ∉ lexed p.type) : Ty.Typed Γ (.part (resultsTy ps)) := by
  have : groupsTyped Γ (paramDecls ps) := by
    unfold paramDecls
    induction ps with
    | nil => exact trivial
    | cons p ps ih => exact ⟨hl p (.head _), ih fun q hq => hl q (.tail _ hq)⟩
  unfold resultsTy
  cases ps with
  | nil => exact trivial
  | cons p ps => exact this

theorem launcher_typed (type : Str) (h : BodyOk F Γ D m) {Γ' : Ctx}
    (hn : Unused [g!"_impl", g!"_ch", g!"_resultStruct", g!"nil", g!"fmt", g!"_i"] (allNames m))
    (hp : ∀ p ∈ m.params, Γ'.see p.name = some (.var (varTyp p))) (hd : Γ'.see g!"_d" = some (.var D))
    (hv : Knows Γ' [(g!"_ch", .var (.chan (resTyp m))), (g!"_resultStruct", .type (resTyp m)), (g!"nil", .value (.untyped .nil)), (g!"fmt", .pkg g!"fmt"),
      (g!"_next", .var (.chan (.struct []))), (g!"_ticker", .var (.ptr (.lib g!"time" g!"Ticker"))), (g!"len", .builtin)])
    (hf : Has F D [(g!"implementations", .slice (.src F.iface)), (g!"interval", Lib.duration)])
    (hty : srcVar (lexed type) = .src F.iface) (hdt : dotsToks (lexed type) = none) (hit : ∀ x ∈ g!"_i" :: Γ'.inside, .word x ∉ lexed type)
    (he : m.returnsError = true → g!"err" ∈ m.results.map (·.name)) (hx : m.acceptsContext = true → Γ'.see g!"ctx" = some (.var Lib.ctx) ∧ g!"ctx" ∈ m.params.map (·.name)) :
    (Stmt.go (.call (.fn [] .none (launcherStmts type m)) [] false)).Typed F Γ' := by
  have ha := h.apart hn
  have hf := hf.members
  simp [Knows] at hf ha hv
  have hunC : Unused [g!"_impl", g!"_ch", g!"_resultStruct", g!"nil", g!"fmt"] (allNames m) := fun x hx' => hn x (by revert hx'; revert x; decide)
  have hchild := fun (Γ' : Ctx) a b c => childStmts_typed h (Γ' := Γ') hunC a b c (fun h0 => ⟨he h0, h.err h0⟩)
  unfold launcherStmts launchBody countE
  generalize childStmts m = cs at *
  simp at hit
  typing [hv, hf, hd, hty, hdt, hit]
  refine hchild _ ?_ ?_ ?_ ?_
  · typing [hp, ha]
  · typing [Knows, hv, hty]
  · typing []
  · intro h0
    refine ⟨?_, (hx h0).2⟩
    typing [(hx h0).1]

set_option maxHeartbeats 4000000 in
theorem fallback_typed (type : Str) (h : BodyOk F Γ D m)
    (hn : Unused ([g!"_impl", g!"_res", g!"nil", g!"fmt", g!"errors", g!"strings", g!"time", g!"context", g!"len", g!"append", g!"make", g!"string"] ++ fallbackLocals) (allNames m))
    (hv : Knows Γ [(g!"nil", .value (.untyped .nil)), (g!"fmt", .pkg g!"fmt"), (g!"errors", .pkg g!"errors"), (g!"strings", .pkg g!"strings"), (g!"time", .pkg g!"time"),
      (g!"context", .pkg g!"context"), (g!"len", .builtin), (g!"append", .builtin), (g!"make", .builtin), (g!"string", .type .string)])
    (hf : Has F D [(g!"implementations", .slice (.src F.iface)), (g!"interval", Lib.duration)])
    (hlex : ∀ p ∈ m.results, lexed p.type = typeToks p.type) (hty : srcVar (lexed type) = .src F.iface) (hdt : dotsToks (lexed type) = none)
    (hin : ∀ p ∈ m.results, ∀ x ∈ Γ.inside, .word x ∉ lexed p.type) (hit : ∀ x ∈ fallbackLocals ++ Γ.inside, .word x ∉ lexed type)
    (he : m.returnsError = true → g!"err" ∈ m.results.map (·.name)) (hx : m.acceptsContext = true → g!"ctx" ∈ m.params.map (·.name)) :
    stmtsTyped F Γ (fallbackStmts type m) := by
  have hp := h.params
  have herr := h.err
  have hctx := h.ctx
  have hd := h.recv
  have ha := h.apart hn
  have hb := h.fresh hn (by decide)
  have hres := h.returns
  have hbare := h.bare
  have hf0 := hf
  have hf := hf.members
  have hit0 : ∀ a ∈ Γ.inside, .word a ∉ lexed type := fun a ha => hit a (List.mem_append_right _ ha)
  have hrt := resultsTy_typ (Γ := Γ) hlex
  have hrT := resultsTy_typed hin
  simp [Knows, fallbackLocals] at hf ha hb hv
  have hunL : Unused [g!"_impl", g!"_ch", g!"_resultStruct", g!"nil", g!"fmt", g!"_i"] (allNames m) := fun x hx' => hn x (by revert hx'; revert x; decide)
  have hlaunch := fun (Γ' : Ctx) a b c d e => launcher_typed type h (Γ' := Γ') hunL a b c hf0 hty hdt d he e
  have hawait := fun (Γ' : Ctx) a b c d e f g i => awaitStmts_typed h (Γ' := Γ') a b c d e f g i (fun e he => hf0 e (by revert he; revert e; simp))
  obtain ⟨gs, hgs, haf⟩ : ∃ gs, gs = Stmt.go (.call (.fn [] .none (launcherStmts type m)) [] false) ∧ ∀ Γ' : Ctx, Ctx.after F Γ' gs = Γ' := ⟨_, rfl, fun _ => rfl⟩
  unfold fallbackStmts countE
  simp only [← hgs] at hlaunch ⊢
  generalize awaitStmts m = as at *
  have hrT' : ∃ rt, Ty.part (resultsTy m.results) = rt ∧ rt.typ Γ = .struct (resFields m) ∧ rt.Typed Γ := ⟨_, rfl, hrt, hrT⟩
  obtain ⟨rt, hrt0, hrt1, hrt2⟩ := hrT'
  rw [hrt0]
  cases h1 : m.returnsError <;> cases h2 : m.acceptsContext <;> simp [h1, h2] at he hx herr hctx ⊢
  all_goals typing [hv, hf, hb, hd, hrt1, hrt2, hctx, haf]
  all_goals refine ⟨hlaunch _ ?_ ?_ ?_ ?_ ?_, hawait _ ?_ ?_ ?_ ?_ ?_ ?_ ?_ ?_⟩
  all_goals simp +contextual [Knows, hv, hp, ha, hd, herr, hctx, he, hx, resTyp, h1, h2, hb, hres, hbare, Typ.string, Lib.ctx]
  all_goals simp [fallbackLocals] at hit
  all_goals (simp [hit]; exact hit0)

end Gowrap.Tmpl
