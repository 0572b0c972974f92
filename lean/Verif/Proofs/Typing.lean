import Verif.Spec.TypeNames
import Verif.Proofs.Scope
/-!
# The generated functions obey the rules about types
-/

namespace Gowrap.Tmpl

open Gowrap Go Spec

/-- The type of a parameter or result, as a variable. -/
def varTyp (p : Param) : Typ := srcVar (typeToks p.type)

theorem srcTyp_single (l : List Go.Tok) : (srcTyp l).single = true := by
  unfold srcTyp
  split
  · split <;> rfl
  · split <;> rfl
  · rfl

theorem srcVar_single (l : List Go.Tok) : (srcVar l).single = true := by
  unfold srcVar
  split
  · rfl
  · exact srcTyp_single l

theorem varTyp_single (p : Param) : (varTyp p).single = true := srcVar_single _

theorem default_single {t : Typ} (h : t.single = true) : t.default = t := by
  cases t <;> first | rfl | exact nomatch h

theorem varTyp_default (p : Param) : (varTyp p).default = varTyp p := default_single (varTyp_single p)

section
variable {F : FileTypes} {t : Typ}

theorem assignable_refl (h : t.single = true) : t.Assignable F t := by
  cases t <;> first | exact ⟨h, .inl rfl⟩ | exact nomatch h

theorem assignable_any (h : t.single = true) : t.Assignable F (.iface []) := by
  have : t.Implements F (.iface []) := by
    intro e he
    exact nomatch he
  cases t <;> first | exact ⟨h, .inr (.inr (.inl this))⟩ | exact nomatch h

theorem assignable_untyped {k : Konst} : (Typ.untyped k).Assignable F t ↔ t.holds F k := Iff.rfl

end

/-- What a method knows: the receiver, the parameters and results, and the interface. -/
structure BodyOk (F : FileTypes) (Γ : Ctx) (D : Typ) (m : Method) : Prop where
  recv : Γ.see g!"_d" = some (.var D)
  params : ∀ p ∈ m.params, Γ.see p.name = some (.var (varTyp p))
  results : ∀ p ∈ m.results, Γ.see p.name = some (.var (varTyp p)) ∧ p.name ≠ g!"_"
  err : m.returnsError = true → Γ.see g!"err" = some (.var .error)
  ctx : m.acceptsContext = true → Γ.see g!"ctx" = some (.var Lib.ctx) ∧ g!"ctx" ∈ Γ.block
  returns : Γ.results = m.results.map varTyp
  named : Γ.named = true ∨ m.results = []
  distinct : (m.params.map (·.name) ++ m.results.map (·.name)).Nodup
  names : g!"_d" ∉ m.params.map (·.name) ++ m.results.map (·.name)
  block : ∀ x ∈ Γ.block, x = g!"_d" ∨ x ∈ m.params.map (·.name) ++ m.results.map (·.name)
  plain : ∀ p ∈ m.results, p.variadic = false
  variadic : ∀ p ∈ m.params.dropLast, p.variadic = false
  dots : ∀ p ∈ m.params ++ m.results, p.variadic = true ↔ ∃ l, typeToks p.type = .op g!"..." :: l
  /-- the type of the interface -/
  iface : Typ.under F (.src F.iface) = .iface F.methods
  method : find m.name F.methods = some (sourceSig m)

theorem dotsToks_none {l : List Go.Tok} : dotsToks l = none ↔ ¬ ∃ k, l = .op g!"..." :: k := by
  unfold dotsToks
  split
  · rename_i o k
    by_cases h : o = g!"..."
    · subst h
      simp
    · rw [if_neg h]
      simp [h]
  · rename_i h
    simp
    intro k hk
    exact h _ _ hk

theorem dotsToks_some {l k : List Go.Tok} : dotsToks l = some k ↔ l = .op g!"..." :: k := by
  unfold dotsToks
  split
  · rename_i o k'
    by_cases h : o = g!"..."
    · subst h
      simp
    · rw [if_neg h]
      simp [h]
  · rename_i h
    simp
    intro hk
    exact h _ _ hk

section
variable {F : FileTypes} {Γ : Ctx}

theorem typsOf_args {ps : List Param} (h : ∀ p ∈ ps, Γ.see p.name = some (.var (varTyp p))) :
    typsOf F Γ (ps.map argExpr) = ps.map fun p => if p.variadic then .spread (varTyp p) else varTyp p := by
  induction ps with
  | nil => rfl
  | cons p ps ih =>
    have hp := h p (.head _)
    rw [List.map_cons, List.map_cons, ← ih fun q hq => h q (.tail _ hq)]
    unfold argExpr
    split <;> simp [typsOf, Expr.typ, Ctx.typ, hp]

theorem typsOf_ids {ps : List Param} (h : ∀ p ∈ ps, Γ.see p.name = some (.var (varTyp p))) :
    typsOf F Γ (idExprs ps) = ps.map varTyp := by
  unfold idExprs
  induction ps with
  | nil => rfl
  | cons p ps ih =>
    rw [List.map_cons, List.map_cons, ← ih fun q hq => h q (.tail _ hq)]
    simp [typsOf, Expr.typ, Ctx.typ, h p (.head _)]

theorem allTyped_iff {l : List Go.Expr} : allTyped F Γ l ↔ ∀ e ∈ l, e.Typed F Γ := by
  induction l with
  | nil => simp [allTyped]
  | cons e l ih => simp [allTyped, ih]

theorem typed_args {ps : List Param} (h : ∀ p ∈ ps, Γ.see p.name = some (.var (varTyp p))) : allTyped F Γ (ps.map argExpr) := by
  rw [allTyped_iff, List.forall_mem_map]
  intro p hp
  unfold argExpr
  split <;> simp [Expr.Typed, h p hp]

theorem typed_ids {ps : List Param} (h : ∀ p ∈ ps, Γ.see p.name = some (.var (varTyp p))) : allTyped F Γ (idExprs ps) := by
  rw [allTyped_iff]
  unfold idExprs
  rw [List.forall_mem_map]
  intro p hp
  simp [Expr.Typed, h p hp]

/-- The parameters of the method are the arguments of the call. -/
theorem accepts_args {ps : List Param} (hv : ∀ p ∈ ps.dropLast, p.variadic = false)
    (hd : ∀ p ∈ ps, p.variadic = true ↔ ∃ l, typeToks p.type = .op g!"..." :: l) :
    Accepts F (fixedToks (ps.map fun p => typeToks p.type)) (lastToks (ps.map fun p => typeToks p.type))
      (ps.map fun p => if p.variadic then .spread (varTyp p) else varTyp p) := by
  induction ps with
  | nil => simp [fixedToks, lastToks, Accepts]
  | cons p ps ih =>
    have hp := hd p (.head _)
    cases hc : p.variadic
    · rw [hc] at hp
      have h0 : dotsToks (typeToks p.type) = none := dotsToks_none.mpr fun hx => nomatch hp.mpr hx
      simp only [List.map_cons, fixedToks, lastToks, h0, hc, Accepts, if_false, Bool.false_eq_true]
      refine ⟨?_, ih (fun q hq => hv q ?_) fun q hq => hd q (.tail _ hq)⟩
      · unfold varTyp srcVar
        rw [h0]
        exact assignable_refl (srcTyp_single _)
      · cases ps with
        | nil => exact nomatch hq
        | cons q' ps => exact .tail _ hq
    · rw [hc] at hp
      obtain ⟨l, hl⟩ := hp.mp rfl
      have h0 : dotsToks (typeToks p.type) = some l := dotsToks_some.mpr hl
      cases ps with
      | cons q ps => exact nomatch (hv p (.head _)).symm.trans hc
      | nil =>
        simp only [List.map_cons, List.map_nil, fixedToks, lastToks, h0, hc, Accepts, if_true]
        refine .inl ⟨_, rfl, ?_⟩
        unfold varTyp srcVar
        rw [h0]
        exact assignable_refl rfl

end

/-- The fields of a struct, or of the struct that a pointer points to. -/
def Has (F : FileTypes) (t : Typ) (l : List (Str × Typ)) : Prop := ∀ e ∈ l, t.field F e.1 = some e.2

theorem Has.members {F : FileTypes} {t : Typ} {l : List (Str × Typ)} (h : Has F t l) :
    ∀ e ∈ l, t.member F e.1 = e.2 ∧ (∀ b, t.HasMember F e.1 b) ∧ t.field F e.1 = some e.2 := by
  intro e he
  have := h e he
  simp [Typ.member, Typ.HasMember, this]

section
variable {F : FileTypes} {Γ : Ctx} {D : Typ} {m : Method}

theorem find_ofIface {l : List (Str × Typ)} {x : Str} {t : Typ} (h : find x l = some t) :
    (Typ.ofIface l).find? (fun e => decide (e.name = x)) = some ⟨x, false, t⟩ := by
  induction l with
  | nil => exact nomatch h
  | cons a l ih =>
    obtain ⟨y, s⟩ := a
    unfold Go.find at h
    by_cases hx : x = y
    · subst hx
      rw [if_pos rfl] at h
      cases h
      simp [Typ.ofIface]
    · rw [if_neg hx] at h
      have := ih h
      unfold Typ.ofIface at this ⊢
      rw [List.map_cons, List.find?_cons]
      simp [Ne.symm hx, this]

theorem BodyOk.call (h : BodyOk F Γ D m) : (Typ.src F.iface).member F m.name = sourceSig m ∧ ∀ b, (Typ.src F.iface).HasMember F m.name b := by
  have h1 : (Typ.src F.iface).field F m.name = none := by
    unfold Typ.field Typ.base
    rw [h.iface]
  have h2 : (Typ.src F.iface).method F m.name = some ⟨m.name, false, sourceSig m⟩ := by
    unfold Typ.method Typ.methods
    rw [h.iface]
    exact find_ofIface h.method
  simp [Typ.member, Typ.HasMember, h1, h2]

theorem BodyOk.accepts (h : BodyOk F Γ D m) : CallOk F (.func (sourceSig m)) (m.params.map fun p => if p.variadic then .spread (varTyp p) else varTyp p) :=
  accepts_args h.variadic fun p hp => h.dots p (List.mem_append_left _ hp)

theorem srcTyps_results (h : BodyOk F Γ D m) : (m.results.map fun p => srcTyp (typeToks p.type)) = m.results.map varTyp := by
  refine List.map_congr_left fun p hp => ?_
  have h0 : dotsToks (typeToks p.type) = none := dotsToks_none.mpr fun hx => by
    have := (h.dots p (List.mem_append_right _ hp)).mpr hx
    rw [h.plain p hp] at this
    exact nomatch this
  unfold varTyp srcVar
  rw [h0]

/-- The values that the method of the interface returns. -/
theorem BodyOk.values (h : BodyOk F Γ D m) : callTyp F (.func (sourceSig m)) (m.params.map fun p => if p.variadic then .spread (varTyp p) else varTyp p) =
    resultTyp (m.results.map varTyp) := by
  unfold callTyp sourceSig
  simp only [srcTyps_results h, Typ.under]

theorem allAssignable_vars (ps : List Param) : AllAssignable F (ps.map varTyp) (ps.map varTyp) := by
  induction ps with
  | nil => trivial
  | cons p ps ih => exact ⟨assignable_refl (varTyp_single p), ih⟩

theorem varTyp_tuple (p : Param) (ts : List Typ) : varTyp p ≠ .tuple ts := by
  intro h
  have := varTyp_single p
  rw [h] at this
  exact nomatch this

/-- What a single call on the right side stands for. -/
theorem right_call {n : Nat} {f : Go.Expr} {args : List Go.Expr} {b : Bool} {ps : List Param}
    (h : (Go.Expr.call f args b).typ F Γ = resultTyp (ps.map varTyp)) : rightTyps F Γ n [.call f args b] = ps.map varTyp := by
  unfold rightTyps
  have h1 : typsOf F Γ [.call f args b] = [resultTyp (ps.map varTyp)] := by rw [← h]; rfl
  simp only [h1]
  cases ps with
  | nil => rfl
  | cons p ps => cases ps with
    | nil =>
      show (match [varTyp p] with | [Typ.tuple ts] => ts | ts => ts) = _
      cases hv : varTyp p <;> simp_all [resultTyp]
      exact absurd hv (varTyp_tuple p _)
    | cons q ps => rfl

/-- A call of the method of the interface. -/
theorem pass_typed {recv : Go.Expr} (h : BodyOk F Γ D m) {Γ' : Ctx} (hp : ∀ p ∈ m.params, Γ'.see p.name = some (.var (varTyp p)))
    (hr : Γ'.results = m.results.map varTyp) (h1 : (Go.Expr.sel recv m.name).CalleeTyped F Γ')
    (h2 : (Go.Expr.sel recv m.name).callee F Γ' = .func (sourceSig m)) : stmtsTyped F Γ' (passStmts recv m) := by
  have ht : typsOf F Γ' [.many (m.params.map argExpr)] = m.params.map fun p => if p.variadic then .spread (varTyp p) else varTyp p := by
    rw [← typsOf_args (F := F) hp]
    simp [typsOf]
  have hc : (Go.Expr.call (.sel recv m.name) [.many (m.params.map argExpr)] false).Typed F Γ' := by
    simp only [Expr.Typed, h2, ht, allTyped]
    exact ⟨h1, ⟨typed_args hp, trivial⟩, h.accepts⟩
  have hv : (Go.Expr.call (.sel recv m.name) [.many (m.params.map argExpr)] false).typ F Γ' = resultTyp (m.results.map varTyp) := by
    rw [Expr.typ, h2, ht, h.values]
  unfold passStmts
  cases hres : m.hasResults
  · simp only [cond_false, stmtsTyped, Stmt.Typed, Ctx.after, hc, Expr.isStmt, h2, Callee.isStmt, true_and, and_true]
    have : m.results = [] := by simpa [Method.hasResults] using hres
    rw [hr, this]
    exact .inl rfl
  · simp only [cond_true, stmtsTyped, Stmt.Typed, hc, allTyped, true_and, and_true]
    rw [right_call hv, hr]
    exact allAssignable_vars _

theorem callExpr_typed {recv : Go.Expr} (h : BodyOk F Γ D m) {Γ' : Ctx} (hp : ∀ p ∈ m.params, Γ'.see p.name = some (.var (varTyp p)))
    (h1 : (Go.Expr.sel recv m.name).CalleeTyped F Γ')
    (h2 : (Go.Expr.sel recv m.name).callee F Γ' = .func (sourceSig m)) :
    (callExpr recv m).Typed F Γ' ∧ (callExpr recv m).typ F Γ' = resultTyp (m.results.map varTyp) ∧ (callExpr recv m).isStmt F Γ' = true := by
  have ht : typsOf F Γ' [.many (m.params.map argExpr)] = m.params.map fun p => if p.variadic then .spread (varTyp p) else varTyp p := by
    rw [← typsOf_args (F := F) hp]
    simp [typsOf]
  unfold callExpr
  refine ⟨?_, ?_, ?_⟩
  · simp only [Expr.Typed, h2, ht, allTyped]
    exact ⟨h1, ⟨typed_args hp, trivial⟩, h.accepts⟩
  · rw [Expr.typ, h2, ht, h.values]
  · rw [Expr.isStmt, h2]
    rfl

theorem elems_ids {ps : List Param} (h : ∀ p ∈ ps, Γ.see p.name = some (.var (varTyp p))) : elemsOf F Γ (idExprs ps) = ps.map fun p => .one (varTyp p) := by
  unfold idExprs
  induction ps with
  | nil => rfl
  | cons p ps ih =>
    rw [List.map_cons, List.map_cons, ← ih fun q hq => h q (.tail _ hq)]
    simp [elemsOf, Expr.elems, Expr.typ, Ctx.typ, h p (.head _)]

theorem elems_pairs {ps : List Param} (h : ∀ p ∈ ps, Γ.see p.name = some (.var (varTyp p))) :
    elemsOf F Γ (ps.map fun p => .pair (.str p.name) (.id p.name)) = ps.map fun p => .const (.str p.name) (.untyped .string) (varTyp p) := by
  induction ps with
  | nil => rfl
  | cons p ps ih =>
    rw [List.map_cons, List.map_cons, ← ih fun q hq => h q (.tail _ hq)]
    simp [elemsOf, Expr.elems, Expr.typ, Ctx.typ, h p (.head _)]

/-- `map[string]interface{}{...}` -/
theorem map_typed {ps : List Param} (h : ∀ p ∈ ps, Γ.see p.name = some (.var (varTyp p))) (hs : Γ.see g!"string" = some (.type .string))
    (hd : (ps.map (·.name)).Nodup) : (mapExpr ps).Typed F Γ ∧ (mapExpr ps).typ F Γ = .map .string (.iface []) := by
  have ht : mapType.typ Γ = .map .string (.iface []) := by simp [mapType, Ty.typ, hs, methodTyps]
  refine ⟨?_, ?_⟩
  · unfold mapExpr
    simp only [Expr.Typed, ht, elems_pairs h]
    refine ⟨by simp [mapType, Ty.Typed, hs, methodsTyped], ?_, ?_⟩
    · rw [allTyped_iff, List.forall_mem_map]
      intro p hp
      simp [Expr.Typed, h p hp]
    · refine ⟨?_, ?_⟩
      · rw [List.forall_mem_map]
        intro p _
        exact ⟨.inl rfl, assignable_any (varTyp_single p)⟩
      · rw [List.flatMap_map]
        have : (ps.flatMap fun p => (Elem.const (.str p.name) (.untyped .string) (varTyp p)).constants) = (ps.map (·.name)).map Go.Tok.str := by
          clear h hd
          induction ps with
          | nil => rfl
          | cons p ps ih => simp [Elem.constants] at ih ⊢; exact ih
        rw [this]
        exact List.Pairwise.map _ (fun a b hab => by simpa using hab) hd
  · unfold mapExpr
    rw [Expr.typ, ht]

end

end Gowrap.Tmpl
