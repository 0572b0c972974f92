import Verif.Spec.TypeInputs
import Verif.Proofs.TypingBody3
import Verif.Proofs.TypingFallback
import Verif.Proofs.ScopeAll
/-!
# The generated files obey the rules about types
-/

namespace Gowrap.Tmpl

open Gowrap Go Spec

set_option maxRecDepth 100000

section
variable (ty : Ty) (stmts : Method → List Stmt) (ms : List Method)

theorem imports_methods : (ms.map (methodOn ty stmts)).flatMap Decl.importsOf = [] := by
  induction ms with
  | nil => rfl
  | cons m ms ih => simpa [Decl.importsOf, methodOn] using ih

theorem funcs_methods (Γ : Ctx) : (ms.map (methodOn ty stmts)).flatMap (Decl.funcs Γ) = [] := by
  induction ms with
  | nil => rfl
  | cons m ms ih => simpa [Decl.funcs, methodOn] using ih

theorem unders_methods (Γ : Ctx) : (ms.map (methodOn ty stmts)).flatMap (Decl.unders Γ) = [] := by
  induction ms with
  | nil => rfl
  | cons m ms ih => simpa [Decl.unders, methodOn] using ih

theorem vars_methods (F : FileTypes) (Γ : Ctx) : (ms.map (methodOn ty stmts)).flatMap (Decl.fileVars F Γ) = [] := by
  induction ms with
  | nil => rfl
  | cons m ms ih => simpa [Decl.fileVars, methodOn] using ih

variable (added : List (Str × Str)) (pre post : List Go.Decl)

theorem seePackages_methods : seePackages added (pre ++ (ms.map (methodOn ty stmts) ++ post)) = seePackages added (pre ++ post) := by
  unfold seePackages
  simp only [List.flatMap_append, imports_methods, List.nil_append]

theorem seeTypes_methods : seeTypes added (pre ++ (ms.map (methodOn ty stmts) ++ post)) = seeTypes added (pre ++ post) := by
  unfold seeTypes
  simp only [List.flatMap_append, types_methods, List.nil_append, seePackages_methods]

theorem seeFuncs_methods : seeFuncs added (pre ++ (ms.map (methodOn ty stmts) ++ post)) = seeFuncs added (pre ++ post) := by
  unfold seeFuncs typesCtx
  simp only [List.flatMap_append, funcs_methods, List.nil_append, seeTypes_methods]

theorem fileTypes_methods (iface : List Go.Tok) (methods : List (Str × Typ)) :
    fileTypes added iface methods (pre ++ (ms.map (methodOn ty stmts) ++ post)) = fileTypes added iface methods (pre ++ post) := by
  unfold fileTypes typesCtx
  simp only [List.flatMap_append, unders_methods, List.nil_append, seeTypes_methods]

theorem fileCtx_methods (F : FileTypes) : fileCtx added F (pre ++ (ms.map (methodOn ty stmts) ++ post)) = fileCtx added F (pre ++ post) := by
  unfold fileCtx funcsCtx
  simp only [List.flatMap_append, vars_methods, List.nil_append, seeFuncs_methods]

end

/-- The variables that the parameters are. -/
theorem groupVars_params {Γ : Ctx} {ps : List Param} (h : ∀ p ∈ ps, lexed p.type = typeToks p.type) :
    groupVars Γ (paramDecls ps) = ps.map fun p => (p.name, varTyp p) := by
  unfold paramDecls
  induction ps with
  | nil => rfl
  | cons p ps ih =>
    simp only [List.map_cons, groupVars, Ty.typ, List.map_nil, List.cons_append, List.nil_append]
    rw [ih fun q hq => h q (.tail _ hq), h p (.head _)]
    rfl

theorem groupTyps_params {Γ : Ctx} {ps : List Param} (h : ∀ p ∈ ps, lexed p.type = typeToks p.type) :
    groupTyps Γ (paramDecls ps) = ps.map varTyp := by
  unfold paramDecls
  induction ps with
  | nil => rfl
  | cons p ps ih =>
    simp only [List.map_cons, groupTyps, Ty.typ, List.map_nil, List.cons_append, List.nil_append]
    rw [ih fun q hq => h q (.tail _ hq), h p (.head _)]
    rfl

theorem groupsTyped_params {Γ : Ctx} {ps : List Param} (h : Γ.inside = []) : groupsTyped Γ (paramDecls ps) := by
  unfold paramDecls
  induction ps with
  | nil => exact trivial
  | cons p ps ih =>
    refine ⟨?_, ih⟩
    simp [Ty.Typed, h]

/-- The place where the body of a method stands. -/
def bodyCtx (Γ : Ctx) (D : Typ) (m : Method) : Ctx :=
  Γ.enter ((g!"_d", D) :: (m.params ++ m.results).map fun p => (p.name, varTyp p)) (m.results.map varTyp) (!m.results.isEmpty)

/-- The file obeys the rules if its parts do. -/
theorem FileShape.typed {u : Uni} {d : Inputs} {text : Str} {ds pre : List Go.Decl} {ty : Ty} {w : Method → Bool} {stmts : Method → List Stmt}
    {post : List Go.Decl} (hg : GoInputs u d) (h : FileShape u d text ds pre ty w stmts post) (added : List (Str × Str)) {iface : List Go.Tok} {methods : List (Str × Typ)}
    {F : FileTypes} {Γ : Ctx} (hF : F = fileTypes added iface methods (flatDecls pre ++ flatDecls post)) (hΓ : Γ = fileCtx added F (flatDecls pre ++ flatDecls post))
    (h0 : ∀ x ∈ flatDecls pre ++ flatDecls post, x.Typed F Γ) (ht : ty.Typed Γ)
    (h1 : ∀ e ∈ d.methods, w e.2 = true → stmtsTyped F (bodyCtx Γ (ty.typ Γ) e.2) (stmts e.2)) :
    Gives u d text ds ∧ FileTyped added iface methods (flatDecls ds) := by
  obtain ⟨hr, hf⟩ := h
  refine ⟨hr, ?_⟩
  unfold FileTyped
  simp only []
  rw [hf, fileTypes_methods, ← hF, fileCtx_methods, ← hΓ]
  intro x hx
  rw [List.mem_append, List.mem_append] at hx
  rcases hx with hx | hx | hx
  · exact h0 x (List.mem_append_left _ hx)
  · obtain ⟨m, hm, rfl⟩ := List.mem_map.mp hx
    obtain ⟨hm, hw⟩ := List.mem_filter.mp hm
    obtain ⟨e, he, rfl⟩ := mem_sorted.mp hm
    have hi : Γ.inside = [] := by rw [hΓ]; rfl
    have hl : ∀ p ∈ e.2.params ++ e.2.results, lexed p.type = typeToks p.type := fun p hp => (typeToks_eq ((hg.methods e he).2.types p hp)).symm
    refine ⟨ht, groupsTyped_params hi, groupsTyped_params hi, ?_⟩
    have := h1 e he hw
    unfold bodyCtx at this
    simp only [groupVars_params fun p hp => hl p (List.mem_append_left _ hp), groupVars_params fun p hp => hl p (List.mem_append_right _ hp)]
    have hnm : (Results.list (paramDecls e.2.results)).named = !e.2.results.isEmpty := by
      show (!(boundNames (paramDecls e.2.results)).isEmpty) = _
      cases e.2.results <;> rfl
    rw [hnm, show (Results.list (paramDecls e.2.results)).typs Γ = groupTyps Γ (paramDecls e.2.results) from rfl,
      groupTyps_params fun p hp => hl p (List.mem_append_right _ hp)]
    rw [List.map_append] at this
    exact this
  · exact h0 x (List.mem_append_right _ hx)

/-! ## What a method knows -/

theorem vars_see {l : List (Str × Typ)} {x : Str} {Γ : Ctx} (hx : x ∉ l.map (·.1)) : (Γ.addVars l).see x = Γ.see x := by
  induction l generalizing Γ with
  | nil => rfl
  | cons a l ih =>
    obtain ⟨y, t⟩ := a
    simp only [List.map_cons, List.mem_cons, not_or] at hx
    unfold Ctx.addVars
    rw [ih hx.2]
    simp [Ctx.add, hx.1]

theorem vars_mem {l : List (Str × Typ)} {Γ : Ctx} (hd : (l.map (·.1)).Nodup) (hb : g!"_" ∉ l.map (·.1)) {e : Str × Typ} (he : e ∈ l) :
    (Γ.addVars l).see e.1 = some (.var e.2) := by
  induction l generalizing Γ with
  | nil => exact nomatch he
  | cons a l ih =>
    obtain ⟨y, t⟩ := a
    simp only [List.map_cons, List.nodup_cons, List.mem_cons, not_or] at hd hb
    unfold Ctx.addVars
    rcases List.mem_cons.mp he with rfl | he
    · rw [vars_see hd.1]
      simp [Ctx.add, Ne.symm hb.1]
    · exact ih hd.2 hb.2 he

theorem vars_block {l : List (Str × Typ)} {Γ : Ctx} : (Γ.addVars l).block = (l.map (·.1)).reverse ++ Γ.block ∧
    (Γ.addVars l).inside = (l.map (·.1)).reverse ++ Γ.inside := by
  induction l generalizing Γ with
  | nil => exact ⟨rfl, rfl⟩
  | cons a l ih =>
    obtain ⟨y, t⟩ := a
    unfold Ctx.addVars
    rw [ih.1, ih.2]
    simp [Ctx.add]

theorem bodyVars {D : Typ} {m : Method} : (((g!"_d", D) :: (m.params ++ m.results).map fun p => (p.name, varTyp p)).map (·.1)) = g!"_d" :: allNames m := by
  unfold allNames
  simp [Function.comp_def]

theorem bodyCtx_inside {Γ : Ctx} {D : Typ} {m : Method} (h : Γ.inside = []) : ∀ x, x ∈ (bodyCtx Γ D m).inside ↔ x ∈ g!"_d" :: allNames m := by
  intro x
  have := (vars_block (l := (g!"_d", D) :: (m.params ++ m.results).map fun p => (p.name, varTyp p)) (Γ := { Γ with block := [] })).2
  rw [bodyVars] at this
  show x ∈ (Ctx.addVars _ _).inside ↔ _
  rw [this]
  simp [h, or_comm]

/-- The names outside that the method does not hide. -/
theorem Knows.body {Γ : Ctx} {D : Typ} {m : Method} {l : List (Str × Entity)} (h : Knows Γ l) (hn : ∀ e ∈ l, e.1 ∉ g!"_d" :: allNames m) :
    Knows (bodyCtx Γ D m) l := by
  intro e he
  show (Ctx.addVars _ _).see e.1 = _
  rw [vars_see (by rw [bodyVars]; exact hn e he)]
  exact h e he

/-- The types of the methods of the interface. -/
theorem find_method {d : Inputs} {u : Uni} (hg : GoInputs u d) {e : Str × Method} (he : e ∈ d.methods) : find e.2.name (sourceMethods d) = some (sourceSig e.2) := by
  have h1 := hg.distinct
  have h2 := fun e he => (hg.methods e he).1
  unfold sourceMethods
  clear hg
  revert h1 h2 he
  generalize d.methods = l
  intro he h1 h2
  induction l with
  | nil => exact nomatch he
  | cons a l ih =>
    rw [List.map_cons] at h1 ⊢
    unfold Go.find
    rcases List.mem_cons.mp he with rfl | he
    · rw [if_pos rfl]
    · have : e.2.name ≠ a.2.name := by
        rw [← h2 e (.tail _ he), ← h2 a (.head _)]
        exact fun hx => (List.nodup_cons.mp h1).1 (hx ▸ List.mem_map.mpr ⟨e, he, rfl⟩)
      rw [if_neg this]
      exact ih he (List.nodup_cons.mp h1).2 fun e he => h2 e (.tail _ he)

theorem bodyOk {u : Uni} {d : Inputs} (hg : GoInputs u d) {e : Str × Method} (he : e ∈ d.methods) (hn : NamedMethod e.2) {l : Locals}
    (hf : FreshMethod l e.2) (ht : TypedMethod e.2) {F : FileTypes} {Γ : Ctx} (D : Typ) (hF : F.methods = sourceMethods d) :
    BodyOk F (bodyCtx Γ D e.2) D e.2 := by
  have hd : (g!"_d" :: allNames e.2).Nodup := by
    refine List.nodup_cons.mpr ⟨fun hm => ?_, hn.distinct⟩
    obtain ⟨p, hp, he⟩ := mem_allNames hm
    exact hf.names p hp (by simp [he])
  have hb : g!"_" ∉ g!"_d" :: allNames e.2 := by
    intro hm
    rcases List.mem_cons.mp hm with hm | hm
    · exact absurd hm (by decide)
    · obtain ⟨p, hp, he⟩ := mem_allNames hm
      exact hn.blank p hp he
  have hs : ∀ a ∈ (g!"_d", D) :: (e.2.params ++ e.2.results).map fun p => (p.name, varTyp p), (bodyCtx Γ D e.2).see a.1 = some (.var a.2) :=
    fun a ha => vars_mem (by rw [bodyVars]; exact hd) (by rw [bodyVars]; exact hb) ha
  have hp : ∀ p ∈ e.2.params ++ e.2.results, (bodyCtx Γ D e.2).see p.name = some (.var (varTyp p)) :=
    fun p hp => hs (p.name, varTyp p) (.tail _ (List.mem_map.mpr ⟨p, hp, rfl⟩))
  have hbl : ∀ x, x ∈ (bodyCtx Γ D e.2).block ↔ x ∈ g!"_d" :: allNames e.2 := by
    intro x
    have := (vars_block (l := (g!"_d", D) :: (e.2.params ++ e.2.results).map fun p => (p.name, varTyp p)) (Γ := { Γ with block := [] })).1
    rw [bodyVars] at this
    show x ∈ (Ctx.addVars _ _).block ↔ _
    rw [this]
    simp [or_comm]
  have hgm := (hg.methods e he).2
  refine ⟨hs _ (.head _), fun p h => hp p (List.mem_append_left _ h), fun p h => ⟨hp p (List.mem_append_right _ h), hn.blank p (List.mem_append_right _ h)⟩,
    fun hr => ?_, fun hc => ?_, rfl, ?_, hn.distinct, (List.nodup_cons.mp hd).1, fun x hx => ?_, fun p h => hgm.variadic p (List.mem_append_right _ h),
    fun p h => hgm.variadic p (List.mem_append_left _ h), hgm.dots, ?_, ?_⟩
  · obtain ⟨p, h, hx⟩ := hn.err hr
    rw [← hx, hp p (List.mem_append_right _ h)]
    have := ht.err hr p h hx
    unfold varTyp
    rw [this]
    rfl
  · obtain ⟨p, ps, h, hx⟩ := hgm.ctx hc
    obtain ⟨p', ps', h', hx'⟩ := ht.ctx hc
    rw [h] at h'
    cases h'
    have hm : p ∈ e.2.params ++ e.2.results := by rw [h]; exact .head _
    refine ⟨?_, (hbl _).mpr (.tail _ ?_)⟩
    · rw [← hx, hp p hm]
      unfold varTyp
      rw [hx']
      rfl
    · unfold allNames
      rw [← List.map_append]
      exact List.mem_map.mpr ⟨p, hm, hx⟩
  · cases h : e.2.results with
    | nil => exact .inr rfl
    | cons p ps => left; unfold bodyCtx; rw [h]; rfl
  · exact List.mem_cons.mp ((hbl x).mp hx)
  · simp [Typ.under]
  · rw [hF]
    exact find_method hg he

/-- The names that the bodies refer to are not hidden. -/
theorem not_hidden {m : Method} {l : Locals} (hg : GoMethod m) (hf : FreshMethod l m) {x : Str} (hx : x ∈ [g!"nil", g!"true", g!"false"] ++ l.names)
    (hd : x ≠ g!"_d") : x ∉ g!"_d" :: allNames m := by
  intro hm
  rcases List.mem_cons.mp hm with hm | hm
  · exact hd hm
  · obtain ⟨p, hp, rfl⟩ := mem_allNames hm
    rcases List.mem_append.mp hx with hx | hx
    · exact hg.plain p hp hx
    · exact hf.names p hp (.tail _ hx)

/-- The type of the interface. -/
theorem srcVar_iface {d : Inputs} {b : Builtin} {l : Locals} (h : TypedInputs d b l) : srcVar (typeToks d.type) = .src (typeToks d.type) ∧ dotsToks (typeToks d.type) = none := by
  obtain ⟨⟨x, k, hx⟩, h1, h2⟩ := h.type
  have hd : dotsToks (typeToks d.type) = none := by rw [hx]; rfl
  refine ⟨?_, hd⟩
  unfold srcVar
  rw [hd]
  simp only []
  unfold srcTyp
  split
  · rename_i y hy
    rw [hy] at h1
    rw [if_neg fun e => h1 (by rw [e]), hy]
  · rename_i p o y hy
    rw [hy] at h2
    rw [if_neg fun e => h2 (by rw [e.1, e.2.1, e.2.2]), hy]
  · rfl

/-- The fields are also those of a pointer. -/
theorem Has.ptr {F : FileTypes} {x : Str} {l : List (Str × Typ)} (h : Has F (.decl x) l) : Has F (.ptr (.decl x)) l := h

theorem has_struct {F : FileTypes} {x : Str} {fs l : List (Str × Typ)} (h : find x F.decls = some (.struct fs)) (hl : ∀ e ∈ l, find e.1 fs = some e.2) :
    Has F (.decl x) l := by
  intro e he
  simp only [Typ.field, Typ.base, Typ.under, h]
  exact hl e he

end Gowrap.Tmpl
