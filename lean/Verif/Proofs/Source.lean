import Verif.Proofs.TmplDecls
import Verif.Proofs.Methods
/-!
# The methods of a generated file
-/

namespace Gowrap.Tmpl

open Gowrap Go Spec

/-- The tokens of a type do not depend on the text around it. -/
theorem typeToks_eq {s : Str} (h : TypeSource s) : typeToks s = lexed s := by
  obtain ⟨hm, ht, hs⟩ := typeText_of h false
  have hf : (State.run ⟨.start, false, []⟩ s).flush.mode = .start := by
    rcases hm with hm | ⟨acc, hm⟩
    · unfold State.flush
      rw [hm]
      simp [hm]
    · unfold State.flush
      rw [hm]
  have htok : tokens s = some (lexed s ++ [.op g!";"]) := by
    unfold tokens
    generalize (State.run ⟨.start, false, []⟩ s).flush = r at hf ht hs
    obtain ⟨m, sm, t⟩ := r
    simp only at hf ht hs
    subst hf ht hs
    simp
  unfold typeToks
  rw [htok]
  simp

theorem groupParams_decls {ps : List Param} (h : ∀ p ∈ ps, TypeSource p.type) :
    groupParams (paramDecls ps) = ps.map (fun p => (p.name, typeToks p.type)) := by
  induction ps with
  | nil => rfl
  | cons p ps ih =>
    show [(p.name, (Ty.toks (lexed p.type)).put [])] ++ groupParams (paramDecls ps) = _
    rw [ih fun q hq => h q (List.mem_cons_of_mem _ hq)]
    simp [Ty.put, typeToks_eq (h p (by simp))]

theorem flatDecls_append (a b : List Go.Decl) : flatDecls (a ++ b) = flatDecls a ++ flatDecls b := by
  induction a with
  | nil => rfl
  | cons x a ih => simp [flatDecls, ih]

theorem methodsOf_append (t : Str) (a b : List Go.Decl) : methodsOf t (a ++ b) = methodsOf t a ++ methodsOf t b := by
  simp [methodsOf, flatDecls_append]

theorem sorted_nodup {u : Uni} {d : Inputs} (h : GoInputs u d) : (d.sorted.map (·.name)).Nodup := by
  have hk : d.methods.map (fun e => e.2.name) = d.methods.map (·.1) :=
    List.map_congr_left fun e he => ((h.methods e he).1).symm
  have hp : (d.sorted.map (·.name)).Perm (d.methods.map (·.1)) := by
    rw [← hk]
    unfold Inputs.sorted
    rw [List.map_map]
    exact (sortBy_perm _ d.methods).map _
  exact hp.nodup_iff.mpr h.distinct

/-- The declaration of a method. -/
def methodOn (ty : Ty) (stmts : Method → List Stmt) (m : Method) : Go.Decl :=
  .method g!"_d" ty m.name (paramDecls m.params) (paramDecls m.results) (stmts m)

theorem methodsOf_which {ty : Ty} {dec : Str} (hty : ty.receiver = some dec) (stmts : Method → List Stmt) (w : Method → Bool)
    (ms : List Method) :
    methodsOf dec (ms.flatMap fun m => bif w m then [methodOn ty stmts m] else []) =
      (ms.filter w).map fun m => ⟨g!"_d", ty.pointer, m.name, paramDecls m.params, paramDecls m.results, stmts m⟩ := by
  induction ms with
  | nil => rfl
  | cons m ms ih =>
    rw [List.flatMap_cons, methodsOf_append, ih]
    cases h : w m
    · simp [methodsOf, flatDecls, h]
    · simp [methodsOf, flatDecls, Decl.flat, methodOn, Decl.methodOf, hty, h]

theorem filter_name {ms : List Method} (hn : (ms.map (·.name)).Nodup) (w : Method → Bool) (f : Method → MethodDecl)
    (hf : ∀ m, (f m).name = m.name) {m : Method} (hm : m ∈ ms) :
    ((ms.filter w).map f).filter (fun y => decide (y.name = m.name)) = bif w m then [f m] else [] := by
  induction ms with
  | nil => exact nomatch hm
  | cons x ms ih =>
    rw [List.map_cons, List.nodup_cons] at hn
    rcases List.mem_cons.mp hm with rfl | hm
    · have hr : ((ms.filter w).map f).filter (fun y => decide (y.name = m.name)) = [] := by
        rw [List.filter_eq_nil_iff]
        intro y hy
        obtain ⟨z, hz, rfl⟩ := List.mem_map.mp hy
        rw [hf]
        simp only [decide_eq_true_eq]
        intro he
        exact hn.1 (he ▸ List.mem_map_of_mem (f := (·.name)) (List.mem_filter.mp hz).1)
      cases h : w m
      · simpa [List.filter_cons, h] using hr
      · simp only [List.filter_cons, h, if_true, List.map_cons, hf, decide_true, hr, cond_true]
    · have hne : x.name ≠ m.name := fun he => hn.1 (he ▸ List.mem_map_of_mem (f := (·.name)) hm)
      rw [← ih hn.2 hm]
      cases h : w x
      · simp [h]
      · simp [h, hf, hne]

theorem structs_which (ty : Ty) (stmts : Method → List Stmt) (w : Method → Bool) (dec : Str) (ms : List Method) :
    (flatDecls (ms.flatMap fun m => bif w m then [methodOn ty stmts m] else [])).filterMap (Decl.structOf dec) = [] := by
  induction ms with
  | nil => rfl
  | cons m ms ih =>
    rw [List.flatMap_cons, flatDecls_append, List.filterMap_append, ih]
    cases h : w m
    · simp [flatDecls]
    · simp [flatDecls, Decl.flat, methodOn, Decl.structOf]

theorem funcs_which (ty : Ty) (stmts : Method → List Stmt) (w : Method → Bool) (x : Str) (ms : List Method) :
    (flatDecls (ms.flatMap fun m => bif w m then [methodOn ty stmts m] else [])).filterMap (Decl.funcOf x) = [] := by
  induction ms with
  | nil => rfl
  | cons m ms ih =>
    rw [List.flatMap_cons, flatDecls_append, List.filterMap_append, ih]
    cases h : w m
    · simp [flatDecls]
    · simp [flatDecls, Decl.flat, methodOn, Decl.funcOf]

/-- A function that is not a method. -/
theorem funcBody_around {T : Template} {u : Uni} {d : Inputs} {ty : Ty} {w : Method → Bool} {stmts : Method → List Stmt}
    {pre post : List Go.Decl}
    (hfile : T.decls u d = pre ++ .many (d.sorted.flatMap (T.methodDecls u d)) :: post)
    (hm : ∀ e ∈ d.methods, T.methodDecls u d e.2 = bif w e.2 then [methodOn ty stmts e.2] else []) {x : Str}
    {f : List Group × Results × List Stmt}
    (h : (flatDecls pre).filterMap (Decl.funcOf x) ++ (flatDecls post).filterMap (Decl.funcOf x) = [f]) :
    funcBody x (T.decls u d) = f.2.2 := by
  have hflat : d.sorted.flatMap (T.methodDecls u d) = d.sorted.flatMap (fun m => bif w m then [methodOn ty stmts m] else []) := by
    rw [List.flatMap_def, List.flatMap_def]
    refine congrArg List.flatten (List.map_congr_left fun m hm' => ?_)
    obtain ⟨e, he, rfl⟩ := mem_sorted.mp hm'
    exact hm e he
  unfold funcBody
  rw [hfile, hflat, ← List.singleton_append, flatDecls_append, flatDecls_append]
  have : flatDecls [.many (d.sorted.flatMap (fun m => bif w m then [methodOn ty stmts m] else []))] =
    flatDecls (d.sorted.flatMap (fun m => bif w m then [methodOn ty stmts m] else [])) := by simp [flatDecls, Decl.flat]
  rw [this, List.filterMap_append, List.filterMap_append, funcs_which, List.nil_append, h]

/-- The template generates the decorator. -/
theorem generates_of {T : Template} (hs : T.Sound) {u : Uni} {d : Inputs} (hd : GoInputs u d) (hn : GoodNames (T.names u d))
    {ty : Ty} {dec : Str} (hty : ty.receiver = some dec) {w : Method → Bool} {stmts : Method → List Stmt}
    {pre post : List Go.Decl} {fs : List FieldDecl}
    (hfile : T.decls u d = pre ++ .many (d.sorted.flatMap (T.methodDecls u d)) :: post) (hr : Around dec pre post fs)
    (hm : ∀ e ∈ d.methods, T.methodDecls u d e.2 = bif w e.2 then [methodOn ty stmts e.2] else []) :
    (render u T.text d = some (T.out u d) ∧ tokens (T.out u d) = some (putDecls (T.decls u d) [])) ∧
    methodsOf dec (T.decls u d) =
      (d.sorted.filter w).map (fun m => ⟨g!"_d", ty.pointer, m.name, paramDecls m.params, paramDecls m.results, stmts m⟩) ∧
    Go.fieldsOf dec (T.decls u d) = fs ∧
    ∀ (G : GoTypes) (link : Method → Link) (D : Decorator),
      D.fields = fs.flatMap (FieldDecl.names d.name) →
      D.embeds = fs.any (FieldDecl.embeds (lexed d.type)) →
      (ty.pointer = false → ∀ e ∈ d.methods, (link e.2).onCopy g!"_d" (fs.flatMap FieldDecl.locks) = link e.2) →
      (∀ e ∈ d.methods, w e.2 = false → D.body e.2 = none) →
      (∀ e ∈ d.methods, w e.2 = true → ∃ b, D.body e.2 = some b ∧
        ∀ self args, e.2.exec G (g!"_d", self) (denBody (link e.2) (stmts e.2)) args = e.2.exec G (g!"_d", self) b args) →
      Generates G (T.decls u d) dec d link D := by
  obtain ⟨h1, h2⟩ := hs.ok (goodInputs_of hd) hn hd.vars.values (by
    intro _ m hm
    obtain ⟨e, he, rfl⟩ := mem_sorted.mp hm
    exact (hd.methods e he).2.ctx)
  have hflat : d.sorted.flatMap (T.methodDecls u d) = d.sorted.flatMap (fun m => bif w m then [methodOn ty stmts m] else []) := by
    rw [List.flatMap_def, List.flatMap_def]
    refine congrArg List.flatten (List.map_congr_left fun m hm' => ?_)
    obtain ⟨e, he, rfl⟩ := mem_sorted.mp hm'
    exact hm e he
  have hall : methodsOf dec (T.decls u d) = methodsOf dec (d.sorted.flatMap (T.methodDecls u d)) := by
    rw [hfile, methodsOf_append, hr.before, List.nil_append, ← List.singleton_append, methodsOf_append, hr.after, List.append_nil]
    simp [methodsOf, flatDecls, Decl.flat]
  have hfields : Go.fieldsOf dec (T.decls u d) = fs := by
    unfold Go.fieldsOf
    rw [hfile, hflat, ← List.singleton_append, flatDecls_append, flatDecls_append]
    have : flatDecls [.many (d.sorted.flatMap (fun m => bif w m then [methodOn ty stmts m] else []))] =
      flatDecls (d.sorted.flatMap (fun m => bif w m then [methodOn ty stmts m] else [])) := by simp [flatDecls, Decl.flat]
    rw [this, List.filterMap_append, List.filterMap_append, structs_which, List.nil_append, hr.structs]
  refine ⟨⟨h1, h2⟩, by rw [hall, hflat, methodsOf_which hty], hfields, fun G link D h3 h4 hc h5 h6 => ?_⟩
  have hfe : (⟨T.decls u d, dec, d.name, d.type, D.base, link⟩ : Generated).fields = D.fields := by
    rw [h3]; unfold Generated.fields; simp only [hfields]
  have hem : (⟨T.decls u d, dec, d.name, d.type, D.base, link⟩ : Generated).embeds = D.embeds := by
    rw [h4]; unfold Generated.embeds; simp only [hfields, typeToks_eq hd.type]
  refine ⟨hfe, hem, ?_⟩
  intro e he self args
  have hmeth : (⟨T.decls u d, dec, d.name, d.type, D.base, link⟩ : Generated).method e.2.name =
      bif w e.2 then [⟨g!"_d", ty.pointer, e.2.name, paramDecls e.2.params, paramDecls e.2.results, stmts e.2⟩] else [] := by
    unfold Generated.method
    simp only [hall]
    rw [hflat, methodsOf_which hty]
    exact filter_name (sorted_nodup hd) w _ (fun _ => rfl) (mem_sorted.mpr ⟨e, he, rfl⟩)
  unfold Generated.call
  rw [hmeth]
  cases hw : w e.2
  · have hb := h5 e he hw
    simp only [Decorator.call, hb, cond_false, hem]
    cases D.embeds
    · rfl
    · simp only [if_true]
      congr 1
      funext r
      cases r <;> rfl
  · obtain ⟨b, hb, hx⟩ := h6 e he hw
    have hg := (hd.methods e he).2
    have hdec : MethodDecl.declares ⟨g!"_d", ty.pointer, e.2.name, paramDecls e.2.params, paramDecls e.2.results, stmts e.2⟩ e.2 :=
      ⟨groupParams_decls fun p hp => hg.types p (by simp [hp]), groupParams_decls fun p hp => hg.types p (by simp [hp])⟩
    have hl : (⟨T.decls u d, dec, d.name, d.type, D.base, link⟩ : Generated).linkOf e.2
        ⟨g!"_d", ty.pointer, e.2.name, paramDecls e.2.params, paramDecls e.2.results, stmts e.2⟩ = link e.2 := by
      unfold Generated.linkOf
      simp only [hfields]
      cases hp : ty.pointer
      · simpa using hc hp e he
      · rfl
    simp only [Decorator.call, hb, cond_true, if_pos hdec, hl, hx]

end Gowrap.Tmpl
