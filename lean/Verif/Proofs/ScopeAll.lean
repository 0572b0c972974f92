import Verif.Proofs.ScopeFile
/-!
# What the built-in templates generate obeys the rules of declarations and scope
-/

namespace Gowrap.Tmpl

open Gowrap Go Spec

set_option maxRecDepth 100000

/-- The names of a method that has those that gowrap gives. -/
theorem namesOk {m : Method} (hg : GoMethod m) (hn : NamedMethod m) : NamesOk m (allNames m) where
  params := fun p hp => ⟨hn.blank p (List.mem_append_left _ hp), List.mem_append_left _ (List.mem_map.mpr ⟨p, hp, rfl⟩)⟩
  results := fun p hp => ⟨hn.blank p (List.mem_append_right _ hp), List.mem_append_right _ (List.mem_map.mpr ⟨p, hp, rfl⟩)⟩
  err := fun h => by
    obtain ⟨p, hp, he⟩ := hn.err h
    exact List.mem_append_right _ (List.mem_map.mpr ⟨p, hp, he⟩)
  ctx := fun h => by
    obtain ⟨p, ps, hp, he⟩ := hg.ctx h
    exact List.mem_append_left _ (List.mem_map.mpr ⟨p, by simp [hp], he⟩)

theorem mem_allNames {m : Method} {x : Str} (h : x ∈ allNames m) : ∃ p ∈ m.params ++ m.results, p.name = x := by
  unfold allNames at h
  rw [← List.map_append] at h
  exact List.mem_map.mp h

theorem unused_of {l : Locals} {m : Method} (h : FreshMethod l m) : Unused l.names (allNames m) := by
  intro x hx hm
  obtain ⟨p, hp, rfl⟩ := mem_allNames hm
  exact h.names p hp (List.mem_cons_of_mem _ hx)

theorem distinct_names {l : Locals} {m : Method} (hn : NamedMethod m) (h : FreshMethod l m) : Go.Distinct (g!"_d" :: allNames m) := by
  have h1 : (g!"_d" :: allNames m).Nodup := by
    refine List.nodup_cons.mpr ⟨fun hm => ?_, hn.distinct⟩
    obtain ⟨p, hp, he⟩ := mem_allNames hm
    exact h.names p hp (by simp [he])
  exact h1.sublist List.filter_sublist

theorem sees_sub {v : Visible} {l l' : List (Str × NameKind)} (h : Sees v l) (hs : ∀ e ∈ l', e ∈ l) : Sees v l' := fun e he => h e (hs e he)

theorem unused_sub {names l l' : List Str} (h : Unused l names) (hs : ∀ x ∈ l', x ∈ l) : Unused l' names := fun x hx => h x (hs x hx)

theorem vec_unused {x : Str} {m : Method} (hd : x ≠ g!"_d") (h : ∀ p ∈ m.params ++ m.results, p.name ≠ x) : x ∉ g!"_d" :: allNames m := by
  intro hx
  rcases List.mem_cons.mp hx with hx | hx
  · exact hd hx
  · obtain ⟨p, hp, he⟩ := mem_allNames hx
    exact h p hp he

variable {v : Visible} {names : List Str}

theorem onErr_plain (p : Place) (h : ∀ x ∈ p.results, x ∉ p.inside) : stmtsScoped p (fun _ => false) [.ret []] := by
  simp only [stmtsScoped, Stmt.Scoped, and_true]
  exact fun x hx _ => h x hx

theorem onErr_twirp (hz : Clear v) (hn : Unused [g!"error", g!"twirp"] names) (hv : Sees v [(g!"nil", .value), (g!"error", .type), (g!"twirp", .pkg)]) (he : g!"err" ∈ names) (p : Place)
    (h : ∀ x ∈ p.results, x ∉ p.inside) (hs : p.see = ((v.bind (g!"_d" :: names)).bind [g!"_v", g!"_ok"])) :
    stmtsScoped p (fun _ => false) twirpInvalidStmts := by
  unfold twirpInvalidStmts invalidStmts
  simp [Sees, Unused, Clear, dotted] at hv hn hz
  scope [hs, hv, he, hn, hz]
  exact fun x hx _ => h x hx

theorem onErr_grpc (hz : Clear v) (hn : Unused [g!"error", g!"grpc_codes", g!"grpc_status"] names) (hv : Sees v [(g!"nil", .value), (g!"error", .type), (g!"grpc_codes", .pkg), (g!"grpc_status", .pkg)]) (he : g!"err" ∈ names) (p : Place)
    (h : ∀ x ∈ p.results, x ∉ p.inside) (hs : p.see = ((v.bind (g!"_d" :: names)).bind [g!"_v", g!"_ok"])) :
    stmtsScoped p (fun _ => false) grpcInvalidStmts := by
  unfold grpcInvalidStmts invalidStmts
  simp [Sees, Unused, Clear, dotted] at hv hn hz
  scope [hs, hv, he, hn, hz]
  exact fun x hx _ => h x hx

/-- The fields of the configuration of templates/timeout. -/
theorem config_scoped {u : Uni} {d : Inputs} (h : GoInputs u d) (v : Visible) (hv : v g!"time" = some .pkg) :
    ∀ f ∈ flatFields (d.sorted.flatMap (tmTimeout.configFields u d)), f.Scoped v := by
  have : ∀ ms : List Method, (∀ m ∈ ms, m ∈ d.sorted) → ∀ f ∈ flatFields (ms.flatMap (tmTimeout.configFields u d)), f.Scoped v := by
    intro ms
    induction ms with
    | nil => intro _ f hf; simp [flatFields] at hf
    | cons m ms ih =>
      intro hm f hf
      obtain ⟨e, he, rfl⟩ := mem_sorted.mp (hm _ (.head _))
      rw [List.flatMap_cons, tmTimeout_config u d _ (ctx_params h e he)] at hf
      cases hc : e.2.acceptsContext
      · rw [hc] at hf
        exact ih (fun m hm' => hm m (.tail _ hm')) f hf
      · rw [hc] at hf
        simp only [cond_true, List.cons_append, List.nil_append, flatFields, FieldDecl.flat, List.mem_cons] at hf
        rcases hf with rfl | hf
        · exact hv
        · exact ih (fun m hm' => hm m (.tail _ hm')) f hf
  exact this d.sorted fun _ hm => hm

/-- Without the variable the name of the options is that of the decorator and a suffix. -/
theorem option_name {u : Uni} {d : Inputs} (h : cliVar d g!"DecoratorName" [] = []) :
    (tmElasticapm.names u d).option = (tmElasticapm.names u d).dec ++ g!"Option" := by
  have h1 : ∀ x, varOr (d.vars g!"DecoratorName") x = x := by
    intro x
    unfold cliVar at h
    unfold varOr
    split at h
    · rename_i s hs
      rw [hs]
      by_cases h0 : s = []
      · simp [h0]
      · simp [h0] at h
    · rename_i hs
      split
      · rename_i s hs'
        exact absurd hs' (hs s)
      · rfl
  show varOr _ _ = varOr _ _ ++ _
  rw [h1, h1, List.append_assoc]
  rfl

/-- What it means for a method that the file obeys the rules. -/
theorem FileShape.method_scoped {u : Uni} {d : Inputs} {text : Str} {ds pre : List Go.Decl} {ty : Ty} {w : Method → Bool} {stmts : Method → List Stmt}
    {post : List Go.Decl} (h : FileShape u d text ds pre ty w stmts post) {e : Str × Method} (he : e ∈ d.methods) (hw : w e.2 = true)
    (hn : ∀ v, Go.Distinct (g!"_d" :: allNames e.2) → ¬ stmtsScoped (.enter v (g!"_d" :: allNames e.2) (e.2.results.map (·.name))) (fun _ => false) (stmts e.2)) :
    ∃ s ds, render u text d = some s ∧ Consists d s ds ∧ ∀ added, ¬ FileScoped added (flatDecls ds) := by
  obtain ⟨⟨s, hr, hc⟩, hf⟩ := h
  refine ⟨s, ds, hr, hc, fun added hs => ?_⟩
  have hm := hs.1 (methodOn ty stmts e.2) (by
    rw [hf]
    refine List.mem_append_right _ (List.mem_append_left _ ?_)
    exact List.mem_map.mpr ⟨e.2, List.mem_filter.mpr ⟨mem_sorted.mpr ⟨e, he, rfl⟩, hw⟩, rfl⟩)
  obtain ⟨_, _, _, ha, hb⟩ := hm
  rw [boundNames_params, boundNames_params] at ha hb
  exact hn _ ha hb


/-- The same with what the names outside the method stand for. -/
theorem FileShape.hidden_scoped {u : Uni} {d : Inputs} {text : Str} {ds pre : List Go.Decl} {ty : Ty} {w : Method → Bool} {stmts : Method → List Stmt}
    {post : List Go.Decl} (h : FileShape u d text ds pre ty w stmts post) {e : Str × Method} (he : e ∈ d.methods) (hw : w e.2 = true)
    {added : List Str} (hn : Go.Distinct (g!"_d" :: allNames e.2) → ¬ stmtsScoped (.enter (fileScope added (flatDecls pre ++ flatDecls post)) (g!"_d" :: allNames e.2) (e.2.results.map (·.name))) (fun _ => false) (stmts e.2)) :
    ∃ s ds, render u text d = some s ∧ Consists d s ds ∧ ¬ FileScoped added (flatDecls ds) := by
  obtain ⟨⟨s, hr, hc⟩, hf⟩ := h
  refine ⟨s, ds, hr, hc, fun hs => ?_⟩
  have hsc : fileScope added (flatDecls ds) = fileScope added (flatDecls pre ++ flatDecls post) := by
    rw [hf]
    unfold fileScope
    simp only [List.flatMap_append, packages_methods, values_methods, types_methods, List.nil_append]
  have hm := hs.1 (methodOn ty stmts e.2) (by
    rw [hf]
    refine List.mem_append_right _ (List.mem_append_left _ ?_)
    exact List.mem_map.mpr ⟨e.2, List.mem_filter.mpr ⟨mem_sorted.mpr ⟨e, he, rfl⟩, hw⟩, rfl⟩)
  obtain ⟨_, _, _, ha, hb⟩ := hm
  rw [boundNames_params, boundNames_params] at ha hb
  rw [hsc] at hb
  exact hn ha hb


end Gowrap.Tmpl
