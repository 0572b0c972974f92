import Verif.Proofs.Source
import Verif.Proofs.GoDen
/-!
# Grammatical trees
-/

namespace Gowrap.Tmpl

open Gowrap Go Spec

instance decGoName (s : Str) : Decidable (GoName s) :=
  match s with
  | [] => isFalse fun h => by obtain ⟨⟨_, _, h, _⟩, _⟩ := h; cases h
  | c :: r => decidable_of_iff (Go.letter c = true ∧ (∀ x ∈ c :: r, (Go.letter x || Go.digit x) = true) ∧ c :: r ∉ Go.keywords)
    ⟨fun h => ⟨⟨c, r, rfl, h.1⟩, h.2⟩, fun h => by
      obtain ⟨⟨c', r', e, hc⟩, h2⟩ := h
      exact ⟨(List.cons.inj e).1 ▸ hc, h2⟩⟩

theorem goName_of {s : Str} (h : IsName s) : GoName s := ⟨h.1.1, h.1.2, h.2⟩

theorem goName_suffix {s : Str} (h : GoName s) (x : Str) (hx : ∀ c ∈ x, (Go.letter c || Go.digit c) = true)
    (hk : ∃ c ∈ x, ∀ k ∈ Go.keywords, c ∉ k) : GoName (s ++ x) := goName_of (name_suffix h x hx hk)

theorem goName_prefix {s : Str} (h : GoName s) (x : Str) (hx : GoName x) (hk : ∃ c ∈ x, ∀ k ∈ Go.keywords, c ∉ k) : GoName (x ++ s) := by
  obtain ⟨⟨c, r, rfl, hc⟩, ha, _⟩ := hx
  refine ⟨⟨c, r ++ s, rfl, hc⟩, ?_, ?_⟩
  · intro y hy
    rcases List.mem_append.mp hy with hy | hy
    · exact ha y hy
    · exact h.2.1 y hy
  · intro hm
    obtain ⟨y, hy, hky⟩ := hk
    exact hky _ hm (List.mem_append_left _ hy)

/-- What is needed of a method. -/
structure OkMethod (S : Sources) (m : Method) : Prop where
  name : GoName m.name
  pnames : ∀ p ∈ m.params, GoName p.name
  rnames : ∀ p ∈ m.results, GoName p.name
  params : GroupsOk S (paramDecls m.params)
  results : StructOk S (paramDecls m.results)
  args : ArgsOk S True (m.params.map argExpr)

theorem namedAlike_decls (ps : List Param) : NamedAlike (paramDecls ps) := by
  refine .inl fun g hg => ?_
  obtain ⟨p, _, rfl⟩ := List.mem_map.mp hg
  simp

theorem argsOk_args (S : Sources) (last : Prop) (hl : last) : ∀ ps : List Param, (∀ p ∈ ps, GoName p.name) → (∀ p ∈ ps.dropLast, p.variadic = false) →
    ArgsOk S last (ps.map argExpr)
  | [], _, _ => by simp [ArgsOk]
  | [p], hn, _ => by
    have := hn p (by simp)
    unfold argExpr
    simp only [List.map]
    split <;> simp [ArgsOk, Expr.Ok, this, hl]
  | p :: q :: ps, hn, hv => by
    have h1 := hn p (by simp)
    have h2 : p.variadic = false := hv p (by simp)
    have := argsOk_args S last hl (q :: ps) (fun x hx => hn x (List.mem_cons_of_mem _ hx))
      (fun x hx => hv x (by rw [List.dropLast_cons_of_ne_nil (by simp)]; exact List.mem_cons_of_mem _ hx))
    rw [List.map_cons]
    unfold argExpr
    simp only [h2, Bool.false_eq_true, if_false]
    exact ⟨h1, this⟩

theorem structOk_decls (S : Sources) : ∀ ps : List Param, (∀ p ∈ ps, GoName p.name ∧ S.type (lexed p.type)) → StructOk S (paramDecls ps)
  | [], _ => by simp [paramDecls, StructOk]
  | p :: ps, h => by
    have h1 := h p (by simp)
    refine ⟨?_, structOk_decls S ps fun x hx => h x (List.mem_cons_of_mem _ hx)⟩
    simp [Group.Ok, h1.1, h1.2]

theorem groupsOk_decls (S : Sources) : ∀ ps : List Param, (∀ p ∈ ps, GoName p.name ∧
    (p.variadic = false → S.type (lexed p.type)) ∧ (p.variadic = true → S.variadic (lexed p.type))) →
    (∀ p ∈ ps.dropLast, p.variadic = false) → GroupsOk S (paramDecls ps)
  | [], _, _ => by simp [paramDecls, GroupsOk]
  | p :: ps, h, hv => by
    have h1 := h p (by simp)
    refine ⟨?_, groupsOk_decls S ps (fun x hx => h x (List.mem_cons_of_mem _ hx)) fun x hx => hv x ?_⟩
    · cases hp : p.variadic
      · simp [Group.Ok, h1.1, h1.2.1 hp]
      · cases ps with
        | nil => simp [Group.Ok, h1.1, h1.2.2 hp]
        | cons q ps => rw [hv p (by simp)] at hp; cases hp
    · rw [List.dropLast_cons_of_ne_nil (by rintro rfl; simp at hx)]
      exact List.mem_cons_of_mem _ hx

theorem okMethod_of {u : Uni} {d : Inputs} (h : GoInputs u d) {e : Str × Method} (he : e ∈ d.methods) :
    OkMethod (sourceTypes d) e.2 := by
  have hg := (h.methods e he).2
  have hn : ∀ p ∈ e.2.params, GoName p.name := fun p hp => hg.names p (List.mem_append_left _ hp)
  have hr : ∀ p ∈ e.2.results, GoName p.name := fun p hp => hg.names p (List.mem_append_right _ hp)
  have hv : ∀ p ∈ e.2.params.dropLast, p.variadic = false := fun p hp => hg.variadic p (List.mem_append_left _ hp)
  refine ⟨hg.name, hn, hr, ?_, ?_, argsOk_args _ _ trivial _ hn hv⟩
  · refine groupsOk_decls _ _ (fun p hp => ⟨hn p hp, fun hf => ?_, fun ht => ?_⟩) hv
    · exact .inr ⟨e, he, p, List.mem_append_left _ hp, hf, (typeToks_eq (hg.types p (List.mem_append_left _ hp))).symm⟩
    · exact ⟨e, he, p, hp, ht, (typeToks_eq (hg.types p (List.mem_append_left _ hp))).symm⟩
  · refine structOk_decls _ _ fun p hp => ⟨hr p hp, ?_⟩
    exact .inr ⟨e, he, p, List.mem_append_right _ hp, hg.variadic p (List.mem_append_right _ hp),
      (typeToks_eq (hg.types p (List.mem_append_right _ hp))).symm⟩

theorem okType_of {u : Uni} {d : Inputs} (h : GoInputs u d) : (sourceTypes d).type (lexed d.type) :=
  .inl (typeToks_eq h.type).symm

variable {S : Sources} {m : Method}

theorem argExpr_isMany (p : Param) : (argExpr p).isMany = false := by
  unfold argExpr
  cases p.variadic <;> rfl

theorem all_ids (ps : List Param) : (idExprs ps).all (!·.isMany) = true := by
  simp only [idExprs, List.all_eq_true, List.mem_map]
  rintro e ⟨p, _, rfl⟩
  rfl

theorem all_args (ps : List Param) : (ps.map argExpr).all (!·.isMany) = true := by
  simp [argExpr_isMany]

theorem mapExpr_isMany (ps : List Param) : (mapExpr ps).isMany = false := rfl

theorem ids_ne {ps : List Param} (h : ps.isEmpty = false) : idExprs ps ≠ [] := by
  cases ps with
  | nil => cases h
  | cons p ps => nofun

theorem lit_isMany (t : Ty) (es : List Go.Expr) (c : Bool) : (Go.Expr.lit t es c).isMany = false := rfl

theorem tidy_pairs (ps : List Param) : tidy (ps.map fun p => .pair (.str p.name) (.id p.name)) = true := by
  cases ps with
  | nil => rfl
  | cons p ps =>
    have : tidy ((p :: ps).map fun p => .pair (.str p.name) (.id p.name)) =
        ((p :: ps).map fun p : Param => Go.Expr.pair (.str p.name) (.id p.name)).all Expr.filled := rfl
    rw [this, List.all_map]
    exact List.all_eq_true.mpr fun _ _ => rfl

theorem tidy_nil : tidy [] = true := rfl

theorem tidy_many (es : List Go.Expr) : tidy [.many es] = es.all (!·.isMany) := rfl

theorem call_ok (hm : OkMethod S m) {recv : Go.Expr} {lit : Bool} {q : Nat} (h : recv.Ok S lit 7) : (callExpr recv m).Ok S lit q := by
  unfold callExpr
  simp [Expr.Ok, ArgsOk, h, hm.name, hm.args, tidy_many, argExpr_isMany]

theorem exprsOk_ids {lit : Bool} : ∀ ps : List Param, (∀ p ∈ ps, GoName p.name) → ExprsOk S lit (idExprs ps)
  | [], _ => by simp [idExprs, ExprsOk]
  | p :: ps, h => ⟨h p (by simp), exprsOk_ids ps fun x hx => h x (List.mem_cons_of_mem _ hx)⟩

theorem flat_ids : ∀ ps : List Param, flatExprs (idExprs ps) = idExprs ps
  | [] => by simp [idExprs, flatExprs]
  | p :: ps => by
    have h := flat_ids ps
    simp only [idExprs, List.map_cons] at h ⊢
    simp [flatExprs, h]

theorem many_ok {lit : Bool} {ps : List Param} (h : ∀ p ∈ ps, GoName p.name) : ExprsOk S lit [.many (idExprs ps)] := by
  simp [ExprsOk, exprsOk_ids ps h]

theorem flat_many (ps : List Param) : flatExprs [.many (idExprs ps)] = idExprs ps := by
  simp [flatExprs, flat_ids]

theorem elemsOk_ids : ∀ ps : List Param, (∀ p ∈ ps, GoName p.name) → ElemsOk S (idExprs ps)
  | [], _ => by simp [idExprs, ElemsOk]
  | p :: ps, h => ⟨h p (by simp), elemsOk_ids ps fun x hx => h x (List.mem_cons_of_mem _ hx)⟩

theorem argsOk_ids {last : Prop} : ∀ ps : List Param, (∀ p ∈ ps, GoName p.name) → ArgsOk S last (idExprs ps)
  | [], _ => by simp [idExprs, ArgsOk]
  | p :: ps, h => ⟨h p (by simp), argsOk_ids ps fun x hx => h x (List.mem_cons_of_mem _ hx)⟩

theorem map_ok {q : Nat} {ps : List Param} (h : ∀ p ∈ ps, GoName p.name) : (mapExpr ps).Ok S true q := by
  have he : ∀ ps : List Param, (∀ p ∈ ps, GoName p.name) → ElemsOk S (ps.map fun p => .pair (.str p.name) (.id p.name)) := by
    intro ps
    induction ps with
    | nil => intro _; simp [ElemsOk]
    | cons p ps ih => exact fun h => ⟨trivial, h p (by simp), ih fun x hx => h x (List.mem_cons_of_mem _ hx)⟩
  unfold mapExpr mapType
  simp only [Expr.Ok, Ty.Literal, Ty.Ok, MethodsOk, he ps h]
  refine ⟨trivial, trivial, ⟨by decide, trivial⟩, ⟨tidy_pairs ps, nofun⟩, trivial⟩

theorem pass_ok (hm : OkMethod S m) {recv : Go.Expr} (h : recv.Ok S true 7) : StmtsOk S (passStmts recv m) := by
  unfold passStmts
  cases m.hasResults <;> simp [StmtsOk, Stmt.Ok, Expr.IsCall, ExprsOk, Expr.Ok, ArgsOk, h, hm.name, hm.args, argExpr_isMany, tidy, Expr.filled]

theorem stmtsOk_append : ∀ a b : List Stmt, StmtsOk S (a ++ b) ↔ StmtsOk S a ∧ StmtsOk S b
  | [], b => by simp [StmtsOk]
  | s :: a, b => by
    have := stmtsOk_append a b
    cases s <;> simp [StmtsOk, this, and_assoc]

theorem stmtsOk_flatMap {f : Param → List Stmt} : ∀ ps : List Param, (∀ p ∈ ps, StmtsOk S (f p)) → StmtsOk S (ps.flatMap f)
  | [], _ => by simp [StmtsOk]
  | p :: ps, h => by
    rw [List.flatMap_cons, stmtsOk_append]
    exact ⟨h p (by simp), stmtsOk_flatMap ps fun x hx => h x (List.mem_cons_of_mem _ hx)⟩

theorem fieldE_ok {f : Str} {lit : Bool} {q : Nat} : (fieldE f).Ok S lit q ↔ GoName f := by
  unfold fieldE
  simp only [Expr.Ok, and_iff_right_iff_imp]
  exact fun _ => by decide

/-! ## The file -/

theorem declsOk_append : ∀ a b : List Go.Decl, DeclsOk S (a ++ b) ↔ DeclsOk S a ∧ DeclsOk S b
  | [], b => by simp [DeclsOk]
  | s :: a, b => by simp [DeclsOk, declsOk_append a b, and_assoc]

theorem method_ok (hm : OkMethod S m) {ty : Ty} {dec : Str} (hty : ty.receiver = some dec) (hd : ty.Ok S) {stmts : Method → List Stmt}
    (hs : StmtsOk S (stmts m)) : (methodOn ty stmts m).Ok S := by
  unfold methodOn
  exact ⟨by decide, by rw [hty]; nofun, hd, hm.name, namedAlike_decls _, hm.params, namedAlike_decls _, hm.results, hs⟩

/-- A file consists of what is around the methods and the methods. -/
theorem grammatical_of {T : Template} {u : Uni} {d : Inputs} (hd : GoInputs u d)
    {ty : Ty} {dec : Str} (hty : ty.receiver = some dec) {w : Method → Bool} {stmts : Method → List Stmt}
    {pre post : List Go.Decl}
    (hfile : T.decls u d = pre ++ .many (d.sorted.flatMap (T.methodDecls u d)) :: post)
    (hm : ∀ e ∈ d.methods, T.methodDecls u d e.2 = bif w e.2 then [methodOn ty stmts e.2] else [])
    (hk : ty.Ok (sourceTypes d)) (hp : DeclsOk (sourceTypes d) pre) (hq : DeclsOk (sourceTypes d) post)
    (hi : (flatDecls pre).Pairwise fun a b => b.IsImport → a.IsImport) (hj : ∀ x ∈ flatDecls post, ¬ x.IsImport)
    (hs : ∀ e ∈ d.methods, w e.2 = true → OkMethod (sourceTypes d) e.2 → StmtsOk (sourceTypes d) (stmts e.2)) :
    Grammatical (sourceTypes d) (T.decls u d) := by
  have hflat : d.sorted.flatMap (T.methodDecls u d) = d.sorted.flatMap (fun m => bif w m then [methodOn ty stmts m] else []) := by
    rw [List.flatMap_def, List.flatMap_def]
    refine congrArg List.flatten (List.map_congr_left fun m hm' => ?_)
    obtain ⟨e, he, rfl⟩ := mem_sorted.mp hm'
    exact hm e he
  have hmeth : ∀ ms : List Method, (∀ m ∈ ms, m ∈ d.sorted) →
      DeclsOk (sourceTypes d) (ms.flatMap (fun m => bif w m then [methodOn ty stmts m] else [])) ∧
      ∀ x ∈ flatDecls (ms.flatMap (fun m => bif w m then [methodOn ty stmts m] else [])), ¬ x.IsImport := by
    intro ms
    induction ms with
    | nil => intro _; simp [DeclsOk, flatDecls]
    | cons m ms ih =>
      intro h
      obtain ⟨e, he, hem⟩ := mem_sorted.mp (h m (by simp))
      obtain ⟨i1, i2⟩ := ih fun x hx => h x (List.mem_cons_of_mem _ hx)
      rw [List.flatMap_cons, declsOk_append, flatDecls_append]
      cases hw : w m
      · simpa [DeclsOk, flatDecls] using ⟨i1, i2⟩
      · subst hem
        have hok := okMethod_of hd he
        refine ⟨⟨⟨method_ok hok hty hk (hs e he hw hok), trivial⟩, i1⟩, ?_⟩
        intro x hx
        rcases List.mem_append.mp hx with hx | hx
        · simp only [cond_true, flatDecls, methodOn, Decl.flat, List.append_nil, List.mem_cons, List.not_mem_nil, or_false] at hx
          subst hx
          exact id
        · exact i2 x hx
  obtain ⟨m1, m2⟩ := hmeth d.sorted fun _ h => h
  rw [hfile, hflat]
  constructor
  · rw [declsOk_append]
    exact ⟨hp, m1, hq⟩
  · rw [flatDecls_append]
    show List.Pairwise _ (_ ++ (flatDecls _ ++ flatDecls post))
    rw [List.pairwise_append]
    have hn : ∀ x ∈ flatDecls (d.sorted.flatMap (fun m => bif w m then [methodOn ty stmts m] else [])) ++ flatDecls post, ¬ x.IsImport := by
      intro x hx
      rcases List.mem_append.mp hx with hx | hx
      · exact m2 x hx
      · exact hj x hx
    refine ⟨hi, List.pairwise_iff_forall_sublist.mpr fun hs hb => absurd hb (hn _ (hs.subset (by simp))), ?_⟩
    exact fun a _ b hb hc => absurd hc (hn b hb)

end Gowrap.Tmpl
