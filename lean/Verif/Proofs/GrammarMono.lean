import Verif.Spec.Accepted
/-!
# Derivations stay derivations if more types are admitted
-/

namespace Gowrap.Go

open Gowrap Spec

structure Sources.Le (S T : Sources) : Prop where
  type : ∀ l, S.type l → T.type l
  variadic : ∀ l, S.variadic l → T.variadic l

mutual

theorem Ty.Ok.mono {S T : Sources} (hs : S.Le T) : ∀ t : Ty, t.Ok S → t.Ok T
  | .name x, h => by simp only [Ty.Ok] at h ⊢; exact h
  | .qual p x, h => by simp only [Ty.Ok] at h ⊢; exact h
  | .ptr t, h => by simp only [Ty.Ok] at h ⊢; exact Ty.Ok.mono hs t h
  | .slice t, h => by simp only [Ty.Ok] at h ⊢; exact Ty.Ok.mono hs t h
  | .map k v, h => by simp only [Ty.Ok] at h ⊢; exact ⟨Ty.Ok.mono hs k h.1, Ty.Ok.mono hs v h.2⟩
  | .chan t, h => by simp only [Ty.Ok] at h ⊢; exact Ty.Ok.mono hs t h
  | .dots _, h => by simp only [Ty.Ok] at h
  | .func ps r, h => by simp only [Ty.Ok] at h ⊢; exact ⟨h.1, groups_mono hs ps h.2.1, Results.Ok.mono hs r h.2.2⟩
  | .iface ms, h => by simp only [Ty.Ok] at h ⊢; exact methods_mono hs ms h
  | .struct gs, h => by simp only [Ty.Ok] at h ⊢; exact struct_mono hs gs h
  | .toks l, h => by simp only [Ty.Ok] at h ⊢; exact hs.type l h
  | .part t, h => by simp only [Ty.Ok] at h ⊢; exact Ty.Ok.mono hs t h

theorem Group.Ok.mono {S T : Sources} (hs : S.Le T) (last : Prop) : ∀ g : Group, g.Ok S last → g.Ok T last
  | .mk xs (.dots t), h => by simp only [Group.Ok] at h ⊢; exact ⟨h.1, h.2.1, h.2.2.1, Ty.Ok.mono hs t h.2.2.2⟩
  | .mk xs (.toks l), h => by
    simp only [Group.Ok] at h ⊢
    exact ⟨h.1, h.2.imp (hs.type l) fun h => ⟨h.1, h.2.1, hs.variadic l h.2.2⟩⟩
  | .mk xs (.name x), h => by simp only [Group.Ok] at h ⊢; exact ⟨h.1, Ty.Ok.mono hs _ h.2⟩
  | .mk xs (.qual p x), h => by simp only [Group.Ok] at h ⊢; exact ⟨h.1, Ty.Ok.mono hs _ h.2⟩
  | .mk xs (.ptr t), h => by simp only [Group.Ok] at h ⊢; exact ⟨h.1, Ty.Ok.mono hs _ h.2⟩
  | .mk xs (.slice t), h => by simp only [Group.Ok] at h ⊢; exact ⟨h.1, Ty.Ok.mono hs _ h.2⟩
  | .mk xs (.map k v), h => by simp only [Group.Ok] at h ⊢; exact ⟨h.1, Ty.Ok.mono hs _ h.2⟩
  | .mk xs (.chan t), h => by simp only [Group.Ok] at h ⊢; exact ⟨h.1, Ty.Ok.mono hs _ h.2⟩
  | .mk xs (.func ps r), h => by simp only [Group.Ok] at h ⊢; exact ⟨h.1, Ty.Ok.mono hs _ h.2⟩
  | .mk xs (.iface ms), h => by simp only [Group.Ok] at h ⊢; exact ⟨h.1, Ty.Ok.mono hs _ h.2⟩
  | .mk xs (.struct gs), h => by simp only [Group.Ok] at h ⊢; exact ⟨h.1, Ty.Ok.mono hs _ h.2⟩
  | .mk xs (.part t), h => by simp only [Group.Ok] at h ⊢; exact ⟨h.1, Ty.Ok.mono hs _ h.2⟩

theorem groups_mono {S T : Sources} (hs : S.Le T) : ∀ gs : List Group, GroupsOk S gs → GroupsOk T gs
  | [], _ => by simp only [GroupsOk]
  | g :: gs, h => by simp only [GroupsOk] at h ⊢; exact ⟨Group.Ok.mono hs _ g h.1, groups_mono hs gs h.2⟩

theorem struct_mono {S T : Sources} (hs : S.Le T) : ∀ gs : List Group, StructOk S gs → StructOk T gs
  | [], _ => by simp only [StructOk]
  | g :: gs, h => by simp only [StructOk] at h ⊢; exact ⟨Group.Ok.mono hs _ g h.1, struct_mono hs gs h.2⟩

theorem Results.Ok.mono {S T : Sources} (hs : S.Le T) : ∀ r : Results, r.Ok S → r.Ok T
  | .none, _ => by simp only [Results.Ok]
  | .one t, h => by simp only [Results.Ok] at h ⊢; exact ⟨h.1, Ty.Ok.mono hs t h.2⟩
  | .list gs, h => by simp only [Results.Ok] at h ⊢; exact ⟨h.1, struct_mono hs gs h.2⟩

theorem methods_mono {S T : Sources} (hs : S.Le T) : ∀ ms : List IfaceMethod, Go.MethodsOk S ms → Go.MethodsOk T ms
  | [], _ => by simp only [Go.MethodsOk]
  | m :: ms, h => by simp only [Go.MethodsOk] at h ⊢; exact ⟨IfaceMethod.Ok.mono hs m h.1, methods_mono hs ms h.2⟩

theorem IfaceMethod.Ok.mono {S T : Sources} (hs : S.Le T) : ∀ m : IfaceMethod, m.Ok S → m.Ok T
  | .mk x ps r, h => by
    simp only [IfaceMethod.Ok] at h ⊢
    exact ⟨h.1, h.2.1, groups_mono hs ps h.2.2.1, Results.Ok.mono hs r h.2.2.2⟩

end

mutual

theorem Expr.Ok.mono {S T : Sources} (hs : S.Le T) (lit : Bool) (q : Nat) : ∀ e : Expr, e.Ok S lit q → e.Ok T lit q
  | .id x, h => by simp only [Expr.Ok] at h ⊢; exact h
  | .str _, _ => by simp only [Expr.Ok]
  | .num _, _ => by simp only [Expr.Ok]
  | .sel e f, h => by simp only [Expr.Ok] at h ⊢; exact ⟨Expr.Ok.mono hs _ _ e h.1, h.2⟩
  | .call f args comma, h => by
    cases f
    case type t =>
      simp only [Expr.Ok] at h ⊢
      exact ⟨⟨h.1.1, Ty.Ok.mono hs t h.1.2⟩, h.2.1, args_mono hs _ args h.2.2⟩
    all_goals
      rw [Expr.Ok] at h ⊢
      · exact ⟨Expr.Ok.mono hs _ _ _ h.1, h.2.1, args_mono hs _ args h.2.2⟩
      all_goals (intro t e; cases e)
  | .spread _, h => by simp only [Expr.Ok] at h
  | .index e i, h => by simp only [Expr.Ok] at h ⊢; exact ⟨Expr.Ok.mono hs _ _ e h.1, Expr.Ok.mono hs _ _ i h.2⟩
  | .un op e, h => by simp only [Expr.Ok] at h ⊢; exact ⟨h.1, h.2.1, Expr.Ok.mono hs _ _ e h.2.2⟩
  | .bin op a b, h => by
    simp only [Expr.Ok] at h ⊢
    cases hp : binPrec op with
    | none => simp only [hp] at h
    | some p => simp only [hp] at h ⊢; exact ⟨h.1, Expr.Ok.mono hs _ _ a h.2.1, Expr.Ok.mono hs _ _ b h.2.2⟩
  | .paren e, h => by simp only [Expr.Ok] at h ⊢; exact Expr.Ok.mono hs _ _ e h
  | .assert e t, h => by simp only [Expr.Ok] at h ⊢; exact ⟨Expr.Ok.mono hs _ _ e h.1, Ty.Ok.mono hs t h.2⟩
  | .lit t es comma, h => by
    simp only [Expr.Ok] at h ⊢
    exact ⟨h.1, h.2.1, Ty.Ok.mono hs t h.2.2.1, h.2.2.2.1, elems_mono hs es h.2.2.2.2⟩
  | .pair _ _, h => by simp only [Expr.Ok] at h
  | .fn ps r body, h => by
    simp only [Expr.Ok] at h ⊢
    exact ⟨h.1, groups_mono hs ps h.2.1, Results.Ok.mono hs r h.2.2.1, stmts_mono hs body h.2.2.2⟩
  | .type _, h => by simp only [Expr.Ok] at h
  | .many _, h => by simp only [Expr.Ok] at h

theorem args_mono {S T : Sources} (hs : S.Le T) (last : Prop) : ∀ es : List Expr, ArgsOk S last es → ArgsOk T last es
  | [], _ => by simp only [ArgsOk]
  | e :: es, h => by
    cases e
    case spread e => simp only [ArgsOk] at h ⊢; exact ⟨h.1, h.2.1, Expr.Ok.mono hs _ _ e h.2.2⟩
    case type t => simp only [ArgsOk] at h ⊢; exact ⟨⟨h.1.1, Ty.Ok.mono hs t h.1.2⟩, args_mono hs _ es h.2⟩
    case many es' => simp only [ArgsOk] at h ⊢; exact ⟨args_mono hs _ es' h.1, args_mono hs _ es h.2⟩
    all_goals
      simp only [ArgsOk] at h ⊢
      exact ⟨Expr.Ok.mono hs _ _ _ h.1, args_mono hs _ es h.2⟩

theorem elems_mono {S T : Sources} (hs : S.Le T) : ∀ es : List Expr, ElemsOk S es → ElemsOk T es
  | [], _ => by simp only [ElemsOk]
  | e :: es, h => by
    cases e
    case pair k v => simp only [ElemsOk] at h ⊢; exact ⟨Expr.Ok.mono hs _ _ k h.1, Expr.Ok.mono hs _ _ v h.2.1, elems_mono hs es h.2.2⟩
    case many es' => simp only [ElemsOk] at h ⊢; exact ⟨elems_mono hs es' h.1, elems_mono hs es h.2⟩
    all_goals
      simp only [ElemsOk] at h ⊢
      exact ⟨Expr.Ok.mono hs _ _ _ h.1, elems_mono hs es h.2⟩

theorem exprs_mono {S T : Sources} (hs : S.Le T) (lit : Bool) : ∀ es : List Expr, ExprsOk S lit es → ExprsOk T lit es
  | [], _ => by simp only [ExprsOk]
  | e :: es, h => by
    cases e
    case many es' => simp only [ExprsOk] at h ⊢; exact ⟨exprs_mono hs _ es' h.1, exprs_mono hs _ es h.2⟩
    all_goals
      simp only [ExprsOk] at h ⊢
      exact ⟨Expr.Ok.mono hs _ _ _ h.1, exprs_mono hs _ es h.2⟩

theorem Stmt.Ok.mono {S T : Sources} (hs : S.Le T) (lit : Bool) : ∀ s : Stmt, s.Ok S lit → s.Ok T lit
  | .expr e, h => by simp only [Stmt.Ok] at h ⊢; exact ⟨h.1, Expr.Ok.mono hs _ _ e h.2⟩
  | .assign l r, h => by simp only [Stmt.Ok] at h ⊢; exact ⟨h.1, h.2.1, exprs_mono hs _ l h.2.2.1, exprs_mono hs _ r h.2.2.2⟩
  | .define l r, h => by simp only [Stmt.Ok] at h ⊢; exact ⟨h.1, h.2.1, h.2.2.1, exprs_mono hs _ l h.2.2.2.1, exprs_mono hs _ r h.2.2.2.2⟩
  | .inc e, h => by simp only [Stmt.Ok] at h ⊢; exact Expr.Ok.mono hs _ _ e h
  | .send ch v, h => by simp only [Stmt.Ok] at h ⊢; exact ⟨Expr.Ok.mono hs _ _ ch h.1, Expr.Ok.mono hs _ _ v h.2⟩
  | .var x t, h => by simp only [Stmt.Ok] at h ⊢; exact ⟨h.1, Ty.Ok.mono hs t h.2⟩
  | .varInit x e, h => by simp only [Stmt.Ok] at h ⊢; exact ⟨h.1, Expr.Ok.mono hs _ _ e h.2⟩
  | .type x t, h => by simp only [Stmt.Ok] at h ⊢; exact ⟨h.1, Ty.Ok.mono hs t h.2⟩
  | .ret es, h => by simp only [Stmt.Ok] at h ⊢; exact ⟨h.1, exprs_mono hs _ es h.2⟩
  | .cond c b, h => by simp only [Stmt.Ok] at h ⊢; exact ⟨Expr.Ok.mono hs _ _ c h.1, stmts_mono hs b h.2⟩
  | .condElse c b b', h => by simp only [Stmt.Ok] at h ⊢; exact ⟨Expr.Ok.mono hs _ _ c h.1, stmts_mono hs b h.2.1, stmts_mono hs b' h.2.2⟩
  | .condElseIf c b s, h => by
    simp only [Stmt.Ok] at h ⊢
    exact ⟨Expr.Ok.mono hs _ _ c h.1, stmts_mono hs b h.2.1, h.2.2.1, Stmt.Ok.mono hs _ s h.2.2.2⟩
  | .condInit i c b, h => by
    simp only [Stmt.Ok] at h ⊢
    exact ⟨h.1, Stmt.Ok.mono hs _ i h.2.1, Expr.Ok.mono hs _ _ c h.2.2.1, stmts_mono hs b h.2.2.2⟩
  | .loop i c p b, h => by
    simp only [Stmt.Ok] at h ⊢
    exact ⟨h.1, Stmt.Ok.mono hs _ i h.2.1, Expr.Ok.mono hs _ _ c h.2.2.1, h.2.2.2.1, Stmt.Ok.mono hs _ p h.2.2.2.2.1, stmts_mono hs b h.2.2.2.2.2⟩
  | .forever b, h => by simp only [Stmt.Ok] at h ⊢; exact stmts_mono hs b h
  | .range xs e b, h => by
    simp only [Stmt.Ok] at h ⊢
    exact ⟨h.1, h.2.1, h.2.2.1, exprs_mono hs _ xs h.2.2.2.1, Expr.Ok.mono hs _ _ e h.2.2.2.2.1, stmts_mono hs b h.2.2.2.2.2⟩
  | .defer e, h => by simp only [Stmt.Ok] at h ⊢; exact ⟨h.1, Expr.Ok.mono hs _ _ e h.2⟩
  | .go e, h => by simp only [Stmt.Ok] at h ⊢; exact ⟨h.1, Expr.Ok.mono hs _ _ e h.2⟩
  | .select cs, h => by simp only [Stmt.Ok] at h ⊢; exact clauses_mono hs cs h
  | .many _, h => by simp only [Stmt.Ok] at h

theorem stmts_mono {S T : Sources} (hs : S.Le T) : ∀ ss : List Stmt, StmtsOk S ss → StmtsOk T ss
  | [], _ => by simp only [StmtsOk]
  | s :: r, h => by
    cases s
    case many ss => simp only [StmtsOk] at h ⊢; exact ⟨stmts_mono hs ss h.1, stmts_mono hs r h.2⟩
    all_goals
      simp only [StmtsOk] at h ⊢
      exact ⟨Stmt.Ok.mono hs _ _ h.1, stmts_mono hs r h.2⟩

theorem Clause.Ok.mono {S T : Sources} (hs : S.Le T) : ∀ c : Clause, c.Ok S → c.Ok T
  | .case s b, h => by simp only [Clause.Ok] at h ⊢; exact ⟨h.1, Stmt.Ok.mono hs _ s h.2.1, stmts_mono hs b h.2.2⟩
  | .default b, h => by simp only [Clause.Ok] at h ⊢; exact stmts_mono hs b h

theorem clauses_mono {S T : Sources} (hs : S.Le T) : ∀ cs : List Clause, ClausesOk S cs → ClausesOk T cs
  | [], _ => by simp only [ClausesOk]
  | c :: cs, h => by simp only [ClausesOk] at h ⊢; exact ⟨Clause.Ok.mono hs c h.1, clauses_mono hs cs h.2⟩

end

mutual

theorem FieldDecl.Ok.mono {S T : Sources} (hs : S.Le T) : ∀ f : FieldDecl, f.Ok S → f.Ok T
  | .named xs t, h => by simp only [FieldDecl.Ok] at h ⊢; exact ⟨h.1, h.2.1, Ty.Ok.mono hs t h.2.2⟩
  | .embedded t, h => by simp only [FieldDecl.Ok] at h ⊢; exact ⟨h.1, Ty.Ok.mono hs t h.2⟩
  | .many fs, h => by simp only [FieldDecl.Ok] at h ⊢; exact fields_mono hs fs h

theorem fields_mono {S T : Sources} (hs : S.Le T) : ∀ fs : List FieldDecl, FieldsOk S fs → FieldsOk T fs
  | [], _ => by simp only [FieldsOk]
  | f :: fs, h => by simp only [FieldsOk] at h ⊢; exact ⟨FieldDecl.Ok.mono hs f h.1, fields_mono hs fs h.2⟩

end

mutual

theorem Decl.Ok.mono {S T : Sources} (hs : S.Le T) : ∀ d : Decl, d.Ok S → d.Ok T
  | .imports specs, h => by simp only [Decl.Ok] at h ⊢; exact h
  | .struct x fs, h => by simp only [Decl.Ok] at h ⊢; exact ⟨h.1, fields_mono hs fs h.2⟩
  | .type x t, h => by simp only [Decl.Ok] at h ⊢; exact ⟨h.1, h.2.1, Ty.Ok.mono hs t h.2.2⟩
  | .var x e, h => by simp only [Decl.Ok] at h ⊢; exact ⟨h.1, Expr.Ok.mono hs _ _ e h.2⟩
  | .func x ps r b, h => by
    simp only [Decl.Ok] at h ⊢
    exact ⟨h.1, h.2.1, groups_mono hs ps h.2.2.1, Results.Ok.mono hs r h.2.2.2.1, stmts_mono hs b h.2.2.2.2⟩
  | .method r t x ps rs b, h => by
    simp only [Decl.Ok] at h ⊢
    obtain ⟨h1, h2, h3, h4, h5, h6, h7, h8, h9⟩ := h
    exact ⟨h1, h2, Ty.Ok.mono hs t h3, h4, h5, groups_mono hs ps h6, h7, struct_mono hs rs h8, stmts_mono hs b h9⟩
  | .many ds, h => by simp only [Decl.Ok] at h ⊢; exact decls_mono hs ds h

theorem decls_mono {S T : Sources} (hs : S.Le T) : ∀ ds : List Decl, DeclsOk S ds → DeclsOk T ds
  | [], _ => by simp only [DeclsOk]
  | d :: ds, h => by simp only [DeclsOk] at h ⊢; exact ⟨Decl.Ok.mono hs d h.1, decls_mono hs ds h.2⟩

end

theorem Grammatical.mono {S T : Sources} (hs : S.Le T) {ds : List Decl} (h : Grammatical S ds) : Grammatical T ds :=
  ⟨decls_mono hs ds h.1, h.2⟩

end Gowrap.Go
