import Verif.Model.GoAst
/-!
# The tokens of syntax trees come before what follows
-/

namespace Gowrap.Go

open Gowrap

theorem putNames_append (xs : List Str) (k : List Tok) : putNames xs k = putNames xs [] ++ k := by
  induction xs with
  | nil => rfl
  | cons x xs ih => cases xs with
    | nil => rfl
    | cons y xs => simp only [putNames]; rw [ih]; simp

mutual

theorem Ty.put_append : ∀ (t : Ty) (k : List Tok), t.put k = t.put [] ++ k
  | .name _, _ => rfl
  | .qual _ _, _ => rfl
  | .ptr t, k => by simp only [Ty.put]; rw [t.put_append]; simp
  | .slice t, k => by simp only [Ty.put]; rw [t.put_append]; simp
  | .map a b, k => by simp only [Ty.put]; rw [a.put_append, a.put_append (_ :: b.put []), b.put_append k]; simp
  | .chan t, k => by simp only [Ty.put]; rw [t.put_append]; simp
  | .dots t, k => by simp only [Ty.put]; rw [t.put_append]; simp
  | .func ps r, k => by
    simp only [Ty.put]; rw [putGroups_append ps, putGroups_append ps (_ :: r.put []), r.put_append k]; simp
  | .iface ms, k => by simp only [Ty.put]; rw [putMethods_append ms, putMethods_append ms [_]]; simp
  | .struct gs, k => by simp only [Ty.put]; rw [putStruct_append gs, putStruct_append gs [_]]; simp
  | .toks l, k => by simp [Ty.put]
  | .part t, k => by simp [Ty.put]

theorem Group.put_append : ∀ (g : Group) (k : List Tok), g.put k = g.put [] ++ k
  | .mk xs t, k => by simp only [Group.put]; rw [putNames_append, putNames_append xs (t.put []), t.put_append k]; simp

theorem putGroups_append : ∀ (gs : List Group) (k : List Tok), putGroups gs k = putGroups gs [] ++ k
  | [], _ => rfl
  | [g], k => by simp only [putGroups]; exact g.put_append k
  | g :: h :: gs, k => by
    simp only [putGroups]
    rw [g.put_append, g.put_append (_ :: putGroups (h :: gs) []), putGroups_append (h :: gs) k]; simp

theorem putStruct_append : ∀ (gs : List Group) (k : List Tok), putStruct gs k = putStruct gs [] ++ k
  | [], _ => rfl
  | [g], k => by simp only [putStruct]; exact g.put_append k
  | g :: h :: gs, k => by
    simp only [putStruct]
    rw [g.put_append, g.put_append (_ :: putStruct (h :: gs) []), putStruct_append (h :: gs) k]; simp

theorem Results.put_append : ∀ (r : Results) (k : List Tok), r.put k = r.put [] ++ k
  | .none, _ => rfl
  | .one t, k => by simp only [Results.put]; exact t.put_append k
  | .list gs, k => by simp only [Results.put]; rw [putGroups_append gs, putGroups_append gs [_]]; simp

theorem putMethods_append : ∀ (ms : List IfaceMethod) (k : List Tok), putMethods ms k = putMethods ms [] ++ k
  | [], _ => rfl
  | [m], k => by simp only [putMethods]; exact m.put_append k
  | m :: n :: ms, k => by
    simp only [putMethods]
    rw [m.put_append, m.put_append (_ :: putMethods (n :: ms) []), putMethods_append (n :: ms) k]; simp

theorem IfaceMethod.put_append : ∀ (m : IfaceMethod) (k : List Tok), m.put k = m.put [] ++ k
  | .mk x ps r, k => by
    simp only [IfaceMethod.put]; rw [putGroups_append ps, putGroups_append ps (_ :: r.put []), r.put_append k]; simp

end

mutual

theorem Expr.put_append : ∀ (e : Expr) (k : List Tok), e.put k = e.put [] ++ k
  | .id _, _ => rfl
  | .str _, _ => rfl
  | .num _, _ => rfl
  | .sel e f, k => by
    simp only [Expr.put]; rw [e.put_append (_ :: _ :: k), e.put_append [_, _]]; simp
  | .call f args comma, k => by
    simp only [Expr.put]
    rw [f.put_append, f.put_append (_ :: _), putExprs_append args, putExprs_append args (bif comma then _ else _)]
    cases comma <;> simp
  | .spread e, k => by simp only [Expr.put]; rw [e.put_append (_ :: k), e.put_append [_]]; simp
  | .index e i, k => by
    simp only [Expr.put]
    rw [e.put_append, e.put_append (_ :: _), i.put_append, i.put_append [_]]; simp
  | .un op e, k => by simp only [Expr.put]; rw [e.put_append]; simp
  | .bin op a b, k => by
    simp only [Expr.put]; rw [a.put_append, a.put_append (_ :: b.put []), b.put_append k]; simp
  | .paren e, k => by simp only [Expr.put]; rw [e.put_append, e.put_append [_]]; simp
  | .assert e t, k => by
    simp only [Expr.put]; rw [e.put_append, e.put_append (_ :: _ :: t.put [_]), t.put_append, t.put_append [_]]; simp
  | .lit t es comma, k => by
    simp only [Expr.put]
    rw [t.put_append, t.put_append (_ :: putExprs es _), putExprs_append es, putExprs_append es (bif comma then _ else _)]
    cases comma <;> simp
  | .pair a b, k => by
    simp only [Expr.put]; rw [a.put_append, a.put_append (_ :: b.put []), b.put_append k]; simp
  | .fn ps r body, k => by
    simp only [Expr.put]
    rw [putGroups_append, putGroups_append ps (_ :: r.put _), r.put_append, r.put_append (_ :: putStmts body [_]),
      putStmts_append body, putStmts_append body [_]]; simp
  | .type t, k => by simp only [Expr.put]; exact t.put_append k
  | .many es, k => by simp [Expr.put]

theorem putExprs_append : ∀ (es : List Expr) (k : List Tok), putExprs es k = putExprs es [] ++ k
  | [], _ => rfl
  | e :: es, k => by
    simp only [putExprs]; rw [e.put_append, e.put_append (putRest es []), putRest_append es k]; simp

theorem putRest_append : ∀ (es : List Expr) (k : List Tok), putRest es k = putRest es [] ++ k
  | [], _ => rfl
  | e :: es, k => by
    simp only [putRest]; rw [e.put_append, e.put_append (putRest es []), putRest_append es k]; simp

theorem Stmt.put_append : ∀ (s : Stmt) (k : List Tok), s.put k = s.put [] ++ k
  | .expr e, k => by simp only [Stmt.put]; exact e.put_append k
  | .assign l r, k => by
    simp only [Stmt.put]; rw [putExprs_append l, putExprs_append l (_ :: putExprs r []), putExprs_append r k]; simp
  | .define l r, k => by
    simp only [Stmt.put]; rw [putExprs_append l, putExprs_append l (_ :: putExprs r []), putExprs_append r k]; simp
  | .inc e, k => by simp only [Stmt.put]; rw [e.put_append (_ :: k), e.put_append [_]]; simp
  | .send c v, k => by
    simp only [Stmt.put]; rw [c.put_append, c.put_append (_ :: v.put []), v.put_append k]; simp
  | .var x t, k => by simp only [Stmt.put]; rw [t.put_append]; simp
  | .varInit x e, k => by simp only [Stmt.put]; rw [e.put_append]; simp
  | .type x t, k => by simp only [Stmt.put]; rw [t.put_append]; simp
  | .ret es, k => by simp only [Stmt.put]; rw [putExprs_append es]; simp
  | .cond c body, k => by
    simp only [Stmt.put]
    rw [c.put_append, c.put_append (_ :: putStmts body [_]), putStmts_append body, putStmts_append body [_]]; simp
  | .condElse c body els, k => by
    simp only [Stmt.put]
    rw [c.put_append, c.put_append (_ :: putStmts body _), putStmts_append body, putStmts_append body (_ :: _ :: _ :: putStmts els [_]),
      putStmts_append els, putStmts_append els [_]]; simp
  | .condElseIf c body els, k => by
    simp only [Stmt.put]
    rw [c.put_append, c.put_append (_ :: putStmts body _), putStmts_append body, putStmts_append body (_ :: _ :: els.put []),
      els.put_append k]; simp
  | .condInit i c body, k => by
    simp only [Stmt.put]
    rw [i.put_append, i.put_append (_ :: c.put _), c.put_append, c.put_append (_ :: putStmts body [_]),
      putStmts_append body, putStmts_append body [_]]; simp
  | .loop i c p body, k => by
    simp only [Stmt.put]
    rw [i.put_append, i.put_append (_ :: c.put _), c.put_append, c.put_append (_ :: p.put _),
      p.put_append, p.put_append (_ :: putStmts body [_]), putStmts_append body, putStmts_append body [_]]; simp
  | .forever body, k => by
    simp only [Stmt.put]; rw [putStmts_append body, putStmts_append body [_]]; simp
  | .range xs e body, k => by
    simp only [Stmt.put]
    rw [putExprs_append xs, putExprs_append xs (_ :: _ :: e.put _), e.put_append, e.put_append (_ :: putStmts body [_]),
      putStmts_append body, putStmts_append body [_]]; simp
  | .defer e, k => by simp only [Stmt.put]; rw [e.put_append]; simp
  | .go e, k => by simp only [Stmt.put]; rw [e.put_append]; simp
  | .select cs, k => by
    simp only [Stmt.put]; rw [putClauses_append cs, putClauses_append cs [_]]; simp
  | .many ss, k => by simp [Stmt.put]

theorem putStmts_append : ∀ (ss : List Stmt) (k : List Tok), putStmts ss k = putStmts ss [] ++ k
  | [], _ => rfl
  | s :: ss, k => by
    simp only [putStmts]
    rw [s.put_append, s.put_append (bif s.isMany then putStmts ss [] else _), putStmts_append ss k]
    cases s.isMany <;> simp

theorem Clause.put_append : ∀ (c : Clause) (k : List Tok), c.put k = c.put [] ++ k
  | .case s body, k => by
    simp only [Clause.put]; rw [s.put_append, s.put_append (_ :: putStmts body []), putStmts_append body k]; simp
  | .default body, k => by simp only [Clause.put]; rw [putStmts_append body k]; simp

theorem putClauses_append : ∀ (cs : List Clause) (k : List Tok), putClauses cs k = putClauses cs [] ++ k
  | [], _ => rfl
  | c :: cs, k => by
    simp only [putClauses]; rw [c.put_append, c.put_append (putClauses cs []), putClauses_append cs k]; simp

end

mutual

theorem FieldDecl.put_append : ∀ (f : FieldDecl) (k : List Tok), f.put k = f.put [] ++ k
  | .named xs t, k => by simp only [FieldDecl.put]; rw [putNames_append, putNames_append xs (t.put [_]), t.put_append, t.put_append [_]]; simp
  | .embedded t, k => by simp only [FieldDecl.put]; rw [t.put_append, t.put_append [_]]; simp
  | .many fs, k => by simp [FieldDecl.put]

theorem putFields_append : ∀ (fs : List FieldDecl) (k : List Tok), putFields fs k = putFields fs [] ++ k
  | [], _ => rfl
  | f :: fs, k => by
    simp only [putFields]; rw [f.put_append, f.put_append (putFields fs []), putFields_append fs k]; simp

end

theorem putSpecs_append (ss : List (Option Str × Str)) (k : List Tok) : putSpecs ss k = putSpecs ss [] ++ k := by
  induction ss with
  | nil => rfl
  | cons s ss ih =>
    obtain ⟨_ | x, p⟩ := s <;> simp only [putSpecs] <;> rw [ih] <;> simp

mutual

theorem Decl.put_append : ∀ (d : Decl) (k : List Tok), d.put k = d.put [] ++ k
  | .imports ss, k => by simp only [Decl.put]; rw [putSpecs_append, putSpecs_append ss [_, _]]; simp
  | .struct x fs, k => by simp only [Decl.put]; rw [putFields_append, putFields_append fs [_, _]]; simp
  | .type x t, k => by simp only [Decl.put]; rw [t.put_append, t.put_append [_]]; simp
  | .var x e, k => by simp only [Decl.put]; rw [e.put_append, e.put_append [_]]; simp
  | .func x ps r body, k => by
    simp only [Decl.put]
    rw [putGroups_append, putGroups_append ps (_ :: r.put _), r.put_append, r.put_append (_ :: putStmts body [_, _]),
      putStmts_append, putStmts_append body [_, _]]; simp
  | .method r t x ps rs body, k => by
    simp only [Decl.put]
    rw [t.put_append, t.put_append (_ :: _ :: _ :: _), putStmts_append, putStmts_append body [_, _]]; simp
  | .many ds, k => by simp [Decl.put]

theorem putDecls_append : ∀ (ds : List Decl) (k : List Tok), putDecls ds k = putDecls ds [] ++ k
  | [], _ => rfl
  | d :: ds, k => by
    simp only [putDecls]; rw [d.put_append, d.put_append (putDecls ds []), putDecls_append ds k]; simp

end

theorem putStmts_concat (a b : List Stmt) : putStmts (a ++ b) [] = putStmts a [] ++ putStmts b [] := by
  induction a with
  | nil => rfl
  | cons s a ih =>
    simp only [List.cons_append, putStmts]
    rw [ih, s.put_append, s.put_append (bif s.isMany then putStmts a [] else _)]
    cases s.isMany <;> simp

theorem putFields_concat (a b : List FieldDecl) : putFields (a ++ b) [] = putFields a [] ++ putFields b [] := by
  induction a with
  | nil => rfl
  | cons s a ih =>
    simp only [List.cons_append, putFields]
    rw [ih, s.put_append, s.put_append (putFields a [])]
    simp

theorem putDecls_concat (a b : List Decl) : putDecls (a ++ b) [] = putDecls a [] ++ putDecls b [] := by
  induction a with
  | nil => rfl
  | cons s a ih =>
    simp only [List.cons_append, putDecls]
    rw [ih, s.put_append, s.put_append (putDecls a [])]
    simp

end Gowrap.Go
