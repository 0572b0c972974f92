import Verif.Spec.Reading
import Verif.Spec.Terminating
/-!
# Whether functions return can be seen from what is read
-/

namespace Gowrap.Go

open Gowrap

theorem endsIn_append : ∀ (a b : List Stmt) (last : Bool), endsIn last (a ++ b) = endsIn (endsIn last a) b
  | [], _, _ => by simp [endsIn]
  | s :: a, b, last => by
    cases s <;> simp [endsIn, endsIn_append a b]

mutual

theorem terminates_normal : ∀ s : Stmt, s.normal.terminates = s.terminates
  | .expr e => by
    cases e with
    | call f es c => cases f <;> simp [Stmt.normal, Expr.normal, Stmt.terminates]
    | _ => simp [Stmt.normal, Expr.normal, Stmt.terminates]
  | .condElse c a b => by simp [Stmt.normal, Stmt.terminates, endsIn_normal a, endsIn_normal b]
  | .condElseIf c a s => by simp [Stmt.normal, Stmt.terminates, endsIn_normal a, terminates_normal s]
  | .select cs => by simp [Stmt.normal, Stmt.terminates, clausesTerminate_normal cs]
  | .assign _ _ | .define _ _ | .inc _ | .send _ _ | .var _ _ | .varInit _ _ | .type _ _ | .ret _ | .cond _ _ | .condInit _ _ _ | .loop _ _ _ _
  | .forever _ | .range _ _ _ | .defer _ | .go _ | .many _ => by simp [Stmt.normal, Stmt.terminates]

theorem endsIn_normal : ∀ (ss : List Stmt) (last : Bool), endsIn last (normalStmts ss) = endsIn last ss
  | [], _ => by simp [normalStmts, endsIn]
  | .many ss :: r, last => by simp [normalStmts, endsIn, endsIn_append, endsIn_normal ss, endsIn_normal r]
  | .expr e :: r, last => by
    have := terminates_normal (.expr e)
    simp [normalStmts, Stmt.normal, endsIn, endsIn_normal r] at *
    rw [this]
  | .condElse c a b :: r, last => by
    have := terminates_normal (.condElse c a b)
    simp [normalStmts, Stmt.normal, endsIn, endsIn_normal r] at *
    rw [this]
  | .condElseIf c a b :: r, last => by
    have := terminates_normal (.condElseIf c a b)
    simp [normalStmts, Stmt.normal, endsIn, endsIn_normal r] at *
    rw [this]
  | .select cs :: r, last => by
    have := terminates_normal (.select cs)
    simp [normalStmts, Stmt.normal, endsIn, endsIn_normal r] at *
    rw [this]
  | .assign _ _ :: r, last | .define _ _ :: r, last | .inc _ :: r, last | .send _ _ :: r, last | .var _ _ :: r, last | .varInit _ _ :: r, last
  | .type _ _ :: r, last | .ret _ :: r, last | .cond _ _ :: r, last | .condInit _ _ _ :: r, last | .loop _ _ _ _ :: r, last
  | .forever _ :: r, last | .range _ _ _ :: r, last | .defer _ :: r, last | .go _ :: r, last => by
    simp [normalStmts, Stmt.normal, endsIn, Stmt.terminates, endsIn_normal r]

theorem clausesTerminate_normal : ∀ cs : List Clause, clausesTerminate (normalClauses cs) = clausesTerminate cs
  | [] => rfl
  | .case s b :: cs => by simp [normalClauses, Clause.normal, clausesTerminate, endsIn_normal b, clausesTerminate_normal cs]
  | .default b :: cs => by simp [normalClauses, Clause.normal, clausesTerminate, endsIn_normal b, clausesTerminate_normal cs]

end

theorem groupCount_normal : ∀ gs : List Group, groupCount (gs.map Group.normal) = groupCount gs
  | [] => rfl
  | .mk [] t :: gs => by simp [Group.normal, groupCount, groupCount_normal gs]
  | .mk (x :: xs) t :: gs => by simp [Group.normal, groupCount, groupCount_normal gs]

theorem count_normal (r : Results) : r.normal.count = r.count := by
  cases r <;> simp [Results.normal, Results.count, groupCount_normal]

theorem literalsReturnIn_append : ∀ a b : List Expr, literalsReturnIn (a ++ b) = (literalsReturnIn a && literalsReturnIn b)
  | [], _ => by simp [literalsReturnIn]
  | e :: a, b => by simp [literalsReturnIn, literalsReturnIn_append a b, Bool.and_assoc]

theorem literalsReturnIns_append : ∀ a b : List Stmt, literalsReturnIns (a ++ b) = (literalsReturnIns a && literalsReturnIns b)
  | [], _ => by simp [literalsReturnIns]
  | e :: a, b => by simp [literalsReturnIns, literalsReturnIns_append a b, Bool.and_assoc]

/-- The forms of lists of expressions. -/
theorem normalExprs_cons (e : Expr) (r : List Expr) :
    (∃ es, e = .many es ∧ normalExprs (e :: r) = normalExprs es ++ normalExprs r) ∨ normalExprs (e :: r) = e.normal :: normalExprs r := by
  cases e <;> first
    | exact .inl ⟨_, rfl, by simp [normalExprs]⟩
    | exact .inr (by simp [normalExprs])

theorem normalStmts_cons (s : Stmt) (r : List Stmt) :
    (∃ ss, s = .many ss ∧ normalStmts (s :: r) = normalStmts ss ++ normalStmts r) ∨ normalStmts (s :: r) = s.normal :: normalStmts r := by
  cases s <;> first
    | exact .inl ⟨_, rfl, by simp [normalStmts]⟩
    | exact .inr (by simp [normalStmts])

mutual

theorem literalsReturn_normal : ∀ e : Expr, e.normal.literalsReturn = e.literalsReturn
  | .id _ | .str _ | .num _ | .type _ => by simp [Expr.normal, Expr.literalsReturn]
  | .sel e _ | .spread e | .un _ e | .paren e | .assert e _ => by simp [Expr.normal, Expr.literalsReturn, literalsReturn_normal e]
  | .call f es _ => by simp [Expr.normal, Expr.literalsReturn, literalsReturn_normal f, literalsReturnIn_normal es]
  | .index a b | .bin _ a b | .pair a b => by simp [Expr.normal, Expr.literalsReturn, literalsReturn_normal a, literalsReturn_normal b]
  | .lit _ es _ => by simp [Expr.normal, Expr.literalsReturn, literalsReturnIn_normal es]
  | .fn _ r b => by simp [Expr.normal, Expr.literalsReturn, count_normal r, endsIn_normal b, literalsReturnIns_normal b]
  | .many es => by simp [Expr.normal, Expr.literalsReturn, literalsReturnIn_normal es]

theorem literalsReturnIn_normal : ∀ es : List Expr, literalsReturnIn (normalExprs es) = literalsReturnIn es
  | [] => by simp [normalExprs]
  | e :: es => by
    have h := literalsReturn_normal e
    rcases normalExprs_cons e es with ⟨xs, rfl, he⟩ | he
    · rw [Expr.normal] at h
      simp only [Expr.literalsReturn] at h
      rw [he, literalsReturnIn_append, h, literalsReturnIn_normal es, literalsReturnIn, Expr.literalsReturn]
    · rw [he, literalsReturnIn, h, literalsReturnIn_normal es, literalsReturnIn]

theorem Stmt.literalsReturn_normal : ∀ s : Stmt, s.normal.literalsReturn = s.literalsReturn
  | .expr e | .inc e | .varInit _ e | .defer e | .go e => by simp [Stmt.normal, Stmt.literalsReturn, Go.literalsReturn_normal e]
  | .assign a b | .define a b => by simp [Stmt.normal, Stmt.literalsReturn, literalsReturnIn_normal a, literalsReturnIn_normal b]
  | .send a b => by simp [Stmt.normal, Stmt.literalsReturn, Go.literalsReturn_normal a, Go.literalsReturn_normal b]
  | .var _ _ | .type _ _ => by simp [Stmt.normal, Stmt.literalsReturn]
  | .ret es => by simp [Stmt.normal, Stmt.literalsReturn, literalsReturnIn_normal es]
  | .cond c b => by simp [Stmt.normal, Stmt.literalsReturn, Go.literalsReturn_normal c, literalsReturnIns_normal b]
  | .condElse c a b => by
    simp [Stmt.normal, Stmt.literalsReturn, Go.literalsReturn_normal c, literalsReturnIns_normal a, literalsReturnIns_normal b]
  | .condElseIf c a s => by
    simp [Stmt.normal, Stmt.literalsReturn, Go.literalsReturn_normal c, literalsReturnIns_normal a, Stmt.literalsReturn_normal s]
  | .condInit s c b => by
    simp [Stmt.normal, Stmt.literalsReturn, Go.literalsReturn_normal c, literalsReturnIns_normal b, Stmt.literalsReturn_normal s]
  | .loop s c t b => by
    simp [Stmt.normal, Stmt.literalsReturn, Go.literalsReturn_normal c, literalsReturnIns_normal b, Stmt.literalsReturn_normal s,
      Stmt.literalsReturn_normal t]
  | .forever b => by simp [Stmt.normal, Stmt.literalsReturn, literalsReturnIns_normal b]
  | .range xs e b => by
    simp [Stmt.normal, Stmt.literalsReturn, literalsReturnIn_normal xs, Go.literalsReturn_normal e, literalsReturnIns_normal b]
  | .select cs => by simp [Stmt.normal, Stmt.literalsReturn, clausesLiteralsReturn_normal cs]
  | .many ss => by simp [Stmt.normal, Stmt.literalsReturn, literalsReturnIns_normal ss]

theorem literalsReturnIns_normal : ∀ ss : List Stmt, literalsReturnIns (normalStmts ss) = literalsReturnIns ss
  | [] => by simp [normalStmts]
  | s :: ss => by
    have h := Stmt.literalsReturn_normal s
    rcases normalStmts_cons s ss with ⟨xs, rfl, he⟩ | he
    · rw [Stmt.normal] at h
      simp only [Stmt.literalsReturn] at h
      rw [he, literalsReturnIns_append, h, literalsReturnIns_normal ss, literalsReturnIns, Stmt.literalsReturn]
    · rw [he, literalsReturnIns, h, literalsReturnIns_normal ss, literalsReturnIns]

theorem clausesLiteralsReturn_normal : ∀ cs : List Clause, clausesLiteralsReturn (normalClauses cs) = clausesLiteralsReturn cs
  | [] => rfl
  | .case s b :: cs => by
    simp [normalClauses, Clause.normal, clausesLiteralsReturn, Stmt.literalsReturn_normal s, literalsReturnIns_normal b, clausesLiteralsReturn_normal cs]
  | .default b :: cs => by
    simp [normalClauses, Clause.normal, clausesLiteralsReturn, literalsReturnIns_normal b, clausesLiteralsReturn_normal cs]

end

theorem returns_normal (d : Decl) : d.normal.Returns ↔ d.Returns := by
  cases d <;> simp [Decl.normal, Decl.Returns, count_normal, groupCount_normal, endsIn_normal, literalsReturnIns_normal, literalsReturn_normal]

theorem returns_read (ds : List Decl) : (∀ x ∈ normalDecls ds, x.Returns) ↔ ∀ x ∈ flatDecls ds, x.Returns := by
  simp [normalDecls, returns_normal]

end Gowrap.Go
