import Verif.Proofs.ReadingReturns
import Verif.Spec.Shared
/-!
# What functions assign and share can be seen from what is read
-/

namespace Gowrap.Go

open Gowrap

theorem boundNames_normal (gs : List Group) : boundNames (gs.map Group.normal) = boundNames gs := by
  induction gs with
  | nil => rfl
  | cons g gs ih =>
    simp only [boundNames, List.map_cons, List.flatMap_cons] at ih ⊢
    rw [ih]
    cases g
    rfl

theorem Results.names_normal (r : Results) : r.normal.names = r.names := by
  cases r <;> simp [Results.normal, Results.names, boundNames_normal]

theorem normalStmts_append : ∀ a b : List Stmt, normalStmts (a ++ b) = normalStmts a ++ normalStmts b
  | [], _ => by simp [normalStmts]
  | s :: a, b => by
    rw [List.cons_append]
    cases s <;> simp [normalStmts, normalStmts_append a b]

/-! ## Declared names -/

theorem idNames_append : ∀ a b : List Expr, idNames (a ++ b) = idNames a ++ idNames b
  | [], _ => by simp [idNames]
  | e :: a, b => by simp [idNames, idNames_append a b]

mutual

theorem Expr.idNames_normal : ∀ e : Expr, e.normal.idNames = e.idNames
  | .many es => by simp [Expr.normal, Expr.idNames, idNames_normal es]
  | .id _ | .str _ | .num _ | .type _ | .sel _ _ | .spread _ | .un _ _ | .paren _ | .assert _ _ | .call _ _ _ | .index _ _ | .bin _ _ _ | .pair _ _
  | .lit _ _ _ | .fn _ _ _ => by simp [Expr.normal, Expr.idNames]

theorem idNames_normal : ∀ es : List Expr, idNames (normalExprs es) = idNames es
  | [] => by simp [normalExprs]
  | e :: es => by
    have h := Expr.idNames_normal e
    rcases normalExprs_cons e es with ⟨xs, rfl, he⟩ | he
    · rw [Expr.normal] at h
      simp only [Expr.idNames] at h
      rw [he, idNames_append, h, idNames_normal es, idNames, Expr.idNames]
    · rw [he, idNames, h, idNames_normal es, idNames]

end

theorem introducedBy_append : ∀ a b : List Stmt, introducedBy (a ++ b) = introducedBy a ++ introducedBy b
  | [], _ => by simp [introducedBy]
  | e :: a, b => by simp [introducedBy, introducedBy_append a b]

mutual

theorem Stmt.introduces_normal : ∀ s : Stmt, s.normal.introduces = s.introduces
  | .many ss => by simp [Stmt.normal, Stmt.introduces, introducedBy_normal ss]
  | .define l _ => by simp [Stmt.normal, Stmt.introduces, idNames_normal l]
  | .expr _ | .assign _ _ | .inc _ | .send _ _ | .var _ _ | .varInit _ _ | .type _ _ | .ret _ | .cond _ _ | .condElse _ _ _ | .condElseIf _ _ _
  | .condInit _ _ _ | .loop _ _ _ _ | .forever _ | .range _ _ _ | .defer _ | .go _ | .select _ => by simp [Stmt.normal, Stmt.introduces]

theorem introducedBy_normal : ∀ ss : List Stmt, introducedBy (normalStmts ss) = introducedBy ss
  | [] => by simp [normalStmts]
  | s :: ss => by
    have h := Stmt.introduces_normal s
    rcases normalStmts_cons s ss with ⟨xs, rfl, he⟩ | he
    · rw [Stmt.normal] at h
      simp only [Stmt.introduces] at h
      rw [he, introducedBy_append, h, introducedBy_normal ss, introducedBy, Stmt.introduces]
    · rw [he, introducedBy, h, introducedBy_normal ss, introducedBy]

end

/-! ## Uses -/

theorem usedByAny_append (x : Str) : ∀ a b : List Expr, usedByAny x (a ++ b) = (usedByAny x a || usedByAny x b)
  | [], _ => by simp [usedByAny]
  | e :: a, b => by simp [usedByAny, usedByAny_append x a b, Bool.or_assoc]

theorem targetsUse_append (x : Str) : ∀ a b : List Expr, targetsUse x (a ++ b) = (targetsUse x a || targetsUse x b)
  | [], _ => by simp [targetsUse]
  | e :: a, b => by simp [targetsUse, targetsUse_append x a b, Bool.or_assoc]

theorem usedIn_append (x : Str) (same : Bool) : ∀ a b : List Stmt,
    usedIn x same (a ++ b) = (usedIn x same a || ((same || !decide (x ∈ introducedBy a)) && usedIn x same b))
  | [], _ => by simp [usedIn, introducedBy]
  | s :: a, b => by
    rw [List.cons_append, usedIn, usedIn, usedIn_append x same a b, introducedBy]
    by_cases h1 : x ∈ s.introduces <;> by_cases h2 : x ∈ introducedBy a <;> cases same <;> simp [h1, h2, Bool.or_assoc]

mutual

theorem uses_normal (x : Str) : ∀ e : Expr, e.normal.uses x = e.uses x
  | .id _ | .str _ | .num _ | .type _ => by simp [Expr.normal, Expr.uses]
  | .sel e _ | .spread e | .un _ e | .paren e | .assert e _ => by simp [Expr.normal, Expr.uses, uses_normal x e]
  | .call f es _ => by simp [Expr.normal, Expr.uses, uses_normal x f, usedByAny_normal x es]
  | .index a b | .bin _ a b => by simp [Expr.normal, Expr.uses, uses_normal x a, uses_normal x b]
  | .pair a b => by
    have h1 := uses_normal x a
    have h2 := uses_normal x b
    cases a <;> simp only [Expr.normal, Expr.uses] at h1 ⊢ <;> simp only [h1, h2]
  | .lit _ es _ => by simp [Expr.normal, Expr.uses, usedByAny_normal x es]
  | .fn ps r b => by simp [Expr.normal, Expr.uses, boundNames_normal, Results.names_normal, usedIn_normal x b]
  | .many es => by simp [Expr.normal, Expr.uses, usedByAny_normal x es]

theorem usedByAny_normal (x : Str) : ∀ es : List Expr, usedByAny x (normalExprs es) = usedByAny x es
  | [] => by simp [normalExprs]
  | e :: es => by
    have h := uses_normal x e
    rcases normalExprs_cons e es with ⟨xs, rfl, he⟩ | he
    · rw [Expr.normal] at h
      simp only [Expr.uses] at h
      rw [he, usedByAny_append, h, usedByAny_normal x es, usedByAny, Expr.uses]
    · rw [he, usedByAny, h, usedByAny_normal x es, usedByAny]

theorem targetUses_normal (x : Str) : ∀ e : Expr, e.normal.targetUses x = e.targetUses x
  | .many es => by simp [Expr.normal, Expr.targetUses, targetsUse_normal x es]
  | .sel e _ | .un _ e | .paren e => by simp [Expr.normal, Expr.targetUses, uses_normal x e]
  | .index a b => by simp [Expr.normal, Expr.targetUses, uses_normal x a, uses_normal x b]
  | .id _ | .str _ | .num _ | .type _ | .spread _ | .assert _ _ | .call _ _ _ | .bin _ _ _ | .pair _ _
  | .lit _ _ _ | .fn _ _ _ => by simp [Expr.normal, Expr.targetUses]

theorem targetsUse_normal (x : Str) : ∀ es : List Expr, targetsUse x (normalExprs es) = targetsUse x es
  | [] => by simp [normalExprs]
  | e :: es => by
    have h := targetUses_normal x e
    rcases normalExprs_cons e es with ⟨xs, rfl, he⟩ | he
    · rw [Expr.normal] at h
      simp only [Expr.targetUses] at h
      rw [he, targetsUse_append, h, targetsUse_normal x es, targetsUse, Expr.targetUses]
    · rw [he, targetsUse, h, targetsUse_normal x es, targetsUse]

theorem Stmt.uses_normal (x : Str) : ∀ (s : Stmt) (same : Bool), s.normal.uses x same = s.uses x same
  | .expr e, _ | .varInit _ e, _ | .defer e, _ | .go e, _ => by simp [Stmt.normal, Stmt.uses, Go.uses_normal x e]
  | .inc e, _ => by simp [Stmt.normal, Stmt.uses, targetUses_normal x e]
  | .assign a b, _ => by simp [Stmt.normal, Stmt.uses, targetsUse_normal x a, usedByAny_normal x b]
  | .define a b, _ => by simp [Stmt.normal, Stmt.uses, usedByAny_normal x b]
  | .send a b, _ => by simp [Stmt.normal, Stmt.uses, Go.uses_normal x a, Go.uses_normal x b]
  | .var _ _, _ | .type _ _, _ => by simp [Stmt.normal, Stmt.uses]
  | .ret es, _ => by simp [Stmt.normal, Stmt.uses, usedByAny_normal x es]
  | .cond c b, _ => by simp [Stmt.normal, Stmt.uses, Go.uses_normal x c, usedIn_normal x b]
  | .condElse c a b, _ => by simp [Stmt.normal, Stmt.uses, Go.uses_normal x c, usedIn_normal x a, usedIn_normal x b]
  | .condElseIf c a s, _ => by simp [Stmt.normal, Stmt.uses, Go.uses_normal x c, usedIn_normal x a, Stmt.uses_normal x s]
  | .condInit s c b, _ => by
    simp [Stmt.normal, Stmt.uses, Go.uses_normal x c, usedIn_normal x b, Stmt.uses_normal x s, Stmt.introduces_normal]
  | .loop s c t b, _ => by
    simp [Stmt.normal, Stmt.uses, Go.uses_normal x c, usedIn_normal x b, Stmt.uses_normal x s, Stmt.uses_normal x t, Stmt.introduces_normal]
  | .forever b, _ => by simp [Stmt.normal, Stmt.uses, usedIn_normal x b]
  | .range xs e b, _ => by simp [Stmt.normal, Stmt.uses, idNames_normal, Go.uses_normal x e, usedIn_normal x b]
  | .select cs, _ => by simp [Stmt.normal, Stmt.uses, usedByClause_normal x cs]
  | .many ss, _ => by simp [Stmt.normal, Stmt.uses, usedIn_normal x ss]

theorem usedIn_normal (x : Str) : ∀ (ss : List Stmt) (same : Bool), usedIn x same (normalStmts ss) = usedIn x same ss
  | [], _ => by simp [normalStmts]
  | s :: ss, same => by
    have h := Stmt.uses_normal x s same
    rcases normalStmts_cons s ss with ⟨xs, rfl, he⟩ | he
    · rw [Stmt.normal] at h
      simp only [Stmt.uses] at h
      rw [he, usedIn_append, h, usedIn_normal x ss, usedIn, Stmt.uses, introducedBy_normal, Stmt.introduces]
    · rw [he, usedIn, h, usedIn_normal x ss, usedIn, Stmt.introduces_normal]

theorem usedByClause_normal (x : Str) : ∀ cs : List Clause, usedByClause x (normalClauses cs) = usedByClause x cs
  | [] => rfl
  | .case s b :: cs => by
    simp [normalClauses, Clause.normal, usedByClause, Stmt.uses_normal x s, usedIn_normal x b, usedByClause_normal x cs, Stmt.introduces_normal]
  | .default b :: cs => by
    simp [normalClauses, Clause.normal, usedByClause, usedIn_normal x b, usedByClause_normal x cs]

end

/-! ## Assignments -/

theorem rootsOf_append : ∀ a b : List Expr, rootsOf (a ++ b) = rootsOf a ++ rootsOf b
  | [], _ => by simp [rootsOf]
  | e :: a, b => by simp [rootsOf, rootsOf_append a b]

mutual

theorem roots_normal : ∀ e : Expr, e.normal.roots = e.roots
  | .many es => by simp [Expr.normal, Expr.roots, rootsOf_normal es]
  | .sel e _ | .index e _ | .un _ e | .paren e => by simp [Expr.normal, Expr.roots, roots_normal e]
  | .id _ | .str _ | .num _ | .type _ | .spread _ | .assert _ _ | .call _ _ _ | .bin _ _ _ | .pair _ _
  | .lit _ _ _ | .fn _ _ _ => by simp [Expr.normal, Expr.roots]

theorem rootsOf_normal : ∀ es : List Expr, rootsOf (normalExprs es) = rootsOf es
  | [] => by simp [normalExprs]
  | e :: es => by
    have h := roots_normal e
    rcases normalExprs_cons e es with ⟨xs, rfl, he⟩ | he
    · rw [Expr.normal] at h
      simp only [Expr.roots] at h
      rw [he, rootsOf_append, h, rootsOf_normal es, rootsOf, Expr.roots]
    · rw [he, rootsOf, h, rootsOf_normal es, rootsOf]

end

theorem setsAny_append : ∀ a b : List Expr, setsAny (a ++ b) = setsAny a ++ setsAny b
  | [], _ => by simp [setsAny]
  | e :: a, b => by simp [setsAny, setsAny_append a b]

theorem setsIn_append' (all : Bool) (rs : List Str) : ∀ a b : List Stmt, setsIn all rs (a ++ b) = setsIn all rs a ++ setsIn all rs b
  | [], _ => by simp [setsIn]
  | e :: a, b => by simp [setsIn, setsIn_append' all rs a b]

theorem append_sub {α : Type} {a b c d : List α} (h : a ⊆ b) (h' : c ⊆ d) : a ++ c ⊆ b ++ d :=
  List.append_subset.mpr ⟨fun _ h1 => List.mem_append_left _ (h h1), fun _ h1 => List.mem_append_right _ (h' h1)⟩

/-- A `return` assigns to the results only if it has values. -/
theorem ret_sub (all : Bool) (rs : List Str) (es : List Expr) : (Stmt.ret es).sets all rs ⊆ (bif all then rs else []) ++ setsAny es := by
  cases es with
  | nil => simp [Stmt.sets]
  | cons e es => simp [Stmt.sets, setsAny]

mutual

theorem sets_normal : ∀ e : Expr, e.normal.sets ⊆ e.sets
  | .id _ | .str _ | .num _ | .type _ => by simp [Expr.normal, Expr.sets]
  | .sel e _ | .spread e | .un _ e | .paren e | .assert e _ => by simpa only [Expr.normal, Expr.sets] using sets_normal e
  | .call f es _ => by simpa only [Expr.normal, Expr.sets] using append_sub (sets_normal f) (setsAny_normal es)
  | .index a b | .bin _ a b | .pair a b => by simpa only [Expr.normal, Expr.sets] using append_sub (sets_normal a) (sets_normal b)
  | .lit _ es _ => by simpa only [Expr.normal, Expr.sets] using setsAny_normal es
  | .fn ps r b => by simpa only [Expr.normal, Expr.sets, Results.names_normal] using setsIn_normal true r.names b
  | .many es => by simpa only [Expr.normal, Expr.sets] using setsAny_normal es

theorem setsAny_normal : ∀ es : List Expr, setsAny (normalExprs es) ⊆ setsAny es
  | [] => by simp [normalExprs]
  | e :: es => by
    have h := sets_normal e
    rcases normalExprs_cons e es with ⟨xs, rfl, he⟩ | he
    · rw [Expr.normal] at h
      simp only [Expr.sets] at h
      rw [he, setsAny_append, setsAny, Expr.sets]
      exact append_sub h (setsAny_normal es)
    · rw [he, setsAny, setsAny]
      exact append_sub h (setsAny_normal es)

theorem Stmt.sets_normal (all : Bool) (rs : List Str) : ∀ s : Stmt, s.normal.sets all rs ⊆ s.sets all rs
  | .expr e | .defer e | .go e => by simpa only [Stmt.normal, Stmt.sets] using Go.sets_normal e
  | .assign l r | .define l r => by
    simpa only [Stmt.normal, Stmt.sets, rootsOf_normal] using append_sub (fun _ h => h) (append_sub (setsAny_normal l) (setsAny_normal r))
  | .inc e => by simpa only [Stmt.normal, Stmt.sets, roots_normal] using append_sub (fun _ h => h) (Go.sets_normal e)
  | .send a b => by simpa only [Stmt.normal, Stmt.sets] using append_sub (Go.sets_normal a) (Go.sets_normal b)
  | .var _ _ | .type _ _ => by simp [Stmt.normal, Stmt.sets]
  | .varInit _ e => by simpa only [Stmt.normal, Stmt.sets] using append_sub (fun _ h => h) (Go.sets_normal e)
  | .ret es => by
    have h := setsAny_normal es
    rw [Stmt.normal]
    cases es with
    | nil => simp [normalExprs, Stmt.sets]
    | cons e es => exact fun x hx => append_sub (fun _ h => h) h (ret_sub all rs _ hx)
  | .cond c b => by simpa only [Stmt.normal, Stmt.sets] using append_sub (Go.sets_normal c) (setsIn_normal all rs b)
  | .condElse c a b => by
    simpa only [Stmt.normal, Stmt.sets] using append_sub (Go.sets_normal c) (append_sub (setsIn_normal all rs a) (setsIn_normal all rs b))
  | .condElseIf c a s => by
    simpa only [Stmt.normal, Stmt.sets] using append_sub (Go.sets_normal c) (append_sub (setsIn_normal all rs a) (Stmt.sets_normal all rs s))
  | .condInit s c b => by
    simpa only [Stmt.normal, Stmt.sets] using append_sub (Stmt.sets_normal all rs s) (append_sub (Go.sets_normal c) (setsIn_normal all rs b))
  | .loop s c t b => by
    simpa only [Stmt.normal, Stmt.sets] using append_sub (Stmt.sets_normal all rs s)
      (append_sub (Go.sets_normal c) (append_sub (Stmt.sets_normal all rs t) (setsIn_normal all rs b)))
  | .forever b => by simpa only [Stmt.normal, Stmt.sets] using setsIn_normal all rs b
  | .range xs e b => by
    simpa only [Stmt.normal, Stmt.sets, rootsOf_normal] using append_sub (fun _ h => h) (append_sub (Go.sets_normal e) (setsIn_normal all rs b))
  | .select cs => by simpa only [Stmt.normal, Stmt.sets] using setsClauses_normal all rs cs
  | .many ss => by simpa only [Stmt.normal, Stmt.sets] using setsIn_normal all rs ss

theorem setsIn_normal (all : Bool) (rs : List Str) : ∀ ss : List Stmt, setsIn all rs (normalStmts ss) ⊆ setsIn all rs ss
  | [] => by simp [normalStmts]
  | s :: ss => by
    have h := Stmt.sets_normal all rs s
    rcases normalStmts_cons s ss with ⟨xs, rfl, he⟩ | he
    · rw [Stmt.normal] at h
      simp only [Stmt.sets] at h
      rw [he, setsIn_append', setsIn, Stmt.sets]
      exact append_sub h (setsIn_normal all rs ss)
    · rw [he, setsIn, setsIn]
      exact append_sub h (setsIn_normal all rs ss)

theorem setsClauses_normal (all : Bool) (rs : List Str) : ∀ cs : List Clause, setsClauses all rs (normalClauses cs) ⊆ setsClauses all rs cs
  | [] => by simp [normalClauses]
  | .case s b :: cs => by
    simpa only [normalClauses, Clause.normal, setsClauses] using
      append_sub (Stmt.sets_normal all rs s) (append_sub (setsIn_normal all rs b) (setsClauses_normal all rs cs))
  | .default b :: cs => by
    simpa only [normalClauses, Clause.normal, setsClauses] using append_sub (setsIn_normal all rs b) (setsClauses_normal all rs cs)

end

/-! ## Own variables -/

theorem ownTargets_append (own : List Str) : ∀ a b : List Expr, ownTargets own (a ++ b) = (ownTargets own a && ownTargets own b)
  | [], _ => by simp [ownTargets]
  | e :: a, b => by simp [ownTargets, ownTargets_append own a b, Bool.and_assoc]

mutual

theorem ownTarget_normal {own own' : List Str} (ho : own ⊆ own') : ∀ e : Expr, e.ownTarget own = true → e.normal.ownTarget own' = true
  | .id x, h => by
    simp only [Expr.normal, Expr.ownTarget, decide_eq_true_eq] at h ⊢
    exact ho h
  | .many es, h => by
    simp only [Expr.normal, Expr.ownTarget] at h ⊢
    exact ownTargets_normal ho es h
  | .str _, h | .num _, h | .type _, h | .sel _ _, h | .spread _, h | .un _ _, h | .paren _, h | .assert _ _, h | .call _ _ _, h | .index _ _, h
  | .bin _ _ _, h | .pair _ _, h | .lit _ _ _, h | .fn _ _ _, h => by simp [Expr.ownTarget] at h

theorem ownTargets_normal {own own' : List Str} (ho : own ⊆ own') : ∀ es : List Expr, ownTargets own es = true → ownTargets own' (normalExprs es) = true
  | [], _ => by simp [normalExprs, ownTargets]
  | e :: es, h => by
    rw [ownTargets, Bool.and_eq_true] at h
    have h1 := ownTarget_normal ho e h.1
    have h2 := ownTargets_normal ho es h.2
    rcases normalExprs_cons e es with ⟨xs, rfl, he⟩ | he
    · rw [Expr.normal, Expr.ownTarget] at h1
      rw [he, ownTargets_append, h1, h2, Bool.and_self]
    · rw [he, ownTargets, h1, h2, Bool.and_self]

end

theorem ownMemory_normal {own own' : List Str} (ho : own ⊆ own') (e : Expr) (h : e.ownMemory own = true) : e.normal.ownMemory own' = true := by
  cases e <;> simp only [Expr.normal, Expr.ownMemory, decide_eq_true_eq, Bool.false_eq_true] at h ⊢
  exact ho h

theorem isAtomic_normal (e : Expr) : e.normal.isAtomic = e.isAtomic := by
  cases e with
  | sel e x => cases e <;> simp [Expr.normal, Expr.isAtomic]
  | _ => simp [Expr.normal, Expr.isAtomic]

theorem keeps_call {own : List Str} {f : Expr} {es : List Expr} {c : Bool} : (Expr.call f es c).keeps own = true ↔
    f.keeps own = true ∧ (keepsAny own es = true ∨ ∃ op e r, es = .un op e :: r ∧ f.isAtomic = true ∧ e.keeps own = true ∧ keepsAny own r = true) := by
  cases es with
  | nil => simp [Expr.keeps, keepsAny]
  | cons e es =>
    cases e with
    | un op e =>
      simp only [Expr.keeps, keepsAny, Bool.and_eq_true, Bool.or_eq_true, List.cons.injEq, Expr.un.injEq]
      constructor
      · rintro ⟨h1, h2 | h2, h3, h4⟩
        · exact ⟨h1, .inr ⟨_, _, _, ⟨⟨rfl, rfl⟩, rfl⟩, h2, h3, h4⟩⟩
        · exact ⟨h1, .inl ⟨⟨h2, h3⟩, h4⟩⟩
      · rintro ⟨h1, ⟨⟨h2, h3⟩, h4⟩ | ⟨_, _, _, ⟨⟨rfl, rfl⟩, rfl⟩, h2, h3, h4⟩⟩
        · exact ⟨h1, .inr h2, h3, h4⟩
        · exact ⟨h1, .inl h2, h3, h4⟩
    | _ => simp [Expr.keeps, keepsAny]

theorem keepsAny_append (own : List Str) : ∀ a b : List Expr, keepsAny own (a ++ b) = (keepsAny own a && keepsAny own b)
  | [], _ => by simp [keepsAny]
  | e :: a, b => by simp [keepsAny, keepsAny_append own a b, Bool.and_assoc]

theorem keepsIn_append' {b : List Stmt} : ∀ {a : List Stmt} {own : List Str}, keepsIn own a = true →
    (∀ own', introducedBy a ++ own ⊆ own' → keepsIn own' b = true) → keepsIn own (a ++ b) = true
  | [], own, _, h => h own (by simp [introducedBy])
  | s :: a, own, h1, h => by
    rw [keepsIn, Bool.and_eq_true] at h1
    rw [List.cons_append, keepsIn, h1.1, Bool.true_and]
    refine keepsIn_append' h1.2 fun own' ho => h own' fun x hx => ho ?_
    simp only [introducedBy, List.mem_append] at hx ⊢
    rcases hx with (h | h) | h
    · exact .inr (.inl h)
    · exact .inl h
    · exact .inr (.inr h)

mutual

theorem keeps_normal {own own' : List Str} (ho : own ⊆ own') : ∀ e : Expr, e.keeps own = true → e.normal.keeps own' = true
  | .id _, h | .str _, h | .num _, h | .type _, h => by simp [Expr.normal, Expr.keeps]
  | .sel e _, h | .spread e, h | .paren e, h | .assert e _, h => by
    simp only [Expr.normal, Expr.keeps] at h ⊢
    exact keeps_normal ho e h
  | .un op e, h => by
    simp only [Expr.normal, Expr.keeps, Bool.and_eq_true, Bool.or_eq_true] at h ⊢
    exact ⟨h.1.imp_right (ownMemory_normal ho e), keeps_normal ho e h.2⟩
  | .call f (.un op e :: es) c, h => by
    simp only [Expr.normal, normalExprs, Expr.keeps, Bool.and_eq_true, Bool.or_eq_true, isAtomic_normal] at h ⊢
    exact ⟨keeps_normal ho f h.1, h.2.1.imp_right (Or.imp_right (ownMemory_normal ho e)), keeps_normal ho e h.2.2.1, keepsAny_normal ho es h.2.2.2⟩
  | .call f [] _, h | .call f (.id _ :: _) _, h | .call f (.str _ :: _) _, h | .call f (.num _ :: _) _, h | .call f (.type _ :: _) _, h | .call f (.sel _ _ :: _) _, h | .call f (.spread _ :: _) _, h | .call f (.paren _ :: _) _, h
  | .call f (.assert _ _ :: _) _, h | .call f (.call _ _ _ :: _) _, h | .call f (.index _ _ :: _) _, h | .call f (.bin _ _ _ :: _) _, h | .call f (.pair _ _ :: _) _, h | .call f (.lit _ _ _ :: _) _, h | .call f (.fn _ _ _ :: _) _, h | .call f (.many _ :: _) _, h => by
    simp only [keeps_call, List.cons.injEq, reduceCtorEq, false_and, exists_false, or_false] at h
    rw [Expr.normal, keeps_call]
    exact ⟨keeps_normal ho f h.1, .inl (keepsAny_normal ho _ h.2)⟩
  | .index a b, h | .bin _ a b, h | .pair a b, h => by
    simp only [Expr.normal, Expr.keeps, Bool.and_eq_true] at h ⊢
    exact ⟨keeps_normal ho a h.1, keeps_normal ho b h.2⟩
  | .lit _ es _, h | .many es, h => by
    simp only [Expr.normal, Expr.keeps] at h ⊢
    exact keepsAny_normal ho es h
  | .fn ps r b, h => by
    simp only [Expr.normal, Expr.keeps, boundNames_normal, Results.names_normal] at h ⊢
    exact keepsIn_normal (append_sub (fun _ h => h) ho) b h

theorem keepsAny_normal {own own' : List Str} (ho : own ⊆ own') : ∀ es : List Expr, keepsAny own es = true → keepsAny own' (normalExprs es) = true
  | [], _ => by simp [normalExprs, keepsAny]
  | e :: es, h => by
    rw [keepsAny, Bool.and_eq_true] at h
    have h1 := keeps_normal ho e h.1
    have h2 := keepsAny_normal ho es h.2
    rcases normalExprs_cons e es with ⟨xs, rfl, he⟩ | he
    · rw [Expr.normal, Expr.keeps] at h1
      rw [he, keepsAny_append, h1, h2, Bool.and_self]
    · rw [he, keepsAny, h1, h2, Bool.and_self]

theorem Stmt.keeps_normal {own own' : List Str} (ho : own ⊆ own') : ∀ s : Stmt, s.keeps own = true → s.normal.keeps own' = true
  | .expr e, h | .defer e, h | .go e, h | .varInit _ e, h => by
    simp only [Stmt.normal, Stmt.keeps] at h ⊢
    exact Go.keeps_normal ho e h
  | .assign l r, h => by
    simp only [Stmt.normal, Stmt.keeps, Bool.and_eq_true] at h ⊢
    exact ⟨ownTargets_normal ho l h.1, keepsAny_normal ho r h.2⟩
  | .define _ es, h | .ret es, h => by
    simp only [Stmt.normal, Stmt.keeps] at h ⊢
    exact keepsAny_normal ho es h
  | .inc e, h => by
    simp only [Stmt.normal, Stmt.keeps] at h ⊢
    exact ownTarget_normal ho e h
  | .send a b, h => by
    simp only [Stmt.normal, Stmt.keeps, Bool.and_eq_true] at h ⊢
    exact ⟨Go.keeps_normal ho a h.1, Go.keeps_normal ho b h.2⟩
  | .var _ _, h | .type _ _, h => by simp [Stmt.normal, Stmt.keeps]
  | .cond c b, h => by
    simp only [Stmt.normal, Stmt.keeps, Bool.and_eq_true] at h ⊢
    exact ⟨Go.keeps_normal ho c h.1, keepsIn_normal ho b h.2⟩
  | .condElse c a b, h => by
    simp only [Stmt.normal, Stmt.keeps, Bool.and_eq_true] at h ⊢
    exact ⟨Go.keeps_normal ho c h.1, keepsIn_normal ho a h.2.1, keepsIn_normal ho b h.2.2⟩
  | .condElseIf c a s, h => by
    simp only [Stmt.normal, Stmt.keeps, Bool.and_eq_true] at h ⊢
    exact ⟨Go.keeps_normal ho c h.1, keepsIn_normal ho a h.2.1, Stmt.keeps_normal ho s h.2.2⟩
  | .condInit s c b, h => by
    simp only [Stmt.normal, Stmt.keeps, Bool.and_eq_true, Stmt.introduces_normal] at h ⊢
    have ho' := append_sub (fun _ h => h : s.introduces ⊆ s.introduces) ho
    exact ⟨Stmt.keeps_normal ho s h.1, Go.keeps_normal ho' c h.2.1, keepsIn_normal ho' b h.2.2⟩
  | .loop s c t b, h => by
    simp only [Stmt.normal, Stmt.keeps, Bool.and_eq_true, Stmt.introduces_normal] at h ⊢
    have ho' := append_sub (fun _ h => h : s.introduces ⊆ s.introduces) ho
    exact ⟨Stmt.keeps_normal ho s h.1, Go.keeps_normal ho' c h.2.1, Stmt.keeps_normal ho' t h.2.2.1, keepsIn_normal ho' b h.2.2.2⟩
  | .forever b, h => by
    simp only [Stmt.normal, Stmt.keeps] at h ⊢
    exact keepsIn_normal ho b h
  | .range xs e b, h => by
    simp only [Stmt.normal, Stmt.keeps, Bool.and_eq_true, idNames_normal] at h ⊢
    exact ⟨Go.keeps_normal ho e h.1, keepsIn_normal (append_sub (fun _ h => h) ho) b h.2⟩
  | .select cs, h => by
    simp only [Stmt.normal, Stmt.keeps] at h ⊢
    exact keepsClauses_normal ho cs h
  | .many ss, h => by
    simp only [Stmt.normal, Stmt.keeps] at h ⊢
    exact keepsIn_normal ho ss h

theorem keepsIn_normal {own own' : List Str} (ho : own ⊆ own') : ∀ ss : List Stmt, keepsIn own ss = true → keepsIn own' (normalStmts ss) = true
  | [], _ => by simp [normalStmts, keepsIn]
  | s :: ss, h => by
    rw [keepsIn, Bool.and_eq_true] at h
    have h1 := Stmt.keeps_normal ho s h.1
    have h2 : ∀ own'', s.introduces ++ own ⊆ own'' → keepsIn own'' (normalStmts ss) = true := fun own'' ho => keepsIn_normal ho ss h.2
    rcases normalStmts_cons s ss with ⟨xs, rfl, he⟩ | he
    · rw [Stmt.normal, Stmt.keeps] at h1
      rw [he]
      refine keepsIn_append' h1 fun own'' ho' => h2 own'' fun x hx => ho' ?_
      rw [introducedBy_normal]
      exact append_sub (fun _ h => h) ho hx
    · rw [he, keepsIn, h1, Bool.true_and, Stmt.introduces_normal]
      exact h2 _ (append_sub (fun _ h => h) ho)

theorem keepsClauses_normal {own own' : List Str} (ho : own ⊆ own') : ∀ cs : List Clause, keepsClauses own cs = true →
    keepsClauses own' (normalClauses cs) = true
  | [], _ => by simp [normalClauses, keepsClauses]
  | .case s b :: cs, h => by
    simp only [normalClauses, Clause.normal, keepsClauses, Bool.and_eq_true, Stmt.introduces_normal] at h ⊢
    exact ⟨Stmt.keeps_normal ho s h.1, keepsIn_normal (append_sub (fun _ h => h) ho) b h.2.1, keepsClauses_normal ho cs h.2.2⟩
  | .default b :: cs, h => by
    simp only [normalClauses, Clause.normal, keepsClauses, Bool.and_eq_true] at h ⊢
    exact ⟨keepsIn_normal ho b h.1, keepsClauses_normal ho cs h.2⟩

end

/-! ## Goroutines -/

theorem apartAny_append (later : List Str) : ∀ a b : List Expr, apartAny later (a ++ b) ↔ apartAny later a ∧ apartAny later b
  | [], _ => by simp [apartAny]
  | e :: a, b => by simp [apartAny, apartAny_append later a b, and_assoc]

theorem apartIn_append (rs later : List Str) (b : List Stmt) : ∀ a : List Stmt, apartIn rs later (a ++ b) ↔
    apartIn rs (setsIn true rs b ++ later) a ∧ apartIn rs later b
  | [] => by simp [apartIn]
  | s :: a => by simp [apartIn, apartIn_append rs later b a, setsIn_append', and_assoc]

mutual

theorem apart_normal {later later' : List Str} (hl : later' ⊆ later) : ∀ e : Expr, e.Apart later → e.normal.Apart later'
  | .id _, h | .str _, h | .num _, h | .type _, h => by simp [Expr.normal, Expr.Apart]
  | .sel e _, h | .spread e, h | .un _ e, h | .paren e, h | .assert e _, h => by
    simp only [Expr.normal, Expr.Apart] at h ⊢
    exact apart_normal hl e h
  | .call f es c, h => by
    simp only [Expr.normal, Expr.Apart] at h ⊢
    exact ⟨apart_normal hl f h.1, apartAny_normal hl es h.2⟩
  | .index a b, h | .bin _ a b, h | .pair a b, h => by
    simp only [Expr.normal, Expr.Apart] at h ⊢
    exact ⟨apart_normal hl a h.1, apart_normal hl b h.2⟩
  | .lit _ es _, h | .many es, h => by
    simp only [Expr.normal, Expr.Apart] at h ⊢
    exact apartAny_normal hl es h
  | .fn ps r b, h => by
    simp only [Expr.normal, Expr.Apart, Results.names_normal] at h ⊢
    exact apartIn_normal r.names (append_sub (setsIn_normal true r.names b) hl) b h

theorem apartAny_normal {later later' : List Str} (hl : later' ⊆ later) : ∀ es : List Expr, apartAny later es → apartAny later' (normalExprs es)
  | [], _ => by simp [normalExprs, apartAny]
  | e :: es, h => by
    rw [apartAny] at h
    have h1 := apart_normal hl e h.1
    have h2 := apartAny_normal hl es h.2
    rcases normalExprs_cons e es with ⟨xs, rfl, he⟩ | he
    · rw [Expr.normal, Expr.Apart] at h1
      rw [he, apartAny_append]
      exact ⟨h1, h2⟩
    · rw [he, apartAny]
      exact ⟨h1, h2⟩

theorem Stmt.apart_normal (rs : List Str) {later later' : List Str} (hl : later' ⊆ later) : ∀ s : Stmt, s.Apart rs later → s.normal.Apart rs later'
  | .go (.call (.fn ps r b) es c), h => by
    simp only [Stmt.normal, Expr.normal, Stmt.Apart, boundNames_normal, Results.names_normal, usedIn_normal] at h ⊢
    exact ⟨⟨keepsIn_normal (fun _ h => h) b h.1.1, fun x hx => h.1.2 x (hl hx)⟩, apartIn_normal r.names hl b h.2.1, apartAny_normal hl es h.2.2⟩
  | .go (.call (.id _) _ _), h | .go (.call (.str _) _ _), h | .go (.call (.num _) _ _), h | .go (.call (.type _) _ _), h | .go (.call (.sel _ _) _ _), h | .go (.call (.spread _) _ _), h | .go (.call (.un _ _) _ _), h | .go (.call (.paren _) _ _), h
  | .go (.call (.assert _ _) _ _), h | .go (.call (.call _ _ _) _ _), h | .go (.call (.index _ _) _ _), h | .go (.call (.bin _ _ _) _ _), h | .go (.call (.pair _ _) _ _), h | .go (.call (.lit _ _ _) _ _), h | .go (.call (.many _) _ _), h
  | .go (.id _), h | .go (.str _), h | .go (.num _), h | .go (.type _), h | .go (.sel _ _), h | .go (.spread _), h | .go (.un _ _), h | .go (.paren _), h | .go (.assert _ _), h | .go (.index _ _), h | .go (.bin _ _ _), h | .go (.pair _ _), h | .go (.lit _ _ _), h | .go (.many _), h | .go (.fn _ _ _), h => by
    have ih := Go.apart_normal hl _ (by simpa only [Stmt.Apart] using h)
    simp only [Stmt.normal, Expr.normal, Stmt.Apart] at ih ⊢
    exact ih
  | .expr e, h | .defer e, h | .varInit _ e, h | .inc e, h => by
    simp only [Stmt.normal, Stmt.Apart] at h ⊢
    exact Go.apart_normal hl e h
  | .assign l r, h | .define l r, h => by
    simp only [Stmt.normal, Stmt.Apart] at h ⊢
    exact ⟨apartAny_normal hl l h.1, apartAny_normal hl r h.2⟩
  | .ret es, h => by
    simp only [Stmt.normal, Stmt.Apart] at h ⊢
    exact apartAny_normal hl es h
  | .send a b, h => by
    simp only [Stmt.normal, Stmt.Apart] at h ⊢
    exact ⟨Go.apart_normal hl a h.1, Go.apart_normal hl b h.2⟩
  | .var _ _, h | .type _ _, h => by simp [Stmt.normal, Stmt.Apart]
  | .cond c b, h => by
    simp only [Stmt.normal, Stmt.Apart] at h ⊢
    exact ⟨Go.apart_normal hl c h.1, apartIn_normal rs hl b h.2⟩
  | .condElse c a b, h => by
    simp only [Stmt.normal, Stmt.Apart] at h ⊢
    exact ⟨Go.apart_normal hl c h.1, apartIn_normal rs hl a h.2.1, apartIn_normal rs hl b h.2.2⟩
  | .condElseIf c a s, h => by
    simp only [Stmt.normal, Stmt.Apart] at h ⊢
    exact ⟨Go.apart_normal hl c h.1, apartIn_normal rs hl a h.2.1, Stmt.apart_normal rs hl s h.2.2⟩
  | .condInit s c b, h => by
    simp only [Stmt.normal, Stmt.Apart] at h ⊢
    have hl' := append_sub (setsIn_normal true rs b) hl
    exact ⟨Stmt.apart_normal rs hl' s h.1, Go.apart_normal hl' c h.2.1, apartIn_normal rs hl b h.2.2⟩
  | .loop s c t b, h => by
    simp only [Stmt.normal, Stmt.Apart] at h ⊢
    have hl' := append_sub (Stmt.sets_normal true rs t) (append_sub (setsIn_normal true rs b) hl)
    exact ⟨Stmt.apart_normal rs hl' s h.1, Go.apart_normal hl' c h.2.1, Stmt.apart_normal rs hl' t h.2.2.1, apartIn_normal rs hl' b h.2.2.2⟩
  | .forever b, h => by
    simp only [Stmt.normal, Stmt.Apart] at h ⊢
    exact apartIn_normal rs (append_sub (setsIn_normal true rs b) hl) b h
  | .range xs e b, h => by
    simp only [Stmt.normal, Stmt.Apart, rootsOf_normal] at h ⊢
    have hl' := append_sub (setsIn_normal true rs b) hl
    exact ⟨Go.apart_normal hl' e h.1, apartIn_normal rs (append_sub (fun _ h => h) hl') b h.2⟩
  | .select cs, h => by
    simp only [Stmt.normal, Stmt.Apart] at h ⊢
    exact apartClauses_normal rs hl cs h
  | .many ss, h => by
    simp only [Stmt.normal, Stmt.Apart] at h ⊢
    exact apartIn_normal rs hl ss h

theorem apartIn_normal (rs : List Str) {later later' : List Str} (hl : later' ⊆ later) : ∀ ss : List Stmt, apartIn rs later ss →
    apartIn rs later' (normalStmts ss)
  | [], _ => by simp [normalStmts, apartIn]
  | s :: ss, h => by
    rw [apartIn] at h
    have h1 := Stmt.apart_normal rs (append_sub (setsIn_normal true rs ss) hl) s h.1
    have h2 := apartIn_normal rs hl ss h.2
    rcases normalStmts_cons s ss with ⟨xs, rfl, he⟩ | he
    · rw [Stmt.normal, Stmt.Apart] at h1
      rw [he, apartIn_append]
      exact ⟨h1, h2⟩
    · rw [he, apartIn]
      exact ⟨h1, h2⟩

theorem apartClauses_normal (rs : List Str) {later later' : List Str} (hl : later' ⊆ later) : ∀ cs : List Clause, apartClauses rs later cs →
    apartClauses rs later' (normalClauses cs)
  | [], _ => by simp [normalClauses, apartClauses]
  | .case s b :: cs, h => by
    simp only [normalClauses, Clause.normal, apartClauses] at h ⊢
    exact ⟨⟨Stmt.apart_normal rs (append_sub (setsIn_normal true rs b) hl) s h.1.1, apartIn_normal rs hl b h.1.2⟩, apartClauses_normal rs hl cs h.2⟩
  | .default b :: cs, h => by
    simp only [normalClauses, Clause.normal, apartClauses] at h ⊢
    exact ⟨apartIn_normal rs hl b h.1, apartClauses_normal rs hl cs h.2⟩

end

/-- What functions share can be seen from what is read. -/
theorem Decl.apart_normal (x : Decl) (h : x.Apart) : x.normal.Apart := by
  cases x with
  | func _ _ r b =>
    simp only [Decl.normal, Decl.Apart, Results.names_normal] at h ⊢
    exact apartIn_normal _ (setsIn_normal _ _ b) b h
  | method _ _ _ _ rs b =>
    simp only [Decl.normal, Decl.Apart, boundNames_normal] at h ⊢
    exact apartIn_normal _ (setsIn_normal _ _ b) b h
  | var _ e =>
    simp only [Decl.normal, Decl.Apart] at h ⊢
    exact Go.apart_normal (fun _ h => h) e h
  | _ => trivial

theorem Decl.keeps_normal (x : Decl) (h : x.Keeps) : x.normal.Keeps := by
  cases x with
  | method _ _ _ ps rs b =>
    simp only [Decl.normal, Decl.Keeps, boundNames_normal] at h ⊢
    exact keepsIn_normal (fun _ h => h) b h
  | _ => trivial

end Gowrap.Go
