import Verif.Props.Generics
/-!
# C18: exactly which constraints are reproduced
-/

namespace Gowrap.Props

open Gowrap Spec

theorem says_nil (t : Ty) : ¬ Says [] t := by
  rintro ⟨N, hN⟩
  have := hN (N + 2) (by omega)
  have hw : word ([] : Str) = ([], []) := rfl
  rw [readTy.eq_def] at this
  simp only [hw] at this
  rw [readWord.eq_def] at this
  simp at this

/-- Pieces of a union, some of which may have been dropped. -/
def LoosePiece (s : Str) : Prop := '|' ∉ s ∧ ∀ c ∈ s, c ≠ ' ' ∧ c ≠ '\n'

theorem trimSpaces_loose {p : Str} (h : LoosePiece p) (a b : Str) (ha : a = [] ∨ a = g!" ") (hb : b = [] ∨ b = g!" ") :
    trimSpaces (a ++ p ++ b) = p := by
  by_cases hp : p = []
  · subst hp
    rcases ha with rfl | rfl <;> rcases hb with rfl | rfl <;> rfl
  · exact trimSpaces_pad ⟨hp, h.1, h.2⟩ a b ha hb

theorem splitBar_loose : ∀ (ps : List Str) (a : Str), ps ≠ [] → (∀ p ∈ ps, LoosePiece p) → (a = [] ∨ a = g!" ") →
    (splitBar a (join g!" | " ps)).map trimSpaces = ps
  | [], _, h, _, _ => absurd rfl h
  | [p], a, _, h, ha => by
    have hp := h p (by simp)
    have := splitBar_piece hp.1 [] a
    simp only [List.append_nil] at this
    simp only [join, this, splitBar, List.map_cons, List.map_nil, List.reverse_append, List.reverse_reverse]
    have := trimSpaces_loose hp a.reverse [] (by rcases ha with rfl | rfl <;> simp) (Or.inl rfl)
    simpa using this
  | p :: q :: ps, a, _, h, ha => by
    have hp := h p (by simp)
    have ih := splitBar_loose (q :: ps) g!" " (by simp) (fun x hx => h x (by simp [hx])) (Or.inr rfl)
    simp only [join, List.append_assoc]
    rw [splitBar_piece hp.1]
    simp only [List.cons_append, List.nil_append, splitBar, show (' ' : Char) ≠ '|' by decide, if_false, if_true,
      List.map_cons, ih]
    congr 1
    have := trimSpaces_loose hp a.reverse g!" " (by rcases ha with rfl | rfl <;> simp) (Or.inr rfl)
    simpa using this

/-- The pieces of the text of a constraint; they say its terms only if it is supported. -/
def Pieces (raw : Expr → Str) (decls : List Str) (pref : Str) (e : Expr) : Prop :=
  ∃ ps : List Str, ps ≠ [] ∧ parseGenericType decls pref e = .ok (join g!" | " ps) ∧ (∀ p ∈ ps, LoosePiece p) ∧
    ps.length = (unionMeaning raw decls pref e).length ∧
    ((∀ (i : Nat) p t, ps[i]? = some p → (unionMeaning raw decls pref e)[i]? = some t → SaysTerm p t) → Supported decls pref e)

theorem pieces_supported {raw : Expr → Str} {decls : List Str} {pref : Str} (hpref : pref = [] ∨ IdentOk pref) {e : Expr}
    (h : Supported decls pref e) : Pieces raw decls pref e := by
  obtain ⟨ps, n, p, c, l, _⟩ := constraint_pieces raw decls pref hpref e h
  exact ⟨ps, n, p, fun x hx => ⟨(c x hx).noBar, (c x hx).noSpace⟩, l, fun _ => h⟩

/-- A constraint of one term that is dropped. -/
theorem pieces_dropped {raw : Expr → Str} {decls : List Str} {pref : Str} {e : Expr} (h : parseGenericType decls pref e = .ok [])
    {t : Term} (hm : unionMeaning raw decls pref e = [t]) : Pieces raw decls pref e := by
  refine ⟨[[]], by simp, by simpa [join] using h, by simp [LoosePiece], by simp [hm], ?_⟩
  intro hs
  have := hs 0 [] t rfl (by rw [hm]; rfl)
  exact absurd this.2 (says_nil _)

theorem pieces_all (raw : Expr → Str) (decls : List Str) (pref : Str) (hpref : pref = [] ∨ IdentOk pref) :
    ∀ e : Expr, ConstraintShape e → Pieces raw decls pref e
  | .ident n, h => pieces_supported hpref (by simpa only [Supported, ConstraintShape, TypeShape] using h)
  | .selector x b, h => by
    simp only [ConstraintShape, TypeShape] at h
    cases x with
    | ident a => exact pieces_supported hpref (by simpa only [Supported, IsTypeName] using h)
    | _ => simp [IsTypeName] at h
  | .unary o x, h => by
    simp only [ConstraintShape] at h
    obtain ⟨rfl, hx⟩ := h
    cases x with
    | ident n =>
      simp only [TypeShape] at hx
      by_cases hn : n ∈ decls ∧ pref ≠ []
      · refine ⟨[g!"~" ++ n], by simp, by simp [join, parseGenericType], ?_, by simp [unionMeaning], ?_⟩
        · intro p hp
          simp only [List.mem_singleton] at hp
          subst hp
          have := identOk_piece hx
          refine ⟨?_, ?_⟩
          · simp only [List.mem_append, not_or]; exact ⟨by decide, this.noBar⟩
          · intro c hc
            simp only [List.mem_append, List.mem_singleton] at hc
            rcases hc with rfl | hc
            · decide
            · exact this.noSpace c hc
        · intro hs
          have h1 := hs 0 (g!"~" ++ n) ⟨true, .name (some pref) n⟩ rfl (by simp [unionMeaning, meaning, hn])
          have h2 : Says n (.name none n) := nameText_says (.bare hx)
          have := h1.2.unique h2
          simp at this
      · exact pieces_supported hpref (by simp only [Supported, true_and]; exact ⟨hx, hn⟩)
    | _ => exact pieces_dropped (by simp [parseGenericType]) (by simp only [unionMeaning]; rfl)
  | .binary o x y, h => by
    simp only [ConstraintShape] at h
    obtain ⟨rfl, hx, hy⟩ := h
    obtain ⟨ps, n1, p1, c1, l1, s1⟩ := pieces_all raw decls pref hpref x hx
    obtain ⟨qs, n2, p2, c2, l2, s2⟩ := pieces_all raw decls pref hpref y hy
    refine ⟨ps ++ qs, by simp [n1], ?_, ?_, by simp [unionMeaning, l1, l2], ?_⟩
    · simp only [parseGenericType, p1, p2, if_true, Res.ok_bind, Res.pure_eq]
      rw [join_append _ _ _ n1 n2]
    · intro p hp
      rcases List.mem_append.1 hp with hp | hp
      · exact c1 p hp
      · exact c2 p hp
    · intro hs
      simp only [unionMeaning] at hs
      simp only [Supported, true_and]
      refine ⟨s1 ?_, s2 ?_⟩
      · intro i p t hp ht
        have hi : i < ps.length := by rw [List.getElem?_eq_some_iff] at hp; exact hp.1
        exact hs i p t (by rw [List.getElem?_append_left hi]; exact hp) (by rw [List.getElem?_append_left (by omega)]; exact ht)
      · intro i p t hp ht
        refine hs (ps.length + i) p t ?_ ?_
        · rw [List.getElem?_append_right (by omega), Nat.add_sub_cancel_left]; exact hp
        · rw [l1, List.getElem?_append_right (by omega), Nat.add_sub_cancel_left]; exact ht
  | .star _, _ => pieces_dropped rfl rfl
  | .sliceExpr _, _ => pieces_dropped rfl rfl
  | .ellipsis _, _ => pieces_dropped rfl rfl
  | .array _ _, _ => pieces_dropped rfl rfl
  | .mapT _ _, _ => pieces_dropped rfl rfl
  | .chanT _ _, _ => pieces_dropped rfl rfl
  | .funcT _ _, _ => pieces_dropped rfl rfl
  | .structT _, _ => pieces_dropped rfl rfl
  | .ifaceT _, _ => pieces_dropped rfl rfl
  | .index _ _, _ => pieces_dropped rfl rfl
  | .indexList _ _, _ => pieces_dropped rfl rfl
  | .paren _, _ => pieces_dropped rfl rfl
  | .lit _, _ => pieces_dropped rfl rfl
  | .other _, _ => pieces_dropped rfl rfl

/-- **C18** (exact): of the constraints that the Go parser accepts, exactly the unions of named types and of `~` terms over names that need no selector
are reproduced. -/
theorem C18_exact (raw : Expr → Str) (decls : List Str) (pref : Str) (e : Expr) (hpref : pref = [] ∨ IdentOk pref) (he : ConstraintShape e) :
    ∃ s, parseGenericType decls pref e = .ok s ∧ (SaysUnion s (unionMeaning raw decls pref e) ↔ Supported decls pref e) := by
  obtain ⟨ps, n, p, c, l, sz⟩ := pieces_all raw decls pref hpref e he
  refine ⟨_, p, ?_, fun hs => C18_constraint_partial raw decls pref e _ hpref hs p⟩
  unfold SaysUnion
  simp only [splitBar_loose ps [] n c (Or.inl rfl)]
  exact fun h => sz h.2

/-- `~int | []byte` becomes `~int | `, which does not say the constraint. -/
example : parseGenericType [] [] (.binary true (.unary true (.ident g!"int")) (.array none (.ident g!"byte"))) = .ok g!"~int | " ∧
    ¬ SaysUnion g!"~int | " (unionMeaning rawDemo [] [] (.binary true (.unary true (.ident g!"int")) (.array none (.ident g!"byte")))) := by
  have hp : parseGenericType [] [] (.binary true (.unary true (.ident g!"int")) (.array none (.ident g!"byte"))) = .ok g!"~int | " := by rfl
  refine ⟨hp, ?_⟩
  obtain ⟨s, h1, h2⟩ := C18_exact rawDemo [] [] (.binary true (.unary true (.ident g!"int")) (.array none (.ident g!"byte"))) (.inl rfl)
    (by simp only [ConstraintShape, TypeShape, LenShapeOpt]; decide)
  rw [hp] at h1
  cases h1
  rw [h2]
  simp [Supported]

/-- `~int | string` is reproduced. -/
example : ∃ s, parseGenericType [] [] (.binary true (.unary true (.ident g!"int")) (.ident g!"string")) = .ok s ∧
    SaysUnion s (unionMeaning rawDemo [] [] (.binary true (.unary true (.ident g!"int")) (.ident g!"string"))) := by
  obtain ⟨s, h1, h2⟩ := C18_exact rawDemo [] [] (.binary true (.unary true (.ident g!"int")) (.ident g!"string")) (.inl rfl)
    (by simp only [ConstraintShape, TypeShape]; decide)
  exact ⟨s, h1, h2.2 (by simp only [Supported]; decide)⟩

end Gowrap.Props
