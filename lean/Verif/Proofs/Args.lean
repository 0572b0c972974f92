import Verif.Spec.Instance
import Verif.Proofs.Discover
/-!
# Type arguments are printed like types
-/

namespace Gowrap

open Gowrap.Spec

theorem printType_ne {env : PrintEnv} (hr : ∀ e, env.raw e ≠ []) (ht : [] ∉ env.types) {e : Expr} {t : Str}
    (h : printType env e = .ok t) : t ≠ [] := by
  cases e with
  | ident n =>
    simp only [printType, printIdent] at h
    split at h
    · next hm =>
      split at h
      · split at h
        · cases h
        · cases h
        · cases h; simp
      · cases h
        intro hn
        subst hn
        exact ht (by simpa using hm)
    · cases h; exact hr _
  | index x i =>
    simp only [printType, Res.bind_eq_ok] at h
    obtain ⟨_, _, _, _, h⟩ := h
    cases h; simp
  | indexList x is =>
    simp only [printType, Res.bind_eq_ok] at h
    obtain ⟨a, _, h⟩ := h
    have : ∀ (es : List Expr) (b : Str), b ≠ [] → ∀ t, printIndices env b es = .ok t → t ≠ [] := by
      intro es
      induction es with
      | nil => intro b hb t h; simp only [printIndices] at h; cases h; exact hb
      | cons e es ih =>
        intro b hb t h
        simp only [printIndices, Res.bind_eq_ok] at h
        obtain ⟨g, _, h⟩ := h
        split at h
        · exact ih _ (by simp) _ h
        · exact ih _ (by simp) _ h
    exact this _ _ (by simp) _ h
  | funcT _ _ | structT _ | star _ | ellipsis _ | chanT _ _ | array _ _ | mapT _ _ =>
    simp only [printType, Res.bind_eq_ok] at h
    first
      | (obtain ⟨_, _, _, _, h⟩ := h; cases h; simp; done)
      | (obtain ⟨_, _, h⟩ := h; cases h; simp; done)
      | (rename_i dir _; obtain ⟨_, _, h⟩ := h; cases h; cases dir <;> simp [chanTypes]; done)
  | selector _ _ | sliceExpr _ | ifaceT _ | paren _ | lit _ | unary _ _ | binary _ _ _ | other _ =>
    simp only [printType] at h
    cases h
    exact hr _

theorem strings_eq (ps : List GParam) : GParam.strings ps = ps.map (·.string) := by
  induction ps with
  | nil => simp [GParam.strings]
  | cons p ps ih => simp [GParam.strings, ih]

theorem string_nil (a : Str) : (GParam.mk a []).string = a := by simp [GParam.string]

theorem string_cons (a : Str) (ps : List GParam) (h : ps ≠ []) :
    (GParam.mk a ps).string = a ++ g!"[" ++ join g!", " (ps.map (·.string)) ++ g!"]" := by
  have : ps.length > 0 := by cases ps with
    | nil => exact absurd rfl h
    | cons => simp
  simp [GParam.string, this, strings_eq]

theorem argTexts_length {env : PrintEnv} : ∀ {es : List Expr} {ts : List Str}, ArgTexts env es ts →
    ts.length = es.length
  | _, _, .nil => rfl
  | _, _, .cons _ h => by simp [argTexts_length h]

/-- What the functions say about type arguments at one recursion bound. -/
structure ArgsAt (w : World) (s : Sched) (n : Nat) : Prop where
  get : ∀ path e i b p r, (∀ e, w.raw e ≠ []) → [] ∉ i.types.map (·.name) →
    getEmbeddedMethods w s n path e i b = .ok (p, r) →
    p.name ≠ [] ∧ p.params = [] ∧ printType (i.sigEnv w).print e = .ok p.name
  embedded : ∀ path e i b p r, (∀ e, w.raw e ≠ []) → [] ∉ i.types.map (·.name) →
    processEmbedded w s n path e i b = .ok (p, r) → p.name ≠ [] ∧ ArgText (i.sigEnv w).print e p.string
  args : ∀ path es i acc gps, (∀ e, w.raw e ≠ []) → [] ∉ i.types.map (·.name) →
    processArgs w s n path es i acc = .ok gps →
    ∃ ts, ArgTexts (i.sigEnv w).print es ts ∧ gps.map (·.string) = acc.map (·.string) ++ ts

theorem args_succ {w : World} {s : Sched} {n : Nat} (ih : ArgsAt w s n) : ArgsAt w s (n + 1) where
  get := by
    intro path e i b p r hr ht h
    simp only [getEmbeddedMethods, Res.bind_eq_ok] at h
    obtain ⟨name, hn, h⟩ := h
    have hne : name ≠ [] := printType_ne (env := (i.sigEnv w).print) hr ht hn
    split at h
    · rw [Res.bind_eq_ok] at h
      obtain ⟨_, _, h⟩ := h
      cases h
      exact ⟨hne, rfl, hn⟩
    · rw [Res.bind_eq_ok] at h
      obtain ⟨_, _, h⟩ := h
      cases h
      exact ⟨hne, rfl, hn⟩
    · cases h
      exact ⟨hne, rfl, hn⟩
  embedded := by
    intro path e i b p r hr ht h
    simp only [processEmbedded] at h
    split at h
    · next x idx =>
      simp only [Res.bind_eq_ok] at h
      obtain ⟨gps, hg, ⟨p', r'⟩, hp, h⟩ := h
      cases h
      obtain ⟨ts, h1, h2⟩ := ih.args _ _ _ _ _ hr ht hg
      obtain ⟨h3, _, h5⟩ := ih.get _ _ { i with genericParams := gps } _ _ _ hr ht hp
      refine ⟨h3, ?_⟩
      cases h1 with
      | cons h6 h7 =>
        cases h7
        simp only [List.map_nil, List.nil_append] at h2
        rw [string_cons _ _ (by intro hn; simp [hn] at h2), h2]
        exact .index h5 h6
    · next x is =>
      simp only [Res.bind_eq_ok] at h
      obtain ⟨gps, hg, ⟨p', r'⟩, hp, h⟩ := h
      cases h
      obtain ⟨ts, h1, h2⟩ := ih.args _ _ _ _ _ hr ht hg
      obtain ⟨h3, _, h5⟩ := ih.get _ _ { i with genericParams := gps } _ _ _ hr ht hp
      refine ⟨h3, ?_⟩
      simp only [List.map_nil, List.nil_append] at h2
      cases is with
      | nil =>
        cases h1
        have : gps = [] := List.map_eq_nil_iff.1 h2
        rw [this, string_nil]
        exact .bare h5
      | cons i0 is =>
        rw [string_cons _ _ (by
          intro hn
          have := argTexts_length h1
          rw [← h2, hn] at this
          simp at this), h2]
        exact .indexList h5 (by simp) h1
    · next h1 h2 =>
      obtain ⟨h3, h4, h5⟩ := ih.get _ _ { i with genericParams := [] } _ _ _ hr ht h
      refine ⟨h3, ?_⟩
      obtain ⟨name, params⟩ := p
      simp only [GParam.params] at h4
      subst h4
      rw [string_nil]
      exact .plain h1 h2 h5
  args := by
    intro path es i acc gps hr ht h
    cases es with
    | nil =>
      simp only [processArgs] at h
      cases h
      exact ⟨[], .nil, by simp⟩
    | cons e es =>
      simp only [processArgs, Res.bind_eq_ok] at h
      obtain ⟨⟨p, r⟩, hp, h⟩ := h
      obtain ⟨h1, h2⟩ := ih.embedded _ _ _ _ _ _ hr ht hp
      obtain ⟨ts, h3, h4⟩ := ih.args _ _ _ _ _ hr ht h
      refine ⟨p.string :: ts, .cons h2 h3, ?_⟩
      rw [h4, appendParam, if_pos h1]
      simp

theorem argsAt (w : World) (s : Sched) : ∀ n, ArgsAt w s n
  | 0 => ⟨by intros; simp_all [getEmbeddedMethods], by intros; simp_all [processEmbedded],
      by intros; simp_all [processArgs]⟩
  | n + 1 => args_succ (argsAt w s n)

end Gowrap
