import Verif.Spec.Replace
import Verif.Model.TextTemplate
import Verif.Props.Imports
/-!
# C93: the helper functions in templates

`helperFuncs` (cmd_generate.go:267-278) gives templates the functions `up`, `down`, `upFirst`, `downFirst`, `snake` and
`replace`.  A template may call them with arguments or at the end of a pipeline; text/template passes the value of the
pipeline as the last argument.
-/

namespace Gowrap.Props

open Gowrap Tmpl

/-! ## Replacing -/

theorem isPrefix_iff {s old : Str} : hasPrefix s old = true ↔ ∃ q, s = old ++ q := by
  unfold hasPrefix
  rw [List.isPrefixOf_iff_prefix]
  constructor
  · rintro ⟨q, h⟩; exact ⟨q, h.symm⟩
  · rintro ⟨q, h⟩; exact ⟨q, h.symm⟩

/-- A character before the first occurrence. -/
theorem Replaced.skip {old new : Str} {c : Char} {s r : Str} (hc : ¬ ∃ q, c :: s = old ++ q) (h : Replaced old new s r) :
    Replaced old new (c :: s) (c :: r) := by
  cases h with
  | rest h =>
    refine .rest ?_
    rintro ⟨p, q, e⟩
    cases p with
    | nil => exact hc ⟨q, by simpa using e.symm⟩
    | cons d p =>
      simp only [List.cons_append, List.cons.injEq] at e
      exact h ⟨p, q, e.2⟩
  | @hit p q r hf hr =>
    refine .hit (p := c :: p) ?_ hr
    intro p' q' e
    cases p' with
    | nil => exact absurd ⟨q', by simpa using e⟩ hc
    | cons d p' =>
      simp only [List.cons_append, List.cons.injEq] at e
      have := hf p' q' e.2
      simpa using this

theorem replaceLoop_replaced {old : Str} (new : Str) (ho : old ≠ []) : ∀ (n : Nat) (s : Str), s.length ≤ n →
    Replaced old new s (replaceLoop old new n s)
  | 0, s, h => by
    have : s = [] := List.eq_nil_of_length_eq_zero (by omega)
    subst this
    refine .rest ?_
    rintro ⟨p, q, e⟩
    simp only [List.append_eq_nil_iff] at e
    exact ho e.1.2
  | n + 1, [], _ => by
    refine .rest ?_
    rintro ⟨p, q, e⟩
    simp only [List.append_eq_nil_iff] at e
    exact ho e.1.2
  | n + 1, c :: s, h => by
    simp only [replaceLoop]
    split
    · next hp =>
      obtain ⟨q, e⟩ := isPrefix_iff.1 hp
      rw [e, List.drop_left]
      have hl : q.length ≤ n := by
        have := congrArg List.length e
        simp only [List.length_cons, List.length_append] at this h
        have : 0 < old.length := List.length_pos_iff.2 ho
        omega
      exact .hit (p := []) (fun _ _ _ => Nat.zero_le _) (replaceLoop_replaced new ho n q hl)
    · next hp =>
      refine Replaced.skip (fun hq => hp (isPrefix_iff.2 hq)) (replaceLoop_replaced new ho n s ?_)
      simp only [List.length_cons] at h
      omega

/-- There is one way to replace a text. -/
theorem replaced_unique {old new : Str} : ∀ {s r r' : Str}, Replaced old new s r → Replaced old new s r' → r = r' := by
  intro s r r' h
  induction h generalizing r' with
  | rest hn =>
    intro h'
    cases h' with
    | rest => rfl
    | @hit p q r hf _ => exact absurd ⟨p, q, rfl⟩ hn
  | @hit p q r hf hr ih =>
    intro h'
    generalize hs : p ++ old ++ q = s at h'
    cases h' with
    | rest hn => exact absurd ⟨p, q, hs⟩ hn
    | @hit p' q' r'' hf' hr' =>
      have h1 := hf p' q' hs
      have h2 := hf' p q hs.symm
      have hl : p.length = p'.length := by omega
      have e : p = p' ∧ old ++ q = old ++ q' := by
        rw [List.append_assoc, List.append_assoc] at hs
        exact List.append_inj hs hl
      obtain ⟨rfl, e⟩ := e
      have : q = q' := List.append_cancel_left e
      subst this
      rw [ih hr']

theorem replaceAll_replaced {s old : Str} (new : Str) (ho : old ≠ []) : Replaced old new s (replaceAll s old new) := by
  unfold replaceAll
  rw [if_neg ho]
  exact replaceLoop_replaced new ho s.length s (Nat.le_refl _)

/-! ## Templates with one action -/

theorem str_run (toks : List Tok) : ∀ (s acc : Str), PlainText s →
    s.foldl Lex.step ⟨.str acc, toks⟩ = ⟨.str (s.reverse ++ acc), toks⟩
  | [], _, _ => rfl
  | c :: s, acc, h => by
    obtain ⟨h1, h2, h3⟩ := h
    simp only [List.mem_cons, not_or] at h1 h2 h3
    have e : Lex.step ⟨.str acc, toks⟩ c = ⟨.str (c :: acc), toks⟩ := by
      simp only [Lex.step]
      rw [if_neg (Ne.symm h1.1), if_neg (Ne.symm h2.1), if_neg (Ne.symm h3.1)]
    rw [List.foldl_cons, e, str_run toks s (c :: acc) ⟨h1.2, h2.2, h3.2⟩]
    simp

/-- The template `{{replace .Interface.Name "old" "new"}}`. -/
def callReplace (old new : Str) : Str :=
  g!"{{replace .Interface.Name \"" ++ (old ++ (g!"\" \"" ++ (new ++ g!"\"}}")))

/-- The template `{{.Interface.Name | replace "old" "new"}}`. -/
def pipeReplace (old new : Str) : Str :=
  g!"{{.Interface.Name | replace \"" ++ (old ++ (g!"\" \"" ++ (new ++ g!"\"}}")))

theorem lex_callReplace {old new : Str} (ho : PlainText old) (hn : PlainText new) :
    lex (callReplace old new) = some [.left, .ident g!"replace", .space, .field g!"Interface", .field g!"Name", .space,
      .str old, .space, .str new, .right] := by
  unfold lex callReplace
  rw [List.foldl_append, List.foldl_append, List.foldl_append, List.foldl_append]
  have e : g!"{{replace .Interface.Name \"".foldl Lex.step ⟨.text [], []⟩ =
      ⟨.str [], [.space, .field g!"Name", .field g!"Interface", .space, .ident g!"replace", .left]⟩ := by decide
  rw [e, str_run _ old [] ho]
  generalize hm : old.reverse ++ [] = o
  have ho' : o.reverse = old := by rw [← hm]; simp
  have e2 : g!"\" \"".foldl Lex.step ⟨.str o, [.space, .field g!"Name", .field g!"Interface", .space, .ident g!"replace", .left]⟩ =
      ⟨.str [], [.space, .str o.reverse, .space, .field g!"Name", .field g!"Interface", .space, .ident g!"replace", .left]⟩ := rfl
  rw [e2, str_run _ new [] hn, ho']
  generalize hm : new.reverse ++ [] = o
  have hn' : o.reverse = new := by rw [← hm]; simp
  subst hn'
  rfl

theorem lex_pipeReplace {old new : Str} (ho : PlainText old) (hn : PlainText new) :
    lex (pipeReplace old new) = some [.left, .field g!"Interface", .field g!"Name", .space, .pipe, .space, .ident g!"replace",
      .space, .str old, .space, .str new, .right] := by
  unfold lex pipeReplace
  rw [List.foldl_append, List.foldl_append, List.foldl_append, List.foldl_append]
  have e : g!"{{.Interface.Name | replace \"".foldl Lex.step ⟨.text [], []⟩ =
      ⟨.str [], [.space, .ident g!"replace", .space, .pipe, .space, .field g!"Name", .field g!"Interface", .left]⟩ := by decide
  rw [e, str_run _ old [] ho]
  generalize hm : old.reverse ++ [] = o
  have ho' : o.reverse = old := by rw [← hm]; simp
  have e2 : g!"\" \"".foldl Lex.step
        ⟨.str o, [.space, .ident g!"replace", .space, .pipe, .space, .field g!"Name", .field g!"Interface", .left]⟩ =
      ⟨.str [], [.space, .str o.reverse, .space, .ident g!"replace", .space, .pipe, .space, .field g!"Name",
        .field g!"Interface", .left]⟩ := rfl
  rw [e2, str_run _ new [] hn, ho']
  generalize hm : new.reverse ++ [] = o
  have hn' : o.reverse = new := by rw [← hm]; simp
  subst hn'
  rfl

theorem render_callReplace (u : Uni) (d : Inputs) {old new : Str} (ho : PlainText old) (hn : PlainText new) :
    render u (callReplace old new) d = some (replaceAll d.name old new) := by
  unfold render parse
  rw [lex_callReplace ho hn]
  rfl

theorem render_pipeReplace (u : Uni) (d : Inputs) {old new : Str} (ho : PlainText old) (hn : PlainText new) :
    render u (pipeReplace old new) d = some (replaceAll old new d.name) := by
  unfold render parse
  rw [lex_pipeReplace ho hn]
  rfl

/-- C93 as stated, for `replace`: both ways to write it replace in the name of the interface. -/
def C93_full : Prop := ∀ (u : Uni) (d : Inputs) (old new : Str), PlainText old → PlainText new → old ≠ [] →
  (∃ t, render u (callReplace old new) d = some t ∧ Replaced old new d.name t) ∧
  (∃ t, render u (pipeReplace old new) d = some t ∧ Replaced old new d.name t)

/-- C93, the part that holds: `{{replace .Interface.Name "old" "new"}}` replaces every `old` in the name.  Missing: the
same for `{{.Interface.Name | replace "old" "new"}}`. -/
theorem C93_replace_partial (u : Uni) (d : Inputs) (old new : Str) (ho : PlainText old) (hn : PlainText new) (he : old ≠ []) :
    ∃ t, render u (callReplace old new) d = some t ∧ Replaced old new d.name t ∧ ∀ t', Replaced old new d.name t' → t' = t :=
  ⟨_, render_callReplace u d ho hn, replaceAll_replaced new he, fun _ h => replaced_unique h (replaceAll_replaced new he)⟩

/-- C93. What the pipeline does instead: it replaces the second argument, in the first one, by the name. -/
theorem C93_exact (u : Uni) (d : Inputs) (old new : Str) (ho : PlainText old) (hn : PlainText new) (he : new ≠ []) :
    ∃ t, render u (pipeReplace old new) d = some t ∧ Replaced new d.name old t :=
  ⟨_, render_pipeReplace u d ho hn, replaceAll_replaced d.name he⟩

namespace Demo93

/-- The data of an interface `Reader`. -/
def reader : Inputs := ⟨g!"Reader", g!"io.Reader", [], [], [], fun _ => none, [g!"\"io\""]⟩

end Demo93

/-- C93 fails: `{{.Interface.Name | replace "R" "L"}}` prints `R` for the interface `Reader`. -/
theorem C93_full_false : ¬ C93_full := by
  intro h
  obtain ⟨_, t, h1, h2⟩ := h Uni.ascii Demo93.reader g!"R" g!"L" (by unfold PlainText; decide) (by unfold PlainText; decide) (by decide)
  rw [render_pipeReplace _ _ (by unfold PlainText; decide) (by unfold PlainText; decide)] at h1
  have e1 : t = g!"R" := by rw [← Option.some.inj h1]; decide
  have e2 : t = g!"Leader" := replaced_unique h2 (by
    have := replaceAll_replaced (s := Demo93.reader.name) (old := g!"R") g!"L" (by decide)
    have e : replaceAll Demo93.reader.name g!"R" g!"L" = g!"Leader" := by decide
    rwa [e] at this)
  rw [e1] at e2
  exact absurd e2 (by decide)

example : render Uni.ascii g!"{{replace .Interface.Name \"ea\" \"o\"}}" Demo93.reader = some g!"Roder" := by decide +kernel
example : render Uni.ascii g!"{{.Interface.Name | replace \"R\" \"L\"}}" Demo93.reader = some g!"R" := by decide +kernel
example : Replaced g!"aa" g!"b" g!"aaa" g!"ba" := by
  have := replaceAll_replaced (s := g!"aaa") (old := g!"aa") g!"b" (by decide)
  have e : replaceAll g!"aaa" g!"aa" g!"b" = g!"ba" := by decide
  rwa [e] at this

/-! ## Functions of one argument -/

/-- The functions of one argument and what they do. -/
inductive Helper (u : Uni) : Str → (Str → Str) → Prop
  | up : Helper u g!"up" (List.map u.toUpper)
  | down : Helper u g!"down" (List.map u.toLower)
  | upFirst : Helper u g!"upFirst" fun s => (s.take 1).map u.toUpper ++ s.drop 1
  | downFirst : Helper u g!"downFirst" fun s => (s.take 1).map u.toLower ++ s.drop 1
  | snake : Helper u g!"snake" u.snake

theorem onFirst_eq (f : Char → Char) (s : Str) : onFirst f s = (s.take 1).map f ++ s.drop 1 := by cases s <;> rfl

/-- C93. `{{f .Interface.Name}}` and `{{.Interface.Name | f}}` print what `f` makes of the name, with every letter or the
first letter mapped; a helper can be applied to what another helper gives. -/
theorem C93_helpers (u : Uni) (d : Inputs) (f g : Str) (φ γ : Str → Str) (hf : Helper u f φ) (hg : Helper u g γ) :
    render u (g!"{{" ++ f ++ g!" .Interface.Name}}") d = some (φ d.name) ∧
    render u (g!"{{.Interface.Name | " ++ f ++ g!"}}") d = some (φ d.name) ∧
    render u (g!"{{" ++ g ++ g!" (" ++ f ++ g!" .Interface.Name)}}") d = some (γ (φ d.name)) ∧
    render u (g!"{{.Interface.Name | " ++ f ++ g!" | " ++ g ++ g!"}}") d = some (γ (φ d.name)) := by
  cases hf <;> cases hg <;> (try simp only [← onFirst_eq]) <;> exact ⟨rfl, rfl, rfl, rfl⟩

example : Helper Uni.ascii g!"up" (List.map Uni.ascii.toUpper) ∧ Helper Uni.ascii g!"snake" Uni.ascii.snake := ⟨.up, .snake⟩
example : render Uni.ascii g!"{{.Interface.Name | downFirst}} {{up (snake \"aB\")}}" Demo93.reader = some g!"reader A_B" := by decide +kernel

end Gowrap.Props
