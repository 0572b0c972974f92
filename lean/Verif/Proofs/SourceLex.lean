import Verif.Spec.Source
import Verif.Proofs.TmplVars
import Verif.Props.Snake
/-!
# Valid inputs satisfy the conditions of the symbolic lexer
-/

namespace Gowrap.Go

open Gowrap

/-- Operators begin with the first character of an operator. -/
def State.OpOk (r : State) : Prop := ∀ acc, r.mode = .op acc → ∃ c x, acc = x ++ [c] ∧ opStart c = true

theorem opOk_first (r : State) (h : r.mode = .start) (c : Char) : (r.first c).OpOk := by
  obtain ⟨m, s, t⟩ := r
  cases h
  intro acc
  unfold State.first
  repeat' split
  all_goals intro h
  all_goals first | (cases h; done) | skip
  cases h
  exact ⟨c, [], rfl, by assumption⟩

theorem opOk_start {r : State} (h : r.mode = .start) : r.OpOk := fun acc h' => by rw [h] at h'; cases h'

theorem opOk_step (r : State) (h : r.OpOk) (c : Char) : (r.step c).OpOk := by
  obtain ⟨m, s, t⟩ := r
  cases m with
  | start => exact opOk_first _ rfl c
  | word acc =>
    simp only [State.step]
    split
    · intro acc h; cases h
    · exact opOk_first _ rfl c
  | num acc =>
    simp only [State.step]
    split
    · intro acc h; cases h
    · exact opOk_first _ rfl c
  | str acc =>
    simp only [State.step]
    repeat' split
    all_goals intro acc h; cases h
  | op acc =>
    obtain ⟨c', x, hx, ho⟩ := h acc rfl
    simp only [State.step]
    split
    · intro acc' h'; cases h'; exact ⟨c', c :: x, by rw [hx]; rfl, ho⟩
    split
    · intro acc h; cases h
    split
    · intro acc h; cases h
    split
    · intro acc h; cases h
    split
    · intro acc h; cases h
    · rename_i hne
      refine opOk_first _ ?_ c
      simp only [State.flush]
      rw [if_neg hne]
  | comment =>
    simp only [State.step]
    split
    · exact opOk_first _ rfl c
    · intro acc h; cases h
  | failed => intro acc h; cases h

theorem opOk_run (s : Str) : ∀ (r : State), r.OpOk → (r.run s).OpOk := by
  induction s with
  | nil => exact fun _ h => h
  | cons c s ih => exact fun r h => ih _ (opOk_step r h c)

/-- Whether a semicolon would be inserted before the text does not matter. -/
def SameLex (a b : State) : Prop := a = b ∨ a.mode = b.mode ∧ a.toks = b.toks ∧ a.mode ≠ .start ∧ a.mode ≠ .comment ∧
  a.mode ≠ .op g!"/"

theorem sameLex_step (a b : State) (h : SameLex a b) (c : Char) : SameLex (a.step c) (b.step c) := by
  rcases h with rfl | ⟨h1, h2, h3, h4, h5⟩
  · exact .inl rfl
  obtain ⟨m, s, t⟩ := a
  obtain ⟨m', s', t'⟩ := b
  simp only at h1 h2 h3 h4 h5
  subst h1 h2
  cases m with
  | start => exact absurd rfl h3
  | comment => exact absurd rfl h4
  | failed => exact .inr ⟨rfl, rfl, by simp [State.step], by simp [State.step], by simp [State.step]⟩
  | word acc =>
    simp only [State.step]
    split
    · exact .inr ⟨rfl, rfl, by simp, by simp, by simp⟩
    · exact .inl rfl
  | num acc =>
    simp only [State.step]
    split
    · exact .inr ⟨rfl, rfl, by simp, by simp, by simp⟩
    · exact .inl rfl
  | str acc =>
    simp only [State.step]
    split
    · exact .inl rfl
    split
    · exact .inr ⟨rfl, rfl, by simp, by simp, by simp⟩
    · exact .inr ⟨rfl, rfl, by simp, by simp, by simp⟩
  | op acc =>
    have hne : acc ≠ g!"/" := fun e => h5 (by rw [e])
    simp only [State.step]
    split
    · rename_i hl
      refine .inr ⟨rfl, rfl, by simp, by simp, ?_⟩
      intro e
      cases e
      revert hl
      decide
    split
    · rename_i h; simp [hne] at h
    split
    · rename_i h; simp [hne] at h
    split
    · exact .inr ⟨rfl, rfl, by simp, by simp, by simp⟩
    split
    · exact .inr ⟨rfl, rfl, by simp, by simp, by simp⟩
    · rename_i h
      left
      simp only [State.flush]
      rw [if_neg h, if_neg h]

theorem sameLex_run (s : Str) : ∀ (a b : State), SameLex a b → SameLex (a.run s) (b.run s) := by
  induction s with
  | nil => exact fun _ _ h => h
  | cons c s ih => exact fun a b h => ih _ _ (sameLex_step a b h c)

theorem sameLex_first (c : Char) (h : c ∉ [' ', '\t', '\r', '\n', '/']) (sm sm' : Bool) (ts : List Tok) :
    SameLex (State.first ⟨.start, sm, ts⟩ c) (State.first ⟨.start, sm', ts⟩ c) := by
  simp only [List.mem_cons, List.not_mem_nil, or_false, not_or] at h
  obtain ⟨h1, h2, h3, h4, h5⟩ := h
  have hb : ¬ ((decide (c = ' ') || decide (c = '\t') || decide (c = '\r')) = true) := by simp [h1, h2, h3]
  unfold State.first
  simp only [if_neg h4, if_neg hb]
  split
  · exact .inr ⟨rfl, rfl, by simp, by simp, by simp⟩
  split
  · exact .inr ⟨rfl, rfl, by simp, by simp, by simp⟩
  split
  · exact .inr ⟨rfl, rfl, by simp, by simp, by simp⟩
  split
  · exact .inl rfl
  split
  · refine .inr ⟨rfl, rfl, by simp, by simp, ?_⟩
    intro e
    simp only [Mode.op.injEq, List.cons.injEq, and_true] at e
    exact h5 e
  · exact .inr ⟨rfl, rfl, by simp, by simp, by simp⟩

end Gowrap.Go

namespace Gowrap.Tmpl

open Gowrap Go Spec

theorem name_of {s : Str} (h : GoName s) : IsName s := ⟨⟨h.1, h.2.1⟩, h.2.2⟩

theorem append_two {α : Type} {x ts : List α} {a b t u : α} (h : x ++ [a, b] = ts ++ [t, u]) : x = ts ∧ a = t ∧ b = u := by
  have h1 : (x ++ [a]) ++ [b] = (ts ++ [t]) ++ [u] := by simpa using h
  obtain ⟨h2, h3⟩ := List.append_inj' h1 rfl
  obtain ⟨h4, h5⟩ := List.append_inj' h2 rfl
  exact ⟨h4, by simpa using h5, by simpa using h3⟩

/-- The text ends in a resting state. -/
theorem typeSource_end {s : Str} (h : TypeSource s) :
    let r := State.run ⟨.start, false, []⟩ s
    (r.mode = .start ∨ ∃ acc, r.mode = .word acc) ∧ r.flush.semi = true := by
  obtain ⟨_, ts, t, he, h1, h2⟩ := h
  have ho := opOk_run s ⟨.start, false, []⟩ (opOk_start rfl)
  unfold tokens at h1 h2
  rw [State.run_append] at h2
  generalize State.run ⟨.start, false, []⟩ s = r at *
  obtain ⟨m, sm, l⟩ := r
  cases m with
  | start =>
    refine ⟨.inl rfl, ?_⟩
    cases sm with
    | true => rfl
    | false =>
      have e1 : l.reverse = ts ++ [t, .op g!";"] := by simpa [State.flush] using h1
      have e2 : (.op g!";" :: .op g!")" :: l).reverse = ts ++ [t, .op g!")", .op g!";"] := by
        have : State.run ⟨.start, false, l⟩ g!")" = ⟨.start, true, .op g!")" :: l⟩ := rfl
        rw [this] at h2
        simpa [State.flush] using h2
      rw [List.reverse_cons, List.reverse_cons, e1] at e2
      have := congrArg List.length e2
      simp at this
  | word acc =>
    refine ⟨.inr ⟨acc, rfl⟩, ?_⟩
    cases hw : wordEnds acc.reverse with
    | true => simp [State.flush, hw]
    | false =>
      simp only [State.flush, hw] at h1
      have e1 : (.word acc.reverse :: l).reverse = ts ++ [t, .op g!";"] := by simpa using h1
      rw [List.reverse_cons, show ts ++ [t, Tok.op g!";"] = (ts ++ [t]) ++ [.op g!";"] by simp] at e1
      have := (List.append_inj' e1 rfl).2
      cases this
  | num acc =>
    simp only [State.flush] at h1
    have e1 : l.reverse ++ [.num acc.reverse, .op g!";"] = ts ++ [t, .op g!";"] := by simpa using h1
    obtain ⟨_, rfl, _⟩ := append_two e1
    rcases he with ⟨w, h⟩ | h | h | h <;> cases h
  | str acc => simp [State.flush] at h1
  | op acc =>
    obtain ⟨c, x, hx, hc⟩ := ho acc rfl
    have hn : ∀ o : Str, o ∈ [g!")", g!"]", g!"}", g!";"] → acc.reverse ≠ o := by
      intro o hmem e
      rw [hx] at e
      simp only [List.reverse_append, List.reverse_cons, List.reverse_nil, List.nil_append, List.cons_append] at e
      simp only [List.mem_cons, List.not_mem_nil, or_false] at hmem
      rcases hmem with rfl | rfl | rfl | rfl <;> (rw [(List.cons.inj e).1] at hc; revert hc; decide)
    by_cases hd : acc = g!".."
    · simp [State.flush, hd] at h1
    · simp only [State.flush, if_neg hd] at h1
      cases hoe : opEnds acc.reverse with
      | true =>
        rw [hoe] at h1
        have e1 : l.reverse ++ [.op acc.reverse, .op g!";"] = ts ++ [t, .op g!";"] := by simpa using h1
        obtain ⟨_, rfl, _⟩ := append_two e1
        rcases he with ⟨w, h⟩ | h | h | h
        · cases h
        all_goals
          simp only [Tok.op.injEq] at h
          exact absurd h (hn _ (by simp))
      | false =>
        rw [hoe] at h1
        have e1 : (.op acc.reverse :: l).reverse = ts ++ [t, .op g!";"] := by simpa using h1
        rw [List.reverse_cons, show ts ++ [t, Tok.op g!";"] = (ts ++ [t]) ++ [.op g!";"] by simp] at e1
        have := (List.append_inj' e1 rfl).2
        simp only [List.cons.injEq, Tok.op.injEq, and_true] at this
        exact absurd this (hn _ (by simp))
  | comment =>
    have e : State.run ⟨.comment, sm, l⟩ g!")" = ⟨.comment, sm, l⟩ := rfl
    rw [e] at h2
    rw [h1] at h2
    have := congrArg List.length (Option.some.inj h2)
    simp at this
  | failed => simp [State.flush] at h1

theorem typeText_of {s : Str} (h : TypeSource s) : TypeText s := by
  intro sm
  have he := typeSource_end h
  obtain ⟨c, r, rfl, hc⟩ := h.begins
  have hs : SameLex (State.run ⟨.start, false, []⟩ (c :: r)) (State.run ⟨.start, sm, []⟩ (c :: r)) :=
    sameLex_run r _ _ (sameLex_first c hc false sm [])
  unfold lexed
  revert he hs
  generalize State.run ⟨.start, false, []⟩ (c :: r) = a
  generalize State.run ⟨.start, sm, []⟩ (c :: r) = b
  intro he hs
  rcases hs with rfl | ⟨h1, h2, h3, _, _⟩
  · exact ⟨he.1, by simp, he.2⟩
  · obtain ⟨m, s, t⟩ := a
    obtain ⟨m', s', t'⟩ := b
    simp only at h1 h2 h3
    subst h1 h2
    rcases he.1 with h | ⟨acc, h⟩
    · exact absurd h h3
    · simp only at h
      subst h
      refine ⟨.inr ⟨acc, rfl⟩, by simp [State.flush], ?_⟩
      have := he.2
      simpa [State.flush] using this

/-! ## Lower case and underscores -/

theorem mem_firstCap (x : Char) : ∀ (eat : Bool) (s : Str), x ∈ firstCap eat s → x ∈ s ∨ x = '_'
  | _, [], h => by simp [firstCap] at h
  | _, [c], h => .inl (by simpa [firstCap] using h)
  | _, [c, d], h => .inl (by simpa [firstCap] using h)
  | eat, c :: d :: e :: rest, h => by
    unfold firstCap at h
    split at h
    · rcases List.mem_cons.mp h with rfl | h
      · simp
      · rcases mem_firstCap x true (d :: e :: rest) h with h | h
        · exact .inl (List.mem_cons_of_mem _ h)
        · exact .inr h
    split at h
    · rcases List.mem_cons.mp h with rfl | h
      · simp
      rcases List.mem_cons.mp h with rfl | h
      · simp
      rcases List.mem_cons.mp h with rfl | h
      · simp
      · rcases mem_firstCap x true (e :: rest) h with h | h
        · exact .inl (List.mem_cons_of_mem _ (List.mem_cons_of_mem _ h))
        · exact .inr h
    · rcases List.mem_cons.mp h with rfl | h
      · simp
      · rcases mem_firstCap x false (d :: e :: rest) h with h | h
        · exact .inl (List.mem_cons_of_mem _ h)
        · exact .inr h

theorem mem_allCap (x : Char) : ∀ s : Str, x ∈ allCap s → x ∈ s ∨ x = '_'
  | [], h => by simp [allCap] at h
  | [c], h => .inl (by simpa [allCap] using h)
  | c :: d :: rest, h => by
    unfold allCap at h
    split at h
    · rcases List.mem_cons.mp h with rfl | h
      · simp
      rcases List.mem_cons.mp h with rfl | h
      · simp
      rcases List.mem_cons.mp h with rfl | h
      · simp
      · rcases mem_allCap x rest h with h | h
        · exact .inl (List.mem_cons_of_mem _ (List.mem_cons_of_mem _ h))
        · exact .inr h
    · rcases List.mem_cons.mp h with rfl | h
      · simp
      · rcases mem_allCap x (d :: rest) h with h | h
        · exact .inl (List.mem_cons_of_mem _ h)
        · exact .inr h

theorem digit_lower (u : Uni) (c : Char) (h : Go.digit c = true) : u.toLower c = c := by
  unfold Go.digit Char.isDigit at h
  simp only [Bool.and_eq_true, decide_eq_true_eq] at h
  have h2 : c.val ≤ 57 := h.2
  have hc : c.val < 128 := Nat.lt_of_le_of_lt h2 (by decide)
  rw [u.lower_ascii c hc]
  unfold Char.toLower
  rw [dif_neg]
  intro hh
  have h3 : (65 : UInt32) ≤ c.val := hh.1
  exact absurd (Nat.le_trans h3 h2) (by decide)

theorem wordChar_lower {u : Uni} (hl : ∀ c, Go.letter c = true → Go.letter (u.toLower c) = true) (c : Char)
    (h : (Go.letter c || Go.digit c) = true) : (Go.letter (u.toLower c) || Go.digit (u.toLower c)) = true := by
  rcases Bool.or_eq_true _ _ |>.mp h with h | h
  · rw [hl c h]; rfl
  · rw [digit_lower u c h, h]; simp

theorem lower_word {u : Uni} (hl : ∀ c, Go.letter c = true → Go.letter (u.toLower c) = true) {s : Str} (h : GoName s) :
    IsWord (u.lower s) := by
  obtain ⟨⟨c, r, rfl, hc⟩, ha, _⟩ := h
  refine ⟨⟨u.toLower c, r.map u.toLower, rfl, hl c hc⟩, ?_⟩
  intro x hx
  obtain ⟨y, hy, rfl⟩ := List.mem_map.mp hx
  exact wordChar_lower hl y (ha y hy)

theorem inert_of_wordChars {s : Str} (h : ∀ c ∈ s, (Go.letter c || Go.digit c) = true) : Inert s := by
  intro c hc
  have := h c hc
  exact ⟨wordChar_ne c _ this (by decide), wordChar_ne c _ this (by decide), wordChar_ne c _ this (by decide)⟩

theorem snake_inert {u : Uni} (hl : ∀ c, Go.letter c = true → Go.letter (u.toLower c) = true) {s : Str} (h : GoName s) :
    Inert (u.snake s) := by
  refine inert_of_wordChars ?_
  intro x hx
  obtain ⟨y, hy, rfl⟩ := List.mem_map.mp hx
  refine wordChar_lower hl y ?_
  rcases mem_allCap y _ hy with hy | rfl
  · rcases mem_firstCap y false s hy with hy | rfl
    · exact h.2.1 y hy
    · decide
  · decide

/-! ## Inputs -/

theorem mem_insertSorted {α : Type} (le : α → α → Bool) (x y : α) : ∀ l : List α, y ∈ insertSorted le x l ↔ y = x ∨ y ∈ l
  | [] => by simp [insertSorted]
  | z :: l => by
    unfold insertSorted
    split
    · simp
    · simp only [List.mem_cons, mem_insertSorted le x y l]
      constructor <;> (intro h; rcases h with h | h | h <;> simp [h])

theorem mem_sortBy {α : Type} (le : α → α → Bool) (y : α) : ∀ l : List α, y ∈ sortBy le l ↔ y ∈ l
  | [] => by simp [sortBy]
  | x :: l => by rw [sortBy, mem_insertSorted, mem_sortBy le y l, List.mem_cons]

theorem mem_sorted {d : Inputs} {m : Method} : m ∈ d.sorted ↔ ∃ e ∈ d.methods, e.2 = m := by
  unfold Inputs.sorted
  simp only [List.mem_map, mem_sortBy]

theorem goodInputs_of {u : Uni} {d : Inputs} (h : GoInputs u d) : GoodInputs u d where
  name := name_of h.name
  down := lower_word h.lower h.name
  type := typeText_of h.type
  typeLead := h.typeName
  typeInert := h.typeQuotable
  method := by
    intro m hm
    obtain ⟨e, he, rfl⟩ := mem_sorted.mp hm
    have hg := (h.methods e he).2
    exact ⟨name_of hg.name,
      fun p hp => ⟨name_of (hg.names p (by simp [hp])), typeText_of (hg.types p (by simp [hp]))⟩,
      fun p hp => ⟨name_of (hg.names p (by simp [hp])), typeText_of (hg.types p (by simp [hp]))⟩⟩
  snake := by
    intro m hm p hp
    obtain ⟨e, he, rfl⟩ := mem_sorted.mp hm
    exact snake_inert h.lower ((h.methods e he).2.names p (by simp [hp]))

/-- A name with a suffix that has a capital letter. -/
theorem name_suffix {s : Str} (h : GoName s) (x : Str) (hx : ∀ c ∈ x, (Go.letter c || Go.digit c) = true)
    (hk : ∃ c ∈ x, ∀ k ∈ Go.keywords, c ∉ k) : IsName (s ++ x) := by
  obtain ⟨⟨c, r, rfl, hc⟩, ha, _⟩ := h
  refine ⟨⟨⟨c, r ++ x, rfl, hc⟩, ?_⟩, ?_⟩
  · intro y hy
    rcases List.mem_append.mp hy with hy | hy
    · exact ha y hy
    · exact hx y hy
  · intro hm
    obtain ⟨c', hc', hk⟩ := hk
    exact hk _ hm (List.mem_append_right _ hc')

theorem dec_name {u : Uni} {d : Inputs} (h : GoInputs u d) (x : Str) (hx : ∀ c ∈ x, (Go.letter c || Go.digit c) = true)
    (hk : ∃ c ∈ x, ∀ k ∈ Go.keywords, c ∉ k) : IsName (varOr (d.vars g!"DecoratorName") (d.name ++ x)) := by
  unfold varOr
  split
  · rename_i s hs
    split
    · exact name_suffix h.name x hx hk
    · rename_i hne
      exact name_of (h.vars.decorator s hs hne)
  · exact name_suffix h.name x hx hk

theorem var_inert {v : Option VarValue} (h : ∀ s, v = some (.text s) → InQuotes s) (x : Str) (hx : Inert x) : Inert (varOr v x) := by
  unfold varOr
  split
  · split
    · exact hx
    · exact h _ rfl
  · exact hx

theorem inert_append {a b : Str} (ha : Inert a) (hb : Inert b) : Inert (a ++ b) := by
  intro c hc
  rcases List.mem_append.mp hc with hc | hc
  · exact ha c hc
  · exact hb c hc

theorem inert_nil : Inert [] := fun _ h => nomatch h

theorem goodNames_dec {u : Uni} {d : Inputs} (h : GoInputs u d) (x : Str) (hx : ∀ c ∈ x, (Go.letter c || Go.digit c) = true)
    (hk : ∃ c ∈ x, ∀ k ∈ Go.keywords, c ∉ k) : GoodNames (decNames x u d) :=
  ⟨dec_name h x hx hk, name_of h.name, inert_nil, inert_nil, inert_nil⟩

theorem goodNames_apm {u : Uni} {d : Inputs} (h : GoInputs u d) : GoodNames (apmNames u d) :=
  ⟨dec_name h g!"APMTracing" (by decide) ⟨'A', by decide, by decide⟩, dec_name h g!"APMTracingOption" (by decide) ⟨'A', by decide, by decide⟩,
    var_inert h.vars.component _ (by rw [List.append_nil]; exact (lower_word h.lower h.name).inert), inert_nil, inert_nil⟩

theorem goodNames_metric {u : Uni} {d : Inputs} (h : GoInputs u d) : GoodNames (metricNames u d) :=
  ⟨dec_name h g!"WithPrometheus" (by decide) ⟨'W', by decide, by decide⟩, name_of h.name, inert_nil,
    var_inert h.vars.metric _ (inert_append (lower_word h.lower h.name).inert (inert_of_wordChars (by decide))), inert_nil⟩

theorem goodNames_span {u : Uni} {d : Inputs} (h : GoInputs u d) : GoodNames (spanNames u d) :=
  ⟨dec_name h g!"WithTracing" (by decide) ⟨'W', by decide, by decide⟩, name_of h.name, inert_nil, inert_nil,
    var_inert h.vars.span _ (name_of h.name).1.inert⟩

end Gowrap.Tmpl
