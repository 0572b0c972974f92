import Verif.Props.Header
/-!
# C32: exactly which variables survive the `go:generate` line
-/

namespace Gowrap.Props

open Gowrap Spec

theorem split_plain_first (unq : Str → Option Str) : ∀ (x acc : Str) (ws : List Str), split unq (.plain acc) (x ++ g!" ") = some ws →
    ∃ rest, ws = (acc ++ x.takeWhile (fun c => !blank c)) :: rest
  | [], acc, ws, h => by
    rw [List.nil_append, split, if_pos (by decide)] at h
    simp only [split, Option.map_some, Option.some.injEq] at h
    exact ⟨[], by simp [← h]⟩
  | c :: x, acc, ws, h => by
    rw [List.cons_append, split] at h
    by_cases hc : blank c = true
    · rw [if_pos hc, Option.map_eq_some_iff] at h
      obtain ⟨rest, _, rfl⟩ := h
      exact ⟨rest, by simp [hc]⟩
    · rw [if_neg hc] at h
      obtain ⟨rest, rfl⟩ := split_plain_first unq x (acc ++ [c]) ws h
      exact ⟨rest, by simp [hc]⟩

/-- The text read so far between quotes, and the state. -/
theorem split_quoted_first (unq : Str → Option Str) (hu : ∀ t r, unq t = some r → r.length ≤ t.length) :
    ∀ (x acc : Str) (ws : List Str) (st : Scan), (st = .quoted acc ∨ st = .escaped acc) → split unq st (x ++ g!" ") = some ws →
    ∃ w rest, ws = w :: rest ∧ w.length < acc.length + x.length
  | [], acc, ws, st, hs, h => by
    rcases hs with rfl | rfl
    · rw [List.nil_append, split, if_neg (by decide), if_neg (by decide)] at h
      simp [split] at h
    · rw [List.nil_append, split] at h
      simp [split] at h
  | c :: x, acc, ws, st, hs, h => by
    rcases hs with rfl | rfl
    · rw [List.cons_append, split] at h
      by_cases hq : c = '"'
      · rw [if_pos hq, Option.bind_eq_some_iff] at h
        obtain ⟨w, hw, h⟩ := h
        rw [Option.map_eq_some_iff] at h
        obtain ⟨rest, _, rfl⟩ := h
        refine ⟨w, rest, rfl, ?_⟩
        have : w.length ≤ acc.length := by
          unfold Spec.unquote at hw
          split at hw
          · exact hu _ _ hw
          · rw [Option.some.inj hw]; exact Nat.le_refl _
        simp only [List.length_cons]
        omega
      · rw [if_neg hq] at h
        by_cases hb : c = '\\'
        · rw [if_pos hb] at h
          obtain ⟨w, rest, rfl, hl⟩ := split_quoted_first unq hu x (acc ++ [c]) ws _ (.inr rfl) h
          exact ⟨w, rest, rfl, by simp at hl ⊢; omega⟩
        · rw [if_neg hb] at h
          obtain ⟨w, rest, rfl, hl⟩ := split_quoted_first unq hu x (acc ++ [c]) ws _ (.inl rfl) h
          exact ⟨w, rest, rfl, by simp at hl ⊢; omega⟩
    · rw [List.cons_append, split] at h
      obtain ⟨w, rest, rfl, hl⟩ := split_quoted_first unq hu x (acc ++ [c]) ws _ (.inl rfl) h
      exact ⟨w, rest, rfl, by simp at hl ⊢; omega⟩

theorem split_first_length (unq : Str → Option Str) (hu : ∀ t r, unq t = some r → r.length ≤ t.length) :
    ∀ (x w : Str) (ws : List Str), split unq .between (x ++ g!" ") = some (w :: ws) → w.length ≤ x.length
  | [], w, ws, h => by
    rw [List.nil_append, split, if_pos (by decide)] at h
    simp [split] at h
  | c :: x, w, ws, h => by
    rw [List.cons_append, split] at h
    by_cases hb : blank c = true
    · rw [if_pos hb] at h
      have := split_first_length unq hu x w ws h
      simp only [List.length_cons]
      omega
    · rw [if_neg hb] at h
      by_cases hq : c = '"'
      · rw [if_pos hq] at h
        obtain ⟨w', rest, e, hl⟩ := split_quoted_first unq hu x [] _ _ (.inl rfl) h
        cases e
        simp at hl ⊢
        omega
      · rw [if_neg hq] at h
        obtain ⟨rest, e⟩ := split_plain_first unq x [c] _ h
        cases e
        have := (List.takeWhile_sublist (fun c => !blank c) (l := x)).length_le
        simp
        omega

/-- If the first argument is the text itself, it contains no blanks and does not begin with a quote. -/
theorem split_first_iff (unq : Str → Option Str) (hu : ∀ t r, unq t = some r → r.length ≤ t.length) (a : Str) (w : Str) (ws : List Str)
    (h : split unq .between (a ++ g!" ") = some (w :: ws)) (hw : w = a) : a.head? ≠ some '"' ∧ ∀ c ∈ a, blank c = false := by
  subst hw
  cases w with
  | nil => simp
  | cons c x =>
    rw [List.cons_append, split] at h
    by_cases hb : blank c = true
    · rw [if_pos hb] at h
      have := split_first_length unq hu x _ ws h
      simp at this
      omega
    · rw [if_neg hb] at h
      by_cases hq : c = '"'
      · rw [if_pos hq] at h
        obtain ⟨w', rest, e, hl⟩ := split_quoted_first unq hu x [] _ _ (.inl rfl) h
        cases e
        simp at hl
        omega
      · rw [if_neg hq] at h
        obtain ⟨rest, e⟩ := split_plain_first unq x [c] _ h
        have e1 := (List.cons.inj e).1
        simp only [List.cons_append, List.nil_append, List.cons.injEq, true_and] at e1
        refine ⟨by simpa using hq, ?_⟩
        intro d hd
        rcases List.mem_cons.1 hd with rfl | hd
        · simpa using hb
        · rw [e1] at hd
          have := List.all_eq_true.1 (List.all_takeWhile (p := fun c => !blank c) (l := x)) d hd
          simpa using this

theorem parseGen_vars_prefix : ∀ (args : List Str) (f : GenFlags) (g : GenFlags) (rest : List Str),
    parseGen f args = .ok (g, rest) → f.vars <+: g.vars := by
  intro args
  induction hn : args.length using Nat.strongRecOn generalizing args with
  | ind n ih =>
  intro f g rest h
  subst hn
  cases args with
  | nil =>
    simp only [parseGen, Except.ok.injEq, Prod.mk.injEq] at h
    rw [h.1]; exact List.prefix_refl _
  | cons s args =>
    have hset : ∀ n v, f.vars <+: (setFlag f n v).vars := by
      intro n v
      cases n <;> simp [setFlag]
    unfold parseGen at h
    split at h
    · simp only [Except.ok.injEq, Prod.mk.injEq] at h; rw [h.1]; exact List.prefix_refl _
    · simp only [Except.ok.injEq, Prod.mk.injEq] at h; rw [h.1]; exact List.prefix_refl _
    · cases h
    · split at h
      · split at h <;> cases h
      · split at h
        · have := ih _ (by simp) args rfl { f with noGenerate := _ } g rest h
          exact this
        · cases h
      · split at h
        · exact (hset _ _).trans (ih _ (by simp) args rfl _ _ _ h)
        · split at h
          · cases h
          · rename_i val args'
            exact (hset _ _).trans (ih _ (by simp; omega) args' rfl _ _ _ h)

/-- The words of the line on which a single variable is written. -/
theorem split_line (a : Str) (unq : Str → Option Str) :
    split unq .between ((varsToArgs [varOf a]).takeWhile (· ≠ '\n') ++ g!" ") =
      (split unq .between (a.takeWhile (· ≠ '\n') ++ g!" ")).map (g!"-v" :: ·) := by
  have hline : (varsToArgs [varOf a]).takeWhile (· ≠ '\n') ++ g!" " = ' ' :: (g!"-v" ++ ' ' :: (a.takeWhile (· ≠ '\n') ++ g!" ")) := by
    unfold varsToArgs
    simp [varArg_varOf, join, List.takeWhile_cons]
  rw [hline, split, if_pos (by decide)]
  exact split_plain unq g!"v" g!"-" _ (by decide)

/-- **C32** (exact): a single variable survives being written on the `go:generate` line and being read from there exactly if it is not empty, contains
no blank, tab or line break and does not begin with a quote; where unquoting never makes a text longer.  The expansion of environment variables is
left out here, it is in `C33`. -/
theorem C32_exact (a : Str) (unq : Str → Option Str) (hu : ∀ t r, unq t = some r → r.length ≤ t.length) :
    (∃ args, split unq .between ((varsToArgs [varOf a]).takeWhile (· ≠ '\n') ++ g!" ") = some args ∧
      ∃ f, parseGen {} args = .ok (f, []) ∧ f.vars = [varOf a]) ↔
    a ≠ [] ∧ a.head? ≠ some '"' ∧ ∀ c ∈ a, blank c = false ∧ c ≠ '\n' := by
  rw [split_line]
  constructor
  · rintro ⟨args, h1, f, h2, h3⟩
    rw [Option.map_eq_some_iff] at h1
    obtain ⟨ws, h1, rfl⟩ := h1
    cases ws with
    | nil =>
      have e : parseGen {} [g!"-v"] = .error (.needsArgument g!"v") := by rfl
      rw [e] at h2
      cases h2
    | cons w ws =>
      rw [parse_v] at h2
      have hp := parseGen_vars_prefix _ _ _ _ h2
      rw [h3] at hp
      have hw : w = a := by
        have : varOf w = varOf a := by
          obtain ⟨t, ht⟩ := hp
          simp at ht
          exact ht.1
        rw [← varArg_varOf w, this, varArg_varOf]
      have hl := split_first_length unq hu _ w ws h1
      have hsub := List.takeWhile_prefix (fun c => decide (c ≠ '\n')) (l := a)
      have ht : a.takeWhile (fun c => decide (c ≠ '\n')) = a := hsub.eq_of_length_le (by rw [hw] at hl; exact hl)
      rw [ht] at h1
      have hn : ∀ c ∈ a, c ≠ '\n' := by
        intro c hc
        rw [← ht] at hc
        simpa using List.all_eq_true.1 (List.all_takeWhile (p := fun c => decide (c ≠ '\n')) (l := a)) c hc
      obtain ⟨hq, hb⟩ := split_first_iff unq hu a w ws h1 hw
      refine ⟨?_, hq, fun c hc => ⟨hb c hc, hn c hc⟩⟩
      rintro rfl
      rw [List.nil_append, split, if_pos (by decide)] at h1
      simp [split] at h1
  · rintro ⟨h0, hq, hb⟩
    have ht : a.takeWhile (fun c => decide (c ≠ '\n')) = a := by
      have := List.takeWhile_append_of_pos (p := fun c => decide (c ≠ '\n')) (l₁ := a) (l₂ := []) fun c hc => by simpa using (hb c hc).2
      simpa using this
    rw [ht]
    cases a with
    | nil => exact absurd rfl h0
    | cons c x =>
      have hq' : ¬ c = '"' := by simpa using hq
      have hs : split unq .between (c :: x ++ g!" ") = some [c :: x] := by
        rw [List.cons_append, split, if_neg (by rw [(hb c (by simp)).1]; decide), if_neg hq',
          split_plain unq x [c] [] fun y hy => (hb y (by simp [hy])).1]
        simp [split]
      rw [hs]
      refine ⟨_, rfl, _, parse_v _ _ _, ?_⟩
      simp

/-- A variable with quotes inside survives, one that begins with a quote does not, neither does one with a line break. -/
example : (∃ args, split (fun _ => none) .between ((varsToArgs [varOf g!"a=\"b\""]).takeWhile (· ≠ '\n') ++ g!" ") = some args ∧
      ∃ f, parseGen {} args = .ok (f, []) ∧ f.vars = [varOf g!"a=\"b\""]) :=
  (C32_exact _ _ (by simp)).2 (by decide)

example : ¬ (∃ args, split (fun _ => none) .between ((varsToArgs [varOf g!"\"b\""]).takeWhile (· ≠ '\n') ++ g!" ") = some args ∧
      ∃ f, parseGen {} args = .ok (f, []) ∧ f.vars = [varOf g!"\"b\""]) :=
  fun h => absurd ((C32_exact _ _ (by simp)).1 h) (by decide)

example : ¬ (∃ args, split (fun _ => none) .between ((varsToArgs [varOf g!"a=b\nc"]).takeWhile (· ≠ '\n') ++ g!" ") = some args ∧
      ∃ f, parseGen {} args = .ok (f, []) ∧ f.vars = [varOf g!"a=b\nc"]) :=
  fun h => absurd ((C32_exact _ _ (by simp)).1 h) (by decide)

end Gowrap.Props
