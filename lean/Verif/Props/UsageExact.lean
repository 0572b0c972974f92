import Verif.Props.Usage
/-!
# C88: exactly which tables of commands can be read
-/

namespace Gowrap.Props

open Gowrap Spec

/-- What is read from the line of a command. -/
def shownLine (e : Str × CmdInfo) : Str × Str :=
  ((padRight 10 e.1 ++ e.2.short).takeWhile (· ≠ ' '), ((padRight 10 e.1 ++ e.2.short).dropWhile (· ≠ ' ')).dropWhile (· = ' '))

theorem usageEntry_lines' {e : Str × CmdInfo} (h1 : '\n' ∉ e.1) (h2 : '\n' ∉ e.2.short) (r : Str) :
    textLines (usageEntry e ++ r) = [] :: ('\t' :: (padRight 10 e.1 ++ e.2.short)) :: textLines r := by
  have hl : '\n' ∉ '\t' :: (padRight 10 e.1 ++ e.2.short) := by
    simp [padRight, h1, h2, List.mem_replicate]
  have : usageEntry e ++ r = [] ++ '\n' :: (('\t' :: (padRight 10 e.1 ++ e.2.short)) ++ '\n' :: r) := by
    simp [usageEntry]
  rw [this, textLines_cons (by simp), textLines_cons hl]

theorem readCommandLines' (r : Str) : ∀ es : List (Str × CmdInfo), (∀ e ∈ es, '\n' ∉ e.1 ∧ '\n' ∉ e.2.short) →
    (textLines (es.flatMap usageEntry ++ r)).filterMap readCommandLine = es.map shownLine ++ (textLines r).filterMap readCommandLine
  | [], _ => rfl
  | e :: es, h => by
    rw [List.flatMap_cons, List.append_assoc, usageEntry_lines' (h e (by simp)).1 (h e (by simp)).2, List.filterMap_cons, List.filterMap_cons,
      readCommandLines' r es fun e he => h e (by simp [he])]
    rfl

theorem readCommands_shown {r : Registry} {version : Str} (hv : '\n' ∉ version) (h : ∀ e ∈ r, '\n' ∉ e.1 ∧ '\n' ∉ e.2.short) :
    readCommands (r.usageText version) = (sortBy (fun a b => decide (a.1 ≤ b.1)) r).map shownLine := by
  have hsplit : r.usageText version = (g!"GoWrap(" ++ version ++ g!") is a tool for generating decorators for the Go interfaces") ++ '\n' ::
      (g!"\nUsage:\n\n\tgowrap command [arguments]\n" ++ '\n' :: (g!"The commands are:" ++ '\n' ::
        ((sortBy (fun a b => decide (a.1 ≤ b.1)) r).flatMap usageEntry ++
          g!"\nUse \"gowrap help [command]\" for more information about a command.\n"))) := by
    simp only [Registry.usageText, List.append_assoc]
    rfl
  have h1 : '\n' ∉ g!"GoWrap(" ++ version ++ g!") is a tool for generating decorators for the Go interfaces" := by
    have a : '\n' ∉ g!"GoWrap(" := by decide
    have b : '\n' ∉ g!") is a tool for generating decorators for the Go interfaces" := by decide
    rw [List.mem_append, List.mem_append]
    rintro ((hc | hc) | hc)
    · exact a hc
    · exact hv hc
    · exact b hc
  have h2 : (g!"GoWrap(" ++ version ++ g!") is a tool for generating decorators for the Go interfaces" : Str) ≠ g!"The commands are:" := by
    intro he
    have := congrArg List.head? he
    simp at this
  rw [readCommands, hsplit, textLines_cons h1, textLines_append, textLines_cons (by decide)]
  rw [List.dropWhile_cons, if_pos (by simpa only [ne_eq, decide_eq_true_eq] using h2)]
  rw [List.dropWhile_append_of_pos (by decide), List.dropWhile_cons, if_neg (by simp), List.filterMap_cons]
  have : readCommandLine g!"The commands are:" = none := rfl
  rw [this]
  rw [readCommandLines' _ _ fun e he => h e ((Tmpl.mem_sortBy _ _ _).1 he)]
  have : (textLines g!"\nUse \"gowrap help [command]\" for more information about a command.\n").filterMap readCommandLine = [] := by decide
  rw [this, List.append_nil]

theorem padRight_long {n : Nat} {s : Str} (h : n ≤ s.length) : padRight n s = s := by
  unfold padRight
  rw [Nat.sub_eq_zero_of_le h]
  simp

/-- A line shows name and description if there is a blank between them or no description. -/
theorem shownLine_good {e : Str × CmdInfo} (h1 : ' ' ∉ e.1) (h2 : e.2.short.head? ≠ some ' ') (h : e.1.length < 10 ∨ e.2.short = []) :
    shownLine e = (e.1, e.2.short) := by
  by_cases hl : e.1.length < 10
  · unfold shownLine
    rw [padRight_short hl, List.append_assoc, List.cons_append, takeWhile_word h1, dropWhile_word h1]
    congr 1
    exact dropWhile_blanks (_ + 1) h2
  · have hs := h.resolve_left hl
    unfold shownLine
    rw [padRight_long (by omega), hs, List.append_nil]
    have hall : ∀ c ∈ e.1, decide (c ≠ ' ') = true := by
      intro c hc
      simp only [ne_eq, decide_eq_true_eq]
      rintro rfl
      exact h1 hc
    have t := List.takeWhile_append_of_pos (p := fun c => decide (c ≠ ' ')) (l₁ := e.1) (l₂ := []) hall
    have d := List.dropWhile_append_of_pos (p := fun c => decide (c ≠ ' ')) (l₁ := e.1) (l₂ := []) hall
    simp only [List.append_nil, List.takeWhile_nil, List.dropWhile_nil] at t d
    rw [t, d]
    rfl

/-- Otherwise what is read as the name is longer than the name. -/
theorem shownLine_bad {e : Str × CmdInfo} (h1 : ' ' ∉ e.1) (h2 : e.2.short.head? ≠ some ' ') (hl : 10 ≤ e.1.length) (hs : e.2.short ≠ []) :
    e.1.length < (shownLine e).1.length := by
  have hall : ∀ c ∈ e.1, decide (c ≠ ' ') = true := by
    intro c hc
    simp only [ne_eq, decide_eq_true_eq]
    rintro rfl
    exact h1 hc
  unfold shownLine
  rw [padRight_long hl, List.takeWhile_append_of_pos hall]
  cases hd : e.2.short with
  | nil => exact absurd hd hs
  | cons c d =>
    rw [hd] at h2
    have : c ≠ ' ' := by simpa using h2
    simp [List.takeWhile_cons, this]

/-- **C88** (exact): the table in the usage text shows exactly the names that can be looked up with their descriptions if and only if all of these
names with a description have less than 10 characters. -/
theorem C88_exact (regs : List (Str × CmdInfo)) (version : Str) (hv : '\n' ∉ version)
    (h : ∀ e ∈ regs, ' ' ∉ e.1 ∧ '\n' ∉ e.1 ∧ '\n' ∉ e.2.short ∧ e.2.short.head? ≠ some ' ') :
    (∀ name d, (name, d) ∈ readCommands ((registered regs).usageText version) ↔ ∃ c, LastRegistered regs name c ∧ c.short = d) ↔
    ∀ name c, LastRegistered regs name c → name.length < 10 ∨ c.short = [] := by
  have hreg : ∀ e ∈ registered regs, e ∈ regs := by
    intro e he
    obtain ⟨a, b, hr, _⟩ := (mem_registered regs e.1 e.2).1 he
    rw [hr]; simp
  have hmem : ∀ name d, (name, d) ∈ readCommands ((registered regs).usageText version) ↔ ∃ e ∈ registered regs, shownLine e = (name, d) := by
    intro name d
    rw [readCommands_shown hv fun e he => ⟨(h e (hreg e he)).2.1, (h e (hreg e he)).2.2.1⟩]
    simp only [List.mem_map, Tmpl.mem_sortBy]
  simp only [hmem]
  constructor
  · intro hall
    -- the shortest of the long names can be read from no line
    have key : ∀ n name c, name.length = n → LastRegistered regs name c → name.length < 10 ∨ c.short = [] := by
      intro n
      induction n using Nat.strongRecOn with
      | ind n ih =>
      intro name c hn hc
      by_cases hl : name.length < 10
      · exact .inl hl
      right
      obtain ⟨e, he, hs⟩ := (hall name c.short).2 ⟨c, hc, rfl⟩
      obtain ⟨h1, _, _, h4⟩ := h e (hreg e he)
      have hlast := (mem_registered regs e.1 e.2).1 he
      by_cases hgood : e.1.length < 10 ∨ e.2.short = []
      · rw [shownLine_good h1 h4 hgood] at hs
        have e1 : e.1 = name := congrArg Prod.fst hs
        have e2 : e.2.short = c.short := congrArg Prod.snd hs
        rw [e1, e2] at hgood
        exact hgood.resolve_left hl
      · rw [not_or] at hgood
        have hlt := shownLine_bad h1 h4 (by omega) hgood.2
        rw [hs] at hlt
        exact absurd (ih e.1.length (by rw [← hn]; exact hlt) e.1 e.2 rfl hlast) (by rw [not_or]; exact hgood)
    exact fun name c => key _ name c rfl
  · intro hshort name d
    constructor
    · rintro ⟨e, he, hs⟩
      obtain ⟨h1, _, _, h4⟩ := h e (hreg e he)
      have hlast := (mem_registered regs e.1 e.2).1 he
      rw [shownLine_good h1 h4 (hshort _ _ hlast)] at hs
      cases hs
      exact ⟨e.2, hlast, rfl⟩
    · rintro ⟨c, hc, rfl⟩
      have he := (mem_registered regs name c).2 hc
      obtain ⟨h1, _, _, h4⟩ := h _ (hreg _ he)
      exact ⟨(name, c), he, shownLine_good h1 h4 (hshort _ _ hc)⟩

/-- A long name with a description, registered again without, does no harm. -/
example : ∀ name d, (name, d) ∈ readCommands ((registered [(g!"generate-all", genInfo), (g!"generate-all", ⟨[], [], [], none⟩)]).usageText g!"dev") ↔
    ∃ c, LastRegistered [(g!"generate-all", genInfo), (g!"generate-all", ⟨[], [], [], none⟩)] name c ∧ c.short = d :=
  (C88_exact _ g!"dev" (by decide) (by decide)).2 fun name c hc => by
    have hc' : LastRegistered ([(g!"generate-all", genInfo)] ++ [(g!"generate-all", ⟨[], [], [], none⟩)]) name c := hc
    rcases lastRegistered_snoc.1 hc' with hc | ⟨hne, a, b, hc, _⟩
    · cases hc; exact .inr rfl
    · cases a with
      | nil => cases hc; exact absurd rfl hne
      | cons x a => cases a <;> cases hc

/-- Two long names do not help each other: what is read from the line of one is the other. -/
example : ¬ ∀ name d, (name, d) ∈ readCommands ((registered [(g!"generates-", ⟨g!"all x", [], [], none⟩), (g!"generates-all", ⟨g!"x", [], [], none⟩)]).usageText g!"dev") ↔
    ∃ c, LastRegistered [(g!"generates-", ⟨g!"all x", [], [], none⟩), (g!"generates-all", ⟨g!"x", [], [], none⟩)] name c ∧ c.short = d :=
  fun hh => absurd ((C88_exact _ g!"dev" (by decide) (by decide)).1 hh g!"generates-" ⟨g!"all x", [], [], none⟩
    ⟨[], _, rfl, by decide⟩) (by decide)

end Gowrap.Props
