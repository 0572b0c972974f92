import Verif.Proofs.Usage
import Verif.Props.Flags
import Verif.Model.Main
/-!
# Help texts (C88, C89)
-/

namespace Gowrap.Props

open Gowrap Spec

/-- The full claim: whatever commands are registered, the usage text shows exactly the names that can be looked up, each with the description of
the command registered last under this name. -/
def C88_full : Prop :=
  ∀ (regs : List (Str × CmdInfo)) (version : Str), '\n' ∉ version → (∀ e ∈ regs, ' ' ∉ e.1 ∧ '\n' ∉ e.1 ∧ '\n' ∉ e.2.short ∧ e.2.short.head? ≠ some ' ') →
    ∀ name d, (name, d) ∈ readCommands ((registered regs).usageText version) ↔ ∃ c, LastRegistered regs name c ∧ c.short = d

/-- **C88** A command can be looked up exactly under the names it was the last to be registered under. -/
theorem C88_lookup (regs : List (Str × CmdInfo)) (name : Str) (c : CmdInfo) : (registered regs).get name = some c ↔ LastRegistered regs name c :=
  (get_iff (registered_nodup regs) name c).trans (mem_registered regs name c)

/-- **C88** (the part that holds): for names of less than 10 characters, the table in the usage text is strictly sorted by name and shows exactly the
names that can be looked up, each with the description of the command registered last under this name.  Missing for the full claim: longer names are
printed without a blank before the description, see `C88_full_false`. -/
theorem C88_table_partial (regs : List (Str × CmdInfo)) (version : Str) (hv : '\n' ∉ version)
    (h : ∀ e ∈ regs, ' ' ∉ e.1 ∧ '\n' ∉ e.1 ∧ '\n' ∉ e.2.short ∧ e.2.short.head? ≠ some ' ') (hl : ∀ e ∈ regs, e.1.length < 10) :
    ((readCommands ((registered regs).usageText version)).map (·.1)).Pairwise (· < ·) ∧
    ∀ name d, (name, d) ∈ readCommands ((registered regs).usageText version) ↔ ∃ c, LastRegistered regs name c ∧ c.short = d := by
  have ht : ∀ e ∈ registered regs, Tabular e := by
    intro e he
    obtain ⟨a, b, hr, _⟩ := (mem_registered regs e.1 e.2).1 he
    have hm : e ∈ regs := by rw [hr]; simp
    obtain ⟨h1, h2, h3, h4⟩ := h e hm
    exact ⟨h1, h2, hl e hm, h3, h4⟩
  rw [readCommands_usageText hv ht]
  constructor
  · rw [List.map_map]
    exact sorted_keys (fun e : Str × CmdInfo => e.1) _ (registered_nodup regs)
  · intro name d
    simp only [List.mem_map, Tmpl.mem_sortBy]
    constructor
    · rintro ⟨e, he, h2⟩
      cases h2
      exact ⟨e.2, (mem_registered regs _ _).1 he, rfl⟩
    · rintro ⟨c, hc, rfl⟩
      exact ⟨(name, c), (mem_registered regs _ _).2 hc, rfl⟩

/-- **C88** The commands that gowrap registers are those it runs. -/
theorem C88_gowrap (name : Str) : (∃ c, gowrapCommands.get name = some c) ↔ ∃ c, getCommand name = some c := by
  have h : ∀ c, gowrapCommands.get name = some c ↔ (name, c) ∈ gowrapCommands := fun c => get_iff (by decide) name c
  simp only [h]
  have hg : gowrapCommands = [(g!"gen", genInfo), (g!"template", templateInfo)] := rfl
  rw [hg]
  unfold getCommand
  by_cases h1 : name = g!"gen"
  · simp [h1]
  · by_cases h2 : name = g!"template"
    · simp [h2]
    · simp [h1, h2]

/-- Commands for the examples: the ones of gowrap, of which gen has been replaced. -/
def Demo.commands : List (Str × CmdInfo) :=
  [(g!"gen", ⟨g!"old", [], [], none⟩), (g!"template", templateInfo), (g!"gen", genInfo)]

example : (registered Demo.commands).get g!"gen" = some genInfo :=
  (C88_lookup _ _ _).2 ⟨[(g!"gen", ⟨g!"old", [], [], none⟩), (g!"template", templateInfo)], [], rfl, by simp⟩

example : (g!"gen", g!"generate decorators") ∈ readCommands ((registered Demo.commands).usageText g!"dev") :=
  ((C88_table_partial Demo.commands g!"dev" (by decide) (by decide) (by decide)).2 _ _).2
    ⟨genInfo, ⟨[(g!"gen", ⟨g!"old", [], [], none⟩), (g!"template", templateInfo)], [], rfl, by simp⟩, rfl⟩

example : readCommands ((registered Demo.commands).usageText g!"dev") =
    [(g!"gen", g!"generate decorators"), (g!"template", g!"manage decorators templates")] := by decide +kernel

/-- A name of 12 characters runs into its description. -/
theorem C88_full_false : ¬ C88_full := by
  intro h
  have := (h [(g!"generate-all", genInfo)] g!"dev" (by decide) (by decide) g!"generate-all" g!"generate decorators").2
    ⟨genInfo, ⟨[], [], rfl, by simp⟩, rfl⟩
  revert this
  decide +kernel

/-- The full claim: help describes every flag with its name, the type of its argument, and its usage as it is. -/
def C89_full : Prop :=
  ∀ fs : List FlagDef, (∀ f ∈ fs, ∀ c ∈ f.name, c ≠ ' ' ∧ c ≠ '\t' ∧ c ≠ '\n') →
    describedFlags (printDefaults fs) = (sortBy (fun a b => decide (a.name ≤ b.name)) fs).map documentation

theorem kindName_lines (k : FlagKind) : '\n' ∉ k.name := by cases k <;> decide

theorem described_printDefaults (fs : List FlagDef) (h : ∀ f ∈ fs, Describable f) (r : Str) (hr : (readFlags (textLines r)).1 = []) :
    readFlags (textLines (printDefaults fs ++ r)) =
      ([], (sortBy (fun a b => decide (a.name ≤ b.name)) fs).map (fun f => ⟨f.name, f.unquote.1, f.unquote.2⟩) ++ describedFlags r) :=
  readFlags_texts r hr _ fun f hf => h f ((Tmpl.mem_sortBy _ _ _).1 hf)

/-- **C89** (the part that holds): the flags are described in the order of their names; if the placeholders that are marked by back quotes stay within
a line, the descriptions are right exactly if no usage contains two back quotes.  Missing for the full claim: see `C89_full_false`. -/
theorem C89_flags_partial (fs : List FlagDef) (h : ∀ f ∈ fs, ∀ c ∈ f.name, c ≠ ' ' ∧ c ≠ '\t' ∧ c ≠ '\n') :
    ((∀ f ∈ fs, f.usage.count '`' ≤ 1) →
      describedFlags (printDefaults fs) = (sortBy (fun a b => decide (a.name ≤ b.name)) fs).map documentation) ∧
    ((∀ f ∈ fs, '\n' ∉ f.unquote.1) →
      describedFlags (printDefaults fs) = (sortBy (fun a b => decide (a.name ≤ b.name)) fs).map documentation →
      ∀ f ∈ fs, f.usage.count '`' ≤ 1) := by
  constructor
  · intro hq
    have hd : ∀ f ∈ fs, Describable f := fun f hf => ⟨h f hf, by rw [unquote_plain (hq f hf)]; exact kindName_lines _⟩
    have := described_printDefaults fs hd [] rfl
    rw [List.append_nil] at this
    rw [describedFlags, this, show describedFlags [] = [] from rfl, List.append_nil]
    refine List.map_congr_left fun f hf => ?_
    rw [unquote_plain (hq f ((Tmpl.mem_sortBy _ _ _).1 hf))]
    rfl
  · intro hd he f hf
    have := described_printDefaults fs (fun f hf => ⟨h f hf, hd f hf⟩) [] rfl
    rw [List.append_nil] at this
    rw [describedFlags, this, show describedFlags [] = [] from rfl, List.append_nil] at he
    have := List.map_inj_left.1 he f ((Tmpl.mem_sortBy _ _ _).2 hf)
    refine Nat.le_of_not_lt fun hc => ?_
    have h2 := unquote_quoted hc
    have : f.unquote.2 = f.usage := congrArg FlagDoc.usage this
    rw [this] at h2
    omega

/-- The help for `-t` takes the hint to run `gowrap template list` for the type of the argument: `-t gowrap template list`. -/
theorem C89_full_false : ¬ C89_full := by
  intro h
  have := (C89_flags_partial genFlagDefs (by decide)).2 (by decide +kernel) (h genFlagDefs (by decide))
  revert this
  decide

/-- A flag for the examples: its usage has a line feed. -/
def Demo.flagDef : FlagDef := ⟨g!"name", .string, g!"one\ntwo"⟩

example : describedFlags (printDefaults [Demo.flagDef, ⟨g!"b", .bool, g!"a `"⟩]) =
    [⟨g!"b", [], g!"a `"⟩, ⟨g!"name", g!"string", g!"one\ntwo"⟩] :=
  (C89_flags_partial [Demo.flagDef, ⟨g!"b", .bool, g!"a `"⟩] (by decide)).1 (by decide)

/-- **C89** Help for a registered command begins with its usage line, and describes exactly its flags, and then whatever its help message
describes. -/
theorem C89_help (regs : List (Str × CmdInfo)) (name : Str) (c : CmdInfo) (hc : LastRegistered regs name c) (fs : List FlagDef)
    (hf : c.flags = some fs) (hd : ∀ f ∈ fs, Describable f) (hn : '\n' ∉ name) (hu : '\n' ∉ c.usage)
    (hh : ¬ ∃ r, c.help = g!"    \t" ++ r) :
    ∃ t, (registered regs).helpText name = some t ∧ (textLines t).head? = some (g!"Usage: gowrap " ++ name ++ g!" " ++ c.usage) ∧
      (describedFlags t).map (·.name) = (sortBy (fun a b => decide (a.name ≤ b.name)) fs).map (·.name) ++ (describedFlags c.help).map (·.name) := by
  have hr : (readFlags (textLines c.help)).1 = [] := by
    cases ht : textLines c.help with
    | nil => exact absurd ht (textLines_ne_nil _)
    | cons l ls =>
      unfold readFlags
      split
      · rfl
      · next r =>
        refine absurd ?_ hh
        have := joinLines_textLines c.help
        rw [ht] at this
        cases ls with
        | nil => exact ⟨r, by rw [← this]; rfl⟩
        | cons l' ls => exact ⟨r ++ '\n' :: joinLines (l' :: ls), by rw [← this]; rfl⟩
      · rfl
  have hl : '\n' ∉ g!"Usage: gowrap " ++ name ++ g!" " ++ c.usage := by
    have : '\n' ∉ g!"Usage: gowrap " := by decide
    simp [hn, hu]
  refine ⟨g!"Usage: gowrap " ++ name ++ g!" " ++ c.usage ++ '\n' :: (printDefaults fs ++ c.help), ?_, ?_, ?_⟩
  · rw [Registry.helpText, (C88_lookup regs name c).2 hc, Option.map_some, hf]
    simp
  · rw [textLines_cons hl]; rfl
  · rw [describedFlags, textLines_cons hl]
    have : g!"Usage: gowrap " ++ name ++ g!" " ++ c.usage = 'U' :: (g!"sage: gowrap " ++ name ++ g!" " ++ c.usage) := rfl
    rw [this]
    unfold readFlags
    rw [described_printDefaults fs hd _ hr]
    simp

example : ∃ t, (registered Demo.commands).helpText g!"gen" = some t ∧
    (textLines t).head? = some g!"Usage: gowrap gen -p package -i interfaceName -t template -o output_file.go" ∧
    (describedFlags t).map (·.name) = [g!"g", g!"i", g!"l", g!"o", g!"p", g!"t", g!"v"] := by
  obtain ⟨t, h1, h2, h3⟩ := C89_help Demo.commands g!"gen" genInfo
    ⟨[(g!"gen", ⟨g!"old", [], [], none⟩), (g!"template", templateInfo)], [], rfl, by simp⟩ genFlagDefs rfl
    (fun f hf => ⟨(by decide : ∀ f ∈ genFlagDefs, ∀ c ∈ f.name, c ≠ ' ' ∧ c ≠ '\t' ∧ c ≠ '\n') f hf,
      (by decide +kernel : ∀ f ∈ genFlagDefs, '\n' ∉ f.unquote.1) f hf⟩) (by decide) (by decide) (by rintro ⟨r, h⟩; cases h)
  refine ⟨t, h1, h2, h3.trans ?_⟩
  decide +kernel

/-- **C89** `gowrap help gen` describes exactly the flags that `gowrap gen` accepts, and says of all but the boolean flag that they need an argument. -/
theorem C89_gen : ∃ t, gowrapCommands.helpText g!"gen" = some t ∧ ∀ name,
    (name ∈ (describedFlags t).map (·.name) ↔ ∃ n, flagNamed name = some n) ∧
    ((∃ d ∈ describedFlags t, d.name = name ∧ d.argument = []) ↔ flagNamed name = some .g) := by
  refine ⟨_, rfl, fun name => ?_⟩
  have h : (describedFlags (g!"Usage: gowrap " ++ g!"gen" ++ g!" " ++ genInfo.usage ++ g!"\n" ++ printDefaults genFlagDefs ++ [])).map
      (fun d => (d.name, decide (d.argument = []))) =
      [(g!"g", true), (g!"i", false), (g!"l", false), (g!"o", false), (g!"p", false), (g!"t", false), (g!"v", false)] := by decide +kernel
  have h' := congrArg (List.map (·.1)) h
  rw [List.map_map] at h'
  constructor
  · rw [flagNamed_iff]
    show name ∈ List.map ((·.1) ∘ fun d : FlagDoc => (d.name, decide (d.argument = []))) (describedFlags
      (g!"Usage: gowrap " ++ g!"gen" ++ g!" " ++ genInfo.usage ++ g!"\n" ++ printDefaults genFlagDefs ++ [])) ↔ _
    rw [h']
    simp only [List.map_cons, List.map_nil, List.mem_cons, List.not_mem_nil, or_false, GenFlag]
    constructor
    · rintro (h | h | h | h | h | h | h) <;> simp [h]
    · rintro (h | h | h | h | h | h | h) <;> simp [h]
  · rw [flagNamed_g]
    have hm : (∃ d ∈ describedFlags (g!"Usage: gowrap " ++ g!"gen" ++ g!" " ++ genInfo.usage ++ g!"\n" ++ printDefaults genFlagDefs ++ []),
        d.name = name ∧ d.argument = []) ↔ (name, true) ∈ (describedFlags
          (g!"Usage: gowrap " ++ g!"gen" ++ g!" " ++ genInfo.usage ++ g!"\n" ++ printDefaults genFlagDefs ++ [])).map
            (fun d => (d.name, decide (d.argument = []))) := by
      rw [List.mem_map]
      constructor
      · rintro ⟨d, h1, h2, h3⟩; exact ⟨d, h1, by rw [h2, decide_eq_true h3]⟩
      · rintro ⟨d, h1, h2⟩
        rw [Prod.mk.injEq] at h2
        exact ⟨d, h1, h2.1, of_decide_eq_true h2.2⟩
    rw [h] at hm
    refine hm.trans ?_
    simp [GenBool]

end Gowrap.Props
