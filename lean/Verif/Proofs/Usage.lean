import Verif.Spec.Usage
import Verif.Proofs.Methods
import Verif.Proofs.SourceLex
/-!
# Reading help texts
-/

namespace Gowrap.Spec

/-! ## Lines -/

theorem textLines_ne_nil : ∀ s : Str, textLines s ≠ []
  | [] => by simp [textLines]
  | c :: cs => by
    rw [textLines]
    split
    · simp
    · split <;> simp

theorem textLines_append (b : Str) : ∀ a : Str, textLines (a ++ '\n' :: b) = textLines a ++ textLines b
  | [] => by simp [textLines]
  | c :: cs => by
    rw [List.cons_append, textLines, textLines, textLines_append b cs]
    by_cases h : c = '\n'
    · rw [if_pos h, if_pos h]; rfl
    · rw [if_neg h, if_neg h]
      cases ht : textLines cs with
      | nil => exact absurd ht (textLines_ne_nil cs)
      | cons l ls => rfl

theorem textLines_single : ∀ {a : Str}, '\n' ∉ a → textLines a = [a]
  | [], _ => rfl
  | c :: cs, h => by
    rw [List.mem_cons, not_or] at h
    rw [textLines, if_neg (fun e => h.1 e.symm), textLines_single h.2]

theorem textLines_cons {a : Str} (h : '\n' ∉ a) (b : Str) : textLines (a ++ '\n' :: b) = a :: textLines b := by
  rw [textLines_append, textLines_single h]; rfl

theorem joinLines_textLines : ∀ s : Str, joinLines (textLines s) = s
  | [] => rfl
  | c :: cs => by
    have ih := joinLines_textLines cs
    rw [textLines]
    cases ht : textLines cs with
    | nil => exact absurd ht (textLines_ne_nil cs)
    | cons l ls =>
      rw [ht] at ih
      by_cases h : c = '\n'
      · rw [if_pos h, joinLines, ih, List.nil_append, h]
        simp
      · rw [if_neg h]
        cases ls with
        | nil => simpa [joinLines] using ih
        | cons l' ls => simp only [joinLines] at ih ⊢; rw [List.cons_append, ih]

/-! ## The table of commands -/

theorem takeWhile_word {n : Str} (h : ' ' ∉ n) (r : Str) : (n ++ ' ' :: r).takeWhile (· ≠ ' ') = n := by
  induction n with
  | nil => simp
  | cons c cs ih =>
    rw [List.mem_cons, not_or] at h
    have : c ≠ ' ' := fun e => h.1 e.symm
    rw [List.cons_append, List.takeWhile_cons, if_pos (by simpa using this), ih h.2]

theorem dropWhile_word {n : Str} (h : ' ' ∉ n) (r : Str) : (n ++ ' ' :: r).dropWhile (· ≠ ' ') = ' ' :: r := by
  induction n with
  | nil => simp
  | cons c cs ih =>
    rw [List.mem_cons, not_or] at h
    have : c ≠ ' ' := fun e => h.1 e.symm
    rw [List.cons_append, List.dropWhile_cons, if_pos (by simpa using this), ih h.2]

theorem dropWhile_blanks (n : Nat) {d : Str} (h : d.head? ≠ some ' ') : (List.replicate n ' ' ++ d).dropWhile (· = ' ') = d := by
  induction n with
  | zero =>
    cases d with
    | nil => rfl
    | cons c cs =>
      have : c ≠ ' ' := fun e => h (by rw [e]; rfl)
      simp [this]
  | succ n ih => simpa [List.replicate_succ] using ih

/-- Names and descriptions that fit into the table. -/
def Tabular (e : Str × CmdInfo) : Prop :=
  ' ' ∉ e.1 ∧ '\n' ∉ e.1 ∧ e.1.length < 10 ∧ '\n' ∉ e.2.short ∧ e.2.short.head? ≠ some ' '

theorem padRight_short {n : Nat} {s : Str} (h : s.length < n) : padRight n s = s ++ ' ' :: List.replicate (n - s.length - 1) ' ' := by
  unfold padRight
  obtain ⟨k, hk⟩ : ∃ k, n - s.length = k + 1 := ⟨n - s.length - 1, by omega⟩
  rw [hk, List.replicate_succ]; rfl

theorem readCommandLine_usage {e : Str × CmdInfo} (h : Tabular e) : readCommandLine ('\t' :: (padRight 10 e.1 ++ e.2.short)) = some (e.1, e.2.short) := by
  obtain ⟨h1, _, h2, _, h3⟩ := h
  rw [readCommandLine, padRight_short h2, List.append_assoc, List.cons_append, takeWhile_word h1, dropWhile_word h1]
  congr 2
  exact dropWhile_blanks (_ + 1) h3

theorem usageEntry_lines {e : Str × CmdInfo} (h : Tabular e) (r : Str) :
    textLines (usageEntry e ++ r) = [] :: ('\t' :: (padRight 10 e.1 ++ e.2.short)) :: textLines r := by
  have hl : '\n' ∉ '\t' :: (padRight 10 e.1 ++ e.2.short) := by
    obtain ⟨_, h1, _, h2, _⟩ := h
    simp [padRight, h1, h2, List.mem_replicate]
  have : usageEntry e ++ r = [] ++ '\n' :: (('\t' :: (padRight 10 e.1 ++ e.2.short)) ++ '\n' :: r) := by
    simp [usageEntry]
  rw [this, textLines_cons (by simp), textLines_cons hl]

theorem readCommandLines (r : Str) : ∀ es : List (Str × CmdInfo), (∀ e ∈ es, Tabular e) →
    (textLines (es.flatMap usageEntry ++ r)).filterMap readCommandLine = es.map (fun e => (e.1, e.2.short)) ++ (textLines r).filterMap readCommandLine
  | [], _ => rfl
  | e :: es, h => by
    rw [List.flatMap_cons, List.append_assoc, usageEntry_lines (h e (by simp)), List.filterMap_cons, List.filterMap_cons,
      readCommandLine_usage (h e (by simp)), readCommandLines r es fun e he => h e (by simp [he])]
    rfl

theorem readCommands_usageText {r : Registry} {version : Str} (hv : '\n' ∉ version) (h : ∀ e ∈ r, Tabular e) :
    readCommands (r.usageText version) = (sortBy (fun a b => decide (a.1 ≤ b.1)) r).map fun e => (e.1, e.2.short) := by
  have hsplit : r.usageText version = (g!"GoWrap(" ++ version ++ g!") is a tool for generating decorators for the Go interfaces") ++ '\n' ::
      (g!"\nUsage:\n\n\tgowrap command [arguments]\n" ++ '\n' :: (g!"The commands are:" ++ '\n' ::
        ((sortBy (fun a b => decide (a.1 ≤ b.1)) r).flatMap usageEntry ++
          g!"\nUse \"gowrap help [command]\" for more information about a command.\n"))) := by
    simp only [Registry.usageText, List.append_assoc]
    rfl
  have h1 : '\n' ∉ g!"GoWrap(" ++ version ++ g!") is a tool for generating decorators for the Go interfaces" := by
    have a : '\n' ∉ g!"GoWrap(" := by decide
    have b : '\n' ∉ g!") is a tool for generating decorators for the Go interfaces" := by decide
    rw [List.mem_append, List.mem_append]
    rintro ((hc | hc) | hc)
    · exact a hc
    · exact hv hc
    · exact b hc
  have h2 : (g!"GoWrap(" ++ version ++ g!") is a tool for generating decorators for the Go interfaces" : Str) ≠ g!"The commands are:" := by
    intro he
    have := congrArg List.head? he
    simp at this
  rw [readCommands, hsplit, textLines_cons h1, textLines_append, textLines_cons (by decide)]
  rw [List.dropWhile_cons, if_pos (by simpa only [ne_eq, decide_eq_true_eq] using h2)]
  rw [List.dropWhile_append_of_pos (by decide), List.dropWhile_cons, if_neg (by simp), List.filterMap_cons]
  have : readCommandLine g!"The commands are:" = none := rfl
  rw [this]
  rw [readCommandLines _ _ fun e he => h e ((Tmpl.mem_sortBy _ _ _).1 he)]
  have : (textLines g!"\nUse \"gowrap help [command]\" for more information about a command.\n").filterMap readCommandLine = [] := by decide
  rw [this, List.append_nil]

/-! ## Registering -/

theorem registered_snoc (regs : List (Str × CmdInfo)) (e : Str × CmdInfo) : registered (regs ++ [e]) = (registered regs).register e.1 e.2 := by
  simp [registered, List.foldl_append]

theorem lastRegistered_snoc {regs : List (Str × CmdInfo)} {e : Str × CmdInfo} {name : Str} {c : CmdInfo} :
    LastRegistered (regs ++ [e]) name c ↔ e = (name, c) ∨ e.1 ≠ name ∧ LastRegistered regs name c := by
  constructor
  · rintro ⟨a, b, h1, h2⟩
    rcases List.eq_nil_or_concat b with rfl | ⟨b', x, rfl⟩
    · have := List.append_inj' h1 rfl
      exact Or.inl (by simpa using this.2)
    · have h1' : regs ++ [e] = (a ++ (name, c) :: b') ++ [x] := by simpa using h1
      have := List.append_inj' h1' rfl
      have he : e = x := by simpa using this.2
      refine Or.inr ⟨?_, a, b', this.1, fun y hy => h2 y (by simp [hy])⟩
      rw [he]; exact h2 x (by simp)
  · rintro (rfl | ⟨h1, a, b, rfl, h2⟩)
    · exact ⟨regs, [], rfl, by simp⟩
    · refine ⟨a, b ++ [e], by simp, ?_⟩
      intro y hy
      rcases List.mem_append.1 hy with hy | hy
      · exact h2 y hy
      · rw [List.mem_singleton.1 hy]; exact h1

theorem mem_registered_rev (name : Str) (c : CmdInfo) : ∀ regs : List (Str × CmdInfo),
    (name, c) ∈ registered regs.reverse ↔ LastRegistered regs.reverse name c
  | [] => by
    constructor
    · intro h; cases h
    · rintro ⟨a, b, h, _⟩; simp at h
  | e :: regs => by
    rw [List.reverse_cons, registered_snoc, lastRegistered_snoc, ← mem_registered_rev name c regs]
    simp only [Registry.register, List.mem_append, List.mem_filter, List.mem_singleton, Bool.not_eq_true', decide_eq_false_iff_not]
    constructor
    · rintro (⟨h1, h2⟩ | h)
      · exact Or.inr ⟨fun he => h2 he.symm, h1⟩
      · exact Or.inl h.symm
    · rintro (h | ⟨h1, h2⟩)
      · exact Or.inr h.symm
      · exact Or.inl ⟨h2, fun he => h1 he.symm⟩

theorem mem_registered (regs : List (Str × CmdInfo)) (name : Str) (c : CmdInfo) : (name, c) ∈ registered regs ↔ LastRegistered regs name c := by
  have := mem_registered_rev name c regs.reverse
  rwa [List.reverse_reverse] at this

theorem registered_nodup_rev : ∀ regs : List (Str × CmdInfo), ((registered regs.reverse).map (·.1)).Nodup
  | [] => by simp [registered]
  | e :: regs => by
    rw [List.reverse_cons, registered_snoc, Registry.register, List.map_append]
    refine List.nodup_append.2 ⟨?_, by simp, ?_⟩
    · exact (registered_nodup_rev regs).sublist (List.filter_sublist.map _)
    · intro a ha b hb
      simp only [List.map_cons, List.map_nil, List.mem_singleton] at hb
      subst hb
      simp only [List.mem_map, List.mem_filter, Bool.not_eq_true', decide_eq_false_iff_not] at ha
      obtain ⟨x, ⟨_, hx⟩, rfl⟩ := ha
      exact hx

theorem registered_nodup (regs : List (Str × CmdInfo)) : ((registered regs).map (·.1)).Nodup := by
  have := registered_nodup_rev regs.reverse
  rwa [List.reverse_reverse] at this

theorem get_iff {r : Registry} (hn : (r.map (·.1)).Nodup) (name : Str) (c : CmdInfo) : r.get name = some c ↔ (name, c) ∈ r := by
  induction r with
  | nil => simp [Registry.get]
  | cons e r ih =>
    rw [List.map_cons, List.nodup_cons] at hn
    unfold Registry.get at ih ⊢
    rw [List.find?_cons]
    by_cases h : e.1 = name
    · simp only [h, decide_true, Option.map_some, Option.some.injEq, List.mem_cons]
      constructor
      · intro hc; left; rw [← h, ← hc]
      · rintro (hc | hc)
        · rw [← hc]
        · exact absurd (List.mem_map.2 ⟨_, hc, h.symm⟩) hn.1
    · simp only [h, decide_false, List.mem_cons]
      rw [ih hn.2]
      constructor
      · exact Or.inr
      · rintro (hc | hc)
        · exact absurd (by rw [← hc]) h
        · exact hc

theorem sorted_keys {α : Type} (f : α → Str) (l : List α) (h : (l.map f).Nodup) :
    ((sortBy (fun a b => decide (f a ≤ f b)) l).map f).Pairwise (· < ·) := by
  have hs := sortBy_sorted (le := fun a b => decide (f a ≤ f b))
    (by intro a b c; simpa using List.le_trans) (by intro a b; simpa using List.le_total _ _) l
  have hn : ((sortBy (fun a b => decide (f a ≤ f b)) l).map f).Nodup := ((sortBy_perm _ l).map f).nodup_iff.2 h
  rw [List.pairwise_map]
  rw [List.nodup_iff_pairwise_ne, List.pairwise_map] at hn
  refine List.Pairwise.imp₂ ?_ hs hn
  intro a b h1 h2
  simp only [decide_eq_true_eq] at h1
  rcases List.le_iff_lt_or_eq.1 h1 with h | h
  · exact h
  · exact absurd h h2

/-! ## Flags -/

theorem splitAtChar_none {c : Char} : ∀ {s : Str}, splitAtChar c s = none ↔ c ∉ s
  | [] => by simp [splitAtChar]
  | x :: xs => by
    rw [splitAtChar, List.mem_cons]
    by_cases h : x = c
    · simp [h]
    · rw [if_neg h, Option.map_eq_none_iff, splitAtChar_none]
      simp [Ne.symm h]

theorem splitAtChar_some {c : Char} : ∀ {s a b : Str}, splitAtChar c s = some (a, b) → s = a ++ c :: b ∧ c ∉ a
  | [], _, _, h => by cases h
  | x :: xs, a, b, h => by
    rw [splitAtChar] at h
    by_cases hx : x = c
    · rw [if_pos hx] at h
      cases h
      exact ⟨by rw [hx]; rfl, by simp⟩
    · rw [if_neg hx, Option.map_eq_some_iff] at h
      obtain ⟨⟨a', b'⟩, h1, h2⟩ := h
      cases h2
      obtain ⟨h3, h4⟩ := splitAtChar_some h1
      exact ⟨by rw [h3]; rfl, by simp [h4, Ne.symm hx]⟩

theorem unquote_plain {f : FlagDef} (h : f.usage.count '`' ≤ 1) : f.unquote = (f.kind.name, f.usage) := by
  unfold FlagDef.unquote
  cases h1 : splitAtChar '`' f.usage with
  | none => rfl
  | some p =>
    obtain ⟨a, r⟩ := p
    obtain ⟨h2, _⟩ := splitAtChar_some h1
    simp only
    have : '`' ∉ r := by
      intro hr
      rw [h2, List.count_append, List.count_cons_self] at h
      have := List.count_pos_iff.2 hr
      omega
    rw [splitAtChar_none.2 this]

theorem unquote_quoted {f : FlagDef} (h : 1 < f.usage.count '`') : f.unquote.2.length + 2 = f.usage.length := by
  unfold FlagDef.unquote
  cases h1 : splitAtChar '`' f.usage with
  | none =>
    have := List.count_eq_zero.2 (splitAtChar_none.1 h1)
    omega
  | some p =>
    obtain ⟨a, r⟩ := p
    obtain ⟨h2, h3⟩ := splitAtChar_some h1
    simp only
    cases h4 : splitAtChar '`' r with
    | none =>
      rw [h2, List.count_append, List.count_cons_self, List.count_eq_zero.2 h3, List.count_eq_zero.2 (splitAtChar_none.1 h4)] at h
      omega
    | some q =>
      obtain ⟨n, b⟩ := q
      obtain ⟨h5, _⟩ := splitAtChar_some h4
      simp only
      rw [h2, h5]
      simp
      omega

theorem indentLines_lines (r : Str) : ∀ u : Str, textLines (g!"    \t" ++ indentLines u ++ '\n' :: r) =
    (textLines u).map (g!"    \t" ++ ·) ++ textLines r := by
  intro u
  have key : ∀ (u p : Str), '\n' ∉ p → ∃ l ls, textLines u = l :: ls ∧
      textLines (p ++ indentLines u ++ '\n' :: r) = (p ++ l) :: ls.map (g!"    \t" ++ ·) ++ textLines r := by
    intro u
    induction u with
    | nil =>
      intro p hp
      exact ⟨[], [], rfl, by simp [indentLines, textLines_cons hp]⟩
    | cons c cs ih =>
      intro p hp
      by_cases h : c = '\n'
      · subst h
        obtain ⟨l, ls, h1, h2⟩ := ih g!"    \t" (by decide)
        refine ⟨[], textLines cs, by simp [textLines], ?_⟩
        have : p ++ indentLines ('\n' :: cs) ++ '\n' :: r = p ++ '\n' :: (g!"    \t" ++ indentLines cs ++ '\n' :: r) := by
          simp [indentLines]
        rw [this, textLines_cons hp, h2, h1]
        simp
      · obtain ⟨l, ls, h1, h2⟩ := ih (p ++ [c]) (by simp [hp, Ne.symm h])
        refine ⟨c :: l, ls, by simp [textLines, h, h1], ?_⟩
        have : p ++ indentLines (c :: cs) ++ '\n' :: r = (p ++ [c]) ++ indentLines cs ++ '\n' :: r := by
          simp [indentLines, h]
        rw [this, h2]
        simp
  obtain ⟨l, ls, h1, h2⟩ := key u g!"    \t" (by decide)
  rw [h2, h1]
  rfl

theorem indentLines_tab (p : Str) (hp : '\n' ∉ p) (r u : Str) : ∃ l ls, textLines u = l :: ls ∧
    textLines (p ++ indentLines u ++ '\n' :: r) = (p ++ l) :: ls.map (g!"    \t" ++ ·) ++ textLines r := by
  induction u generalizing p with
  | nil => exact ⟨[], [], rfl, by simp [indentLines, textLines_cons hp]⟩
  | cons c cs ih =>
    by_cases h : c = '\n'
    · subst h
      refine ⟨[], textLines cs, by simp [textLines], ?_⟩
      have : p ++ indentLines ('\n' :: cs) ++ '\n' :: r = p ++ '\n' :: (g!"    \t" ++ indentLines cs ++ '\n' :: r) := by
        simp [indentLines]
      rw [this, textLines_cons hp, indentLines_lines]
      simp
    · obtain ⟨l, ls, h1, h2⟩ := ih (p ++ [c]) (by simp [hp, Ne.symm h])
      refine ⟨c :: l, ls, by simp [textLines, h, h1], ?_⟩
      have : p ++ indentLines (c :: cs) ++ '\n' :: r = (p ++ [c]) ++ indentLines cs ++ '\n' :: r := by
        simp [indentLines, h]
      rw [this, h2]
      simp

theorem readFlags_indented (rest : List Str) : ∀ ls : List Str,
    readFlags (ls.map (g!"    \t" ++ ·) ++ rest) = (ls ++ (readFlags rest).1, (readFlags rest).2)
  | [] => rfl
  | l :: ls => by
    have := readFlags_indented rest ls
    simp only [List.map_cons, List.cons_append]
    rw [readFlags]
    simp only [List.cons_append, List.nil_append] at this ⊢
    rw [this]

/-- Flags whose description can be read. -/
def Describable (f : FlagDef) : Prop := (∀ c ∈ f.name, c ≠ ' ' ∧ c ≠ '\t' ∧ c ≠ '\n') ∧ '\n' ∉ f.unquote.1

theorem takeWhile_name {n : Str} (h : ∀ c ∈ n, c ≠ ' ' ∧ c ≠ '\t' ∧ c ≠ '\n') {r : Str}
    (hr : r = [] ∨ r.head? = some ' ' ∨ r.head? = some '\t') :
    (n ++ r).takeWhile (fun c => c ≠ ' ' && c ≠ '\t') = n ∧ (n ++ r).dropWhile (fun c => c ≠ ' ' && c ≠ '\t') = r := by
  induction n with
  | nil =>
    cases r with
    | nil => simp
    | cons x xs =>
      simp at hr
      rcases hr with rfl | rfl <;> simp
  | cons c cs ih =>
    have hc := h c (by simp)
    have := ih fun x hx => h x (by simp [hx])
    simp [hc.1, hc.2.1] at this ⊢
    exact this

theorem readFlags_text {f : FlagDef} (h : Describable f) (r : Str) (hr : (readFlags (textLines r)).1 = []) :
    readFlags (textLines (f.text ++ r)) = ([], ⟨f.name, f.unquote.1, f.unquote.2⟩ :: (readFlags (textLines r)).2) := by
  obtain ⟨hn, ha⟩ := h
  have hnn : '\n' ∉ f.name := fun hc => (hn _ hc).2.2 rfl
  have hhead : '\n' ∉ f.head := by
    unfold FlagDef.head
    split <;> simp [hnn, ha]
  unfold FlagDef.text
  by_cases hl : f.head.length ≤ 4
  · rw [if_pos hl]
    have he : f.unquote.1 = [] := by
      refine Classical.byContradiction fun hne => ?_
      have : 0 < f.unquote.1.length := List.length_pos_iff.2 hne
      unfold FlagDef.head at hl
      rw [if_neg hne] at hl
      simp at hl
      omega
    have hh : f.head = g!"  -" ++ f.name := by simp [FlagDef.head, he]
    have : f.head ++ g!"\t" ++ indentLines f.unquote.2 ++ g!"\n" ++ r = (f.head ++ g!"\t") ++ indentLines f.unquote.2 ++ '\n' :: r := by simp
    rw [this]
    obtain ⟨l, ls, h1, h2⟩ := indentLines_tab (f.head ++ g!"\t") (by simp [hhead]) r f.unquote.2
    rw [h2, hh]
    have hc : (g!"  -" ++ f.name ++ g!"\t" ++ l) :: ls.map (g!"    \t" ++ ·) ++ textLines r =
        (' ' :: ' ' :: '-' :: (f.name ++ '\t' :: l)) :: (ls.map (g!"    \t" ++ ·) ++ textLines r) := by simp
    rw [hc, readFlags, readFlags_indented, hr, List.append_nil]
    obtain ⟨t1, t2⟩ := takeWhile_name hn (r := '\t' :: l) (by simp)
    simp only [readFlag, t1, t2]
    rw [he, ← h1, joinLines_textLines]
  · rw [if_neg hl]
    have : f.head ++ g!"\n    \t" ++ indentLines f.unquote.2 ++ g!"\n" ++ r =
        f.head ++ '\n' :: (g!"    \t" ++ indentLines f.unquote.2 ++ '\n' :: r) := by simp
    rw [this, textLines_cons hhead, indentLines_lines]
    obtain ⟨t, ht, hcase⟩ : ∃ t, f.head = ' ' :: ' ' :: '-' :: (f.name ++ t) ∧
        ((t = [] ∧ f.unquote.1 = []) ∨ t = ' ' :: f.unquote.1) := by
      by_cases he : f.unquote.1 = []
      · exact ⟨[], by simp [FlagDef.head, he], Or.inl ⟨rfl, he⟩⟩
      · exact ⟨' ' :: f.unquote.1, by simp [FlagDef.head, he], Or.inr rfl⟩
    rw [ht, readFlags, readFlags_indented, hr, List.append_nil]
    obtain ⟨t1, t2⟩ := takeWhile_name hn (r := t) (by rcases hcase with ⟨h, _⟩ | h <;> simp [h])
    simp only [readFlag, t1, t2]
    rcases hcase with ⟨h1, h2⟩ | h1
    · rw [h1, h2]; simp only [joinLines_textLines]
    · rw [h1]; simp only [joinLines_textLines]

theorem readFlags_texts (r : Str) (hr : (readFlags (textLines r)).1 = []) : ∀ fs : List FlagDef, (∀ f ∈ fs, Describable f) →
    readFlags (textLines (fs.flatMap FlagDef.text ++ r)) =
      ([], fs.map (fun f => ⟨f.name, f.unquote.1, f.unquote.2⟩) ++ (readFlags (textLines r)).2)
  | [], _ => by
    rw [List.flatMap_nil, List.nil_append, ← hr]; rfl
  | f :: fs, h => by
    have ih := readFlags_texts r hr fs fun f hf => h f (by simp [hf])
    rw [List.flatMap_cons, List.append_assoc, readFlags_text (h f (by simp)) _ (by rw [ih]), ih]
    rfl

end Gowrap.Spec
