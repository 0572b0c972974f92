import Verif.Spec.TypeText
import Verif.Model.Printer
import Verif.Proofs.Text
/-! The printed text of a type says what it should say -/

namespace Gowrap

open Spec

/-- For all sufficiently large fuel. -/
def Eventually (P : Nat → Prop) : Prop := ∃ N, ∀ f, N ≤ f → P f

theorem Eventually.step {P Q : Nat → Prop} (h : Eventually P) (hs : ∀ f, P f → Q (f + 1)) : Eventually Q := by
  obtain ⟨N, h⟩ := h
  refine ⟨N + 1, fun f hf => ?_⟩
  obtain ⟨g, rfl⟩ : ∃ g, f = g + 1 := ⟨f - 1, by omega⟩
  exact hs g (h g (by omega))

theorem Eventually.and {P Q : Nat → Prop} (h : Eventually P) (h' : Eventually Q) : Eventually fun f => P f ∧ Q f := by
  obtain ⟨N, h⟩ := h
  obtain ⟨M, h'⟩ := h'
  exact ⟨max N M, fun f hf => ⟨h f (by omega), h' f (by omega)⟩⟩

theorem Eventually.all {P : Nat → Prop} (h : ∀ f, P (f + 1)) : Eventually P :=
  ⟨1, fun f hf => by obtain ⟨g, rfl⟩ : ∃ g, f = g + 1 := ⟨f - 1, by omega⟩; exact h g⟩

/-- What can follow a type. -/
def Follow (r : Str) : Prop := r = [] ∨ ∃ c s, r = c :: s ∧ (c = ',' ∨ c = ')' ∨ c = ']' ∨ c = '\n')

/-- Does not continue a word. -/
def Stops (r : Str) : Prop := ∀ c s, r = c :: s → identChar c = false

theorem Follow.stops {r : Str} (h : Follow r) : Stops r := by
  rintro c s rfl
  rcases h with h | ⟨c', s', h, hc⟩
  · cases h
  · cases h; rcases hc with rfl | rfl | rfl | rfl <;> decide

theorem word_append {n : Str} (hn : ∀ c ∈ n, identChar c = true) {r : Str} (hr : Stops r) :
    word (n ++ r) = (n, r) := by
  induction n with
  | nil =>
    cases r with
    | nil => rfl
    | cons c s => simp [word, hr c s rfl]
  | cons c n ih =>
    simp only [List.cons_append, word, hn c (by simp), if_true, ih (fun c hc => hn c (by simp [hc]))]

/-- Characters a type can begin with. -/
def StartChar (c : Char) : Prop :=
  c = '*' ∨ c = '.' ∨ c = '[' ∨ c = '(' ∨ c = '<' ∨ identChar c = true

theorem StartChar.ne {c : Char} (h : StartChar c) : c ≠ ' ' ∧ c ≠ '\n' ∧ c ≠ ',' ∧ c ≠ ')' ∧ c ≠ '}' ∧ c ≠ ']' := by
  rcases h with rfl | rfl | rfl | rfl | rfl | h
  · decide
  · decide
  · decide
  · decide
  · decide
  · refine ⟨?_, ?_, ?_, ?_, ?_, ?_⟩ <;> rintro rfl <;> revert h <;> decide

/-- Everything that is needed of the text of a type. -/
structure TextOk (t : Ty) (s : Str) : Prop where
  reads : ∀ rest, Follow rest → Eventually fun f => readTy f (s ++ rest) = some (t, rest)
  start : ∃ c r, s = c :: r ∧ StartChar c
  head : ∀ rest, Follow rest → (word (s ++ rest)).1 ∈ typeKeywords ∨
    (∃ x y, (word (s ++ rest)).2 = x :: y ∧ x ≠ ' ' ∧ x ≠ ',') ∨ (word (s ++ rest)).2 = rest

theorem skipBlanks_start {c : Char} {s : Str} (h : StartChar c) : skipBlanks (c :: s) = c :: s := by
  have := h.ne
  simp [skipBlanks, this.1, this.2.1]

theorem TextOk.skip {t s} (h : TextOk t s) (rest : Str) : skipBlanks (s ++ rest) = s ++ rest := by
  obtain ⟨c, r, rfl, hc⟩ := h.start
  exact skipBlanks_start hc

/-- A text that does not begin with a word character. -/
theorem head_symbol {c : Char} {s : Str} (hc : identChar c = false) (hc' : c ≠ ' ' ∧ c ≠ ',') (rest : Str) :
    (word ((c :: s) ++ rest)).1 ∈ typeKeywords ∨
    (∃ x y, (word ((c :: s) ++ rest)).2 = x :: y ∧ x ≠ ' ' ∧ x ≠ ',') ∨
    (word ((c :: s) ++ rest)).2 = rest := by
  right; left
  exact ⟨c, s ++ rest, by simp [word, hc], hc'.1, hc'.2⟩

theorem head_keyword {w s : Str} (hw : w ∈ typeKeywords) (hs : Stops s) :
    (word (w ++ s)).1 ∈ typeKeywords := by
  have hall : ∀ c ∈ w, identChar c = true := by
    simp only [typeKeywords, List.mem_cons, List.not_mem_nil, or_false] at hw
    rcases hw with rfl | rfl | rfl | rfl | rfl <;> decide
  rw [word_append hall hs]
  exact hw

theorem readTy_word {c : Char} (hc : identChar c = true) (f : Nat) (s : Str) :
    readTy (f + 1) (c :: s) = readWord f (word (c :: s)).1 (word (c :: s)).2 := by
  rw [readTy]
  all_goals (intros; rename_i h; injection h with h1; subst h1; exact absurd hc (by decide))

theorem readTy_kw {w r : Str} (hw : w ∈ typeKeywords) (hr : Stops r) (f : Nat) :
    readTy (f + 1) (w ++ r) = readWord f w r := by
  have hall : ∀ c ∈ w, identChar c = true := by
    simp only [typeKeywords, List.mem_cons, List.not_mem_nil, or_false] at hw
    rcases hw with rfl | rfl | rfl | rfl | rfl <;> decide
  have hne : w ≠ [] := by rintro rfl; revert hw; decide
  obtain ⟨c, w', rfl⟩ := List.exists_cons_of_ne_nil hne
  rw [List.cons_append, readTy_word (hall c (by simp)), ← List.cons_append, word_append hall hr]

/-- Reading a named type up to its type arguments. -/
theorem readTy_name {n : Str} (hn : IdentOk n) {r : Str} (hr : Stops r)
    (hdot : ∀ s, r ≠ '.' :: s) (f : Nat) :
    readTy (f + 2) (n ++ r) = readArgs f (.name none n) r := by
  obtain ⟨c, n', e⟩ := List.exists_cons_of_ne_nil hn.1
  have h1 : readTy (f + 2) (n ++ r) = readWord (f + 1) n r := by
    rw [e, List.cons_append, readTy_word (hn.2.1 c (by simp [e])), ← List.cons_append, ← e,
      word_append hn.2.1 hr]
  rw [h1, readWord.eq_def]
  simp only
  have hk := hn.2.2
  simp only [typeKeywords, List.mem_cons, List.not_mem_nil, or_false, not_or] at hk
  rw [if_neg hk.1, if_neg hk.2.1, if_neg hk.2.2.1, if_neg hk.2.2.2.1, if_neg hk.2.2.2.2, if_neg hn.1]

theorem readTy_qualified {a b : Str} (ha : IdentOk a) (hb : IdentOk b) {r : Str} (hr : Stops r) (f : Nat) :
    readTy (f + 2) (a ++ g!"." ++ b ++ r) = readArgs f (.name (some a) b) r := by
  obtain ⟨c, n', e⟩ := List.exists_cons_of_ne_nil ha.1
  have hst : Stops (g!"." ++ (b ++ r)) := by rintro c s h; cases h; decide
  have h1 : readTy (f + 2) (a ++ g!"." ++ b ++ r) = readWord (f + 1) a (g!"." ++ (b ++ r)) := by
    rw [List.append_assoc, List.append_assoc, e, List.cons_append, readTy_word (ha.2.1 c (by simp [e])),
      ← List.cons_append, ← e, word_append ha.2.1 hst]
  rw [h1, readWord.eq_def]
  simp only
  have hk := ha.2.2
  simp only [typeKeywords, List.mem_cons, List.not_mem_nil, or_false, not_or] at hk
  rw [if_neg hk.1, if_neg hk.2.1, if_neg hk.2.2.1, if_neg hk.2.2.2.1, if_neg hk.2.2.2.2, if_neg ha.1]
  simp only [List.cons_append, List.nil_append]
  rw [word_append hb.2.1 hr]

/-- The text of a named type. -/
inductive NameText : Ty → Str → Prop
  | bare {n : Str} (h : IdentOk n) : NameText (.name none n) n
  | qual {a b : Str} (ha : IdentOk a) (hb : IdentOk b) : NameText (.name (some a) b) (a ++ g!"." ++ b)

theorem NameText.read {t s} (h : NameText t s) {r : Str} (hr : Stops r) (hdot : ∀ s, r ≠ '.' :: s)
    (f : Nat) : readTy (f + 2) (s ++ r) = readArgs f t r := by
  cases h with
  | bare h => exact readTy_name h hr hdot f
  | qual ha hb => exact readTy_qualified ha hb hr f

theorem Follow.not_dot {r : Str} (h : Follow r) : ∀ s, r ≠ '.' :: s := by
  rintro s rfl
  rcases h with h | ⟨c, s', h, hc⟩
  · cases h
  · cases h; rcases hc with h | h | h | h <;> cases h

theorem Follow.not_bracket {r : Str} (h : Follow r) : ∀ s, r ≠ '[' :: s := by
  rintro s rfl
  rcases h with h | ⟨c, s', h, hc⟩
  · cases h
  · cases h; rcases hc with h | h | h | h <;> cases h

theorem identOk_start {n : Str} (h : IdentOk n) : ∃ c r, n = c :: r ∧ identChar c = true := by
  obtain ⟨c, r, e⟩ := List.exists_cons_of_ne_nil h.1
  exact ⟨c, r, e, h.2.1 c (by simp [e])⟩

theorem NameText.start {t s} (h : NameText t s) : ∃ c r, s = c :: r ∧ identChar c = true := by
  cases h with
  | bare h => exact identOk_start h
  | qual ha hb =>
    obtain ⟨c, r, e, hc⟩ := identOk_start ha
    exact ⟨c, r ++ g!"." ++ _, by rw [e]; simp; rfl, hc⟩

theorem NameText.word {t s} (h : NameText t s) {r : Str} (hr : Stops r) :
    (∃ x y, (Spec.word (s ++ r)).2 = x :: y ∧ x ≠ ' ' ∧ x ≠ ',') ∨ (Spec.word (s ++ r)).2 = r := by
  cases h with
  | bare h => right; rw [word_append h.2.1 hr]
  | @qual a b ha hb =>
    left
    have hst : Stops (g!"." ++ (b ++ r)) := by rintro c s h; cases h; decide
    refine ⟨'.', b ++ r, ?_, by decide, by decide⟩
    rw [List.append_assoc, List.append_assoc, word_append ha.2.1 hst]
    rfl

theorem NameText.ok {t s} (h : NameText t s) : TextOk t s := by
  refine ⟨?_, ?_, ?_⟩
  · intro rest hf
    refine ⟨3, fun f hf' => ?_⟩
    obtain ⟨g, rfl⟩ : ∃ g, f = g + 1 + 2 := ⟨f - 3, by omega⟩
    rw [h.read hf.stops hf.not_dot, readArgs.eq_def]
    simp only
    split
    · exact absurd rfl (hf.not_bracket _)
    · rfl
  · obtain ⟨c, r, e, hc⟩ := h.start
    exact ⟨c, r, e, by simp [StartChar, hc]⟩
  · intro rest hf
    exact Or.inr (h.word hf.stops)

/-- A list of type arguments. -/
theorem readArgList_join : ∀ (ts : List Ty) (ss : List Str), ts.length = ss.length → ts ≠ [] →
    (∀ (i : Nat) t s, ts[i]? = some t → ss[i]? = some s → TextOk t s) → ∀ rest,
    Eventually fun f => readArgList f (join g!", " ss ++ ']' :: rest) = some (ts, rest)
  | [], _, _, h0, _, _ => absurd rfl h0
  | [t], ss, hl, _, h, rest => by
    obtain ⟨s, rfl⟩ := List.length_eq_one_iff.1 hl.symm
    have hs := h 0 t s rfl rfl
    refine (hs.reads (']' :: rest) (Or.inr ⟨']', rest, rfl, by simp⟩)).step ?_
    intro f hf
    simp only [join, readArgList, hf]
  | t :: t' :: ts, ss, hl, _, h, rest => by
    match ss, hl with
    | s :: s' :: ss, hl =>
      have hs := h 0 t s rfl rfl
      have ih := readArgList_join (t' :: ts) (s' :: ss) (by simpa using hl) (by simp)
        (fun i u v hu hv => h (i + 1) u v (by simpa using hu) (by simpa using hv)) rest
      have h1 := hs.reads (g!", " ++ (join g!", " (s' :: ss) ++ ']' :: rest))
        (Or.inr ⟨',', _, rfl, by simp⟩)
      refine (h1.and ih).step ?_
      rintro f ⟨hf, hf'⟩
      have hs' := h 1 t' s' rfl rfl
      have hskip : skipBlanks (' ' :: (join g!", " (s' :: ss) ++ ']' :: rest)) =
          join g!", " (s' :: ss) ++ ']' :: rest := by
        simp only [skipBlanks, true_or, if_true]
        cases ss with
        | nil => exact hs'.skip _
        | cons a b => simp only [join, List.append_assoc]; exact hs'.skip _
      simp only [join, List.append_assoc] at hf hskip hf' ⊢
      simp only [List.cons_append, List.nil_append] at hf hskip hf' ⊢
      simp only [readArgList, hf, hskip, hf', Option.map_some]

theorem NameText.inst {t s} (h : NameText t s) {ts : List Ty} {ss : List Str}
    (hl : ts.length = ss.length) (h0 : ts ≠ [])
    (hok : ∀ (i : Nat) t s, ts[i]? = some t → ss[i]? = some s → TextOk t s) :
    TextOk (.inst t ts) (s ++ g!"[" ++ join g!", " ss ++ g!"]") := by
  refine ⟨?_, ?_, ?_⟩
  · intro rest hf
    have h1 : Eventually fun f => readArgs f t ('[' :: (join g!", " ss ++ ']' :: rest)) = some (.inst t ts, rest) := by
      refine (readArgList_join ts ss hl h0 hok rest).step ?_
      intro f hf
      simp only [readArgs, hf, Option.map_some]
    have h2 : Eventually fun f => readTy (f + 1) (s ++ g!"[" ++ join g!", " ss ++ g!"]" ++ rest) =
        some (.inst t ts, rest) := by
      refine h1.step ?_
      intro f hf
      have e : s ++ g!"[" ++ join g!", " ss ++ g!"]" ++ rest =
          s ++ ('[' :: (join g!", " ss ++ ']' :: rest)) := by simp
      rw [e, h.read (by rintro c s h; cases h; decide) (by simp)]
      exact hf
    exact h2.step fun f hf => hf
  · obtain ⟨c, r, e, hc⟩ := h.start
    exact ⟨c, r ++ g!"[" ++ join g!", " ss ++ g!"]", by rw [e]; simp, by simp [StartChar, hc]⟩
  · intro rest hf
    have e : s ++ g!"[" ++ join g!", " ss ++ g!"]" ++ rest =
        s ++ ('[' :: (join g!", " ss ++ ']' :: rest)) := by simp
    rw [e]
    rcases h.word (r := '[' :: (join g!", " ss ++ ']' :: rest)) (by rintro c s h; cases h; decide) with h | h
    · exact Or.inr (Or.inl h)
    · exact Or.inr (Or.inl ⟨_, _, h, by decide, by decide⟩)

/-! ### Parameter lists -/

/-- A piece of a parameter list and what it says. -/
def PieceOk (e : Entry) (s : Str) : Prop :=
  (∀ rest, (∃ r, rest = ',' :: r ∨ rest = ')' :: r) →
    Eventually fun f => readEntry f (skipBlanks (s ++ rest)) = some (e, rest)) ∧
  (∀ rest, ∃ c r, skipBlanks (s ++ rest) = c :: r ∧ c ≠ ')')

theorem readEntries_join : ∀ (es : List Entry) (ss : List Str), es.length = ss.length →
    (∀ (i : Nat) t s, es[i]? = some t → ss[i]? = some s → PieceOk t s) → ∀ rest,
    Eventually fun f => readEntries f (join g!", " ss ++ ')' :: rest) = some (es, rest)
  | [], ss, hl, _, rest => by
    have : ss = [] := List.length_eq_zero_iff.1 hl.symm
    subst this
    refine Eventually.all fun f => ?_
    simp [join, readEntries, skipBlanks]
  | [e], ss, hl, h, rest => by
    obtain ⟨s, rfl⟩ := List.length_eq_one_iff.1 hl.symm
    obtain ⟨h1, h2⟩ := h 0 e s rfl rfl
    refine (h1 (')' :: rest) ⟨rest, Or.inr rfl⟩).step ?_
    intro f hf
    obtain ⟨c, r, hc, hne⟩ := h2 (')' :: rest)
    simp only [join]
    rw [hc] at hf
    rw [readEntries.eq_def]
    simp only [hc]
    split
    · rename_i h; injection h with h1 _; exact absurd h1 hne
    · simp only [hf]
  | e :: e' :: es, ss, hl, h, rest => by
    match ss, hl with
    | s :: s' :: ss, hl =>
      obtain ⟨h1, h2⟩ := h 0 e s rfl rfl
      have ih := readEntries_join (e' :: es) (s' :: ss) (by simpa using hl)
        (fun i u v hu hv => h (i + 1) u v (by simpa using hu) (by simpa using hv)) rest
      have h3 := h1 (g!", " ++ (join g!", " (s' :: ss) ++ ')' :: rest)) ⟨_, Or.inl rfl⟩
      obtain ⟨M, ih⟩ := ih
      -- a leading blank does not matter
      have ih' : Eventually fun f => readEntries f (' ' :: (join g!", " (s' :: ss) ++ ')' :: rest)) =
          some (e' :: es, rest) := by
        refine ⟨M + 1, fun f hf => ?_⟩
        obtain ⟨g, rfl⟩ : ∃ g, f = g + 1 := ⟨f - 1, by omega⟩
        have := ih (g + 1) (by omega)
        simp only at this ⊢
        rw [readEntries.eq_def] at this ⊢
        simpa only [skipBlanks, true_or, if_true] using this
      refine (h3.and ih').step ?_
      rintro f ⟨hf, hf'⟩
      obtain ⟨c, r, hc, hne⟩ := h2 (g!", " ++ (join g!", " (s' :: ss) ++ ')' :: rest))
      have e1 : join g!", " (s :: s' :: ss) ++ ')' :: rest =
          s ++ (g!", " ++ (join g!", " (s' :: ss) ++ ')' :: rest)) := by
        simp [join]
      rw [e1, readEntries.eq_def]
      rw [hc] at hf
      simp only [hc]
      split
      · rename_i h; injection h with h1 _; exact absurd h1 hne
      · simp only [hf, List.cons_append, List.nil_append, hf', Option.map_some]

theorem startsNamed_single {t s} (h : TextOk t s) {rest : Str} (hr : ∃ r, rest = ',' :: r ∨ rest = ')' :: r) :
    startsNamed (s ++ rest) = false := by
  have hf : Follow rest := by
    obtain ⟨r, rfl | rfl⟩ := hr
    · exact Or.inr ⟨_, _, rfl, by simp⟩
    · exact Or.inr ⟨_, _, rfl, by simp⟩
  unfold startsNamed
  split
  · rename_i w r hw
    have hh := h.head rest hf
    rw [hw] at hh
    rcases hh with hh | ⟨x, y, hh, hx, _⟩ | hh
    · simp only at hh
      simp [hh]
    · injection hh with h1 _; exact absurd h1.symm hx
    · simp only at hh
      obtain ⟨q, rfl | rfl⟩ := hr <;> cases hh
  · rfl

theorem single_piece {t s} (h : TextOk t s) (pre : Str) (hp : pre = [] ∨ pre = g!" ") :
    PieceOk (.single t) (pre ++ s) := by
  have hskip : ∀ rest, skipBlanks (pre ++ s ++ rest) = s ++ rest := by
    intro rest
    rcases hp with rfl | rfl
    · exact h.skip rest
    · simp only [List.cons_append, List.nil_append, skipBlanks, true_or, if_true]
      exact h.skip rest
  refine ⟨?_, ?_⟩
  · intro rest hr
    have hf : Follow rest := by
      obtain ⟨r, rfl | rfl⟩ := hr
      · exact Or.inr ⟨_, _, rfl, by simp⟩
      · exact Or.inr ⟨_, _, rfl, by simp⟩
    rw [hskip]
    refine (h.reads rest hf).step ?_
    intro f hf
    simp only [readEntry, startsNamed_single h hr, hf, Option.map_some]
    rfl
  · intro rest
    rw [hskip]
    obtain ⟨c, r, rfl, hc⟩ := h.start
    exact ⟨c, r ++ rest, rfl, hc.ne.2.2.2.1⟩

theorem named_piece {n : Str} (hn : IdentOk n) {t s} (h : TextOk t s) :
    PieceOk (.named n t) (n ++ g!" " ++ s) := by
  obtain ⟨c, n', e, hc⟩ := identOk_start hn
  have hskip : ∀ rest, skipBlanks (n ++ g!" " ++ s ++ rest) = n ++ g!" " ++ s ++ rest := by
    intro rest
    rw [e]
    simp only [List.cons_append]
    exact skipBlanks_start (by simp [StartChar, hc])
  refine ⟨?_, ?_⟩
  · intro rest hr
    have hf : Follow rest := by
      obtain ⟨r, rfl | rfl⟩ := hr
      · exact Or.inr ⟨_, _, rfl, by simp⟩
      · exact Or.inr ⟨_, _, rfl, by simp⟩
    rw [hskip]
    refine (h.reads rest hf).step ?_
    intro f hf
    have hw : word (n ++ g!" " ++ s ++ rest) = (n, ' ' :: (s ++ rest)) := by
      have : n ++ g!" " ++ s ++ rest = n ++ (' ' :: (s ++ rest)) := by simp
      rw [this]
      exact word_append hn.2.1 (by rintro c s h; cases h; decide)
    have hst : startsNamed (n ++ g!" " ++ s ++ rest) = true := by
      unfold startsNamed
      rw [hw]
      obtain ⟨d, s', rfl, hd⟩ := h.start
      have hk : ¬ n ∈ typeKeywords := hn.2.2
      simp [hn.1, hk, skipBlanks_start hd, hd.ne.2.2.1, hd.ne.2.2.2.1]
    simp only [readEntry, hst, if_true, hw]
    have : skipBlanks (' ' :: (s ++ rest)) = s ++ rest := by
      simp only [skipBlanks, true_or, if_true]; exact h.skip rest
    rw [this, hf]
    rfl
  · intro rest
    rw [hskip, e]
    exact ⟨c, _, rfl, (show StartChar c by simp [StartChar, hc]).ne.2.2.2.1⟩

/-- The text of a group of parameters `a, b T`. -/
theorem join_last (x : Str) : ∀ (names : List Str) (last : Str),
    join g!", " (names ++ [last]) ++ x = join g!", " (names ++ [last ++ x])
  | [], last => by simp [join]
  | [n], last => by simp [join]
  | n :: m :: names, last => by
    have := join_last x (m :: names) last
    simp only [List.cons_append, join, List.append_assoc] at this ⊢
    rw [this]

theorem join_append (sep : Str) : ∀ (xs ys : List Str), xs ≠ [] → ys ≠ [] →
    join sep (xs ++ ys) = join sep xs ++ sep ++ join sep ys
  | [], _, h, _ => absurd rfl h
  | [x], y :: ys, _, _ => by simp [join]
  | x :: x' :: xs, ys, _, h => by
    have := join_append sep (x' :: xs) ys (by simp) h
    simp only [List.cons_append, join] at this ⊢
    rw [this]
    simp

theorem join_flatten (sep : Str) : ∀ (xss : List (List Str)), (∀ xs ∈ xss, xs ≠ []) →
    join sep (xss.map (join sep)) = join sep xss.flatten
  | [], _ => rfl
  | [xs], _ => by simp [join]
  | xs :: ys :: xss, h => by
    have ih := join_flatten sep (ys :: xss) (fun z hz => h z (by simp [hz]))
    simp only [List.map_cons, join, List.flatten_cons] at ih ⊢
    rw [ih, join_append sep xs _ (h xs (by simp))]
    have := h ys (by simp)
    simp [this]

/-- The pieces of one group. -/
def piecesOf (names : List Str) (t : Str) : List Str :=
  match names with
  | [] => [g!" " ++ t]
  | _ => names.dropLast ++ [names.getLastD [] ++ g!" " ++ t]

/-- The entries of one group. -/
def entriesOf : TyField → List Entry
  | .mk [] t => [.single t]
  | .mk names t => names.dropLast.map (fun n => .single (.name none n)) ++ [.named (names.getLastD []) t]

theorem piecesOf_ne_nil (names : List Str) (t : Str) : piecesOf names t ≠ [] := by
  unfold piecesOf; split <;> simp

theorem dropLast_getLastD : ∀ (n : Str) (ns : List Str),
    (n :: ns).dropLast ++ [(n :: ns).getLastD []] = n :: ns
  | n, [] => rfl
  | n, m :: ns => by
    have := dropLast_getLastD m ns
    simpa [List.dropLast, List.getLastD_cons] using this

theorem join_pieces (names : List Str) (t : Str) :
    join g!", " names ++ g!" " ++ t = join g!", " (piecesOf names t) := by
  unfold piecesOf
  cases names with
  | nil => rfl
  | cons n names =>
    have e : (n :: names) = (n :: names).dropLast ++ [(n :: names).getLastD []] :=
      (dropLast_getLastD n names).symm
    have h := join_last (g!" " ++ t) ((n :: names).dropLast) ((n :: names).getLastD [])
    rw [← e] at h
    rw [List.append_assoc, h]
    simp

theorem groupEntries_fields : ∀ (fs : List TyField),
    (∀ f ∈ fs, ∃ names t, f = .mk names t ∧ names ≠ []) →
    groupEntries [] (fs.flatMap entriesOf) = some fs
  | [], _ => rfl
  | f :: fs, h => by
    obtain ⟨names, t, rfl, hne⟩ := h f (by simp)
    have ih := groupEntries_fields fs (fun g hg => h g (by simp [hg]))
    have key : ∀ (ns acc : List Str) (last : Str) (es : List Entry),
        groupEntries acc (ns.map (fun n => Entry.single (.name none n)) ++ (Entry.named last t :: es)) =
          (groupEntries [] es).map fun fs => .mk (acc ++ ns ++ [last]) t :: fs := by
      intro ns
      induction ns with
      | nil => intro acc last es; simp [groupEntries]
      | cons n ns ih =>
        intro acc last es
        simp only [List.map_cons, List.cons_append, groupEntries]
        rw [ih]
        simp
    obtain ⟨a, b, rfl⟩ := List.exists_cons_of_ne_nil hne
    simp only [List.flatMap_cons, entriesOf]
    rw [List.append_assoc, List.singleton_append, key, ih]
    simp only [Option.map_some, List.nil_append, Option.some.injEq, List.cons.injEq, and_true]
    rw [dropLast_getLastD]

theorem resolve_named (fs : List TyField) (h0 : fs ≠ [])
    (h : ∀ f ∈ fs, ∃ names t, f = .mk names t ∧ names ≠ []) :
    resolve (fs.flatMap entriesOf) = some fs := by
  unfold resolve
  rw [if_pos, groupEntries_fields fs h]
  rw [List.any_eq_true]
  obtain ⟨f, fs', rfl⟩ := List.exists_cons_of_ne_nil h0
  obtain ⟨names, t, rfl, hne⟩ := h f (by simp)
  obtain ⟨a, b, rfl⟩ := List.exists_cons_of_ne_nil hne
  exact ⟨.named ((a :: b).getLastD []) t, by simp [entriesOf], rfl⟩

theorem resolve_anon (fs : List TyField) (h : ∀ f ∈ fs, ∃ t, f = .mk [] t) :
    resolve (fs.flatMap entriesOf) = some fs := by
  unfold resolve
  have hall : (fs.flatMap entriesOf).any Entry.isNamed = false := by
    rw [List.any_eq_false]
    intro e he
    obtain ⟨f, hf, he⟩ := List.mem_flatMap.1 he
    obtain ⟨t, rfl⟩ := h f hf
    simp [entriesOf] at he
    subst he
    simp [Entry.isNamed]
  rw [hall]
  simp only [Bool.false_eq_true, if_false, Option.some.injEq]
  induction fs with
  | nil => rfl
  | cons f fs ih =>
    obtain ⟨t, rfl⟩ := h f (by simp)
    simp only [List.flatMap_cons, entriesOf, List.singleton_append, List.filterMap_cons]
    rw [ih (fun g hg => h g (by simp [hg]))]
    simp only [List.flatMap_cons, List.any_append, Bool.or_eq_false_iff] at hall
    exact hall.2

/-! ### Struct fields -/

/-- The text of a struct field and what it says. -/
def FieldOk (fd : TyField) (s : Str) : Prop :=
  (∀ r, Eventually fun f => readField f [] (skipBlanks (s ++ '\n' :: r)) = some (fd, '\n' :: r)) ∧
  (∀ rest, ∃ c r, skipBlanks (s ++ rest) = c :: r ∧ c ≠ '}')

theorem embedded_field {t s} (h : TextOk t s) : FieldOk (.mk [] t) (g!" " ++ s) := by
  have hskip : ∀ rest, skipBlanks (g!" " ++ s ++ rest) = s ++ rest := by
    intro rest
    simp only [List.cons_append, List.nil_append, skipBlanks, true_or, if_true]
    exact h.skip rest
  refine ⟨?_, ?_⟩
  · intro r
    rw [hskip]
    have hf : Follow ('\n' :: r) := Or.inr ⟨_, _, rfl, by simp⟩
    refine (h.reads _ hf).step ?_
    intro f hread
    rw [readField.eq_def]
    simp only
    rcases h.head _ hf with hh | ⟨x, y, hh, hx, hx'⟩ | hh
    · rw [if_pos (by simpa using hh), hread]
      rfl
    · split
      · rw [hread]; rfl
      · rw [hh]
        split
        · rename_i h; injection h with h1 _; exact absurd h1 hx'
        · rename_i h; injection h with h1 _; exact absurd h1 hx
        · rw [hread]; rfl
    · split
      · rw [hread]; rfl
      · rw [hh, hread]; rfl
  · intro rest
    rw [hskip]
    obtain ⟨c, r, rfl, hc⟩ := h.start
    exact ⟨c, r ++ rest, rfl, hc.ne.2.2.2.2.1⟩

theorem readField_names {t s} (h : TextOk t s) : ∀ (names acc : List Str) (r : Str), names ≠ [] →
    (∀ n ∈ names, IdentOk n) →
    Eventually fun f => readField f acc (join g!", " names ++ g!" " ++ s ++ '\n' :: r) =
      some (.mk (acc ++ names) t, '\n' :: r)
  | [], _, _, h0, _ => absurd rfl h0
  | [n], acc, r, _, hn => by
    have hni := hn n (by simp)
    refine (h.reads ('\n' :: r) (Or.inr ⟨_, _, rfl, by simp⟩)).step ?_
    intro f hread
    have hw : word (join g!", " [n] ++ g!" " ++ s ++ '\n' :: r) = (n, ' ' :: (s ++ '\n' :: r)) := by
      have : join g!", " [n] ++ g!" " ++ s ++ '\n' :: r = n ++ (' ' :: (s ++ '\n' :: r)) := by simp [join]
      rw [this]
      exact word_append hni.2.1 (by rintro c s h; cases h; decide)
    rw [readField.eq_def]
    simp only [hw]
    rw [if_neg (by simpa using hni.2.2)]
    have : skipBlanks (s ++ '\n' :: r) = s ++ '\n' :: r := h.skip _
    rw [this, hread]
    rfl
  | n :: m :: names, acc, r, _, hn => by
    have hni := hn n (by simp)
    refine (readField_names h (m :: names) (acc ++ [n]) r (by simp) (fun x hx => hn x (by simp [hx]))).step ?_
    intro f hread
    have hw : word (join g!", " (n :: m :: names) ++ g!" " ++ s ++ '\n' :: r) =
        (n, ',' :: ' ' :: (join g!", " (m :: names) ++ g!" " ++ s ++ '\n' :: r)) := by
      have : join g!", " (n :: m :: names) ++ g!" " ++ s ++ '\n' :: r =
        n ++ (',' :: ' ' :: (join g!", " (m :: names) ++ g!" " ++ s ++ '\n' :: r)) := by simp [join]
      rw [this]
      exact word_append hni.2.1 (by rintro c s h; cases h; decide)
    rw [readField.eq_def]
    simp only [hw]
    rw [if_neg (by simpa using hni.2.2), if_neg hni.1]
    have hskip : skipBlanks (' ' :: (join g!", " (m :: names) ++ g!" " ++ s ++ '\n' :: r)) =
        join g!", " (m :: names) ++ g!" " ++ s ++ '\n' :: r := by
      simp only [skipBlanks, true_or, if_true]
      obtain ⟨c, m', e, hc⟩ := identOk_start (hn m (by simp))
      have hcs : StartChar c := by simp [StartChar, hc]
      cases names with
      | nil => rw [e]; simp only [join, List.cons_append]; exact skipBlanks_start hcs
      | cons a b => rw [e]; simp only [join, List.cons_append]; exact skipBlanks_start hcs
    rw [hskip, hread]
    simp

theorem named_field {names : List Str} (h0 : names ≠ []) (hn : ∀ n ∈ names, IdentOk n) {t s}
    (h : TextOk t s) : FieldOk (.mk names t) (join g!", " names ++ g!" " ++ s) := by
  have hskip : ∀ rest, ∃ c r, join g!", " names ++ g!" " ++ s ++ rest = c :: r ∧ StartChar c := by
    intro rest
    obtain ⟨n, ns, rfl⟩ := List.exists_cons_of_ne_nil h0
    obtain ⟨c, n', e, hc⟩ := identOk_start (hn n (by simp))
    have hcs : StartChar c := by simp [StartChar, hc]
    cases ns with
    | nil => rw [e]; simp only [join, List.cons_append]; exact ⟨_, _, rfl, hcs⟩
    | cons a b => rw [e]; simp only [join, List.cons_append]; exact ⟨_, _, rfl, hcs⟩
  refine ⟨?_, ?_⟩
  · intro r
    obtain ⟨c, q, e, hc⟩ := hskip ('\n' :: r)
    have := readField_names h names [] r h0 hn
    rw [e] at this ⊢
    rw [skipBlanks_start hc]
    exact this
  · intro rest
    obtain ⟨c, q, e, hc⟩ := hskip rest
    rw [e]
    exact ⟨c, q, skipBlanks_start hc, hc.ne.2.2.2.2.1⟩

theorem readFields_join : ∀ (fs : List TyField) (ss : List Str), fs.length = ss.length →
    (∀ (i : Nat) t s, fs[i]? = some t → ss[i]? = some s → FieldOk t s) → ∀ rest,
    Eventually fun f => readFields f (join g!"\n" ss ++ '\n' :: '}' :: rest) = some (fs, rest)
  | [], ss, hl, _, rest => by
    have : ss = [] := List.length_eq_zero_iff.1 hl.symm
    subst this
    refine Eventually.all fun f => ?_
    simp [join, readFields, skipBlanks]
  | [fd], ss, hl, h, rest => by
    obtain ⟨s, rfl⟩ := List.length_eq_one_iff.1 hl.symm
    obtain ⟨h1, h2⟩ := h 0 fd s rfl rfl
    have h3 : Eventually fun f => readFields f ('\n' :: '}' :: rest) = some ([], rest) :=
      Eventually.all fun f => by simp [readFields, skipBlanks]
    refine ((h1 ('}' :: rest)).and h3).step ?_
    rintro f ⟨hf, hf'⟩
    obtain ⟨c, r, hc, hne⟩ := h2 ('\n' :: '}' :: rest)
    simp only [join]
    rw [hc] at hf
    rw [readFields.eq_def]
    simp only [hc]
    split
    · rename_i h; injection h with h1 _; exact absurd h1 hne
    · simp only [hf, hf', Option.map_some]
  | fd :: fd' :: fs, ss, hl, h, rest => by
    match ss, hl with
    | s :: s' :: ss, hl =>
      obtain ⟨h1, h2⟩ := h 0 fd s rfl rfl
      have ih := readFields_join (fd' :: fs) (s' :: ss) (by simpa using hl)
        (fun i u v hu hv => h (i + 1) u v (by simpa using hu) (by simpa using hv)) rest
      obtain ⟨M, ih⟩ := ih
      have ih' : Eventually fun f => readFields f ('\n' :: (join g!"\n" (s' :: ss) ++ '\n' :: '}' :: rest)) =
          some (fd' :: fs, rest) := by
        refine ⟨M + 1, fun f hf => ?_⟩
        obtain ⟨g, rfl⟩ : ∃ g, f = g + 1 := ⟨f - 1, by omega⟩
        have := ih (g + 1) (by omega)
        simp only at this ⊢
        rw [readFields.eq_def] at this ⊢
        simpa only [skipBlanks, or_true, if_true] using this
      refine ((h1 (join g!"\n" (s' :: ss) ++ '\n' :: '}' :: rest)).and ih').step ?_
      rintro f ⟨hf, hf'⟩
      obtain ⟨c, r, hc, hne⟩ := h2 ('\n' :: (join g!"\n" (s' :: ss) ++ '\n' :: '}' :: rest))
      have e1 : join g!"\n" (s :: s' :: ss) ++ '\n' :: '}' :: rest =
          s ++ '\n' :: (join g!"\n" (s' :: ss) ++ '\n' :: '}' :: rest) := by
        simp [join]
      rw [e1, readFields.eq_def]
      rw [hc] at hf
      simp only [hc]
      split
      · rename_i h; injection h with h1 _; exact absurd h1 hne
      · simp only [hf, hf', Option.map_some]

end Gowrap
