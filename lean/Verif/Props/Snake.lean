import Verif.Model.Snake
import Verif.Spec.Snake
/-!
# snake (C43)
-/

namespace Gowrap.Props

open Gowrap Spec

theorem isCap_iff (c : Char) : isCap c = true ↔ Capital c := by
  simp only [isCap, Bool.and_eq_true, decide_eq_true_eq, Capital]; exact Iff.rfl

theorem isLow_iff (c : Char) : isLow c = true ↔ Small c := by
  simp only [isLow, Bool.and_eq_true, decide_eq_true_eq, Small]; exact Iff.rfl

theorem isLowDigit_iff (c : Char) : isLowDigit c = true ↔ Small c ∨ Digit c := by
  simp only [isLowDigit, Bool.or_eq_true, isLow_iff, Bool.and_eq_true, decide_eq_true_eq, Digit]; exact Iff.rfl

theorem small_not_capital {c : Char} (h : Small c) : ¬ Capital c := by
  intro h'
  unfold Small at h; unfold Capital at h'
  have h1 := UInt32.le_iff_toNat_le.1 h.1
  have h2 := UInt32.le_iff_toNat_le.1 h'.2
  have e1 : 'a'.val.toNat = 97 := rfl
  have e2 : 'Z'.val.toNat = 90 := rfl
  omega

theorem digit_not_capital {c : Char} (h : Digit c) : ¬ Capital c := by
  intro h'
  unfold Digit at h; unfold Capital at h'
  have h1 := UInt32.le_iff_toNat_le.1 h.2
  have h2 := UInt32.le_iff_toNat_le.1 h'.1
  have e1 : '9'.val.toNat = 57 := rfl
  have e2 : 'A'.val.toNat = 65 := rfl
  omega

theorem underscore_not : isLowDigit '_' = false ∧ isCap '_' = false := ⟨by decide, by decide⟩

theorem firstCap_cons (eat : Bool) (c : Char) (s : Str) : ∃ t, firstCap eat (c :: s) = c :: t := by
  match s with
  | [] => exact ⟨[], rfl⟩
  | [d] => exact ⟨[d], rfl⟩
  | d :: e :: rest =>
    rw [firstCap]
    split
    · exact ⟨_, rfl⟩
    · split
      · exact ⟨_, rfl⟩
      · exact ⟨_, rfl⟩

/-- A capital letter at the front stays where it is and is followed by what follows it. -/
theorem allCap_skip {c : Char} (hc : isLowDigit c = false) (s : Str) : allCap (c :: s) = c :: allCap s := by
  cases s with
  | nil => rfl
  | cons d s => rw [allCap, hc]; simp

theorem cap_not_lowDigit {c : Char} (h : isCap c = true) : isLowDigit c = false := by
  cases hl : isLowDigit c with
  | false => rfl
  | true =>
    rcases (isLowDigit_iff c).1 hl with h' | h'
    · exact absurd ((isCap_iff c).1 h) (small_not_capital h')
    · exact absurd ((isCap_iff c).1 h) (digit_not_capital h')

/-- One step of the second replacement, after the first one did not put an underscore here. -/
theorem underscored_step {c d : Char} {rest r : Str}
    (hn : Small c ∨ ¬ (c ≠ '\n' ∧ Capital d ∧ ∃ z, rest.head? = some z ∧ Small z))
    (hr : ∃ t, r = d :: t) (ih : Underscored (d :: rest) (allCap r)) :
    Underscored (c :: d :: rest) (allCap (c :: r)) := by
  obtain ⟨t, rfl⟩ := hr
  rw [allCap]
  split
  · rename_i h
    rw [Bool.and_eq_true] at h
    rw [allCap_skip (cap_not_lowDigit h.2)] at ih
    refine .here c d rest _ ⟨(isCap_iff d).1 h.2, ?_⟩ ih
    rcases (isLowDigit_iff c).1 h.1 with h' | h'
    · exact Or.inl h'
    · exact Or.inr (Or.inl h')
  · rename_i h
    rw [Bool.and_eq_true, not_and] at h
    refine .on c d rest _ ?_ ih
    rintro ⟨h1, h2⟩
    have hd := (isCap_iff d).2 h1
    rcases h2 with h2 | h2 | h2
    · exact h ((isLowDigit_iff c).2 (Or.inl h2)) hd
    · exact h ((isLowDigit_iff c).2 (Or.inr h2)) hd
    · rcases hn with hn | hn
      · exact h ((isLowDigit_iff c).2 (Or.inl hn)) hd
      · exact hn ⟨h2.1, h1, h2.2⟩

theorem underscored_snake : ∀ (eat : Bool) (s : Str), Underscored s (allCap (firstCap eat s))
  | _, [] => .nil
  | _, [c] => .one c
  | eat, [c, d] => by
    refine underscored_step (Or.inr ?_) ⟨[], rfl⟩ (.one d)
    rintro ⟨_, _, z, hz, _⟩
    cases hz
  | eat, c :: d :: e :: rest => by
    rw [firstCap]
    split
    · rename_i h
      rw [Bool.and_eq_true] at h
      exact underscored_step (Or.inl ((isLow_iff c).1 h.2)) (firstCap_cons ..) (underscored_snake true (d :: e :: rest))
    · split
      · rename_i h
        obtain ⟨h1, h2, h3⟩ := h
        have hu : allCap (c :: '_' :: d :: firstCap true (e :: rest)) =
            c :: '_' :: d :: allCap (firstCap true (e :: rest)) := by
          rw [allCap, underscore_not.2, Bool.and_false, if_neg (by simp), allCap_skip underscore_not.1,
            allCap_skip (cap_not_lowDigit h2)]
        rw [hu]
        refine .here c d (e :: rest) _ ⟨(isCap_iff d).1 h2, Or.inr (Or.inr ⟨h1, e, rfl, (isLow_iff e).1 h3⟩)⟩ ?_
        refine .on d e rest _ ?_ (underscored_snake true (e :: rest))
        rintro ⟨h4, _⟩
        exact small_not_capital ((isLow_iff e).1 h3) h4
      · rename_i h
        refine underscored_step (Or.inr ?_) (firstCap_cons ..) (underscored_snake false (d :: e :: rest))
        rintro ⟨h1, h2, z, hz, h3⟩
        cases hz
        exact h ⟨h1, (isCap_iff d).2 h2, (isLow_iff e).2 h3⟩
termination_by _ s => s.length

theorem underscored_unique {s t t' : Str} (h : Underscored s t) (h' : Underscored s t') : t = t' := by
  induction h generalizing t' with
  | nil => cases h'; rfl
  | one c => cases h'; rfl
  | here x y rest t hw _ ih =>
    cases h' with
    | here _ _ _ _ _ h2 => rw [ih h2]
    | on _ _ _ _ hn _ => exact absurd hw hn
  | on x y rest t hn _ ih =>
    cases h' with
    | here _ _ _ _ hw _ => exact absurd hw hn
    | on _ _ _ _ _ h2 => rw [ih h2]

/-- **C43**, exactly: `snake` puts an underscore at the end of every word and lowers every letter. -/
theorem C43_exact (u : Uni) (s t : Str) : Underscored s t → u.snake s = t.map u.toLower := by
  intro h
  rw [Uni.snake, underscored_unique (underscored_snake false s) h]
  rfl

theorem underscored_total (s : Str) : ∃ t, Underscored s t := ⟨_, underscored_snake false s⟩

theorem lower_underscore (u : Uni) : u.toLower '_' = '_' := by
  rw [u.lower_ascii _ (by decide)]; decide

/-- Deleting the underscores. -/
def noUnderscores (s : Str) : Str := s.filter (· ≠ '_')

theorem noUnderscores_map {u : Uni} {s t : Str} (h : Underscored s t) :
    noUnderscores (t.map u.toLower) = noUnderscores (s.map u.toLower) := by
  induction h with
  | nil => rfl
  | one c => rfl
  | here x y rest t _ _ ih =>
    simp only [noUnderscores, List.map_cons, List.filter_cons, lower_underscore] at ih ⊢
    rw [if_neg (show ¬ decide ('_' ≠ '_') = true by simp), ih]
  | on x y rest t _ _ ih =>
    simp only [noUnderscores, List.map_cons, List.filter_cons] at ih ⊢
    rw [ih]

theorem sublist_underscored {s t : Str} (h : Underscored s t) : s.Sublist t := by
  induction h with
  | nil => exact .slnil
  | one c => exact List.Sublist.refl _
  | here x y rest t _ _ ih => exact (ih.cons _).cons_cons _
  | on x y rest t _ _ ih => exact ih.cons_cons _

theorem underscored_head {s t : Str} (h : Underscored s t) : t.head? = s.head? := by
  cases h <;> rfl

theorem underscored_ne {s t : Str} (h : Underscored s t) (hs : s ≠ []) : t ≠ [] := by
  cases h <;> simp at hs ⊢

theorem underscored_last {s t : Str} (h : Underscored s t) : t.getLast? = s.getLast? := by
  induction h with
  | nil => rfl
  | one c => rfl
  | here x y rest t _ h2 ih =>
    have := underscored_ne h2 (by simp)
    cases t with
    | nil => exact absurd rfl this
    | cons a t => simpa [List.getLast?_cons_cons] using ih
  | on x y rest t _ h2 ih =>
    have := underscored_ne h2 (by simp)
    cases t with
    | nil => exact absurd rfl this
    | cons a t => simpa [List.getLast?_cons_cons] using ih

theorem lower_not_capital (u : Uni) (c : Char) : ¬ Capital (u.toLower c) := by
  intro h
  have := u.lower_not_cap c
  rw [← Bool.not_eq_true] at this
  apply this
  simpa [Char.isUpper, Capital] using h

theorem underscored_lower : ∀ (s : Str), (∀ c ∈ s, ¬ Capital c) → Underscored s s
  | [], _ => .nil
  | [c], _ => .one c
  | x :: y :: rest, h =>
    .on x y rest _ (fun hw => h y (by simp) hw.1) (underscored_lower (y :: rest) fun c hc => h c (by simp [hc]))

/-- **C43**: the result of `snake` has no capital letters; it is the lower-cased string with underscores
inserted; no underscore is added at the beginning or the end; and a second application changes nothing.
Lowering a letter twice is lowering it once (a fact about Unicode). -/
theorem C43_snake (u : Uni) (hidem : ∀ c, u.toLower (u.toLower c) = u.toLower c) (s : Str) :
    (∀ c ∈ u.snake s, ¬ Capital c ∧ u.toLower c = c) ∧
    noUnderscores (u.snake s) = noUnderscores (u.lower s) ∧ (u.lower s).Sublist (u.snake s) ∧
    (u.snake s).head? = (u.lower s).head? ∧ (u.snake s).getLast? = (u.lower s).getLast? ∧
    u.snake (u.snake s) = u.snake s := by
  obtain ⟨t, ht⟩ := underscored_total s
  have he := C43_exact u s t ht
  have hcap : ∀ c ∈ u.snake s, ¬ Capital c ∧ u.toLower c = c := by
    rw [he]
    intro c hc
    obtain ⟨d, _, rfl⟩ := List.mem_map.1 hc
    exact ⟨lower_not_capital u d, hidem d⟩
  refine ⟨hcap, ?_, ?_, ?_, ?_, ?_⟩
  · rw [he]; exact noUnderscores_map ht
  · rw [he]; exact (sublist_underscored ht).map _
  · rw [he, Uni.lower, List.head?_map, List.head?_map, underscored_head ht]
  · rw [he, Uni.lower, List.getLast?_map, List.getLast?_map, underscored_last ht]
  · rw [C43_exact u _ _ (underscored_lower _ fun c hc => (hcap c hc).1)]
    conv => rhs; rw [← List.map_id (u.snake s)]
    exact List.map_congr_left fun c hc => (hcap c hc).2

/-- Non-vacuity of C43. -/
example : Uni.ascii.snake g!"HTTPServer2Go_iD" = g!"http_server2_go_i_d" ∧
    (∀ c, Uni.ascii.toLower (Uni.ascii.toLower c) = Uni.ascii.toLower c) := by
  refine ⟨by decide, ?_⟩
  intro c
  have := Uni.ascii.lower_not_cap c
  show (Char.toLower (Char.toLower c)) = Char.toLower c
  have h2 : (Char.toLower c).isUpper = false := this
  generalize Char.toLower c = d at h2
  unfold Char.toLower
  rw [dif_neg]
  intro h
  simp [Char.isUpper] at h2
  exact absurd (h2 h.1) (by simpa using h.2)

end Gowrap.Props
