import Verif.Model.Path
import Verif.Spec.Path
/-! The model of `path/filepath` computes what paths mean. -/

namespace Gowrap

open Spec

theorem pieces_noslash : ∀ (w : Str), '/' ∉ w → pieces w = [w]
  | [], _ => rfl
  | c :: cs, h => by
    rw [List.mem_cons, not_or] at h
    rw [pieces, if_neg (Ne.symm h.1), pieces_noslash cs h.2]

theorem pieces_cons : ∀ (w p : Str), '/' ∉ w → pieces (w ++ '/' :: p) = w :: pieces p
  | [], p, _ => by simp [pieces]
  | c :: cs, p, h => by
    rw [List.mem_cons, not_or] at h
    rw [List.cons_append, pieces, if_neg (Ne.symm h.1), pieces_cons cs p h.2]

theorem pieces_of {p : Str} {ws : List Str} (h : Pieces p ws) : pieces p = ws := by
  induction h with
  | one w hw => exact pieces_noslash w hw
  | cons w p ws hw _ ih => rw [pieces_cons w p hw, ih]

theorem exists_pieces : ∀ (p : Str), Pieces p (pieces p)
  | [] => .one [] (by simp)
  | c :: cs => by
    rw [pieces]
    split
    · rename_i hc; subst hc
      exact .cons [] cs _ (by simp) (exists_pieces cs)
    · rename_i hc
      have ih := exists_pieces cs
      generalize pieces cs = l at ih
      cases ih with
      | one _ hw => exact .one _ (by simp only [List.mem_cons, not_or]; exact ⟨Ne.symm hc, hw⟩)
      | cons w p ws hw hp =>
        exact .cons (c :: w) p ws (by simp only [List.mem_cons, not_or]; exact ⟨Ne.symm hc, hw⟩) hp

/-- The meaning of a path as a function. -/
def locate (cwd : List Str) (p : Str) : List Str :=
  walk (if p.head? = some '/' then [] else cwd) (pieces p)

theorem denotes_iff (cwd : List Str) (p : Str) (loc : List Str) :
    Denotes cwd p loc ↔ loc = locate cwd p := by
  constructor
  · rintro ⟨ws, hw, rfl⟩
    rw [locate, pieces_of hw]
  · rintro rfl
    exact ⟨_, exists_pieces p, rfl⟩

theorem isAbsPath_iff (p : Str) : isAbsPath p = true ↔ p.head? = some '/' := by
  unfold isAbsPath
  split
  · simp
  · rename_i h
    cases p with
    | nil => simp
    | cons c cs =>
      simp only [List.head?_cons, Option.some.injEq, Bool.false_eq_true, false_iff]
      rintro rfl
      exact h cs rfl

theorem follow_dir {dir : List Str} {w : Str} (hd : IsDir dir) (hw : '/' ∉ w) : IsDir (follow dir w) := by
  unfold follow
  split
  · exact hd
  · split
    · exact fun x hx => hd x (List.dropLast_subset _ hx)
    · rename_i h1 h2
      rw [not_or] at h1
      intro x hx
      rcases List.mem_append.1 hx with hx | hx
      · exact hd x hx
      · rw [List.mem_singleton.1 hx]; exact ⟨h1.1, h1.2, h2, hw⟩

theorem walk_dir : ∀ (ws : List Str) (dir : List Str), IsDir dir → (∀ w ∈ ws, '/' ∉ w) →
    IsDir (walk dir ws)
  | [], _, hd, _ => hd
  | w :: ws, dir, hd, h =>
    walk_dir ws (follow dir w) (follow_dir hd (h w (by simp))) fun x hx => h x (by simp [hx])

theorem walk_append (dir : List Str) (a b : List Str) : walk dir (a ++ b) = walk (walk dir a) b := by
  simp [walk]

theorem pieces_mem {p : Str} {ws : List Str} (h : Pieces p ws) : ∀ w ∈ ws, '/' ∉ w := by
  induction h with
  | one w hw => intro x hx; rw [List.mem_singleton.1 hx]; exact hw
  | cons w p ws hw _ ih =>
    intro x hx
    rcases List.mem_cons.1 hx with hx | hx
    · rw [hx]; exact hw
    · exact ih x hx

theorem locate_dir {cwd : List Str} (hd : IsDir cwd) (p : Str) : IsDir (locate cwd p) := by
  refine walk_dir _ _ ?_ (pieces_mem (exists_pieces p))
  split
  · intro w hw; simp at hw
  · exact hd

/-- Cleaning at the root is following. -/
theorem cleanPieces_root : ∀ (ws : List Str) (acc : List Str), IsDir acc → (∀ w ∈ ws, '/' ∉ w) →
    cleanPieces false acc ws = walk acc ws
  | [], _, _, _ => rfl
  | w :: ws, acc, hd, h => by
    have hstep : cleanStep false acc w = follow acc w := by
      unfold cleanStep follow
      by_cases h1 : w = []
      · simp [h1]
      · by_cases h2 : w = g!"."
        · simp [h2]
        · rw [if_neg h1, if_neg h2]
          have h12 : ¬ (w = [] ∨ w = g!".") := by rw [not_or]; exact ⟨h1, h2⟩
          by_cases h3 : w = g!".."
          · rw [if_pos h3, if_neg h12, if_pos h3]
            cases hl : acc.getLast? with
            | none => rw [List.getLast?_eq_none_iff] at hl; subst hl; rfl
            | some l =>
              have hm : l ∈ acc := List.mem_of_getLast? hl
              show (if l = g!".." then acc ++ [w] else acc.dropLast) = _
              rw [if_neg (hd l hm).2.2.1]
          · rw [if_neg h3, if_neg h12, if_neg h3]
    have ih := cleanPieces_root ws (follow acc w) (follow_dir hd (h w (by simp)))
      fun x hx => h x (by simp [hx])
    unfold cleanPieces walk at ih ⊢
    rw [List.foldl_cons, List.foldl_cons, hstep, ih]

theorem absElems_eq {cwd : List Str} (hd : IsDir cwd) (p : Str) : absElems cwd p = locate cwd p := by
  unfold absElems locate
  rw [cleanPieces_root _ _ _ (pieces_mem (exists_pieces p))]
  · congr 1
    by_cases h : isAbsPath p = true
    · rw [if_pos h, if_pos ((isAbsPath_iff p).1 h)]
    · rw [if_neg h, if_neg (fun h' => h ((isAbsPath_iff p).2 h'))]
  · split
    · intro w hw; simp at hw
    · exact hd

/-- Joining names with slashes and splitting again. -/
theorem pieces_join : ∀ (ws : List Str), ws ≠ [] → (∀ w ∈ ws, '/' ∉ w) → pieces (join g!"/" ws) = ws
  | [], h, _ => absurd rfl h
  | [w], _, h => pieces_noslash w (h w (by simp))
  | w :: v :: ws, _, h => by
    have ih := pieces_join (v :: ws) (by simp) fun x hx => h x (by simp [hx])
    show pieces (w ++ ['/'] ++ join g!"/" (v :: ws)) = _
    rw [List.append_assoc, List.singleton_append, pieces_cons w _ (h w (by simp)), ih]

theorem walk_dir_self : ∀ (l : List Str) (dir : List Str), IsDir l → walk dir l = dir ++ l
  | [], dir, _ => by simp [walk]
  | w :: l, dir, h => by
    have hw := h w (by simp)
    have : walk dir (w :: l) = walk (dir ++ [w]) l := by
      show walk (follow dir w) l = _
      congr 1
      unfold follow
      rw [if_neg (by rw [not_or]; exact ⟨hw.1, hw.2.1⟩), if_neg hw.2.2.1]
    rw [this, walk_dir_self l _ fun x hx => h x (by simp [hx])]
    simp

theorem pieces_absText {l : List Str} (h : IsDir l) : walk [] (pieces (absText l)) = l := by
  unfold absText
  rw [pieces, if_pos rfl]
  have : ∀ x, walk ([] : List Str) ([] :: x) = walk [] x := fun x => by simp [walk, follow]
  rw [this]
  cases l with
  | nil => simp [join, pieces, walk, follow]
  | cons w l =>
    rw [pieces_join _ (by simp) fun x hx => (h x hx).2.2.2, walk_dir_self _ _ h]
    simp

theorem cleanPieces_absText {l : List Str} (h : IsDir l) :
    cleanPieces false [] (pieces (absText l)) = l := by
  rw [cleanPieces_root _ _ (by intro w hw; simp at hw) (pieces_mem (exists_pieces _)), pieces_absText h]

theorem isAbs_absText (l : List Str) : isAbsPath (absText l) = true := by
  simp [absText, isAbsPath]

/-! ## Cleaning a relative path -/

/-- Elements that cleaning keeps. -/
def Kept (l : List Str) : Prop := ∀ w ∈ l, w ≠ [] ∧ w ≠ g!"." ∧ '/' ∉ w

theorem cleanPieces_rel (cwd : List Str) : ∀ (ws : List Str) (acc : List Str), Kept acc →
    (∀ w ∈ ws, '/' ∉ w) →
    Kept (cleanPieces true acc ws) ∧ walk cwd (cleanPieces true acc ws) = walk (walk cwd acc) ws
  | [], acc, hk, _ => ⟨hk, rfl⟩
  | w :: ws, acc, hk, h => by
    have hw := h w (by simp)
    have hstep : Kept (cleanStep true acc w) ∧ walk cwd (cleanStep true acc w) = follow (walk cwd acc) w := by
      have hsnoc : ∀ x, walk cwd (acc ++ [x]) = follow (walk cwd acc) x := by
        intro x; rw [walk_append]; rfl
      have hkeep : ∀ x, x ≠ [] → x ≠ g!"." → '/' ∉ x → Kept (acc ++ [x]) := by
        intro x h1 h2 h3 y hy
        rcases List.mem_append.1 hy with hy | hy
        · exact hk y hy
        · rw [List.mem_singleton.1 hy]; exact ⟨h1, h2, h3⟩
      unfold cleanStep
      by_cases h1 : w = []
      · simp only [h1, if_pos]; exact ⟨hk, by simp [follow]⟩
      · rw [if_neg h1]
        by_cases h2 : w = g!"."
        · rw [if_pos h2]; exact ⟨hk, by simp [follow, h2]⟩
        · rw [if_neg h2]
          by_cases h3 : w = g!".."
          · rw [if_pos h3]
            cases hl : acc.getLast? with
            | none =>
              simp only [if_pos]
              exact ⟨hkeep w h1 h2 hw, hsnoc w⟩
            | some l =>
              simp only
              split
              · exact ⟨hkeep w h1 h2 hw, hsnoc w⟩
              · rename_i hl2
                obtain ⟨ini, rfl⟩ : ∃ ini, acc = ini ++ [l] := by
                  rw [List.getLast?_eq_some_iff] at hl
                  exact hl
                rw [List.dropLast_concat]
                have hkl := hk l (by simp)
                refine ⟨fun x hx => hk x (by simp [hx]), ?_⟩
                rw [walk_append]
                have : walk (walk cwd ini) [l] = walk cwd ini ++ [l] := by
                  show follow _ l = _
                  unfold follow
                  rw [if_neg (by rw [not_or]; exact ⟨hkl.1, hkl.2.1⟩), if_neg hl2]
                rw [this]
                unfold follow
                rw [if_neg (by rw [not_or]; exact ⟨h1, h2⟩), if_pos h3, List.dropLast_concat]
          · rw [if_neg h3]
            exact ⟨hkeep w h1 h2 hw, hsnoc w⟩
    have ih := cleanPieces_rel cwd ws (cleanStep true acc w) hstep.1 fun x hx => h x (by simp [hx])
    unfold cleanPieces at ih ⊢
    rw [List.foldl_cons]
    refine ⟨ih.1, ?_⟩
    rw [ih.2, hstep.2]
    rfl

theorem join_head {w : Str} {ws : List Str} (hw : w ≠ [] ∧ w ≠ g!"." ∧ '/' ∉ w) :
    (join g!"/" (w :: ws)).head? ≠ some '/' := by
  obtain ⟨h1, _, h3⟩ := hw
  cases w with
  | nil => exact absurd rfl h1
  | cons c cs =>
    have hc : c ≠ '/' := by
      rintro rfl; exact h3 (by simp)
    cases ws with
    | nil => simpa [join] using hc
    | cons v ws => simpa [join] using hc

/-- Cleaning does not change the meaning of a path. -/
theorem locate_cleanPath {cwd : List Str} (p : Str) :
    locate cwd (cleanPath p) = locate cwd p := by
  have hm := pieces_mem (exists_pieces p)
  unfold cleanPath
  split
  · rename_i ha
    have hnil : IsDir ([] : List Str) := by intro w hw; simp at hw
    have hr := cleanPieces_root (pieces p) [] hnil hm
    have hdir : IsDir (walk [] (pieces p)) := walk_dir _ _ hnil hm
    rw [hr]
    unfold locate
    rw [if_pos ((isAbsPath_iff p).1 ha), if_pos ((isAbsPath_iff _).1 (isAbs_absText _)), pieces_absText hdir]
  · rename_i ha
    have hp : ¬ p.head? = some '/' := fun h => ha ((isAbsPath_iff p).2 h)
    have hrel := cleanPieces_rel cwd (pieces p) [] (by intro w hw; simp at hw) hm
    unfold locate
    rw [if_neg hp]
    cases hc : cleanPieces true [] (pieces p) with
    | nil =>
      rw [hc] at hrel
      simp only
      rw [if_neg (by decide)]
      have e2 := hrel.2
      simp only [walk, List.foldl_nil] at e2
      rw [show pieces g!"." = [g!"."] from rfl]
      simp only [walk, List.foldl_cons, List.foldl_nil]
      rw [← e2]
      simp [follow]
    | cons w ws =>
      rw [hc] at hrel
      simp only
      rw [if_neg (join_head (hrel.1 w (by simp))), pieces_join _ (by simp) fun x hx => (hrel.1 x hx).2.2,
        hrel.2]
      simp [walk]

/-! ## Relative paths -/

theorem stripCommon_spec : ∀ (b t : List Str), ∃ c, b = c ++ (stripCommon b t).1 ∧
    t = c ++ (stripCommon b t).2
  | [], t => ⟨[], by simp [stripCommon]⟩
  | b :: bs, [] => ⟨[], by simp [stripCommon]⟩
  | b :: bs, t :: ts => by
    rw [stripCommon]
    split
    · rename_i h
      obtain ⟨c, h1, h2⟩ := stripCommon_spec bs ts
      subst h
      exact ⟨b :: c, by rw [List.cons_append, ← h1], by rw [List.cons_append, ← h2]⟩
    · exact ⟨[], by simp⟩

theorem walk_up : ∀ (b c : List Str), walk (c ++ b) (List.replicate b.length g!"..") = c
  | [], c => by simp [walk]
  | x :: b, c => by
    have ih := walk_up b (c ++ [x])
    rw [List.length_cons, List.replicate_succ', walk_append]
    rw [List.append_assoc, List.singleton_append] at ih
    rw [ih]
    simp [walk, follow]

/-- Following the relative path from the base leads to the target. -/
theorem locate_relElems {base target : List Str} (hb : IsDir base) (ht : IsDir target) :
    locate base (relElems base target) = target := by
  unfold relElems
  split
  · rename_i h
    subst h
    rw [locate, if_neg (by decide), show pieces g!"." = [g!"."] from rfl]
    simp [walk, follow]
  · rename_i hne
    obtain ⟨c, h1, h2⟩ := stripCommon_spec base target
    cases hs : stripCommon base target with
    | mk b t =>
    rw [hs] at h1 h2
    simp only at h1 h2
    show locate base (join g!"/" (b.map (fun _ => g!"..") ++ t)) = target
    have hrep : b.map (fun _ => g!"..") = List.replicate b.length g!".." := List.map_const' ..
    rw [hrep]
    have htn : ∀ w ∈ t, IsName w := fun w hw => ht w (by rw [h2]; simp [hw])
    have hall : ∀ w ∈ List.replicate b.length g!".." ++ t, w ≠ [] ∧ w ≠ g!"." ∧ '/' ∉ w := by
      intro w hw
      rcases List.mem_append.1 hw with hw | hw
      · rw [List.eq_of_mem_replicate hw]; decide
      · exact ⟨(htn w hw).1, (htn w hw).2.1, (htn w hw).2.2.2⟩
    have hnil : List.replicate b.length g!".." ++ t ≠ [] := by
      intro h
      rw [List.append_eq_nil_iff] at h
      have hb0 : b = [] := by simpa using h.1
      exact hne (by rw [h1, h2, hb0, h.2])
    have hhead : ¬ (join g!"/" (List.replicate b.length g!".." ++ t)).head? = some '/' := by
      cases hl : List.replicate b.length g!".." ++ t with
      | nil => exact absurd hl hnil
      | cons w ws =>
        exact join_head (hall w (by rw [hl]; simp))
    rw [locate, if_neg hhead, pieces_join _ hnil fun w hw => (hall w hw).2.2, walk_append]
    conv => lhs; arg 1; rw [h1]
    rw [walk_up, walk_dir_self _ _ htn, h2]

end Gowrap
