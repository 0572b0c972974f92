import Verif.Model.Generator
import Verif.Model.Template
/-!
# Method lists as finite maps
-/

namespace Gowrap

/-- Keys of a method list. -/
def Methods.keys (ms : Methods) : List Str := ms.map (·.1)

theorem lookup_eq_none_iff {α : Type} (l : List (Str × α)) (k : Str) :
    l.lookup k = none ↔ k ∉ l.map (·.1) := by
  induction l with
  | nil => simp
  | cons x l ih =>
    obtain ⟨n, v⟩ := x
    by_cases h : k = n
    · subst h; simp
    · have : (k == n) = false := by simp [h]
      simp [List.lookup_cons, this, h, ih]

theorem lookup_isSome_iff {α : Type} (l : List (Str × α)) (k : Str) :
    (∃ v, l.lookup k = some v) ↔ k ∈ l.map (·.1) := by
  have := lookup_eq_none_iff l k
  cases h : l.lookup k with
  | none => simp [h] at this; simp [this]
  | some v =>
    simp only [h, reduceCtorEq, false_iff, Classical.not_not] at this
    simp [this]

theorem lookup_mem {α : Type} {l : List (Str × α)} {k : Str} {v : α} (h : l.lookup k = some v) :
    (k, v) ∈ l := by
  induction l with
  | nil => simp at h
  | cons x l ih =>
    obtain ⟨n, u⟩ := x
    by_cases hk : k = n
    · subst hk; simp at h; simp [h]
    · have : (k == n) = false := by simp [hk]
      simp only [List.lookup_cons, this] at h
      exact List.mem_cons_of_mem _ (ih h)

theorem lookup_of_mem {α : Type} {l : List (Str × α)} {k : Str} {v : α} (hn : (l.map (·.1)).Nodup)
    (h : (k, v) ∈ l) : l.lookup k = some v := by
  induction l with
  | nil => simp at h
  | cons x l ih =>
    obtain ⟨n, u⟩ := x
    simp only [List.map_cons, List.nodup_cons] at hn
    by_cases hk : k = n
    · subst hk
      rcases List.mem_cons.1 h with h | h
      · simp at h; simp [h]
      · exact absurd (List.mem_map_of_mem (f := (·.1)) h) hn.1
    · have : (k == n) = false := by simp [hk]
      simp only [List.lookup_cons, this]
      rcases List.mem_cons.1 h with h | h
      · simp at h; exact absurd h.1 hk
      · exact ih hn.2 h

theorem lookup_perm {α : Type} {l l' : List (Str × α)} (hn : (l.map (·.1)).Nodup) (h : l.Perm l')
    (k : Str) : l.lookup k = l'.lookup k := by
  have hn' : (l'.map (·.1)).Nodup := (h.map _).nodup_iff.1 hn
  cases h1 : l.lookup k with
  | none =>
    rw [lookup_eq_none_iff] at h1
    symm
    rw [lookup_eq_none_iff]
    exact fun hm => h1 ((h.map _).mem_iff.2 hm)
  | some v => exact (lookup_of_mem hn' (h.mem_iff.1 (lookup_mem h1))).symm

theorem lookup_upsert (n : Str) (m : Method) (ms : Methods) (k : Str) :
    (upsert n m ms).lookup k = if k = n then some m else ms.lookup k := by
  induction ms with
  | nil =>
    by_cases h : k = n
    · subst h; simp [upsert]
    · have : (k == n) = false := by simp [h]
      simp [upsert, List.lookup_cons, this, h]
  | cons x ms ih =>
    obtain ⟨a, v⟩ := x
    unfold upsert
    by_cases ha : a = n
    · subst ha
      by_cases h : k = a
      · subst h; simp
      · have : (k == a) = false := by simp [h]
        simp [List.lookup_cons, this, h]
    · simp only [if_neg ha]
      by_cases h : k = a
      · subst h; simp [ha]
      · have : (k == a) = false := by simp [h]
        simp [List.lookup_cons, this, ih]

theorem keys_upsert (n : Str) (m : Method) (ms : Methods) :
    (upsert n m ms).map (·.1) = if n ∈ ms.map (·.1) then ms.map (·.1) else ms.map (·.1) ++ [n] := by
  induction ms with
  | nil => simp [upsert]
  | cons x ms ih =>
    obtain ⟨a, v⟩ := x
    unfold upsert
    by_cases ha : a = n
    · simp [ha]
    · have : n ≠ a := fun h => ha h.symm
      simp only [if_neg ha, List.map_cons, ih, List.mem_cons, this, false_or]
      split <;> simp

theorem nodup_upsert (n : Str) (m : Method) (ms : Methods) (h : (ms.map (·.1)).Nodup) :
    ((upsert n m ms).map (·.1)).Nodup := by
  rw [keys_upsert]
  split
  · exact h
  · next hn =>
    rw [List.nodup_append]
    refine ⟨h, by simp, ?_⟩
    intro a ha b hb
    simp at hb
    subst hb
    intro hab
    subst hab
    exact hn ha

theorem lookup_upsertAll (src : Methods) : ∀ (result : Methods) (k : Str), (src.map (·.1)).Nodup →
    (upsertAll result src).lookup k = (src.lookup k).or (result.lookup k) := by
  induction src with
  | nil => intro r k _; simp [upsertAll]
  | cons x src ih =>
    obtain ⟨a, v⟩ := x
    intro r k hn
    simp only [List.map_cons, List.nodup_cons] at hn
    have : upsertAll r ((a, v) :: src) = upsertAll (upsert a v r) src := rfl
    rw [this, ih _ _ hn.2, lookup_upsert]
    by_cases h : k = a
    · subst h
      have h0 := (lookup_eq_none_iff src k).2 hn.1
      simp [h0]
    · have hb : (k == a) = false := by simp [h]
      simp [List.lookup_cons, hb, h]

theorem nodup_upsertAll (src : Methods) : ∀ result : Methods, (result.map (·.1)).Nodup →
    ((upsertAll result src).map (·.1)).Nodup := by
  induction src with
  | nil => intro r h; simpa [upsertAll] using h
  | cons x src ih =>
    intro r h
    exact ih _ (nodup_upsert _ _ _ h)

/-- The merged map, key by key. -/
theorem lookup_merge {a b : Methods} (ha : (a.map (·.1)).Nodup) (hb : (b.map (·.1)).Nodup) (k : Str) :
    (upsertAll (upsertAll [] b) a).lookup k = (a.lookup k).or (b.lookup k) := by
  rw [lookup_upsertAll a _ k ha, lookup_upsertAll b _ k hb]
  simp

theorem nodup_merge (a b : Methods) : ((upsertAll (upsertAll [] b) a).map (·.1)).Nodup :=
  nodup_upsertAll _ _ (nodup_upsertAll _ _ (by simp))

theorem insertSorted_perm {α : Type} (le : α → α → Bool) (x : α) (l : List α) :
    (insertSorted le x l).Perm (x :: l) := by
  induction l with
  | nil => exact List.Perm.refl _
  | cons y ys ih =>
    unfold insertSorted
    split
    · exact List.Perm.refl _
    · exact (ih.cons y).trans (List.Perm.swap x y ys)

theorem sortBy_perm {α : Type} (le : α → α → Bool) (l : List α) : (sortBy le l).Perm l := by
  induction l with
  | nil => exact List.Perm.refl _
  | cons x xs ih => exact (insertSorted_perm le x _).trans (ih.cons x)

theorem insertSorted_sorted {α : Type} (le : α → α → Bool)
    (trans : ∀ a b c, le a b = true → le b c = true → le a c = true)
    (total : ∀ a b, (le a b || le b a) = true) (x : α) (l : List α)
    (h : l.Pairwise (fun a b => le a b = true)) :
    (insertSorted le x l).Pairwise (fun a b => le a b = true) := by
  induction l with
  | nil => simp [insertSorted]
  | cons y ys ih =>
    unfold insertSorted
    have hy := List.pairwise_cons.1 h
    split
    · next hxy =>
      refine List.pairwise_cons.2 ⟨?_, h⟩
      intro a ha
      rcases List.mem_cons.1 ha with rfl | ha
      · exact hxy
      · exact trans _ _ _ hxy (hy.1 a ha)
    · next hxy =>
      refine List.pairwise_cons.2 ⟨?_, ih hy.2⟩
      intro a ha
      rcases List.mem_cons.1 ((insertSorted_perm le x ys).mem_iff.1 ha) with rfl | ha
      · have := total a y
        simp only [hxy, Bool.false_or] at this
        exact this
      · exact hy.1 a ha

theorem sortBy_sorted {α : Type} (le : α → α → Bool)
    (trans : ∀ a b c, le a b = true → le b c = true → le a c = true)
    (total : ∀ a b, (le a b || le b a) = true) (l : List α) :
    (sortBy le l).Pairwise (fun a b => le a b = true) := by
  induction l with
  | nil => simp [sortBy]
  | cons x xs ih => exact insertSorted_sorted le trans total x _ ih

/-- Two method lists with the same entries. -/
def SameMethods (a b : Methods) : Prop := ∀ k : Str, a.lookup k = b.lookup k

end Gowrap
