import Verif.Spec.MethodSet
import Verif.Proofs.Methods
/-!
# Basic facts about the discovery functions
-/

namespace Gowrap

open Gowrap.Spec

theorem mem_typeSpecs (f : File) (ts : TypeSpec) : ts ∈ typeSpecs f ↔ DeclaredIn f ts := by
  unfold typeSpecs DeclaredIn
  rw [List.mem_flatMap]
  constructor
  · rintro ⟨d, hd, h⟩
    cases d with
    | types specs => exact ⟨specs, hd, h⟩
    | other => simp at h
  · rintro ⟨specs, hd, h⟩
    exact ⟨_, hd, h⟩

/-- Type declarations with their files, in iteration order. -/
def allSpecs (files : List File) : List (TypeSpec × File) :=
  files.flatMap fun f => (typeSpecs f).map fun ts => (ts, f)

theorem mem_allSpecs (files : List File) (ts : TypeSpec) (f : File) :
    (ts, f) ∈ allSpecs files ↔ f ∈ files ∧ DeclaredIn f ts := by
  simp only [allSpecs, List.mem_flatMap, List.mem_map, mem_typeSpecs, Prod.mk.injEq]
  constructor
  · rintro ⟨g, hg, t, ht, rfl, rfl⟩
    exact ⟨hg, ht⟩
  · rintro ⟨hf, hd⟩
    exact ⟨f, hf, ts, hd, rfl, rfl⟩

/-- One step of `iterateFiles`. -/
def Found.add (name : Str) (st : Found) (x : TypeSpec × File) : Found :=
  { types := st.types ++ [x.1], selected := if x.1.name = name then some x else st.selected }

theorem iterateSpecs_eq (name : Str) (f : File) (specs : List TypeSpec) : ∀ st,
    iterateSpecs name f st specs = (specs.map fun ts => (ts, f)).foldl (Found.add name) st := by
  induction specs with
  | nil => intro st; rfl
  | cons ts specs ih => intro st; rw [iterateSpecs, ih]; rfl

theorem iterateFiles_foldl (name : Str) (files : List File) : ∀ st,
    files.foldl (fun st f => iterateSpecs name f st (typeSpecs f)) st =
      (allSpecs files).foldl (Found.add name) st := by
  induction files with
  | nil => intro st; rfl
  | cons f files ih =>
    intro st
    have : allSpecs (f :: files) = (typeSpecs f).map (fun ts => (ts, f)) ++ allSpecs files := by
      simp [allSpecs]
    rw [List.foldl_cons, ih, iterateSpecs_eq, this, List.foldl_append]

theorem foldl_add (name : Str) (l : List (TypeSpec × File)) : ∀ st,
    (l.foldl (Found.add name) st).types = st.types ++ l.map (·.1) ∧
    (l.foldl (Found.add name) st).selected =
      ((l.filter (fun x => x.1.name = name)).getLast?).or st.selected := by
  induction l with
  | nil => intro st; simp
  | cons x l ih =>
    intro st
    obtain ⟨h1, h2⟩ := ih (Found.add name st x)
    rw [List.foldl_cons, h1, h2]
    refine ⟨by simp [Found.add], ?_⟩
    by_cases hx : x.1.name = name
    · simp only [Found.add, hx, if_true, List.filter_cons, decide_true]
      rw [List.getLast?_cons]
      cases (List.filter (fun x => decide (x.1.name = name)) l).getLast? <;> simp
    · simp [Found.add, hx, List.filter_cons]

theorem iterateFiles_types (name : Str) (files : List File) :
    (iterateFiles name files).types = (allSpecs files).map (·.1) := by
  unfold iterateFiles
  rw [iterateFiles_foldl, (foldl_add name _ _).1]
  rfl

theorem iterateFiles_selected (name : Str) (files : List File) :
    (iterateFiles name files).selected = ((allSpecs files).filter (fun x => x.1.name = name)).getLast? := by
  unfold iterateFiles
  rw [iterateFiles_foldl, (foldl_add name _ _).2]
  simp

theorem iterateFiles_some {name : Str} {files : List File} {ts : TypeSpec} {f : File}
    (h : (iterateFiles name files).selected = some (ts, f)) :
    f ∈ files ∧ DeclaredIn f ts ∧ ts.name = name := by
  rw [iterateFiles_selected] at h
  have := List.mem_of_getLast? h
  rw [List.mem_filter, mem_allSpecs] at this
  simpa [and_assoc] using this

theorem iterateFiles_none {name : Str} {files : List File}
    (h : (iterateFiles name files).selected = none) :
    ∀ f ∈ files, ∀ ts, DeclaredIn f ts → ts.name ≠ name := by
  rw [iterateFiles_selected, List.getLast?_eq_none_iff, List.filter_eq_nil_iff] at h
  intro f hf ts hd
  have := h (ts, f) ((mem_allSpecs _ _ _).2 ⟨hf, hd⟩)
  simpa using this

theorem iterateFiles_isSome {name : Str} {files : List File} {f : File} {ts : TypeSpec} (hf : f ∈ files)
    (hd : DeclaredIn f ts) (hn : ts.name = name) : ∃ x, (iterateFiles name files).selected = some x := by
  cases h : (iterateFiles name files).selected with
  | none => exact absurd hn (iterateFiles_none h f hf ts hd)
  | some x => exact ⟨x, rfl⟩

theorem mem_types {name : Str} {files : List File} (ts : TypeSpec) :
    ts ∈ (iterateFiles name files).types ↔ ∃ f ∈ files, DeclaredIn f ts := by
  rw [iterateFiles_types, List.mem_map]
  constructor
  · rintro ⟨⟨t, f⟩, h, rfl⟩
    exact ⟨f, (mem_allSpecs _ _ _).1 h⟩
  · rintro ⟨f, h⟩
    exact ⟨(ts, f), (mem_allSpecs _ _ _).2 h, rfl⟩

/-! ### Import literals -/

theorem trimQuotes_literal {path : Str} (h : '"' ∉ path) : trimQuotes ('"' :: path ++ ['"']) = path := by
  have drop : ∀ q : Str, '"' ∉ q → q.dropWhile (· = '"') = q := by
    intro q hq
    cases q with
    | nil => rfl
    | cons c q =>
      have : c ≠ '"' := fun e => hq (by simp [e])
      simp [this]
  unfold trimQuotes
  by_cases hp : path = []
  · subst hp; decide
  · obtain ⟨c, r, rfl⟩ := List.exists_cons_of_ne_nil hp
    have hc : c ≠ '"' := fun e => h (by simp [e])
    have h1 : ('"' :: (c :: r) ++ ['"']).dropWhile (· = '"') = (c :: r) ++ ['"'] := by
      simp [hc]
    rw [h1, List.reverse_append]
    have h2 : (['"'].reverse ++ (c :: r).reverse).dropWhile (· = '"') = (c :: r).reverse := by
      simp only [List.reverse_cons, List.reverse_nil, List.nil_append, List.cons_append,
        List.dropWhile_cons, decide_true, if_true]
      have := drop (c :: r).reverse (by rw [List.mem_reverse]; exact h)
      simpa using this
    rw [h2, List.reverse_reverse]

theorem unquote_literal {path : Str} :
    unquote ('"' :: path ++ ['"']) = .ok path := by
  simp [unquote]

theorem lastSegment_none {n : Str} (h : '/' ∉ n) : lastSegment n = n := by
  unfold lastSegment
  have := List.takeWhile_append_of_pos (p := (· ≠ '/')) (l₁ := n.reverse) (l₂ := []) (by
    intro x hx
    simp at hx
    simp
    rintro rfl
    exact h hx)
  simp only [List.append_nil, List.takeWhile_nil] at this
  rw [this, List.reverse_reverse]

theorem lastSegment_slash {dir n : Str} (h : '/' ∉ n) : lastSegment (dir ++ '/' :: n) = n := by
  unfold lastSegment
  rw [List.reverse_append, List.reverse_cons, List.append_assoc, List.takeWhile_append_of_pos]
  · simp
  · intro x hx
    simp at hx
    simp
    rintro rfl
    exact h hx

theorem findSourcePackage_spec (a : Str) (imports : List ImportSpec) :
    findSourcePackage a imports = [] ∨ ∃ imp ∈ imports, findSourcePackage a imports = trimQuotes imp.path ∧
      (imp.name = some a ∨ imp.name = none ∧ lastSegment (trimQuotes imp.path) = a) := by
  induction imports with
  | nil => exact Or.inl rfl
  | cons imp rest ih =>
    have lift : findSourcePackage a rest = [] ∨ (∃ imp ∈ rest, findSourcePackage a rest = trimQuotes imp.path ∧
        (imp.name = some a ∨ imp.name = none ∧ lastSegment (trimQuotes imp.path) = a)) →
        findSourcePackage a rest = [] ∨ ∃ i ∈ imp :: rest, findSourcePackage a rest = trimQuotes i.path ∧
        (i.name = some a ∨ i.name = none ∧ lastSegment (trimQuotes i.path) = a) := by
      rintro (h | ⟨i, hi, h⟩)
      · exact Or.inl h
      · exact Or.inr ⟨i, by simp [hi], h⟩
    unfold findSourcePackage
    cases hn : imp.name with
    | some n =>
      simp only
      split
      · next e => exact Or.inr ⟨imp, by simp, rfl, Or.inl (by rw [hn, e])⟩
      · exact lift ih
    | none =>
      simp only
      split
      · next e => exact Or.inr ⟨imp, by simp, rfl, Or.inr ⟨hn, e.symm⟩⟩
      · exact lift ih

/-! ### What the schedule may choose -/

theorem findImport_spec {w : World} {a : Str} {imports : List ImportSpec} {pkgImports : List (Str × PkgId)}
    {path : Str} (h : findImportPathForName w a imports pkgImports = .ok path) :
    (∃ imp ∈ imports, imp.name = some a ∧ unquote imp.path = .ok path) ∨
    ∃ q, (path, q) ∈ pkgImports ∧ (w.pkg q).name = a := by
  unfold findImportPathForName at h
  split at h
  · next i hi =>
    exact Or.inl ⟨i, List.mem_of_find?_eq_some hi, by simpa using List.find?_some hi, h⟩
  · split at h
    · next p hp =>
      cases h
      exact Or.inr ⟨p.2, List.mem_of_find?_eq_some hp, by simpa using List.find?_some hp⟩
    · cases h

theorem mem_upsert {n : Str} {m : Method} {ms : Methods} {x : Str × Method} (h : x ∈ upsert n m ms) :
    x = (n, m) ∨ x ∈ ms := by
  induction ms with
  | nil => simpa [upsert] using h
  | cons y ms ih =>
    obtain ⟨a, v⟩ := y
    unfold upsert at h
    split at h
    · next e =>
      subst e
      rcases List.mem_cons.1 h with h | h
      · exact Or.inl h
      · exact Or.inr (by simp [h])
    · rcases List.mem_cons.1 h with h | h
      · exact Or.inr (by simp [h])
      · rcases ih h with h | h
        · exact Or.inl h
        · exact Or.inr (by simp [h])

theorem mem_upsertAll {src : Methods} : ∀ {r : Methods} {x : Str × Method}, x ∈ upsertAll r src →
    x ∈ src ∨ x ∈ r := by
  induction src with
  | nil => intro r x h; exact Or.inr h
  | cons y src ih =>
    intro r x h
    have h : x ∈ upsertAll (upsert y.1 y.2 r) src := h
    rcases ih h with h | h
    · exact Or.inl (by simp [h])
    · rcases mem_upsert h with h | h
      · exact Or.inl (by simp [h])
      · exact Or.inr h

theorem mem_merge {a : Methods} {b : Option Methods} {x : Str × Method}
    (h : x ∈ (mergeMethods (some a) b).getD []) : x ∈ a ∨ x ∈ b.getD [] := by
  cases b with
  | none => exact Or.inl h
  | some b =>
    simp only [mergeMethods, Option.getD_some] at h
    rcases mem_upsertAll h with h | h
    · exact Or.inl h
    · rcases mem_upsertAll h with h | h
      · exact Or.inr h
      · simp at h

theorem key_upsert {n k : Str} {m : Method} {ms : Methods} :
    k ∈ (upsert n m ms).map (·.1) ↔ k = n ∨ k ∈ ms.map (·.1) := by
  rw [keys_upsert]
  split
  · next h =>
    constructor
    · exact Or.inr
    · rintro (rfl | h')
      · exact h
      · exact h'
  · rw [List.mem_append]; simp [or_comm]

theorem key_upsertAll {k : Str} {src : Methods} : ∀ {r : Methods},
    k ∈ (upsertAll r src).map (·.1) ↔ k ∈ src.map (·.1) ∨ k ∈ r.map (·.1) := by
  induction src with
  | nil => intro r; simp [upsertAll]
  | cons y src ih =>
    intro r
    have : upsertAll r (y :: src) = upsertAll (upsert y.1 y.2 r) src := rfl
    rw [this, ih, key_upsert, List.map_cons, List.mem_cons]
    grind

theorem key_merge {a : Methods} {b : Option Methods} {k : Str} :
    k ∈ ((mergeMethods (some a) b).getD []).map (·.1) ↔ k ∈ a.map (·.1) ∨ k ∈ (b.getD []).map (·.1) := by
  cases b with
  | none => simp [mergeMethods]
  | some b =>
    simp only [mergeMethods, Option.getD_some]
    rw [key_upsertAll, key_upsertAll]
    simp

end Gowrap
