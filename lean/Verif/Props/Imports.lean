import Verif.Model.Template
import Verif.Proofs.Methods
/-!
# Properties of the import block and of the order of methods (C22, C29, C30, C31)
-/

namespace Gowrap.Props

open Gowrap

/-! ## C22: merging -/

/-- C22. Merging two maps of methods keeps every method of both, keeps the outer signature where both
define a name, adds nothing else, has each name once, and the result does not depend on the order in which
the two maps are visited. -/
theorem C22_merge (a b a' b' : Methods) (ha : (a.map (·.1)).Nodup) (hb : (b.map (·.1)).Nodup)
    (pa : a'.Perm a) (pb : b'.Perm b) :
    ∃ r, mergeMethods (some a') (some b') = some r ∧ (r.map (·.1)).Nodup ∧
      (∀ k m, (k, m) ∈ r ↔ (k, m) ∈ a ∨ ((k, m) ∈ b ∧ k ∉ a.map (·.1))) := by
  have ha' : (a'.map (·.1)).Nodup := (pa.map _).nodup_iff.2 ha
  have hb' : (b'.map (·.1)).Nodup := (pb.map _).nodup_iff.2 hb
  refine ⟨_, rfl, nodup_merge a' b', ?_⟩
  intro k m
  have hr : (k, m) ∈ upsertAll (upsertAll [] b') a' ↔
      (upsertAll (upsertAll [] b') a').lookup k = some m :=
    ⟨lookup_of_mem (nodup_merge a' b'), lookup_mem⟩
  rw [hr, lookup_merge ha' hb', lookup_perm ha' pa, lookup_perm hb' pb]
  have h1 : a.lookup k = some m ↔ (k, m) ∈ a := ⟨lookup_mem, lookup_of_mem ha⟩
  have h2 : b.lookup k = some m ↔ (k, m) ∈ b := ⟨lookup_mem, lookup_of_mem hb⟩
  have h3 := lookup_eq_none_iff a k
  cases h : a.lookup k with
  | none =>
    rw [h] at h1 h3
    simp only [reduceCtorEq, false_iff, true_iff] at h1 h3
    simp [h1, h3, h2]
  | some v =>
    rw [h] at h1 h3
    simp only [reduceCtorEq, false_iff] at h3
    simp only [Option.some_or, h1, iff_self_or]
    exact fun hh => absurd hh.2 h3

/-- C22. Merging a map with itself changes nothing. -/
theorem C22_idempotent (a : Methods) (ha : (a.map (·.1)).Nodup) :
    ∃ r, mergeMethods (some a) (some a) = some r ∧ ∀ k m, (k, m) ∈ r ↔ (k, m) ∈ a := by
  obtain ⟨r, h, _, hr⟩ := C22_merge a a a a ha ha (List.Perm.refl _) (List.Perm.refl _)
  refine ⟨r, h, fun k m => ?_⟩
  rw [hr]
  constructor
  · rintro (h | h)
    · exact h
    · exact h.1
  · exact Or.inl

/-- C22. A nil map on either side leaves the outer map as it is. -/
theorem C22_nil (a : Option Methods) : mergeMethods a none = a ∧ mergeMethods none a = none := by
  cases a <;> simp [mergeMethods]

/-- A method without parameters. -/
def emptyMethod (n : Str) : Method := ⟨[], [], n, [], [], false, false⟩

/-- The hypotheses of C22 are met by overlapping maps. -/
example : ([(g!"A", emptyMethod g!"A"), (g!"B", emptyMethod g!"B")].map (·.1)).Nodup ∧
    ([(g!"B", { emptyMethod g!"B" with returnsError := true }), (g!"C", emptyMethod g!"C")].map (·.1)).Nodup ∧
    mergeMethods (some [(g!"A", emptyMethod g!"A"), (g!"B", emptyMethod g!"B")])
      (some [(g!"B", { emptyMethod g!"B" with returnsError := true }), (g!"C", emptyMethod g!"C")]) =
    some [(g!"B", emptyMethod g!"B"), (g!"C", emptyMethod g!"C"), (g!"A", emptyMethod g!"A")] := by
  refine ⟨by decide, by decide, by decide⟩

/-! ## C31: order of methods -/

/-- C31. For every iteration order of the map, the methods a template ranges over are the methods of the
interface, each once, in strictly increasing order of name. -/
theorem C31_sorted (order : Methods → Methods) (ms : Methods) (hk : (ms.map (·.1)).Nodup)
    (ho : (order ms).Perm ms) :
    ((rangeMethods order ms).map (·.1)).Pairwise (· < ·) ∧
    ∀ k m, (k, m) ∈ rangeMethods order ms ↔ (k, m) ∈ ms := by
  have hp : (rangeMethods order ms).Perm ms := (sortBy_perm _ _).trans ho
  refine ⟨?_, fun k m => hp.mem_iff⟩
  have hs := sortBy_sorted (le := fun (a b : Str × Method) => decide (a.1 ≤ b.1))
    (by intro a b c; simpa using List.le_trans) (by intro a b; simpa using List.le_total _ _) (order ms)
  have hn : ((rangeMethods order ms).map (·.1)).Nodup := (hp.map _).nodup_iff.2 hk
  rw [List.pairwise_map]
  rw [List.Nodup, List.pairwise_map] at hn
  refine List.Pairwise.imp₂ ?_ hs hn
  intro a b h1 h2
  simp only [decide_eq_true_eq] at h1
  rcases List.le_iff_lt_or_eq.1 h1 with h | h
  · exact h
  · exact absurd h h2

/-- C31. What the template sees does not depend on the order in which methods were discovered nor on the
iteration order. -/
theorem C31_order_independent (order order' : Methods → Methods) (ms ms' : Methods)
    (hk : (ms.map (·.1)).Nodup) (hp : ms'.Perm ms) (ho : (order ms).Perm ms)
    (ho' : (order' ms').Perm ms') : rangeMethods order ms = rangeMethods order' ms' := by
  have hk' : (ms'.map (·.1)).Nodup := (hp.map _).nodup_iff.2 hk
  obtain ⟨h1, h2⟩ := C31_sorted order ms hk ho
  obtain ⟨h1', h2'⟩ := C31_sorted order' ms' hk' ho'
  rw [List.pairwise_map] at h1 h1'
  refine List.Perm.eq_of_pairwise (le := fun (a b : Str × Method) => a.1 < b.1) ?_ h1 h1' ?_
  · intro a b _ _ h h'
    exact absurd h' (List.lt_asymm h)
  · exact ((sortBy_perm _ _).trans ho).trans (hp.symm.trans
      ((sortBy_perm _ _).trans ho').symm)

example : rangeMethods List.reverse [(g!"Read", emptyMethod g!"Read"), (g!"Close", emptyMethod g!"Close")] =
    [(g!"Close", emptyMethod g!"Close"), (g!"Read", emptyMethod g!"Read")] := by decide

/-! ## C29: the import block -/

/-- The block printed for a list of import lines. -/
def block (lines : List Str) : Str := g!"import (\n" ++ join g!"\n" lines ++ g!")\n"

/-- The characters that Unicode calls white space. -/
def blanks : List Char :=
  ['\t', '\n', '\x0b', '\x0c', '\r', ' ', '\x85', '\xa0', '\u1680', '\u2000', '\u2001', '\u2002', '\u2003', '\u2004', '\u2005', '\u2006', '\u2007',
    '\u2008', '\u2009', '\u200a', '\u2028', '\u2029', '\u202f', '\u205f', '\u3000']

theorem isSpace_true {c : Char} : isSpace c = true ↔ c ∈ blanks := by
  constructor
  · intro h
    have hn : c.toNat ∈ [9, 10, 11, 12, 13, 0x20, 0x85, 0xa0, 0x1680, 0x2000, 0x2001, 0x2002, 0x2003, 0x2004, 0x2005, 0x2006, 0x2007, 0x2008, 0x2009,
        0x200a, 0x2028, 0x2029, 0x202f, 0x205f, 0x3000] := by
      simp [isSpace, UInt32.le_iff_toNat_le, ← UInt32.toNat_inj] at h
      simp only [List.mem_cons, List.not_mem_nil, or_false]
      omega
    rw [← Char.ofNat_toNat c]
    generalize c.toNat = n at hn
    revert n
    decide
  · intro h
    revert c
    decide

theorem isSpace_false {c : Char} : isSpace c = false ↔ c ∉ blanks := by
  rw [← isSpace_true]; simp

/-- Blanks around a text. -/
def Padded (p s : Str) : Prop :=
  ∃ l r : Str, s = l ++ p ++ r ∧ (∀ c ∈ l, c ∈ blanks) ∧ ∀ c ∈ r, c ∈ blanks

/-- `t` is `s` without the blanks around it. -/
def Trims (s t : Str) : Prop :=
  Padded t s ∧ (∀ c ∈ t.head?, c ∉ blanks) ∧ ∀ c ∈ t.getLast?, c ∉ blanks

/-- `q` begins and ends with a quote and differs from `t` at most by a quote at either end. -/
def Quotes (t q : Str) : Prop :=
  q.head? = some '"' ∧ q.getLast? = some '"' ∧
    (q = t ∨ q = '"' :: t ∨ q = t ++ g!"\"" ∨ q = '"' :: t ++ g!"\"")

theorem dropSpace (l q : Str) (hl : ∀ c ∈ l, isSpace c = true) (hq : ∀ c ∈ q.head?, isSpace c = false) :
    (l ++ q).dropWhile isSpace = q := by
  induction l with
  | nil =>
    cases q with
    | nil => rfl
    | cons c q => simp [hq c (by simp)]
  | cons c l ih =>
    simp only [List.cons_append, List.dropWhile_cons, hl c (by simp), if_true]
    exact ih (fun c hc => hl c (by simp [hc]))

theorem dropSpace_split (l : Str) : ∃ a b : Str, l = a ++ b ∧ (∀ c ∈ a, isSpace c = true) ∧
    (∀ c ∈ b.head?, isSpace c = false) ∧ l.dropWhile isSpace = b := by
  induction l with
  | nil => exact ⟨[], [], rfl, by simp, by simp, rfl⟩
  | cons c l ih =>
    by_cases hc : isSpace c = true
    · obtain ⟨a, b, rfl, h1, h2, h3⟩ := ih
      refine ⟨c :: a, b, rfl, ?_, h2, ?_⟩
      · intro d hd
        rcases List.mem_cons.1 hd with rfl | hd
        · exact hc
        · exact h1 d hd
      · simp [hc, h3]
    · refine ⟨[], c :: l, rfl, by simp, ?_, ?_⟩
      · intro d hd
        simp at hd
        subst hd
        simpa using hc
      · simp [hc]

theorem trimSpace_trims (s : Str) : Trims s (trimSpace s) := by
  obtain ⟨a, b, rfl, h1, h2, h3⟩ := dropSpace_split s
  obtain ⟨a', b', hb, h1', h2', h3'⟩ := dropSpace_split b.reverse
  have hbe : b = b'.reverse ++ a'.reverse := by
    have := congrArg List.reverse hb
    simpa using this
  unfold trimSpace
  rw [h3, h3']
  unfold Trims Padded
  simp only [← isSpace_true, Bool.not_eq_true]
  refine ⟨⟨a, a'.reverse, by rw [hbe]; simp, h1, by simpa using h1'⟩, ?_, ?_⟩
  · intro c hc
    refine h2 c ?_
    rw [hbe]
    cases hbr : b'.reverse with
    | nil => simp [hbr] at hc
    | cons x xs => rw [hbr] at hc; simpa using hc
  · intro c hc
    rw [List.getLast?_reverse] at hc
    exact h2' c hc

theorem trims_unique {s t : Str} (h : Trims s t) : trimSpace s = t := by
  unfold Trims Padded at h
  simp only [← isSpace_true, Bool.not_eq_true] at h
  obtain ⟨⟨l, r, rfl, h1, h2⟩, hh, hl⟩ := h
  unfold trimSpace
  by_cases hp : t = []
  · subst hp
    have : (l ++ [] ++ r).dropWhile isSpace = [] := by
      have := dropSpace (l ++ r) [] (by
        intro c hc
        rcases List.mem_append.1 hc with hc | hc
        · exact h1 c hc
        · exact h2 c hc) (by simp)
      simpa using this
    rw [this]
    rfl
  · rw [List.append_assoc, dropSpace l (t ++ r) h1 ?_, List.reverse_append, dropSpace r.reverse t.reverse ?_ ?_]
    · simp
    · simpa using h2
    · intro c hc
      rw [List.head?_reverse] at hc
      exact hl c hc
    · intro c hc
      obtain ⟨a, p', rfl⟩ := List.exists_cons_of_ne_nil hp
      exact hh c (by simpa using hc)

theorem quoteImport_spec {s q : Str} (h : quoteImport s = .ok q) : Quotes (trimSpace s) q := by
  unfold quoteImport at h
  generalize trimSpace s = t at h
  cases hz : t.getLast? with
  | none => simp only [hz] at h; cases h
  | some z =>
    simp only [hz] at h
    have hne : t ≠ [] := by rintro rfl; simp at hz
    obtain ⟨a, l, rfl⟩ := List.exists_cons_of_ne_nil hne
    by_cases h1 : z = '"' <;> by_cases h2 : a = '"'
    · simp [h1, h2] at h
      subst h
      refine ⟨by simp, ?_, Or.inl (by rw [h2])⟩
      rw [← h2, hz, h1, h2]
    · simp [h1, h2] at h
      subst h
      refine ⟨by simp, ?_, Or.inr (Or.inl rfl)⟩
      rw [List.getLast?_cons_cons, hz, h1]
    · simp [h1, h2] at h
      subst h
      exact ⟨by simp, by rw [← List.cons_append]; exact List.getLast?_concat, Or.inr (Or.inr (Or.inl (by rw [h2]; rfl)))⟩
    · simp [h1, h2] at h
      subst h
      exact ⟨by simp, by rw [← List.cons_append, ← List.cons_append]; exact List.getLast?_concat, Or.inr (Or.inr (Or.inr rfl))⟩

theorem mem_insertKey (k x : Str) (l : List Str) : x ∈ insertKey k l ↔ x = k ∨ x ∈ l := by
  unfold insertKey
  split
  · next h =>
    constructor
    · exact Or.inr
    · rintro (rfl | h')
      · simpa using h
      · exact h'
  · simp [or_comm]

theorem nodup_insertKey (k : Str) (l : List Str) (h : l.Nodup) : (insertKey k l).Nodup := by
  unfold insertKey
  split
  · exact h
  · next hn =>
    rw [List.nodup_append]
    refine ⟨h, by simp, ?_⟩
    intro a ha b hb
    simp at hb
    subst hb
    intro hab
    subst hab
    exact hn (by simpa using ha)

theorem foldl_insert (src : List Str) : ∀ set : List Str, set.Nodup →
    (src.foldl (fun set i => insertKey (trimSpace i) set) set).Nodup ∧
    ∀ x, x ∈ src.foldl (fun set i => insertKey (trimSpace i) set) set ↔
      x ∈ set ∨ ∃ i ∈ src, x = trimSpace i := by
  induction src with
  | nil => intro set h; simp [h]
  | cons i src ih =>
    intro set h
    obtain ⟨h1, h2⟩ := ih (insertKey (trimSpace i) set) (nodup_insertKey _ _ h)
    refine ⟨h1, fun x => ?_⟩
    simp only [List.foldl_cons, h2, mem_insertKey, List.mem_cons, exists_eq_or_imp]
    grind

theorem addTemplateImports_ok (imports : List Str) : ∀ set set' : List Str, set.Nodup →
    addTemplateImports set imports = .ok set' →
    set'.Nodup ∧ (∀ i ∈ imports, i ≠ [] → ∃ q, quoteImport i = .ok q) ∧
    ∀ x, x ∈ set' ↔ x ∈ set ∨ ∃ i ∈ imports, i ≠ [] ∧ quoteImport i = .ok x := by
  induction imports with
  | nil => intro set set' h he; cases he; simp [h]
  | cons i rest ih =>
    intro set set' h he
    unfold addTemplateImports at he
    by_cases hi : i = []
    · subst hi
      simp only [List.length_nil, if_true] at he
      obtain ⟨h1, h2, h3⟩ := ih _ _ h he
      refine ⟨h1, ?_, ?_⟩
      · intro j hj hne
        rcases List.mem_cons.1 hj with rfl | hj
        · exact absurd rfl hne
        · exact h2 j hj hne
      · intro x; rw [h3]; simp
    · have hl : ¬ i.length = 0 := by simpa using hi
      rw [if_neg hl, Res.bind_eq_ok] at he
      obtain ⟨q, hq, he⟩ := he
      obtain ⟨h1, h2, h3⟩ := ih _ _ (nodup_insertKey _ _ h) he
      refine ⟨h1, ?_, ?_⟩
      · intro j hj hne
        rcases List.mem_cons.1 hj with rfl | hj
        · exact ⟨q, hq⟩
        · exact h2 j hj hne
      · intro x
        rw [h3, mem_insertKey]
        constructor
        · rintro ((rfl | h) | ⟨j, hj, h⟩)
          · exact Or.inr ⟨i, by simp, hi, hq⟩
          · exact Or.inl h
          · exact Or.inr ⟨j, by simp [hj], h⟩
        · rintro (h | ⟨j, hj, hne, h⟩)
          · exact Or.inl (Or.inr h)
          · rcases List.mem_cons.1 hj with rfl | hj
            · rw [hq] at h; cases h; exact Or.inl (Or.inl rfl)
            · exact Or.inr ⟨j, hj, hne, h⟩

theorem sortStrings_perm (l : List Str) : (sortStrings l).Perm l := sortBy_perm _ _

theorem sortStrings_lt (l : List Str) (h : l.Nodup) : (sortStrings l).Pairwise (· < ·) := by
  have hs := sortBy_sorted (le := fun (a b : Str) => decide (a ≤ b))
    (by intro a b c; simpa using List.le_trans) (by intro a b; simpa using List.le_total _ _) l
  have hn : (sortStrings l).Nodup := (sortStrings_perm l).nodup_iff.2 h
  refine List.Pairwise.imp₂ ?_ hs hn
  intro a b h1 h2
  simp only [decide_eq_true_eq] at h1
  rcases List.le_iff_lt_or_eq.1 h1 with h | h
  · exact h
  · exact absurd h h2

/-- A strictly sorted list is determined by its members. -/
theorem sorted_unique {l l' : List Str} (h : l.Pairwise (· < ·)) (h' : l'.Pairwise (· < ·))
    (hm : ∀ x, x ∈ l ↔ x ∈ l') : l = l' := by
  have hn : ∀ {m : List Str}, m.Pairwise (· < ·) → m.Nodup := by
    intro m hm
    refine hm.imp ?_
    intro a b hab he
    subst he
    exact List.lt_irrefl _ hab
  refine List.Perm.eq_of_pairwise (le := (· < ·)) ?_ h h' ?_
  · intro a b _ _ hab hba
    exact absurd hba (List.lt_asymm hab)
  · exact (List.perm_ext_iff_of_nodup (hn h) (hn h')).2 hm

theorem importBlock_lines (order : List Str → List Str) (ho : ∀ l, (order l).Perm l) (source imports : List Str)
    (text : Str) (h : importBlock order source imports = .ok text) :
    ∃ lines : List Str, text = block lines ∧ lines.Pairwise (· < ·) ∧
      (∀ i ∈ source, trimSpace i ∈ lines) ∧
      (∀ i ∈ imports, i ≠ [] → ∃ q ∈ lines, quoteImport i = .ok q) ∧
      (∀ l ∈ lines, (∃ i ∈ source, l = trimSpace i) ∨ ∃ i ∈ imports, i ≠ [] ∧ quoteImport i = .ok l) := by
  unfold importBlock allImports at h
  rw [Res.bind_eq_ok] at h
  obtain ⟨set, hs, h⟩ := h
  cases h
  obtain ⟨f1, f2⟩ := foldl_insert source [] (by simp)
  obtain ⟨g1, g2, g3⟩ := addTemplateImports_ok imports _ _ f1 hs
  have hm : ∀ x, x ∈ sortStrings (order set) ↔ x ∈ set := fun x =>
    ((sortStrings_perm _).trans (ho set)).mem_iff
  refine ⟨sortStrings (order set), rfl, sortStrings_lt _ ((ho set).nodup_iff.2 g1), ?_, ?_, ?_⟩
  · intro i hi
    rw [hm, g3, f2]
    exact Or.inl (Or.inr ⟨i, hi, rfl⟩)
  · intro i hi hne
    obtain ⟨q, hq⟩ := g2 i hi hne
    exact ⟨q, by rw [hm, g3]; exact Or.inr ⟨i, hi, hne, hq⟩, hq⟩
  · intro l hl
    rw [hm, g3, f2] at hl
    rcases hl with (h | h) | h
    · simp at h
    · exact Or.inl h
    · exact Or.inr h

/-- C29. For every iteration order of the map, the import block lists, in strictly increasing order (so
each once), exactly the source imports without surrounding blanks and the non-empty template imports with
their quotes. -/
theorem C29_block (order : List Str → List Str) (ho : ∀ l, (order l).Perm l) (source imports : List Str)
    (text : Str) (h : importBlock order source imports = .ok text) :
    ∃ lines : List Str, text = block lines ∧ lines.Pairwise (· < ·) ∧
      (∀ i ∈ source, ∀ t, Trims i t → t ∈ lines) ∧
      (∀ i ∈ imports, i ≠ [] → ∀ t, Trims i t → ∃ q ∈ lines, Quotes t q) ∧
      (∀ l ∈ lines, (∃ i ∈ source, Trims i l) ∨ ∃ i ∈ imports, i ≠ [] ∧ ∃ t, Trims i t ∧ Quotes t l) := by
  obtain ⟨lines, h1, h2, h3, h4, h5⟩ := importBlock_lines order ho source imports text h
  refine ⟨lines, h1, h2, ?_, ?_, ?_⟩
  · intro i hi t ht
    rw [← trims_unique ht]
    exact h3 i hi
  · intro i hi hne t ht
    obtain ⟨q, hq, hqi⟩ := h4 i hi hne
    rw [← trims_unique ht]
    exact ⟨q, hq, quoteImport_spec hqi⟩
  · intro l hl
    rcases h5 l hl with ⟨i, hi, rfl⟩ | ⟨i, hi, hne, hq⟩
    · exact Or.inl ⟨i, hi, trimSpace_trims i⟩
    · exact Or.inr ⟨i, hi, hne, _, trimSpace_trims i, quoteImport_spec hq⟩

/-- C29. The block depends only on the sets of imports up to surrounding blanks: order, repetition, blanks
and the iteration order of the map do not matter. -/
theorem C29_set_only (order order' : List Str → List Str) (ho : ∀ l, (order l).Perm l)
    (ho' : ∀ l, (order' l).Perm l) (source source' imports imports' : List Str)
    (hs : ∀ x, (∃ i ∈ source, Trims i x) ↔ ∃ i ∈ source', Trims i x)
    (hi : ∀ x, (∃ i ∈ imports, i ≠ [] ∧ Trims i x) ↔ ∃ i ∈ imports', i ≠ [] ∧ Trims i x)
    (text text' : Str) (h : importBlock order source imports = .ok text)
    (h' : importBlock order' source' imports' = .ok text') : text = text' := by
  obtain ⟨l, rfl, h1, h2, h3, h4⟩ := importBlock_lines order ho source imports text h
  obtain ⟨l', rfl, h1', h2', h3', h4'⟩ := importBlock_lines order' ho' source' imports' text' h'
  have hq : ∀ i j : Str, trimSpace i = trimSpace j → quoteImport i = quoteImport j := by
    intro i j hij
    unfold quoteImport
    rw [hij]
  have : l = l' := by
    refine sorted_unique h1 h1' fun x => ⟨fun hx => ?_, fun hx => ?_⟩
    · rcases h4 x hx with ⟨i, him, rfl⟩ | ⟨i, him, hne, hqi⟩
      · obtain ⟨j, hj, e⟩ := (hs _).1 ⟨i, him, trimSpace_trims i⟩
        rw [← trims_unique e]
        exact h2' j hj
      · obtain ⟨j, hj, hne', e⟩ := (hi _).1 ⟨i, him, hne, trimSpace_trims i⟩
        obtain ⟨q, hql, hqj⟩ := h3' j hj hne'
        rw [hq j i (trims_unique e), hqi] at hqj
        cases hqj
        exact hql
    · rcases h4' x hx with ⟨i, him, rfl⟩ | ⟨i, him, hne, hqi⟩
      · obtain ⟨j, hj, e⟩ := (hs _).2 ⟨i, him, trimSpace_trims i⟩
        rw [← trims_unique e]
        exact h2 j hj
      · obtain ⟨j, hj, hne', e⟩ := (hi _).2 ⟨i, him, hne, trimSpace_trims i⟩
        obtain ⟨q, hql, hqj⟩ := h3 j hj hne'
        rw [hq j i (trims_unique e), hqi] at hqj
        cases hqj
        exact hql
  rw [this]

example : importBlock List.reverse [g!" \"io\"", g!"foo \"a/b\"", g!"\"io\" "] [g!"context", g!"", g!"\"io\""] =
    .ok g!"import (\n\"context\"\n\"io\"\nfoo \"a/b\")\n" := by decide

/-! ## C30: quoting -/

/-- A text without blanks or quotes at its ends. -/
def CleanPath (p : Str) : Prop :=
  p ≠ [] ∧ (∀ c ∈ p.head?, c ∉ blanks ∧ c ≠ '"') ∧ (∀ c ∈ p.getLast?, c ∉ blanks ∧ c ≠ '"')

/-- C30 as stated: a path with or without quotes is emitted quoted, an aliased import unchanged, and no
argument makes Import panic. -/
def C30_full : Prop :=
  (∀ p s, CleanPath p → Padded p s → quoteImport s = .ok ('"' :: p ++ g!"\"")) ∧
  (∀ p s, CleanPath p → Padded ('"' :: p ++ g!"\"") s → quoteImport s = .ok ('"' :: p ++ g!"\"")) ∧
  (∀ n p, CleanPath n → CleanPath p →
    quoteImport (n ++ g!" \"" ++ p ++ g!"\"") = .ok (n ++ g!" \"" ++ p ++ g!"\"")) ∧
  (∀ order source imports, (∀ l, (order l).Perm l) → importBlock order source imports ≠ .panic)

/-- C30 fails: `Import("foo \"bar\"")` emits the ill-formed `"foo "bar"`. -/
theorem C30_alias_broken : quoteImport g!"foo \"bar\"" = .ok g!"\"foo \"bar\"" := by decide

/-- C30 fails: `Import(" ")` panics. -/
theorem C30_blank_panics : importBlock id [] [g!" "] = .panic := by decide

theorem C30_full_false : ¬ C30_full := by
  intro h
  exact h.2.2.2 id [] [g!" "] (fun _ => List.Perm.refl _) C30_blank_panics

theorem trimSpace_padded (p s : Str) (hh : ∀ c ∈ p.head?, c ∉ blanks)
    (hl : ∀ c ∈ p.getLast?, c ∉ blanks) (h : Padded p s) : trimSpace s = p :=
  trims_unique ⟨h, hh, hl⟩

/-- C30 (partial). Missing: aliased imports (they are mangled, `C30_alias_broken`) and blank arguments
(they panic, `C30_blank_panics`).  Proved: a path, with or without its quotes and with any blanks around it,
is emitted with exactly one pair of quotes; if no argument is blank, Import does not panic. -/
theorem C30_quoting_partial :
    (∀ p s, CleanPath p → Padded p s → quoteImport s = .ok ('"' :: p ++ g!"\"")) ∧
    (∀ p s, CleanPath p → Padded ('"' :: p ++ g!"\"") s → quoteImport s = .ok ('"' :: p ++ g!"\"")) ∧
    (∀ order source imports, (∀ i ∈ imports, i ≠ [] → ∃ c ∈ i, c ∉ blanks) →
      ∃ text, importBlock order source imports = .ok text) := by
  refine ⟨?_, ?_, ?_⟩
  · intro p s hp hs
    obtain ⟨hne, hh, hl⟩ := hp
    unfold quoteImport
    rw [trimSpace_padded p s (fun c hc => (hh c hc).1) (fun c hc => (hl c hc).1) hs]
    obtain ⟨c, p', rfl⟩ := List.exists_cons_of_ne_nil hne
    obtain ⟨z, hz⟩ : ∃ z, (c :: p').getLast? = some z := ⟨_, List.getLast?_eq_some_getLast (by simp)⟩
    have h1 := (hh c (by simp)).2
    have h2 := (hl z (by simp [hz])).2
    simp [hz, h1, h2]
  · intro p s hp hs
    unfold quoteImport
    rw [trimSpace_padded _ s (by intro c hc; simp at hc; subst hc; decide)
      (by intro c hc; rw [List.getLast?_concat] at hc; simp at hc; subst hc; decide) hs]
    have hz : ('"' :: p ++ g!"\"").getLast? = some '"' := List.getLast?_concat
    simp only [hz]
    simp
  · intro order source imports h
    have key : ∀ (imports : List Str), (∀ i ∈ imports, i ≠ [] → ∃ c ∈ i, isSpace c = false) →
        ∀ set, ∃ set', addTemplateImports set imports = .ok set' := by
      intro imports
      induction imports with
      | nil => intro _ set; exact ⟨set, rfl⟩
      | cons i rest ih =>
        intro h set
        have ih' := ih (fun j hj => h j (by simp [hj]))
        unfold addTemplateImports
        by_cases hi : i = []
        · subst hi; simpa using ih' set
        · rw [if_neg (by simpa using hi)]
          obtain ⟨c, hc, hcs⟩ := h i (by simp) hi
          have ht : trimSpace i ≠ [] := by
            unfold trimSpace
            intro he
            have : (List.dropWhile isSpace (List.dropWhile isSpace i).reverse) = [] := by
              simpa using he
            have hall : ∀ (l : Str), List.dropWhile isSpace l = [] → ∀ c ∈ l, isSpace c = true := by
              intro l
              induction l with
              | nil => simp
              | cons a l ih =>
                intro hd c hc
                simp only [List.dropWhile_cons] at hd
                split at hd
                · rcases List.mem_cons.1 hc with rfl | hc
                  · assumption
                  · exact ih hd c hc
                · simp at hd
            have h2 := hall _ this
            have h3 : List.dropWhile isSpace i = [] := by
              cases hdi : List.dropWhile isSpace i with
              | nil => rfl
              | cons a l =>
                have ha : isSpace a = true := h2 a (by simp [hdi])
                have := List.head?_dropWhile_not isSpace i
                rw [hdi] at this
                simp [ha] at this
            have := hall _ h3 c hc
            rw [hcs] at this
            cases this
          obtain ⟨z, hz⟩ : ∃ z, (trimSpace i).getLast? = some z := ⟨_, List.getLast?_eq_some_getLast ht⟩
          obtain ⟨q, hq⟩ : ∃ q, quoteImport i = .ok q := by
            unfold quoteImport
            simp only [hz]
            obtain ⟨a, l, hal⟩ := List.exists_cons_of_ne_nil ht
            rw [hal]
            split
            · next heq => split at heq <;> simp at heq
            · exact ⟨_, rfl⟩
          rw [hq]
          simpa using ih' _
    obtain ⟨set', hs⟩ := key imports (fun i hi hne => (h i hi hne).imp fun c hc => ⟨hc.1, isSpace_false.2 hc.2⟩) (source.foldl (fun set i => insertKey (trimSpace i) set) [])
    unfold importBlock allImports
    rw [hs]
    exact ⟨_, rfl⟩

/-- The hypotheses of C30 are met. -/
example : CleanPath g!"net/http" ∧ Padded g!"net/http" g!" net/http\n" ∧
    quoteImport g!" net/http\n" = .ok g!"\"net/http\"" := by
  refine ⟨⟨by decide, by decide, by decide⟩, ⟨g!" ", g!"\n", rfl, by decide, by decide⟩, by decide⟩

end Gowrap.Props
