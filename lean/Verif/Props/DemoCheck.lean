import Verif.Props.DemoWorld
import Verif.Proofs.Discover
import Verif.Proofs.Methods
/-! Checks that decide the assumptions on package graphs for concrete graphs; used only in examples and
counterexamples. -/

namespace Gowrap.Demo

open Gowrap Gowrap.Spec

def inner (lit : Str) : Str := lit.tail.dropLast

def checkPlain (pkgs : List Pkg) : Bool := pkgs.all fun x =>
  decide (x.imports.map (·.1)).Nodup && x.files.all fun f => f.imports.all fun imp =>
    decide (imp.path = '"' :: inner imp.path ++ ['"']) && decide (inner imp.path ≠ []) &&
      decide ('"' ∉ inner imp.path)

def checkLoads (pkgs : List Pkg) : Bool :=
  (pkgs.all fun x => decide (x.path ≠ []) && decide ('/' ∉ x.name)) &&
  pkgs.all fun x => x.files.all fun f => f.imports.all fun imp =>
    match pkgs.findIdx? (fun y => y.path = inner imp.path) with
    | none => true
    | some q => decide ((inner imp.path, q) ∈ x.imports) &&
        (imp.name.isSome || match pkgs[q]? with
          | some y => decide (inner imp.path = y.name) ||
              decide (inner imp.path = (inner imp.path).take ((inner imp.path).length - y.name.length - 1) ++ '/' :: y.name)
          | none => true)

def checkUnique (pkgs : List Pkg) : Bool :=
  pkgs.all fun x => decide ((x.files.flatMap typeSpecs).map (·.name)).Nodup

theorem world_imports {pkgs : List Pkg} {p : PkgId} {e : Str × PkgId} (h : e ∈ ((world pkgs).pkg p).imports) :
    ∃ x ∈ pkgs, ((world pkgs).pkg p).imports = x.imports := by
  simp only [world] at h ⊢
  cases hx : pkgs[p]? with
  | none => simp [hx] at h
  | some x => exact ⟨x, List.mem_of_getElem? hx, rfl⟩

theorem mem_keys_unique {l : List (Str × PkgId)} (h : (l.map (·.1)).Nodup) {k : Str} {q q' : PkgId}
    (h1 : (k, q) ∈ l) (h2 : (k, q') ∈ l) : q = q' := by
  have a := lookup_of_mem h h1
  have b := lookup_of_mem h h2
  rw [a] at b
  exact Option.some.inj b

theorem plain_of_check {pkgs : List Pkg} (h : checkPlain pkgs = true) : PlainImports (world pkgs) where
  literal := by
    intro p f imp hf hi
    rw [fileOf_world] at hf
    obtain ⟨x, hx, hfx⟩ := hf
    have hx := List.mem_of_getElem? hx
    simp only [checkPlain, List.all_eq_true, Bool.and_eq_true, decide_eq_true_eq] at h
    obtain ⟨⟨h1, h2⟩, h3⟩ := (h x hx).2 f hfx imp hi
    exact ⟨inner imp.path, h1, h2, h3⟩
  unique := by
    intro p path q q' h1 h2
    obtain ⟨x, hx, he⟩ := world_imports h1
    rw [he] at h1 h2
    simp only [checkPlain, List.all_eq_true, Bool.and_eq_true, decide_eq_true_eq] at h
    exact mem_keys_unique (h x hx).1 h1 h2

theorem inner_lit {path : Str} : inner ('"' :: path ++ ['"']) = path := by simp [inner]

theorem loads_of_check {pkgs : List Pkg} (h : checkLoads pkgs = true) : LoadsImports (world pkgs) := by
  simp only [checkLoads, List.all_eq_true, Bool.and_eq_true, decide_eq_true_eq] at h
  obtain ⟨hpath, himp⟩ := h
  have key : ∀ p f imp path q, FileOf (world pkgs) p f → imp ∈ f.imports → imp.path = '"' :: path ++ ['"'] →
      (world pkgs).load path = .ok q → (path, q) ∈ ((world pkgs).pkg p).imports ∧
        (imp.name = none → ((world pkgs).pkg q).name = path ∨
          ∃ dir, path = dir ++ '/' :: ((world pkgs).pkg q).name) := by
    intro p f imp path q hf hi hp hq
    rw [fileOf_world] at hf
    obtain ⟨x, hx, hfx⟩ := hf
    have hc := himp x (List.mem_of_getElem? hx) f hfx imp hi
    rw [hp, inner_lit] at hc
    simp only [world] at hq
    split at hq
    · next q' hq' =>
      cases hq
      simp only [hq', Bool.and_eq_true, decide_eq_true_eq, Bool.or_eq_true] at hc
      simp only [world, hx]
      refine ⟨hc.1, fun hn => ?_⟩
      rcases hc.2 with h | h
      · rw [hn] at h; cases h
      · have hlt : q < pkgs.length := by
          obtain ⟨h, _⟩ := List.findIdx?_eq_some_iff_getElem.1 hq'
          exact h
        simp only [List.getElem?_eq_getElem hlt, Bool.or_eq_true, decide_eq_true_eq] at h ⊢
        rcases h with h | h
        · exact Or.inl h.symm
        · exact Or.inr ⟨_, h⟩
    · cases hq
  refine ⟨?_, fun p f imp path q h1 h2 h3 h4 => (key p f imp path q h1 h2 h3 h4).1,
    fun p f imp path q h1 h2 h3 h4 => (key p f imp path q h1 h2 h3 h4).2, ?_⟩
  · intro q hq
    simp only [world] at hq
    split at hq
    · next q' hq' =>
      obtain ⟨hlt, h, _⟩ := List.findIdx?_eq_some_iff_getElem.1 hq'
      exact (hpath _ (List.getElem_mem hlt)).1 (by simpa using h)
    · cases hq
  · intro q
    simp only [world]
    cases hx : pkgs[q]? with
    | none => simp
    | some x => exact (hpath x (List.mem_of_getElem? hx)).2

theorem map_nodup_inj {l : List TypeSpec} (h : (l.map (·.name)).Nodup) {a b : TypeSpec} (ha : a ∈ l) (hb : b ∈ l)
    (hn : a.name = b.name) : a = b := by
  induction l with
  | nil => cases ha
  | cons x l ih =>
    simp only [List.map_cons, List.nodup_cons] at h
    rcases List.mem_cons.1 ha with rfl | ha1 <;> rcases List.mem_cons.1 hb with rfl | hb1
    · rfl
    · exact absurd (List.mem_map.2 ⟨b, hb1, hn.symm⟩) h.1
    · exact absurd (List.mem_map.2 ⟨a, ha1, hn⟩) h.1
    · exact ih h.2 ha1 hb1

theorem files_nodup_inj {l : List File} (h : ((l.flatMap typeSpecs).map (·.name)).Nodup) {f f' : File}
    (hf : f ∈ l) (hf' : f' ∈ l) {a b : TypeSpec} (ha : a ∈ typeSpecs f) (hb : b ∈ typeSpecs f')
    (hn : a.name = b.name) : a = b ∧ f = f' := by
  induction l with
  | nil => cases hf
  | cons x l ih =>
    simp only [List.flatMap_cons, List.map_append, List.nodup_append] at h
    obtain ⟨h1, h2, h3⟩ := h
    rcases List.mem_cons.1 hf with rfl | hf1 <;> rcases List.mem_cons.1 hf' with rfl | hf1'
    · exact ⟨map_nodup_inj h1 ha hb hn, rfl⟩
    · exact absurd hn (h3 _ (List.mem_map.2 ⟨a, ha, rfl⟩) _ (List.mem_map.2 ⟨b, List.mem_flatMap.2 ⟨_, hf1', hb⟩, rfl⟩))
    · exact absurd hn.symm (h3 _ (List.mem_map.2 ⟨b, hb, rfl⟩) _ (List.mem_map.2 ⟨a, List.mem_flatMap.2 ⟨_, hf1, ha⟩, rfl⟩))
    · exact ih h2 hf1 hf1'

theorem unique_of_check {pkgs : List Pkg} (h : checkUnique pkgs = true) : UniqueTypes (world pkgs) := by
  intro p f f' ts ts' hf hf' hd hd' hn
  rw [fileOf_world] at hf hf'
  obtain ⟨x, hx, hfx⟩ := hf
  obtain ⟨x', hx', hfx'⟩ := hf'
  rw [hx] at hx'
  cases hx'
  simp only [checkUnique, List.all_eq_true, decide_eq_true_eq] at h
  exact files_nodup_inj (h x (List.mem_of_getElem? hx)) hfx hfx' ((mem_typeSpecs f ts).2 hd)
    ((mem_typeSpecs f' ts').2 hd') hn

end Gowrap.Demo
