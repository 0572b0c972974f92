import Verif.Props.Header
import Verif.Props.Discovery
/-!
# The package of the generated file (C61)

The generator model leaves `filepath.Dir` and `filepath.Base` open; here they are those of `Model/Path`.
-/

namespace Gowrap.Props

open Gowrap Spec

/-- `filepath` is `filepath`. -/
structure RealPaths (w : World) : Prop where
  dir : ∀ p, w.dir p = dirPath p
  base : ∀ p, w.base p = basePath p

/-- A pattern the go command takes for a directory of the file system, not for an import path. -/
def IsDirPattern (p : Str) : Prop := g!"/" <+: p ∨ g!"./" <+: p ∨ g!"../" <+: p

theorem join_snoc : ∀ (ini : List Str) (w : Str), ∃ d, join g!"/" (ini ++ [w]) = d ++ w ∧
    (d = [] ∨ d.getLast? = some '/')
  | [], w => ⟨[], rfl, Or.inl rfl⟩
  | v :: ini, w => by
    obtain ⟨d, h1, h2⟩ := join_snoc ini w
    refine ⟨v ++ '/' :: d, ?_, Or.inr ?_⟩
    · cases hi : ini ++ [w] with
      | nil => simp at hi
      | cons a b =>
        rw [List.cons_append, hi]
        show v ++ ['/'] ++ join g!"/" (a :: b) = _
        rw [← hi, h1]
        simp
    · rcases h2 with rfl | h2
      · simp
      · rw [List.getLast?_eq_some_iff] at h2
        obtain ⟨i, rfl⟩ := h2
        rw [show v ++ '/' :: (i ++ ['/']) = (v ++ '/' :: i) ++ ['/'] by simp, List.getLast?_concat]

theorem locate_dotSlash {cwd : List Str} {p : Str} (hp : p.head? ≠ some '/') :
    locate cwd (g!"./" ++ p) = locate cwd p := by
  unfold locate
  rw [if_neg hp, if_neg (by simp), show g!"./" ++ p = g!"." ++ '/' :: p from rfl,
    pieces_cons _ _ (by decide)]
  simp [walk, follow]

/-- The shapes of a cleaned path. -/
theorem cleanPath_shape (p : Str) :
    (∃ l, IsDir l ∧ cleanPath p = absText l) ∨ cleanPath p = g!"." ∨
      (∃ ini w, Kept (ini ++ [w]) ∧ cleanPath p = join g!"/" (ini ++ [w])) := by
  have hm := pieces_mem (exists_pieces p)
  unfold cleanPath
  split
  · refine Or.inl ⟨_, ?_, rfl⟩
    have hnil : IsDir ([] : List Str) := by intro w hw; simp at hw
    rw [cleanPieces_root (pieces p) [] hnil hm]
    exact walk_dir _ _ hnil hm
  · have hrel := (cleanPieces_rel [] (pieces p) [] (by intro w hw; simp at hw) hm).1
    cases hc : cleanPieces true [] (pieces p) with
    | nil => exact Or.inr (Or.inl rfl)
    | cons w ws =>
      rw [hc] at hrel
      have hne : w :: ws ≠ [] := by simp
      refine Or.inr (Or.inr ⟨(w :: ws).dropLast, (w :: ws).getLast hne, ?_, ?_⟩)
      · rw [List.dropLast_concat_getLast]; exact hrel
      · rw [List.dropLast_concat_getLast]

theorem kept_head {ini : List Str} {w : Str} (hk : Kept (ini ++ [w])) :
    (join g!"/" (ini ++ [w])).head? ≠ some '/' := by
  cases hi : ini ++ [w] with
  | nil => simp at hi
  | cons a b => rw [hi] at hk; exact join_head (hk a (by simp))

theorem dstPackagePath_spec {w : World} (hw : RealPaths w) {d name : Str} (hn : '/' ∉ name)
    (hd : d = [] ∨ d.getLast? = some '/') :
    IsDirPattern (dstPackagePath w (d ++ name)) ∧
    (∀ cwd, locate cwd (dstPackagePath w (d ++ name)) = locate cwd d) ∧
    (∀ cwd, IsDir cwd → basePath (dstPackagePath w (d ++ name)) ≠ g!"/" →
      basePath (dstPackagePath w (d ++ name)) ≠ g!"." → basePath (dstPackagePath w (d ++ name)) ≠ g!".." →
      (locate cwd d).getLast? = some (basePath (dstPackagePath w (d ++ name)))) := by
  unfold dstPackagePath
  rw [hw.dir]
  unfold dirPath
  rw [dirPart_append hn hd]
  simp only [Bool.or_eq_true, hasPrefix_iff]
  have hloc : ∀ cwd, locate cwd (cleanPath d) = locate cwd d := fun cwd => locate_cleanPath d
  rcases cleanPath_shape d with ⟨l, hl, hc⟩ | hc | ⟨ini, x, hk, hc⟩
  · rw [hc] at hloc ⊢
    have hpre : g!"/" <+: absText l := ⟨join g!"/" l, rfl⟩
    rw [if_pos (Or.inl hpre)]
    refine ⟨Or.inl hpre, hloc, ?_⟩
    intro cwd _ h1 h2 h3
    rw [← hloc cwd]
    unfold locate
    rw [if_pos ((isAbsPath_iff _).1 (isAbs_absText _)), pieces_absText hl]
    rcases List.eq_nil_or_concat l with rfl | ⟨ini, x, rfl⟩
    · exact absurd rfl h1
    · rw [List.concat_eq_append] at *
      have hx := hl x (by simp)
      obtain ⟨e, he1, he2⟩ := join_snoc ini x
      have : absText (ini ++ [x]) = ('/' :: e) ++ x := by rw [absText, he1]; rfl
      rw [this, basePath_append hx.2.2.2 hx.1, List.getLast?_concat]
      right
      rcases he2 with rfl | he2
      · rfl
      · rw [List.getLast?_eq_some_iff] at he2
        obtain ⟨i, rfl⟩ := he2
        rw [← List.cons_append, List.getLast?_concat]
  · rw [hc] at hloc ⊢
    rw [if_neg (by decide)]
    refine ⟨Or.inr (Or.inl ⟨_, rfl⟩), ?_, ?_⟩
    · intro cwd
      rw [locate_dotSlash (by decide), hloc]
    · intro cwd _ h1 h2 h3
      exact absurd rfl h2
  · rw [hc] at hloc ⊢
    have hh := kept_head hk
    have hx := hk x (by simp)
    obtain ⟨e, he1, he2⟩ := join_snoc ini x
    have hns : ¬ (g!"/" <+: join g!"/" (ini ++ [x]) ∨ g!"./" <+: join g!"/" (ini ++ [x])) := by
      rintro (⟨t, ht⟩ | ⟨t, ht⟩)
      · rw [← ht] at hh; exact hh rfl
      · cases hi : ini ++ [x] with
        | nil => simp at hi
        | cons a b =>
          have ha := hk a (by rw [hi]; simp)
          have hp := congrArg pieces ht
          rw [pieces_join _ (by simp) fun y hy => (hk y hy).2.2,
            show g!"./" ++ t = g!"." ++ '/' :: t from rfl, pieces_cons _ _ (by decide), hi] at hp
          exact ha.2.1 (List.cons.inj hp).1.symm
    rw [if_neg hns]
    have hbase : basePath (g!"./" ++ join g!"/" (ini ++ [x])) = x := by
      rw [he1, ← List.append_assoc]
      refine basePath_append hx.2.2 hx.1 (Or.inr ?_)
      rcases he2 with rfl | he2
      · rfl
      · rw [List.getLast?_eq_some_iff] at he2
        obtain ⟨i, rfl⟩ := he2
        rw [← List.append_assoc, List.getLast?_concat]
    refine ⟨Or.inr (Or.inl ⟨_, rfl⟩), ?_, ?_⟩
    · intro cwd
      rw [locate_dotSlash hh, hloc]
    · intro cwd _ h1 h2 h3
      rw [hbase] at h1 h2 h3 ⊢
      rw [← hloc cwd]
      unfold locate
      rw [if_neg hh, pieces_join _ (by simp) fun y hy => (hk y hy).2.2, walk_append]
      show (follow _ x).getLast? = _
      unfold follow
      rw [if_neg (by rw [not_or]; exact ⟨hx.1, hx.2.1⟩), if_neg h3, List.getLast?_concat]

/-- **C61** (the part that holds): the generated file belongs to the package of the directory `d` it is
written to.  The go command is asked for that directory (never for an import path); if there is no
package, the file starts one that is named like the directory.  Missing for the full claim: output files
in the parent directory, see `C61_full_false`. -/
theorem C61_destination_partial {w : World} (hw : RealPaths w) {s : Sched} {fuel : Nat} {o : Options}
    {g : Generator} (h : newGenerator w s fuel o = .ok g) {d name : Str} (ho : o.outputFile = d ++ name)
    (hn : '/' ∉ name) (hd : d = [] ∨ d.getLast? = some '/') :
    ∃ pattern, IsDirPattern pattern ∧ (∀ cwd dir, Denotes cwd d dir → Denotes cwd pattern dir) ∧
      ((∃ p, w.load pattern = .ok p ∧ g.dstName = (w.pkg p).name ∧ g.dstPath = (w.pkg p).path) ∨
       (∃ e, w.load pattern = .err e ∧ g.dstPath = [] ∧
        (g.dstName ≠ g!".." → ∀ cwd dir, IsDir cwd → Denotes cwd d dir → dir.getLast? = some g.dstName))) := by
  obtain ⟨_, _, _, h2, _⟩ := newGenerator_ok h
  obtain ⟨k1, k2, k3⟩ := dstPackagePath_spec hw hn hd
  rw [ho] at h2
  refine ⟨_, k1, ?_, ?_⟩
  · intro cwd dir hdir
    rw [denotes_iff] at hdir ⊢
    rw [hdir, k2]
  · unfold loadDestinationPackage at h2
    cases hl : w.load (dstPackagePath w (d ++ name)) with
    | ok p =>
      rw [hl] at h2
      have e := Res.ok.inj h2
      exact Or.inl ⟨p, rfl, (Prod.mk.inj e).1.symm, (Prod.mk.inj e).2.symm⟩
    | err e =>
      rw [hl] at h2
      simp only [makePackage, hw.base] at h2
      split at h2
      · cases h2
      · rename_i hb
        rw [not_or] at hb
        have e2 := Prod.mk.inj (Res.ok.inj h2)
        refine Or.inr ⟨e, rfl, e2.2.symm, ?_⟩
        intro hne cwd dir hc hdir
        rw [denotes_iff] at hdir
        rw [← e2.1] at hne ⊢
        rw [hdir]
        exact k3 cwd hc hb.1 hb.2 hne
    | panic => rw [hl] at h2; cases h2
    | diverge => rw [hl] at h2; cases h2

/-- The full claim C61 for a directory without a package. -/
def C61_full : Prop := ∀ (w : World) (s : Sched) (fuel : Nat) (o : Options) (g : Generator) (d name : Str),
  RealPaths w → newGenerator w s fuel o = .ok g → o.outputFile = d ++ name → '/' ∉ name →
  (d = [] ∨ d.getLast? = some '/') → g.dstPath = [] →
  ∀ cwd dir, IsDir cwd → Denotes cwd d dir → dir.getLast? = some g.dstName

/-- The demo world with the real `filepath`. -/
def Demo.appReal : World := { Demo.app with dir := dirPath, base := basePath }

theorem Demo.appReal_real : RealPaths Demo.appReal := ⟨fun _ => rfl, fun _ => rfl⟩

/-- Non-vacuity of C61, and a generator for an output file in the parent directory. -/
theorem Demo.appReal_parent : ∃ g, newGenerator Demo.appReal Demo.inOrder 20
    { extra with outputFile := g!"../x.go" } = .ok g ∧ g.dstPath = [] ∧ g.dstName = g!".." := ⟨_, rfl, rfl, rfl⟩

example : ∃ g, newGenerator Demo.appReal Demo.inOrder 20 { extra with outputFile := g!"out//./mocks/x.go" } =
    .ok g ∧ g.dstPath = [] ∧ g.dstName = g!"mocks" := ⟨_, rfl, rfl, rfl⟩

/-- `gowrap gen -o ../x.go` into a directory without Go files starts a package named `..`. -/
theorem C61_full_false : ¬ C61_full := by
  intro h
  obtain ⟨g, h1, h2, h3⟩ := Demo.appReal_parent
  have := h Demo.appReal Demo.inOrder 20 _ g g!"../" g!"x.go" Demo.appReal_real h1 rfl (by decide)
    (Or.inr rfl) h2 [g!"home", g!"u"] [g!"home"] (by
      intro w hw
      simp only [List.mem_cons, List.not_mem_nil, or_false] at hw
      rcases hw with rfl | rfl
      · exact ⟨by decide, by decide, by decide, by decide⟩
      · exact ⟨by decide, by decide, by decide, by decide⟩) ((denotes_iff _ _ _).2 rfl)
  rw [h3] at this
  exact absurd this (by decide)

end Gowrap.Props
