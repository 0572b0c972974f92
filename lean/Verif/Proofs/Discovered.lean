import Verif.Proofs.Complete
import Verif.Proofs.Methods
/-!
# Further facts about discovered methods

The keys are distinct; in supported declarations everything is followed; what `newGenerator` returns.
-/

namespace Gowrap

open Gowrap.Spec

/-- The keys are distinct. -/
def DistinctKeys (r : Option Methods) : Prop := ((r.getD []).map (·.1)).Nodup

/-- Distinctness of the keys at one recursion bound. -/
structure NodupAt (w : World) (s : Sched) (n : Nat) : Prop where
  target : ∀ path cur pref files name gps out,
    findTarget w s n path cur pref files name gps = .ok out → DistinctKeys out.methods
  methods : ∀ path ts i r, findMethods w s n path ts i = .ok r → DistinctKeys r
  get : ∀ path sel src r, getMethods w s n path sel src = .ok r → DistinctKeys r
  iface : ∀ path ms i r, processInterface w s n path ms i = .ok r → DistinctKeys r
  fields : ∀ path ms i acc r, (acc.map (·.1)).Nodup →
    processFields w s n path ms i acc = .ok r → DistinctKeys r

theorem nodup_zero (w : World) (s : Sched) : NodupAt w s 0 where
  target := by intros; simp_all [findTarget]
  methods := by intros; simp_all [findMethods]
  get := by intros; simp_all [getMethods]
  iface := by intros; simp_all [processInterface]
  fields := by intros; simp_all [processFields]

theorem distinctKeys_none : DistinctKeys none := by simp [DistinctKeys]

theorem nodup_getD_merge {acc : Methods} (h : (acc.map (·.1)).Nodup) (emb : Option Methods) :
    (((mergeMethods (some acc) emb).getD []).map (·.1)).Nodup := by
  cases emb with
  | none => exact h
  | some e => exact nodup_merge _ _

theorem nodup_succ {w : World} {s : Sched} {n : Nat} (ih : NodupAt w s n) : NodupAt w s (n + 1) where
  target := by
    intro path cur pref files name gps out h
    simp only [findTarget] at h
    split at h
    · cases h
    · simp only [Res.bind_eq_ok] at h
      obtain ⟨gts, _, r, hr, h⟩ := h
      cases h
      exact ih.methods _ _ _ _ hr
  methods := by
    intro path ts i r h
    simp only [findMethods] at h
    split at h
    · exact ih.iface _ _ _ _ h
    · split at h
      · exact ih.get _ _ _ _ h
      · cases h; exact distinctKeys_none
    · split at h
      · exact ih.methods _ _ _ _ h
      · cases h; exact distinctKeys_none
    · cases h; exact distinctKeys_none
  get := by
    intro path sel src r h
    simp only [getMethods, Res.bind_eq_ok] at h
    obtain ⟨p, _, files, _, out, ho, h⟩ := h
    cases h
    exact ih.target _ _ _ _ _ _ _ ho
  iface := by
    intro path ms i r h
    simp only [processInterface] at h
    exact ih.fields _ _ _ [] _ (by simp) h
  fields := by
    intro path ms i acc r ha h
    cases ms with
    | nil =>
      simp only [processFields] at h
      cases h
      exact ha
    | cons fd rest =>
      simp only [processFields] at h
      split at h
      · split at h
        · cases h
        · rw [Res.bind_eq_ok] at h
          obtain ⟨m, _, h⟩ := h
          exact ih.fields _ _ _ _ _ (nodup_upsert _ _ _ ha) h
      · rw [Res.bind_eq_ok] at h
        obtain ⟨⟨p, emb⟩, he, h⟩ := h
        exact ih.fields _ _ _ _ _ (nodup_getD_merge ha emb) h

theorem nodup_discovered (w : World) (s : Sched) : ∀ n, NodupAt w s n
  | 0 => nodup_zero w s
  | n + 1 => nodup_succ (nodup_discovered w s n)

/-! ### Supported declarations -/

theorem supported_followed {w : World} {p : PkgId} {f : File} {e : Expr} {d : MethodDecl}
    (h : HasMethod w p f e d) :
    (∀ q g ts, Reaches w p f e q g ts → SupportedRhs w q g ts.type) →
    (SupportedRhs w p f e → Followed w .rhs p f e d) ∧ (SupportedElem w p f e → Followed w .elem p f e d) := by
  induction h with
  | declared h1 h2 h3 =>
    intro _
    exact ⟨fun _ => .declared h1 h2 h3, fun h => h.elim⟩
  | embedded h1 h2 ih =>
    intro hr
    refine ⟨fun hs => .embedded h1 ((ih fun q g ts h => hr q g ts (.elem h1 h)).2 ?_), fun h => h.elim⟩
    exact hs _ h1
  | named h1 h2 h3 ih =>
    intro hr
    have hn := hr _ _ _ (.named h1 h2)
    have hf := (ih fun q g ts h => hr q g ts (.step (.named h1 h2) h)).1 hn
    refine ⟨fun hs => ?_, fun hs => .named h1 h2 hf⟩
    have := hs.2 _ _ h1 h2 rfl
    subst this
    exact .alias h2 hf
  | builtin h1 =>
    intro hr
    have : ∀ p f, (∀ f' ts, FileOf w p f' → DeclaredIn f' ts → ts.name ≠ g!"error") → OwnName w p f g!"error" → False := by
      intro p f h1 ⟨h2, _⟩
      obtain ⟨f', ts, h3, h4, h5⟩ := h2 rfl
      exact h1 f' ts h3 h4 h5
    exact ⟨fun h => (this _ _ h1 h.1).elim, fun h => (this _ _ h1 h).elim⟩
  | dot h1 h2 h3 h4 ih =>
    intro hr
    exact ⟨fun h => (h.1.2 _ _ _ h1 h2 h3 rfl).elim, fun h => (h.2 _ _ _ h1 h2 h3 rfl).elim⟩
  | selector h1 h2 h3 h4 ih =>
    intro hr
    have hn := hr _ _ _ (.selector h1 h2 h3)
    have hf := (ih fun q g ts h => hr q g ts (.step (.selector h1 h2 h3) h)).1 hn
    exact ⟨fun _ => .selector h1 h2 h3 hf, fun _ => .selector h1 h2 h3 hf⟩
  | index h1 ih =>
    intro hr
    exact ⟨fun h => h.elim, fun h => .index h.1 ((ih fun q g ts h => hr q g ts (.index h)).2 h.2)⟩
  | indexList h1 ih =>
    intro hr
    exact ⟨fun h => h.elim, fun h => .indexList h.1 ((ih fun q g ts h => hr q g ts (.indexList h)).2 h.2)⟩
  | paren h1 ih =>
    intro hr
    exact ⟨fun h => h.elim, fun h => h.elim⟩

/-! ### newGenerator -/

/-- What a returned generator was made from. -/
theorem newGenerator_ok {w : World} {s : Sched} {fuel : Nat} {o : Options} {g : Generator}
    (h : newGenerator w s fuel o = .ok g) :
    ∃ files out, loadSource w o = .ok g.srcPackage ∧
      loadDestinationPackage w (dstPackagePath w o.outputFile) = .ok (g.dstName, g.dstPath) ∧
      w.files g.srcPackage = .ok files ∧
      findTarget w s fuel [] g.srcPackage (sourceSelector w o g.srcPackage g.dstPath) files o.interfaceName [] = .ok out ∧
      g.methods = out.methods.getD [] ∧ g.methods ≠ [] ∧
      checkExported w (sourceSelector w o g.srcPackage g.dstPath) (s.methods [] g.methods) = .ok () ∧
      g.interfaceType = (interfaceTypeOf w o g.srcPackage g.dstPath).1 ∧
      g.imports = (interfaceTypeOf w o g.srcPackage g.dstPath).2 ++ makeImports out.imports ∧
      (g.genericTypes, g.genericParams) = buildVars out.genericTypes := by
  simp only [newGenerator, Res.bind_eq_ok] at h
  obtain ⟨src, h1, ⟨dn, dp⟩, h2, files, h3, out, h4, h⟩ := h
  split at h
  · cases h
  · next hne =>
    rw [Res.bind_eq_ok] at h
    obtain ⟨u, h5, h⟩ := h
    cases h
    exact ⟨files, out, h1, h2, h3, h4, rfl, hne, h5, rfl, rfl, rfl⟩

theorem sourceSelector_spec (w : World) (o : Options) (src : PkgId) (dst : Str) :
    Selector w o src dst (sourceSelector w o src dst) := by
  unfold sourceSelector Selector
  split
  · next h => exact Or.inl ⟨h, rfl⟩
  · next h =>
    split
    · next h' => exact Or.inr (Or.inl ⟨h, h', rfl⟩)
    · next h' => exact Or.inr (Or.inr ⟨h, Classical.not_not.1 h', rfl⟩)

end Gowrap
