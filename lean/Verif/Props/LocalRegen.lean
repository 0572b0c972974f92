import Verif.Props.RegenCommand
/-!
# C97 with conditions on dependencies only
-/

namespace Gowrap.Props

open Gowrap Spec Tmpl

theorem depends_mono {w w' : World} (hi : ∀ p x, x ∈ (w.pkg p).imports → x ∈ (w'.pkg p).imports)
    (hf : ∀ p f, FileOf w p f → FileOf w' p f) (hl : w'.load = w.load) {a b : PkgId} (h : DependsOn w a b) : DependsOn w' a b := by
  induction h with
  | imports h => exact .imports (hi _ _ h)
  | load h1 h2 h3 => exact .load (hf _ _ h1) h2 (by rw [hl]; exact h3)
  | loadEmpty h1 h2 => exact .loadEmpty (hf _ _ h1) (by rw [hl]; exact h2)
  | trans _ _ h1 h2 => exact .trans h1 h2

theorem add_imports {w : World} {q : PkgId} {f : File} {new : List (Str × PkgId)} (p : PkgId) (x : Str × PkgId)
    (h : x ∈ (w.pkg p).imports) : x ∈ ((addFile w q f new).pkg p).imports := by
  by_cases hp : p = q
  · subst hp
    simp only [addFile, if_pos]
    exact List.mem_append_left _ h
  · simpa only [addFile, if_neg hp] using h

theorem around_add {w : World} {src q : PkgId} {f : File} {new : List (Str × PkgId)} {p : PkgId} (h : Around w src p) :
    Around (addFile w q f new) src p := by
  rcases h with h | h
  · exact .inl h
  · exact .inr (depends_mono add_imports (fun _ _ => fileOf_add) rfl h)

theorem types_around_of_add {w : World} {src q : PkgId} {f : File} {new : List (Str × PkgId)}
    (h : UniqueTypesAround (addFile w q f new) src) : UniqueTypesAround w src :=
  fun p g g' ts ts' hp h1 h2 => h p g g' ts ts' (around_add hp) (fileOf_add h1) (fileOf_add h2)

theorem imports_around_of_add {w : World} {src q : PkgId} {f : File} {new : List (Str × PkgId)}
    (h : UniqueImportsAround (addFile w q f new) src) : UniqueImportsAround w src := by
  intro p path a path' a' hp h1 h2 hn
  exact h p path a path' a' (around_add hp) (add_imports _ _ h1) (add_imports _ _ h2) (by rw [addFile_name, addFile_name]; exact hn)

/-- Header and body depend on the generator only. -/
theorem output_add (w : World) (q : PkgId) (f : File) (new : List (Str × PkgId)) (g : Generator) (go : GenOptions) :
    (addFile w q f new).header g go = w.header g go ∧ (addFile w q f new).body g go = w.body g go := by
  refine ⟨?_, rfl⟩
  have : g.header (addFile w q f new) go = g.header w go := by
    simp only [Generator.header, addFile_path]
  simp only [World.header, this]
  rfl

theorem dst_add {w : World} {o : Options} {q r : PkgId} {f : File} {new : List (Str × PkgId)}
    (hdst : w.load (dstPackagePath w o.outputFile) = .ok r) :
    loadDestinationPackage (addFile w q f new) (dstPackagePath (addFile w q f new) o.outputFile) =
      loadDestinationPackage w (dstPackagePath w o.outputFile) := by
  have h1 : (addFile w q f new).load (dstPackagePath (addFile w q f new) o.outputFile) = .ok r := hdst
  unfold loadDestinationPackage
  rw [h1, hdst]
  simp only [addFile_name, addFile_path]

/-- **C97** for a destination package other than the source package.  If the source package does not depend on the destination, then gowrap
finds exactly the same after any file was added to the destination, whatever it imports and declares, for all orders of reading maps in both
runs; header and body are the same bytes for every template and all options. -/
theorem C97_other_package {w : World} {s s' : Sched} {fuel : Nat} {o : Options} {src q : PkgId} {f : File}
    {new : List (Str × PkgId)} {g : Generator} (hs : s.Fair) (hs' : s'.Fair) (hu : UniqueTypesAround w src)
    (hi : UniqueImportsAround w src) (hsrc : loadSource w o = .ok src)
    (hdst : w.load (dstPackagePath w o.outputFile) = .ok q) (hq : ¬ Around w src q)
    (h : newGenerator w s fuel o = .ok g) :
    newGenerator (addFile w q f new) s' fuel o = .ok g ∧
      ∀ go, (addFile w q f new).header g go = w.header g go ∧ (addFile w q f new).body g go = w.body g go := by
  refine ⟨?_, output_add w q f new g⟩
  have hne : ∀ p, Around w src p → p ≠ q := fun p hp e => hq (e ▸ hp)
  have hw : SameAround w (addFile w q f new) src :=
    { uni := rfl
      raw := rfl
      pkg := fun p hp => by simp only [addFile, if_neg (hne p hp)]
      files := fun p hp => by simp only [addFile, if_neg (hne p hp)]
      load := fun _ _ _ _ _ _ => rfl
      loadEmpty := rfl }
  rw [C98_local (w := w) (w' := addFile w q f new) hs' hsrc hsrc hw (dst_add hdst) rfl]
  exact (C23_dependencies_partial hs hs' hsrc hu hi g).1 h

/-- `w` with the contents of the packages in `K` only. -/
noncomputable def pruneTo (w : World) (K : PkgId → Prop) : World :=
  open Classical in
  { w with
    pkg := fun p => if K p then w.pkg p else ⟨(w.pkg p).name, (w.pkg p).path, []⟩
    files := fun p => if K p then w.files p else .ok [] }

theorem pruneTo_add {w : World} {K : PkgId → Prop} {q : PkgId} (hq : K q) (f : File) (new : List (Str × PkgId)) :
    pruneTo (addFile w q f new) K = addFile (pruneTo w K) q f new := by
  unfold pruneTo addFile
  congr 1
  · funext p
    by_cases hp : p = q
    · subst hp; simp [hq]
    · by_cases hk : K p <;> simp [hp, hk]
  · funext p
    by_cases hp : p = q
    · subst hp; simp [hq]
    · by_cases hk : K p <;> simp [hp, hk]

/-- **C97** (partial), with conditions on the dependencies only: gowrap finds exactly the same after the generated file `f` was added to the
destination package, if neither the source package nor any package it depends on (including those that `f` imports, if the destination is the
source package) declares a type twice or imports two packages of the same name.  The rest of the workspace is arbitrary. -/
theorem C97_dependencies_partial {w : World} {s s' : Sched} {fuel : Nat} {o : Options} {src q : PkgId} {f : File}
    {new : List (Str × PkgId)} {g : Generator} (hs : s.Fair) (hs' : s'.Fair) (hraw : ∀ ts, DeclaredIn f ts → w.raw (.ident ts.name) = ts.name)
    (hu : UniqueTypesAround (addFile w q f new) src) (hi : UniqueImportsAround (addFile w q f new) src) (hnew : ¬ FileOf w q f)
    (hfresh : Unembedded w q f) (hsrc : loadSource w o = .ok src)
    (hdst : w.load (dstPackagePath w o.outputFile) = .ok q) (hcyc : ¬ DependsOn w src q)
    (h : newGenerator w s fuel o = .ok g) :
    newGenerator (addFile w q f new) s' fuel o = .ok g ∧
      ∀ go, (addFile w q f new).header g go = w.header g go ∧ (addFile w q f new).body g go = w.body g go := by
  by_cases hq : q = src
  · subst hq
    refine ⟨?_, output_add w q f new g⟩
    have hK : Around (addFile w q f new) q q := .inl rfl
    have hfiles : (pruneTo w (Around (addFile w q f new) q)).files q = w.files q := by simp [pruneTo, hK]
    have hsame : SameAround w (pruneTo w (Around (addFile w q f new) q)) q :=
      { uni := rfl
        raw := rfl
        pkg := fun p hp => by simp [pruneTo, around_add hp]
        files := fun p hp => by simp [pruneTo, around_add hp]
        load := fun _ _ _ _ _ _ => rfl
        loadEmpty := rfl }
    have hname : ∀ (w : World) (K : PkgId → Prop) p, ((pruneTo w K).pkg p).name = (w.pkg p).name ∧ ((pruneTo w K).pkg p).path = (w.pkg p).path := by
      intro w K p
      simp only [pruneTo]
      split <;> exact ⟨rfl, rfl⟩
    have hd : ∀ (w : World) (K : PkgId → Prop), loadDestinationPackage (pruneTo w K) (dstPackagePath (pruneTo w K) o.outputFile) =
        loadDestinationPackage w (dstPackagePath w o.outputFile) := by
      intro w K
      have e1 : dstPackagePath (pruneTo w K) o.outputFile = dstPackagePath w o.outputFile := rfl
      have e2 : (pruneTo w K).load = w.load := rfl
      unfold loadDestinationPackage
      rw [e1, e2]
      simp only [(hname w K _).1, (hname w K _).2]
      rfl
    have h1 : newGenerator (pruneTo w (Around (addFile w q f new) q)) s fuel o = .ok g := by
      rw [C98_local (w := w) (w' := pruneTo w (Around (addFile w q f new) q)) hs hsrc hsrc hsame (hd _ _) rfl]
      exact h
    have hprune : prune (addFile w q f new) q = addFile (pruneTo w (Around (addFile w q f new) q)) q f new := pruneTo_add hK f new
    have hdep : ∀ a b, DependsOn (pruneTo w (Around (addFile w q f new) q)) a b → DependsOn w a b := by
      intro a b hab
      refine depends_mono (w := pruneTo w (Around (addFile w q f new) q)) (w' := w) ?_ ?_ rfl hab
      · intro p x hx
        simp only [pruneTo] at hx
        split at hx
        · exact hx
        · cases hx
      · rintro p x ⟨fs, hx, hm⟩
        simp only [pruneTo] at hx
        split at hx
        · exact ⟨fs, hx, hm⟩
        · cases hx; cases hm
    have h2 := (C97_again_partial (src := q) (q := q) (f := f) (new := new) hs hs' (w := pruneTo w (Around (addFile w q f new) q)) hraw
      (by rw [← hprune]; exact prune_types hu) (by rw [← hprune]; exact prune_imports hi)
      (fun hf => hnew (by unfold FileOf at hf ⊢; rwa [hfiles] at hf))
      (fun x t ms fd ts hx => hfresh x t ms fd ts (by unfold FileOf at hx ⊢; rwa [hfiles] at hx))
      hsrc hdst (fun hc => hcyc (hdep _ _ hc)) h1).1
    rw [← hprune] at h2
    rw [C98_local hs' (w := addFile w q f new) (w' := prune (addFile w q f new) q) (src := q) hsrc hsrc (prune_same _ _)
      (hd (addFile w q f new) (Around (addFile w q f new) q)) rfl] at h2
    exact h2
  · exact C97_other_package hs hs' (types_around_of_add hu) (imports_around_of_add hi) hsrc hdst
      (fun hc => hc.elim hq hcyc) h

/-! ## The whole process -/

/-- What is proved about the generator after a file was added carries over to the process. -/
theorem process_add {w : World} {sched sched' : Sched} {fuel : Nat} {s : Sys} {p : Proc} {args rest : List Str}
    {h : List Ev} {f : GenFlags} {src q : PkgId} {file : File} {new : List (Str × PkgId)}
    (ha : Words args (g!"gen" :: rest)) (hf : Usable rest f)
    (hsrc : w.load (if f.sourcePkg = [] then g!"./" else f.sourcePkg) = .ok src)
    (hg : ∀ o g, loadSource w o = .ok src → o.outputFile = f.outputFile → newGenerator w sched fuel o = .ok g →
      newGenerator (addFile w q file new) sched' fuel o = .ok g)
    (h0 : (({ p with sys := w.sys sched fuel s } : Proc).main args h).1 = .code 0) :
    ({ p with sys := (addFile w q file new).sys sched' fuel s } : Proc).main args h =
      ({ p with sys := w.sys sched fuel s } : Proc).main args h := by
  refine process_follows ha hf ?_ ?_ h0
  · have : (addFile w q file new).load = w.load := rfl
    unfold World.loadPackage
    rw [this, hsrc]
    simp only [addFile_path]
  · intro o g ho hn
    have hos : o.source = src := by
      obtain ⟨k, hk⟩ := ho.package
      have hk : w.loadPackage (if f.sourcePkg = [] then g!"./" else f.sourcePkg) = .ok (o.source, o.sourcePackage) := hk
      unfold World.loadPackage at hk
      rw [hsrc] at hk
      simp only [Except.ok.injEq, Prod.mk.injEq] at hk
      exact hk.1.symm
    exact ⟨g, hg (o.forGenerator o.source) g (by rw [← hos]; rfl) ho.outputFile hn, output_add w q file new g o⟩

/-- **C97** for the whole process and a destination package other than the source package: if `gowrap gen` exits with code 0, then it does exactly
the same when it is run again after any file was added to the destination package. -/
theorem C97_process_other_package {w : World} {sched sched' : Sched} {fuel : Nat} {s : Sys} {p : Proc} {args rest : List Str}
    {h : List Ev} {f : GenFlags} {src q : PkgId} {file : File} {new : List (Str × PkgId)}
    (ha : Words args (g!"gen" :: rest)) (hf : Usable rest f) (hs : sched.Fair) (hs' : sched'.Fair)
    (hu : UniqueTypesAround w src) (hi : UniqueImportsAround w src)
    (hsrc : w.load (if f.sourcePkg = [] then g!"./" else f.sourcePkg) = .ok src)
    (hdst : w.load (dstPackagePath w f.outputFile) = .ok q) (hq : ¬ Around w src q)
    (h0 : (({ p with sys := w.sys sched fuel s } : Proc).main args h).1 = .code 0) :
    ({ p with sys := (addFile w q file new).sys sched' fuel s } : Proc).main args h =
      ({ p with sys := w.sys sched fuel s } : Proc).main args h :=
  process_add ha hf hsrc (fun _ _ h1 h2 h3 => (C97_other_package hs hs' hu hi h1 (by rw [h2]; exact hdst) hq h3).1) h0

/-- **C97** for the whole process (partial), with conditions on the dependencies only. -/
theorem C97_process_dependencies_partial {w : World} {sched sched' : Sched} {fuel : Nat} {s : Sys} {p : Proc} {args rest : List Str}
    {h : List Ev} {f : GenFlags} {src q : PkgId} {file : File} {new : List (Str × PkgId)}
    (ha : Words args (g!"gen" :: rest)) (hf : Usable rest f) (hs : sched.Fair) (hs' : sched'.Fair)
    (hraw : ∀ ts, DeclaredIn file ts → w.raw (.ident ts.name) = ts.name) (hu : UniqueTypesAround (addFile w q file new) src)
    (hi : UniqueImportsAround (addFile w q file new) src) (hnew : ¬ FileOf w q file) (hfresh : Unembedded w q file)
    (hsrc : w.load (if f.sourcePkg = [] then g!"./" else f.sourcePkg) = .ok src)
    (hdst : w.load (dstPackagePath w f.outputFile) = .ok q) (hcyc : ¬ DependsOn w src q)
    (h0 : (({ p with sys := w.sys sched fuel s } : Proc).main args h).1 = .code 0) :
    ({ p with sys := (addFile w q file new).sys sched' fuel s } : Proc).main args h =
      ({ p with sys := w.sys sched fuel s } : Proc).main args h :=
  process_add ha hf hsrc
    (fun _ _ h1 h2 h3 => (C97_dependencies_partial hs hs' hraw hu hi hnew hfresh h1 (by rw [h2]; exact hdst) hcyc h3).1) h0

/-! ### Examples -/

/-- In the workspace `messy`, the decorator is written to the package `old`, which declares a type twice and imports two packages called log, and
the generated file imports `log`, too. -/
example : regenRun (addFile (Gowrap.Demo.world messy) 4 withLog [(g!"log", 2)]) Gowrap.Demo.backwards g!"/old/x.go" =
      regenRun (Gowrap.Demo.world messy) Gowrap.Demo.inOrder g!"/old/x.go" ∧
    (regenRun (Gowrap.Demo.world messy) Gowrap.Demo.inOrder g!"/old/x.go").1 = .code 0 ∧
    (written (regenRun (Gowrap.Demo.world messy) Gowrap.Demo.inOrder g!"/old/x.go").2).length = 1 := by
  have h0 : (regenRun (Gowrap.Demo.world messy) Gowrap.Demo.inOrder g!"/old/x.go").1 = .code 0 := by decide +kernel
  refine ⟨?_, h0, by decide +kernel⟩
  refine C97_process_other_package (src := 0) (f := regenFlags g!"/old/x.go") (regen_words _) (regen_flags (by decide))
    Gowrap.Demo.inOrder_fair Gowrap.Demo.backwards_fair messy_types messy_imports (by decide +kernel) (by decide +kernel) ?_ h0
  rintro (h | h)
  · cases h
  · exact absurd (messy_around h) (by decide)

/-- The first `n` packages of the list depend on no other. -/
def closedBelow (pkgs : List Gowrap.Demo.Pkg) (n : Nat) : Bool :=
  (pkgs.take n).all (fun x => x.imports.all (fun i => i.2 < n) && x.files.all (fun f => f.imports.all (fun i =>
    match (Gowrap.Demo.world pkgs).load (trimQuotes i.path) with
    | .ok q => q < n
    | _ => true))) &&
  match (Gowrap.Demo.world pkgs).load [] with
  | .ok q => decide (q < n)
  | _ => true

theorem below_of_closed {pkgs : List Gowrap.Demo.Pkg} {n : Nat} (hc : closedBelow pkgs n = true) {a b : PkgId}
    (h : DependsOn (Gowrap.Demo.world pkgs) a b) : a < n → b < n := by
  unfold closedBelow at hc
  rw [Bool.and_eq_true, List.all_eq_true] at hc
  obtain ⟨hc, he⟩ := hc
  have mem : ∀ {p : PkgId} {x}, p < n → pkgs[p]? = some x → x ∈ pkgs.take n := by
    intro p x hp hx
    refine List.mem_iff_getElem?.2 ⟨p, ?_⟩
    rw [List.getElem?_take, if_pos hp]
    exact hx
  induction h with
  | @imports p q path h =>
    intro hp
    simp only [Gowrap.Demo.world] at h
    cases hx : pkgs[p]? with
    | none => rw [hx] at h; cases h
    | some x =>
      rw [hx] at h
      have := hc x (mem hp hx)
      rw [Bool.and_eq_true, List.all_eq_true] at this
      exact of_decide_eq_true (this.1 _ h)
  | @load p q f imp h1 h2 h3 =>
    intro hp
    rw [Gowrap.Demo.fileOf_world] at h1
    obtain ⟨x, hx, hf⟩ := h1
    have := hc x (mem hp hx)
    rw [Bool.and_eq_true, List.all_eq_true, List.all_eq_true] at this
    have := this.2 f hf
    rw [List.all_eq_true] at this
    have := this imp h2
    rw [h3] at this
    exact of_decide_eq_true this
  | loadEmpty h1 h2 =>
    intro _
    rw [h2] at he
    exact of_decide_eq_true he
  | trans _ _ h1 h2 => exact fun hp => h2 (h1 hp)

/-- The workspace `messy` after the file with timeouts was written. -/
def messyAfter : List Gowrap.Demo.Pkg := regenAfter withTimeout g!"time" 3 ++ messy.drop 4

theorem messy_add : addFile (Gowrap.Demo.world messy) 0 withTimeout [(g!"time", 3)] = Gowrap.Demo.world messyAfter := by
  have hp : (addFile (Gowrap.Demo.world messy) 0 withTimeout [(g!"time", 3)]).pkg = (Gowrap.Demo.world messyAfter).pkg := by
    funext p
    match p with
    | 0 => rfl
    | p + 1 => rfl
  have hf : (addFile (Gowrap.Demo.world messy) 0 withTimeout [(g!"time", 3)]).files = (Gowrap.Demo.world messyAfter).files := by
    funext p
    match p with
    | 0 => rfl
    | p + 1 => rfl
  have hl : (addFile (Gowrap.Demo.world messy) 0 withTimeout [(g!"time", 3)]).load = (Gowrap.Demo.world messyAfter).load := rfl
  calc addFile (Gowrap.Demo.world messy) 0 withTimeout [(g!"time", 3)]
      = { Gowrap.Demo.world messy with
          pkg := (addFile (Gowrap.Demo.world messy) 0 withTimeout [(g!"time", 3)]).pkg
          files := (addFile (Gowrap.Demo.world messy) 0 withTimeout [(g!"time", 3)]).files
          load := (addFile (Gowrap.Demo.world messy) 0 withTimeout [(g!"time", 3)]).load } := rfl
    _ = _ := by rw [hp, hf, hl]; rfl

theorem messy_below {p : PkgId} (h : Around (Gowrap.Demo.world messyAfter) 0 p) : p < 4 := by
  rcases h with rfl | h
  · decide
  · exact below_of_closed (n := 4) (by decide +kernel) h (by decide)

theorem messyAfter_get {p : PkgId} (h : p < 4) : messyAfter[p]? = (regenAfter withTimeout g!"time" 3)[p]? :=
  List.getElem?_append_left h

/-- In the same workspace, the decorator is written to the source package. -/
example : regenRun (addFile (Gowrap.Demo.world messy) 0 withTimeout [(g!"time", 3)]) Gowrap.Demo.backwards g!"/app/x.go" =
      regenRun (Gowrap.Demo.world messy) Gowrap.Demo.inOrder g!"/app/x.go" ∧
    (regenRun (Gowrap.Demo.world messy) Gowrap.Demo.inOrder g!"/app/x.go").1 = .code 0 ∧
    (written (regenRun (Gowrap.Demo.world messy) Gowrap.Demo.inOrder g!"/app/x.go").2).length = 1 := by
  have h0 : (regenRun (Gowrap.Demo.world messy) Gowrap.Demo.inOrder g!"/app/x.go").1 = .code 0 := by decide +kernel
  refine ⟨?_, h0, by decide +kernel⟩
  have file : ∀ {f}, FileOf (Gowrap.Demo.world messy) 0 f → FileOf (Gowrap.Demo.world regenPkgs) 0 f := fun h => h
  refine C97_process_dependencies_partial (src := 0) (f := regenFlags g!"/app/x.go") (regen_words _) (regen_flags (by decide))
    Gowrap.Demo.inOrder_fair Gowrap.Demo.backwards_fair (fun ts h => regen_raw ts h) ?_ ?_
    (fun h => regen_new (by decide) (file h)) (fun g t ms fd ts h => regen_unembedded _ g t ms fd ts (file h)) (by decide +kernel) (by decide +kernel)
    (fun h => absurd (messy_around h) (by decide)) h0
  · rw [messy_add]
    have hu : UniqueTypes (Gowrap.Demo.world (regenAfter withTimeout g!"time" 3)) := Gowrap.Demo.unique_of_check (by decide +kernel)
    intro p f f' ts ts' hp h1 h2
    have hp := messy_below hp
    rw [Gowrap.Demo.fileOf_world, messyAfter_get hp, ← Gowrap.Demo.fileOf_world] at h1 h2
    exact hu p f f' ts ts' h1 h2
  · rw [messy_add]
    have hi := regen_timeout_imports
    rw [regen_add] at hi
    have hpkg : ∀ {p}, p < 4 → (Gowrap.Demo.world messyAfter).pkg p = (Gowrap.Demo.world (regenAfter withTimeout g!"time" 3)).pkg p := by
      intro p hp
      simp only [Gowrap.Demo.world, messyAfter_get hp]
    intro p path q path' q' hp h h' hn
    have hq : ∀ {path q}, (path, q) ∈ ((Gowrap.Demo.world messyAfter).pkg p).imports → q < 4 :=
      fun h => below_of_closed (n := 4) (by decide +kernel) (.imports h) (messy_below hp)
    rw [hpkg (hq h), hpkg (hq h')] at hn
    rw [hpkg (messy_below hp)] at h h'
    exact hi p path q path' q' h h' hn

end Gowrap.Props
