import Verif.Props.MethodSet
import Verif.Props.DemoCheck
import Verif.Proofs.Order
import Verif.Props.Printer
/-!
# C23, C24, C26, C27, C28: iteration orders, selectors, refusals, qualification of the interface type
-/

namespace Gowrap.Props

open Gowrap Gowrap.Spec

/-! ## C23: output does not depend on map iteration orders -/

/-- The full claim, for programs that declare no type twice. -/
def C23_full : Prop :=
  ∀ (w : World) (s s' : Sched) (fuel : Nat) (o : Options) (g : Generator), s.Fair → s'.Fair → PlainImports w →
    LoadsImports w → UniqueTypes w → newGenerator w s fuel o = .ok g → newGenerator w s' fuel o = .ok g

theorem checkExported_ok {w : World} {sel : Str} {ms : Methods} :
    checkExported w sel ms = .ok () ↔
      (sel ≠ [] → ∀ k m, (k, m) ∈ ms → w.uni.looksUnexported m.name = some false) := by
  induction ms with
  | nil => simp [checkExported]
  | cons x ms ih =>
    obtain ⟨k, m⟩ := x
    by_cases hs : sel = []
    · simp [checkExported, hs] at ih ⊢
      exact ih
    · simp only [checkExported, hs, ne_eq, not_false_eq_true, if_true, forall_const] at ih ⊢
      constructor
      · intro h
        split at h
        · cases h
        · cases h
        · next hl =>
          intro k' m' hm
          rcases List.mem_cons.1 hm with hm | hm
          · cases hm; exact hl
          · exact ih.1 h k' m' hm
      · intro h
        rw [h k m (by simp)]
        exact ih.2 fun k' m' hm => h k' m' (List.mem_cons_of_mem _ hm)

/-- **C23** (partial).  For programs in which no package declares a type twice or imports two packages of the
same name: for all schedules of map iteration orders the generator finds the same interface, methods, type
parameters and imports, or fails.  Missing for the full claim: packages importing two packages of the same
name, and types declared twice (in files for different build constraints). -/
theorem C23_order_independent_partial {w : World} {s s' : Sched} {fuel : Nat} {o : Options} (hs : s.Fair)
    (hs' : s'.Fair) (hu : UniqueTypes w) (hi : UniqueImports w) (g : Generator) :
    newGenerator w s fuel o = .ok g ↔ newGenerator w s' fuel o = .ok g := by
  have key : ∀ s s' : Sched, s.Fair → s'.Fair → newGenerator w s fuel o = .ok g →
      newGenerator w s' fuel o = .ok g := by
    intro s s' hs hs' h
    simp only [newGenerator, Res.bind_eq_ok] at h ⊢
    obtain ⟨src, h1, ⟨dn, dp⟩, h2, files, h3, out, h4, h⟩ := h
    refine ⟨src, h1, ⟨dn, dp⟩, h2, files, h3, out, ?_, ?_⟩
    · rw [← h4]
      exact ((same hs hs' hu hi fuel).target _ _ _ _ _ _ _ h3).symm
    · split at h
      · cases h
      · next hne =>
        rw [if_neg hne]
        rw [Res.bind_eq_ok] at h ⊢
        obtain ⟨u, h5, h⟩ := h
        refine ⟨u, ?_, h⟩
        rw [checkExported_ok] at h5 ⊢
        intro hsel k m hm
        exact h5 hsel k m ((hs.methods _ _).mem_iff.2 ((hs'.methods _ _).mem_iff.1 hm))
  exact ⟨key s s' hs hs', key s' s hs' hs⟩

/-- The hypotheses hold for `app`, and the conclusion is not vacuous there. -/
example : newGenerator Demo.app Demo.inOrder 20 extra = newGenerator Demo.app Demo.backwards 20 extra ∧
    (∃ g, newGenerator Demo.app Demo.inOrder 20 extra = .ok g) := by
  have hi : UniqueImports Demo.app := by
    intro p path q path' q' h h' _
    match p with
    | 0 => simp [Demo.app, Demo.world] at h h'; rw [h.1, h'.1]
    | 1 => simp [Demo.app, Demo.world] at h
    | n + 2 => simp [Demo.app, Demo.world] at h
  obtain ⟨g, hg, _⟩ := found_some (ks := [g!"Read", g!"Close", g!"Get", g!"Ping"])
    (r := newGenerator Demo.app Demo.inOrder 20 extra) (by decide)
  refine ⟨?_, g, hg⟩
  rw [hg, (C23_order_independent_partial Demo.inOrder_fair Demo.backwards_fair Demo.app_unique hi g).1 hg]

/-- Two files importing different packages of the same name:

    // a.go
    import "ex/x/log"
    type Svc interface { log.Logger }
    // b.go
    import "ex/y/log"
-/
def twoLogs : List Demo.Pkg :=
  [⟨g!"app", g!"ex/app", [(g!"ex/x/log", 1), (g!"ex/y/log", 2)],
    [Demo.file [⟨none, g!"\"ex/x/log\""⟩] [Demo.iface g!"Svc" [Demo.fld [] (.selector (.ident g!"log") g!"Logger")]],
     Demo.file [⟨none, g!"\"ex/y/log\""⟩] []]⟩,
   ⟨g!"log", g!"ex/x/log", [], [Demo.file [] [Demo.iface g!"Logger" [Demo.meth g!"A" Demo.error_]]]⟩,
   ⟨g!"log", g!"ex/y/log", [], [Demo.file [] [Demo.iface g!"Logger" [Demo.meth g!"B" Demo.error_]]]⟩]

theorem twoLogs_inOrder :
    found (newGenerator (Demo.world twoLogs) Demo.inOrder 20 (Demo.local_ g!"Svc")) = some [g!"A"] := by decide
theorem twoLogs_backwards :
    found (newGenerator (Demo.world twoLogs) Demo.backwards 20 (Demo.local_ g!"Svc")) = some [g!"B"] := by decide

/-- The full claim is false: which of two imported packages of the same name is used depends on the
iteration order. -/
theorem C23_full_false : ¬ C23_full := by
  intro hfull
  obtain ⟨g, hg, hks⟩ := found_some twoLogs_inOrder
  obtain ⟨g', hg', hks'⟩ := found_some twoLogs_backwards
  have := hfull _ _ Demo.backwards _ _ g Demo.inOrder_fair Demo.backwards_fair
    (Demo.plain_of_check (by decide)) (Demo.loads_of_check (by decide)) (Demo.unique_of_check (by decide)) hg
  rw [hg'] at this
  cases this
  rw [hks] at hks'
  exact absurd hks' (by decide)

/-! ## C24: selectors -/

/-- The full claim: every method found is in the method set of the interface, in which a selector denotes the
package that the file containing it imports under that name. -/
def C24_full : Prop :=
  ∀ (w : World) (s : Sched) (fuel : Nat) (o : Options) (g : Generator), s.Fair → PlainImports w →
    LoadsImports w → UniqueTypes w → newGenerator w s fuel o = .ok g →
    ∀ f ts, FileOf w g.srcPackage f → DeclaredIn f ts → ts.name = o.interfaceName →
    ∀ name m, (name, m) ∈ g.methods → ∃ d, HasMethod w g.srcPackage f ts.type d ∧ d.name = name

/-- **C24** (partial).  The methods of an embedded `a.N`, written in file `f` of package `p`, are looked up
in the one package that `f` imports under the name `a`, for every iteration order and whichever file `g` of
the package the discovery came from; provided all files of the package agree on the meaning of `a`.
Missing for the full claim: files that disagree. -/
theorem C24_selector_partial {w : World} {s : Sched} {fuel : Nat} {path : List Nat} {a sel : Str} {input : Input}
    {f g : File} {r : Option Methods} (hs : s.Fair) (hp : PlainImports w)
    (hg : FileOf w input.cur g) (himp : input.imports = g.imports)
    (htypes : ∀ ts, ts ∈ input.types ↔ ∃ f', FileOf w input.cur f' ∧ DeclaredIn f' ts)
    (hagree : ∃ q, ImportedAs w input.cur f a q ∧
      (∀ f' q', FileOf w input.cur f' → ImportedAs w input.cur f' a q' → q' = q) ∧
      (∀ path' q', (path', q') ∈ (w.pkg input.cur).imports → (w.pkg q').name = a → q' = q))
    (h : processSelector w s (fuel + 1) path (.ident a) sel input = .ok r) :
    ∃ q files out, ImportedAs w input.cur f a q ∧ w.files q = .ok files ∧
      findTarget w s fuel (0 :: path) q (w.pkg q).name files sel input.genericParams = .ok out ∧
      r = out.methods := by
  simp only [processSelector, Res.bind_eq_ok] at h
  obtain ⟨ip, hip, h⟩ := h
  split at h
  · cases h
  · next q hq =>
    simp only [Res.bind_eq_ok] at h
    obtain ⟨files, hf, out, ho, h⟩ := h
    cases h
    refine ⟨q, files, out, ?_, hf, ho, rfl⟩
    exact resolve_selector hp ⟨htypes, hg, himp⟩ hagree (hs.imports path _) hip hq

/-- The right hand side of `type T a.N` in file `g` is looked up in the package that `g` imports as `a`,
without further assumptions on other files. -/
theorem C24_rhs {w : World} {s : Sched} {fuel : Nat} {path : List Nat} {a sel : Str} {input : Input} {ts : TypeSpec}
    {g : File} {r : Option Methods} (hp : PlainImports w) (hl : LoadsImports w)
    (hg : FileOf w input.cur g) (himp : input.imports = g.imports) (hts : ts.type = .selector (.ident a) sel)
    (h : findMethods w s (fuel + 2) path ts input = .ok r) :
    ∃ q files out, ImportedAs w input.cur g a q ∧ w.files q = .ok files ∧
      findTarget w s fuel (0 :: 0 :: path) q (w.pkg q).name files sel [] = .ok out ∧ r = out.methods := by
  simp only [findMethods, hts, getMethods, Res.bind_eq_ok] at h
  obtain ⟨q, hq, files, hf, out, ho, h⟩ := h
  cases h
  exact ⟨q, files, out, resolve_source hp hl hg (by rw [← himp]; exact hq), hf, ho, rfl⟩

/-- `store.Reader` embedded in `app.Svc` (example for `C24_selector_partial`). -/
def selInput : Input :=
  { cur := 0, types := (iterateFiles g!"Svc" [Demo.fileA, Demo.fileB]).types, pref := [], imports := Demo.fileA.imports,
    file := [], genericTypes := [], genericParams := [] }

example : ∃ ms, processSelector Demo.app Demo.inOrder 10 [] (.ident g!"store") g!"Reader" selInput = .ok (some ms) ∧
    ms.map (·.1) = [g!"Read"] := ⟨_, rfl, rfl⟩
example : ∃ ms, findMethods Demo.app Demo.inOrder 10 [] ⟨g!"T", none, .selector (.ident g!"store") g!"Reader"⟩ selInput =
    .ok (some ms) ∧ ms.map (·.1) = [g!"Read"] := ⟨_, rfl, rfl⟩
example : AgreeAt Demo.app 0 Demo.fileA g!"store" :=
  Demo.app_agree 0 Demo.fileA _ _ (Demo.app_files.2 (Or.inl ⟨rfl, Or.inl rfl⟩))
    (by rw [Demo.fileA, Demo.declaredIn_file]; exact List.mem_singleton.2 rfl)
    (.elem (fd := Demo.fld [] (.selector (.ident g!"store") g!"Reader"))
      (List.mem_cons_of_mem _ (List.mem_cons_self ..)) .here)

/-- An alias that means different packages in two files:

    // a.go
    import l "ex/x"
    type Svc interface { Base }
    // b.go
    import l "ex/y"
    type Base interface { l.Logger }
-/
def baseDecl : TypeSpec := Demo.iface g!"Base" [Demo.fld [] (.selector (.ident g!"l") g!"Logger")]
def svcDecl : TypeSpec := Demo.iface g!"Svc" [Demo.fld [] (.ident g!"Base")]
def loggerX : TypeSpec := Demo.iface g!"Logger" [Demo.meth g!"A" Demo.error_]
def loggerY : TypeSpec := Demo.iface g!"Logger" [Demo.meth g!"B" Demo.error_]
def aliasA : File := Demo.file [⟨some g!"l", g!"\"ex/x\""⟩] [svcDecl]
def aliasB : File := Demo.file [⟨some g!"l", g!"\"ex/y\""⟩] [baseDecl]
def twoAliases : List Demo.Pkg :=
  [⟨g!"app", g!"ex/app", [(g!"ex/x", 1), (g!"ex/y", 2)], [aliasA, aliasB]⟩,
   ⟨g!"x", g!"ex/x", [], [Demo.file [] [loggerX]]⟩,
   ⟨g!"y", g!"ex/y", [], [Demo.file [] [loggerY]]⟩]

theorem twoAliases_found (s : Sched) (hs : s = Demo.inOrder ∨ s = Demo.backwards) :
    found (newGenerator (Demo.world twoAliases) s 20 (Demo.local_ g!"Svc")) = some [g!"A"] := by
  rcases hs with rfl | rfl <;> decide

theorem hasMethod_ident {w : World} {p : PkgId} {f : File} {n : Str} {d : MethodDecl}
    (h : HasMethod w p f (.ident n) d) :
    (∃ f' ts, FileOf w p f' ∧ DeclaredIn f' ts ∧ ts.name = n ∧ HasMethod w p f' ts.type d) ∨ n = g!"error" ∨
    ∃ q, DotImported w p f q := by
  generalize he : Expr.ident n = e at h
  cases h <;> simp at he
  · exact Or.inl ⟨_, _, ‹FileOf w p _›, ‹DeclaredIn _ _›, he.symm, ‹HasMethod w p _ _ d›⟩
  · exact Or.inr (Or.inl he)
  · exact Or.inr (Or.inr ⟨_, ‹DotImported w p f _›⟩)

theorem hasMethod_selector {w : World} {p : PkgId} {f : File} {a n : Str} {d : MethodDecl}
    (h : HasMethod w p f (.selector (.ident a) n) d) :
    ∃ q f' ts, ImportedAs w p f a q ∧ FileOf w q f' ∧ DeclaredIn f' ts ∧ ts.name = n ∧ HasMethod w q f' ts.type d := by
  generalize he : Expr.selector (.ident a) n = e at h
  cases h <;> simp at he
  obtain ⟨rfl, rfl⟩ := he
  exact ⟨_, _, _, ‹ImportedAs w p f _ _›, ‹FileOf w _ _›, ‹DeclaredIn _ _›, rfl, ‹HasMethod w _ _ _ d›⟩

/-- The full claim is false, for every iteration order: the alias is resolved in the file that declares the
interface given on the command line. -/
theorem C24_full_false : ¬ C24_full := by
  intro hfull
  obtain ⟨g, hg, hks⟩ := found_some (twoAliases_found _ (Or.inl rfl))
  have hsrc : g.srcPackage = 0 := by
    obtain ⟨_, _, h1, _⟩ := newGenerator_ok hg
    exact (Res.ok.inj h1).symm
  have hmem : g!"A" ∈ g.methods.map (·.1) := by rw [hks]; simp
  obtain ⟨⟨k, m⟩, hkm, hk⟩ := List.mem_map.1 hmem
  have hfA : FileOf (Demo.world twoAliases) 0 aliasA := Demo.fileOf_world.2 ⟨_, rfl, by simp⟩
  obtain ⟨d, hd, hdn⟩ := hfull _ _ _ _ g Demo.inOrder_fair (Demo.plain_of_check (by decide))
    (Demo.loads_of_check (by decide)) (Demo.unique_of_check (by decide)) hg aliasA svcDecl
    (hsrc ▸ hfA) (by simp [aliasA, Demo.declaredIn_file]) rfl k m hkm
  rw [hsrc] at hd
  simp only at hk
  subst hk
  have hfiles : ∀ f', FileOf (Demo.world twoAliases) 0 f' → f' = aliasA ∨ f' = aliasB := by
    intro f' h
    obtain ⟨x, hx, h⟩ := Demo.fileOf_world.1 h
    simp [twoAliases] at hx
    subst hx
    simpa using h
  have nodot : ∀ f' q, FileOf (Demo.world twoAliases) 0 f' → ¬ DotImported (Demo.world twoAliases) 0 f' q := by
    rintro f' q hf' ⟨imp, hi, _, _, _, hn⟩
    rcases hfiles f' hf' with rfl | rfl <;> simp [aliasA, aliasB, Demo.file] at hi <;> subst hi <;> simp at hn
  cases hd with
  | declared h1 h2 h3 => simp at h1; subst h1; cases h2
  | embedded h1 h2 =>
    simp at h1
    subst h1
    rcases hasMethod_ident h2 with ⟨f', ts, h3, h4, h5, h6⟩ | h | ⟨q, h⟩
    · rcases hfiles f' h3 with rfl | rfl
      · simp only [aliasA, Demo.declaredIn_file, List.mem_singleton] at h4
        subst h4
        exact absurd h5 (by decide)
      · simp only [aliasB, Demo.declaredIn_file, List.mem_singleton] at h4
        subst h4
        cases h6 with
        | declared k1 k2 k3 => simp at k1; subst k1; cases k2
        | embedded k1 k2 =>
          simp at k1
          subst k1
          obtain ⟨q, f'', ts, h7, h8, h9, h10, h11⟩ := hasMethod_selector k2
          obtain ⟨imp, hi, path, hlit, hm, hn⟩ := h7
          simp [aliasB, Demo.file] at hi
          subst hi
          have hpath : path = g!"ex/y" := by
            rcases hlit with h | h
            · exact Demo.lit_inj (a := g!"ex/y") h
            · simp at h
          subst hpath
          have hq : q = 2 := by simpa [Demo.world, twoAliases] using hm
          subst hq
          obtain ⟨x, hx, h8⟩ := Demo.fileOf_world.1 h8
          simp [twoAliases] at hx
          subst hx
          simp at h8
          subst h8
          simp only [Demo.declaredIn_file, List.mem_singleton] at h9
          subst h9
          cases h11 with
          | declared n1 n2 n3 =>
            simp at n1
            subst n1
            simp only [Demo.meth, Demo.fld, Field.names, List.head?_cons, Option.some.injEq] at n3
            rw [← n3] at hdn
            exact absurd hdn (by decide)
          | embedded n1 n2 => simp at n1; subst n1; cases n2
    · exact absurd h (by decide)
    · exact nodot _ _ hfA h

/-! ## C26: unexported methods -/

/-- The full claim. -/
def C26_full : Prop :=
  ∀ (w : World) (s : Sched) (fuel : Nat) (o : Options) (g : Generator), s.Fair →
    newGenerator w s fuel o = .ok g → (w.pkg g.srcPackage).path ≠ g.dstPath →
    ∀ name m, (name, m) ∈ g.methods → Exported w.uni m.name

/-- **C26** (partial).  If the decorator lives in another package, a returned generator has only exported
methods, for method names whose first letter is upper case exactly if lower-casing changes it (every ASCII
name, `C12_ascii`).  Missing for the full claim: title case letters. -/
theorem C26_exported_partial {w : World} {s : Sched} {fuel : Nat} {o : Options} {g : Generator} (hs : s.Fair)
    (h : newGenerator w s fuel o = .ok g) (hdst : (w.pkg g.srcPackage).path ≠ g.dstPath)
    (hcase : ∀ name m c r, (name, m) ∈ g.methods → m.name = c :: r → (w.uni.isUpper c = true ↔ w.uni.toLower c ≠ c)) :
    ∀ name m, (name, m) ∈ g.methods → Exported w.uni m.name := by
  obtain ⟨_, _, _, _, _, _, _, _, hc, _⟩ := newGenerator_ok h
  rw [checkExported_ok] at hc
  intro name m hm
  have hsel : sourceSelector w o g.srcPackage g.dstPath ≠ [] := by
    rcases sourceSelector_spec w o g.srcPackage g.dstPath with ⟨h, _⟩ | ⟨_, h1, h2⟩ | ⟨_, _, h2⟩
    · exact absurd h hdst
    · rw [h2]; exact h1
    · rw [h2]; simp
  have := hc hsel name m ((hs.methods _ _).mem_iff.2 hm)
  cases hn : m.name with
  | nil => rw [hn] at this; cases this
  | cons c r =>
    rw [hn] at this
    refine ⟨c, r, rfl, (hcase name m c r hm hn).2 ?_⟩
    simp only [Uni.looksUnexported, Option.some.injEq, beq_eq_false_iff_ne, ne_eq] at this
    exact fun h => this h.symm

/-- In the same package methods are accepted whether exported or not: whenever discovery finds methods, a
generator with exactly these methods is returned. -/
theorem C26_same_package {w : World} {s : Sched} {fuel : Nat} {o : Options} {src : PkgId} {dn dp : Str}
    {files : List File} {out : Output} {ms : Methods} (h1 : loadSource w o = .ok src)
    (h2 : loadDestinationPackage w (dstPackagePath w o.outputFile) = .ok (dn, dp)) (h3 : w.files src = .ok files)
    (hdst : (w.pkg src).path = dp) (h4 : findTarget w s fuel [] src [] files o.interfaceName [] = .ok out)
    (h5 : out.methods = some ms) (hne : ms ≠ []) :
    ∃ g, newGenerator w s fuel o = .ok g ∧ g.methods = ms := by
  have hsel : sourceSelector w o src dp = [] := by unfold sourceSelector; rw [if_pos hdst]
  simp only [newGenerator, h1, h2, h3, Res.ok_bind, hsel, h4, h5, Option.getD_some, if_neg hne]
  have hc : checkExported w [] (s.methods [] ms) = .ok () := by
    rw [checkExported_ok]
    intro h
    exact absurd rfl h
  rw [hc]
  exact ⟨_, rfl, rfl⟩

/-- `type Svc interface { get() string }` is refused in another package and accepted in its own. -/
def unexportedSvc : World := Demo.solo [Demo.iface g!"Svc" [Demo.meth g!"get" Demo.string_]]
example : newGenerator unexportedSvc Demo.inOrder 20
    { interfaceName := g!"Svc", sourcePackage := g!"ex/app", outputFile := g!"./dst/x.go" } =
    .err (.unexportedMethod g!"get") := by rfl
/-- A destination directory that is the package itself. -/
def unexportedHere : World := { unexportedSvc with dir := fun _ => g!"/app", load := fun _ => .ok 0 }
example : found (newGenerator unexportedHere Demo.inOrder 20
    { interfaceName := g!"Svc", sourcePackage := g!"ex/app", outputFile := g!"/app/x.go" }) = some [g!"get"] := by
  decide
/-- `app.Extra` meets the hypotheses of `C26_exported_partial`. -/
example : ∃ g, newGenerator Demo.app Demo.inOrder 20 extra = .ok g ∧ (Demo.app.pkg g.srcPackage).path ≠ g.dstPath ∧
    ∀ name m, (name, m) ∈ g.methods → Exported Demo.app.uni m.name := by
  have hg : ∃ g, newGenerator Demo.app Demo.inOrder 20 extra = .ok g ∧ (Demo.app.pkg g.srcPackage).path ≠ g.dstPath ∧
      g.methods.map (·.2.name) = [g!"Read", g!"Close", g!"Get", g!"Ping"] := ⟨_, rfl, by decide, rfl⟩
  obtain ⟨g, hg, hd, hm⟩ := hg
  refine ⟨g, hg, hd, C26_exported_partial Demo.inOrder_fair hg hd ?_⟩
  intro name m c r hmem hn
  have : m.name ∈ g.methods.map (·.2.name) := List.mem_map.2 ⟨_, hmem, rfl⟩
  rw [hm] at this
  simp only [List.mem_cons, List.not_mem_nil, or_false] at this
  rcases this with h | h | h | h <;> rw [hn] at h <;> cases h <;> decide

/-- A table of letters with a title case letter, as U+01C5 is in Unicode: not upper case, but changed by
lower-casing. -/
def titleUni : Uni :=
  { Uni.ascii with
    toLower := fun c => if c.val < 128 then c.toLower else if c = 'ǅ' then 'ǆ' else c
    lower_ascii := by intro c h; simp [h]
    lower_not_cap := by
      intro c
      split
      · exact Uni.ascii.lower_not_cap c
      · next h =>
        split
        · decide
        · unfold Char.isUpper
          grind }

/-- `type Svc interface { ǅ() string }` -/
def titleSvc : World := { Demo.solo [Demo.iface g!"Svc" [Demo.meth ['ǅ'] Demo.string_]] with uni := titleUni }

/-- The full claim is false: Go considers a method whose name begins with a title case letter unexported. -/
theorem C26_full_false : ¬ C26_full := by
  intro hfull
  have hg : ∃ g, newGenerator titleSvc Demo.inOrder 20
      { interfaceName := g!"Svc", sourcePackage := g!"ex/app", outputFile := g!"./dst/x.go" } = .ok g ∧
      g.methods.map (·.2.name) = [['ǅ']] ∧ g.srcPackage = 0 ∧ g.dstPath = [] :=
    ⟨_, rfl, by decide, by decide, by decide⟩
  obtain ⟨g, hg, hm, hsrc, hdst⟩ := hg
  have hmem : ['ǅ'] ∈ g.methods.map (·.2.name) := by rw [hm]; simp
  obtain ⟨⟨k, m⟩, hkm, hn⟩ := List.mem_map.1 hmem
  obtain ⟨c, r, hc, hup⟩ := hfull _ _ _ _ g Demo.inOrder_fair hg (by rw [hsrc, hdst]; decide) k m hkm
  simp only at hn
  rw [hn] at hc
  cases hc
  exact absurd hup (by decide)

/-! ## C27: missing and empty interfaces are refused -/

/-- **C27**.  A returned generator has at least one method and belongs to a type of the requested name
declared in a file of the source package. -/
theorem C27_returned {w : World} {s : Sched} {fuel : Nat} {o : Options} {g : Generator} (hs : s.Fair)
    (h : newGenerator w s fuel o = .ok g) :
    g.methods ≠ [] ∧ loadSource w o = .ok g.srcPackage ∧
      ∃ f ts, FileOf w g.srcPackage f ∧ DeclaredIn f ts ∧ ts.name = o.interfaceName := by
  obtain ⟨files, out, h1, _, h3, h4, _, hne, _⟩ := newGenerator_ok h
  refine ⟨hne, h1, ?_⟩
  cases fuel with
  | zero => simp [findTarget] at h4
  | succ n =>
    simp only [findTarget] at h4
    split at h4
    · cases h4
    · next ts f hsel =>
      obtain ⟨h5, h6, h7⟩ := iterateFiles_some hsel
      exact ⟨f, ts, ⟨files, h3, (hs.files _ _).mem_iff.1 h5⟩, h6, h7⟩

/-- If the source package declares no type of the requested name, the error says so. -/
theorem C27_missing {w : World} {s : Sched} {fuel : Nat} {o : Options} {src : PkgId} {dst : Str × Str}
    {files : List File} (hs : s.Fair) (h1 : loadSource w o = .ok src)
    (h2 : loadDestinationPackage w (dstPackagePath w o.outputFile) = .ok dst) (h3 : w.files src = .ok files)
    (hno : ∀ f ∈ files, ∀ ts, DeclaredIn f ts → ts.name ≠ o.interfaceName) :
    newGenerator w s (fuel + 1) o = .err (.targetNotFound o.interfaceName) := by
  have : ∀ sel, findTarget w s (fuel + 1) [] src sel files o.interfaceName [] = .err (.targetNotFound o.interfaceName) := by
    intro sel
    simp only [findTarget]
    split
    · rfl
    · next ts f hsel =>
      obtain ⟨h5, h6, h7⟩ := iterateFiles_some hsel
      exact absurd h7 (hno f ((hs.files _ _).mem_iff.1 h5) ts h6)
  obtain ⟨dn, dp⟩ := dst
  simp only [newGenerator, h1, h2, h3, Res.ok_bind, this, Res.err_bind]

/-- A type without methods is refused. -/
theorem C27_empty {w : World} {s : Sched} {fuel : Nat} {o : Options} {g : Generator} (hs : s.Fair)
    (hp : PlainImports w) (hl : LoadsImports w) (ha : QualifiersAgree w) (hpr : Printable w)
    (hno : ∀ p f ts d, loadSource w o = .ok p → FileOf w p f → DeclaredIn f ts → ts.name = o.interfaceName →
      ¬ HasMethod w p f ts.type d) :
    newGenerator w s fuel o ≠ .ok g := by
  intro h
  obtain ⟨files, out, h1, _, h3, h4, h5, hne, _⟩ := newGenerator_ok h
  obtain ⟨f, ts, hf, hd, hn, _, hsound⟩ := (sound hs hp hl ha hpr fuel).target _ _ _ _ _ _ _ h3 h4
  rw [h5] at hne
  obtain ⟨⟨k, m⟩, hkm⟩ := List.exists_mem_of_ne_nil _ hne
  obtain ⟨d, c, _, h2, _⟩ := hsound k m hkm
  exact hno _ f ts d h1 hf hd hn (h2.followed.has hf)

example : newGenerator Demo.app Demo.backwards 20 { extra with interfaceName := g!"Nope" } =
    .err (.targetNotFound g!"Nope") := by rfl
example : newGenerator (Demo.solo [Demo.iface g!"Svc" []]) Demo.inOrder 20 (Demo.local_ g!"Svc") =
    .err .emptyInterface := by rfl
/-- The hypotheses of `C27_empty` hold for `type Svc interface {}`. -/
example (d : MethodDecl) : ¬ HasMethod (Demo.solo [Demo.iface g!"Svc" []]) 0 (Demo.file [] [Demo.iface g!"Svc" []])
    (.ifaceT []) d := by
  intro h
  cases h with
  | declared h _ _ => cases h
  | embedded h _ => cases h

/-! ## C28: the interface type and its import -/

/-- **C28**.  If source and destination package differ, the interface type is selector and name, with the
selector given by the user or the default one, and the source package is imported under exactly that
selector; otherwise it is the bare name and no import is added to those of the caller and of the file that
declares the interface. -/
theorem C28_interface_type {w : World} {s : Sched} {fuel : Nat} {o : Options} {g : Generator} (hs : s.Fair)
    (h : newGenerator w s fuel o = .ok g) :
    ∃ f ts, FileOf w g.srcPackage f ∧ DeclaredIn f ts ∧ ts.name = o.interfaceName ∧
    let fileImports := f.imports.map fun i => (i.name.getD []) ++ g!" " ++ i.path
    ((w.pkg g.srcPackage).path ≠ g.dstPath → ∃ sel, sel ≠ [] ∧ Selector w o g.srcPackage g.dstPath sel ∧
      g.interfaceType = sel ++ g!"." ++ o.interfaceName ∧
      g.imports = o.imports ++ (sel ++ g!" \"" ++ (w.pkg g.srcPackage).path ++ g!"\"") :: fileImports) ∧
    ((w.pkg g.srcPackage).path = g.dstPath →
      g.interfaceType = o.interfaceName ∧ g.imports = o.imports ++ fileImports) := by
  obtain ⟨files, out, h1, _, h3, h4, _, hne, _, h6, h7, _⟩ := newGenerator_ok h
  have : ∃ f ts, FileOf w g.srcPackage f ∧ DeclaredIn f ts ∧ ts.name = o.interfaceName ∧ out.imports = f.imports := by
    cases fuel with
    | zero => simp [findTarget] at h4
    | succ n =>
      simp only [findTarget] at h4
      split at h4
      · cases h4
      · next ts f hsel =>
        obtain ⟨k5, k6, k7⟩ := iterateFiles_some hsel
        simp only [Res.bind_eq_ok] at h4
        obtain ⟨_, _, _, _, h4⟩ := h4
        cases h4
        exact ⟨f, ts, ⟨files, h3, (hs.files _ _).mem_iff.1 k5⟩, k6, k7, rfl⟩
  obtain ⟨f, ts, hf, hd, hn, hi⟩ := this
  refine ⟨f, ts, hf, hd, hn, ?_, ?_⟩
  · intro hdst
    have hsel := sourceSelector_spec w o g.srcPackage g.dstPath
    refine ⟨sourceSelector w o g.srcPackage g.dstPath, ?_, hsel, ?_, ?_⟩
    · rcases hsel with ⟨h, _⟩ | ⟨_, h1, h2⟩ | ⟨_, _, h2⟩
      · exact absurd h hdst
      · rw [h2]; exact h1
      · rw [h2]; simp
    · rw [h6, interfaceTypeOf, if_neg hdst]
    · rw [h7, interfaceTypeOf, if_neg hdst, hi]
      simp [makeImports]
  · intro hdst
    rw [h6, h7, interfaceTypeOf, if_pos hdst, hi]
    exact ⟨rfl, rfl⟩

example : ∃ g, newGenerator Demo.app Demo.inOrder 20 { extra with interfaceName := g!"Svc" } = .ok g ∧
    g.interfaceType = g!"_sourceApp.Svc" ∧ g.imports = [g!"_sourceApp \"ex/app\"", g!" \"ex/store\""] :=
  ⟨_, rfl, rfl, rfl⟩
example : ∃ g, newGenerator unexportedHere Demo.inOrder 20
      { interfaceName := g!"Svc", imports := [g!"\"fmt\""], outputFile := g!"/app/x.go" } = .ok g ∧
    g.interfaceType = g!"Svc" ∧ g.imports = [g!"\"fmt\""] := ⟨_, rfl, rfl, rfl⟩

end Gowrap.Props
