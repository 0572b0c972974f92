import Verif.Proofs.Discover
import Verif.Proofs.Args
/-!
# Every discovered method belongs to the method set
-/

namespace Gowrap

open Gowrap.Spec

/-- The name `a` means the same package in all files of `p` as in `f`. -/
def AgreeAt (w : World) (p : PkgId) (f : File) (a : Str) : Prop :=
  ∃ q, ImportedAs w p f a q ∧
    (∀ g q', FileOf w p g → ImportedAs w p g a q' → q' = q) ∧
    (∀ path q', (path, q') ∈ (w.pkg p).imports → (w.pkg q').name = a → q' = q)

/-- The input describes package `i.cur` as seen from its file `g`. -/
structure InputOk (w : World) (i : Input) (g : File) : Prop where
  types : ∀ ts, ts ∈ i.types ↔ ∃ f, FileOf w i.cur f ∧ DeclaredIn f ts
  file : FileOf w i.cur g
  imports : i.imports = g.imports

theorem ImportedAs.agree {w : World} {p : PkgId} {f g : File} {a : Str} {q : PkgId}
    (h : AgreeAt w p f a) (hg : FileOf w p g) (hq : ImportedAs w p g a q) : ImportedAs w p f a q := by
  obtain ⟨q', h1, h2, h3⟩ := h
  rw [h2 g q hg hq]
  exact h1

/-- A qualifier is resolved to the package it denotes. -/
theorem resolve_selector {w : World} (hw : PlainImports w) {i : Input} {g f : File} (hi : InputOk w i g)
    {a : Str} (ha : AgreeAt w i.cur f a) {l : List (Str × PkgId)} (hl : l.Perm (w.pkg i.cur).imports)
    {path : Str} (h : findImportPathForName w a i.imports l = .ok path) {q : PkgId}
    (hq : (w.pkg i.cur).imports.lookup path = some q) : ImportedAs w i.cur f a q := by
  have hmem := lookup_mem hq
  rcases findImport_spec h with ⟨imp, himp, hn, hu⟩ | ⟨q', hq', hn⟩
  · rw [hi.imports] at himp
    obtain ⟨path', hp, hne, hnq⟩ := hw.literal _ _ _ hi.file himp
    rw [hp, unquote_literal] at hu
    cases hu
    exact ImportedAs.agree ha hi.file ⟨imp, himp, _, Or.inl hp, hmem, Or.inl hn⟩
  · have := hw.unique _ _ _ _ (hl.mem_iff.1 hq') hmem
    subst this
    obtain ⟨q0, h1, h2, h3⟩ := ha
    rw [h3 _ _ hmem hn]
    exact h1

/-- The right hand side `pkg.Name` of a type declaration is looked up in the package it denotes. -/
theorem resolve_source {w : World} (hw : PlainImports w) (hl : LoadsImports w) {p : PkgId} {g : File}
    (hg : FileOf w p g) {a : Str} {q : PkgId} (h : w.load (findSourcePackage a g.imports) = .ok q) :
    ImportedAs w p g a q := by
  rcases findSourcePackage_spec a g.imports with he | ⟨imp, himp, he, hn⟩
  · rw [he] at h
    exact absurd h (hl.empty q)
  · obtain ⟨path, hp, hne, hnq⟩ := hw.literal _ _ _ hg himp
    rw [he, hp, trimQuotes_literal hnq] at h
    have h1 := hl.imported _ _ _ _ _ hg himp hp h
    refine ⟨imp, himp, path, Or.inl hp, h1, ?_⟩
    rcases hn with hn | ⟨hn, hs⟩
    · exact Or.inl hn
    · refine Or.inr ⟨hn, ?_⟩
      rw [hp, trimQuotes_literal hnq] at hs
      rw [← hs]
      rcases hl.segment _ _ _ _ _ hg himp hp h hn with h2 | ⟨dir, h2⟩
      · rw [← h2, lastSegment_none (hl.name q)]
      · rw [h2, lastSegment_slash (hl.name q)]

/-- The methods found for the type expression `e` of file `f` are methods of its method set, reached along
the kinds of type expressions that gowrap follows. -/
def SoundFor (w : World) (pos : At) (p : PkgId) (pref : Str) (f : File) (e : Expr) (r : Methods) : Prop :=
  ∀ k m, (k, m) ∈ r → ∃ d c, d.name = k ∧ Provides w p pref pos p f e d c ∧ SignatureOf w p pref d c m

/-- The type parameters and arguments of the declaration being processed. -/
def Input.inst (i : Input) : Inst := ⟨i.genericTypes.flatMap (·.names), i.genericParams.map (·.string)⟩

/-- Soundness of all functions at one recursion bound. -/
structure SoundAt (w : World) (s : Sched) (n : Nat) : Prop where
  target : ∀ path cur pref files name gps out, w.files cur = .ok files →
    findTarget w s n path cur pref files name gps = .ok out →
    ∃ f ts, FileOf w cur f ∧ DeclaredIn f ts ∧ ts.name = name ∧ out.imports = f.imports ∧
      SoundFor w (.rhs ⟨typeParamNames ts, gps.map (·.string)⟩) cur pref f ts.type (out.methods.getD [])
  methods : ∀ path f ts i r, InputOk w i f → DeclaredIn f ts → i.file = typeSpecs f →
    findMethods w s n path ts i = .ok r → SoundFor w (.rhs i.inst) i.cur i.pref f ts.type (r.getD [])
  get : ∀ path sel src q r, w.load src = .ok q → getMethods w s n path sel src = .ok r →
    ∃ f ts, FileOf w q f ∧ DeclaredIn f ts ∧ ts.name = sel ∧
      SoundFor w (.rhs ⟨typeParamNames ts, []⟩) q (w.pkg q).name f ts.type (r.getD [])
  iface : ∀ path f g ms i r, InputOk w i g → FileOf w i.cur f →
    (∀ a, Qualifies a (.ifaceT ms) → AgreeAt w i.cur f a) →
    processInterface w s n path ms i = .ok r → SoundFor w (.rhs i.inst) i.cur i.pref f (.ifaceT ms) (r.getD [])
  fields : ∀ path f g ms i acc r, InputOk w i g → FileOf w i.cur f →
    (∀ a, Qualifies a (.ifaceT ms) → AgreeAt w i.cur f a) →
    processFields w s n path ms i acc = .ok r → ∀ k m, (k, m) ∈ r.getD [] → (k, m) ∈ acc ∨
      ∃ d c, d.name = k ∧ Provides w i.cur i.pref (.rhs i.inst) i.cur f (.ifaceT ms) d c ∧
        SignatureOf w i.cur i.pref d c m
  embedded : ∀ path f g e i b p r, InputOk w i g → FileOf w i.cur f →
    (∀ a, Qualifies a e → AgreeAt w i.cur f a) →
    processEmbedded w s n path e i b = .ok (p, r) → SoundFor w .elem i.cur i.pref f e (r.getD [])
  getEmbedded : ∀ path f g e i b p r, InputOk w i g → FileOf w i.cur f →
    (∀ a, Qualifies a e → AgreeAt w i.cur f a) →
    getEmbeddedMethods w s n path e i b = .ok (p, r) →
    SoundFor w (.inst (i.genericParams.map (·.string))) i.cur i.pref f e (r.getD []) ∧ (r.getD [] ≠ [] → NamesType e)
  selector : ∀ path f g x sel i r, InputOk w i g → FileOf w i.cur f →
    (∀ a, x = .ident a → AgreeAt w i.cur f a) →
    processSelector w s n path x sel i = .ok r →
    SoundFor w (.inst (i.genericParams.map (·.string))) i.cur i.pref f (.selector x sel) (r.getD []) ∧
      ∃ a, x = .ident a
  ident : ∀ path f g name i b r, InputOk w i g → FileOf w i.cur f →
    processIdent w s n path name i b = .ok r →
    SoundFor w (.inst (i.genericParams.map (·.string))) i.cur i.pref f (.ident name) (r.getD [])

theorem Spec.Views.reroot {w : World} {q p r : PkgId} {pref : Str} {env : PrintEnv}
    (h : Views w q (w.pkg q).name r env) : Views w p pref r env := by
  refine ⟨h.uni, h.raw, h.types, Or.inr ?_⟩
  rcases h.pref with ⟨rfl, h6⟩ | h6 <;> exact h6

/-- A signature seen from the package itself is a signature seen from anywhere. -/
theorem Spec.SignatureOf.reroot {w : World} {q p : PkgId} {pref : Str} {d : MethodDecl} {c : Inst} {m : Method}
    (h : SignatureOf w q (w.pkg q).name d c m) : SignatureOf w p pref d c m := by
  obtain ⟨q', env, h1, h2, h3, h4⟩ := h
  exact ⟨q', env, h1, h2, h3.reroot, h4⟩

theorem Spec.Provides.reroot {w : World} {q p r : PkgId} {pref : Str} {pos : At} {f : File} {e : Expr}
    {d : MethodDecl} {c : Inst} (h : Provides w q (w.pkg q).name pos r f e d c) : Provides w p pref pos r f e d c := by
  induction h with
  | declared h1 h2 h3 => exact .declared h1 h2 h3
  | embedded h1 _ ih => exact .embedded h1 ih
  | alias h1 _ ih => exact .alias h1 ih
  | rhsSelector h1 h2 h3 _ ih => exact .rhsSelector h1 h2 h3 ih
  | plain h1 _ ih => exact .plain h1 ih
  | index h1 h2 h3 _ ih => exact .index h1 h2.reroot h3 ih
  | indexList h1 h2 h3 _ ih => exact .indexList h1 h2.reroot h3 ih
  | named h1 h2 _ ih => exact .named h1 h2 ih
  | selector h1 h2 h3 _ ih => exact .selector h1 h2 h3 ih

theorem genericTypes_names {types : List Str} {pref : Str} : ∀ {fs : List Field} {gts : List GType},
    genericTypesFromFields types pref fs = .ok gts → gts.flatMap (·.names) = fs.flatMap (·.names)
  | [], gts, h => by simp only [genericTypesFromFields] at h; cases h; rfl
  | fd :: fs, gts, h => by
    simp only [genericTypesFromFields, Res.bind_eq_ok] at h
    obtain ⟨_, _, gts', h1, h⟩ := h
    cases h
    simp [genericTypes_names h1]

theorem buildGenericTypes_names {ts : TypeSpec} {types : List Str} {pref : Str} {gts : List GType}
    (h : buildGenericTypesFromSpec ts types pref = .ok gts) : gts.flatMap (·.names) = typeParamNames ts := by
  unfold buildGenericTypesFromSpec at h
  unfold typeParamNames
  split at h
  · next hn => cases h; simp [hn]
  · next l hl => rw [hl]; exact genericTypes_names h

theorem InputOk.views {w : World} {i : Input} {g : File} (h : InputOk w i g) :
    Views w i.cur i.pref i.cur (i.sigEnv w).print := by
  refine ⟨rfl, rfl, fun n => ?_, Or.inl ⟨rfl, rfl⟩⟩
  simp only [Input.sigEnv, List.mem_map]
  constructor
  · rintro ⟨ts, hts, rfl⟩
    obtain ⟨f, hf⟩ := (h.types ts).1 hts
    exact ⟨f, ts, hf.1, hf.2, rfl⟩
  · rintro ⟨f, ts, hf, hd, rfl⟩
    exact ⟨ts, (h.types ts).2 ⟨f, hf, hd⟩, rfl⟩

theorem InputOk.names {w : World} {i : Input} {g : File} (hpr : Printable w) (h : InputOk w i g) :
    [] ∉ i.types.map (·.name) := by
  rw [List.mem_map]
  rintro ⟨ts, hts, hn⟩
  obtain ⟨f, hf⟩ := (h.types ts).1 hts
  exact hpr.names _ _ _ hf.1 hf.2 hn

theorem InputOk.generics {w : World} {i : Input} {g : File} (h : InputOk w i g) (gts : List GType)
    (gps : List GParam) : InputOk w { i with genericTypes := gts, genericParams := gps } g :=
  ⟨h.types, h.file, h.imports⟩

theorem findEmbedded_spec {types : List TypeSpec} {name : Str} {b : Bool} {t : TypeSpec} {ms : List Field}
    (h : findEmbedded types name b = .ok (some (t, ms))) : t ∈ types ∧ t.name = name ∧ t.type = .ifaceT ms := by
  unfold findEmbedded at h
  split at h
  · cases h
  · next t' ht =>
    have h1 := List.mem_of_find?_eq_some ht
    have h2 := List.find?_some ht
    split at h
    · next ms' he =>
      cases h
      exact ⟨h1, by simpa using h2, he⟩
    · split at h <;> cases h

theorem sound_zero (w : World) (s : Sched) : SoundAt w s 0 where
  target := by intros; simp_all [findTarget]
  methods := by intros; simp_all [findMethods]
  get := by intros; simp_all [getMethods]
  iface := by intros; simp_all [processInterface]
  fields := by intros; simp_all [processFields]
  embedded := by intros; simp_all [processEmbedded]
  getEmbedded := by intros; simp_all [getEmbeddedMethods]
  selector := by intros; simp_all [processSelector]
  ident := by intros; simp_all [processIdent]

theorem soundFor_none {w : World} {pos : At} {p : PkgId} {pref : Str} {f : File} {e : Expr} :
    SoundFor w pos p pref f e ((none : Option Methods).getD []) := by
  intro k m h
  simp at h

theorem sound_succ {w : World} {s : Sched} (hs : s.Fair) (hp : PlainImports w) (hl : LoadsImports w)
    (ha : QualifiersAgree w) (hpr : Printable w) {n : Nat} (ih : SoundAt w s n) : SoundAt w s (n + 1) where
  target := by
    intro path cur pref files name gps out hf h
    simp only [findTarget] at h
    split at h
    · cases h
    · next ts f hsel =>
      obtain ⟨h1, h2, h3⟩ := iterateFiles_some hsel
      have hff : FileOf w cur f := ⟨files, hf, (hs.files path files).mem_iff.1 h1⟩
      rw [Res.bind_eq_ok] at h
      obtain ⟨gts, hgts, h⟩ := h
      rw [Res.bind_eq_ok] at h
      obtain ⟨r, hr, h⟩ := h
      cases h
      refine ⟨f, ts, hff, h2, h3, rfl, ?_⟩
      rw [← buildGenericTypes_names hgts]
      refine ih.methods _ f ts _ r ⟨?_, hff, rfl⟩ h2 rfl hr
      intro t
      rw [mem_types]
      constructor
      · rintro ⟨f', h4, h5⟩
        exact ⟨f', ⟨files, hf, (hs.files path files).mem_iff.1 h4⟩, h5⟩
      · rintro ⟨f', ⟨fs, h4, h4'⟩, h5⟩
        rw [show w.files cur = _ from hf] at h4
        cases h4
        exact ⟨f', (hs.files path files).mem_iff.2 h4', h5⟩
  methods := by
    intro path f ts i r hi hd hfile h
    simp only [findMethods] at h
    split at h
    · next ms he =>
      rw [he]
      refine ih.iface _ f f ms i r hi hi.file ?_ h
      intro a hq
      exact ha _ _ ts a hi.file hd (he ▸ hq)
    · next x sel he =>
      rw [he]
      split at h
      · next a =>
        have hload : ∃ q, w.load (findSourcePackage a i.imports) = .ok q := by
          cases n with
          | zero => simp [getMethods] at h
          | succ n =>
            simp only [getMethods, Res.bind_eq_ok] at h
            obtain ⟨q, hq, _⟩ := h
            exact ⟨q, hq⟩
        obtain ⟨q, hq⟩ := hload
        obtain ⟨f', ts', h1, h2, h3, h4⟩ := ih.get _ _ _ q r hq h
        have himp := resolve_source hp hl hi.file (by rw [← hi.imports]; exact hq)
        intro k m hkm
        obtain ⟨d, c, hd1, hd2, hd3⟩ := h4 k m hkm
        refine ⟨d, c, hd1, ?_, hd3.reroot⟩
        rw [← h3]
        exact .rhsSelector himp h1 h2 hd2.reroot
      · cases h; exact soundFor_none
    · next a he =>
      rw [he]
      split at h
      · next ts' hts =>
        have h1 : ts'.name = a := by simpa using List.find?_some hts
        have h2 : DeclaredIn f ts' := by
          rw [← mem_typeSpecs, ← hfile]
          exact List.mem_of_find?_eq_some hts
        intro k m hkm
        obtain ⟨d, c, hd1, hd2, hd3⟩ := ih.methods _ f ts' i r hi h2 hfile h k m hkm
        refine ⟨d, c, hd1, ?_, hd3⟩
        rw [← h1]
        exact .alias h2 hd2
      · cases h; exact soundFor_none
    · cases h; exact soundFor_none
  get := by
    intro path sel src q r hq h
    simp only [getMethods, hq, Res.ok_bind] at h
    rw [Res.bind_eq_ok] at h
    obtain ⟨files, hf, h⟩ := h
    rw [Res.bind_eq_ok] at h
    obtain ⟨out, ho, h⟩ := h
    cases h
    obtain ⟨f, ts, h1, h2, h3, _, h4⟩ := ih.target _ _ _ _ _ _ _ hf ho
    exact ⟨f, ts, h1, h2, h3, h4⟩
  iface := by
    intro path f g ms i r hi hf hq h
    simp only [processInterface] at h
    intro k m hkm
    rcases ih.fields _ f g ms i [] r hi hf hq h k m hkm with h | h
    · simp at h
    · exact h
  fields := by
    intro path f g ms i acc r hi hf hq h
    cases ms with
    | nil =>
      simp only [processFields] at h
      cases h
      intro k m hkm
      exact Or.inl hkm
    | cons fd rest =>
      have hq' : ∀ a, Qualifies a (.ifaceT rest) → AgreeAt w i.cur f a := by
        intro a hqa
        cases hqa with
        | elem h1 h2 => exact hq a (.elem (List.mem_cons_of_mem _ h1) h2)
      have lift : ∀ d c, Provides w i.cur i.pref (.rhs i.inst) i.cur f (.ifaceT rest) d c →
          Provides w i.cur i.pref (.rhs i.inst) i.cur f (.ifaceT (fd :: rest)) d c := by
        intro d c hd
        cases hd with
        | declared h1 h2 h3 => exact .declared (List.mem_cons_of_mem _ h1) h2 h3
        | embedded h1 h2 => exact .embedded (List.mem_cons_of_mem _ h1) h2
      simp only [processFields] at h
      split at h
      · next ps rs hft =>
        split at h
        · cases h
        · next name names hnames =>
          rw [Res.bind_eq_ok] at h
          obtain ⟨method, hm, h⟩ := h
          intro k m hkm
          rcases ih.fields _ f g rest i _ r hi hf hq' h k m hkm with h | ⟨d, c, h1, h2, h3⟩
          · rcases mem_upsert h with h | h
            · cases h
              refine Or.inr ⟨⟨name, fd, some i.cur⟩, i.inst, rfl, ?_, ?_⟩
              · exact .declared (by simp) hft (by simp [hnames])
              · exact ⟨i.cur, i.sigEnv w, rfl, hm, hi.views, rfl, rfl⟩
            · exact Or.inl h
          · exact Or.inr ⟨d, c, h1, lift d c h2, h3⟩
      · next hft =>
        rw [Res.bind_eq_ok] at h
        obtain ⟨⟨p, emb⟩, he, h⟩ := h
        have hemb := ih.embedded _ f g fd.type i true p emb hi hf
          (fun a hqa => hq a (.elem (by simp) hqa)) he
        intro k m hkm
        rcases ih.fields _ f g rest i _ r hi hf hq' h k m hkm with h | ⟨d, c, h1, h2, h3⟩
        · rcases mem_merge h with h | h
          · exact Or.inl h
          · obtain ⟨d, c, h1, h2, h3⟩ := hemb k m h
            exact Or.inr ⟨d, c, h1, .embedded (by simp) h2, h3⟩
        · exact Or.inr ⟨d, c, h1, lift d c h2, h3⟩
  embedded := by
    intro path f g e i b p r hi hf hq h
    simp only [processEmbedded] at h
    split at h
    · next x idx =>
      rw [Res.bind_eq_ok] at h
      obtain ⟨gps, hgps, h⟩ := h
      obtain ⟨ats, ht1, ht2⟩ := (argsAt w s n).args _ _ _ _ _ hpr.raw (hi.names hpr) hgps
      rw [Res.bind_eq_ok] at h
      obtain ⟨⟨p', r'⟩, hr, h⟩ := h
      cases h
      obtain ⟨this, hnt⟩ := ih.getEmbedded _ f g x _ b p' r' (hi.generics i.genericTypes gps) hf
        (fun a hqa => hq a (.index hqa)) hr
      intro k m hkm
      obtain ⟨d, c, h1, h2, h3⟩ := this k m hkm
      cases ht1 with
      | cons ht3 ht4 =>
        cases ht4
        simp only [List.map_nil, List.nil_append] at ht2
        simp only [ht2] at h2
        exact ⟨d, c, h1, .index (hnt (List.ne_nil_of_mem hkm)) hi.views ht3 h2, h3⟩
    · next x is =>
      rw [Res.bind_eq_ok] at h
      obtain ⟨gps, hgps, h⟩ := h
      obtain ⟨ats, ht1, ht2⟩ := (argsAt w s n).args _ _ _ _ _ hpr.raw (hi.names hpr) hgps
      rw [Res.bind_eq_ok] at h
      obtain ⟨⟨p', r'⟩, hr, h⟩ := h
      cases h
      obtain ⟨this, hnt⟩ := ih.getEmbedded _ f g x _ b p' r' (hi.generics i.genericTypes gps) hf
        (fun a hqa => hq a (.indexList hqa)) hr
      intro k m hkm
      obtain ⟨d, c, h1, h2, h3⟩ := this k m hkm
      simp only [List.map_nil, List.nil_append] at ht2
      simp only [ht2] at h2
      exact ⟨d, c, h1, .indexList (hnt (List.ne_nil_of_mem hkm)) hi.views ht1 h2, h3⟩
    · obtain ⟨this, hnt⟩ := ih.getEmbedded _ f g e { i with genericParams := [] } b p r
        (hi.generics i.genericTypes []) hf hq h
      intro k m hkm
      obtain ⟨d, c, h1, h2, h3⟩ := this k m hkm
      exact ⟨d, c, h1, .plain (hnt (List.ne_nil_of_mem hkm)) h2, h3⟩
  getEmbedded := by
    intro path f g e i b p r hi hf hq h
    simp only [getEmbeddedMethods, Res.bind_eq_ok] at h
    obtain ⟨name, _, h⟩ := h
    split at h
    · next x sel _ =>
      rw [Res.bind_eq_ok] at h
      obtain ⟨r', hr, h⟩ := h
      cases h
      obtain ⟨h1, a, rfl⟩ := ih.selector _ f g x sel i _ hi hf
        (fun a hx => hq a (by subst hx; exact .here)) hr
      exact ⟨h1, fun _ => Or.inr ⟨a, sel, rfl⟩⟩
    · next a _ =>
      rw [Res.bind_eq_ok] at h
      obtain ⟨r', hr, h⟩ := h
      cases h
      exact ⟨ih.ident _ f g a i b _ hi hf hr, fun _ => Or.inl ⟨a, rfl⟩⟩
    · cases h; exact ⟨soundFor_none, fun h => absurd rfl h⟩
  selector := by
    intro path f g x sel i r hi hf hq h
    simp only [processSelector] at h
    split at h
    · next a =>
      rw [Res.bind_eq_ok] at h
      obtain ⟨ipath, hip, h⟩ := h
      split at h
      · cases h
      · next q hlk =>
        rw [Res.bind_eq_ok] at h
        obtain ⟨files, hfiles, h⟩ := h
        rw [Res.bind_eq_ok] at h
        obtain ⟨out, ho, h⟩ := h
        cases h
        have himp := resolve_selector hp hi (hq a rfl) (hs.imports path _) hip hlk
        obtain ⟨f', ts, h1, h2, h3, _, h4⟩ := ih.target _ _ _ _ _ _ _ hfiles ho
        refine ⟨?_, a, rfl⟩
        intro k m hkm
        obtain ⟨d, c, hd1, hd2, hd3⟩ := h4 k m hkm
        refine ⟨d, c, hd1, ?_, hd3.reroot⟩
        rw [← h3]
        exact .selector himp h1 h2 hd2.reroot
    · cases h
  ident := by
    intro path f g name i b r hi hf h
    simp only [processIdent, Res.bind_eq_ok] at h
    obtain ⟨fe, hfe, h⟩ := h
    split at h
    · cases h; exact soundFor_none
    · next t ms =>
      obtain ⟨h1, h2, h3⟩ := findEmbedded_spec hfe
      rw [Res.bind_eq_ok] at h
      obtain ⟨gts, hgts, h⟩ := h
      obtain ⟨f', hf', hd'⟩ := (hi.types t).1 h1
      have := ih.iface _ f' g ms _ r (hi.generics gts i.genericParams) hf'
        (fun a hqa => ha _ _ t a hf' hd' (h3 ▸ hqa)) h
      intro k m hkm
      obtain ⟨d, c, hd1, hd2, hd3⟩ := this k m hkm
      refine ⟨d, c, hd1, ?_, hd3⟩
      simp only [Input.inst, buildGenericTypes_names hgts] at hd2
      rw [← h2]
      exact .named hf' hd' (h3 ▸ hd2)

theorem sound {w : World} {s : Sched} (hs : s.Fair) (hp : PlainImports w) (hl : LoadsImports w)
    (ha : QualifiersAgree w) (hpr : Printable w) : ∀ n, SoundAt w s n
  | 0 => sound_zero w s
  | n + 1 => sound_succ hs hp hl ha hpr (sound hs hp hl ha hpr n)

end Gowrap
