import Verif.Proofs.MethodOk
/-!
# Everything discovered in parsed packages can be printed
-/

namespace Gowrap

open Gowrap.Spec Gowrap.Go

def MethodsOk (K : Copied) (r : Option Methods) : Prop := ∀ e ∈ r.getD [], MethodOk K e

/-- The declarations that discovery can see have been parsed. -/
structure InputFine (w : World) (i : Input) : Prop where
  types : ∀ ts ∈ i.types, SrcSpec w.raw ts
  file : ∀ ts ∈ i.file, SrcSpec w.raw ts
  pref : i.pref = [] ∨ GoName i.pref
  names : ∀ n ∈ i.genericTypes.flatMap (·.names), GoName n
  args : ∀ p ∈ i.genericParams, ArgOk (copiedOf w.raw) p

theorem InputFine.env {w : World} {i : Input} (h : InputFine w i) : EnvFine w (i.sigEnv w) := ⟨rfl, ⟨h.pref⟩, h.names, h.args⟩

theorem InputFine.withArgs {w : World} {i : Input} (h : InputFine w i) {gps : List GParam} (hg : ∀ p ∈ gps, ArgOk (copiedOf w.raw) p) :
    InputFine w { i with genericParams := gps } := ⟨h.types, h.file, h.pref, h.names, hg⟩

/-- A field of an interface. -/
def SrcMember (raw : Expr → Str) (f : Field) : Prop :=
  (∀ n ps rs, f.names.head? = some n → f.type = .funcT ps rs → SrcMethod raw n ps rs) ∧ SrcElement raw f.type

theorem srcElement_of {raw : Expr → Str} {e : Expr} (h : SrcType raw False e) : SrcElement raw e := by
  cases e with
  | index x i => simpa [SrcType, SrcElement] using h
  | indexList x is => simpa [SrcType, SrcElement] using h
  | _ => trivial

theorem srcTypes_mem {raw : Expr → Str} : ∀ {es : List Expr}, SrcTypes raw es → ∀ e ∈ es, SrcType raw False e
  | [], _ => nofun
  | e :: es, h => by
    simp only [SrcTypes] at h
    intro x hx
    rcases List.mem_cons.mp hx with rfl | hx
    · exact h.1
    · exact srcTypes_mem h.2 x hx

/-- What all functions of discovery return, at one recursion bound. -/
structure OkAt (w : World) (s : Sched) (n : Nat) : Prop where
  target : ∀ path cur pref files name gps out, w.files cur = .ok files → (pref = [] ∨ GoName pref) →
    (∀ p ∈ gps, ArgOk (copiedOf w.raw) p) → findTarget w s n path cur pref files name gps = .ok out → MethodsOk (copiedOf w.raw) out.methods
  methods : ∀ path ts i r, InputFine w i → SrcSpec w.raw ts → findMethods w s n path ts i = .ok r → MethodsOk (copiedOf w.raw) r
  get : ∀ path sel src r, getMethods w s n path sel src = .ok r → MethodsOk (copiedOf w.raw) r
  iface : ∀ path ms i r, InputFine w i → (∀ f ∈ ms, SrcMember w.raw f) → processInterface w s n path ms i = .ok r → MethodsOk (copiedOf w.raw) r
  fields : ∀ path ms i acc r, InputFine w i → (∀ f ∈ ms, SrcMember w.raw f) → MethodsOk (copiedOf w.raw) (some acc) →
    processFields w s n path ms i acc = .ok r → MethodsOk (copiedOf w.raw) r
  embedded : ∀ path e i b p r, InputFine w i → SrcElement w.raw e → processEmbedded w s n path e i b = .ok (p, r) →
    MethodsOk (copiedOf w.raw) r ∧ (SrcType w.raw False e → ArgOk (copiedOf w.raw) p)
  args : ∀ path es i acc gps, InputFine w i → (∀ e ∈ es, SrcType w.raw False e) → (∀ p ∈ acc, ArgOk (copiedOf w.raw) p) →
    processArgs w s n path es i acc = .ok gps → ∀ p ∈ gps, ArgOk (copiedOf w.raw) p
  getEmbedded : ∀ path e i b p r, InputFine w i → getEmbeddedMethods w s n path e i b = .ok (p, r) →
    MethodsOk (copiedOf w.raw) r ∧ p.params = [] ∧ printType (i.sigEnv w).print e = .ok p.name
  selector : ∀ path x sel i r, InputFine w i → processSelector w s n path x sel i = .ok r → MethodsOk (copiedOf w.raw) r
  ident : ∀ path name i b r, InputFine w i → processIdent w s n path name i b = .ok r → MethodsOk (copiedOf w.raw) r

theorem ok_zero (w : World) (s : Sched) : OkAt w s 0 where
  target := by intros; simp_all [findTarget]
  methods := by intros; simp_all [findMethods]
  get := by intros; simp_all [getMethods]
  iface := by intros; simp_all [processInterface]
  fields := by intros; simp_all [processFields]
  embedded := by intros; simp_all [processEmbedded]
  args := by intros; simp_all [processArgs]
  getEmbedded := by intros; simp_all [getEmbeddedMethods]
  selector := by intros; simp_all [processSelector]
  ident := by intros; simp_all [processIdent]

theorem methodsOk_none {K : Copied} : MethodsOk K none := by intro e h; simp at h

theorem gparam_strings : ∀ ps : List GParam, GParam.strings ps = ps.map (·.string)
  | [] => rfl
  | p :: ps => by rw [GParam.strings, gparam_strings ps]; rfl

/-- A name with type arguments. -/
theorem argOk_inst {w : World} {env : SigEnv} (he : EnvFine w env) {x : Expr} {name : Str} (hx : SrcName w.raw x)
    (h : printType env.print x = .ok name) {gps : List GParam} (hg : ∀ p ∈ gps, ArgOk (copiedOf w.raw) p) :
    ArgOk (copiedOf w.raw) (.mk name gps) := by
  rw [← he.raw] at hx
  obtain ⟨l, hl, hn⟩ := print_name he.pref hx h
  by_cases h0 : gps = []
  · subst h0
    exact ⟨l, hl, .name hn, by simpa using nameToks_noDots hn []⟩
  · have hlen : gps.length > 0 := List.length_pos_iff.mpr h0
    have hargs : ∃ args : List (Str × List Go.Tok), args.map (·.1) = gps.map (·.string) ∧ (args = [] → gps = []) ∧
        ∀ a ∈ args, Item true a.1 a.2 ∧ IsType (copiedOf w.raw) a.2 := by
      clear h0 hlen
      induction gps with
      | nil => exact ⟨[], rfl, fun _ => rfl, nofun⟩
      | cons p ps ih =>
        obtain ⟨args, h1, _, h2⟩ := ih (fun q hq => hg q (by simp [hq]))
        obtain ⟨k, k1, k2, _⟩ := hg p (by simp)
        refine ⟨(p.string, k) :: args, by simp [h1], nofun, fun a ha => ?_⟩
        rcases List.mem_cons.mp ha with rfl | ha
        · exact ⟨k1.item, k2⟩
        · exact h2 a ha
    obtain ⟨args, h1, h2, h3⟩ := hargs
    have := piece_inst hl args (fun a h => (h3 a h).1)
    rw [h1] at this
    refine ⟨_, ?_, .inst (args := args.map (·.2)) hn ?_ ?_, nameToks_noDots hn _⟩
    · unfold GParam.string
      simp only [if_pos hlen, gparam_strings]
      simpa using this
    · simpa using fun e => h0 (h2 e)
    · intro a ha
      obtain ⟨b, hb, rfl⟩ := List.mem_map.mp ha
      exact (h3 b hb).2

theorem argOk_plain {w : World} {env : SigEnv} (he : EnvFine w env) {e : Expr} {name : Str} (hx : SrcType w.raw False e)
    (h : printType env.print e = .ok name) : ArgOk (copiedOf w.raw) (.mk name []) := by
  rw [← he.raw] at hx
  obtain ⟨l, hl⟩ := printType_toks env.print he.pref e False name hx h
  rw [he.raw] at hl
  rcases hl.kind with ⟨_, h2, h3⟩ | h
  · exact ⟨l, hl.piece, h2, h3⟩
  · exact h.1.elim

theorem ok_succ {w : World} {s : Sched} (hs : s.Fair) (hw : SourceOk w) {n : Nat} (ih : OkAt w s n) : OkAt w s (n + 1) where
  target := by
    intro path cur pref files name gps out hf hp hg h
    simp only [findTarget] at h
    split at h
    · cases h
    · next ts f hsel =>
      obtain ⟨h1, h2, h3⟩ := iterateFiles_some hsel
      have hff : FileOf w cur f := ⟨files, hf, (hs.files path files).mem_iff.1 h1⟩
      rw [Res.bind_eq_ok] at h
      obtain ⟨gts, hgts, h⟩ := h
      rw [Res.bind_eq_ok] at h
      obtain ⟨r, hr, h⟩ := h
      cases h
      have hts := hw.specs _ _ _ hff h2
      refine ih.methods _ ts _ r ⟨?_, ?_, hp, ?_, hg⟩ hts hr
      · intro t ht
        rw [mem_types] at ht
        obtain ⟨f', h4, h5⟩ := ht
        exact hw.specs _ _ _ ⟨files, hf, (hs.files path files).mem_iff.1 h4⟩ h5
      · intro t ht
        exact hw.specs _ _ _ hff ((mem_typeSpecs _ _).1 ht)
      · show ∀ n ∈ gts.flatMap (·.names), GoName n
        rw [buildGenericTypes_names hgts]
        unfold typeParamNames
        intro n hn
        cases hp : ts.typeParams with
        | none => rw [hp] at hn; simp at hn
        | some fs =>
          rw [hp] at hn
          obtain ⟨f, hf, hn⟩ := List.mem_flatMap.mp hn
          exact hts.params fs hp f hf n hn
  methods := by
    intro path ts i r hi hts h
    simp only [findMethods] at h
    split at h
    · next ms he => exact ih.iface _ ms i r hi (fun f hf => ⟨fun n ps rs => hts.methods ms he f hf n ps rs, hts.elements ms he f hf⟩) h
    · next x sel he =>
      split at h
      · exact ih.get _ _ _ r h
      · cases h; exact methodsOk_none
    · next a he =>
      split at h
      · next ts' hts' => exact ih.methods _ ts' i r hi (hi.file ts' (List.mem_of_find?_eq_some hts')) h
      · cases h; exact methodsOk_none
    · cases h; exact methodsOk_none
  get := by
    intro path sel src r h
    simp only [getMethods, Res.bind_eq_ok] at h
    obtain ⟨q, hq, files, hf, out, ho, h⟩ := h
    cases h
    cases files with
    | nil => cases n <;> simp [findTarget, iterateFiles] at ho
             have := hs.files (0 :: path) []
             simp at this
             simp [this] at ho
    | cons f fs => exact ih.target _ _ _ _ _ _ _ hf (.inr (hw.names q f ⟨_, hf, by simp⟩)) (by simp) ho
  iface := by
    intro path ms i r hi hm h
    simp only [processInterface] at h
    exact ih.fields _ ms i [] r hi hm (fun e he => by simp at he) h
  fields := by
    intro path ms i acc r hi hm hacc h
    cases ms with
    | nil =>
      simp only [processFields] at h
      cases h
      exact hacc
    | cons fd rest =>
      have hrest : ∀ f ∈ rest, SrcMember w.raw f := fun f hf => hm f (by simp [hf])
      simp only [processFields] at h
      split at h
      · next ps rs hft =>
        split at h
        · cases h
        · next name names hnames =>
          rw [Res.bind_eq_ok] at h
          obtain ⟨method, hmm, h⟩ := h
          refine ih.fields _ rest i _ r hi hrest ?_ h
          intro e he
          rcases mem_upsert he with he | he
          · have : e = (name, method) := he
            rw [this]
            exact newMethod_fine hi.env hft ((hm fd (by simp)).1 name ps rs (by simp [hnames]) hft) hmm
          · exact hacc e he
      · next hft =>
        rw [Res.bind_eq_ok] at h
        obtain ⟨⟨p, emb⟩, he, h⟩ := h
        have hemb := (ih.embedded _ fd.type i true p emb hi (hm fd (by simp)).2 he).1
        refine ih.fields _ rest i _ r hi hrest ?_ h
        intro e he
        rcases mem_merge he with h | h
        · exact hacc e h
        · exact hemb e h
  embedded := by
    intro path e i b p r hi hel h
    simp only [processEmbedded] at h
    split at h
    · next x idx =>
      simp only [SrcElement] at hel
      rw [Res.bind_eq_ok] at h
      obtain ⟨gps, hgps, h⟩ := h
      have hg := ih.args _ [idx] i [] gps hi (by simpa using hel.2) nofun hgps
      rw [Res.bind_eq_ok] at h
      obtain ⟨⟨p', r'⟩, hr, h⟩ := h
      cases h
      obtain ⟨h1, h2, h3⟩ := ih.getEmbedded _ x _ b p' r' (hi.withArgs hg) hr
      exact ⟨h1, fun _ => argOk_inst (hi.withArgs hg).env hel.1 h3 hg⟩
    · next x is =>
      simp only [SrcElement] at hel
      rw [Res.bind_eq_ok] at h
      obtain ⟨gps, hgps, h⟩ := h
      have hg := ih.args _ is i [] gps hi (srcTypes_mem hel.2.2) nofun hgps
      rw [Res.bind_eq_ok] at h
      obtain ⟨⟨p', r'⟩, hr, h⟩ := h
      cases h
      obtain ⟨h1, h2, h3⟩ := ih.getEmbedded _ x _ b p' r' (hi.withArgs hg) hr
      exact ⟨h1, fun _ => argOk_inst (hi.withArgs hg).env hel.1 h3 hg⟩
    · have hi' := hi.withArgs (gps := []) nofun
      obtain ⟨h1, h2, h3⟩ := ih.getEmbedded _ e _ b p r hi' h
      refine ⟨h1, fun hsrc => ?_⟩
      cases p with
      | mk name params =>
        simp only [GParam.params] at h2
        subst h2
        exact argOk_plain hi'.env hsrc h3
  args := by
    intro path es i acc gps hi hes hacc h
    cases es with
    | nil => simp only [processArgs] at h; cases h; exact hacc
    | cons e es =>
      simp only [processArgs, Res.bind_eq_ok] at h
      obtain ⟨⟨p, r⟩, hp, h⟩ := h
      have he := hes e (by simp)
      have := (ih.embedded _ e i false p r hi (srcElement_of he) hp).2 he
      refine ih.args _ es i _ gps hi (fun x hx => hes x (by simp [hx])) ?_ h
      intro q hq
      unfold appendParam at hq
      split at hq
      · rcases List.mem_append.mp hq with hq | hq
        · exact hacc q hq
        · rw [List.mem_singleton] at hq; subst hq; exact this
      · exact hacc q hq
  getEmbedded := by
    intro path e i b p r hi h
    simp only [getEmbeddedMethods, Res.bind_eq_ok] at h
    obtain ⟨name, hname, h⟩ := h
    split at h
    · rw [Res.bind_eq_ok] at h
      obtain ⟨r', hr, h⟩ := h
      cases h
      exact ⟨ih.selector _ _ _ i _ hi hr, rfl, hname⟩
    · rw [Res.bind_eq_ok] at h
      obtain ⟨r', hr, h⟩ := h
      cases h
      exact ⟨ih.ident _ _ i b _ hi hr, rfl, hname⟩
    · cases h; exact ⟨methodsOk_none, rfl, hname⟩
  selector := by
    intro path x sel i r hi h
    simp only [processSelector] at h
    split at h
    · next a =>
      rw [Res.bind_eq_ok] at h
      obtain ⟨ipath, hip, h⟩ := h
      split at h
      · cases h
      · next q hlk =>
        rw [Res.bind_eq_ok] at h
        obtain ⟨files, hfiles, h⟩ := h
        rw [Res.bind_eq_ok] at h
        obtain ⟨out, ho, h⟩ := h
        cases h
        cases files with
        | nil => cases n <;> simp [findTarget, iterateFiles] at ho
                 have := hs.files (0 :: path) []
                 simp at this
                 simp [this] at ho
        | cons f fs => exact ih.target _ _ _ _ _ _ _ hfiles (.inr (hw.names q f ⟨_, hfiles, by simp⟩)) hi.args ho
    · cases h
  ident := by
    intro path name i b r hi h
    simp only [processIdent, Res.bind_eq_ok] at h
    obtain ⟨fe, hfe, h⟩ := h
    split at h
    · cases h; exact methodsOk_none
    · next t ms =>
      obtain ⟨h1, h2, h3⟩ := findEmbedded_spec hfe
      rw [Res.bind_eq_ok] at h
      obtain ⟨gts, hgts, h⟩ := h
      have hts := hi.types t h1
      refine ih.iface _ ms { i with genericTypes := gts } r ⟨hi.types, hi.file, hi.pref, ?_, hi.args⟩
        (fun f hf => ⟨fun n ps rs => hts.methods ms h3 f hf n ps rs, hts.elements ms h3 f hf⟩) h
      show ∀ n ∈ gts.flatMap (·.names), GoName n
      rw [buildGenericTypes_names hgts]
      unfold typeParamNames
      intro n hn
      cases hp : t.typeParams with
      | none => rw [hp] at hn; simp at hn
      | some fs =>
        rw [hp] at hn
        obtain ⟨f, hf, hn⟩ := List.mem_flatMap.mp hn
        exact hts.params fs hp f hf n hn

theorem okAt {w : World} {s : Sched} (hs : s.Fair) (hw : SourceOk w) : ∀ n, OkAt w s n
  | 0 => ok_zero w s
  | n + 1 => ok_succ hs hw (okAt hs hw n)

end Gowrap
