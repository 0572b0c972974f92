import Verif.Spec.Parsed
import Verif.Proofs.Accepted
import Verif.Props.Signature
/-!
# Discovery does not panic
-/

namespace Gowrap

open Spec

def Res.Calm {α : Type} (r : Res α) : Prop := r ≠ .panic

theorem Res.Calm.bind {α β : Type} {x : Res α} {f : α → Res β} (hx : x.Calm) (hf : ∀ a, x = .ok a → (f a).Calm) : (x >>= f).Calm := by
  cases x with
  | ok a => exact hf a rfl
  | err e => exact nofun
  | panic => exact absurd rfl hx
  | diverge => exact nofun

theorem Res.calm_ok {α : Type} (a : α) : (Res.ok a).Calm := nofun
theorem Res.calm_err {α : Type} (e : Err) : (Res.err e : Res α).Calm := nofun
theorem Res.calm_diverge {α : Type} : (Res.diverge : Res α).Calm := nofun
theorem Res.Safe.calm {α : Type} {r : Res α} (h : r.Safe) : r.Calm := h.1

theorem parseGenericType_calm (ts : List Str) (pref : Str) : ∀ e : Expr, Qualified e → (parseGenericType ts pref e).Calm
  | .ident _, _ => nofun
  | .selector x sel, h => by
    simp only [Qualified] at h
    obtain ⟨a, rfl⟩ := h
    simp only [parseGenericType]
    exact nofun
  | .unary b x, _ => by
    simp only [parseGenericType]
    split
    · split <;> exact nofun
    · exact nofun
  | .binary b x y, h => by
    simp only [Qualified] at h
    simp only [parseGenericType]
    split
    · exact .bind (parseGenericType_calm ts pref x h.1) fun _ _ => .bind (parseGenericType_calm ts pref y h.2) fun _ _ => Res.calm_ok _
    · exact nofun
  | .star _, _ | .sliceExpr _, _ | .ellipsis _, _ | .array _ _, _ | .mapT _ _, _ | .chanT _ _, _ | .funcT _ _, _ | .structT _, _ | .ifaceT _, _
  | .index _ _, _ | .indexList _ _, _ | .paren _, _ | .lit _, _ | .other _, _ => nofun

theorem genericTypes_calm {ts : TypeSpec} (h : ParsedSpec ts) (types : List Str) (pref : Str) : (buildGenericTypesFromSpec ts types pref).Calm := by
  unfold buildGenericTypesFromSpec
  split
  · exact nofun
  · next list hl =>
    have := h.params list hl
    clear hl
    induction list with
    | nil => exact nofun
    | cons f fs ih =>
      rw [genericTypesFromFields]
      exact .bind (parseGenericType_calm _ _ _ (this f (by simp))) fun _ _ => .bind (ih fun x hx => this x (by simp [hx])) fun _ _ => Res.calm_ok _

theorem unquote_calm {s : Str} (h : 2 ≤ s.length) : (unquote s).Calm := by
  match s, h with
  | a :: b :: r, _ =>
    unfold unquote
    simp only
    split
    · next hl =>
      split at hl <;> simp at hl
    · exact nofun

theorem import_calm {w : World} {name : Str} {imports : List ImportSpec} {pkgs : List (Str × PkgId)} (h : ∀ im ∈ imports, 2 ≤ im.path.length) :
    (findImportPathForName w name imports pkgs).Calm := by
  unfold findImportPathForName
  split
  · next i hi => exact unquote_calm (h i (List.mem_of_find?_eq_some hi))
  · split <;> exact nofun

/-- A field of an interface that does not confuse gowrap. -/
structure CalmMember (f : Field) : Prop where
  idents : NonEmptyIdents f.type
  qualified : Qualified f.type
  names : ∀ n ∈ f.names, n ≠ []
  method : ∀ ps rs, f.type = .funcT ps rs → f.names ≠ [] ∧ rs ≠ some []

structure CalmSpec (ts : TypeSpec) : Prop where
  parsed : ParsedSpec ts
  members : ∀ ms, ts.type = .ifaceT ms → ∀ f ∈ ms, CalmMember f

structure CalmInput (i : Input) : Prop where
  types : ∀ ts ∈ i.types, CalmSpec ts
  file : ∀ ts ∈ i.file, CalmSpec ts
  imports : ∀ im ∈ i.imports, 2 ≤ im.path.length

/-- Results of discovery: no panic, and all methods found have names. -/
structure Finds {α : Type} (ms : α → Option Methods) (r : Res α) : Prop where
  calm : r.Calm
  named : ∀ a, r = .ok a → ∀ e ∈ (ms a).getD [], e.2.name ≠ []

theorem Finds.bind {α β : Type} {ms : β → Option Methods} {x : Res α} {f : α → Res β} (hx : x.Calm) (hf : ∀ a, x = .ok a → Finds ms (f a)) :
    Finds ms (x >>= f) :=
  ⟨hx.bind fun a ha => (hf a ha).calm, fun b hb => by
    rw [Res.bind_eq_ok] at hb
    obtain ⟨a, ha, hb⟩ := hb
    exact (hf a ha).named b hb⟩

theorem Finds.none {α : Type} {ms : α → Option Methods} {a : α} (h : ms a = .none) : Finds ms (.ok a) :=
  ⟨nofun, fun b hb => by cases hb; rw [h]; nofun⟩

theorem Finds.ok {α : Type} {ms : α → Option Methods} {a : α} (h : ∀ e ∈ (ms a).getD [], e.2.name ≠ []) : Finds ms (.ok a) :=
  ⟨nofun, fun b hb => by cases hb; exact h⟩

theorem Finds.err {α : Type} {ms : α → Option Methods} (e : Err) : Finds ms (.err e) := ⟨nofun, nofun⟩

theorem Finds.diverge {α : Type} {ms : α → Option Methods} : Finds ms .diverge := ⟨nofun, nofun⟩

theorem newMethod_name {env : SigEnv} {name : Str} {f : Field} {m : Method} (h : newMethod env name f = .ok m) : m.name = name := by
  unfold newMethod at h
  split at h
  · simp only [Res.bind_eq_ok] at h
    obtain ⟨_, _, _, _, _, _, _, _, _, _, h⟩ := h
    cases h
    rfl
  · cases h

/-- What all functions of discovery do, at one recursion bound. -/
structure CalmAt (w : World) (s : Sched) (n : Nat) : Prop where
  target : ∀ path cur pref files name gps, w.files cur = .ok files → Finds (·.methods) (findTarget w s n path cur pref files name gps)
  methods : ∀ path ts i, CalmInput i → CalmSpec ts → Finds id (findMethods w s n path ts i)
  get : ∀ path sel src, Finds id (getMethods w s n path sel src)
  iface : ∀ path ms i, CalmInput i → (∀ f ∈ ms, CalmMember f) → Finds id (processInterface w s n path ms i)
  fields : ∀ path ms i acc, CalmInput i → (∀ f ∈ ms, CalmMember f) → (∀ e ∈ acc, e.2.name ≠ []) → Finds id (processFields w s n path ms i acc)
  embedded : ∀ path e i b, CalmInput i → NonEmptyIdents e → Qualified e → Finds (·.2) (processEmbedded w s n path e i b)
  args : ∀ path es i acc, CalmInput i → NonEmptyIdentsList es → QualifiedList es → (processArgs w s n path es i acc).Calm
  getEmbedded : ∀ path e i b, CalmInput i → NonEmptyIdents e → Qualified e → Finds (·.2) (getEmbeddedMethods w s n path e i b)
  selector : ∀ path a sel i, CalmInput i → Finds id (processSelector w s n path (.ident a) sel i)
  ident : ∀ path name i b, CalmInput i → Finds id (processIdent w s n path name i b)

theorem calm_zero (w : World) (s : Sched) : CalmAt w s 0 where
  target := by intros; rw [findTarget]; exact .diverge
  methods := by intros; rw [findMethods]; exact .diverge
  get := by intros; rw [getMethods]; exact .diverge
  iface := by intros; rw [processInterface]; exact .diverge
  fields := by intros; rw [processFields]; exact .diverge
  embedded := by intros; rw [processEmbedded]; exact .diverge
  args := by intros; rw [processArgs]; exact nofun
  getEmbedded := by intros; rw [getEmbeddedMethods]; exact .diverge
  selector := by intros; rw [processSelector]; exact .diverge
  ident := by intros; rw [processIdent]; exact .diverge

theorem calm_specs {w : World} (hw : ParsedPackages w) (hu : UsualMembers w) {p : PkgId} {f : File} {ts : TypeSpec} (hf : FileOf w p f)
    (hd : DeclaredIn f ts) : CalmSpec ts :=
  ⟨hw.specs p f ts hf hd, fun ms hm fd hfd =>
    let h := (hw.specs p f ts hf hd).members ms hm fd hfd
    ⟨h.1, h.2.1, h.2.2, hu p f ts hf hd ms hm fd hfd⟩⟩

theorem calm_succ {w : World} {s : Sched} (hs : s.Fair) (hw : ParsedPackages w) (hu : UsualMembers w) {n : Nat} (ih : CalmAt w s n) :
    CalmAt w s (n + 1) where
  target := by
    intro path cur pref files name gps hf
    simp only [findTarget]
    split
    · exact .err _
    · next ts f hsel =>
      obtain ⟨h1, h2, h3⟩ := iterateFiles_some hsel
      have hff : FileOf w cur f := ⟨files, hf, (hs.files path files).mem_iff.1 h1⟩
      have hts := calm_specs hw hu hff h2
      refine .bind (genericTypes_calm hts.parsed _ _) fun gts _ => ?_
      refine (fun hm : Finds id _ => .bind hm.calm fun ms hms => .ok (hm.named _ hms)) (ih.methods _ _ _ ⟨?_, ?_, ?_⟩ hts)
      · intro t ht
        rw [mem_types] at ht
        obtain ⟨f', h4, h5⟩ := ht
        exact calm_specs hw hu ⟨files, hf, (hs.files path files).mem_iff.1 h4⟩ h5
      · intro t ht
        exact calm_specs hw hu hff ((mem_typeSpecs _ _).1 ht)
      · intro im him
        exact hw.imports _ _ hff im him
  methods := by
    intro path ts i hi hts
    simp only [findMethods]
    split
    · next ms he => exact ih.iface _ ms i hi (hts.members ms he)
    · split
      · exact ih.get _ _ _
      · exact .none rfl
    · split
      · next ts' hts' => exact ih.methods _ ts' i hi (hi.file ts' (List.mem_of_find?_eq_some hts'))
      · exact .none rfl
    · exact .none rfl
  get := by
    intro path sel src
    simp only [getMethods]
    exact .bind (hw.load _) fun q _ => .bind (hw.files _) fun files hf =>
      .bind (ih.target _ _ _ _ _ _ hf).calm fun out ho => .ok ((ih.target _ _ _ _ _ _ hf).named out ho)
  iface := by
    intro path ms i hi hm
    simp only [processInterface]
    exact ih.fields _ ms i [] hi hm nofun
  fields := by
    intro path ms i acc hi hm hacc
    cases ms with
    | nil => simp only [processFields]; exact .ok hacc
    | cons fd rest =>
      have hrest : ∀ f ∈ rest, CalmMember f := fun f hf => hm f (by simp [hf])
      have hfd := hm fd (by simp)
      simp only [processFields]
      split
      · next ps rs hft =>
        obtain ⟨hn, hr⟩ := hfd.method ps rs hft
        split
        · next he => exact absurd he hn
        · next name names hnames =>
          refine .bind ?_ fun m hm' => ih.fields _ rest i _ hi hrest fun e he => ?_
          rotate_left
          · rcases mem_upsert he with he | he
            · have he : e = (name, m) := he
              rw [he]
              show m.name ≠ []
              rw [newMethod_name hm']
              exact hfd.names name (by rw [hnames]; simp)
            · exact hacc e he
          rcases Props.C10_no_crash_partial (i.sigEnv w) _ fd hfd.idents (fun ps' e => hr (by rw [hft] at e; cases e; rfl)) with ⟨m, h⟩ | ⟨e, h⟩ <;>
            (rw [h]; exact nofun)
      · have hemb := ih.embedded (0 :: path) fd.type i true hi hfd.idents hfd.qualified
        refine .bind hemb.calm fun r hr => ih.fields _ rest i _ hi hrest fun e he => ?_
        rcases mem_merge he with h | h
        · exact hacc e h
        · exact hemb.named r hr e h
  embedded := by
    intro path e i b hi hn hq
    simp only [processEmbedded]
    split
    · next x idx =>
      simp only [NonEmptyIdents] at hn
      simp only [Qualified] at hq
      refine .bind (ih.args _ [idx] i [] hi (by simp only [NonEmptyIdentsList]; exact ⟨hn.2, trivial⟩) (by simp only [QualifiedList]; exact ⟨hq.2, trivial⟩))
        fun gps _ => ?_
      have hg := ih.getEmbedded (0 :: path) x { i with genericParams := gps } b ⟨hi.types, hi.file, hi.imports⟩ hn.1 hq.1
      exact .bind hg.calm fun r hr => .ok (hg.named r hr)
    · next x is =>
      simp only [NonEmptyIdents] at hn
      simp only [Qualified] at hq
      refine .bind (ih.args _ is i [] hi hn.2 hq.2) fun gps _ => ?_
      have hg := ih.getEmbedded (0 :: path) x { i with genericParams := gps } b ⟨hi.types, hi.file, hi.imports⟩ hn.1 hq.1
      exact .bind hg.calm fun r hr => .ok (hg.named r hr)
    · exact ih.getEmbedded _ e _ b ⟨hi.types, hi.file, hi.imports⟩ hn hq
  args := by
    intro path es i acc hi hn hq
    cases es with
    | nil => simp only [processArgs]; exact nofun
    | cons e es =>
      simp only [NonEmptyIdentsList] at hn
      simp only [QualifiedList] at hq
      simp only [processArgs]
      exact .bind (ih.embedded _ e i false hi hn.1 hq.1).calm fun _ _ => ih.args _ es i _ hi hn.2 hq.2
  getEmbedded := by
    intro path e i b hi hn hq
    simp only [getEmbeddedMethods]
    refine .bind (printType_safe _ e hn).calm fun name hname => ?_
    clear hname
    split
    · next x sel =>
      simp only [Qualified] at hq
      obtain ⟨a, rfl⟩ := hq
      exact .bind (ih.selector _ a sel i hi).calm fun r hr => .ok ((ih.selector _ a sel i hi).named r hr)
    · exact .bind (ih.ident _ _ i b hi).calm fun r hr => .ok ((ih.ident _ _ i b hi).named r hr)
    · exact .none rfl
  selector := by
    intro path a sel i hi
    simp only [processSelector]
    refine .bind (import_calm hi.imports) fun ipath _ => ?_
    split
    · exact .err _
    · exact .bind (hw.files _) fun files hf =>
      .bind (ih.target _ _ _ _ _ _ hf).calm fun out ho => .ok ((ih.target _ _ _ _ _ _ hf).named out ho)
  ident := by
    intro path name i b hi
    simp only [processIdent]
    refine .bind ?_ fun fe hfe => ?_
    · unfold findEmbedded
      split
      · exact nofun
      · split
        · exact nofun
        · split <;> exact nofun
    · split
      · exact .none rfl
      · next t ms =>
        obtain ⟨h1, h2, h3⟩ := findEmbedded_spec hfe
        have hts := hi.types t h1
        refine .bind (genericTypes_calm hts.parsed _ _) fun gts _ => ?_
        exact ih.iface _ ms { i with genericTypes := gts } ⟨hi.types, hi.file, hi.imports⟩ (hts.members ms h3)

theorem calmAt {w : World} {s : Sched} (hs : s.Fair) (hw : ParsedPackages w) (hu : UsualMembers w) : ∀ n, CalmAt w s n
  | 0 => calm_zero w s
  | n + 1 => calm_succ hs hw hu (calmAt hs hw hu n)

theorem calm_checkExported {w : World} {sel : Str} : ∀ {ms : Methods}, (∀ e ∈ ms, e.2.name ≠ []) → (checkExported w sel ms).Calm
  | [], _ => nofun
  | (_, m) :: rest, h => by
    have ih := calm_checkExported (w := w) (sel := sel) (ms := rest) fun e he => h e (by simp [he])
    have hm : m.name ≠ [] := h _ List.mem_cons_self
    unfold checkExported
    split
    · split
      · next hl =>
        cases hn : m.name with
        | nil => exact absurd hn hm
        | cons a r => rw [hn] at hl; simp [Uni.looksUnexported] at hl
      · exact nofun
      · exact ih
    · exact ih

/-- `NewGenerator` does not panic. -/
theorem newGenerator_calm {w : World} {s : Sched} (hs : s.Fair) (hw : ParsedPackages w) (hu : UsualMembers w) (n : Nat) (o : Options) :
    (newGenerator w s n o).Calm := by
  have h1 : (loadSource w o).Calm := by
    unfold loadSource
    split
    · exact nofun
    · exact hw.load _
  have h2 : ∀ path, (loadDestinationPackage w path).Calm := by
    intro path
    unfold loadDestinationPackage
    split
    · exact nofun
    · unfold makePackage; split <;> exact nofun
    · next h => exact absurd h (hw.load path)
    · exact nofun
  unfold newGenerator
  refine .bind h1 fun src _ => .bind (h2 _) fun dst _ => .bind (hw.files src) fun files hf => ?_
  have ht := (calmAt hs hw hu n).target [] src (sourceSelector w o src dst.2) files o.interfaceName [] hf
  refine .bind ht.calm fun out hout => ?_
  simp only
  split
  · exact nofun
  · refine .bind (calm_checkExported fun e he => ?_) fun _ _ => Res.calm_ok _
    exact ht.named out hout e (((hs.methods _ _).mem_iff).1 he)

end Gowrap
