import Verif.Model.Inputs
import Verif.Proofs.Accepted
import Verif.Proofs.GrammarMono
import Verif.Props.Source
import Verif.Props.MethodSet
/-!
# C69 and C70: from the source of an interface to generated declarations
-/

namespace Gowrap.Props

open Gowrap Spec Tmpl Go

theorem target_file {w : World} {s : Sched} (hs : s.Fair) {fuel : Nat} {o : Options} {g : Generator}
    (h : newGenerator w s fuel o = .ok g) : ∃ f, FileOf w g.srcPackage f := by
  obtain ⟨files, out, _, _, h3, h4, _⟩ := newGenerator_ok h
  cases files with
  | cons f fs => exact ⟨f, _, h3, by simp⟩
  | nil =>
    cases fuel with
    | zero => cases h4
    | succ n =>
      have hn : s.files [] [] = [] := by
        apply List.eq_nil_iff_forall_not_mem.2
        intro x hx
        simpa using (hs.files [] []).mem_iff.1 hx
      rw [findTarget, hn] at h4
      cases h4

/-- The type of the interface is a name. -/
theorem interfaceType_piece {w : World} (hw : SourceOk w) {o : Options} (ho : OptionsOk o) {src : PkgId} {dst : Str}
    (hne : ∃ f, FileOf w src f) : ∃ l, TypePiece (interfaceTypeOf w o src dst).1 l ∧ IsTypeNameToks l ∧
      (sourceSelector w o src dst = [] ∨ GoName (sourceSelector w o src dst)) ∧
      ∀ c ∈ (interfaceTypeOf w o src dst).1, (letter c || digit c) = true ∨ c = '.' := by
  unfold interfaceTypeOf
  split
  · next h =>
    refine ⟨_, piece_name ho.name, .name ho.name, .inl (if_pos h), fun c hc => .inl (ho.name.2.1 c hc)⟩
  · next h =>
    have hs : GoName (sourceSelector w o src dst) := by
      unfold sourceSelector
      rw [if_neg h]
      split
      · next hne => exact ho.alias.resolve_left hne
      · obtain ⟨f, hf⟩ := hne
        exact hw.titles src f hf
    refine ⟨_, piece_qualified hs ho.name, .qualified hs ho.name, .inr hs, fun c hc => ?_⟩
    simp only [List.mem_append, List.mem_singleton] at hc
    rcases hc with (hc | rfl) | hc
    · exact .inl (hs.2.1 c hc)
    · exact .inr rfl
    · exact .inl (ho.name.2.1 c hc)

theorem name_quotable {s : Str} (h : ∀ c ∈ s, (letter c || digit c) = true ∨ c = '.') : InQuotes s := by
  intro c hc
  rcases h c hc with h | rfl
  · refine ⟨?_, ?_, ?_⟩ <;> (rintro rfl; exact absurd h (by decide))
  · decide

/-- What `NewGenerator` finds in parsed packages. -/
theorem found_ok {w : World} {s : Sched} (hs : s.Fair) (hw : SourceOk w) {fuel : Nat} {o : Options} (ho : OptionsOk o) {g : Generator}
    (h : newGenerator w s fuel o = .ok g) : ∀ e ∈ g.methods, MethodOk (copiedOf w.raw) e := by
  obtain ⟨files, out, _, _, h3, h4, h5, _⟩ := newGenerator_ok h
  obtain ⟨f, hf⟩ := target_file hs h
  obtain ⟨_, _, _, hsel, _⟩ := interfaceType_piece hw ho (src := g.srcPackage) (dst := g.dstPath) ⟨f, hf⟩
  have hm := (okAt hs hw fuel).target _ _ _ _ _ _ _ h3 hsel (by simp) h4
  rw [h5]
  exact hm

/-- **C69** (inputs) What `NewGenerator` finds in parsed packages meets the conditions of `C63` to `C68`, and all types of parameters and
results are types. -/
theorem C69_inputs {w : World} {s : Sched} (hs : s.Fair) (hw : SourceOk w) {fuel : Nat} {o : Options} (ho : OptionsOk o) {g : Generator}
    (h : newGenerator w s fuel o = .ok g) {vars : Str → Option VarValue} (hv : GoVars (g.inputs o vars)) :
    GoInputs w.uni (g.inputs o vars) ∧ ∀ e ∈ g.methods, ∀ p ∈ e.2.params ++ e.2.results, TypeOf (copiedOf w.raw) p := by
  obtain ⟨files, out, _, _, h3, h4, h5, _, _, h6, _⟩ := newGenerator_ok h
  obtain ⟨f, hf⟩ := target_file hs h
  obtain ⟨l, hl, hn, hsel, hq⟩ := interfaceType_piece hw ho (src := g.srcPackage) (dst := g.dstPath) ⟨f, hf⟩
  rw [← h6] at hl hq
  have hmm := found_ok hs hw ho h
  refine ⟨⟨hw.lower, ho.name, hl.source, ?_, name_quotable hq, fun e he => ⟨(hmm e he).key, (hmm e he).method⟩, ?_, hv⟩,
    fun e he => (hmm e he).types⟩
  · show ∃ c r, g.interfaceType = c :: r ∧ letter c = true
    rw [h6]
    unfold interfaceTypeOf
    split
    · exact ho.name.1
    · next hd =>
      rcases hsel with hs | hs
      · rw [sourceSelector, if_neg hd] at hs
        exfalso
        split at hs
        · contradiction
        · simp at hs
      · obtain ⟨c, r, e, hc⟩ := hs.1
        exact ⟨c, r ++ g!"." ++ o.interfaceName, by simp [e], hc⟩
  · show (g.methods.map (·.1)).Nodup
    rw [h5]
    exact (nodup_discovered w s fuel).target _ _ _ _ _ _ _ h4

/-- The type of the interface is a type. -/
theorem interfaceType_isType {w : World} {s : Sched} (hs : s.Fair) (hw : SourceOk w) {fuel : Nat} {o : Options} (ho : OptionsOk o)
    {g : Generator} (h : newGenerator w s fuel o = .ok g) : IsType (copiedOf w.raw) (typeToks g.interfaceType) := by
  obtain ⟨_, _, _, _, _, _, _, _, _, h6, _⟩ := newGenerator_ok h
  obtain ⟨f, hf⟩ := target_file hs h
  obtain ⟨l, hl, hn, _⟩ := interfaceType_piece hw ho (src := g.srcPackage) (dst := g.dstPath) ⟨f, hf⟩
  rw [h6, hl.toks]
  exact .name hn

theorem sources_le {w : World} {d : Inputs} (ht : IsType (copiedOf w.raw) (typeToks d.type))
    (hm : ∀ e ∈ d.methods, ∀ p ∈ e.2.params ++ e.2.results, TypeOf (copiedOf w.raw) p) :
    (sourceTypes d).Le (goTypes (copiedOf w.raw)) where
  type := by
    rintro l (rfl | ⟨e, he, p, hp, hv, rfl⟩)
    · exact ht
    · have := hm e he p hp
      unfold TypeOf at this
      rw [hv, if_neg (by simp)] at this
      exact this
  variadic := by
    rintro l ⟨e, he, p, hp, hv, rfl⟩
    have := hm e he p (List.mem_append_left _ hp)
    unfold TypeOf at this
    rw [hv, if_pos rfl] at this
    exact this

/-- **C69** For every interface of parsed packages that `NewGenerator` accepts, every built-in template generates a text that consists of
Go declarations, with all methods of the interface that were found and that the template declares. -/
theorem C69_source_to_declarations {w : World} {s : Sched} (hs : s.Fair) (hw : SourceOk w) {fuel : Nat} {o : Options} (ho : OptionsOk o)
    {g : Generator} (h : newGenerator w s fuel o = .ok g) {vars : Str → Option VarValue} (hv : GoVars (g.inputs o vars))
    (b : Builtin) (hb : b ∈ builtins) :
    ∃ t ds, render w.uni b.text (g.inputs o vars) = some t ∧ ConsistsOfGo w t ds ∧
      DeclaresMethods ds (decoratorName (g.inputs o vars) b.suffix) (g.inputs o vars) b := by
  obtain ⟨h1, h2⟩ := C69_inputs hs hw ho h hv
  obtain ⟨t, ds, h3, h4, h5⟩ := methods_builtin h1 b hb
  exact ⟨t, ds, h3, ⟨h4.1, h4.2.mono (sources_le (interfaceType_isType hs hw ho h) h2)⟩, h5⟩

/-- The generated type implements the interface of the source: every method of the method set is a method of the generated type, declared with
the signature of a declaration in the source, or a method of the embedded interface. -/
def C70_full : Prop := ∀ (w : World) (s : Sched), s.Fair → SourceOk w → PlainImports w → LoadsImports w → QualifiersAgree w → UniqueTypes w →
  Printable w → ∀ (fuel : Nat) (o : Options), OptionsOk o → ∀ g, newGenerator w s fuel o = .ok g →
  ∀ vars : Str → Option VarValue, GoVars (g.inputs o vars) → ∀ b ∈ builtins,
  ∃ t ds, render w.uni b.text (g.inputs o vars) = some t ∧ ConsistsOfGo w t ds ∧
    ∃ f ts sel, FileOf w g.srcPackage f ∧ DeclaredIn f ts ∧ ts.name = o.interfaceName ∧ Selector w o g.srcPackage g.dstPath sel ∧
      ∀ d, HasMethod w g.srcPackage f ts.type d →
        d.name ∉ fieldNames ds (decoratorName (g.inputs o vars) b.suffix) (g.inputs o vars) ∧
        ((Go.fieldsOf (decoratorName (g.inputs o vars) b.suffix) ds).any (Go.FieldDecl.embeds (typeToks g.interfaceType)) = true ∨
          ∃ x ∈ Go.methodsOf (decoratorName (g.inputs o vars) b.suffix) ds, x.name = d.name ∧
            ∃ d' c m, HasMethod w g.srcPackage f ts.type d' ∧ d'.name = d.name ∧ SignatureOf w g.srcPackage sel d' c m ∧ x.declares m)

/-- **C70** The claim holds if all declarations that the interface reaches are of the kinds that gowrap supports.  Template elasticapm only if all methods accept a context (`C65`), and no method may
have the name of a field (`C65`). -/
theorem C70_implements_partial {w : World} {s : Sched} (hs : s.Fair) (hw : SourceOk w) (hp : PlainImports w) (hl : LoadsImports w)
    (ha : QualifiersAgree w) (hu : UniqueTypes w) (hpr : Printable w) {fuel : Nat} {o : Options} (ho : OptionsOk o)
    {g : Generator} (h : newGenerator w s fuel o = .ok g)
    (hsup : ∀ f ts, FileOf w g.srcPackage f → DeclaredIn f ts → ts.name = o.interfaceName → Supported w g.srcPackage f ts.type)
    {vars : Str → Option VarValue} (hv : GoVars (g.inputs o vars)) (b : Builtin) (hb : b ∈ builtins)
    (hc : b.text = Text.elasticapm → ∀ e ∈ g.methods, e.2.acceptsContext = true)
    (hf : ∀ e ∈ g.methods, e.1 ∉ b.fieldNames (g.inputs o vars)) :
    ∃ t ds, render w.uni b.text (g.inputs o vars) = some t ∧ ConsistsOfGo w t ds ∧
      ∃ f ts sel, FileOf w g.srcPackage f ∧ DeclaredIn f ts ∧ ts.name = o.interfaceName ∧ Selector w o g.srcPackage g.dstPath sel ∧
        ∀ d, HasMethod w g.srcPackage f ts.type d →
          d.name ∉ fieldNames ds (decoratorName (g.inputs o vars) b.suffix) (g.inputs o vars) ∧
          ((Go.fieldsOf (decoratorName (g.inputs o vars) b.suffix) ds).any (Go.FieldDecl.embeds (typeToks g.interfaceType)) = true ∨
            ∃ x ∈ Go.methodsOf (decoratorName (g.inputs o vars) b.suffix) ds, x.name = d.name ∧
              ∃ d' c m, HasMethod w g.srcPackage f ts.type d' ∧ d'.name = d.name ∧ SignatureOf w g.srcPackage sel d' c m ∧ x.declares m) := by
  obtain ⟨h1, h2⟩ := C69_inputs hs hw ho h hv
  obtain ⟨t, ds, h3, h4, h5⟩ := C65_implements_partial w.uni (g.inputs o vars) h1 b hb hc hf
  obtain ⟨f, ts, k1, k2, k3, k4, k5, sel, k6, k7⟩ := C20_supported_partial hs hp hl ha hu hpr hsup h
  refine ⟨t, ds, h3, ⟨h4.1, h4.2.mono (sources_le (interfaceType_isType hs hw ho h) h2)⟩, f, ts, sel, k1, k2, k3, k6, fun d hd => ?_⟩
  obtain ⟨⟨n, m⟩, hm, hn⟩ := List.mem_map.1 ((k4 d.name).2 ⟨d, hd, rfl⟩)
  simp only at hn
  subst hn
  obtain ⟨i1, i2⟩ := h5 (d.name, m) hm
  refine ⟨i1, i2.imp id ?_⟩
  rintro ⟨x, hx, hxn, hxd⟩
  obtain ⟨d', c, j1, j2, j3⟩ := k7 d.name m hm
  exact ⟨x, hx, hxn, d', c, m, j1, j2, j3, hxd⟩

end Gowrap.Props
