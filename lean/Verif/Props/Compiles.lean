import Verif.Spec.Compiles
import Verif.Props.EndToEnd
import Verif.Props.Terminating
import Verif.Props.Typing
/-!
# C76: from the source of an interface to code that compiles
-/

namespace Gowrap.Props

open Gowrap Spec Tmpl Go

/-- Whatever `NewGenerator` accepts, the file that a built-in template generates compiles. -/
def C76_full : Prop := ∀ (w : World) (s : Sched), s.Fair → SourceOk w → ∀ (fuel : Nat) (o : Options), OptionsOk o → ∀ g : Generator,
  newGenerator w s fuel o = .ok g → ∀ vars : Str → Option VarValue, GoVars (g.inputs o vars) → ∀ bl ∈ builtins.zip locals,
  ∃ t ds, render w.uni bl.1.text (g.inputs o vars) = some t ∧ ConsistsOfGo w t ds ∧ Compiles (g.inputs o vars) bl.1 bl.2 ds

/-- The tokens of the type of the interface. -/
theorem interfaceType_toks {w : World} {s : Sched} (hs : s.Fair) (hw : SourceOk w) {fuel : Nat} {o : Options} (ho : OptionsOk o)
    {g : Generator} (h : newGenerator w s fuel o = .ok g) :
    typeToks g.interfaceType = [.word o.interfaceName] ∨ ∃ q, typeToks g.interfaceType = [.word q, .op g!".", .word o.interfaceName] := by
  obtain ⟨_, _, _, _, _, _, _, _, _, h6, _⟩ := newGenerator_ok h
  obtain ⟨f, hf⟩ := target_file hs h
  rw [h6]
  unfold interfaceTypeOf
  split
  · exact .inl (piece_name ho.name).toks
  · next hd =>
    have hsel : GoName (sourceSelector w o g.srcPackage g.dstPath) := by
      unfold sourceSelector
      rw [if_neg hd]
      split
      · next hne => exact ho.alias.resolve_left hne
      · exact hw.titles _ f hf
    exact .inr ⟨_, (piece_qualified hsel ho.name).toks⟩

theorem fieldName_name (x : Str) : (Ty.toks [.word x]).fieldName = x := by
  simp [Ty.fieldName]

theorem fieldName_qualified (q x : Str) : (Ty.toks [.word q, .op g!".", .word x]).fieldName = x := by
  simp [Ty.fieldName]

/-- The results contain the error. -/
theorem err_of_last {m : Method} (h : ∃ init last, m.results = init ++ [last] ∧ last.name = g!"err") : ∃ p ∈ m.results, p.name = g!"err" := by
  obtain ⟨_, last, e, hn⟩ := h
  exact ⟨last, by rw [e]; simp, hn⟩

/-- The declarations that a template generates compile. -/
theorem compiles_tree {w : World} {s : Sched} (hs : s.Fair) (hw : SourceOk w) {fuel : Nat} {o : Options} (ho : OptionsOk o)
    {g : Generator} (h : newGenerator w s fuel o = .ok g) {vars : Str → Option VarValue} (hv : GoVars (g.inputs o vars))
    {bl : Builtin × Locals} {ds : List Go.Decl} (hx : (bl, ds) ∈ (builtins.zip locals).zip (trees w.uni (g.inputs o vars)))
    (hn : Unambiguous w.uni (g.inputs o vars) bl.1 bl.2) (hf : Suits (g.inputs o vars) bl.1) :
    ∃ t, render w.uni bl.1.text (g.inputs o vars) = some t ∧ ConsistsOfGo w t ds ∧ Compiles (g.inputs o vars) bl.1 bl.2 ds := by
  have hb := (List.of_mem_zip hx).1
  obtain ⟨hg, ht⟩ := C69_inputs hs hw ho h hv
  have hok := found_ok hs hw ho h
  have hnm : ∀ e ∈ (g.inputs o vars).methods, NamedMethod e.2 :=
    fun e he => ⟨(hok e he).distinct, hn.blank e he, fun hr => err_of_last ((hok e he).err hr)⟩
  have htt : TypedInputs (g.inputs o vars) bl.1 bl.2 := by
    have hty : (∃ x k, typeToks (g.inputs o vars).type = .word x :: k) ∧
        (Ty.toks (typeToks (g.inputs o vars).type)).fieldName = (g.inputs o vars).name := by
      show (∃ x k, typeToks g.interfaceType = .word x :: k) ∧ (Ty.toks (typeToks g.interfaceType)).fieldName = o.interfaceName
      rcases interfaceType_toks hs hw ho h with e | ⟨q, e⟩
      · rw [e]; exact ⟨⟨_, _, rfl⟩, fieldName_name _⟩
      · rw [e]; exact ⟨⟨_, _, rfl⟩, fieldName_qualified _ _⟩
    exact {
      type := ⟨hty.1, hn.type⟩
      field := fun he => ⟨hty.2, hn.field he⟩
      methods := hn.methods
      inner := hn.inner
      pool := hn.pool
      counter := hn.counter
      iface := hn.iface
      results := hn.results }
  obtain ⟨⟨t, h1, h2⟩, h3⟩ := scoped_trees hg hnm hx hn.fresh hn.name
  have h4 := (typed_trees hg hnm hx hn.fresh hn.name htt).2
  have h5 := (returns_trees hg (zip_zip hx) hf.fallback).2
  have h6 := (methods_trees hg (zip_zip hx)).2
  exact ⟨t, h1, ⟨h2.1, h2.2.mono (sources_le (interfaceType_isType hs hw ho h) ht)⟩,
    h3, h4, h5, h6.implements (List.of_mem_zip hb).1 hf.apm hn.hides⟩

/-- **C76** For every interface of parsed packages that `NewGenerator` accepts, every built-in template that suits the interface generates
a text that consists of Go declarations which compile, if no names are confused: the text is derived from the grammar of Go, and the same
declarations obey the rules of scope, the rules about types and the rule about terminating statements, and implement the interface. -/
theorem C76_compiles_partial {w : World} {s : Sched} (hs : s.Fair) (hw : SourceOk w) {fuel : Nat} {o : Options} (ho : OptionsOk o)
    {g : Generator} (h : newGenerator w s fuel o = .ok g) {vars : Str → Option VarValue} (hv : GoVars (g.inputs o vars))
    (bl : Builtin × Locals) (hb : bl ∈ builtins.zip locals) (hn : Unambiguous w.uni (g.inputs o vars) bl.1 bl.2)
    (hf : Suits (g.inputs o vars) bl.1) :
    ∃ t ds, render w.uni bl.1.text (g.inputs o vars) = some t ∧ ConsistsOfGo w t ds ∧ Compiles (g.inputs o vars) bl.1 bl.2 ds := by
  obtain ⟨ds, hx⟩ := exists_zip (k := trees w.uni (g.inputs o vars)) (by simp [builtins, locals, trees]) hb
  obtain ⟨t, h1⟩ := compiles_tree hs hw ho h hv hx hn hf
  exact ⟨t, ds, h1⟩

end Gowrap.Props
