import Verif.Model.GoFile
/-!
# When a call of a method of a generated type has a meaning

The claims about generated files (C64, C66, C72 and others) speak of what a call does.  The theorem here says that the model of calls does not
give a meaning to more than the Go specification does.
-/

namespace Gowrap.Props

open Gowrap Go

/-- The file declares the method exactly once for the type, with the names and types of the parameters and of the results of the method `m`. -/
def DeclaresOnce (F : Generated) (m : Method) : Prop :=
  ∃ x, (methodsOf F.type F.decls).filter (fun y => decide (y.name = m.name)) = [x] ∧
    groupParams x.params = m.params.map (fun p => (p.name, typeToks p.type)) ∧
    groupParams x.results = m.results.map (fun p => (p.name, typeToks p.type))

/-- The file declares the struct type exactly once, and the interface is one of its embedded fields. -/
def EmbedsInterface (F : Generated) : Prop :=
  ∃ fs t, (flatDecls F.decls).filterMap (Decl.structOf F.type) = [fs] ∧ .embedded t ∈ fs ∧ t.put [] = typeToks F.ifaceType

/-- C64, C66: a call has a meaning only if the type declares the method, once and with its signature, or declares no method of this name and
embeds the interface. -/
theorem C66_call_declared (F : Generated) (G : GoTypes) (m : Method) (v : Val) (args : List Val) (h : F.call G m v args ≠ .ret .stuck) :
    DeclaresOnce F m ∨ ((∀ x ∈ methodsOf F.type F.decls, x.name ≠ m.name) ∧ EmbedsInterface F) := by
  unfold Generated.call at h
  split at h
  · next x hx =>
    split at h
    · next hd => exact .inl ⟨x, hx, hd.1, hd.2⟩
    · exact absurd rfl h
  · next hx =>
    split at h
    · next he =>
      refine .inr ⟨fun x hm hn => ?_, ?_⟩
      · have : x ∈ F.method m.name := by
          unfold Generated.method
          exact List.mem_filter.2 ⟨hm, by simpa using hn⟩
        rw [hx] at this
        cases this
      · unfold Generated.embeds at he
        rw [List.any_eq_true] at he
        obtain ⟨f, hf, he⟩ := he
        unfold fieldsOf at hf
        split at hf
        · next fs hfs =>
          cases f with
          | embedded t => exact ⟨fs, t, hfs, hf, of_decide_eq_true he⟩
          | _ => cases he
        · cases hf
    · exact absurd rfl h
  · exact absurd rfl h

namespace DemoCall

/-- `type D struct { I }` with the methods `A` and `B(x int)`. -/
def file (link : Method → Link) : Generated where
  decls := [.struct g!"D" [.embedded (.name g!"I")], .method g!"d" (.name g!"D") g!"A" [] [] [],
    .method g!"d" (.ptr (.name g!"D")) g!"B" [.mk [g!"x"] (.name g!"int")] [] []]
  type := g!"D"
  iface := g!"I"
  ifaceType := g!"I"
  base := .nil
  link := link

def method (name : Str) (params : List Param) : Method := ⟨[], [], name, params, [], false, false⟩

/-- A call of the method `C`, which is not declared, is a call of the method of the embedded interface; a call of the method `B` that the interface
declares without parameters has no meaning. -/
example (link : Method → Link) (G : GoTypes) (v : Val) :
    (file link).call G (method g!"C" []) v [] ≠ .ret .stuck ∧ (file link).call G (method g!"B" []) v [] = .ret .stuck ∧
      ¬ DeclaresOnce (file link) (method g!"B" []) := by
  refine ⟨fun h => ?_, rfl, ?_⟩
  · have : ∃ e k, (file link).call G (method g!"C" []) v [] = .vis e k := ⟨_, _, rfl⟩
    obtain ⟨e, k, this⟩ := this
    rw [this] at h
    cases h
  · rintro ⟨x, h1, h2, _⟩
    have e : (methodsOf (file link).type (file link).decls).filter (fun y => decide (y.name = (method g!"B" []).name)) =
      [⟨g!"d", true, g!"B", [.mk [g!"x"] (.name g!"int")], [], []⟩] := rfl
    rw [e] at h1
    cases h1
    cases h2

end DemoCall

end Gowrap.Props
