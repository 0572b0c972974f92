import Verif.Props.Signature
/-!
# C77: the type of a result that is taken for an error
-/

namespace Gowrap.Props

open Gowrap Spec

/-- A method that is said to return an error has, in the generated code, a last result of type `error`. -/
def C77_full : Prop := ∀ (env : SigEnv) (name : Str) (fi : Field) (m : Method), newMethod env name fi = .ok m →
  env.print.raw (.ident g!"error") = g!"error" → m.returnsError = true → ∃ init last, m.results = init ++ [last] ∧ last.type = g!"error"

/-- The last field of a list declares the last variable. -/
theorem declared_last : ∀ {fs : List Field} {f : Field}, fs.getLast? = some f → ∃ init n, declared fs = init ++ [(n, f)] := by
  intro fs
  induction fs with
  | nil => intro f h; simp at h
  | cons g fs ih =>
    intro f h
    cases fs with
    | nil =>
      simp only [List.getLast?_singleton, Option.some.injEq] at h
      subst h
      simp only [declared, List.flatMap_cons, List.flatMap_nil, List.append_nil]
      split
      · exact ⟨[], none, rfl⟩
      · next hne =>
        obtain ⟨init, x, e⟩ : ∃ init x, g.names = init ++ [x] := ⟨_, _, (List.dropLast_concat_getLast (by simpa using hne)).symm⟩
        exact ⟨_, _, by rw [e, List.map_append]; rfl⟩
    | cons g' fs =>
      rw [List.getLast?_cons_cons] at h
      obtain ⟨init, n, e⟩ := ih h
      refine ⟨declared [g] ++ init, n, ?_⟩
      rw [List.append_assoc, ← e]
      simp [declared]

/-- **C77** A method that is said to return an error has, in the generated code, a last result of type `error`, if no type parameter and no
type of the source package is called `error`. -/
theorem C77_error_type_partial (env : SigEnv) (name : Str) (fi : Field) (m : Method) (h : newMethod env name fi = .ok m)
    (hraw : env.print.raw (.ident g!"error") = g!"error") (htypes : g!"error" ∉ env.print.types)
    (hparams : ∀ t ∈ env.genericTypes, g!"error" ∉ t.names) (hre : m.returnsError = true) :
    ∃ init last, m.results = init ++ [last] ∧ last.type = g!"error" := by
  obtain ⟨params, results, e1, h1, h2, _⟩ := C04_error_result env name fi m h
  obtain ⟨params', results', e2, _, _, _, _, _, hl, hc⟩ := C02_signature_preserved env name fi m h
  obtain ⟨rfl, rfl⟩ : params = params' ∧ results = results' := by simpa [e1] using e2
  obtain ⟨init, last, e3, _⟩ := h2 hre
  obtain ⟨fs, f, rfl, hf, ht⟩ := h1.1 hre
  obtain ⟨ds, n, e4⟩ := declared_last hf
  have e4' : declaredOpt (some fs) = ds ++ [(n, f)] := e4
  rw [e3, e4'] at hl hc
  have hlen : init.length = ds.length := by simpa using hl
  have hcor := hc init.length (n, f) last (by rw [hlen]; simp) (by simp)
  obtain ⟨s, hs, hi⟩ := hcor.type
  have hs' : s = g!"error" := by
    rw [show f.type = .ident g!"error" from ht] at hs
    simpa [printType, printIdent, htypes, hraw] using hs.symm
  subst hs'
  refine ⟨init, last, e3, ?_⟩
  rcases hi with ⟨i, arg, hi, _, _⟩ | ⟨_, e⟩
  · have := List.mem_of_getElem? hi
    obtain ⟨t, ht, hx⟩ := List.mem_flatMap.1 this
    exact absurd hx (hparams t ht)
  · exact e

/-- Non-vacuity of C77: a method of a generic interface with an error. -/
example : ∃ m, newMethod ⟨⟨Uni.ascii, Demo.raw, [g!"Item"], g!"shop"⟩, [⟨g!"any", [g!"T"]⟩], [⟨g!"int", []⟩]⟩ g!"M"
      (Demo.fld [g!"M"] (.funcT [] (some [Demo.fld [] (.ident g!"Item"), Demo.fld [] (.ident g!"T"), Demo.fld [] Demo.error_]))) = .ok m ∧
    m.returnsError = true ∧ m.results.map (·.type) = [g!"shop.Item", g!"int", g!"error"] := ⟨_, rfl, rfl, rfl⟩

/-- The finding: in `type Source[error any] interface { Next() error }`, embedded as `Source[int]`, the type parameter is taken for the
error type. The method of the generated decorator has a result `err int`. -/
theorem C77_type_parameter : ∃ m,
    newMethod ⟨Demo.env.print, [⟨g!"any", [g!"error"]⟩], [⟨g!"int", []⟩]⟩ g!"Next" (Demo.fld [g!"Next"] (.funcT [] (some [Demo.fld [] Demo.error_])))
      = .ok m ∧ m.returnsError = true ∧ m.results.map (fun p => (p.name, p.type)) = [(g!"err", g!"int")] := ⟨_, rfl, rfl, rfl⟩

/-- **C77** The full claim fails. -/
theorem C77_full_false : ¬ C77_full := by
  intro h
  obtain ⟨m, h1, h2, h3⟩ := C77_type_parameter
  obtain ⟨init, last, e, ht⟩ := h _ _ _ m h1 rfl h2
  rw [e, List.map_append] at h3
  cases init with
  | nil => simp [ht] at h3
  | cons a l => simp at h3

end Gowrap.Props
