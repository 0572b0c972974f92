import Verif.Props.ErrorType
/-!
# C77: exactly when what is taken for an error is one
-/

namespace Gowrap.Props

open Gowrap Spec

theorem nodup_index {l : List Str} (h : l.Nodup) {i j : Nat} {x : Str} (hi : l[i]? = some x) (hj : l[j]? = some x) : i = j := by
  rw [List.getElem?_eq_some_iff] at hi hj
  obtain ⟨hi, ei⟩ := hi
  obtain ⟨hj, ej⟩ := hj
  exact (List.getElem_inj h).1 (ei.trans ej.symm)

/-- **C77** (exact): if no type of the source package is called `error`, the last result of a method that is said to return an error has the type
`error` exactly if a type parameter called `error` is given the argument `error`. -/
theorem C77_exact (env : SigEnv) (name : Str) (fi : Field) (m : Method) (h : newMethod env name fi = .ok m)
    (hraw : env.print.raw (.ident g!"error") = g!"error") (htypes : g!"error" ∉ env.print.types)
    (hnd : (env.genericTypes.flatMap (·.names)).Nodup) (hre : m.returnsError = true) :
    (∃ init last, m.results = init ++ [last] ∧ last.type = g!"error") ↔
    ∀ (i : Nat) arg, (env.genericTypes.flatMap (·.names))[i]? = some g!"error" → env.genericParams[i]? = some arg → arg.string = g!"error" := by
  obtain ⟨params, results, e1, h1, h2, _⟩ := C04_error_result env name fi m h
  obtain ⟨params', results', e2, _, _, _, _, _, hl, hc⟩ := C02_signature_preserved env name fi m h
  obtain ⟨rfl, rfl⟩ : params = params' ∧ results = results' := by simpa [e1] using e2
  obtain ⟨init, last, e3, _⟩ := h2 hre
  obtain ⟨fs, f, rfl, hf, ht⟩ := h1.1 hre
  obtain ⟨ds, n, e4⟩ := declared_last hf
  have e4' : declaredOpt (some fs) = ds ++ [(n, f)] := e4
  rw [e3, e4'] at hl hc
  have hlen : init.length = ds.length := by simpa using hl
  have hcor := hc init.length (n, f) last (by rw [hlen]; simp) (by simp)
  obtain ⟨s, hs, hi⟩ := hcor.type
  have hs' : s = g!"error" := by
    rw [show f.type = .ident g!"error" from ht] at hs
    simpa [printType, printIdent, htypes, hraw] using hs.symm
  subst hs'
  have hlast : (∃ init last, m.results = init ++ [last] ∧ last.type = g!"error") ↔ last.type = g!"error" := by
    constructor
    · rintro ⟨init', last', e, ht⟩
      rw [e3] at e
      obtain ⟨_, e⟩ := List.append_inj' e rfl
      cases e
      exact ht
    · exact fun ht => ⟨init, last, e3, ht⟩
  rw [hlast]
  constructor
  · intro hlt i arg hn ha
    rcases hi with ⟨j, arg', hj, ha', e⟩ | ⟨hno, _⟩
    · have := nodup_index hnd hn hj
      subst this
      rw [ha] at ha'
      cases ha'
      rw [← e, hlt]
    · exact absurd hn (hno i (by rw [List.getElem?_eq_some_iff] at ha; exact ha.1))
  · intro hall
    rcases hi with ⟨j, arg', hj, ha', e⟩ | ⟨_, e⟩
    · rw [e]; exact hall j arg' hj ha'
    · exact e

/-- The environment of `Source[error any]` embedded with an argument, and its method `Next() error`. -/
def Demo.instanceOf (arg : Str) : SigEnv := ⟨Demo.env.print, [⟨g!"any", [g!"error"]⟩], [⟨arg, []⟩]⟩

def Demo.next : Field := Demo.fld [g!"Next"] (.funcT [] (some [Demo.fld [] Demo.error_]))

/-- `Source[error any]` embedded as `Source[error]` gives an error, embedded as `Source[int]` it does not. -/
example : ∃ m, newMethod (Demo.instanceOf g!"error") g!"Next" Demo.next = .ok m ∧ m.returnsError = true ∧
    ∃ init last, m.results = init ++ [last] ∧ last.type = g!"error" := by
  have h : ∃ m, newMethod (Demo.instanceOf g!"error") g!"Next" Demo.next = .ok m ∧ m.returnsError = true := ⟨_, rfl, rfl⟩
  obtain ⟨m, h1, h2⟩ := h
  refine ⟨m, h1, h2, (C77_exact _ _ _ _ h1 rfl (by decide) (by decide) h2).2 ?_⟩
  intro i arg _ ha
  cases i with
  | zero => cases ha; rfl
  | succ i => simp [Demo.instanceOf] at ha

example : ∃ m, newMethod (Demo.instanceOf g!"int") g!"Next" Demo.next = .ok m ∧ m.returnsError = true ∧
    ¬ ∃ init last, m.results = init ++ [last] ∧ last.type = g!"error" := by
  have h : ∃ m, newMethod (Demo.instanceOf g!"int") g!"Next" Demo.next = .ok m ∧ m.returnsError = true := ⟨_, rfl, rfl⟩
  obtain ⟨m, h1, h2⟩ := h
  exact ⟨m, h1, h2, fun h => absurd ((C77_exact _ _ _ _ h1 rfl (by decide) (by decide) h2).1 h 0 ⟨g!"int", []⟩ rfl rfl) (by decide)⟩

end Gowrap.Props
