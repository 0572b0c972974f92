import Verif.Props.Signature
import Verif.Spec.Exec
/-!
# The methods of the decorator properties are the methods that the generator produces

The theorems about the templates assume `Callable`.  Here it is derived from `newMethod`, with the
remaining conditions in terms of the source.
-/

namespace Gowrap.Props

open Gowrap Spec

/-- What `newMethod` produces is as the templates expect it, provided that `error` means the predeclared
type: it is no type of the source package, no type parameter, and go/printer prints it as it is. -/
theorem methodOk_of_newMethod (env : SigEnv) (name : Str) (fi : Field) (m : Method)
    (h : newMethod env name fi = .ok m) (hraw : env.print.raw (.ident g!"error") = g!"error")
    (htypes : g!"error" ∉ env.print.types) (hgen : g!"error" ∉ env.genericTypes.flatMap (·.names)) :
    MethodOk m := by
  refine ⟨?_, ?_, ?_⟩
  · have := C01_names_distinct env name fi m h
    rwa [List.map_append] at this
  · intro hr
    obtain ⟨params, results, ht, hl, hn, _⟩ := C04_error_result env name fi m h
    obtain ⟨init, last, hres, hname, _⟩ := hn hr
    refine ⟨init, last, hres, hname, ?_⟩
    obtain ⟨fs, f, rfl, hf, hty⟩ := hl.1 hr
    obtain ⟨params', results', ht', _, _, _, _, _, hlen, hcorr⟩ := C02_signature_preserved env name fi m h
    rw [ht] at ht'
    cases ht'
    obtain ⟨fs', rfl⟩ : ∃ fs', fs = fs' ++ [f] := by
      have hne : fs ≠ [] := by rintro rfl; simp at hf
      refine ⟨fs.dropLast, ?_⟩
      have e := List.dropLast_concat_getLast hne
      rw [List.getLast?_eq_some_getLast hne] at hf
      cases hf
      exact e.symm
    -- the last declared variable comes from the last field
    obtain ⟨ds, d, hd, hdf⟩ : ∃ ds d, declaredOpt (some (fs' ++ [f])) = ds ++ [d] ∧ d.2 = f := by
      simp only [declaredOpt, declared, Option.getD_some, List.flatMap_append, List.flatMap_cons,
        List.flatMap_nil, List.append_nil]
      split
      · exact ⟨_, _, rfl, rfl⟩
      · rename_i hne
        obtain ⟨ns, n, hns⟩ : ∃ ns n, f.names = ns ++ [n] := by
          have hne' : f.names ≠ [] := by simpa using hne
          exact ⟨f.names.dropLast, f.names.getLast hne', (List.dropLast_concat_getLast hne').symm⟩
        rw [hns, List.map_append, ← List.append_assoc]
        exact ⟨_, _, rfl, rfl⟩
    rw [hd] at hlen
    have hi : init.length = ds.length := by rw [hres] at hlen; simpa using hlen
    obtain ⟨s, hs, hinst⟩ := (hcorr ds.length d last (by rw [hd]; simp) (by rw [hres]; simp [← hi])).type
    rw [hdf, show f.type = .ident g!"error" from hty] at hs
    have hs' : s = g!"error" := by
      have : printType env.print (.ident g!"error") = .ok (env.print.raw (.ident g!"error")) := by
        rw [printType, printIdent, if_neg (by simpa using htypes)]
      rw [this, hraw] at hs
      exact (Res.ok.inj hs).symm
    subst hs'
    rcases hinst with ⟨i, arg, hi, _⟩ | ⟨_, h2⟩
    · exact absurd (List.mem_of_getElem? hi) hgen
    · exact h2
  · intro hc
    obtain ⟨params, results, _, _, _, hn⟩ := C05_context_param_partial env name fi m h
    obtain ⟨first, rest, h1, h2, _⟩ := hn hc
    exact ⟨first, rest, h1, h2⟩

/-- A method that `newMethod` produced can be called if neither the receiver nor an identifier of the
template has the name of a parameter or a result, and none of these is blank. -/
theorem callable_of_newMethod (env : SigEnv) (name : Str) (fi : Field) (m : Method)
    (h : newMethod env name fi = .ok m) (hraw : env.print.raw (.ident g!"error") = g!"error")
    (htypes : g!"error" ∉ env.print.types) (hgen : g!"error" ∉ env.genericTypes.flatMap (·.names))
    (recv : Str × Val) (idents : List Str) (args : List Val) (hargs : args.length = m.params.length)
    (hnames : ∀ p ∈ m.params ++ m.results, p.name ≠ g!"_" ∧ p.name ≠ recv.1 ∧ p.name ∉ idents)
    (hrecv : recv.1 ∉ idents) : Callable m recv idents args := by
  have hok := methodOk_of_newMethod env name fi m h hraw htypes hgen
  have hmem : ∀ x, x ∈ m.pnames ++ m.rnames → ∃ p ∈ m.params ++ m.results, p.name = x := by
    intro x hx
    rw [Method.pnames, Method.rnames, ← List.map_append] at hx
    obtain ⟨p, hp, rfl⟩ := List.mem_map.1 hx
    exact ⟨p, hp, rfl⟩
  refine ⟨hok, ⟨?_, ?_, hargs⟩, ?_⟩
  · rw [List.nodup_cons]
    refine ⟨fun hx => ?_, hok.nodup⟩
    obtain ⟨p, hp, hpe⟩ := hmem _ hx
    exact (hnames p hp).2.1 hpe
  · intro hx
    obtain ⟨p, hp, hpe⟩ := hmem _ hx
    exact (hnames p hp).1 hpe
  · intro x hx hx'
    rcases List.mem_cons.1 hx' with rfl | hx'
    · exact hrecv hx
    · obtain ⟨p, hp, rfl⟩ := hmem _ hx'
      exact (hnames p hp).2.2 hx

/-- `Find(ctx context.Context, id int) (name string, err error)`. -/
def findField : Field :=
  Demo.fld [g!"Find"] (.funcT [Demo.fld [g!"c"] Demo.context_, Demo.fld [g!"id"] Demo.int_]
    (some [Demo.fld [] Demo.string_, Demo.fld [] Demo.error_]))

/-- The method generated for it. -/
def find : Method :=
  ⟨[], [], g!"Find", [⟨[], [], g!"ctx", g!"context.Context", false⟩, ⟨[], [], g!"id", g!"int", false⟩],
    [⟨[], [], g!"s1", g!"string", false⟩, ⟨[], [], g!"err", g!"error", false⟩], true, true⟩

theorem find_new : newMethod Demo.env g!"Find" findField = .ok find := by rfl

theorem find_callable (idents : List Str) (c i : Val)
    (h : ∀ x ∈ idents, x ∉ [g!"_d", g!"ctx", g!"id", g!"s1", g!"err"]) :
    Callable find (g!"_d", .nil) idents [c, i] := by
  refine callable_of_newMethod Demo.env g!"Find" findField find find_new rfl (by decide) (by decide) _ _ _ rfl ?_ ?_
  · intro p hp
    have : p.name ∈ [g!"ctx", g!"id", g!"s1", g!"err"] := by
      have := List.mem_map_of_mem (f := fun q : Param => q.name) hp
      exact this
    refine ⟨?_, ?_, fun hc => h _ hc (List.mem_cons_of_mem _ this)⟩ <;>
      (intro he; rw [he] at this; revert this; decide)
  · exact fun hc => h _ hc (by simp)

/-- Types for the examples: every type but `error` has some zero value. -/
def demoTypes : GoTypes where
  zero t := if t = g!"error" then .nil else if t = g!"string" then .str [] else .int 0
  zero_error := rfl
  validatable v := match v with | .obj _ => true | _ => false
  twirpError v := match v with | .slice _ => true | _ => false
  twirpError_nil := rfl

end Gowrap.Props
