import Verif.Proofs.TypesSafe
import Verif.Props.Demo
/-!
# Properties of method signatures (C01–C07, C10, C60)

`newMethod env name fi` is the model of `generator.NewMethod`; `env` holds the type printer and the
generic substitution and is arbitrary in all theorems.
-/

namespace Gowrap.Props

open Gowrap Spec

/-! ## C01 -/

/-- **C01** The names of all parameters and results of a generated method are pairwise distinct. -/
theorem C01_names_distinct (env : SigEnv) (name : Str) (fi : Field) (m : Method)
    (h : newMethod env name fi = .ok m) : ((m.params ++ m.results).map (·.name)).Nodup := by
  obtain ⟨params, results, used1, used2, ps, rs, u, u', H⟩ := newMethod_ok h
  have hres := (scanResults_ok H.scanR).2
  obtain ⟨hac, hctx0, hctx⟩ := scanParams_spec params
  rw [H.scanP] at hac hctx0 hctx
  simp only at hac hctx0 hctx
  have hu1 : used1 = [] ∨ used1 = [g!"err"] := by
    cases results with
    | none => exact Or.inl (hres.1 rfl)
    | some l => exact Or.inr (hres.2 l rfl).1
  have hnd0 : (used2 ++ used1).Nodup := by
    rcases hctx0 with h2 | h2 <;> rcases hu1 with h1 | h1 <;> rw [h1, h2] <;> decide
  have hnd := H.runR.nodup (H.runP.nodup hnd0)
  rw [H.runR.used_eq, H.runP.used_eq] at hnd
  -- all names before renaming, together with the reserved names
  have hnd1 : ((ps.map (·.name)) ++ (rs.map (·.name)) ++ (used2 ++ used1)).Nodup := by
    refine List.Perm.nodup ?_ hnd
    rw [← List.append_assoc]
    refine List.Perm.append_right _ ?_
    exact (List.Perm.append (List.reverse_perm _) (List.reverse_perm _)).trans List.perm_append_comm
  rw [List.nodup_append] at hnd1
  obtain ⟨hpr, _, hdisj⟩ := hnd1
  rw [List.nodup_append] at hpr
  obtain ⟨hp, hr, hpr⟩ := hpr
  -- renaming the error result
  have hr' : (m.results.map (·.name)).Nodup ∧
      (∀ x ∈ m.results.map (·.name), x ∈ rs.map (·.name) ∨ (x ∈ used1)) := by
    cases hre : m.returnsError with
    | false => rw [H.rsEq' hre]; exact ⟨hr, fun x hx => Or.inl hx⟩
    | true =>
      obtain ⟨init, last, e1, e2⟩ := renameLast_ok (H.rsEq hre)
      have herr : g!"err" ∈ used1 := by
        obtain ⟨fs, f, hfs, _⟩ := (scanResults_ok H.scanR).1.1 hre
        rw [(hres.2 fs hfs).1]; simp
      have hnotin : g!"err" ∉ rs.map (·.name) := fun hx =>
        hdisj _ (List.mem_append_right _ hx) _ (List.mem_append_right _ herr) rfl
      rw [e1] at hr hnotin
      rw [e2]
      simp only [List.map_append, List.map_cons, List.map_nil, List.nodup_append] at hr ⊢
      simp only [List.map_append, List.mem_append, not_or] at hnotin
      refine ⟨⟨hr.1, by simp, ?_⟩, ?_⟩
      · intro a ha b hb
        simp only [List.mem_singleton] at hb
        subst hb; rintro rfl; exact hnotin.1 ha
      · intro x hx
        simp only [List.mem_append, List.mem_singleton] at hx
        rcases hx with hx | hx
        · rw [e1]; left; simp only [List.map_append, List.mem_append]; left; exact hx
        · subst hx; right; exact herr
  have hp' : (m.params.map (·.name)).Nodup ∧
      (∀ x ∈ m.params.map (·.name), x ∈ ps.map (·.name) ∨ (x = g!"ctx" ∧ x ∈ used2)) := by
    cases hre : m.acceptsContext with
    | false => rw [H.psEq' hre]; exact ⟨hp, fun x hx => Or.inl hx⟩
    | true =>
      obtain ⟨p, rest, e1, e2⟩ := renameFirst_ok (H.psEq hre)
      have hc : g!"ctx" ∈ used2 := by rw [hctx hre]; simp
      have hnotin : g!"ctx" ∉ ps.map (·.name) := fun hx =>
        hdisj _ (List.mem_append_left _ hx) _ (List.mem_append_left _ hc) rfl
      rw [e1] at hp hnotin
      rw [e2]
      simp only [List.map_cons, List.nodup_cons, List.mem_cons, not_or] at hp hnotin ⊢
      refine ⟨⟨hnotin.2, hp.2⟩, ?_⟩
      intro x hx
      rcases hx with hx | hx
      · subst hx; right; exact ⟨rfl, hc⟩
      · rw [e1]; left; simp only [List.map_cons, List.mem_cons]; right; exact hx
  rw [List.map_append, List.nodup_append]
  refine ⟨hp'.1, hr'.1, ?_⟩
  rintro a ha b hb rfl
  rcases hp'.2 a ha with h1 | ⟨h1, h1'⟩ <;> rcases hr'.2 a hb with h2 | h2
  · exact hpr a h1 a h2 rfl
  · exact hdisj a (List.mem_append_left _ h1) a (List.mem_append_right _ h2) rfl
  · exact hdisj a (List.mem_append_right _ h2) a (List.mem_append_left _ h1') rfl
  · rw [List.nodup_append] at hnd0; exact hnd0.2.2 a h1' a h2 rfl

/-- Non-vacuity of C01: an accepted method in which every kind of clash occurs,
`M(ctx context.Context, err, c1 string, s1 string) (string, error)`. -/
example : ∃ m, newMethod Demo.env g!"M" (Demo.fld [g!"M"] (.funcT
      [Demo.fld [g!"ctx"] Demo.context_, Demo.fld [g!"err", g!"c1"] Demo.string_,
       Demo.fld [g!"s1"] Demo.string_]
      (some [Demo.fld [] Demo.string_, Demo.fld [] Demo.error_]))) = .ok m ∧
    m.params.map (·.name) = [g!"ctx", g!"s1", g!"s2", g!"s3"] ∧
    m.results.map (·.name) = [g!"s4", g!"err"] := ⟨_, rfl, rfl, rfl⟩

/-! ## C02 -/

/-- Text of a type after replacing a type parameter by its argument: if the printed type is the name of
a type parameter for which there is an argument, the argument's text, otherwise the text itself. -/
def Instantiated (gts : List GType) (gps : List GParam) (printed result : Str) : Prop :=
  (∃ (i : Nat) (arg : GParam), (gts.flatMap (·.names))[i]? = some printed ∧ gps[i]? = some arg ∧
    result = arg.string) ∨
  ((∀ i : Nat, i < gps.length → (gts.flatMap (·.names))[i]? ≠ some printed) ∧ result = printed)

/-- The generated parameter corresponds to the declared variable. -/
structure Corresponds (env : SigEnv) (d : Option Str × Field) (p : Param) : Prop where
  type : ∃ s, printType env.print d.2.type = .ok s ∧
    Instantiated env.genericTypes env.genericParams s p.type
  variadic : p.variadic = true ↔ IsVariadic d.2.type
  doc : p.doc = d.2.doc
  comment : p.comment = d.2.comment

theorem genericParamsLoop_spec (t : Str) (gps : List GParam) : ∀ (names : List Str) (i : Nat),
    (∃ k arg, names[k]? = some t ∧ gps[i + k]? = some arg ∧
      genericParamsLoop t gps i names = arg.string) ∨
    ((∀ k : Nat, i + k < gps.length → names[k]? ≠ some t) ∧ genericParamsLoop t gps i names = t)
  | [], i => Or.inr ⟨by simp, rfl⟩
  | n :: names, i => by
    simp only [genericParamsLoop]
    split
    · rename_i hn
      split
      · rename_i p hp
        exact Or.inl ⟨0, p, by simp [hn], by simpa using hp, rfl⟩
      · rename_i hp
        rcases genericParamsLoop_spec t gps names (i + 1) with ⟨k, arg, h1, h2, h3⟩ | ⟨h1, h2⟩
        · exact Or.inl ⟨k + 1, arg, by simpa using h1, by rw [← h2]; congr 1; omega, h3⟩
        · refine Or.inr ⟨?_, h2⟩
          intro k hk
          have := List.getElem?_eq_none_iff.1 hp
          omega
    · rename_i hn
      rcases genericParamsLoop_spec t gps names (i + 1) with ⟨k, arg, h1, h2, h3⟩ | ⟨h1, h2⟩
      · exact Or.inl ⟨k + 1, arg, by simpa using h1, by rw [← h2]; congr 1; omega, h3⟩
      · refine Or.inr ⟨?_, h2⟩
        intro k hk
        cases k with
        | zero => simpa using hn
        | succ k => simpa using h1 k (by omega)

theorem buildGenericParamsString_spec (t : Str) (gts : List GType) (gps : List GParam) :
    Instantiated gts gps t (buildGenericParamsString t gts gps) := by
  rcases genericParamsLoop_spec t gps (gts.flatMap (·.names)) 0 with ⟨k, arg, h1, h2, h3⟩ | ⟨h1, h2⟩
  · exact Or.inl ⟨k, arg, h1, by simpa using h2, h3⟩
  · exact Or.inr ⟨by simpa using h1, h2⟩

theorem corresponds_of_spec {env n fi used p used'} (h : NewParamSpec env n fi used p used')
    (o : Option Str) : Corresponds env (o, fi) p := by
  obtain ⟨s, hs, ht⟩ := h.type_eq
  exact ⟨⟨s, hs, by rw [ht]; exact buildGenericParamsString_spec _ _ _⟩, h.variadic_iff, h.doc_eq,
    h.comment_eq⟩

theorem run_corresponds {env ds used ps used'} (h : ParamRun env ds used ps used') :
    ps.length = ds.length ∧
      ∀ (i : Nat) d p, ds[i]? = some d → ps[i]? = some p → Corresponds env d p := by
  refine ⟨h.length, ?_⟩
  induction h with
  | nil => intro i d p h; simp at h
  | cons hp _ ih =>
    intro i d p hd hps
    cases i with
    | zero =>
      simp only [List.getElem?_cons_zero, Option.some.injEq] at hd hps
      subst hd; subst hps
      exact corresponds_of_spec hp _
    | succ i => exact ih i d p (by simpa using hd) (by simpa using hps)

theorem Corresponds.rename {env d p} (h : Corresponds env d p) (n : Str) :
    Corresponds env d { p with name := n } := ⟨h.type, h.variadic, h.doc, h.comment⟩

/-- **C02** The generated method has one parameter (result) per variable declared in the source, in
source order, with that variable's type, variadic flag, documentation and comment. -/
theorem C02_signature_preserved (env : SigEnv) (name : Str) (fi : Field) (m : Method)
    (h : newMethod env name fi = .ok m) :
    ∃ params results, fi.type = .funcT params results ∧
      m.name = name ∧ m.doc = fi.doc ∧ m.comment = fi.comment ∧
      m.params.length = (declared params).length ∧
      (∀ (i : Nat) d p, (declared params)[i]? = some d → m.params[i]? = some p → Corresponds env d p) ∧
      m.results.length = (declaredOpt results).length ∧
      (∀ (i : Nat) d p, (declaredOpt results)[i]? = some d → m.results[i]? = some p → Corresponds env d p) := by
  obtain ⟨params, results, used1, used2, ps, rs, u, u', H⟩ := newMethod_ok h
  obtain ⟨lp, cp⟩ := run_corresponds H.runP
  obtain ⟨lr, cr⟩ := run_corresponds H.runR
  refine ⟨params, results, H.type_eq, H.name_eq, H.doc_eq, H.comment_eq, ?_⟩
  have hP : m.params.length = (declared params).length ∧
      ∀ (i : Nat) d p, (declared params)[i]? = some d → m.params[i]? = some p → Corresponds env d p := by
    cases hre : m.acceptsContext with
    | false => rw [H.psEq' hre]; exact ⟨lp, cp⟩
    | true =>
      obtain ⟨p, rest, e1, e2⟩ := renameFirst_ok (H.psEq hre)
      rw [e2]
      rw [e1] at lp cp
      refine ⟨by simpa using lp, ?_⟩
      intro i d q hd hq
      cases i with
      | zero =>
        simp only [List.getElem?_cons_zero, Option.some.injEq] at hq
        subst hq
        exact (cp 0 d p hd rfl).rename _
      | succ i => exact cp (i + 1) d q hd (by simpa using hq)
  have hR : m.results.length = (declaredOpt results).length ∧
      ∀ (i : Nat) d p, (declaredOpt results)[i]? = some d → m.results[i]? = some p → Corresponds env d p := by
    cases hre : m.returnsError with
    | false => rw [H.rsEq' hre]; exact ⟨lr, cr⟩
    | true =>
      obtain ⟨init, last, e1, e2⟩ := renameLast_ok (H.rsEq hre)
      rw [e2]
      rw [e1] at lr cr
      refine ⟨by simpa using lr, ?_⟩
      intro i d q hd hq
      by_cases hi : i < init.length
      · rw [List.getElem?_append_left hi] at hq
        exact cr i d q hd (by rw [List.getElem?_append_left hi]; exact hq)
      · have hi' : init.length ≤ i := by omega
        rw [List.getElem?_append_right hi'] at hq
        have h0 : i - init.length = 0 := by
          apply Classical.byContradiction
          intro hne
          obtain ⟨k, hk⟩ : ∃ k, i - init.length = k + 1 := ⟨i - init.length - 1, by omega⟩
          rw [hk] at hq; simp at hq
        rw [h0] at hq
        simp only [List.getElem?_cons_zero, Option.some.injEq] at hq
        subst hq
        exact (cr i d last hd (by rw [List.getElem?_append_right hi', h0]; rfl)).rename _
  exact ⟨hP.1, hP.2, hR.1, hR.2⟩

/-- Non-vacuity of C02: grouped names, an anonymous result and a variadic parameter. -/
example : ∃ m, newMethod Demo.env g!"M" (Demo.fld [g!"M"] (.funcT
      [Demo.fld [g!"a", g!"b"] Demo.int_, Demo.fld [g!"rest"] (.ellipsis Demo.string_)]
      (some [Demo.fld [] (.star Demo.string_)]))) = .ok m ∧
    m.params.map (fun p => (p.type, p.variadic)) =
      [(g!"int", false), (g!"int", false), (g!"...string", true)] ∧
    m.results.map (·.type) = [g!"*string"] := ⟨_, rfl, rfl, rfl⟩

/-! ## C04, C05 -/

/-- **C04** `ReturnsError` is set exactly when the last result has type `error`; then the last result
is named `err` and no other parameter or result is. -/
theorem C04_error_result (env : SigEnv) (name : Str) (fi : Field) (m : Method)
    (h : newMethod env name fi = .ok m) :
    ∃ params results, fi.type = .funcT params results ∧
      (m.returnsError = true ↔ LastResultIsError results) ∧
      (m.returnsError = true → ∃ init last, m.results = init ++ [last] ∧ last.name = g!"err" ∧
        ∀ p ∈ m.params ++ init, p.name ≠ g!"err") ∧
      -- and if there is a result list whose last type is not `error`, nothing is called `err`
      (results ≠ none → m.returnsError = false → ∀ p ∈ m.params ++ m.results, p.name ≠ g!"err") := by
  have hnd := C01_names_distinct env name fi m h
  obtain ⟨params, results, used1, used2, ps, rs, u, u', H⟩ := newMethod_ok h
  refine ⟨params, results, H.type_eq, (scanResults_ok H.scanR).1, ?_, ?_⟩
  · intro hre
    obtain ⟨init, last, e1, e2⟩ := renameLast_ok (H.rsEq hre)
    refine ⟨init, { last with name := g!"err" }, e2, rfl, ?_⟩
    rw [e2, ← List.append_assoc, List.map_append, List.nodup_append] at hnd
    intro p hp hpe
    exact hnd.2.2 p.name (List.mem_map_of_mem hp) g!"err" (by simp) hpe
  · intro hrn hre p hp
    obtain ⟨l, hl⟩ := Option.ne_none_iff_exists'.1 hrn
    have hu1 : used1 = [g!"err"] := ((scanResults_ok H.scanR).2.2 l hl).1
    have hrun := H.runP.append H.runR
    have hfresh : ∀ {ds used ps used'}, ParamRun env ds used ps used' → ∀ x ∈ used,
        ∀ p ∈ ps, p.name ≠ x := by
      intro ds used ps used' hr
      induction hr with
      | nil => intro x _ p hp; simp at hp
      | cons hp _ ih =>
        intro x hx q hq
        simp only [List.mem_cons] at hq
        rcases hq with rfl | hq
        · rintro rfl; exact hp.fresh hx
        · exact ih x (by rw [hp.used_eq]; simp [hx]) q hq
    rw [H.rsEq' hre] at hp
    cases hac : m.acceptsContext with
    | false =>
      rw [H.psEq' hac] at hp
      exact hfresh hrun _ (by rw [hu1]; simp) p hp
    | true =>
      obtain ⟨p0, rest, e1, e2⟩ := renameFirst_ok (H.psEq hac)
      rw [e2] at hp
      rw [e1] at hrun
      simp only [List.cons_append, List.mem_cons] at hp
      rcases hp with rfl | hp
      · simp
      · exact hfresh hrun _ (by rw [hu1]; simp) p (by simp [List.mem_append.1 hp])

/-- Non-vacuity of C04. -/
example : ∃ m, newMethod Demo.env g!"M" (Demo.fld [g!"M"] (.funcT [Demo.fld [g!"err"] Demo.int_]
      (some [Demo.fld [g!"a", g!"b"] Demo.error_]))) = .ok m ∧ m.returnsError = true ∧
    m.params.map (·.name) = [g!"i1"] ∧ m.results.map (·.name) = [g!"a", g!"err"] :=
  ⟨_, rfl, rfl, rfl, rfl⟩

/-- The full claim of C05: `AcceptsContext` exactly for a first parameter of type `context.Context`. -/
def C05_full : Prop := ∀ (env : SigEnv) (name : Str) (fi : Field) (m : Method),
  newMethod env name fi = .ok m → ∃ params results, fi.type = .funcT params results ∧
    (m.acceptsContext = true ↔ FirstParamIsContext params)

/-- C05 does not hold as stated: any type called `Context` of any package is taken for a context,
e.g. `M(c gin.Context)`. -/
theorem C05_full_false : ¬ C05_full := by
  intro h
  let fi := Demo.fld [g!"M"] (.funcT [Demo.fld [g!"c"] (.selector (.ident g!"gin") g!"Context")] none)
  obtain ⟨params, results, ht, hiff⟩ := h Demo.env g!"M" fi _ rfl
  have h1 : FirstParamIsContext params := hiff.1 rfl
  obtain ⟨f, fs, hp, hty⟩ := h1
  have : params = [Demo.fld [g!"c"] (.selector (.ident g!"gin") g!"Context")] := by
    simp only [fi, Demo.fld, Field.type, Expr.funcT.injEq] at ht
    exact ht.1.symm
  rw [this] at hp
  cases hp
  simp [Demo.fld, Field.type] at hty

/-- **C05** (partial) `AcceptsContext` is set exactly when the first parameter's type is `X.Context`
for some qualifier `X`, in particular for `context.Context`; then the first parameter is named `ctx`
and no other parameter or result is.  Missing: that `X` denotes package `context`. -/
theorem C05_context_param_partial (env : SigEnv) (name : Str) (fi : Field) (m : Method)
    (h : newMethod env name fi = .ok m) :
    ∃ params results, fi.type = .funcT params results ∧
      (m.acceptsContext = true ↔ FirstParamIsDotContext params) ∧
      (FirstParamIsContext params → m.acceptsContext = true) ∧
      (m.acceptsContext = true → ∃ first rest, m.params = first :: rest ∧ first.name = g!"ctx" ∧
        ∀ p ∈ rest ++ m.results, p.name ≠ g!"ctx") := by
  have hnd := C01_names_distinct env name fi m h
  obtain ⟨params, results, used1, used2, ps, rs, u, u', H⟩ := newMethod_ok h
  have hiff := (scanParams_spec params).1
  rw [H.scanP] at hiff
  refine ⟨params, results, H.type_eq, hiff, ?_, ?_⟩
  · rintro ⟨f, fs, h1, h2⟩
    exact hiff.2 ⟨f, fs, _, h1, h2⟩
  · intro hac
    obtain ⟨p, rest, e1, e2⟩ := renameFirst_ok (H.psEq hac)
    refine ⟨_, rest, e2, rfl, ?_⟩
    rw [e2] at hnd
    simp only [List.cons_append, List.map_cons, List.nodup_cons] at hnd
    intro q hq hqe
    exact hnd.1 (by rw [← hqe]; exact List.mem_map_of_mem hq)

/-- Non-vacuity of C05. -/
example : ∃ m, newMethod Demo.env g!"M" (Demo.fld [g!"M"] (.funcT
      [Demo.fld [] Demo.context_, Demo.fld [] Demo.int_] none)) = .ok m ∧ m.acceptsContext = true ∧
    m.params.map (·.name) = [g!"ctx", g!"i1"] := ⟨_, rfl, rfl, rfl⟩

/-! ## C06 -/

/-- **C06** Name generation always returns: the prefix followed by the least positive number that
gives an unused name. -/
theorem C06_fresh_minimal (pre : Str) (used : List Str) :
    ∃ k, 1 ≤ k ∧ genName pre 1 used = .ok (pre ++ natDec k) ∧ pre ++ natDec k ∉ used ∧
      ∀ j, 1 ≤ j → j < k → pre ++ natDec j ∈ used :=
  genName_spec pre 1 used

example : genName g!"s" 1 [g!"s1", g!"s3", g!"s2"] = .ok g!"s4" := rfl

/-! ## C07 -/

/-- The full claim of C07: no parameter of an accepted method is blank. -/
def C07_full : Prop := ∀ (env : SigEnv) (name : Str) (fi : Field) (m : Method),
  newMethod env name fi = .ok m → ∀ p ∈ m.params, p.name ≠ g!"_"

/-- C07 does not hold: `M(_ int)` yields a parameter called `_`, which the generated call then uses as
a value. -/
theorem C07_full_false : ¬ C07_full := by
  intro h
  have := h Demo.env g!"M" (Demo.fld [g!"M"] (.funcT [Demo.fld [g!"_"] Demo.int_] none)) _ rfl
  simp at this

theorem gen_name_shape {pre : Str} {used : List Str} {r : Str} (h : genName pre 1 used = .ok r) :
    ∃ init d, r = init ++ [d] ∧ IsDigit d := by
  obtain ⟨k, _, hk, _⟩ := genName_spec pre 1 used
  rw [h] at hk; cases hk
  obtain ⟨init, d, hd⟩ := (List.eq_nil_or_concat (natDec k)).resolve_left (natDec_ne_nil k)
  refine ⟨pre ++ init, d, by rw [hd, List.concat_eq_append, List.append_assoc], ?_⟩
  exact natDec_digits (n := k) (by rw [hd]; simp)

theorem run_not_blank {env ds used ps used'} (h : ParamRun env ds used ps used') :
    (∀ d ∈ ds, d.1 ≠ some g!"_") → ∀ p ∈ ps, p.name ≠ g!"_" := by
  induction h with
  | nil => intro _ p hp; simp at hp
  | @cons n fi ds used p used1 ps used2 hp _ ih =>
    intro hd q hq
    simp only [List.mem_cons] at hq
    rcases hq with rfl | hq
    · by_cases hc : n.getD [] = [] ∨ n.getD [] ∈ used
      · obtain ⟨pre, _, hg⟩ := hp.name_gen hc
        obtain ⟨init, d, e, hdig⟩ := gen_name_shape hg
        intro hb
        rw [hb] at e
        have : d = '_' := by
          have := congrArg List.getLast? e
          simp at this; exact this.symm
        subst this
        simp [IsDigit] at hdig
      · have h1 : n.getD [] ≠ [] := fun e => hc (Or.inl e)
        have h2 : n.getD [] ∉ used := fun e => hc (Or.inr e)
        rw [hp.name_keep h1 h2]
        intro hb
        apply hd (n, fi) (by simp)
        cases n with
        | none => simp at hb
        | some n => simpa using hb
    · exact ih (fun d hd' => hd d (by simp [hd'])) q hq

/-- **C07** (partial) If the source does not call a parameter `_`, no parameter of the generated
method is called `_`.  Missing: source parameters called `_`. -/
theorem C07_forwardable_partial (env : SigEnv) (name : Str) (fi : Field) (m : Method)
    (params : List Field) (results : Option (List Field))
    (ht : fi.type = .funcT params results) (h : newMethod env name fi = .ok m)
    (hb : ∀ d ∈ declared params, d.1 ≠ some g!"_") : ∀ p ∈ m.params, p.name ≠ g!"_" := by
  obtain ⟨params', results', used1, used2, ps, rs, u, u', H⟩ := newMethod_ok h
  have : params' = params := by rw [H.type_eq] at ht; cases ht; rfl
  subst this
  have hps := run_not_blank H.runP hb
  cases hac : m.acceptsContext with
  | false => rw [H.psEq' hac]; exact hps
  | true =>
    obtain ⟨p, rest, e1, e2⟩ := renameFirst_ok (H.psEq hac)
    rw [e2]
    intro q hq
    simp only [List.mem_cons] at hq
    rcases hq with rfl | hq
    · simp
    · exact hps q (by rw [e1]; simp [hq])

example : ∀ d ∈ declared [Demo.fld [g!"a", g!"b"] Demo.int_, Demo.fld [] Demo.string_],
    d.1 ≠ some g!"_" := by decide

/-! ## C10 -/

/-- The full claim of C10: no signature accepted by the Go parser makes `NewMethod` panic. -/
def C10_full : Prop := ∀ (env : SigEnv) (name : Str) (fi : Field), NonEmptyIdents fi.type →
  newMethod env name fi ≠ .panic

/-- C10 does not hold: `M() ()`, which the Go parser accepts (an empty, non-nil result list), panics. -/
theorem C10_full_false : ¬ C10_full := by
  intro h
  exact h Demo.env g!"M" (Demo.fld [g!"M"] (.funcT [] (some [])))
    (by simp [Demo.fld, Field.type, NonEmptyIdents, NonEmptyIdentsFields, NonEmptyIdentsOpt]) rfl

/-- **C10** (partial) Every signature with non-empty identifiers other than one with an empty pair of
result parentheses yields a method or an error: no panic, no infinite recursion. -/
theorem C10_no_crash_partial (env : SigEnv) (name : Str) (fi : Field)
    (hne : NonEmptyIdents fi.type) (hr : ∀ ps, fi.type ≠ .funcT ps (some [])) :
    (∃ m, newMethod env name fi = .ok m) ∨ (∃ e, newMethod env name fi = .err e) := by
  have := newMethod_safe env name fi hne hr
  cases h : newMethod env name fi with
  | ok m => exact Or.inl ⟨m, rfl⟩
  | err e => exact Or.inr ⟨e, rfl⟩
  | panic => exact absurd h this.1
  | diverge => exact absurd h this.2

example : NonEmptyIdents (.funcT [Demo.fld [] Demo.context_] (some [Demo.fld [] Demo.error_])) ∧
    ∀ ps, (Expr.funcT [Demo.fld [] Demo.context_] (some [Demo.fld [] Demo.error_])) ≠ .funcT ps (some []) := by
  simp [NonEmptyIdents, NonEmptyIdentsFields, NonEmptyIdentsOpt, NonEmptyIdentsField, Demo.fld,
    Demo.context_, Demo.error_]

/-! ## C03 -/

/-- The source names all parameters and results (`pn`, `rn`), with distinct non-empty names, and uses
the names that have a meaning in templates only in their conventional place. -/
structure WellNamed (params : List Field) (results : Option (List Field)) (pn rn : List Str) : Prop where
  named_p : (declared params).map (·.1) = pn.map some
  named_r : (declaredOpt results).map (·.1) = rn.map some
  nonempty : [] ∉ pn ++ rn
  distinct : (pn ++ rn).Nodup
  reserved : ∀ n ∈ reservedNames params results, n ∈ pn ++ rn →
    (n = g!"ctx" ∧ FirstParamIsDotContext params ∧ pn.head? = some n) ∨
    (n = g!"err" ∧ LastResultIsError results ∧ rn.getLast? = some n)

/-- The names the generated method is expected to have. -/
def KeepsNames (params : List Field) (results : Option (List Field)) (pn rn : List Str)
    (m : Method) : Prop :=
  (FirstParamIsDotContext params → m.params.map (·.name) = setHead g!"ctx" pn) ∧
  (¬ FirstParamIsDotContext params → m.params.map (·.name) = pn) ∧
  (LastResultIsError results → m.results.map (·.name) = setLast g!"err" rn) ∧
  (¬ LastResultIsError results → m.results.map (·.name) = rn)

/-- The full claim of C03. -/
def C03_full : Prop := ∀ (env : SigEnv) (name : Str) (fi : Field) (m : Method) (params : List Field)
  (results : Option (List Field)) (pn rn : List Str), fi.type = .funcT params results →
  newMethod env name fi = .ok m → WellNamed params results pn rn → KeepsNames params results pn rn m

/-- C03 does not hold: in `M(ctx context.Context, c1 string)` the parameter `c1` is renamed to `s1`,
because `c1` is used as a temporary name of the context parameter. -/
theorem C03_full_false : ¬ C03_full := by
  intro h
  have := h Demo.env g!"M" (Demo.fld [g!"M"] (.funcT [Demo.fld [g!"ctx"] Demo.context_,
    Demo.fld [g!"c1"] Demo.string_] none)) _ _ _ [g!"ctx", g!"c1"] [] rfl rfl
    ⟨by decide, by decide, by decide, by decide, by
      intro n hn hn'
      left
      simp [reservedNames, Demo.fld, Demo.context_, Field.type] at hn
      subst hn
      exact ⟨rfl, ⟨_, _, _, rfl, rfl⟩, rfl⟩⟩
  have h2 := this.1 ⟨_, _, _, rfl, rfl⟩
  revert h2
  decide

theorem names_of_keep {ps : List Param} {ds : List (Option Str × Field)} {ns : List Str}
    (h : ps.map (fun p => some p.name) = ds.map (·.1)) (h' : ds.map (·.1) = ns.map some) :
    ps.map (·.name) = ns := by
  rw [h'] at h
  have : (ps.map (·.name)).map some = ns.map some := by rw [← h]; simp [Function.comp_def]
  have e := congrArg (List.filterMap id) this
  simpa [List.filterMap_map, Function.comp_def] using e

theorem run_keep {env ds used ps used'} (h : ParamRun env ds used ps used') {ns : List Str}
    (hd : ds.map (·.1) = ns.map some) (h0 : [] ∉ ns) (hnd : ns.Nodup) (hu : ∀ n ∈ ns, n ∉ used) :
    ps.map (·.name) = ns := by
  refine names_of_keep (h.keep ?_ ?_) hd
  · intro d hdm
    have : d.1 ∈ ns.map some := by rw [← hd]; exact List.mem_map_of_mem hdm
    obtain ⟨n, hn, hn'⟩ := List.mem_map.1 this
    exact ⟨n, hn'.symm, fun e => h0 (e ▸ hn), hu n hn⟩
  · rw [hd]
    refine List.Pairwise.map _ ?_ hnd
    intro a b hab e
    exact hab (Option.some.inj e)

/-- **C03** (partial) If all parameters and results are named, names are distinct, and `ctx`/`err` are
used only where they are conventional, the generated method uses the source names, except that a first
parameter `X.Context` is called `ctx` and a last result `error` is called `err`.  Missing: a method
whose context parameter is called `ctx` and which has another variable called `c1`, unless that is the
error; there names are not kept, see `C03_exact`. -/
theorem C03_names_kept_partial (env : SigEnv) (name : Str) (fi : Field) (m : Method)
    (params : List Field) (results : Option (List Field)) (pn rn : List Str)
    (ht : fi.type = .funcT params results) (h : newMethod env name fi = .ok m)
    (hw : WellNamed params results pn rn)
    (hc1 : FirstParamIsDotContext params → pn.head? = some g!"ctx" → g!"c1" ∉ pn ∧
      (g!"c1" ∈ rn → LastResultIsError results ∧ rn.getLast? = some g!"c1")) : KeepsNames params results pn rn m := by
  obtain ⟨params', results', used1, used2, ps, rs, u, u', H⟩ := newMethod_ok h
  have hpr : params' = params ∧ results' = results := by rw [H.type_eq] at ht; cases ht; exact ⟨rfl, rfl⟩
  obtain ⟨rfl, rfl⟩ := hpr
  have hres := scanResults_ok H.scanR
  have hctx := scanParams_spec params'
  rw [H.scanP] at hctx
  simp only at hctx
  -- the reserved names of the model are those of the specification
  have hreserved : ∀ n ∈ used2 ++ used1, n ∈ reservedNames params' results' := by
    intro n hn
    unfold reservedNames
    rcases List.mem_append.1 hn with hn | hn
    · apply List.mem_append_right
      have := H.scanP
      cases params' with
      | nil =>
        simp only [scanParams, Prod.mk.injEq] at this
        rw [← this.2] at hn; simp at hn
      | cons f fs =>
        have h2 := congrArg Prod.snd this
        simp only [scanParams] at h2
        rw [← h2] at hn
        cases hf : f.type <;> rw [hf] at hn <;> simp at hn
        simp [hf, hn]
    · apply List.mem_append_left
      cases hr : results' with
      | none => rw [hres.2.1 hr] at hn; simp at hn
      | some l => rw [(hres.2.2 l hr).1] at hn; simpa using hn
  have hnd := hw.distinct
  rw [List.nodup_append] at hnd
  obtain ⟨hndp, hndr, hdisj⟩ := hnd
  have h0p : [] ∉ pn := fun e => hw.nonempty (List.mem_append_left _ e)
  have h0r : [] ∉ rn := fun e => hw.nonempty (List.mem_append_right _ e)
  -- parameters
  have hP : (FirstParamIsDotContext params' → ps.map (·.name) = pn ∨
        (pn.head? = some g!"ctx" ∧ ps.map (·.name) = setHead g!"c1" pn)) ∧
      (¬ FirstParamIsDotContext params' → ps.map (·.name) = pn) := by
    by_cases hB : FirstParamIsDotContext params' ∧ pn.head? = some g!"ctx"
    · obtain ⟨hB, hhead⟩ := hB
      refine ⟨fun _ => Or.inr ⟨hhead, ?_⟩, fun hn => absurd hB hn⟩
      have hused2 : used2 = [g!"ctx"] := hctx.2.2 (hctx.1.2 hB)
      have hcc := hc1 hB hhead
      obtain ⟨f, fs, x, hpe, hft⟩ := hB
      cases hpn : pn with
      | nil => rw [hpn] at hhead; simp at hhead
      | cons n0 pt =>
        rw [hpn] at hhead
        simp only [List.head?_cons, Option.some.injEq] at hhead
        subst hhead
        have hrun := H.runP
        have hnm := hw.named_p
        rw [hpn] at hnm
        cases hds : declared params' with
        | nil => rw [hds] at hnm; simp at hnm
        | cons d0 dt =>
          rw [hds] at hrun hnm
          simp only [List.map_cons, List.cons.injEq] at hnm
          -- the first declared variable comes from the first field
          have hd0 : d0.2 = f := by
            have : d0 ∈ (if f.names.isEmpty then [(none, f)] else f.names.map fun n => (some n, f)) := by
              have e : declared params' =
                  (if f.names.isEmpty then [(none, f)] else f.names.map fun n => (some n, f)) ++
                    declared fs := by rw [hpe]; simp [declared]
              rw [hds] at e
              split at e
              · rename_i hh; rw [if_pos hh]
                simp only [List.cons_append, List.cons.injEq] at e; simp [e.1]
              · rename_i hh; rw [if_neg hh]
                cases hfn : f.names with
                | nil => rw [hfn] at hh; simp at hh
                | cons a b => rw [hfn] at e; simp at e; simp [e.1]
            split at this
            · simp at this; rw [this]
            · simp only [List.mem_map] at this; obtain ⟨_, _, rfl⟩ := this; rfl
          cases hrun with
          | @cons n fi' _ _ p used1' pst _ hp hrest =>
            simp only at hd0 hnm
            subst hd0
            have hn' : n = some g!"ctx" := hnm.1
            subst hn'
            have hin : (g!"ctx" ∈ used2 ++ used1) := by rw [hused2]; simp
            obtain ⟨pre, hpre, hg⟩ := hp.name_gen (Or.inr (by simpa using hin))
            rw [hft] at hpre
            have hprec : pre = g!"c" := by
              simp only [typePrefix, lowerFirstByte] at hpre
              rw [if_pos (by decide)] at hpre
              simp only [Res.ok.injEq] at hpre
              rw [← hpre, env.print.uni.lower_ascii _ (by decide)]
              rfl
            subst hprec
            have hu1 : used1 = [] ∨ used1 = [g!"err"] := by
              cases hr : results' with
              | none => exact Or.inl (hres.2.1 hr)
              | some l => exact Or.inr (hres.2.2 l hr).1
            have hpn1 : p.name = g!"c1" := by
              have : genName g!"c" 1 (used2 ++ used1) = .ok g!"c1" := by
                rw [hused2]; rcases hu1 with e | e <;> rw [e] <;> rfl
              rw [this] at hg; exact (Res.ok.inj hg).symm
            simp only [List.map_cons, setHead, hpn1, List.cons.injEq, true_and]
            rw [hpn] at hcc hndp h0p
            simp only [List.nodup_cons, List.mem_cons, not_or] at hndp hcc h0p
            refine run_keep hrest hnm.2 h0p.2 hndp.2 ?_
            intro n hn
            rw [hp.used_eq, hpn1]
            simp only [List.mem_cons, not_or]
            refine ⟨fun e => hcc.1.2 (e ▸ hn), ?_⟩
            intro hnu
            rcases hw.reserved n (hreserved n hnu) (by rw [hpn]; simp [hn]) with ⟨e, _, _⟩ | ⟨_, _, hl⟩
            · subst e; exact hndp.1 hn
            · exact hdisj n (by rw [hpn]; simp [hn]) n (List.mem_of_getLast? hl) rfl
    · have hk : ps.map (·.name) = pn := by
        refine run_keep H.runP hw.named_p h0p hndp ?_
        intro n hn hnu
        rcases hw.reserved n (hreserved n hnu) (List.mem_append_left _ hn) with ⟨e, h1, h2⟩ | ⟨_, _, hl⟩
        · exact hB ⟨h1, e ▸ h2⟩
        · exact hdisj n hn n (List.mem_of_getLast? hl) rfl
      exact ⟨fun _ => Or.inl hk, fun _ => hk⟩
  have hPu : ∀ n ∈ ps.map (·.name), n ∈ rn → LastResultIsError results' ∧ rn.getLast? = some n := by
    intro n hn hnr
    by_cases hB : FirstParamIsDotContext params'
    · rcases hP.1 hB with e | ⟨e0, e⟩
      · rw [e] at hn; exact absurd rfl (hdisj n hn n hnr)
      · rw [e] at hn
        have hcc := hc1 hB e0
        cases hpn : pn with
        | nil => rw [hpn] at hn; simp [setHead] at hn
        | cons a t =>
          rw [hpn] at hn
          simp only [setHead, List.mem_cons] at hn
          rcases hn with rfl | hn
          · exact hcc.2 hnr
          · exact absurd rfl (hdisj n (by rw [hpn]; simp [hn]) n hnr)
    · rw [hP.2 hB] at hn; exact absurd rfl (hdisj n hn n hnr)
  -- a result's name is in use only if it is that of the error
  have hru : ∀ n ∈ rn, n ∈ u → LastResultIsError results' ∧ rn.getLast? = some n := by
    intro n hn hnu
    rw [H.runP.used_eq] at hnu
    simp only [List.mem_append, List.mem_reverse] at hnu
    rcases hnu with hnu | hnu
    · exact hPu n hnu hn
    · rcases hw.reserved n (hreserved n (List.mem_append.2 hnu)) (List.mem_append_right _ hn) with ⟨_, _, hl⟩ | hl
      · exact absurd rfl (hdisj n (List.mem_of_head? hl) n hn)
      · exact hl.2
  have hR : (LastResultIsError results' → rs.map (·.name) = rn ∨
        setLast g!"err" (rs.map (·.name)) = setLast g!"err" rn) ∧
      (¬ LastResultIsError results' → rs.map (·.name) = rn) := by
    by_cases hB : LastResultIsError results' ∧ ∃ x, rn.getLast? = some x ∧ x ∈ u
    · refine ⟨fun _ => Or.inr ?_, fun hn => absurd hB.1 hn⟩
      obtain ⟨hB, x, hx, _⟩ := hB
      obtain ⟨rinit, hrn⟩ : ∃ rinit, rn = rinit ++ [x] := by
        rcases List.eq_nil_or_concat rn with e | ⟨l, a, e⟩
        · rw [e] at hx; simp at hx
        · rw [e, List.concat_eq_append] at hx; simp at hx; exact ⟨l, by rw [e, List.concat_eq_append, hx]⟩
      have hnm := hw.named_r
      rcases List.eq_nil_or_concat (declaredOpt results') with e | ⟨dinit, dl, e⟩
      · rw [e, hrn] at hnm; simp at hnm
      · rw [List.concat_eq_append] at e
        have hrun := H.runR
        rw [e] at hrun
        rw [e, hrn] at hnm
        simp only [List.map_append, List.map_cons, List.map_nil] at hnm
        have hn1 := List.append_inj_left' hnm rfl
        obtain ⟨ps1, ps2, um, rfl, hr1, hr2⟩ := hrun.append_inv
        rw [hrn] at hndr h0r
        rw [List.nodup_append] at hndr
        have hk := run_keep hr1 hn1 (fun e => h0r (List.mem_append_left _ e)) hndr.1 (by
          intro n hn hnu
          have := (hru n (by rw [hrn]; exact List.mem_append_left _ hn) hnu).2
          rw [hx] at this
          exact hndr.2.2 n hn n (by rw [Option.some.inj this]; simp) rfl)
        have hl2 : ps2.length = 1 := by rw [hr2.length]; rfl
        obtain ⟨pl, rfl⟩ : ∃ pl, ps2 = [pl] := List.length_eq_one_iff.1 hl2
        rw [List.map_append, hk, hrn]
        cases rinit <;> simp [setLast, List.dropLast]
    · have hk : rs.map (·.name) = rn := by
        refine run_keep H.runR hw.named_r h0r hndr ?_
        intro n hn hnu
        obtain ⟨h1, h2⟩ := hru n hn hnu
        exact hB ⟨h1, n, h2, hnu⟩
      exact ⟨fun _ => Or.inl hk, fun _ => hk⟩
  refine ⟨?_, ?_, ?_, ?_⟩
  · intro hB
    have hac := hctx.1.2 hB
    obtain ⟨p, rest, e1, e2⟩ := renameFirst_ok (H.psEq hac)
    have : m.params.map (·.name) = setHead g!"ctx" (ps.map (·.name)) := by rw [e1, e2]; rfl
    rw [this]
    rcases hP.1 hB with e | ⟨_, e⟩
    · rw [e]
    · rw [e]; cases pn <;> rfl
  · intro hB
    have hac : m.acceptsContext = false := by
      cases hh : m.acceptsContext with
      | false => rfl
      | true => exact absurd (hctx.1.1 hh) hB
    rw [H.psEq' hac]; exact hP.2 hB
  · intro hB
    obtain ⟨init, last, e1, e2⟩ := renameLast_ok (H.rsEq (hres.1.2 hB))
    have : m.results.map (·.name) = setLast g!"err" (rs.map (·.name)) := by
      rw [e1, e2]; cases init <;> simp [setLast, List.dropLast]
    rw [this]
    rcases hR.1 hB with e | e
    · rw [e]
    · exact e
  · intro hB
    have hre : m.returnsError = false := by
      cases hh : m.returnsError with
      | false => rfl
      | true => exact absurd (hres.1.1 hh) hB
    rw [H.rsEq' hre]; exact hR.2 hB

/-- A context parameter called `ctx` is called `c1` until all names have been chosen. -/
theorem ctx_temporary {env : SigEnv} {name : Str} {fi : Field} {m : Method} {params : List Field} {results : Option (List Field)}
    {used1 used2 : List Str} {ps rs : List Param} {u u' : List Str} {pn : List Str}
    (H : NewMethodSpec env name fi m params results used1 used2 ps rs u u')
    (hB : FirstParamIsDotContext params) (hhead : pn.head? = some g!"ctx") (hnm : (declared params).map (·.1) = pn.map some) :
    ∃ p pst used0, ps = p :: pst ∧ p.name = g!"c1" ∧ g!"c1" ∈ used0 ∧ ParamRun env (declared params).tail used0 pst u := by
  have hctx := scanParams_spec params
  rw [H.scanP] at hctx
  simp only at hctx
  have hused2 : used2 = [g!"ctx"] := hctx.2.2 (hctx.1.2 hB)
  have hres := scanResults_ok H.scanR
  have hu1 : used1 = [] ∨ used1 = [g!"err"] := by
    cases hr : results with
    | none => exact Or.inl (hres.2.1 hr)
    | some l => exact Or.inr (hres.2.2 l hr).1
  obtain ⟨f, fs, x, hpe, hft⟩ := hB
  have hrun := H.runP
  cases hds : declared params with
  | nil => rw [hds] at hnm; cases pn <;> simp at hnm hhead
  | cons d0 dt =>
    rw [hds] at hrun hnm
    have hd0 : d0.2 = f := by
      have e : declared params =
          (if f.names.isEmpty then [(none, f)] else f.names.map fun n => (some n, f)) ++ declared fs := by
        rw [hpe]; simp [declared]
      rw [hds] at e
      split at e
      · simp only [List.cons_append, List.cons.injEq] at e
        rw [e.1]
      · cases hfn : f.names with
        | nil => simp [hfn] at *
        | cons a b =>
          rw [hfn] at e
          simp only [List.map_cons, List.cons_append, List.cons.injEq] at e
          rw [e.1]
    cases pn with
    | nil => simp at hhead
    | cons n0 pt =>
      simp only [List.head?_cons, Option.some.injEq] at hhead
      subst hhead
      simp only [List.map_cons, List.cons.injEq] at hnm
      cases hrun with
      | @cons n fi' _ _ p used0 pst _ hp hrest =>
        simp only at hd0 hnm
        subst hd0
        have hn' : n = some g!"ctx" := hnm.1
        subst hn'
        have hin : (g!"ctx" ∈ used2 ++ used1) := by rw [hused2]; simp
        obtain ⟨pre, hpre, hg⟩ := hp.name_gen (Or.inr (by simpa using hin))
        rw [hft] at hpre
        have hprec : pre = g!"c" := by
          simp only [typePrefix, lowerFirstByte] at hpre
          rw [if_pos (by decide)] at hpre
          simp only [Res.ok.injEq] at hpre
          rw [← hpre, env.print.uni.lower_ascii _ (by decide)]
          rfl
        subst hprec
        have hpn1 : p.name = g!"c1" := by
          have : genName g!"c" 1 (used2 ++ used1) = .ok g!"c1" := by
            rw [hused2]; rcases hu1 with e | e <;> rw [e] <;> rfl
          rw [this] at hg; exact (Res.ok.inj hg).symm
        exact ⟨p, pst, used0, rfl, hpn1, by rw [hp.used_eq, hpn1]; simp, hrest⟩

theorem run_avoids {env ds used ps used'} (h : ParamRun env ds used ps used') {n : Str} (hn : n ∈ used) :
    n ∉ ps.map (·.name) := by
  induction h with
  | nil => simp
  | cons hp _ ih =>
    simp only [List.map_cons, List.mem_cons, not_or]
    exact ⟨fun e => hp.fresh (e ▸ hn), ih (by rw [hp.used_eq]; simp [hn])⟩

/-- **C03** The names are kept exactly if the temporary name `c1` of a context parameter called `ctx` does not occur, or only as that of the
error. -/
theorem C03_exact (env : SigEnv) (name : Str) (fi : Field) (m : Method)
    (params : List Field) (results : Option (List Field)) (pn rn : List Str)
    (ht : fi.type = .funcT params results) (h : newMethod env name fi = .ok m)
    (hw : WellNamed params results pn rn) :
    KeepsNames params results pn rn m ↔
      (FirstParamIsDotContext params → pn.head? = some g!"ctx" → g!"c1" ∉ pn ∧
        (g!"c1" ∈ rn → LastResultIsError results ∧ rn.getLast? = some g!"c1")) := by
  refine ⟨fun hk hB hhead => ?_, C03_names_kept_partial env name fi m params results pn rn ht h hw⟩
  obtain ⟨params', results', used1, used2, ps, rs, u, u', H⟩ := newMethod_ok h
  have hpr : params' = params ∧ results' = results := by rw [H.type_eq] at ht; cases ht; exact ⟨rfl, rfl⟩
  obtain ⟨rfl, rfl⟩ := hpr
  have hctx := scanParams_spec params'
  rw [H.scanP] at hctx
  simp only at hctx
  have hres := scanResults_ok H.scanR
  obtain ⟨p, pst, used0, rfl, hp1, hin, hrest⟩ := ctx_temporary H hB hhead hw.named_p
  have hu : g!"c1" ∈ u := by rw [hrest.used_eq]; exact List.mem_append_right _ hin
  have hr := run_avoids H.runR hu
  constructor
  · have h1 := hk.1 hB
    obtain ⟨p', rest, e1, e2⟩ := renameFirst_ok (H.psEq (hctx.1.2 hB))
    cases e1
    rw [e2] at h1
    cases pn with
    | nil => simp at hhead
    | cons n0 pt =>
      simp only [List.head?_cons, Option.some.injEq] at hhead
      subst hhead
      simp only [List.map_cons, setHead, List.cons.injEq] at h1
      rw [List.mem_cons, not_or, ← h1.2]
      exact ⟨by decide, run_avoids hrest hin⟩
  · intro hc
    by_cases hL : LastResultIsError results'
    · refine ⟨hL, ?_⟩
      have h1 := hk.2.2.1 hL
      obtain ⟨init, last, e1, e2⟩ := renameLast_ok (H.rsEq (hres.1.2 hL))
      rw [e1] at hr
      rw [e2] at h1
      rcases List.eq_nil_or_concat rn with e | ⟨l, a, e⟩
      · rw [e] at hc; simp at hc
      · rw [List.concat_eq_append] at e
        have h2 : setLast g!"err" rn = l ++ [g!"err"] := by rw [e]; cases l <;> simp [setLast, List.dropLast]
        rw [h2, List.map_append] at h1
        have h3 := List.append_inj_left' h1 rfl
        rw [List.map_append, h3] at hr
        rw [e] at hc ⊢
        simp only [List.mem_append, List.mem_singleton, not_or] at hc hr
        rcases hc with hc | rfl
        · exact absurd hc hr.1
        · simp
    · have h1 := hk.2.2.2 hL
      have hre : m.returnsError = false := by
        cases hh : m.returnsError with
        | false => rfl
        | true => exact absurd (hres.1.1 hh) hL
      rw [H.rsEq' hre] at h1
      rw [h1] at hr
      exact absurd hc hr

/-- Non-vacuity of C03: `M(ctx context.Context, err1, s1 string) (c int, err error)`. -/
example : WellNamed [Demo.fld [g!"ctx"] Demo.context_, Demo.fld [g!"err1", g!"s1"] Demo.string_]
      (some [Demo.fld [g!"c"] Demo.int_, Demo.fld [g!"err"] Demo.error_])
      [g!"ctx", g!"err1", g!"s1"] [g!"c", g!"err"] ∧
    g!"c1" ∉ [g!"ctx", g!"err1", g!"s1"] ++ [g!"c", g!"err"] := by
  refine ⟨⟨by decide, by decide, by decide, by decide, ?_⟩, by decide⟩
  intro n hn _
  simp [reservedNames, Demo.fld, Demo.context_, Field.type] at hn
  rcases hn with rfl | rfl
  · right; exact ⟨rfl, ⟨_, _, rfl, rfl, rfl⟩, rfl⟩
  · left; exact ⟨rfl, ⟨_, _, _, rfl, rfl⟩, rfl⟩

/-- Of `M(ctx context.Context) (c1 error)` the names are kept, as the error is called `err` anyway; of `M(ctx int, c1 string)` too, as the
first parameter is no context. -/
example : (∃ m, newMethod Demo.env g!"M" (Demo.fld [g!"M"] (.funcT [Demo.fld [g!"ctx"] Demo.context_]
      (some [Demo.fld [g!"c1"] Demo.error_]))) = .ok m ∧
      m.params.map (·.name) = [g!"ctx"] ∧ m.results.map (·.name) = [g!"err"]) ∧
    ∃ m, newMethod Demo.env g!"M" (Demo.fld [g!"M"] (.funcT [Demo.fld [g!"ctx"] Demo.int_, Demo.fld [g!"c1"] Demo.string_]
      none)) = .ok m ∧ m.params.map (·.name) = [g!"ctx", g!"c1"] := ⟨⟨_, rfl, rfl, rfl⟩, _, rfl, rfl⟩

/-! ## C60 -/

/-- The names written in the source are identifiers over `letter`, and so are the type names. -/
structure SourceIdents (letter : Char → Prop) (params : List Field)
    (results : Option (List Field)) : Prop where
  ascii : ∀ c, AsciiLetter c → letter c
  names : ∀ d ∈ declared params ++ declaredOpt results, ∀ n, d.1 = some n → IsIdentifier letter n
  types : ∀ d ∈ declared params ++ declaredOpt results, ∀ n, coreName d.2.type = some n →
    IsIdentifier letter n

/-- The full claim of C60: whatever counts as a letter (U+FFFD does not), all parameter and result
names are identifiers if the names in the source are. -/
def C60_full : Prop := ∀ (letter : Char → Prop), ¬ letter '\uFFFD' →
  ∀ (env : SigEnv) (name : Str) (fi : Field) (m : Method) (params : List Field)
  (results : Option (List Field)), fi.type = .funcT params results → newMethod env name fi = .ok m →
  SourceIdents letter params results → ∀ p ∈ m.params ++ m.results, IsIdentifier letter p.name

/-- C60 does not hold: an anonymous parameter of type `Ünit` is called by half a letter. -/
theorem C60_full_false : ¬ C60_full := by
  intro h
  have := h (fun c => AsciiLetter c ∨ c = 'Ü') (by unfold AsciiLetter; decide) Demo.env g!"M" (Demo.fld [g!"M"] (.funcT
    [Demo.fld [] (.ident g!"Ünit")] none)) _ _ _ rfl rfl
    ⟨fun c hc => Or.inl hc, by simp [declared, declaredOpt, Demo.fld, Field.names], by
      intro d hd n hn
      simp [declared, declaredOpt, Demo.fld, Field.names] at hd
      subst hd
      simp [Field.type, coreName] at hn
      subst hn
      refine ⟨Or.inr rfl, ?_⟩
      intro d hd
      left; left; left
      simp at hd
      rcases hd with rfl | rfl | rfl <;> rfl⟩
  have h2 := this _ (List.mem_cons_self)
  have h3 := h2.1
  unfold AsciiLetter at h3
  revert h3
  decide

theorem toLower_asciiLetter {c : Char} (h : AsciiLetter c) : AsciiLetter c.toLower := by
  unfold AsciiLetter at *
  rcases h with h | h
  · left
    unfold Char.toLower
    split
    · rename_i hb
      unfold Char.isAlpha Char.isUpper Char.isLower
      have h1 : 97 ≤ c.val + 32 ∧ c.val + 32 ≤ 122 := by
        obtain ⟨h1, h2⟩ := hb
        simp only [UInt32.le_iff_toNat_le, ge_iff_le] at h1 h2 ⊢
        have e1 : ('A'.val).toNat = 65 := rfl
        have e2 : ('Z'.val).toNat = 90 := rfl
        rw [UInt32.toNat_add]
        simp only [UInt32.reduceToNat] 
        omega
      simp only [Bool.or_eq_true, Bool.and_eq_true, decide_eq_true_eq]
      exact Or.inr h1
    · exact h
  · right; subst h; rfl

theorem asciiLetter_lt {c : Char} (h : AsciiLetter c) : c.val < 128 := by
  rcases h with h | h
  · unfold Char.isAlpha Char.isUpper Char.isLower at h
    grind
  · subst h; decide

theorem isIdentifier_append {letter : Char → Prop} {a b : Str} (ha : IsIdentifier letter a)
    (hb : ∀ d ∈ b, letter d ∨ IsDigit d) : IsIdentifier letter (a ++ b) := by
  cases a with
  | nil => exact absurd ha (by simp [IsIdentifier])
  | cons c cs =>
    refine ⟨ha.1, ?_⟩
    intro d hd
    rcases List.mem_append.1 hd with hd | hd
    · exact ha.2 d hd
    · exact hb d hd

theorem lowerFirstByte_ident {letter : Char → Prop} (hasc : ∀ c, AsciiLetter c → letter c) {u : Uni}
    {n pre : Str} (hn : ∀ c cs, n = c :: cs → AsciiLetter c) (h : lowerFirstByte u n = .ok pre) :
    IsIdentifier letter pre := by
  cases n with
  | nil => simp [lowerFirstByte] at h
  | cons c cs =>
    have hc := hn c cs rfl
    simp only [lowerFirstByte, if_pos (asciiLetter_lt hc), Res.ok.injEq] at h
    subst h
    rw [u.lower_ascii c (asciiLetter_lt hc)]
    exact ⟨hasc _ (toLower_asciiLetter hc), by simp⟩

theorem typePrefix_ident {letter : Char → Prop} (hasc : ∀ c, AsciiLetter c → letter c) (u : Uni) :
    ∀ (e : Expr) (pre : Str), (∀ c cs, coreName e = some (c :: cs) → AsciiLetter c) →
      typePrefix u e = .ok pre → IsIdentifier letter pre := by
  have one : ∀ {e : Expr} {pre : Str} {c : Char}, AsciiLetter c →
      (∀ pre, (∀ c cs, coreName e = some (c :: cs) → AsciiLetter c) →
        typePrefix u e = .ok pre → IsIdentifier letter pre) →
      (∀ c cs, coreName e = some (c :: cs) → AsciiLetter c) →
      (do return (← typePrefix u e) ++ [c] : Res Str) = .ok pre → IsIdentifier letter pre := by
    intro e pre c hc ih hcore h
    simp only [Res.bind_eq_ok, Res.pure_eq, Res.ok.injEq] at h
    obtain ⟨q, hq, rfl⟩ := h
    exact isIdentifier_append (ih q hcore hq) (by simp; exact Or.inl (hasc _ hc))
  have fixed : ∀ {s pre : Str}, IsIdentifier letter s → (Res.ok s : Res Str) = .ok pre →
      IsIdentifier letter pre := by rintro s pre hs ⟨⟩; exact hs
  have asc : ∀ c, c.isAlpha = true → letter c := fun c hc => hasc c (Or.inl hc)
  have idp : IsIdentifier letter g!"p" := ⟨asc _ rfl, by simp⟩
  intro e
  induction e using Expr.rec (motive_2 := fun _ => True) (motive_3 := fun _ => True)
    (motive_4 := fun _ => True) (motive_5 := fun _ => True) (motive_6 := fun _ => True) with
  | ident n => intro pre hc h; exact lowerFirstByte_ident hasc (fun c cs e => hc c cs (by simp [coreName, e])) h
  | selector x s _ => intro pre hc h; exact lowerFirstByte_ident hasc (fun c cs e => hc c cs (by simp [coreName, e])) h
  | star x ih => intro pre hc h; exact one (Or.inl rfl) ih hc h
  | sliceExpr x ih => intro pre hc h; exact one (Or.inl rfl) ih hc h
  | array l x _ ih => intro pre hc h; exact one (Or.inl rfl) ih hc h
  | mapT => intro pre _ h; exact fixed (s := g!"m") ⟨asc _ rfl, by simp⟩ h
  | chanT => intro pre _ h; exact fixed (s := g!"ch") ⟨asc _ rfl, by simp; exact Or.inl (asc _ rfl)⟩ h
  | structT => intro pre _ h; exact fixed (s := g!"st") ⟨asc _ rfl, by simp; exact Or.inl (asc _ rfl)⟩ h
  | funcT => intro pre _ h; exact fixed (s := g!"f") ⟨asc _ rfl, by simp⟩ h
  | ellipsis => intro pre _ h; exact fixed idp h
  | ifaceT => intro pre _ h; exact fixed idp h
  | index => intro pre _ h; exact fixed idp h
  | indexList => intro pre _ h; exact fixed idp h
  | paren => intro pre _ h; exact fixed idp h
  | lit => intro pre _ h; exact fixed idp h
  | unary => intro pre _ h; exact fixed idp h
  | binary => intro pre _ h; exact fixed idp h
  | other => intro pre _ h; exact fixed idp h
  | _ => trivial

theorem run_ident {letter : Char → Prop} (hasc : ∀ c, AsciiLetter c → letter c) {env ds used ps used'}
    (h : ParamRun env ds used ps used') :
    (∀ d ∈ ds, ∀ n, d.1 = some n → IsIdentifier letter n) →
    (∀ d ∈ ds, ∀ c cs, coreName d.2.type = some (c :: cs) → AsciiLetter c) →
    ∀ p ∈ ps, IsIdentifier letter p.name := by
  induction h with
  | nil => intro _ _ p hp; simp at hp
  | @cons n fi ds used p used1 ps used2 hp _ ih =>
    intro hd hc q hq
    simp only [List.mem_cons] at hq
    rcases hq with rfl | hq
    · by_cases hcase : n.getD [] = [] ∨ n.getD [] ∈ used
      · obtain ⟨pre, hpre, hg⟩ := hp.name_gen hcase
        obtain ⟨k, _, hk, _⟩ := genName_spec pre 1 used
        rw [hg] at hk
        rw [Res.ok.inj hk]
        refine isIdentifier_append (typePrefix_ident hasc _ _ _ (hc (n, fi) (by simp)) hpre) ?_
        intro d hd; exact Or.inr (natDec_digits hd)
      · have h1 : n.getD [] ≠ [] := fun e => hcase (Or.inl e)
        have h2 : n.getD [] ∉ used := fun e => hcase (Or.inr e)
        rw [hp.name_keep h1 h2]
        cases n with
        | none => simp at h1
        | some n => exact hd (some n, fi) (by simp) n rfl
    · exact ih (fun d hd' => hd d (by simp [hd'])) (fun d hd' => hc d (by simp [hd'])) q hq

/-- **C60** (partial) If the names in the source are identifiers and the named types at the core of
parameter and result types begin with an ASCII letter, all parameter and result names are identifiers.
Missing: types beginning with a non-ASCII letter. -/
theorem C60_identifiers_partial (letter : Char → Prop) (env : SigEnv) (name : Str) (fi : Field)
    (m : Method) (params : List Field) (results : Option (List Field))
    (ht : fi.type = .funcT params results) (h : newMethod env name fi = .ok m)
    (hs : SourceIdents letter params results)
    (hc : ∀ d ∈ declared params ++ declaredOpt results, ∀ c cs,
      coreName d.2.type = some (c :: cs) → AsciiLetter c) :
    ∀ p ∈ m.params ++ m.results, IsIdentifier letter p.name := by
  obtain ⟨params', results', used1, used2, ps, rs, u, u', H⟩ := newMethod_ok h
  have hpr : params' = params ∧ results' = results := by rw [H.type_eq] at ht; cases ht; exact ⟨rfl, rfl⟩
  obtain ⟨rfl, rfl⟩ := hpr
  have hl : ∀ c : Char, c.isAlpha = true → letter c := fun c hc => hs.ascii c (Or.inl hc)
  have hps := run_ident hs.ascii H.runP (fun d hd => hs.names d (List.mem_append_left _ hd))
    (fun d hd => hc d (List.mem_append_left _ hd))
  have hrs := run_ident hs.ascii H.runR (fun d hd => hs.names d (List.mem_append_right _ hd))
    (fun d hd => hc d (List.mem_append_right _ hd))
  intro p hp
  rcases List.mem_append.1 hp with hp | hp
  · cases hac : m.acceptsContext with
    | false => rw [H.psEq' hac] at hp; exact hps p hp
    | true =>
      obtain ⟨p0, rest, e1, e2⟩ := renameFirst_ok (H.psEq hac)
      rw [e2] at hp
      simp only [List.mem_cons] at hp
      rcases hp with rfl | hp
      · refine ⟨hl _ rfl, ?_⟩
        intro d hd
        simp at hd
        rcases hd with rfl | rfl <;> exact Or.inl (hl _ rfl)
      · exact hps p (by rw [e1]; simp [hp])
  · cases hre : m.returnsError with
    | false => rw [H.rsEq' hre] at hp; exact hrs p hp
    | true =>
      obtain ⟨init, last, e1, e2⟩ := renameLast_ok (H.rsEq hre)
      rw [e2] at hp
      simp only [List.mem_append, List.mem_singleton] at hp
      rcases hp with hp | rfl
      · exact hrs p (by rw [e1]; simp [hp])
      · refine ⟨hl _ rfl, ?_⟩
        intro d hd
        simp at hd
        subst hd
        exact Or.inl (hl _ rfl)

example : SourceIdents AsciiLetter [Demo.fld [g!"a"] Demo.int_, Demo.fld [] (.star Demo.context_)] none := by
  refine ⟨fun c h => h, ?_, ?_⟩
  · intro d hd n hn
    simp [declared, declaredOpt, Demo.fld, Field.names] at hd
    rcases hd with rfl | rfl <;> simp at hn
    subst hn; exact ⟨Or.inl rfl, by simp⟩
  · intro d hd n hn
    simp [declared, declaredOpt, Demo.fld, Field.names] at hd
    rcases hd with rfl | rfl
    · simp [Demo.int_, Field.type, coreName] at hn
      subst hn
      refine ⟨Or.inl rfl, ?_⟩
      intro d hd; simp at hd; rcases hd with rfl | rfl <;> exact Or.inl (Or.inl rfl)
    · simp [Demo.context_, Field.type, coreName] at hn
      subst hn
      refine ⟨Or.inl rfl, ?_⟩
      intro d hd; simp at hd; rcases hd with rfl | rfl | rfl | rfl | rfl | rfl <;> exact Or.inl (Or.inl rfl)

end Gowrap.Props
