import Verif.Model.Types
import Verif.Spec.Signature
/-! Helper lemmas about generator/types.go -/

namespace Gowrap

open Spec

theorem natDec_inj {a b : Nat} (h : natDec a = natDec b) : a = b := by
  have := congrArg (fun l => Nat.ofDigitChars 10 l 0) h
  simpa [natDec] using this

theorem natDec_digits {n : Nat} {c : Char} (h : c ∈ natDec n) : c.isDigit = true := by
  unfold natDec at h
  exact Nat.isDigit_of_mem_toDigits (by omega) (by omega) h

theorem natDec_ne_nil (n : Nat) : natDec n ≠ [] := Nat.toDigits_ne_nil

/-- If the bounded search fails, every candidate is used. -/
theorem genNameBounded_none {pre : Str} {used : List Str} :
    ∀ {fuel n : Nat}, genNameBounded pre used fuel n = none →
      ∀ i, i < fuel → pre ++ natDec (n + i) ∈ used := by
  intro fuel
  induction fuel with
  | zero => intro n _ i hi; omega
  | succ fuel ih =>
    intro n h i hi
    simp only [genNameBounded] at h
    split at h
    · rename_i hc
      cases i with
      | zero => simpa using hc
      | succ i =>
        have := ih h i (by omega)
        have e : n + (i + 1) = n + 1 + i := by omega
        rw [e]; exact this
    · cases h

theorem genNameBounded_some {pre : Str} {used : List Str} :
    ∀ {fuel n : Nat} {r : Str}, genNameBounded pre used fuel n = some r →
      ∃ k, n ≤ k ∧ r = pre ++ natDec k ∧ r ∉ used ∧
        ∀ j, n ≤ j → j < k → pre ++ natDec j ∈ used := by
  intro fuel
  induction fuel with
  | zero => intro n r h; simp [genNameBounded] at h
  | succ fuel ih =>
    intro n r h
    simp only [genNameBounded] at h
    split at h
    · rename_i hc
      obtain ⟨k, h1, h2, h3, h4⟩ := ih h
      refine ⟨k, by omega, h2, h3, ?_⟩
      intro j hj1 hj2
      by_cases hjn : j = n
      · subst hjn; simpa using hc
      · exact h4 j (by omega) hj2
    · rename_i hc
      cases h
      exact ⟨n, Nat.le_refl _, rfl, by simpa using hc, by intro j h1 h2; omega⟩

theorem genNameBounded_total (pre : Str) (used : List Str) (n : Nat) :
    genNameBounded pre used (used.length + 1) n ≠ none := by
  intro h
  have hall := genNameBounded_none h
  let cands := (List.range (used.length + 1)).map (fun i => pre ++ natDec (n + i))
  have hnd : cands.Nodup := by
    refine List.Pairwise.map _ ?_ (List.nodup_range (n := used.length + 1))
    intro a b hab hc
    have := natDec_inj (List.append_cancel_left hc)
    omega
  have hsub : cands ⊆ used := by
    intro x hx
    simp only [cands, List.mem_map, List.mem_range] at hx
    obtain ⟨i, hi, rfl⟩ := hx
    exact hall i hi
  have := hnd.length_le_of_subset hsub
  simp [cands] at this
  omega

/-- `genName` always returns, and returns the first unused candidate. -/
theorem genName_spec (pre : Str) (n : Nat) (used : List Str) :
    ∃ k, n ≤ k ∧ genName pre n used = .ok (pre ++ natDec k) ∧ pre ++ natDec k ∉ used ∧
      ∀ j, n ≤ j → j < k → pre ++ natDec j ∈ used := by
  unfold genName
  cases h : genNameBounded pre used (used.length + 1) n with
  | none => exact absurd h (genNameBounded_total _ _ _)
  | some r =>
    obtain ⟨k, h1, h2, h3, h4⟩ := genNameBounded_some h
    exact ⟨k, h1, by rw [h2], by rw [← h2]; exact h3, h4⟩

/-- What a successful `NewParam` returns. -/
structure NewParamSpec (env : SigEnv) (n : Str) (fi : Field) (used : List Str) (p : Param)
    (used' : List Str) : Prop where
  used_eq : used' = p.name :: used
  fresh : p.name ∉ used
  name_keep : n ≠ [] → n ∉ used → p.name = n
  name_gen : (n = [] ∨ n ∈ used) → ∃ pre, typePrefix env.print.uni fi.type = .ok pre ∧
      genName pre 1 used = .ok p.name
  type_eq : ∃ s, printType env.print fi.type = .ok s ∧
      p.type = buildGenericParamsString s env.genericTypes env.genericParams
  variadic_iff : p.variadic = true ↔ IsVariadic fi.type
  doc_eq : p.doc = fi.doc
  comment_eq : p.comment = fi.comment

theorem newParam_ok {env : SigEnv} {n : Str} {fi : Field} {used used' : List Str} {p : Param}
    (h : newParam env n fi used = .ok (p, used')) : NewParamSpec env n fi used p used' := by
  have hv : ∀ e : Expr, isEllipsis e = true ↔ IsVariadic e := by
    intro e; unfold IsVariadic; cases e <;> simp [isEllipsis]
  simp only [newParam, Res.bind_eq_ok] at h
  obtain ⟨name, hname, s, hs, h⟩ := h
  simp only [Res.pure_eq, Res.ok.injEq, Prod.mk.injEq] at h
  obtain ⟨rfl, rfl⟩ := h
  unfold chooseName at hname
  split at hname
  · rename_i hc
    obtain ⟨pre, hpre, hg⟩ := Res.bind_eq_ok.1 hname
    obtain ⟨k, hk, hgk, hfresh, _⟩ := genName_spec pre 1 used
    rw [hg] at hgk; cases hgk
    refine ⟨rfl, hfresh, ?_, ?_, ⟨s, hs, rfl⟩, hv _, rfl, rfl⟩
    · intro h1 h2
      rcases hc with hc | hc
      · exact absurd hc h1
      · exact absurd (by simpa using hc) h2
    · intro _; exact ⟨pre, hpre, hg⟩
  · rename_i hc
    cases hname
    have h1 : n ≠ [] := fun e => hc (Or.inl e)
    have h2 : n ∉ used := fun e => hc (Or.inr (by simpa using e))
    refine ⟨rfl, h2, fun _ _ => rfl, ?_, ⟨s, hs, rfl⟩, hv _, rfl, rfl⟩
    intro h
    rcases h with h | h
    · exact absurd h h1
    · exact absurd h h2

/-- Sequential run of `NewParam` over a list of (name, field) pairs. -/
inductive ParamRun (env : SigEnv) : List (Option Str × Field) → List Str → List Param → List Str → Prop
  | nil (used) : ParamRun env [] used [] used
  | cons {n fi ds used p used1 ps used2} :
      NewParamSpec env (n.getD []) fi used p used1 → ParamRun env ds used1 ps used2 →
      ParamRun env ((n, fi) :: ds) used (p :: ps) used2

theorem ParamRun.append {env ds1 ds2 u0 u1 u2 ps1 ps2} (h1 : ParamRun env ds1 u0 ps1 u1)
    (h2 : ParamRun env ds2 u1 ps2 u2) : ParamRun env (ds1 ++ ds2) u0 (ps1 ++ ps2) u2 := by
  induction h1 with
  | nil => exact h2
  | cons h _ ih => exact .cons h (ih h2)

theorem makeNames_run {env : SigEnv} {fi : Field} {on : List (Option Str)} : ∀ {ns used ps used'},
    ns = on.map (·.getD []) → makeNames env fi ns used = .ok (ps, used') →
      ParamRun env (on.map fun n => (n, fi)) used ps used' := by
  induction on with
  | nil => rintro ns used ps used' rfl h; simp only [List.map_nil, makeNames, Res.ok.injEq, Prod.mk.injEq] at h
           obtain ⟨rfl, rfl⟩ := h; exact .nil _
  | cons n on ih =>
    rintro ns used ps used' rfl h
    simp only [List.map_cons, makeNames, Res.bind_eq_ok] at h
    obtain ⟨⟨p, u1⟩, hp, ⟨ps1, u2⟩, hps, h⟩ := h
    simp only [Res.pure_eq, Res.ok.injEq, Prod.mk.injEq] at h
    obtain ⟨rfl, rfl⟩ := h
    exact .cons (newParam_ok hp) (ih rfl hps)

theorem makeParams_run {env : SigEnv} : ∀ {fs used ps used'},
    makeParams env fs used = .ok (ps, used') → ParamRun env (declared fs) used ps used' := by
  intro fs
  induction fs with
  | nil => intro used ps used' h; simp only [makeParams, Res.ok.injEq, Prod.mk.injEq] at h
           obtain ⟨rfl, rfl⟩ := h; exact .nil _
  | cons f fs ih =>
    intro used ps used' h
    simp only [makeParams, Res.bind_eq_ok] at h
    obtain ⟨⟨here, u1⟩, hh, ⟨rest, u2⟩, hr, h⟩ := h
    simp only [Res.pure_eq, Res.ok.injEq, Prod.mk.injEq] at h
    obtain ⟨rfl, rfl⟩ := h
    have hd : declared (f :: fs) =
        (if f.names.isEmpty then [(none, f)] else f.names.map fun n => (some n, f)) ++ declared fs := by
      simp [declared]
    rw [hd]
    refine ParamRun.append ?_ (ih hr)
    unfold makeField at hh
    split at hh
    · rename_i hn
      simp only [hn, List.isEmpty_nil, if_true]
      exact makeNames_run (on := [none]) rfl hh
    · rename_i hn
      have : f.names.isEmpty = false := by simpa using hn
      rw [this]
      have := makeNames_run (on := f.names.map some) (by simp [Function.comp_def]) hh
      simpa [Function.comp_def] using this

theorem makeResults_run {env : SigEnv} {fs used ps used'}
    (h : makeResults env fs used = .ok (ps, used')) : ParamRun env (declaredOpt fs) used ps used' := by
  cases fs with
  | none => simp only [makeResults, Res.ok.injEq, Prod.mk.injEq] at h
            obtain ⟨rfl, rfl⟩ := h; exact .nil _
  | some fs => exact makeParams_run h

theorem ParamRun.used_eq {env ds used ps used'} (h : ParamRun env ds used ps used') :
    used' = (ps.map (·.name)).reverse ++ used := by
  induction h with
  | nil => simp
  | cons hp _ ih => rw [ih, hp.used_eq]; simp

theorem ParamRun.nodup {env ds used ps used'} (h : ParamRun env ds used ps used')
    (hu : used.Nodup) : used'.Nodup := by
  induction h with
  | nil => exact hu
  | cons hp _ ih => apply ih; rw [hp.used_eq]; exact List.nodup_cons.2 ⟨hp.fresh, hu⟩

theorem ParamRun.length {env ds used ps used'} (h : ParamRun env ds used ps used') :
    ps.length = ds.length := by
  induction h with
  | nil => rfl
  | cons _ _ ih => simp [ih]

theorem declared_ne_nil_of {fs : List Field} (h : fs ≠ []) : declared fs ≠ [] := by
  cases fs with
  | nil => exact absurd rfl h
  | cons f fs =>
    simp only [declared, List.flatMap_cons]
    split
    · simp
    · rename_i hn
      cases hnames : f.names with
      | nil => simp [hnames] at hn
      | cons => simp

/-- Changing names leaves the rest of a parameter alone. -/
def sameButName (p q : Param) : Prop :=
  p.doc = q.doc ∧ p.comment = q.comment ∧ p.type = q.type ∧ p.variadic = q.variadic

theorem renameLast_ok {name : Str} : ∀ {ps qs : List Param}, renameLast name ps = .ok qs →
    ∃ init last, ps = init ++ [last] ∧ qs = init ++ [{ last with name := name }] := by
  intro ps
  induction ps with
  | nil => intro qs h; simp [renameLast] at h
  | cons p ps ih =>
    intro qs h
    cases ps with
    | nil => simp only [renameLast, Res.ok.injEq] at h; exact ⟨[], p, rfl, by simp [h]⟩
    | cons q ps =>
      simp only [renameLast, Res.bind_eq_ok, Res.pure_eq, Res.ok.injEq] at h
      obtain ⟨r, hr, rfl⟩ := h
      obtain ⟨init, last, h1, h2⟩ := ih hr
      exact ⟨p :: init, last, by simp [h1], by simp [h2]⟩

theorem renameLast_append (name : Str) (init : List Param) (last : Param) :
    renameLast name (init ++ [last]) = .ok (init ++ [{ last with name := name }]) := by
  induction init with
  | nil => rfl
  | cons p init ih =>
    cases init with
    | nil => rfl
    | cons q init =>
      simp only [List.cons_append] at ih ⊢
      rw [renameLast, ih]; rfl

theorem renameFirst_ok {name : Str} {ps qs : List Param} (h : renameFirst name ps = .ok qs) :
    ∃ p rest, ps = p :: rest ∧ qs = { p with name := name } :: rest := by
  cases ps with
  | nil => simp [renameFirst] at h
  | cons p ps => simp only [renameFirst, Res.ok.injEq] at h; exact ⟨p, ps, rfl, h.symm⟩

/-- Decomposition of a successful `NewMethod`. -/
structure NewMethodSpec (env : SigEnv) (name : Str) (fi : Field) (m : Method)
    (params : List Field) (results : Option (List Field)) (used1 used2 : List Str)
    (ps rs : List Param) (u u' : List Str) : Prop where
  type_eq : fi.type = .funcT params results
  scanR : scanResults results = .ok (m.returnsError, used1)
  scanP : scanParams params = (m.acceptsContext, used2)
  runP : ParamRun env (declared params) (used2 ++ used1) ps u
  runR : ParamRun env (declaredOpt results) u rs u'
  rsEq : m.returnsError = true → renameLast g!"err" rs = .ok m.results
  rsEq' : m.returnsError = false → m.results = rs
  psEq : m.acceptsContext = true → renameFirst g!"ctx" ps = .ok m.params
  psEq' : m.acceptsContext = false → m.params = ps
  name_eq : m.name = name
  doc_eq : m.doc = fi.doc
  comment_eq : m.comment = fi.comment

theorem newMethod_ok {env : SigEnv} {name : Str} {fi : Field} {m : Method}
    (h : newMethod env name fi = .ok m) :
    ∃ params results used1 used2 ps rs u u',
      NewMethodSpec env name fi m params results used1 used2 ps rs u u' := by
  unfold newMethod at h
  split at h
  · rename_i params results ht
    simp only [Res.bind_eq_ok] at h
    obtain ⟨⟨re, used1⟩, h1, h⟩ := h
    cases h2 : scanParams params with
    | mk ac used2 =>
    simp only [h2] at h
    obtain ⟨⟨ps, u⟩, h3, h⟩ := h
    obtain ⟨⟨rs, u'⟩, h4, h⟩ := h
    obtain ⟨rs', h5, h⟩ := h
    obtain ⟨ps', h6, h⟩ := h
    simp only [Res.pure_eq, Res.ok.injEq] at h
    subst h
    refine ⟨params, results, used1, used2, ps, rs, u, u', ht, h1, h2, makeParams_run h3,
      makeResults_run h4, ?_, ?_, ?_, ?_, rfl, rfl, rfl⟩
    · intro hre; simp only at hre; subst hre; simpa [nameError] using h5
    · intro hre; simp only at hre; subst hre; simpa [nameError] using h5.symm
    · intro hre; simp only at hre; subst hre; simpa [nameContext] using h6
    · intro hre; simp only at hre; subst hre; simpa [nameContext] using h6.symm
  · cases h

theorem scanResults_ok {rs : Option (List Field)} {re : Bool} {used : List Str}
    (h : scanResults rs = .ok (re, used)) :
    (re = true ↔ LastResultIsError rs) ∧ (rs = none → used = []) ∧
      (∀ l, rs = some l → used = [g!"err"] ∧ l ≠ []) := by
  have he : ∀ e : Expr, isErrorIdent e = true ↔ IsErrorType e := by
    intro e; unfold IsErrorType; cases e <;> simp [isErrorIdent]
  cases rs with
  | none =>
    simp only [scanResults, Res.ok.injEq, Prod.mk.injEq] at h
    obtain ⟨rfl, rfl⟩ := h
    refine ⟨by simp [LastResultIsError], fun _ => rfl, by simp⟩
  | some l =>
    simp only [scanResults] at h
    split at h
    · cases h
    · rename_i last hl
      simp only [Res.ok.injEq, Prod.mk.injEq] at h
      obtain ⟨rfl, rfl⟩ := h
      refine ⟨?_, by simp, ?_⟩
      · rw [he]
        constructor
        · intro h; exact ⟨l, last, rfl, hl, h⟩
        · rintro ⟨fs, f, h1, h2, h3⟩
          cases h1; rw [hl] at h2; cases h2; exact h3
      · rintro l' ⟨⟩
        refine ⟨rfl, ?_⟩
        rintro rfl
        simp at hl

theorem scanParams_spec (ps : List Field) :
    ((scanParams ps).1 = true ↔ FirstParamIsDotContext ps) ∧
      ((scanParams ps).2 = [] ∨ (scanParams ps).2 = [g!"ctx"]) ∧
      ((scanParams ps).1 = true → (scanParams ps).2 = [g!"ctx"]) := by
  cases ps with
  | nil => simp [scanParams, FirstParamIsDotContext]
  | cons f fs =>
    simp only [scanParams]
    cases hf : f.type <;> simp [FirstParamIsDotContext, hf]

end Gowrap
