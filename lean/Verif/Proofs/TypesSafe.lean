import Verif.Proofs.Types
/-! Absence of panics, name preservation -/

namespace Gowrap

open Spec

/-- The call returns (a value or an error). -/
def Res.Safe {α : Type} (r : Res α) : Prop := r ≠ .panic ∧ r ≠ .diverge

theorem Res.Safe.bind {α β : Type} {x : Res α} {f : α → Res β} (hx : x.Safe)
    (hf : ∀ a, x = .ok a → (f a).Safe) : (x >>= f).Safe := by
  cases x with
  | ok a => exact hf a rfl
  | err e => exact ⟨by simp, by simp⟩
  | panic => exact absurd rfl hx.1
  | diverge => exact absurd rfl hx.2

@[simp] theorem Res.safe_ok {α : Type} (a : α) : (Res.ok a).Safe := ⟨by simp, by simp⟩
@[simp] theorem Res.safe_pure {α : Type} (a : α) : (pure a : Res α).Safe := ⟨by simp, by simp⟩
@[simp] theorem Res.safe_err {α : Type} (e : Err) : (Res.err e : Res α).Safe := ⟨by simp, by simp⟩

theorem printIdent_safe (env : PrintEnv) {n : Str} (h : n ≠ []) : (printIdent env n).Safe := by
  unfold printIdent
  cases n with
  | nil => exact absurd rfl h
  | cons c cs =>
    simp only [Uni.looksUnexported]
    split
    · split
      · cases c == env.uni.toLower c <;> simp
      · simp
    · simp

mutual
theorem printType_safe (env : PrintEnv) : ∀ e : Expr, NonEmptyIdents e → (printType env e).Safe
  | .funcT ps rs, h => by
    simp only [NonEmptyIdents] at h
    simp only [printType]
    exact (printFields_safe env ps h.1).bind fun a _ =>
      (printResults_safe env rs h.2).bind fun b _ => by simp
  | .star x, h => by
    simp only [NonEmptyIdents] at h
    exact (printType_safe env x h).bind fun a _ => by simp
  | .ellipsis x, h => by
    simp only [NonEmptyIdents] at h
    exact (printType_safe env x h).bind fun a _ => by simp
  | .chanT d x, h => by
    simp only [NonEmptyIdents] at h
    exact (printType_safe env x h).bind fun a _ => by simp
  | .array l x, h => by
    simp only [NonEmptyIdents] at h
    exact (printType_safe env x h).bind fun a _ => by simp
  | .mapT k v, h => by
    simp only [NonEmptyIdents] at h
    exact (printType_safe env k h.1).bind fun a _ => (printType_safe env v h.2).bind fun b _ => by simp
  | .structT fs, h => by
    simp only [NonEmptyIdents] at h
    exact (printFields_safe env fs h).bind fun a _ => by simp
  | .ident n, h => by
    simp only [NonEmptyIdents] at h
    exact printIdent_safe env h
  | .index x i, h => by
    simp only [NonEmptyIdents] at h
    exact (printType_safe env x h.1).bind fun a _ => (printType_safe env i h.2).bind fun b _ => by simp
  | .indexList x is, h => by
    simp only [NonEmptyIdents] at h
    exact (printType_safe env x h.1).bind fun a _ => printIndices_safe env is h.2 _
  | .selector x sel, _ => by simp [printType]
  | .sliceExpr x, _ => by simp [printType]
  | .ifaceT ms, _ => by simp [printType]
  | .paren x, _ => by simp [printType]
  | .lit t, _ => by simp [printType]
  | .unary o x, _ => by simp [printType]
  | .binary o x y, _ => by simp [printType]
  | .other t, _ => by simp [printType]
theorem printIndices_safe (env : PrintEnv) : ∀ es : List Expr, NonEmptyIdentsList es →
    ∀ acc, (printIndices env acc es).Safe
  | [], _ => fun acc => by simp [printIndices]
  | e :: es, h => fun acc => by
    simp only [NonEmptyIdentsList] at h
    simp only [printIndices]
    refine (printType_safe env e h.1).bind fun a _ => ?_
    split
    · exact printIndices_safe env es h.2 _
    · exact printIndices_safe env es h.2 _
theorem printField_safe (env : PrintEnv) : ∀ f : Field, NonEmptyIdentsField f → (printField env f).Safe
  | .mk _ _ _ t _, h => by
    simp only [NonEmptyIdentsField] at h
    exact (printType_safe env t h).bind fun a _ => by simp
theorem printResults_safe (env : PrintEnv) : ∀ rs : Option (List Field), NonEmptyIdentsOpt rs →
    (printResults env rs).Safe
  | none, _ => by simp [printResults]
  | some rs, h => by
    simp only [NonEmptyIdentsOpt] at h
    exact printFields_safe env rs h
theorem printFields_safe (env : PrintEnv) : ∀ fs : List Field, NonEmptyIdentsFields fs →
    (printFields env fs).Safe
  | [], _ => by simp [printFields]
  | f :: fs, h => by
    simp only [NonEmptyIdentsFields] at h
    exact (printField_safe env f h.1).bind fun a _ =>
      (printFields_safe env fs h.2).bind fun b _ => by simp
end

theorem lowerFirstByte_safe (u : Uni) {n : Str} (h : n ≠ []) : (lowerFirstByte u n).Safe := by
  cases n with
  | nil => exact absurd rfl h
  | cons c cs => simp only [lowerFirstByte]; split <;> simp

theorem typePrefix_safe (u : Uni) : ∀ e : Expr, NonEmptyIdents e → (typePrefix u e).Safe
  | .star x, h => by
    simp only [NonEmptyIdents] at h
    exact (typePrefix_safe u x h).bind fun a _ => by simp
  | .sliceExpr x, h => by
    simp only [NonEmptyIdents] at h
    exact (typePrefix_safe u x h).bind fun a _ => by simp
  | .array _ x, h => by
    simp only [NonEmptyIdents] at h
    exact (typePrefix_safe u x h).bind fun a _ => by simp
  | .selector x s, h => by
    simp only [NonEmptyIdents] at h
    exact lowerFirstByte_safe u h.2
  | .ident n, h => by
    simp only [NonEmptyIdents] at h
    exact lowerFirstByte_safe u h
  | .mapT .., _ | .chanT .., _ | .structT .., _ | .funcT .., _ | .ellipsis .., _ | .ifaceT .., _
  | .index .., _ | .indexList .., _ | .paren .., _ | .lit .., _ | .unary .., _ | .binary .., _
  | .other .., _ => by simp [typePrefix]

theorem genName_safe (pre : Str) (n : Nat) (used : List Str) : (genName pre n used).Safe := by
  obtain ⟨k, _, h, _⟩ := genName_spec pre n used
  rw [h]; simp

theorem chooseName_safe (u : Uni) (n : Str) (t : Expr) (used : List Str) (h : NonEmptyIdents t) :
    (chooseName u n t used).Safe := by
  unfold chooseName
  split
  · exact (typePrefix_safe u t h).bind fun a _ => genName_safe _ _ _
  · simp

theorem newParam_safe (env : SigEnv) (n : Str) (f : Field) (used : List Str)
    (h : NonEmptyIdents f.type) : (newParam env n f used).Safe :=
  (chooseName_safe _ _ _ _ h).bind fun a _ => (printType_safe _ _ h).bind fun b _ => by simp

theorem makeNames_safe (env : SigEnv) (f : Field) (h : NonEmptyIdents f.type) :
    ∀ ns used, (makeNames env f ns used).Safe
  | [], used => by simp [makeNames]
  | n :: ns, used => by
    simp only [makeNames]
    exact (newParam_safe env n f used h).bind fun a _ =>
      (makeNames_safe env f h ns _).bind fun b _ => by simp

theorem nonEmptyIdentsField_iff (f : Field) : NonEmptyIdentsField f ↔ NonEmptyIdents f.type := by
  cases f; simp [NonEmptyIdentsField, Field.type]

theorem makeParams_safe (env : SigEnv) :
    ∀ fs, NonEmptyIdentsFields fs → ∀ used, (makeParams env fs used).Safe
  | [], _ => fun used => by simp [makeParams]
  | f :: fs, h => fun used => by
    simp only [NonEmptyIdentsFields, nonEmptyIdentsField_iff] at h
    simp only [makeParams]
    refine (?_ : Res.Safe _).bind fun a _ => (makeParams_safe env fs h.2 _).bind fun b _ => by simp
    unfold makeField
    split <;> exact makeNames_safe env f h.1 _ _

theorem newMethod_safe (env : SigEnv) (name : Str) (fi : Field) (hne : NonEmptyIdents fi.type)
    (hr : ∀ ps, fi.type ≠ .funcT ps (some [])) : (newMethod env name fi).Safe := by
  unfold newMethod
  split
  · rename_i params results ht
    rw [ht] at hne
    simp only [NonEmptyIdents] at hne
    have hsc : (scanResults results).Safe := by
      cases results with
      | none => simp [scanResults]
      | some l =>
        simp only [scanResults]
        cases hl : l.getLast? with
        | none => exact absurd ht (by rw [List.getLast?_eq_none_iff] at hl; subst hl; exact hr _)
        | some x => simp
    refine hsc.bind fun a ha => ?_
    cases h2 : scanParams params with
    | mk ac used2 =>
    obtain ⟨re, used1⟩ := a
    refine (makeParams_safe env params hne.1 _).bind fun b hb => ?_
    have hrs : (makeResults env results b.2).Safe := by
      cases results with
      | none => simp [makeResults]
      | some l => exact makeParams_safe env l (by simpa [NonEmptyIdentsOpt] using hne.2) _
    refine hrs.bind fun c hc => ?_
    refine (?_ : Res.Safe (nameError re c.1)).bind fun d hd => (?_ : Res.Safe (nameContext ac b.1)).bind
      fun e he => by simp
    · unfold nameError
      split
      · rename_i hre
        have hlast := (scanResults_ok ha).1.1 hre
        obtain ⟨l, f, h1, h3, _⟩ := hlast
        have hrun := makeResults_run (ps := c.1) (used' := c.2) hc
        have hne : declaredOpt results ≠ [] := by
          rw [h1]
          exact declared_ne_nil_of (by rintro rfl; simp at h3)
        have hc1 : c.1 ≠ [] := by
          intro h0
          have := hrun.length
          rw [h0] at this
          exact hne (List.length_eq_zero_iff.1 this.symm)
        obtain ⟨init, last, h0⟩ := List.eq_nil_or_concat c.1 |>.resolve_left hc1
        rw [h0]
        rw [List.concat_eq_append, renameLast_append]; simp
      · simp
    · unfold nameContext
      split
      · rename_i hac
        have h3 := (scanParams_spec params).1.1 (by rw [h2]; exact hac)
        obtain ⟨f, fs, x, h4, _⟩ := h3
        have hrun := makeParams_run (ps := b.1) (used' := b.2) hb
        have hne : declared params ≠ [] := declared_ne_nil_of (by rw [h4]; simp)
        cases hb1 : b.1 with
        | nil =>
          have := hrun.length
          rw [hb1] at this
          exact absurd (List.length_eq_zero_iff.1 this.symm) hne
        | cons p ps => simp [renameFirst]
      · simp
  · simp

theorem ParamRun.append_inv {env ds1 ds2 u0 u2 ps} : ParamRun env (ds1 ++ ds2) u0 ps u2 →
    ∃ ps1 ps2 u1, ps = ps1 ++ ps2 ∧ ParamRun env ds1 u0 ps1 u1 ∧ ParamRun env ds2 u1 ps2 u2 := by
  induction ds1 generalizing u0 ps with
  | nil => intro h; exact ⟨[], ps, u0, rfl, .nil _, h⟩
  | cons d ds1 ih =>
    intro h
    cases h with
    | cons hp hr =>
      obtain ⟨ps1, ps2, u1, rfl, h1, h2⟩ := ih hr
      exact ⟨_ :: ps1, ps2, u1, rfl, .cons hp h1, h2⟩

theorem ParamRun.keep {env ds used ps used'} (h : ParamRun env ds used ps used') :
    (∀ d ∈ ds, ∃ n, d.1 = some n ∧ n ≠ [] ∧ n ∉ used) → (ds.map (·.1)).Nodup →
    ps.map (fun p => some p.name) = ds.map (·.1) := by
  induction h with
  | nil => intro _ _; rfl
  | @cons n fi ds used p used1 ps used2 hp _ ih =>
    intro hn hnd
    obtain ⟨n', h1, h2, h3⟩ := hn (n, fi) (by simp)
    simp only at h1; subst h1
    have hpn : p.name = n' := hp.name_keep h2 h3
    simp only [List.map_cons, List.nodup_cons] at hnd
    simp only [List.map_cons, hpn, List.cons.injEq, true_and]
    apply ih _ hnd.2
    intro d hd
    obtain ⟨m, h4, h5, h6⟩ := hn d (by simp [hd])
    refine ⟨m, h4, h5, ?_⟩
    rw [hp.used_eq, hpn]
    simp only [List.mem_cons, not_or]
    refine ⟨?_, h6⟩
    rintro rfl
    exact hnd.1 (by rw [← h4]; exact List.mem_map_of_mem hd)

end Gowrap
