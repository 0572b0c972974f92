import Verif.Proofs.Tower
import Verif.Props.Stack
import Verif.Props.Validate
/-!
# C90: towers of decorators
-/

namespace Gowrap.Props

open Gowrap Spec Tmpl

/-! ## The decorators that can be put around each other -/

/-- The decorators of all templates but fallback, which calls its implementations at the same time. -/
inductive Deco where
  | observer (obs : Observer)
  | controller (c : Controller)
  | timeout (iface : Str) (base : Val) (config : Str → Int)
  | validate (iface : Str) (base : Val)
  | grpcValidate (iface : Str) (base : Val)
  | twirpValidate (iface : Str) (base : Val)
  | twirpError (iface : Str) (base : Val)

/-- The generated type. -/
def Deco.decorator (G : GoTypes) : Deco → Decorator
  | .observer obs => obs.decorator
  | .controller c => c.decorator
  | .timeout iface base config => timeoutDecorator iface base config
  | .validate iface base => validateDecorator G iface base
  | .grpcValidate iface base => grpcValidateDecorator G iface base
  | .twirpValidate iface base => twirpValidateDecorator G iface base
  | .twirpError iface base => twirpErrorDecorator G iface base

/-- The implementations that it may call in a run. -/
def Deco.Impl (tr : List Event) : Deco → Val → Prop
  | .observer obs => (· = obs.base)
  | .controller c => c.Impl tr
  | .timeout _ base _ => (· = base)
  | .validate _ base => (· = base)
  | .grpcValidate _ base => (· = base)
  | .twirpValidate _ base => (· = base)
  | .twirpError _ base => (· = base)

/-- The names that the template uses in methods. -/
def Deco.idents : Deco → List Str
  | .observer obs => obs.idents
  | .controller c => c.idents
  | .timeout _ _ _ => [g!"cancelFunc", g!"context"]
  | .validate _ _ => []
  | .grpcValidate _ _ => [g!"grpc_status", g!"grpc_codes"]
  | .twirpValidate _ _ => [g!"twirp"]
  | .twirpError _ _ => [g!"injectRequestDataToError"]

/-- The decorator can be used: it has the method, and retries wait for some time. -/
def Deco.Works (m : Method) : Deco → Prop
  | .observer obs => obs.Has m
  | .controller c => ¬ c.Panics
  | _ => True

/-- How often it calls at most. -/
def Deco.attempts : Deco → Nat
  | .controller (.retry d) => 1 + d.retryCount.toNat
  | _ => 1

/-! ## They call methods -/

theorem validateParams_only {G : GoTypes} {m : Method} {s : Stm} (h : s.Only (Op.OfMethod m)) : ∀ ps, (validateParams G m s ps).Only (Op.OfMethod m)
  | [] => Stm.only_skip
  | p :: ps => by
    rw [validateParams]
    refine Stm.only_ifthen (Stm.only_seq (Stm.only_get fun v => Stm.only_block (Stm.only_ite (Stm.only_get fun v => only_lib1 fun e =>
      Stm.only_seq Stm.only_assign (Stm.only_get fun e => Stm.only_ite Stm.only_skip h)) Stm.only_skip)) (validateParams_only h ps)) (validateParams_only h ps)

theorem deco_only (G : GoTypes) (d : Deco) (m : Method) (recv : Str × Val) (args : List Val) (ha : args.length = m.params.length) :
    ((d.decorator G).call G m recv args).Only (Op.OfMethod m) := by
  cases d with
  | observer obs => exact observer_only G obs m recv args ha
  | controller c => exact controller_only G c m recv args ha
  | timeout iface base config =>
    refine only_call ha fun b hb => ?_
    simp only [Deco.decorator, timeoutDecorator] at hb
    split at hb <;> cases hb
    exact Stm.only_seq Stm.only_declare (Stm.only_ifthen (Stm.only_global (Stm.only_get fun _ => only_lib2 fun _ _ => Stm.only_seq Stm.only_assign
      (Stm.only_seq Stm.only_assign (Stm.only_get fun _ => Stm.only_deferring only_lib0 only_passTo)))) only_passTo)
  | validate iface base =>
    refine only_call ha fun b hb => ?_
    cases hb
    exact Stm.only_seq (Stm.only_ifthen (validateParams_only Stm.only_ret _) Stm.only_skip) only_passTo
  | grpcValidate iface base =>
    refine only_call ha fun b hb => ?_
    simp only [Deco.decorator, grpcValidateDecorator] at hb
    split at hb <;> cases hb
    exact Stm.only_seq (validateParams_only (Stm.only_global (Stm.only_global (Stm.only_get fun _ => only_lib1 fun _ => only_lib1 fun _ =>
      Stm.only_seq Stm.only_assign Stm.only_ret))) _) only_passTo
  | twirpValidate iface base =>
    refine only_call ha fun b hb => ?_
    cases hb
    exact Stm.only_seq (Stm.only_ifthen (validateParams_only (Stm.only_global (Stm.only_get fun _ => only_lib1 fun _ => only_lib1 fun _ =>
      Stm.only_seq Stm.only_assign Stm.only_ret)) _) Stm.only_skip) only_passTo
  | twirpError iface base =>
    refine only_call ha fun b hb => ?_
    cases hb
    have inject : ∀ v, (injectRequest G v).Only (Op.OfMethod m) := fun v => Stm.only_get fun _ => Stm.only_ite Stm.only_skip
      (Stm.only_ite (only_lib2 fun _ _ => only_lib1 fun _ => Stm.only_assign) (only_lib1 fun _ => only_lib2 fun _ _ => only_lib1 fun _ => Stm.only_assign))
    have defers : ∀ ps, (twirpDefers G m (m.passTo base) ps).Only (Op.OfMethod m) := by
      intro ps
      induction ps with
      | nil => exact only_passTo
      | cons p ps ih =>
        rw [twirpDefers]
        exact Stm.only_ifthen (Stm.only_global (Stm.only_get fun v => Stm.only_deferring (inject v) ih)) ih
    exact defers _

/-! ## Every decorator is honest -/

theorem one_result {vs : Vals 1} : ∃ e, vs.1 = [e] := by
  obtain ⟨l, h⟩ := vs
  cases l with
  | nil => cases h
  | cons e l => cases l with
    | nil => exact ⟨e, rfl⟩
    | cons => simp at h

theorem breaker_honest (G : GoTypes) (d : Breaker) {m : Method} {args : List Val} {tr : List Event} {o : Outcome} (hret : m.returnsError = true)
    (hr : (d.bodyT G m args).Run tr o) (hl : Lawful tr) :
    Honest (· = d.base) m args tr o ∧ (implCalls tr).length ≤ 1 := by
  obtain ⟨_, _, rfl, c, tr, rfl, hr⟩ := hr
  have step : ∀ {e : Event} {tr}, Lawful (e :: tr) → Lawful tr := fun {e _} h => (Lawful.split (a := [e]) h).2
  change (if (c : Option Int).isNone then _ else _ : Tree Outcome).Run tr o at hr
  have hl1 := step (step hl)
  split at hr
  · obtain ⟨_, tr, rfl, hr⟩ := hr
    have h : Transparent d.base m args tr o := breaker_attempt_runs d hr (step hl1).errorsIs
    exact honest_transparent rfl (Or.inl rfl) (show Transparent d.base m args _ o from h)
  · obtain ⟨c, tr, rfl, hr⟩ := hr
    cases c with
    | none => obtain ⟨rfl, rfl⟩ := hr; exact honest_panic rfl rfl
    | some t =>
      obtain ⟨now, tr, rfl, hr⟩ := hr
      change (if t > now then _ else _ : Tree Outcome).Run tr o at hr
      split at hr
      · obtain ⟨_, _, rfl, x, tr, rfl, hr⟩ := hr
        cases x with
        | ok vs =>
          obtain ⟨rfl, rfl⟩ := hr
          obtain ⟨e, he⟩ := one_result (vs := vs)
          refine honest_error (e := vs.1.headD .nil) hret rfl ?_ rfl
          refine hl.makers _ (List.mem_singleton.2 rfl) (by simp [errorMakers]) _ ?_
          simp [plain, he]
        | error v => obtain ⟨rfl, rfl⟩ := hr; exact honest_panic rfl rfl
      · obtain ⟨_, tr, rfl, hr⟩ := hr
        have h : Transparent d.base m args tr o := breaker_attempt_runs d hr (step (step (step hl1))).errorsIs
        exact honest_transparent rfl (Or.inl rfl) (show Transparent d.base m args _ o from h)

theorem controller_honest (G : GoTypes) (c : Controller) (m : Method) (recv : Str × Val) (args : List Val) (tr : List Event) (o : Outcome)
    (h : Callable m recv c.idents args) (hp : ¬ c.Panics) (hr : (c.decorator.call G m recv args).Run tr o) (hl : Lawful tr) :
    Honest (c.Impl tr) m args tr o ∧ (implCalls tr).length ≤ Deco.attempts (.controller c) := by
  cases c with
  | breaker d =>
    cases hret : m.returnsError with
    | false =>
      exact honest_transparent rfl (Or.inl rfl) (promoted_transparent G d.decorator (by simp [Breaker.decorator, hret]) rfl hr)
    | true =>
      change (d.decorator.call G m recv args).Run tr o at hr
      rw [breaker_call G d h hret] at hr
      exact breaker_honest G d hret hr hl
  | retry d =>
    cases hret : m.returnsError with
    | false =>
      obtain ⟨h1, h2⟩ := honest_transparent (P := (Controller.retry d).Impl tr) (i := d.base) rfl (Or.inl rfl)
        (promoted_transparent G d.decorator (by simp [Retry.decorator, hret]) rfl hr)
      exact ⟨h1, Nat.le_trans h2 (Nat.le_add_right 1 _)⟩
    | true =>
      have := (C47_retry_partial G d m recv args tr o h hret (by
        simp only [Controller.Panics] at hp; omega) hr hl.ticker).1
      obtain ⟨init, res, h1, h2, h3, h4, _⟩ := C47_bounds this
      rw [attempts_retrySteps] at h1
      subst h4
      refine ⟨⟨?_, ?_, ?_, ?_, passedOn_not_stuck _⟩, by rw [h1]; simp [Deco.attempts]; omega⟩
      · intro c hc
        rw [h1] at hc
        simp only [List.mem_append, List.mem_map, List.mem_singleton] at hc
        rcases hc with ⟨r, _, rfl⟩ | rfl <;> exact ⟨rfl, rfl, Or.inl rfl⟩
      · intro vs hv _
        refine ⟨_, by rw [h1]; exact List.getLast?_concat, ?_⟩
        cases res <;> cases hv
        rfl
      · intro c hc _
        rw [h1] at hc
        simp at hc
        subst hc
        rfl
      · intro pre x post hx hne
        rw [h1] at hx
        obtain ⟨post', y, rfl⟩ : ∃ post' y, post = post' ++ [y] := ⟨_, _, (List.dropLast_concat_getLast hne).symm⟩
        rw [← List.cons_append, ← List.append_assoc] at hx
        have := (List.append_inj' hx rfl).1
        have hx : x ∈ init.map fun res => (⟨d.base, m.name, args, res⟩ : ImplCall) := by
          rw [this]; simp
        obtain ⟨r, hr, rfl⟩ := List.mem_map.1 hx
        exact h3 r hr
  | rateLimit base =>
    change ((rateLimitDecorator base).call G m recv args).Run tr o at hr
    rw [rateLimit_call G base h.ok h.declared, rateLimitT] at hr
    split at hr
    · rename_i hcr
      simp only [Bool.and_eq_true] at hcr
      obtain ⟨x, tr, rfl, hr⟩ := hr
      cases x with
      | other =>
        have := callT_transparent hr
        exact honest_transparent rfl (Or.inl rfl) (show Transparent base m args _ o from this)
      | done =>
        obtain ⟨x, tr, rfl, hr⟩ := hr
        cases x with
        | ok vs =>
          obtain ⟨rfl, rfl⟩ := hr
          obtain ⟨e, he⟩ := one_result (vs := vs)
          refine honest_error (e := vs.1.headD .nil) hcr.2 rfl ?_ rfl
          refine hl.makers _ (List.mem_singleton.2 rfl) (by simp [errorMakers]) _ ?_
          simp [plain, he]
        | error v => obtain ⟨rfl, rfl⟩ := hr; exact honest_panic rfl rfl
    · obtain ⟨x, tr, rfl, hr⟩ := hr
      have := callT_transparent hr
      exact honest_transparent rfl (Or.inl rfl) (show Transparent base m args _ o from this)
  | robinPool pool =>
    change ((robinPoolDecorator pool).call G m recv args).Run tr o at hr
    rw [robinPool_call G pool h, robinPoolT] at hr
    obtain ⟨c, tr, rfl, hr⟩ := hr
    split at hr
    · obtain ⟨rfl, rfl⟩ := hr; exact honest_panic rfl rfl
    · simp only [] at hr
      split at hr
      · obtain ⟨rfl, rfl⟩ := hr; exact honest_panic rfl rfl
      · rename_i impl hi
        have := callT_transparent hr
        exact honest_transparent (i := impl) (List.mem_of_getElem? hi) (Or.inl rfl) (show Transparent impl m args _ o from this)
  | syncPool =>
    change (syncPoolDecorator.call G m recv args).Run tr o at hr
    rw [syncPool_call G h, syncPoolT] at hr
    obtain ⟨impl, tr, rfl, x, tr, rfl, hr⟩ := hr
    have hin : (Controller.syncPool).Impl (⟨.takeImpl, impl⟩ ::
        ⟨.impl impl m.name args m.results.length, x⟩ :: tr) impl := List.mem_cons_self ..
    refine honest_transparent hin (Or.inl rfl) (?_ : Transparent impl m args _ o)
    cases x with
    | ok vs =>
      obtain ⟨_, _, rfl, rfl, rfl⟩ := hr
      exact ⟨.ok vs.1, rfl, rfl⟩
    | error v =>
      obtain ⟨_, _, rfl, rfl, rfl⟩ := hr
      exact ⟨.error v, rfl, rfl⟩

theorem mem_libCalls_seen {tr : List Event} {c : LibCall} (h : .lib c ∈ seen tr) : c ∈ libCalls tr := (List.mem_filter.1 (callsOf_of_seen h)).1

theorem noImpl_passes (cands : List Val) : NoImpl (cands.map passes) := by
  unfold NoImpl
  rw [List.filterMap_eq_nil_iff]
  intro s hs
  obtain ⟨v, _, rfl⟩ := List.mem_map.1 hs
  rfl

theorem accepted_honest {base : Val} {m : Method} {args cands : List Val} {tr : List Event} {o : Outcome} (h : Accepted base m args cands tr o) :
    Honest (· = base) m args tr o ∧ (implCalls tr).length ≤ 1 := by
  obtain ⟨res, hs, ho⟩ := h
  exact honest_transparent rfl (Or.inl rfl) (transparent_of_seen (L2 := []) hs (noImpl_passes cands) rfl ho)

theorem rejected_honest {P : Val → Prop} {m : Method} {args cands zeros : List Val} {tr : List Event} {o : Outcome} {wrap : Val → Val → List Seen → Prop}
    (hret : m.returnsError = true) (hw : ∀ e e' L, e.isNil = false → (∀ x ∈ L, x ∈ seen tr) → wrap e e' L → NoImpl L ∧ e'.isNil = false)
    (h : Rejected wrap cands zeros tr o) : Honest P m args tr o ∧ (implCalls tr).length ≤ 1 := by
  obtain ⟨pre, v, post, e, e', L, h1, h2, h3, h4, h5⟩ := h
  obtain ⟨n1, n2⟩ := hw e e' L h2 (fun x hx => by rw [h3]; simp [hx]) h4
  refine honest_error hret ?_ n2 h5
  rw [implCalls_of_seen, h3, List.filterMap_append, List.filterMap_cons]
  unfold NoImpl at n1
  rw [show (pre.map passes).filterMap _ = [] from noImpl_passes pre]
  exact n1

theorem invalidArgument_makes {tr : List Event} {fn : Str} (hfn : fn ∈ errorMakers) (hl : Lawful tr) (e e' : Val) (L : List Seen) (_ : e.isNil = false)
    (hin : ∀ x ∈ L, x ∈ seen tr) (h : invalidArgument fn e e' L) : NoImpl L ∧ e'.isNil = false := by
  obtain ⟨msg, rfl⟩ := h
  exact ⟨rfl, hl.makers _ (mem_libCalls_seen (hin _ (List.mem_cons_of_mem _ (List.mem_singleton.2 rfl)))) hfn _ rfl⟩

theorem annotate_makes {G : GoTypes} {tr : List Event} (hl : Lawful tr) {q e e' : Val} {L : List Seen} (hin : ∀ x ∈ L, x ∈ seen tr) (h : Annotate G q e L e') :
    NoImpl L ∧ (e.isNil = true → e' = e) ∧ (e.isNil = false → e'.isNil = false) := by
  unfold Annotate at h
  split at h
  · rename_i hn
    obtain ⟨rfl, rfl⟩ := h
    exact ⟨rfl, fun _ => rfl, id⟩
  · rename_i hn
    obtain ⟨twerr, json, x, ⟨_, _, rfl⟩ | ⟨_, rfl⟩⟩ := h
    · exact ⟨rfl, fun h => absurd h hn, fun _ => hl.makers ⟨g!"twirp.WithMeta", [twerr, .str g!"request", json], .ok [e']⟩
      (mem_libCalls_seen (hin _ (by simp))) (by simp [errorMakers]) _ rfl⟩
    · exact ⟨rfl, fun h => absurd h hn, fun _ => hl.makers ⟨g!"twirp.WithMeta", [twerr, .str g!"request", json], .ok [e']⟩
      (mem_libCalls_seen (hin _ (by simp))) (by simp [errorMakers]) _ rfl⟩

theorem annotateAll_makes {G : GoTypes} {tr : List Event} (hl : Lawful tr) {e : Val} : ∀ {qs : List Val} {e' : Val} {L : List Seen}, (∀ x ∈ L, x ∈ seen tr) →
    AnnotateAll G e qs L e' → NoImpl L ∧ (e.isNil = true → e' = e) ∧ (e.isNil = false → e'.isNil = false)
  | [], e', L, _, h => by
    obtain ⟨rfl, rfl⟩ := h
    exact ⟨rfl, fun _ => rfl, id⟩
  | q :: qs, e', L, hin, h => by
    obtain ⟨e1, L1, L2, h1, h2, rfl⟩ := h
    obtain ⟨a1, a2, a3⟩ := annotateAll_makes hl (fun x hx => hin x (List.mem_append_left _ hx)) h1
    obtain ⟨b1, b2, b3⟩ := annotate_makes hl (fun x hx => hin x (List.mem_append_right _ hx)) h2
    refine ⟨?_, fun h => ?_, fun h => b3 (a3 h)⟩
    · unfold NoImpl at *
      rw [List.filterMap_append, a1, b1]; rfl
    · have := a2 h
      subst this
      exact b2 h

/-- Every decorator is honest. -/
theorem deco_honest (G : GoTypes) (d : Deco) (m : Method) (recv : Str × Val) (args : List Val) (tr : List Event) (o : Outcome)
    (h : Callable m recv d.idents args) (hw : d.Works m) (hr : ((d.decorator G).call G m recv args).Run tr o) (hl : Lawful tr) :
    Honest (d.Impl tr) m args tr o ∧ (implCalls tr).length ≤ d.attempts := by
  cases d with
  | observer obs =>
    obtain ⟨a1, hfw, ht⟩ := C56_transparent_partial G obs m recv args tr o h hw hr hl.libs
    refine honest_transparent rfl ?_ ht
    rcases sameArgs_of_forwards hfw with h | ⟨hc, ctx, rest, ctx', h1, h2, h3⟩
    · exact Or.inl h
    · refine Or.inr ⟨hc, ctx, rest, ctx', h1, h2, ?_⟩
      clear h2
      induction h3 with
      | same => exact .same
      | step _ hc hs ha hr hv ih => exact .step ih hc (by revert hs; simp [starts, contextMakers]; grind) ha hr hv
  | controller c => exact controller_honest G c m recv args tr o h hw hr hl
  | timeout iface base config =>
    cases hc : m.acceptsContext with
    | false => exact honest_transparent rfl (Or.inl rfl) (C54_other G iface base config m recv args tr o hc hr hl.libs)
    | true =>
      have := timeout_runs G (iface := iface) (config := config) h hc tr o hr hl.libs
      split at this
      · obtain ⟨ctx, rest, ctx', cancel, res, rfl, ho, hs⟩ := this
        refine honest_transparent (args' := ctx' :: rest) rfl (Or.inr ⟨hc, ctx, rest, ctx', rfl, rfl, ?_⟩)
          (transparent_of_seen (L1 := [_]) (L2 := [_]) hs rfl rfl ho)
        exact .step .same (mem_libCalls_seen (by rw [hs]; exact List.mem_cons_self ..)) (by simp [contextMakers]) (List.mem_cons_self ..) rfl (List.mem_cons_self ..)
      · obtain ⟨res, ho, hs⟩ := this
        exact honest_transparent rfl (Or.inl rfl) (transparent_of_seen (L1 := []) (L2 := []) hs rfl rfl ho)
  | validate iface base =>
    cases hret : m.returnsError with
    | false => exact accepted_honest (C55_validate_other G iface base m recv args tr o h.ok h.declared hret hr hl.libs)
    | true =>
      rcases C55_validate G iface base m recv args tr o h.ok h.declared hret hr hl.libs with h1 | h1
      · refine rejected_honest hret ?_ h1
        rintro e e' L he _ ⟨rfl, rfl⟩
        exact ⟨rfl, he⟩
      · exact accepted_honest h1
  | grpcValidate iface base =>
    obtain ⟨p1, p2⟩ := C55_grpc_partial G iface base m recv args tr o h hr hl.libs
    cases hret : m.returnsError with
    | false => exact accepted_honest (p2 hret)
    | true =>
      rcases p1 hret with h1 | h1
      · exact rejected_honest hret (invalidArgument_makes (by decide) hl) h1
      · exact accepted_honest h1
  | twirpValidate iface base =>
    obtain ⟨p1, p2⟩ := C55_twirp_partial G iface base m recv args tr o h hr hl.libs
    cases hret : m.returnsError with
    | false => exact accepted_honest (p2 hret)
    | true =>
      rcases p1 hret with h1 | h1
      · exact rejected_honest hret (invalidArgument_makes (by decide) hl) h1
      · exact accepted_honest h1
  | twirpError iface base =>
    cases hret : m.returnsError with
    | false =>
      have hcall : (twirpErrorDecorator G iface base).call G m recv args = m.exec G recv (m.passTo base) args := by
        simp [Decorator.call, twirpErrorDecorator, Tmpl.twirpError, hret, twirpDefers]
      change ((twirpErrorDecorator G iface base).call G m recv args).Run tr o at hr
      rw [hcall] at hr
      obtain ⟨res, hs, ho⟩ := passTo_runs G h.ok h.declared tr o hr hl.libs
      exact honest_transparent rfl (Or.inl rfl) (transparent_of_seen (L1 := []) (L2 := []) hs rfl rfl ho)
    | true =>
      rcases twirpError_runs G h hret tr o hr hl.libs with ⟨ws, e, e', L, rfl, hs, hann⟩ | ⟨v, ho, hs⟩
      · obtain ⟨n1, n2, n3⟩ := annotateAll_makes hl (fun x hx => by rw [hs]; exact List.mem_cons_of_mem _ hx) hann
        refine honest_once (args' := args) (i := base) (res := .ok (ws ++ [e])) rfl (Or.inl rfl) ?_ ?_ ?_ nofun
        · rw [implCalls_of_seen, hs, List.filterMap_cons]
          unfold NoImpl at n1
          rw [n1]
        · intro hnf
          rw [← failedVals_iff, failedVals_snoc hret] at hnf
          rw [n2 (by simpa using hnf)]
          rfl
        · intro vs hv hf
          cases hv
          rw [failedVals_snoc hret] at hf
          cases hn : e.isNil with
          | true => rw [n2 hn]
          | false => rw [n3 hn] at hf; cases hf
      · exact honest_transparent rfl (Or.inl rfl) (transparent_of_seen (L1 := []) (L2 := []) (res := .error v) hs rfl rfl ho)

/-! ## C90 -/

/-- Decorators around decorators: what a decorator calls may be a tower itself, and each implementation in a pool may be another one. -/
inductive Tower where
  /-- An implementation that is not generated. -/
  | impl (v : Val)
  /-- A decorator, whose receiver has the value `self`; `inside i` is what the value `i` is that it calls. -/
  | layer (d : Deco) (self : Val) (inside : Val → Tower)

/-- A call of a method of the interface, which has the methods `ms`; `recv` is the name of the receiver in all templates. -/
def Tower.call (G : GoTypes) (recv : Str) (ms : List Method) : Tower → Str → List Val → Tree Outcome
  | .impl v, name, args =>
    match ms.find? (fun m => decide (m.name = name)) with
    | some m => .vis (.impl v m.name args m.results.length) fun r => .ret (passedOn (plain r))
    | none => .ret .stuck
  | .layer d self inside, name, args =>
    match ms.find? (fun m => decide (m.name = name)) with
    | some m => through (fun i => some ((inside i).call G recv ms)) ((d.decorator G).call G m (recv, self) args)
    | none => .ret .stuck

/-- The implementations that calls through the tower may reach in a run. -/
inductive Tower.Reaches (tr : List Event) : Tower → Val → Prop
  | impl (v : Val) : Reaches tr (.impl v) v
  | layer {d : Deco} {self i v : Val} {inside : Val → Tower} (h : d.Impl tr i) (hi : Reaches tr (inside i) v) : Reaches tr (.layer d self inside) v

/-- All decorators of the tower can be used with the interface, and none of the parameters and results of its methods is called like a name in one of the
templates. -/
def Tower.Fits (recv : Str) (ms : List Method) : Tower → Prop
  | .impl _ => True
  | .layer d _ inside => (∀ m ∈ ms, Deco.Works m d ∧ ∀ y ∈ d.idents, y ∉ recv :: (m.pnames ++ m.rnames)) ∧ ∀ i, (inside i).Fits recv ms

/-- The interface: its methods have different names, and are as `NewMethod` makes them (C01, C04, C05, C60). -/
structure Interface (recv : Str) (ms : List Method) : Prop where
  names : (ms.map (·.name)).Nodup
  ok : ∀ m ∈ ms, MethodOk m ∧ (recv :: (m.pnames ++ m.rnames)).Nodup ∧ g!"_" ∉ m.pnames ++ m.rnames

/-- A bound on the number of calls that reach implementations: the product of the numbers of attempts. -/
def Tower.Within : Tower → Nat → Prop
  | .impl _, n => 1 ≤ n
  | .layer d _ inside, n => ∃ k, (∀ i, (inside i).Within k) ∧ d.attempts * k ≤ n

/-- The full claim of C90: every call through every tower is honest. -/
def C90_full : Prop := ∀ (G : GoTypes) (recv : Str) (ms : List Method) (t : Tower), Interface recv ms → ∀ m ∈ ms, ∀ (args : List Val),
  args.length = m.params.length → ∀ (tr : List Event) (o : Outcome), (t.call G recv ms m.name args).Run tr o → Lawful tr →
  Honest (t.Reaches tr) m args tr o

theorem deco_impl_mono {d : Deco} {tr0 tr : List Event} (h : ∀ e ∈ tr0, (∀ i name a n r, e ≠ ⟨.impl i name a n, r⟩) → e ∈ tr) {i : Val}
    (hi : d.Impl tr0 i) : d.Impl tr i := by
  cases d with
  | controller c =>
    cases c with
    | syncPool => exact h _ hi (by intro _ _ _ _ _ h'; cases h')
    | _ => exact hi
  | _ => exact hi

theorem Tower.Reaches.mono {tr tr' : List Event} {t : Tower} {v : Val} (h : ∀ e ∈ tr, e ∈ tr') (hr : t.Reaches tr v) : t.Reaches tr' v := by
  induction hr with
  | impl v => exact .impl v
  | layer hd _ ih => exact .layer (deco_impl_mono (fun e he _ => h e he) hd) ih

theorem tower_ret_length {G : GoTypes} {recv : Str} {ms : List Method} (hi : (ms.map (·.name)).Nodup) {m : Method} (hm : m ∈ ms) : ∀ {t : Tower} {args : List Val}
    {tr : List Event} {vs : List Val}, (t.call G recv ms m.name args).Run tr (.ret vs) → vs.length = m.results.length := by
  have throughLength : ∀ (f : Inner) (t : Tree Outcome) (n : Nat), (∀ tr vs, t.Run tr (.ret vs) → vs.length = n) →
      ∀ tr vs, (through f t).Run tr (.ret vs) → vs.length = n := by
    intro f t n
    induction t with
    | ret o => exact fun h => h
    | vis op k ih =>
      intro h tr vs hr
      have hk : ∀ r tr vs, (k r).Run tr (.ret vs) → vs.length = n := fun r tr vs hr => h _ vs ⟨r, tr, rfl, hr⟩
      cases op with
      | impl i name args n' =>
        rw [through] at hr
        split at hr
        · obtain ⟨_, tr2, o, _, _, h2⟩ := Tree.run_bind.1 hr
          split at h2
          · exact ih _ (hk _) _ _ h2
          · cases h2.2
        · obtain ⟨r, tr', _, h'⟩ := hr
          exact ih r (hk r) _ _ h'
      | _ =>
        obtain ⟨r, tr', _, h'⟩ := hr
        exact ih r (hk r) _ _ h'
  intro t args tr vs h
  cases t with
  | impl v =>
    rw [Tower.call, find_method hi hm] at h
    obtain ⟨r, tr', _, h2⟩ := h
    cases r with
    | ok ws => cases h2.2; exact ws.2
    | error v => cases h2.2
  | layer d self inside =>
    rw [Tower.call, find_method hi hm] at h
    exact throughLength _ _ _ (fun tr vs h => call_ret_length h) _ _ h

theorem outcome_passedOn {n : Nat} {o : Outcome} (hs : o ≠ .stuck) (hl : ∀ vs, o = .ret vs → vs.length = n) : ∃ r : Except Val (Vals n), o = passedOn (plain r) := by
  cases o with
  | ret vs => exact ⟨.ok ⟨vs, hl vs rfl⟩, rfl⟩
  | panic v => exact ⟨.error v, rfl⟩
  | stuck => exact absurd rfl hs

theorem tower_honest (G : GoTypes) (recv : Str) (ms : List Method) (hi : Interface recv ms) : ∀ (t : Tower), t.Fits recv ms → ∀ m ∈ ms, ∀ (args : List Val),
    args.length = m.params.length → ∀ (tr : List Event) (o : Outcome), (t.call G recv ms m.name args).Run tr o → Lawful tr →
    Honest (t.Reaches tr) m args tr o ∧ ∀ n, t.Within n → (implCalls tr).length ≤ n := by
  intro t
  induction t with
  | impl v =>
    intro _ m hm args ha tr o hr hl
    rw [Tower.call, find_method hi.names hm] at hr
    obtain ⟨r, tr', rfl, rfl, rfl⟩ := hr
    obtain ⟨h1, h2⟩ := honest_transparent (P := (Tower.impl v).Reaches _) (i := v) (o := passedOn (plain r)) (m := m) (args := args) (args' := args)
      (tr := [⟨.impl v m.name args m.results.length, r⟩]) (.impl v) (Or.inl rfl) ⟨plain r, rfl, rfl⟩
    exact ⟨h1, fun n hn => Nat.le_trans h2 hn⟩
  | layer d self inside ih =>
    intro hfit m hm args ha tr o hr hl
    rw [Tower.call, find_method hi.names hm] at hr
    obtain ⟨tr0, h0, hx⟩ := through_lawful (P := Op.OfMethod m) (by
      intro i g name a n hg hp seg o' hseg hl'
      obtain ⟨rfl, ha', rfl⟩ := hp
      cases hg
      exact outcome_passedOn (ih i (hfit.2 i) m hm a ha' seg o' hseg hl').1.ends (fun vs h => tower_ret_length hi.names hm (h ▸ hseg)))
      (deco_only G d m (recv, self) args ha) hr hl
    obtain ⟨hok, hnd, hus⟩ := hi.ok m hm
    have hmem : ∀ e ∈ tr0, (∀ i name a n r, e ≠ ⟨.impl i name a n, r⟩) → e ∈ tr := fun e he hne => hx.mem he hne
    have hl0 : Lawful tr0 := ⟨fun c hc => hl.libs c (hx.libs c hc), fun i r h => hl.ticker i r (hmem _ h (by intro _ _ _ _ _ h'; cases h')),
      fun e t r h => hl.errorsIs e t r (hmem _ h (by intro _ _ _ _ _ h'; cases h')), fun c hc => hl.makers c (hx.libs c hc)⟩
    obtain ⟨hw, hid⟩ := hfit.1 m hm
    obtain ⟨hout, hcount⟩ := deco_honest G d m (recv, self) args tr0 o ⟨hok, ⟨hnd, hus, ha⟩, hid⟩ hw h0 hl0
    have hb := hx.blocks (Q := fun c seg => c ∈ implCalls tr0 ∧
        (∀ x ∈ seg, (inside c.impl).Reaches tr x.impl ∧ x.method = m.name ∧ SameArgs contextMakers m tr c.args x.args) ∧
        (∀ vs, c.result = .ok vs → failedVals m vs = false → ∃ x, seg.getLast? = some x ∧ x.result = .ok vs) ∧
        (∀ x, seg.getLast? = some x → ¬ Failed m x.result → c.result = x.result) ∧
        (∀ pre x post, seg = pre ++ x :: post → post ≠ [] → Failed m x.result) ∧
        ∀ k, (inside c.impl).Within k → seg.length ≤ k) (fun i => by nofun) (by
      intro c g seg hc hg hrun hsub
      obtain ⟨_, hname, hsame⟩ := hout.requests c hc
      cases hg
      rw [hname] at hrun
      obtain ⟨hh, hlen⟩ := ih c.impl (hfit.2 _) m hm c.args (by rw [hsame.length, ha]) seg _ hrun ⟨fun l hl' => hl.libs l (libCalls_mono hsub hl'),
        fun i r h => hl.ticker i r (hsub _ h), fun e t r h => hl.errorsIs e t r (hsub _ h), fun l hl' => hl.makers l (libCalls_mono hsub hl')⟩
      refine ⟨hc, ?_, ?_, ?_, hh.once, hlen⟩
      · intro x hx'
        obtain ⟨p1, p2, p3⟩ := hh.requests x hx'
        exact ⟨p1.mono hsub, p2, p3.mono fun l hl' => libCalls_mono hsub hl'⟩
      · intro vs hv hf
        exact hh.genuine vs (by rw [hv]; rfl) hf
      · intro x hx' hf
        exact passedOn_inj (hh.kept x hx' hf))
    refine ⟨⟨?_, ?_, ?_, ?_, hout.ends⟩, ?_⟩
    rotate_left 4
    · rintro n ⟨k, hk, hn⟩
      refine Nat.le_trans (hb.length_le (k := k) fun c seg hq => hq.2.2.2.2.2 k (hk _)) (Nat.le_trans (Nat.mul_le_mul_right k hcount) hn)
    · intro x hx'
      obtain ⟨p, s, hs⟩ := List.append_of_mem hx'
      obtain ⟨_, c, _, seg, p1, s1, _, _, ⟨hc, hq, _⟩, hseg, _⟩ := hb.split hs
      obtain ⟨q1, q2, q3⟩ := hq x (by rw [hseg]; simp)
      obtain ⟨r1, _, r3⟩ := hout.requests c hc
      exact ⟨.layer (deco_impl_mono hmem r1) q1, q2, (r3.mono hx.libs).trans q3⟩
    · intro vs ho hf
      obtain ⟨c, hc, hcr⟩ := hout.genuine vs ho hf
      obtain ⟨p, seg, ⟨_, _, hq, _⟩, hs⟩ := hb.last hc
      obtain ⟨x, hx', hxr⟩ := hq vs hcr hf
      refine ⟨x, ?_, hxr⟩
      rw [hs, List.getLast?_append, hx']
      rfl
    · intro x hx' hf
      obtain ⟨p, hs⟩ : ∃ p, implCalls tr = p ++ [x] := by
        have hne : implCalls tr ≠ [] := by intro h; rw [h] at hx'; cases hx'
        refine ⟨(implCalls tr).dropLast, (List.dropLast_concat_getLast hne).symm.trans ?_⟩
        rw [List.getLast?_eq_some_getLast hne] at hx'
        rw [Option.some.inj hx']
      obtain ⟨pre, c, post, seg, p1, s1, s2, hcs, ⟨hc, _, _, hk, _⟩, hseg, hse, hpost⟩ := hb.split hs
      obtain ⟨rfl, rfl⟩ := List.nil_eq_append_iff.1 hse
      have hr' := hk x (by rw [hseg]; simp) hf
      cases post with
      | cons y post => exact absurd (hr' ▸ hout.once pre c (y :: post) hcs (by simp)) hf
      | nil =>
        rw [← hr']
        exact hout.kept c (by rw [hcs]; simp) (by rw [hr']; exact hf)
    · intro p x s hs hne
      obtain ⟨pre, c, post, seg, p1, s1, s2, hcs, ⟨hc, _, _, hk, ho, _⟩, hseg, hse, hpost⟩ := hb.split hs
      cases s1 with
      | cons y s1 => exact ho p1 x _ hseg (by simp)
      | nil =>
        refine Classical.byContradiction fun hf => ?_
        have hr' := hk x (by rw [hseg]; simp) hf
        refine hf (hr' ▸ hout.once pre c post hcs ?_)
        rintro rfl
        cases hpost
        exact hne hse

/-- **C90** (partial) Every call through a tower of decorators, however high and whatever the decorators, is honest.  What is missing: methods with parameters
or results that are called like names in the templates, see `C90_full_false`, and retries whose interval is not positive. -/
theorem C90_tower_partial (G : GoTypes) (recv : Str) (ms : List Method) (hi : Interface recv ms) (t : Tower) (hfit : t.Fits recv ms) (m : Method) (hm : m ∈ ms)
    (args : List Val) (ha : args.length = m.params.length) (tr : List Event) (o : Outcome) (hr : (t.call G recv ms m.name args).Run tr o) (hl : Lawful tr) :
    Honest (t.Reaches tr) m args tr o := (tower_honest G recv ms hi t hfit m hm args ha tr o hr hl).1

/-- **C90** (partial) Retries around retries multiply: there are at most as many calls as the product of the numbers of attempts. -/
theorem C90_count_partial (G : GoTypes) (recv : Str) (ms : List Method) (hi : Interface recv ms) (t : Tower) (hfit : t.Fits recv ms) (n : Nat) (hn : t.Within n)
    (m : Method) (hm : m ∈ ms) (args : List Val) (ha : args.length = m.params.length) (tr : List Event) (o : Outcome)
    (hr : (t.call G recv ms m.name args).Run tr o) (hl : Lawful tr) : (implCalls tr).length ≤ n :=
  (tower_honest G recv ms hi t hfit m hm args ha tr o hr hl).2 n hn

/-- C90 does not hold for all towers: with a parameter called `_i` the retries pass the loop counter instead. -/
theorem C90_full_false : ¬ C90_full := by
  intro h
  have hrun : ((Tower.layer (.controller (.retry ⟨g!"I", .obj 0, 1, 10⟩)) .nil fun _ => .impl (.obj 0)).call demoTypes g!"_d" [setI] g!"Set" [.int 5]).Run
      [⟨.impl (.obj 0) g!"Set" [.int 5] 1, Except.ok ⟨[.obj 9], rfl⟩⟩, ⟨.newTicker 10, Except.ok ()⟩, ⟨.tick, ()⟩,
        ⟨.impl (.obj 0) g!"Set" [.int 0] 1, Except.ok ⟨[.nil], rfl⟩⟩, ⟨.stopTicker, ()⟩] (.ret [.nil]) := by
    refine run_through (t := (Controller.retry ⟨g!"I", .obj 0, 1, 10⟩).decorator.call demoTypes setI (g!"_d", .nil) [.int 5])
      (tr0 := [⟨.impl (.obj 0) g!"Set" [.int 5] 1, Except.ok ⟨[.obj 9], rfl⟩⟩, ⟨.newTicker 10, Except.ok ()⟩, ⟨.tick, ()⟩,
        ⟨.impl (.obj 0) g!"Set" [.int 0] 1, Except.ok ⟨[.nil], rfl⟩⟩, ⟨.stopTicker, ()⟩])
      ⟨_, _, rfl, _, _, rfl, _, _, rfl, _, _, rfl, _, _, rfl, rfl, rfl⟩ ?_
    refine .call (seg := [⟨.impl (.obj 0) g!"Set" [.int 5] 1, Except.ok ⟨[.obj 9], rfl⟩⟩]) rfl ⟨_, _, rfl, rfl, rfl⟩ (.same ?_ (.same ?_
      (.call (seg := [⟨.impl (.obj 0) g!"Set" [.int 0] 1, Except.ok ⟨[.nil], rfl⟩⟩]) rfl ⟨_, _, rfl, rfl, rfl⟩ (.same ?_ .nil))))
    all_goals intro _ _ _ _ _ h; cases h
  have := h demoTypes g!"_d" [setI] _ ⟨by decide, fun m hm => by
      obtain rfl := List.mem_singleton.1 hm
      exact ⟨⟨by decide, fun _ => ⟨[], _, rfl, rfl, rfl⟩, fun h => by cases h⟩, by decide, by decide⟩⟩ setI (List.mem_singleton.2 rfl) [.int 5] rfl _ _ hrun
    ⟨by simp [LibsReturn, libCalls], (by
      intro i r hm
      simp only [List.mem_cons, List.not_mem_nil, or_false] at hm
      rcases hm with hm | hm | hm | hm | hm <;> cases hm
      exact ⟨fun ⟨v, hv⟩ => (by cases hv), fun h => (by omega)⟩), (by
      intro e t r hm
      simp only [List.mem_cons, List.not_mem_nil, or_false] at hm
      rcases hm with hm | hm | hm | hm | hm <;> cases hm), by simp [libCalls]⟩
  have := (this.requests ⟨.obj 0, g!"Set", [.int 0], .ok [.nil]⟩ (by simp [implCalls, plain])).2.2
  rcases this with h | ⟨h, _⟩
  · simp at h
  · cases h

/-! ### Retries of validated calls with a timeout, to a pool of implementations of which one has a log -/

namespace TowerDemo

/-- The implementations in the pool. -/
def pooled : Val → Tower
  | .obj 38 => .layer (.observer (.log ⟨g!"FinderWithLog", .obj 41, .obj 2, .obj 3⟩)) (.obj 42) fun _ => .impl (.obj 50)
  | _ => .impl (.obj 51)

/-- The pool. -/
def pool : Tower := .layer (.controller (.robinPool [.obj 38, .obj 39])) (.obj 40) pooled

/-- Validation around it. -/
def valid : Tower := .layer (.validate g!"Finder" (.obj 36)) (.obj 37) fun _ => pool

/-- A timeout around it. -/
def timed : Tower := .layer (.timeout g!"Finder" (.obj 34) fun _ => 10) (.obj 35) fun _ => valid

/-- twirp_error around it. -/
def twirp : Tower := .layer (.twirpError g!"Finder" (.obj 32)) (.obj 33) fun _ => timed

/-- `retry(twirp_error(timeout(validate(robinpool(log(impl), impl)))))`. -/
def tower : Tower := .layer (.controller (.retry ⟨g!"Finder", .obj 30, 1, 10⟩)) (.obj 31) fun _ => twirp

theorem interface : Interface g!"_d" [find] := ⟨by decide, fun m hm => by
  obtain rfl := List.mem_singleton.1 hm
  have := find_callable [] (.obj 1) (.int 5) (by decide)
  exact ⟨this.ok, this.declared.1, this.declared.2.1⟩⟩

theorem fits_layer {d : Deco} {self : Val} {inside : Val → Tower} (h1 : Deco.Works find d) (h2 : ∀ y ∈ d.idents, y ∉ g!"_d" :: (find.pnames ++ find.rnames))
    (h3 : ∀ i, (inside i).Fits g!"_d" [find]) : (Tower.layer d self inside).Fits g!"_d" [find] := ⟨fun m hm => by
  obtain rfl := List.mem_singleton.1 hm
  exact ⟨h1, h2⟩, h3⟩

theorem fits : tower.Fits g!"_d" [find] := by
  refine fits_layer (by simp [Deco.Works, Controller.Panics]) (by decide) fun _ => fits_layer trivial (by decide) fun _ => fits_layer trivial (by decide) fun _ =>
    fits_layer trivial (by decide) fun _ => fits_layer (fun h => h) (by decide) fun i => ?_
  unfold pooled
  split
  · exact fits_layer (Or.inr (by intro h; cases h)) (by decide) fun _ => trivial
  · trivial

theorem within : tower.Within 2 := by
  refine ⟨1, fun _ => ⟨1, fun _ => ⟨1, fun _ => ⟨1, fun _ => ⟨1, fun i => ?_, by decide⟩, by decide⟩, by decide⟩, by decide⟩, by decide⟩
  unfold pooled
  split
  · exact ⟨1, fun _ => Nat.le_refl 1, by decide⟩
  · exact Nat.le_refl 1

/-- A call of `Find`. -/
def found (i ctx : Val) : Event := ⟨.impl i g!"Find" [ctx, .obj 5] 2, Except.ok ⟨[.str g!"x", .nil], rfl⟩⟩

@[inherit_doc found]
def failed (i ctx e : Val) : Event := ⟨.impl i g!"Find" [ctx, .obj 5] 2, Except.ok ⟨[.str [], e], rfl⟩⟩

/-- The context gets a timeout. -/
def withTimeout (ctx cancel : Val) : Event := ⟨.lib g!"context.WithTimeout" [.obj 1, .int 10] 2, Except.ok ⟨[ctx, cancel], rfl⟩⟩

@[inherit_doc withTimeout]
def cancelled (cancel : Val) : Event := ⟨.lib g!"cancel" [cancel] 0, Except.ok ⟨[], rfl⟩⟩

/-- The request is validated. -/
def validated (e : Val) : Event := ⟨.lib g!"Validate" [.obj 5] 1, Except.ok ⟨[e], rfl⟩⟩

/-- The error is annotated. -/
def annotated : List Event :=
  [⟨.lib g!"twirp.InternalErrorWith" [.obj 9] 1, Except.ok ⟨[.obj 61], rfl⟩⟩, ⟨.lib g!"json.Marshal" [.obj 5] 2, Except.ok ⟨[.str g!"{}", .nil], rfl⟩⟩,
    ⟨.lib g!"twirp.WithMeta" [.obj 61, .str g!"request", .str g!"{}"] 1, Except.ok ⟨[.obj 60], rfl⟩⟩]

/-- The first attempt: the request is found to be invalid. -/
def first : List Event := withTimeout (.obj 8) (.obj 7) :: validated (.obj 9) :: cancelled (.obj 7) :: annotated

/-- The second attempt: it is valid now. -/
def second : List Event :=
  [withTimeout (.obj 18) (.obj 17), validated .nil, ⟨.addCounter, (1 : UInt32)⟩, found (.obj 51) (.obj 18), cancelled (.obj 17)]

/-- The whole call. -/
def trace : List Event := first ++ (⟨.newTicker 10, Except.ok ()⟩ :: ⟨.doneOrTick (.obj 1), Choice.other⟩ :: (second ++ [⟨.stopTicker, ()⟩]))

theorem expands_same (f : Inner) : ∀ tr : List Event, (∀ e ∈ tr, ∀ i name args n r, e ≠ ⟨.impl i name args n, r⟩) → Expands f tr tr
  | [], _ => .nil
  | e :: tr, h => .same (fun i name args n r he => absurd he (h e (List.mem_cons_self ..) i name args n r))
    (expands_same f tr fun e he => h e (List.mem_cons_of_mem _ he))

theorem pool_run : (pool.call demoTypes g!"_d" [find] g!"Find" [.obj 18, .obj 5]).Run
    [⟨.addCounter, (1 : UInt32)⟩, found (.obj 51) (.obj 18)] (.ret [.str g!"x", .nil]) := by
  refine run_through (t := (Controller.robinPool [.obj 38, .obj 39]).decorator.call demoTypes find (g!"_d", .obj 40) [.obj 18, .obj 5])
    (tr0 := [⟨.addCounter, (1 : UInt32)⟩, found (.obj 39) (.obj 18)]) ⟨_, _, rfl, _, _, rfl, rfl, rfl⟩ ?_
  exact .same (by nofun) (.call (seg := [found (.obj 51) (.obj 18)]) rfl ⟨_, _, rfl, rfl, rfl⟩ .nil)

theorem valid_run1 : (valid.call demoTypes g!"_d" [find] g!"Find" [.obj 8, .obj 5]).Run [validated (.obj 9)] (.ret [.str [], .obj 9]) :=
  run_through (t := (validateDecorator demoTypes g!"Finder" (.obj 36)).call demoTypes find (g!"_d", .obj 37) [.obj 8, .obj 5])
    (tr0 := [validated (.obj 9)]) ⟨_, _, rfl, rfl, rfl⟩ (.same (by nofun) .nil)

theorem valid_run2 : (valid.call demoTypes g!"_d" [find] g!"Find" [.obj 18, .obj 5]).Run
    (validated .nil :: ([⟨.addCounter, (1 : UInt32)⟩, found (.obj 51) (.obj 18)] ++ [])) (.ret [.str g!"x", .nil]) :=
  run_through (t := (validateDecorator demoTypes g!"Finder" (.obj 36)).call demoTypes find (g!"_d", .obj 37) [.obj 18, .obj 5])
    (tr0 := [validated .nil, found (.obj 36) (.obj 18)]) ⟨_, _, rfl, _, _, rfl, rfl, rfl⟩ (.same (by nofun) (.call rfl pool_run .nil))

theorem timed_run1 : (timed.call demoTypes g!"_d" [find] g!"Find" [.obj 1, .obj 5]).Run
    (withTimeout (.obj 8) (.obj 7) :: ([validated (.obj 9)] ++ [cancelled (.obj 7)])) (.ret [.str [], .obj 9]) :=
  run_through (t := (timeoutDecorator g!"Finder" (.obj 34) fun _ => 10).call demoTypes find (g!"_d", .obj 35) [.obj 1, .obj 5])
    (tr0 := [withTimeout (.obj 8) (.obj 7), failed (.obj 34) (.obj 8) (.obj 9), cancelled (.obj 7)])
    ⟨_, _, rfl, _, _, rfl, _, _, rfl, rfl, rfl⟩ (.same (by nofun) (.call rfl valid_run1 (.same (by nofun) .nil)))

theorem timed_run2 : (timed.call demoTypes g!"_d" [find] g!"Find" [.obj 1, .obj 5]).Run
    (withTimeout (.obj 18) (.obj 17) :: ((validated .nil :: ([⟨.addCounter, (1 : UInt32)⟩, found (.obj 51) (.obj 18)] ++ [])) ++ [cancelled (.obj 17)]))
    (.ret [.str g!"x", .nil]) :=
  run_through (t := (timeoutDecorator g!"Finder" (.obj 34) fun _ => 10).call demoTypes find (g!"_d", .obj 35) [.obj 1, .obj 5])
    (tr0 := [withTimeout (.obj 18) (.obj 17), found (.obj 34) (.obj 18), cancelled (.obj 17)])
    ⟨_, _, rfl, _, _, rfl, _, _, rfl, rfl, rfl⟩ (.same (by nofun) (.call rfl valid_run2 (.same (by nofun) .nil)))

theorem twirp_run1 : (twirp.call demoTypes g!"_d" [find] g!"Find" [.obj 1, .obj 5]).Run
    ((withTimeout (.obj 8) (.obj 7) :: ([validated (.obj 9)] ++ [cancelled (.obj 7)])) ++ annotated) (.ret [.str [], .obj 60]) :=
  run_through (t := (twirpErrorDecorator demoTypes g!"Finder" (.obj 32)).call demoTypes find (g!"_d", .obj 33) [.obj 1, .obj 5])
    (tr0 := failed (.obj 32) (.obj 1) (.obj 9) :: annotated)
    ⟨_, _, rfl, _, _, rfl, _, _, rfl, _, _, rfl, rfl, rfl⟩ (.call rfl timed_run1 (expands_same _ _ (by simp [annotated])))

theorem twirp_run2 : (twirp.call demoTypes g!"_d" [find] g!"Find" [.obj 1, .obj 5]).Run (second ++ []) (.ret [.str g!"x", .nil]) :=
  run_through (t := (twirpErrorDecorator demoTypes g!"Finder" (.obj 32)).call demoTypes find (g!"_d", .obj 33) [.obj 1, .obj 5])
    (tr0 := [found (.obj 32) (.obj 1)]) ⟨_, _, rfl, rfl, rfl⟩ (.call rfl timed_run2 .nil)

theorem run : (tower.call demoTypes g!"_d" [find] g!"Find" [.obj 1, .obj 5]).Run trace (.ret [.str g!"x", .nil]) :=
  run_through (t := (Controller.retry ⟨g!"Finder", .obj 30, 1, 10⟩).decorator.call demoTypes find (g!"_d", .obj 31) [.obj 1, .obj 5])
    (tr0 := [failed (.obj 30) (.obj 1) (.obj 60), ⟨.newTicker 10, Except.ok ()⟩, ⟨.doneOrTick (.obj 1), Choice.other⟩, found (.obj 30) (.obj 1),
      ⟨.stopTicker, ()⟩])
    ⟨_, _, rfl, _, _, rfl, _, _, rfl, _, _, rfl, _, _, rfl, rfl, rfl⟩
    (.call (seg := first) rfl twirp_run1 (.same (by nofun) (.same (by nofun) (.call (seg := second) rfl twirp_run2 (.same (by nofun) .nil)))))

theorem lawful : Lawful trace := by
  refine ⟨?_, ?_, ?_, ?_⟩
  · simp [LibsReturn, libCalls, trace, first, second, annotated, withTimeout, validated, cancelled, found, plain]
  · intro i r hm
    simp only [trace, first, second, annotated, List.cons_append, List.nil_append, List.mem_cons, List.not_mem_nil, or_false] at hm
    rcases hm with hm | hm | hm | hm | hm | hm | hm | hm | hm | hm | hm | hm | hm | hm <;> cases hm
    exact ⟨fun ⟨v, hv⟩ => (by cases hv), fun h => (by omega)⟩
  · intro e t r hm
    simp only [trace, first, second, annotated, List.cons_append, List.nil_append, List.mem_cons, List.not_mem_nil, or_false] at hm
    rcases hm with hm | hm | hm | hm | hm | hm | hm | hm | hm | hm | hm | hm | hm | hm <;> cases hm
  · simp [libCalls, trace, first, second, annotated, withTimeout, validated, cancelled, found, plain, errorMakers, Val.isNil]

/-- The second implementation was called once, with the context that has a timeout. -/
example : Honest (tower.Reaches trace) find [.obj 1, .obj 5] trace (.ret [.str g!"x", .nil]) ∧
    implCalls trace = [⟨.obj 51, g!"Find", [.obj 18, .obj 5], .ok [.str g!"x", .nil]⟩] :=
  ⟨C90_tower_partial demoTypes g!"_d" [find] interface tower fits find (List.mem_singleton.2 rfl) _ rfl _ _ run lawful, rfl⟩

example : (implCalls trace).length ≤ 2 :=
  C90_count_partial demoTypes g!"_d" [find] interface tower fits 2 within find (List.mem_singleton.2 rfl) _ rfl _ _ run lawful

end TowerDemo

end Gowrap.Props
