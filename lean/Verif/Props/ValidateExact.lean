import Verif.Props.TimeoutExact
/-!
# C55: exactly when a parameter that hides a package breaks validation
-/

namespace Gowrap.Props

open Gowrap Spec Tmpl

variable {m : Method}

theorem set_some {env : Env} {x y : Str} {v : Val} (h : ∃ w, env x = some w) : ∃ w, env.set y v x = some w := by
  simp only [Env.set]
  split
  · exact ⟨v, rfl⟩
  · exact h

/-- Validation when the code for invalid arguments does not compile. -/
theorem allG_validateStuck (G : GoTypes) {onInvalid : Stm} {g : Str}
    (hinv : ∀ env e, env g!"err" = some e → (∃ v, env g = some v) → onInvalid env = .ret (env, .stuck))
    {env : Env} (herr : env g!"err" = some .nil) (hg : ∃ v, env g = some v) :
    ∀ {ps : List Str} {vs : List Val}, env.all ps = some vs →
      (validateParams G m onInvalid ps env).AllG fun tr x =>
        (x = (env, Flow.next) ∧ seen tr = (cands G m ps vs).map passes) ∨
        ∃ v e, e.isNil = false ∧ .lib ⟨g!"Validate", [v], .ok [e]⟩ ∈ seen tr ∧ x.2 = Flow.stuck := by
  intro ps
  induction ps with
  | nil =>
    intro vs _
    rw [validateParams, Stm.skip_apply, Tree.allG_ret]
    exact Or.inl ⟨rfl, by simp [cands, seen]⟩
  | cons p ps ih =>
    intro vs h
    simp only [Env.all] at h
    cases hp : env p with
    | none => simp [hp] at h
    | some v =>
    cases hq : env.all ps with
    | none => simp [hp, hq] at h
    | some vs' =>
    simp only [hp, hq, Option.some.injEq] at h
    subst h
    rw [validateParams]
    by_cases hc : notContext m p = true
    · rw [if_pos hc, Stm.allG_seq, Stm.get_apply hp, Stm.allG_block]
      cases hv : G.validatable v with
      | false =>
        rw [Stm.ite_false', Stm.skip_apply, Tree.allG_ret]
        have e0 : (env.setAll [g!"_v", g!"_ok"] [v, .bool false]).leave env [g!"_v", g!"_ok"] = env := by
          funext y
          simp only [Env.leave, Env.setAll, Env.set, List.mem_cons, List.not_mem_nil, or_false]
          split
          · rfl
          · rename_i hy
            simp only [not_or] at hy
            simp [hy.1, hy.2]
        rw [e0]
        refine (ih hq).mono fun tr x hx => ?_
        have : cands G m (p :: ps) (v :: vs') = cands G m ps vs' := by simp [cands, hv]
        rwa [this, List.nil_append]
      | true =>
        have hcs : cands G m (p :: ps) (v :: vs') = v :: cands G m ps vs' := by simp [cands, hv, hc]
        have hv' : env.setAll [g!"_v", g!"_ok"] [v, .bool true] g!"_v" = some v := by
          simp only [Env.setAll]
          rw [Env.set_other _ _ (by decide), Env.set_same]
        have he' : env.setAll [g!"_v", g!"_ok"] [v, .bool true] g!"err" = some .nil := by
          simp only [Env.setAll]
          rw [Env.set_other _ _ (by decide), Env.set_other _ _ (by decide), herr]
        rw [Stm.ite_true', Stm.get_apply hv', Stm.allG_lib1]
        intro e
        rw [Stm.seq_assign he', Stm.get_apply (Env.set_same _ _ _)]
        have e0 : ∀ w : Val, ((env.setAll [g!"_v", g!"_ok"] [v, .bool true]).set g!"err" w).leave env
            [g!"_v", g!"_ok"] = env.set g!"err" w := by
          intro w
          funext y
          simp only [Env.leave, Env.setAll, Env.set, List.mem_cons, List.not_mem_nil, or_false]
          split
          · rename_i hy
            rcases hy with rfl | rfl
            · rw [if_neg (by decide)]
            · rw [if_neg (by decide)]
          · rename_i hy
            simp only [not_or] at hy
            simp [hy.1, hy.2]
        cases hn : e.isNil with
        | true =>
          rw [Stm.ite_true', Stm.skip_apply, Tree.allG_ret, e0, Val.eq_nil_of_isNil hn, Env.set_eq herr]
          refine (ih hq).mono fun tr x hx => ?_
          rw [hcs]
          rcases hx with ⟨rfl, hs⟩ | ⟨v', e1, h1, h2, h3⟩
          · exact Or.inl ⟨rfl, congrArg (List.cons _) hs⟩
          · exact Or.inr ⟨v', e1, h1, List.mem_cons_of_mem _ h2, h3⟩
        | false =>
          have hs : onInvalid ((env.setAll [g!"_v", g!"_ok"] [v, .bool true]).set g!"err" e) =
              .ret ((env.setAll [g!"_v", g!"_ok"] [v, .bool true]).set g!"err" e, .stuck) :=
            hinv _ e (Env.set_same _ _ _) (set_some (set_some (set_some hg)))
          rw [Stm.ite_false', hs, Tree.allG_ret]
          exact Or.inr ⟨v, e, hn, List.mem_cons_self, rfl⟩
    · rw [if_neg hc]
      refine (ih hq).mono fun tr x hx => ?_
      have : cands G m (p :: ps) (v :: vs') = cands G m ps vs' := by simp [cands, hc]
      rwa [this]

/-- A whole method whose code for invalid arguments does not compile. -/
theorem stuck_runs (G : GoTypes) {onInvalid : Stm} {g : Str} {recv : Str × Val} {args : List Val} {base : Val}
    (hok : MethodOk m) (hd : m.WellDeclared recv args) (hret : m.returnsError = true)
    (hg : g ∈ recv.1 :: (m.pnames ++ m.rnames))
    (hinv : ∀ env e, env g!"err" = some e → (∃ v, env g = some v) → onInvalid env = .ret (env, .stuck)) :
    (m.exec G recv (.seq (validateParams G m onInvalid m.pnames) (m.passTo base)) args).AllG fun tr o =>
      Accepted base m args (candidates G m args) tr o ∨
      (o = .stuck ∧ ∃ v e, e.isNil = false ∧ .lib ⟨g!"Validate", [v], .ok [e]⟩ ∈ seen tr) := by
  have hf : m.Fits args (m.zeros G) := ⟨hok, hd.2.2, Method.zeros_length G m⟩
  obtain ⟨rs, z, hz⟩ := Method.results_err hf hret
  have hznil : z = .nil := by
    have := failedVals_zeros G hok
    rw [failedVals, hret, hz] at this
    simp at this
    exact Val.eq_nil_of_isNil this
  rw [Method.exec_apply G hd, Tree.allG_bind, Stm.allG_seq]
  have hfz : m.Fits args (rs ++ [z]) := by rw [← hz]; exact hf
  rw [hz]
  have hsome : m.env (Method.recvEnv recv) args (rs ++ [z]) g!"err" = some .nil := by
    rw [Method.env_err hfz hret, hznil]
  refine (allG_validateStuck (m := m) G hinv hsome (env_declared hfz hg) (Method.env_all_params hfz)).mono fun tr x hx => ?_
  rw [cands_eq G hf] at hx
  rcases hx with ⟨rfl, hs⟩ | ⟨v, e, h1, h2, h3⟩
  · simp only
    rw [Method.allG_passTo hfz]
    constructor
    · intro vs
      rw [Method.finish_ret ⟨hf.ok, hf.args, vs.2⟩, Tree.allG_ret]
      exact Or.inl ⟨.ok vs.1, by rw [List.append_nil, seen_append, hs]; rfl, rfl⟩
    · intro v
      rw [Method.finish_panic, Tree.allG_ret]
      exact Or.inl ⟨.error v, by rw [List.append_nil, seen_append, hs]; rfl, rfl⟩
  · obtain ⟨env, fl⟩ := x
    cases h3
    simp only [Tree.allG_ret, Method.finish, List.append_nil]
    exact Or.inr ⟨by trivial, v, e, h1, h2⟩

/-- No validation in the run returned an error. -/
def AllValid (tr : List Event) : Prop := ∀ v e, Seen.lib ⟨g!"Validate", [v], .ok [e]⟩ ∈ seen tr → e.isNil = true

theorem accepted_valid {base : Val} {args cs : List Val} {tr : List Event} {o : Outcome} (h : Accepted base m args cs tr o) : AllValid tr := by
  obtain ⟨res, hs, _⟩ := h
  intro v e hm
  rw [hs] at hm
  simp only [List.mem_append, List.mem_map, List.mem_singleton, passes] at hm
  rcases hm with ⟨w, _, hw⟩ | hm
  · simp only [Seen.lib.injEq, LibCall.mk.injEq, Except.ok.injEq, List.cons.injEq, and_true, true_and] at hw
    rw [← hw.2]
    rfl
  · cases hm

theorem rejected_ne_stuck {W : Val → Val → List Seen → Prop} {cs zs : List Val} {tr : List Event} {o : Outcome} (h : Rejected W cs zs tr o) :
    o ≠ .stuck := by
  obtain ⟨_, _, _, _, _, _, _, _, _, _, ho⟩ := h
  rw [ho]
  exact nofun

theorem accepted_ne_stuck {base : Val} {args cs : List Val} {tr : List Event} {o : Outcome} (h : Accepted base m args cs tr o) : o ≠ .stuck := by
  obtain ⟨_, _, ho⟩ := h
  rw [ho]
  exact passedOn_ne_stuck

/-- The two cases together. -/
theorem exact_of {P : Prop} {base : Val} {args cs zs : List Val} {tr : List Event} {o : Outcome} {W : Val → Val → List Seen → Prop}
    (h1 : ¬ P → Rejected W cs zs tr o ∨ Accepted base m args cs tr o)
    (h2 : P → Accepted base m args cs tr o ∨ (o = .stuck ∧ ∃ v e, e.isNil = false ∧ .lib ⟨g!"Validate", [v], .ok [e]⟩ ∈ seen tr)) :
    ((Rejected W cs zs tr o ∨ Accepted base m args cs tr o) ↔ ¬ P ∨ AllValid tr) ∧ (o = .stuck ↔ P ∧ ¬ AllValid tr) := by
  by_cases hp : P
  · rcases h2 hp with ha | ⟨rfl, v, e, he, hm⟩
    · have hv := accepted_valid ha
      exact ⟨iff_of_true (.inr ha) (.inr hv), iff_of_false (accepted_ne_stuck ha) fun h => h.2 hv⟩
    · have hv : ¬ AllValid tr := fun h => by rw [h v e hm] at he; cases he
      refine ⟨iff_of_false ?_ (fun h => h.elim (fun h => h hp) hv), iff_of_true rfl ⟨hp, hv⟩⟩
      rintro (h | h)
      · exact rejected_ne_stuck h rfl
      · exact accepted_ne_stuck h rfl
  · have h := h1 hp
    exact ⟨iff_of_true h (.inl hp), iff_of_false (fun e => h.elim (fun h => rejected_ne_stuck h e) fun h => accepted_ne_stuck h e) fun h => hp h.1⟩

/-- **C55** (exact) twirp_validate: a call of a method that returns an error is validated as it should be exactly if no parameter, no result and not the
receiver is called `twirp`, or all arguments turn out to be valid; otherwise the call comes to the statement that does not compile.  (The model notices that when it
gets there; for the compiler the name alone is enough, see C72.) -/
theorem C55_twirp_exact (G : GoTypes) (iface : Str) (base : Val) (m : Method) (recv : Str × Val) (args : List Val) (tr : List Event) (o : Outcome)
    (hok : MethodOk m) (hd : m.WellDeclared recv args) (hret : m.returnsError = true)
    (hr : ((twirpValidateDecorator G iface base).call G m recv args).Run tr o) (hl : LibsReturn tr) :
    ((Rejected (invalidArgument g!"twirp.NewError") (candidates G m args) (m.zeros G) tr o ∨ Accepted base m args (candidates G m args) tr o) ↔
      ¬ g!"twirp" ∈ recv.1 :: (m.pnames ++ m.rnames) ∨ AllValid tr) ∧
    (o = .stuck ↔ g!"twirp" ∈ recv.1 :: (m.pnames ++ m.rnames) ∧ ¬ AllValid tr) := by
  refine exact_of (fun h => ?_) (fun h => ?_)
  · exact (C55_twirp_partial G iface base m recv args tr o ⟨hok, hd, by simpa using h⟩ hr hl).1 hret
  · have hcall : (twirpValidateDecorator G iface base).call G m recv args =
        m.exec G recv (.seq (validateParams G m twirpInvalid m.pnames) (m.passTo base)) args := by
      simp [Decorator.call, twirpValidateDecorator, twirpValidate, hret]
    rw [hcall] at hr
    refine stuck_runs G hok hd hret h ?_ tr o hr hl
    rintro env e _ ⟨v, hv⟩
    rw [twirpInvalid, Stm.global, hv]
    rfl

/-- **C55** (exact) grpc_validate: likewise with `grpc_status` and `grpc_codes`. -/
theorem C55_grpc_exact (G : GoTypes) (iface : Str) (base : Val) (m : Method) (recv : Str × Val) (args : List Val) (tr : List Event) (o : Outcome)
    (hok : MethodOk m) (hd : m.WellDeclared recv args) (hret : m.returnsError = true)
    (hr : ((grpcValidateDecorator G iface base).call G m recv args).Run tr o) (hl : LibsReturn tr) :
    ((Rejected (invalidArgument g!"status.Error") (candidates G m args) (m.zeros G) tr o ∨ Accepted base m args (candidates G m args) tr o) ↔
      ¬ (g!"grpc_status" ∈ recv.1 :: (m.pnames ++ m.rnames) ∨ g!"grpc_codes" ∈ recv.1 :: (m.pnames ++ m.rnames)) ∨ AllValid tr) ∧
    (o = .stuck ↔ (g!"grpc_status" ∈ recv.1 :: (m.pnames ++ m.rnames) ∨ g!"grpc_codes" ∈ recv.1 :: (m.pnames ++ m.rnames)) ∧ ¬ AllValid tr) := by
  have hcall : (grpcValidateDecorator G iface base).call G m recv args =
      m.exec G recv (.seq (validateParams G m grpcInvalid m.pnames) (m.passTo base)) args := by
    simp [Decorator.call, grpcValidateDecorator, grpcValidate, hret]
  refine exact_of (fun h => ?_) (fun h => ?_)
  · refine (C55_grpc_partial G iface base m recv args tr o ⟨hok, hd, ?_⟩ hr hl).1 hret
    intro x hx
    simp only [List.mem_cons, List.not_mem_nil, or_false] at hx
    rcases hx with rfl | rfl
    · exact fun hm => h (.inl hm)
    · exact fun hm => h (.inr hm)
  · rw [hcall] at hr
    rcases h with h | h
    · refine stuck_runs G hok hd hret h ?_ tr o hr hl
      rintro env e _ ⟨v, hv⟩
      rw [grpcInvalid, Stm.global, hv]
      rfl
    · refine stuck_runs G hok hd hret h ?_ tr o hr hl
      rintro env e _ ⟨v, hv⟩
      rw [grpcInvalid, Stm.global]
      split
      · rfl
      · rw [Stm.global, hv]
        rfl

/-- `Send(twirp T) error` with an invalid argument. -/
example : ¬ (Rejected (invalidArgument g!"twirp.NewError") (candidates demoTypes sendTwirp [.obj 1]) (sendTwirp.zeros demoTypes)
      [⟨.lib g!"Validate" [.obj 1] 1, Except.ok ⟨[.obj 2], rfl⟩⟩] .stuck ∨
    Accepted (.obj 0) sendTwirp [.obj 1] (candidates demoTypes sendTwirp [.obj 1])
      [⟨.lib g!"Validate" [.obj 1] 1, Except.ok ⟨[.obj 2], rfl⟩⟩] .stuck) := by
  rw [(C55_twirp_exact demoTypes g!"I" (.obj 0) sendTwirp (g!"_d", .nil) [.obj 1]
    [⟨.lib g!"Validate" [.obj 1] 1, Except.ok ⟨[.obj 2], rfl⟩⟩] .stuck
    ⟨by decide, fun _ => ⟨[], _, rfl, rfl, rfl⟩, fun h => by cases h⟩ (by decide) rfl ⟨_, [], rfl, rfl, rfl⟩ (by simp)).1]
  rintro (h | h)
  · exact h (by decide)
  · exact absurd (h (.obj 1) (.obj 2) List.mem_cons_self) (by decide)

/-- With grpc_validate the same method is validated. -/
example : Rejected (invalidArgument g!"status.Error") (candidates demoTypes sendTwirp [.obj 1]) (sendTwirp.zeros demoTypes)
      [⟨.lib g!"Validate" [.obj 1] 1, Except.ok ⟨[.nil], rfl⟩⟩, ⟨.impl (.obj 0) g!"Send" [.obj 1] 1, Except.ok ⟨[.nil], rfl⟩⟩] (.ret [.nil]) ∨
    Accepted (.obj 0) sendTwirp [.obj 1] (candidates demoTypes sendTwirp [.obj 1])
      [⟨.lib g!"Validate" [.obj 1] 1, Except.ok ⟨[.nil], rfl⟩⟩, ⟨.impl (.obj 0) g!"Send" [.obj 1] 1, Except.ok ⟨[.nil], rfl⟩⟩] (.ret [.nil]) :=
  (C55_grpc_exact demoTypes g!"I" (.obj 0) sendTwirp (g!"_d", .nil) [.obj 1]
    [⟨.lib g!"Validate" [.obj 1] 1, Except.ok ⟨[.nil], rfl⟩⟩, ⟨.impl (.obj 0) g!"Send" [.obj 1] 1, Except.ok ⟨[.nil], rfl⟩⟩] (.ret [.nil])
    ⟨by decide, fun _ => ⟨[], _, rfl, rfl, rfl⟩, fun h => by cases h⟩ (by decide) rfl
    ⟨_, _, rfl, _, _, rfl, rfl, rfl⟩ (by simp [LibsReturn, libCalls, plain])).1.2 (.inl (by decide))

end Gowrap.Props
