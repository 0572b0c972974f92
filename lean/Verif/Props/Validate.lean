import Verif.Props.Observe
import Verif.Proofs.Validate
/-!
# C54, C55, C58: timeout, validation, twirp_error
-/

namespace Gowrap.Props

open Gowrap Spec Tmpl

/-! ## C55 -/

/-- The full claim of C55 for twirp_validate. -/
def C55_full : Prop := ∀ (G : GoTypes) (iface : Str) (base : Val) (m : Method) (recv : Str × Val)
  (args : List Val) (tr : List Event) (o : Outcome), MethodOk m → m.WellDeclared recv args →
  m.returnsError = true → ((twirpValidateDecorator G iface base).call G m recv args).Run tr o → LibsReturn tr →
  Rejected (invalidArgument g!"twirp.NewError") (candidates G m args) (m.zeros G) tr o ∨
    Accepted base m args (candidates G m args) tr o

/-- `Send(twirp T) error`. -/
def sendTwirp : Method :=
  ⟨[], [], g!"Send", [⟨[], [], g!"twirp", g!"T", false⟩], [⟨[], [], g!"err", g!"error", false⟩], true, false⟩

/-- C55 does not hold: a parameter called `twirp` hides the package. -/
theorem C55_full_false : ¬ C55_full := by
  intro h
  have := h demoTypes g!"I" (.obj 0) sendTwirp (g!"_d", .nil) [.obj 1]
    [⟨.lib g!"Validate" [.obj 1] 1, Except.ok ⟨[.obj 2], rfl⟩⟩] .stuck
    ⟨by decide, fun _ => ⟨[], _, rfl, rfl, rfl⟩, fun h => by cases h⟩ (by decide) rfl
    ⟨_, [], rfl, rfl, rfl⟩ (by simp)
  rcases this with ⟨_, _, _, _, _, _, _, _, _, _, ho⟩ | ⟨res, _, ho⟩
  · cases ho
  · cases res <;> cases ho

/-- **C55** validate: for a method that returns an error, the validatable arguments other than the context
are validated in order; the first failure is returned and the implementation is not called, otherwise it
is called exactly once with the arguments and its results are returned. -/
theorem C55_validate (G : GoTypes) (iface : Str) (base : Val) (m : Method) (recv : Str × Val) (args : List Val)
    (tr : List Event) (o : Outcome) (hok : MethodOk m) (hd : m.WellDeclared recv args)
    (hret : m.returnsError = true) (hr : ((validateDecorator G iface base).call G m recv args).Run tr o)
    (hl : LibsReturn tr) :
    Rejected unwrapped (candidates G m args) (m.zeros G) tr o ∨
      Accepted base m args (candidates G m args) tr o := by
  have hcall : (validateDecorator G iface base).call G m recv args =
      m.exec G recv (.seq (validateParams G m .ret m.pnames) (m.passTo base)) args := by
    simp [Decorator.call, validateDecorator, validate, hret]
  rw [hcall] at hr
  refine validated_runs G (globs := []) ⟨hok, hd, by simp⟩ hret (by simp) ?_ tr o hr hl
  intro env e he _
  rw [Stm.ret_apply, Tree.allG_ret]
  exact ⟨e, by rw [Env.set_eq he], rfl, rfl⟩

/-- **C55** validate, the other methods: they are passed on. -/
theorem C55_validate_other (G : GoTypes) (iface : Str) (base : Val) (m : Method) (recv : Str × Val)
    (args : List Val) (tr : List Event) (o : Outcome) (hok : MethodOk m) (hd : m.WellDeclared recv args)
    (hret : m.returnsError = false) (hr : ((validateDecorator G iface base).call G m recv args).Run tr o)
    (hl : LibsReturn tr) : Accepted base m args [] tr o := by
  have hcall : (validateDecorator G iface base).call G m recv args = m.exec G recv (m.passTo base) args := by
    simp [Decorator.call, validateDecorator, validate, hret, Method.exec, Stm.seq]
  rw [hcall] at hr
  exact passTo_runs G hok hd tr o hr hl

/-- `Find` is called with an invalid argument. -/
example : Rejected unwrapped [.obj 5] [.str [], .nil]
    [⟨.lib g!"Validate" [.obj 5] 1, Except.ok ⟨[.obj 9], rfl⟩⟩] (.ret [.str [], .obj 9]) :=
  (C55_validate demoTypes g!"Finder" (.obj 0) find (g!"_d", .nil) [.obj 1, .obj 5]
    [⟨.lib g!"Validate" [.obj 5] 1, Except.ok ⟨[.obj 9], rfl⟩⟩] (.ret [.str [], .obj 9])
    (methodOk_of_newMethod Demo.env _ findField find find_new rfl (by decide) (by decide)) (by decide) rfl
    ⟨_, _, rfl, rfl, rfl⟩ (by simp)).resolve_right (by
      rintro ⟨res, hs, _⟩
      simp [seen, candidates, requestArgs, find, demoTypes, passes, plain] at hs)

/-- `Find` is called with a valid argument. -/
example : Accepted (.obj 0) find [.obj 1, .obj 5] [.obj 5]
    [⟨.lib g!"Validate" [.obj 5] 1, Except.ok ⟨[.nil], rfl⟩⟩,
      ⟨.impl (.obj 0) g!"Find" [.obj 1, .obj 5] 2, Except.ok ⟨[.str g!"x", .nil], rfl⟩⟩] (.ret [.str g!"x", .nil]) :=
  (C55_validate demoTypes g!"Finder" (.obj 0) find (g!"_d", .nil) [.obj 1, .obj 5]
    [⟨.lib g!"Validate" [.obj 5] 1, Except.ok ⟨[.nil], rfl⟩⟩,
      ⟨.impl (.obj 0) g!"Find" [.obj 1, .obj 5] 2, Except.ok ⟨[.str g!"x", .nil], rfl⟩⟩] (.ret [.str g!"x", .nil])
    (methodOk_of_newMethod Demo.env _ findField find find_new rfl (by decide) (by decide)) (by decide) rfl
    ⟨_, _, rfl, _, _, rfl, rfl, rfl⟩ (by simp [LibsReturn, libCalls, plain])).resolve_left (by
      rintro ⟨pre, v, post, e, e', L, h1, h2, h3, _⟩
      have : pre = [] := by
        have : (pre ++ v :: post).length = 1 := by rw [← h1]; rfl
        rw [List.length_append, List.length_cons] at this
        exact List.eq_nil_of_length_eq_zero (by omega)
      subst this
      have h4 := (List.cons.inj h3).1
      simp only [plain, Seen.lib.injEq, LibCall.mk.injEq] at h4
      have : e = .nil := by simpa using h4.2.2.symm
      subst this
      cases h2)

/-- **C55** (partial) grpc_validate.  What is missing: methods with a parameter or result called
`grpc_status` or `grpc_codes`, compare `C55_full_false`. -/
theorem C55_grpc_partial (G : GoTypes) (iface : Str) (base : Val) (m : Method) (recv : Str × Val)
    (args : List Val) (tr : List Event) (o : Outcome)
    (h : Callable m recv [g!"grpc_status", g!"grpc_codes"] args)
    (hr : ((grpcValidateDecorator G iface base).call G m recv args).Run tr o) (hl : LibsReturn tr) :
    (m.returnsError = true →
      Rejected (invalidArgument g!"status.Error") (candidates G m args) (m.zeros G) tr o ∨
      Accepted base m args (candidates G m args) tr o) ∧
    (m.returnsError = false → Accepted base m args [] tr o) := by
  constructor
  · intro hret
    have hcall : (grpcValidateDecorator G iface base).call G m recv args =
        m.exec G recv (.seq (validateParams G m grpcInvalid m.pnames) (m.passTo base)) args := by
      simp [Decorator.call, grpcValidateDecorator, grpcValidate, hret]
    rw [hcall] at hr
    refine validated_runs G h hret (by decide) ?_ tr o hr hl
    intro env e he hg
    rw [grpcInvalid, Stm.global_apply (hg _ (by simp)), Stm.global_apply (hg _ (by simp)), Stm.get_apply he,
      Stm.allG_lib1]
    intro msg
    rw [Stm.allG_lib1]
    intro e'
    rw [Stm.seq_assign he, Stm.ret_apply, Tree.allG_ret]
    exact ⟨e', rfl, msg, rfl⟩
  · intro hret
    have hb : (grpcValidateDecorator G iface base).body m = none := by simp [grpcValidateDecorator, hret]
    obtain ⟨res, ho, hs⟩ := promoted_runs G (grpcValidateDecorator G iface base) hb rfl tr o hr hl
    exact ⟨res, hs, ho⟩

example : Callable find (g!"_d", .nil) [g!"grpc_status", g!"grpc_codes"] [.obj 1, .obj 5] :=
  find_callable _ _ _ (by decide)

/-- **C55** (partial) twirp_validate.  What is missing: methods with a parameter or result called `twirp`,
see `C55_full_false`. -/
theorem C55_twirp_partial (G : GoTypes) (iface : Str) (base : Val) (m : Method) (recv : Str × Val)
    (args : List Val) (tr : List Event) (o : Outcome) (h : Callable m recv [g!"twirp"] args)
    (hr : ((twirpValidateDecorator G iface base).call G m recv args).Run tr o) (hl : LibsReturn tr) :
    (m.returnsError = true →
      Rejected (invalidArgument g!"twirp.NewError") (candidates G m args) (m.zeros G) tr o ∨
      Accepted base m args (candidates G m args) tr o) ∧
    (m.returnsError = false → Accepted base m args [] tr o) := by
  constructor
  · intro hret
    have hcall : (twirpValidateDecorator G iface base).call G m recv args =
        m.exec G recv (.seq (validateParams G m twirpInvalid m.pnames) (m.passTo base)) args := by
      simp [Decorator.call, twirpValidateDecorator, twirpValidate, hret]
    rw [hcall] at hr
    refine validated_runs G h hret (by decide) ?_ tr o hr hl
    intro env e he hg
    rw [twirpInvalid, Stm.global_apply (hg _ (by simp)), Stm.get_apply he, Stm.allG_lib1]
    intro msg
    rw [Stm.allG_lib1]
    intro e'
    rw [Stm.seq_assign he, Stm.ret_apply, Tree.allG_ret]
    exact ⟨e', rfl, msg, rfl⟩
  · intro hret
    have hcall : (twirpValidateDecorator G iface base).call G m recv args = m.exec G recv (m.passTo base) args := by
      simp [Decorator.call, twirpValidateDecorator, twirpValidate, hret, Method.exec, Stm.seq]
    rw [hcall] at hr
    exact passTo_runs G h.ok h.declared tr o hr hl

/-- `Find` is called with an invalid argument through twirp_validate. -/
example : ((twirpValidateDecorator demoTypes g!"Finder" (.obj 0)).call demoTypes find (g!"_d", .nil)
      [.obj 1, .obj 5]).Run
    [⟨.lib g!"Validate" [.obj 5] 1, Except.ok ⟨[.obj 9], rfl⟩⟩,
      ⟨.lib g!"Error" [.obj 9] 1, Except.ok ⟨[.str g!"bad"], rfl⟩⟩,
      ⟨.lib g!"twirp.NewError" [.str g!"InvalidArgument", .str g!"bad"] 1, Except.ok ⟨[.obj 10], rfl⟩⟩]
    (.ret [.str [], .obj 10]) ∧
    Callable find (g!"_d", .nil) [g!"twirp"] [.obj 1, .obj 5] :=
  ⟨⟨_, _, rfl, _, _, rfl, _, _, rfl, rfl, rfl⟩, find_callable _ _ _ (by decide)⟩

/-! ## C58 -/

/-- Twirp errors made of `e` in a run. -/
inductive Derived (G : GoTypes) (calls : List Seen) (e : Val) : Val → Prop
  | self : G.twirpError e = true → Derived G calls e e
  | internal (t : Val) : .lib ⟨g!"twirp.InternalErrorWith", [e], .ok [t]⟩ ∈ calls → Derived G calls e t
  | annotated (t v t' : Val) : Derived G calls e t →
      .lib ⟨g!"twirp.WithMeta", [t, .str g!"request", v], .ok [t']⟩ ∈ calls → Derived G calls e t'

theorem Derived.mono {G : GoTypes} {L L' : List Seen} {e t : Val} (h : Derived G L e t) (hs : ∀ c ∈ L, c ∈ L') :
    Derived G L' e t := by
  induction h with
  | self h => exact .self h
  | internal t h => exact .internal t (hs _ h)
  | annotated t v t' _ h ih => exact .annotated t v t' ih (hs _ h)

/-- `WithMeta` returns a twirp error. -/
def MetaLaw (G : GoTypes) (tr : List Event) : Prop :=
  ∀ c ∈ callsOf g!"twirp.WithMeta" tr, ∀ e, c.result = .ok [e] → G.twirpError e = true

/-- The caller gets the results of the implementation, except that the error is a twirp error made of the
original one, last annotated with the JSON of the first request argument `q`. -/
def Annotated (G : GoTypes) (q : Val) (init : List Val) (e : Val) (tr : List Event) (o : Outcome) : Prop :=
  ∃ e' twerr json x L, o = .ret (init ++ [e']) ∧ G.twirpError e' = true ∧
    seen tr = L ++ [.lib ⟨g!"json.Marshal", [q], .ok [json, x]⟩,
      .lib ⟨g!"twirp.WithMeta", [twerr, .str g!"request", json], .ok [e']⟩] ∧
    Derived G (seen tr) e twerr

/-- The full claim of C58: every error is returned as a twirp error. -/
def C58_full : Prop := ∀ (G : GoTypes) (iface : Str) (base : Val) (m : Method) (recv : Str × Val)
  (args : List Val) (tr : List Event) (o : Outcome), Callable m recv [g!"injectRequestDataToError"] args →
  m.returnsError = true → ((twirpErrorDecorator G iface base).call G m recv args).Run tr o → LibsReturn tr →
  MetaLaw G tr → ∀ init e, implCalls tr = [⟨base, m.name, args, .ok (init ++ [e])⟩] → e.isNil = false →
  ∃ e', o = .ret (init ++ [e']) ∧ G.twirpError e' = true

/-- `Ping(ctx context.Context) error`. -/
def ping : Method :=
  ⟨[], [], g!"Ping", [⟨[], [], g!"ctx", g!"context.Context", false⟩], [⟨[], [], g!"err", g!"error", false⟩],
    true, true⟩

theorem ping_callable (idents : List Str) (c : Val)
    (h : ∀ x ∈ idents, x ∉ [g!"_d", g!"ctx", g!"err"]) : Callable ping (g!"_d", .nil) idents [c] :=
  ⟨⟨by decide, fun _ => ⟨[], _, rfl, rfl, rfl⟩, fun _ => ⟨_, _, rfl, rfl⟩⟩, by refine ⟨by decide, by decide, rfl⟩, h⟩

/-- C58 does not hold: a method without a request argument returns its errors as they are. -/
theorem C58_full_false : ¬ C58_full := by
  intro h
  obtain ⟨e', ho, ht⟩ := h demoTypes g!"I" (.obj 0) ping (g!"_d", .nil) [.obj 1]
    [⟨.impl (.obj 0) g!"Ping" [.obj 1] 1, Except.ok ⟨[.obj 9], rfl⟩⟩] (.ret [.obj 9])
    (ping_callable _ _ (by decide)) rfl ⟨_, _, rfl, rfl, rfl⟩ (by simp [LibsReturn, libCalls])
    (by simp [MetaLaw, callsOf, libCalls]) [] (.obj 9) rfl rfl
  injection ho with ho
  simp at ho
  subst ho
  cases ht

theorem annotateAll_spec {G : GoTypes} {e : Val} (he : e.isNil = false) (q : Val) :
    ∀ {qs : List Val} {L : List Seen} {e' : Val}, AnnotateAll G e (q :: qs) L e' →
      (∀ c, .lib c ∈ L → c.fn = g!"twirp.WithMeta" → ∀ v, c.result = .ok [v] → G.twirpError v = true) →
      G.twirpError e' = true ∧ ∃ twerr json x L', L = L' ++ [.lib ⟨g!"json.Marshal", [q], .ok [json, x]⟩,
        .lib ⟨g!"twirp.WithMeta", [twerr, .str g!"request", json], .ok [e']⟩] ∧ Derived G L e twerr := by
  intro qs
  induction qs generalizing q with
  | nil =>
    rintro L e' ⟨e1, L1, L2, ⟨rfl, rfl⟩, hann, rfl⟩ hlaw
    rw [Annotate, if_neg (by simp [he])] at hann
    obtain ⟨twerr, json, x, ⟨ht, rfl, rfl⟩ | ⟨ht, rfl⟩⟩ := hann
    · refine ⟨hlaw ⟨g!"twirp.WithMeta", [twerr, .str g!"request", json], .ok [e']⟩ (by simp) rfl e' rfl, twerr,
        json, x, [], rfl, .self ht⟩
    · refine ⟨hlaw ⟨g!"twirp.WithMeta", [twerr, .str g!"request", json], .ok [e']⟩ (by simp) rfl e' rfl, twerr,
        json, x, [_], rfl, .internal _ (by simp)⟩
  | cons q1 qs ih =>
    rintro L e' ⟨e1, L1, L2, hall, hann, rfl⟩ hlaw
    obtain ⟨ht1, twerr1, json1, x1, L', hL1, hd⟩ := ih q1 hall
      (fun c hc => hlaw c (List.mem_append_left _ hc))
    have hn1 : e1.isNil = false := by
      cases hnil : e1.isNil with
      | false => rfl
      | true =>
        rw [Val.eq_nil_of_isNil hnil, G.twirpError_nil] at ht1
        cases ht1
    rw [Annotate, if_neg (by simp [hn1])] at hann
    obtain ⟨twerr, json, x, ⟨_, rfl, rfl⟩ | ⟨ht, _⟩⟩ := hann
    · refine ⟨hlaw ⟨g!"twirp.WithMeta", [twerr, .str g!"request", json], .ok [e']⟩ (by simp) rfl e' rfl, twerr,
        json, x, L1, rfl, ?_⟩
      exact .annotated twerr1 json1 twerr (hd.mono fun c hc => List.mem_append_left _ hc)
        (by rw [hL1]; simp)
    · rw [ht1] at ht; cases ht

theorem annotateAll_libs {G : GoTypes} {e : Val} : ∀ {qs : List Val} {L : List Seen} {e' : Val},
    AnnotateAll G e qs L e' → NoImpl L ∧ (e.isNil = true → L = [] ∧ e' = e) := by
  intro qs
  induction qs with
  | nil => rintro L e' ⟨rfl, rfl⟩; exact ⟨rfl, fun _ => ⟨rfl, rfl⟩⟩
  | cons q qs ih =>
    rintro L e' ⟨e1, L1, L2, hall, hann, rfl⟩
    obtain ⟨hn, hnil⟩ := ih hall
    unfold Annotate at hann
    constructor
    · refine noImpl_append hn ?_
      split at hann
      · rw [hann.1]; rfl
      · obtain ⟨_, _, _, ⟨_, _, rfl⟩ | ⟨_, rfl⟩⟩ := hann <;> rfl
    · intro he
      obtain ⟨h1, h2⟩ := hnil he
      rw [h2, if_pos he] at hann
      exact ⟨by rw [h1, hann.1]; rfl, hann.2⟩

/-- **C58** (partial) If the call did not fail the caller gets what the implementation returned; otherwise
the error is replaced by a twirp error, annotated last with the JSON of the first request argument.  All
other results are unchanged.  What is missing: methods without a request argument (see `C58_full_false`)
or with a parameter called `injectRequestDataToError`; an error of `json.Marshal` is ignored. -/
theorem C58_twirp_error_partial (G : GoTypes) (iface : Str) (base : Val) (m : Method) (recv : Str × Val)
    (args : List Val) (tr : List Event) (o : Outcome) (q : Val) (qs : List Val)
    (h : Callable m recv [g!"injectRequestDataToError"] args) (hret : m.returnsError = true)
    (hq : requestArgs m args = q :: qs) (hr : ((twirpErrorDecorator G iface base).call G m recv args).Run tr o)
    (hl : LibsReturn tr) (hlaw : MetaLaw G tr) :
    ∃ res, implCalls tr = [⟨base, m.name, args, res⟩] ∧
      (¬ Failed m res → o = passedOn res ∧ libCalls tr = []) ∧
      (∀ init e, res = .ok (init ++ [e]) → e.isNil = false → Annotated G q init e tr o) := by
  rcases twirpError_runs G h hret tr o hr hl with ⟨ws, e, e', L, ho, hs, hann⟩ | ⟨v, ho, hs⟩
  · have hlaw' : ∀ c, .lib c ∈ L → c.fn = g!"twirp.WithMeta" → ∀ v, c.result = .ok [v] → G.twirpError v = true := by
      intro c hc hfn
      refine hlaw c ?_
      rw [← hfn]
      exact callsOf_of_seen (by rw [hs]; exact List.mem_cons_of_mem _ hc)
    obtain ⟨hno, hnil⟩ := annotateAll_libs hann
    refine ⟨.ok (ws ++ [e]), ?_, ?_, ?_⟩
    · unfold NoImpl at hno
      rw [implCalls_of_seen, hs]
      simp [hno]
    · intro hf
      have he : e.isNil = true := by
        cases he : e.isNil with
        | true => rfl
        | false => exact absurd ⟨hret, _, e, rfl, by simp, he⟩ hf
      obtain ⟨rfl, rfl⟩ := hnil he
      refine ⟨ho, ?_⟩
      rw [libCalls_of_seen, hs]; rfl
    · intro init e0 h0 he0
      have h0' : ws = init ∧ e = e0 := by
        have := Except.ok.inj h0
        have h1 := List.append_inj_left' this rfl
        have h2 := List.append_inj_right' this rfl
        exact ⟨h1, by simpa using h2⟩
      obtain ⟨rfl, rfl⟩ := h0'
      rw [hq] at hann
      obtain ⟨ht, twerr, json, x, L', hL, hd⟩ := annotateAll_spec he0 q hann hlaw'
      refine ⟨e', twerr, json, x, .impl ⟨base, m.name, args, .ok (ws ++ [e])⟩ :: L', ho, ht, by rw [hs, hL]; rfl, ?_⟩
      exact hd.mono fun c hc => by rw [hs]; exact List.mem_cons_of_mem _ hc
  · refine ⟨.error v, by rw [implCalls_of_seen, hs]; rfl, fun _ => ⟨ho, by rw [libCalls_of_seen, hs]; rfl⟩, ?_⟩
    intro init e h0
    cases h0

/-- A failing call of `Find` through twirp_error. -/
example : Annotated demoTypes (.int 5) [.str []] (.obj 9)
    [⟨.impl (.obj 0) g!"Find" [.obj 1, .int 5] 2, Except.ok ⟨[.str [], .obj 9], rfl⟩⟩,
      ⟨.lib g!"twirp.InternalErrorWith" [.obj 9] 1, Except.ok ⟨[.slice []], rfl⟩⟩,
      ⟨.lib g!"json.Marshal" [.int 5] 2, Except.ok ⟨[.str g!"5", .nil], rfl⟩⟩,
      ⟨.lib g!"twirp.WithMeta" [.slice [], .str g!"request", .str g!"5"] 1, Except.ok ⟨[.slice [.int 5]], rfl⟩⟩]
    (.ret [.str [], .slice [.int 5]]) := by
  obtain ⟨res, h1, _, h3⟩ := C58_twirp_error_partial demoTypes g!"Finder" (.obj 0) find (g!"_d", .nil)
    [.obj 1, .int 5]
    [⟨.impl (.obj 0) g!"Find" [.obj 1, .int 5] 2, Except.ok ⟨[.str [], .obj 9], rfl⟩⟩,
      ⟨.lib g!"twirp.InternalErrorWith" [.obj 9] 1, Except.ok ⟨[.slice []], rfl⟩⟩,
      ⟨.lib g!"json.Marshal" [.int 5] 2, Except.ok ⟨[.str g!"5", .nil], rfl⟩⟩,
      ⟨.lib g!"twirp.WithMeta" [.slice [], .str g!"request", .str g!"5"] 1, Except.ok ⟨[.slice [.int 5]], rfl⟩⟩]
    (.ret [.str [], .slice [.int 5]]) (.int 5) [] (find_callable _ _ _ (by decide)) rfl rfl
    ⟨_, _, rfl, _, _, rfl, _, _, rfl, _, _, rfl, rfl, rfl⟩ (by simp [LibsReturn, libCalls, plain])
    (by simp [MetaLaw, callsOf, libCalls, plain, demoTypes])
  have : res = .ok ([.str []] ++ [.obj 9]) := by
    simp only [implCalls, List.cons.injEq, ImplCall.mk.injEq, plain] at h1
    exact h1.1.2.2.2.symm
  exact h3 _ _ this rfl

/-! ## C54 -/

/-- What the documentation of `context.WithTimeout` promises about the deadlines of contexts, for the
calls of a run that happened at time `now`. -/
def TimeoutLaw (deadline : Val → Option Int) (now : Int) (tr : List Event) : Prop :=
  ∀ c ∈ callsOf g!"context.WithTimeout" tr, ∀ ctx t ctx' cancel, c.args = [ctx, .int t] →
    c.result = .ok [ctx', cancel] → ∃ d', deadline ctx' = some d' ∧ d' ≤ now + t ∧
      ∀ d, deadline ctx = some d → d' ≤ d

/-- The implementation got a context that ends in time and is cancelled afterwards; everything else is
passed on. -/
def Bounded (base : Val) (m : Method) (deadline : Val → Option Int) (now t : Int) (args : List Val)
    (tr : List Event) (o : Outcome) : Prop :=
  ∃ ctx rest ctx' cancel res d', args = ctx :: rest ∧ o = passedOn res ∧
    seen tr = [.lib ⟨g!"context.WithTimeout", [ctx, .int t], .ok [ctx', cancel]⟩,
      .impl ⟨base, m.name, ctx' :: rest, res⟩, .lib ⟨g!"cancel", [cancel], .ok []⟩] ∧
    deadline ctx' = some d' ∧ d' ≤ now + t ∧ ∀ d, deadline ctx = some d → d' ≤ d

/-- The full claim of C54. -/
def C54_full : Prop := ∀ (G : GoTypes) (iface : Str) (base : Val) (config : Str → Int) (m : Method)
  (recv : Str × Val) (args : List Val) (tr : List Event) (o : Outcome) (deadline : Val → Option Int) (now : Int),
  MethodOk m → m.WellDeclared recv args → m.acceptsContext = true →
  ((timeoutDecorator iface base config).call G m recv args).Run tr o → LibsReturn tr → TimeoutLaw deadline now tr →
  (config m.name > 0 → Bounded base m deadline now (config m.name) args tr o) ∧
  (config m.name ≤ 0 → Transparent base m args tr o)

/-- `Run(ctx context.Context, cancelFunc func()) error`. -/
def runCancel : Method :=
  ⟨[], [], g!"Run", [⟨[], [], g!"ctx", g!"context.Context", false⟩, ⟨[], [], g!"cancelFunc", g!"func()", false⟩],
    [⟨[], [], g!"err", g!"error", false⟩], true, true⟩

/-- C54 does not hold: a method with a parameter called `cancelFunc` does not compile. -/
theorem C54_full_false : ¬ C54_full := by
  intro h
  obtain ⟨_, h2⟩ := h demoTypes g!"I" (.obj 0) (fun _ => 0) runCancel (g!"_d", .nil) [.obj 1, .obj 2] [] .stuck
    (fun _ => none) 0 ⟨by decide, fun _ => ⟨[], _, rfl, rfl, rfl⟩, fun _ => ⟨_, _, rfl, rfl⟩⟩ (by decide) rfl
    ⟨rfl, rfl⟩ (by simp) (by simp [TimeoutLaw, callsOf, libCalls])
  obtain ⟨res, hc, _⟩ := h2 (Int.le_refl _)
  cases hc

/-- **C54** (partial) A method that accepts a context calls the implementation exactly once; with a positive
timeout the context has a deadline not later than `now + timeout` and not later than that of the caller and
is cancelled afterwards (also after a panic); otherwise all arguments are unchanged.  The results are passed
on.  What is missing: methods with a parameter or result called `cancelFunc` or `context`. -/
theorem C54_timeout_partial (G : GoTypes) (iface : Str) (base : Val) (config : Str → Int) (m : Method)
    (recv : Str × Val) (args : List Val) (tr : List Event) (o : Outcome) (deadline : Val → Option Int) (now : Int)
    (h : Callable m recv [g!"cancelFunc", g!"context"] args) (hc : m.acceptsContext = true)
    (hr : ((timeoutDecorator iface base config).call G m recv args).Run tr o) (hl : LibsReturn tr)
    (hlaw : TimeoutLaw deadline now tr) :
    (config m.name > 0 → Bounded base m deadline now (config m.name) args tr o) ∧
    (config m.name ≤ 0 → Transparent base m args tr o ∧ libCalls tr = []) := by
  have := timeout_runs G (iface := iface) (config := config) h hc tr o hr hl
  split at this
  · rename_i hpos
    refine ⟨fun _ => ?_, fun hle => absurd hle (by omega)⟩
    obtain ⟨ctx, rest, ctx', cancel, res, ha, ho, hs⟩ := this
    obtain ⟨d', h1, h2, h3⟩ := hlaw ⟨g!"context.WithTimeout", [ctx, .int (config m.name)], .ok [ctx', cancel]⟩
      (callsOf_of_seen (c := ⟨g!"context.WithTimeout", [ctx, .int (config m.name)], .ok [ctx', cancel]⟩)
        (by rw [hs]; simp)) ctx (config m.name) ctx' cancel rfl rfl
    exact ⟨ctx, rest, ctx', cancel, res, d', ha, ho, hs, h1, h2, h3⟩
  · rename_i hpos
    refine ⟨fun hp => absurd hp hpos, fun _ => ?_⟩
    obtain ⟨res, ho, hs⟩ := this
    exact ⟨transparent_of_seen (L1 := []) (L2 := []) hs rfl rfl ho, by rw [libCalls_of_seen, hs]; rfl⟩

/-- **C54** Methods without a context are those of the implementation. -/
theorem C54_other (G : GoTypes) (iface : Str) (base : Val) (config : Str → Int) (m : Method)
    (recv : Str × Val) (args : List Val) (tr : List Event) (o : Outcome) (hc : m.acceptsContext = false)
    (hr : ((timeoutDecorator iface base config).call G m recv args).Run tr o) (hl : LibsReturn tr) :
    Transparent base m args tr o := by
  obtain ⟨res, ho, hs⟩ := promoted_runs G (timeoutDecorator iface base config) (recv := recv) (args := args)
    (by simp [timeoutDecorator, hc]) rfl tr o hr hl
  exact transparent_of_seen (L1 := []) (L2 := []) hs rfl rfl ho

/-- `Find` with a timeout of 10 at time 100 for a caller whose context has no deadline; the
implementation panics. -/
example : Bounded (.obj 0) find (fun v => match v with | .obj 8 => some 110 | _ => none) 100 10 [.obj 1, .int 5]
    [⟨.lib g!"context.WithTimeout" [.obj 1, .int 10] 2, Except.ok ⟨[.obj 8, .obj 7], rfl⟩⟩,
      ⟨.impl (.obj 0) g!"Find" [.obj 8, .int 5] 2, Except.error (.int 3)⟩,
      ⟨.lib g!"cancel" [.obj 7] 0, Except.ok ⟨[], rfl⟩⟩] (.panic (.int 3)) :=
  (C54_timeout_partial demoTypes g!"Finder" (.obj 0) (fun _ => 10) find (g!"_d", .nil) [.obj 1, .int 5]
    [⟨.lib g!"context.WithTimeout" [.obj 1, .int 10] 2, Except.ok ⟨[.obj 8, .obj 7], rfl⟩⟩,
      ⟨.impl (.obj 0) g!"Find" [.obj 8, .int 5] 2, Except.error (.int 3)⟩,
      ⟨.lib g!"cancel" [.obj 7] 0, Except.ok ⟨[], rfl⟩⟩] (.panic (.int 3))
    (fun v => match v with | .obj 8 => some 110 | _ => none) 100 (find_callable _ _ _ (by decide)) rfl
    ⟨_, _, rfl, _, _, rfl, _, _, rfl, rfl, rfl⟩ (by simp [LibsReturn, libCalls, plain])
    (by
      intro c hc ctx t ctx' cancel h1 h2
      simp only [callsOf, libCalls, plain, List.filter_cons, decide_true, if_true] at hc
      simp at hc
      subst hc
      simp at h1 h2
      obtain ⟨rfl, rfl⟩ := h1
      obtain ⟨rfl, rfl⟩ := h2
      exact ⟨110, rfl, by decide, by intro d hd; cases hd⟩)).1 (by show (10 : Int) > 0; decide)

end Gowrap.Props
