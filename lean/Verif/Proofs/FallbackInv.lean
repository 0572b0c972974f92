import Verif.Proofs.Fallback
import Verif.Spec.Fallback
/-!
# Invariants of the fallback decorator
-/

namespace Gowrap

open Spec

theorem callsOf_append (fn : Str) (a b : List Event) : callsOf fn (a ++ b) = callsOf fn a ++ callsOf fn b := by
  simp [callsOf, libCalls_append]

theorem callsOf_lib {fn f : Str} {args : List Val} {n : Nat} {r : Except Val (Vals n)} :
    callsOf fn [⟨.lib f args n, r⟩] = if f = fn then [⟨f, args, plain r⟩] else [] := by
  simp only [callsOf, libCalls]
  by_cases h : f = fn
  · simp [h]
  · simp [h]

/-- The number of times the method has sent to `_next`. -/
def sendsOf (E : List Event) : Nat := E.countP fun e => match e.1 with
  | .sendNext => true
  | _ => false

theorem failedVals_eq (m : Method) (vs : List Val) : failedVals m vs = (m.returnsError && !(lastOf vs).isNil) := by
  rw [failedVals, lastOf]
  cases vs.getLast? with
  | none => rfl
  | some e => rfl

namespace Fallback

variable {G : GoTypes} {m : Method} {recv : Str × Val} {args : List Val} {d : Fallback} {h : Setup G m recv args}

/-! ## Library functions -/

theorem libs_withCancel {s s' : FState} {r : Except Val (List Val)} : s.libs g!"context.WithCancel" r s' ↔
    (∃ c f, r = .ok [c, f] ∧ s' = { s with derived := some c }) ∨ ((∃ v, r = .error v) ∧ s' = s) := by
  rw [FState.libs, if_pos rfl]

theorem libs_cancel {s s' : FState} {r : Except Val (List Val)} : s.libs g!"cancel" r s' ↔
    r = .ok [] ∧ s' = { s with cancelled := true } := by
  rw [FState.libs, if_neg (by decide), if_pos rfl]

theorem libs_err {s s' : FState} {r : Except Val (List Val)} {fn : Str} (hf : fn = g!"fmt.Errorf" ∨ fn = g!"errors.New") :
    s.libs fn r s' ↔ (∃ e, r = .ok [e] ∧ e.isNil = false) ∧ s' = s := by
  rw [FState.libs, if_neg (by rcases hf with rfl | rfl <;> decide), if_neg (by rcases hf with rfl | rfl <;> decide), if_pos hf]

theorem libs_other {s s' : FState} {r : Except Val (List Val)} {fn : Str}
    (hf : fn ∈ [g!"err.Error", g!"strings.Join", g!"ctx.Err"]) : s.libs fn r s' ↔ (∃ vs, r = .ok vs) ∧ s' = s := by
  simp only [List.mem_cons, List.not_mem_nil, or_false] at hf
  rw [FState.libs, if_neg (by rcases hf with rfl | rfl | rfl <;> decide),
    if_neg (by rcases hf with rfl | rfl | rfl <;> decide), if_neg (by rcases hf with rfl | rfl | rfl <;> decide)]

/-! ## What goroutines have done -/

/-- A goroutine that has done `evs` sends `vs`. -/
inductive Just (m : Method) (impl : Val) (a : List Val) : List Event → List Val → Prop
  | ok (vs : Vals m.results.length) (hv : failedVals m vs.1 = false) :
      Just m impl a [⟨.impl impl m.name a m.results.length, Except.ok vs⟩] vs.1
  | failed (vs : Vals m.results.length) (es : Vals 1) (hv : failedVals m vs.1 = true)
      (he : (es.1.headD .nil).isNil = false) :
      Just m impl a [⟨.impl impl m.name a m.results.length, Except.ok vs⟩,
        ⟨.lib g!"fmt.Errorf" [.str g!"%T: %v", impl, lastOf vs.1] 1, Except.ok es⟩] (vs.1.dropLast ++ [es.1.headD .nil])

theorem results_pos (hk : MethodOk m) (hr : m.returnsError = true) : 0 < m.results.length := by
  obtain ⟨init, last, hl, _⟩ := hk.err hr
  rw [hl]
  simp

theorem Just.length {impl : Val} {a : List Val} {evs : List Event} {vs : List Val} (hk : MethodOk m)
    (h : Just m impl a evs vs) : vs.length = m.results.length := by
  cases h with
  | ok vs hv => exact vs.2
  | failed vs es hv he =>
    have hr : m.returnsError = true := by
      rw [failedVals_eq] at hv
      simp at hv
      exact hv.1
    have := results_pos hk hr
    have := vs.2
    simp
    omega

theorem Just.impl {impl : Val} {a : List Val} {evs : List Event} {vs : List Val} (h : Just m impl a evs vs) :
    ∃ vs', implCalls evs = [⟨impl, m.name, a, .ok vs'⟩] ∧ failedVals m vs' = failedVals m vs ∧
      (failedVals m vs = false → vs' = vs) := by
  cases h with
  | ok vs hv => exact ⟨vs.1, rfl, rfl, fun _ => rfl⟩
  | failed vs es hv he =>
    refine ⟨vs.1, rfl, ?_, ?_⟩
    · have hr : m.returnsError = true := by
        rw [failedVals_eq] at hv
        simp at hv
        exact hv.1
      rw [hv, failedVals_eq, hr]
      generalize es.1.headD .nil = e at he
      simp [lastOf, he]
    · intro hf
      have hr : m.returnsError = true := by
        rw [failedVals_eq] at hv
        simp at hv
        exact hv.1
      rw [failedVals_eq, hr] at hf
      generalize es.1.headD .nil = e at he hf
      simp [lastOf, he] at hf

/-- What the goroutine for `impl` has done at a location; `sent vs` says that the method has received `vs`
from it. -/
def CLoc.Inv (m : Method) (impl : Val) (a : List Val) (s : FState) (evs : List Event) (sent : List Val → Prop) : CLoc → Prop
  | .calling impl' a' => impl' = impl ∧ a' = a ∧ evs = []
  | .wrapping impl' a' vs => impl' = impl ∧ a' = a ∧ failedVals m vs = true ∧ ∃ vs' : Vals m.results.length, vs'.1 = vs ∧
      evs = [⟨.impl impl m.name a m.results.length, Except.ok vs'⟩]
  | .sending a' vs => a' = a ∧ Just m impl a evs vs
  | .over o => (∃ v, o = .panic v ∧ evs = [⟨.impl impl m.name a m.results.length, Except.error v⟩]) ∨
      (o = .ret [] ∧ ∃ evs' vs, Just m impl a evs' vs ∧ ((evs = evs' ∧ sent vs) ∨
        (m.acceptsContext = true ∧ evs = evs' ++ [⟨.sendOrDone (a.headD .nil) vs, .done⟩] ∧
          (s.callerDone = true ∨ s.cancelled = true)) ∨
        (m.acceptsContext = false ∧ evs = evs' ++ [⟨.sendOrSkip vs, false⟩])))

theorem CLoc.Inv.mono {impl : Val} {a : List Val} {s s' : FState} {evs : List Event} {P Q : List Val → Prop} {y : CLoc}
    (h : y.Inv m impl a s evs P) (h1 : s.callerDone = true → s'.callerDone = true)
    (h2 : s.cancelled = true → s'.cancelled = true) (h3 : ∀ vs, P vs → Q vs) : y.Inv m impl a s' evs Q := by
  cases y with
  | calling _ _ => exact h
  | wrapping _ _ _ => exact h
  | sending _ _ => exact h
  | over o =>
    rcases h with h | ⟨ho, evs', vs, hj, h⟩
    · exact Or.inl h
    · refine Or.inr ⟨ho, evs', vs, hj, ?_⟩
      rcases h with h | h | h
      · exact Or.inl ⟨h.1, h3 _ h.2⟩
      · exact Or.inr (Or.inl ⟨h.1, h.2.1, h.2.2.imp h1 h2⟩)
      · exact Or.inr (Or.inr h)

/-- A step of a goroutine by itself. -/
theorem CLoc.Inv.step {impl : Val} {a : List Val} {s s' : FState} {evs : List Event} {P : List Val → Prop} {y y' : CLoc}
    {e : Event} (h : y.Inv m impl a s evs P) (hs : CLoc.Step m y e y') (hh : fallbackHandler s e s') :
    y'.Inv m impl a s' (evs ++ [e]) P ∧ s' = s := by
  cases hs with
  | ret impl' a' vs =>
    obtain ⟨rfl, rfl, rfl⟩ := h
    refine ⟨?_, hh⟩
    rw [CLoc.after, ← failedVals_eq]
    cases hf : failedVals m vs.1 with
    | true => exact ⟨rfl, rfl, hf, vs, rfl, rfl⟩
    | false => exact ⟨rfl, .ok vs hf⟩
  | panic impl' a' v =>
    obtain ⟨rfl, rfl, rfl⟩ := h
    exact ⟨Or.inl ⟨v, rfl, rfl⟩, hh⟩
  | wrap impl' a' vs es =>
    obtain ⟨rfl, rfl, hf, vs', rfl, rfl⟩ := h
    obtain ⟨⟨e, he, hn⟩, rfl⟩ := (libs_err (Or.inl rfl)).1 hh
    refine ⟨⟨rfl, .failed vs' es hf ?_⟩, rfl⟩
    rw [Except.ok.inj he]
    exact hn
  | wrapPanic impl' a' vs v =>
    obtain ⟨⟨e, he, hn⟩, rfl⟩ := (libs_err (Or.inl rfl)).1 hh
    cases he
  | send a' vs hc r =>
    obtain ⟨rfl, hj⟩ := h
    cases r with
    | done =>
      obtain ⟨hd, rfl⟩ := hh
      exact ⟨Or.inr ⟨rfl, evs, vs, hj, Or.inr (Or.inl ⟨hc, rfl, hd.imp id (·.1)⟩)⟩, rfl⟩
    | other => exact hh.elim
  | sendOrSkip a' vs hc r =>
    obtain ⟨rfl, hj⟩ := h
    cases r with
    | false =>
      obtain ⟨_, rfl⟩ := hh
      exact ⟨Or.inr ⟨rfl, evs, vs, hj, Or.inr (Or.inr ⟨hc, rfl⟩)⟩, rfl⟩
    | true => exact hh.elim

/-- A goroutine that sends its result. -/
theorem sends_loc {w : Bool} {y y' : CLoc} {vs : List Val} (h' : (locs d h).Sends w y vs y') :
    (∃ a, y = .sending a vs) ∧ y' = .over (.ret []) := by
  rcases h' with ⟨ctx, h'⟩ | ⟨_, h'⟩
  · cases h' with
    | send a vs hc r => exact ⟨⟨a, rfl⟩, rfl⟩
  · cases h' with
    | sendOrSkip a vs hc r => exact ⟨⟨a, rfl⟩, rfl⟩

/-! ## What the method has done -/

/-- The arguments of implementations. -/
def argsOf (m : Method) (args : List Val) (s : FState) : List Val :=
  if m.acceptsContext then s.derived.getD .nil :: args.tail else args

/-- The context was derived from that of the caller. -/
def DInv (m : Method) (args : List Val) (E : List Event) (s : FState) : Prop := m.acceptsContext = true →
  ∃ c f, s.derived = some c ∧ callsOf g!"context.WithCancel" E = [⟨g!"context.WithCancel", [args.headD .nil], .ok [c, f]⟩]

/-- The errors received so far and their texts. -/
structure Got (m : Method) (E : List Event) (F : List (Nat × List Val)) (errs : List Val) : Prop where
  failed : ∀ r ∈ F, failedVals m r.2 = true
  len : F.length = errs.length
  asked : (callsOf g!"err.Error" E).map (·.args) = F.map fun r => [r.2.getLast?.getD .nil]
  told : (callsOf g!"err.Error" E).map (·.result) = errs.map fun s => .ok [s]

/-- Why a call ends in this way. -/
inductive Why (d : Fallback) (G : GoTypes) (m : Method) (args : List Val) (E : List Event) (F : List (Nat × List Val))
    (s : FState) : Outcome → Prop
  | success (i : Nat) (vs : List Val) (hi : (i, vs) ∈ F) (hs : failedVals m vs = false) : Why d G m args E F s (.ret vs)
  | allFailed (errs : List Val) (t e : Val) (hr : m.returnsError = true) (hg : Got m E F errs)
      (hn : errs.length = d.impls.length) (hj : ⟨g!"strings.Join", [.slice errs, .str g!";"], .ok [t]⟩ ∈ libCalls E)
      (he : ⟨g!"errors.New", [t], .ok [e]⟩ ∈ libCalls E) (hnil : e.isNil = false) :
      Why d G m args E F s (.ret (failing G m e))
  | done (errs : List Val) (ctx ce t e : Val) (hr : m.returnsError = true) (hg : Got m E F errs)
      (hd : s.callerDone = true) (hc : ⟨g!"ctx.Err", [ctx], .ok [ce]⟩ ∈ libCalls E)
      (hj : ⟨g!"strings.Join", [.slice errs, .str g!";"], .ok [t]⟩ ∈ libCalls E)
      (he : ⟨g!"fmt.Errorf", [.str g!"%w: %s", ce, t], .ok [e]⟩ ∈ libCalls E) (hnil : e.isNil = false) :
      Why d G m args E F s (.ret (failing G m e))
  | zeros (hr : m.returnsError = false) (hc : m.acceptsContext = true) (hd : s.callerDone = true) :
      Why d G m args E F s (.ret (zeroResults G m))
  | interval (v : Val) (hi : d.interval ≤ 0) : Why d G m args E F s (.panic v)
  | context (v : Val) (hc : ⟨g!"context.WithCancel", [args.headD .nil], .error v⟩ ∈ libCalls E) : Why d G m args E F s (.panic v)

/-- The number of failures in `F`. -/
def fails (m : Method) (F : List (Nat × List Val)) : Nat := F.countP fun r => failedVals m r.2

/-- Nothing was started yet. -/
structure Early (E : List Event) (F : List (Nat × List Val)) (s : FState) (started : Bool) : Prop where
  started : started = false
  recv : F = []
  live : s.cancelled = false
  sends : sendsOf E = 0
  texts : callsOf g!"err.Error" E = []

/-- The launcher was started and the context is not cancelled. -/
structure Late (m : Method) (args : List Val) (E : List Event) (s : FState) (started : Bool) : Prop where
  started : started = true
  live : s.cancelled = false
  derived : DInv m args E s

/-- What the method has done at a location: its operations, the results it received, whether the launcher
was started. -/
def MLoc.Inv (d : Fallback) (G : GoTypes) (args : List Val) (E : List Event) (F : List (Nat × List Val)) (s : FState)
    (started : Bool) : MLoc m → Prop
  | .ticker => Early E F s started ∧ callsOf g!"context.WithCancel" E = []
  | .withCancel => Early E F s started ∧ m.acceptsContext = true ∧ callsOf g!"context.WithCancel" E = []
  | .launch g f => Early E F s started ∧ DInv m args E s ∧ g.a = argsOf m args s ∧ f.isSome = m.acceptsContext
  | .recv => Late m args E s started ∧ m.acceptsContext = false ∧ F = [] ∧ sendsOf E = 0
  | .select _ ctx fuel errs => Late m args E s started ∧ m.acceptsContext = true ∧ s.derived = some ctx ∧ Got m E F errs ∧
      fuel + errs.length = d.impls.length ∧ sendsOf E = errs.length ∧ (errs.length < d.impls.length ∨ d.impls.length = 0)
  | .sendNext _ ctx fuel errs e => Late m args E s started ∧ m.returnsError = true ∧ s.derived = some ctx ∧
      (∃ F0 r, F = F0 ++ [r] ∧ Got m E F0 errs ∧ failedVals m r.2 = true ∧ e = lastOf r.2) ∧ errs.length < d.impls.length ∧
      fuel + errs.length = d.impls.length ∧ sendsOf E = errs.length
  | .errText _ ctx fuel errs e => Late m args E s started ∧ m.returnsError = true ∧ s.derived = some ctx ∧
      (∃ F0 r, F = F0 ++ [r] ∧ Got m E F0 errs ∧ failedVals m r.2 = true ∧ e = lastOf r.2) ∧ errs.length < d.impls.length ∧
      fuel + errs.length = d.impls.length ∧ sendsOf E = errs.length + 1
  | .join _ errs => Late m args E s started ∧ m.returnsError = true ∧ Got m E F errs ∧ errs.length = d.impls.length ∧
      sendsOf E = errs.length
  | .mkErr _ t => Late m args E s started ∧ m.returnsError = true ∧ ∃ errs, Got m E F errs ∧ errs.length = d.impls.length ∧
      sendsOf E = errs.length ∧ ⟨g!"strings.Join", [.slice errs, .str g!";"], .ok [t]⟩ ∈ libCalls E
  | .ctxErr _ _ errs => Late m args E s started ∧ m.returnsError = true ∧ Got m E F errs ∧ s.callerDone = true ∧
      sendsOf E = errs.length
  | .joinDone _ errs ce => Late m args E s started ∧ m.returnsError = true ∧ Got m E F errs ∧ s.callerDone = true ∧
      sendsOf E = errs.length ∧ ∃ ctx, ⟨g!"ctx.Err", [ctx], .ok [ce]⟩ ∈ libCalls E
  | .errorf _ ce t => Late m args E s started ∧ m.returnsError = true ∧ s.callerDone = true ∧ ∃ errs, Got m E F errs ∧
      sendsOf E = errs.length ∧ (∃ ctx, ⟨g!"ctx.Err", [ctx], .ok [ce]⟩ ∈ libCalls E) ∧
      ⟨g!"strings.Join", [.slice errs, .str g!";"], .ok [t]⟩ ∈ libCalls E
  | .cancelling _ o => Late m args E s started ∧ m.acceptsContext = true ∧ Why d G m args E F s o ∧ sendsOf E = fails m F
  | .stopping o => Why d G m args E F s o ∧ (Early E F s started ∨
      started = true ∧ DInv m args E s ∧ sendsOf E = fails m F ∧ (m.acceptsContext = true → s.cancelled = true))
  | .over o => Why d G m args E F s o ∧ (Early E F s started ∨
      started = true ∧ DInv m args E s ∧ sendsOf E = fails m F ∧ (m.acceptsContext = true → s.cancelled = true))

/-- An operation that is not one of those which the invariant counts. -/
structure Plain (e : Event) : Prop where
  derive : callsOf g!"context.WithCancel" [e] = []
  text : callsOf g!"err.Error" [e] = []
  send : sendsOf [e] = 0

theorem plain_lib {f : Str} {args : List Val} {n : Nat} {r : Except Val (Vals n)}
    (h1 : f ≠ g!"context.WithCancel") (h2 : f ≠ g!"err.Error") : Plain ⟨.lib f args n, r⟩ where
  derive := by rw [callsOf_lib, if_neg h1]
  text := by rw [callsOf_lib, if_neg h2]
  send := rfl

theorem sendsOf_append (a b : List Event) : sendsOf (a ++ b) = sendsOf a + sendsOf b := List.countP_append

theorem Got.snoc {E : List Event} {F : List (Nat × List Val)} {errs : List Val} (hg : Got m E F errs) {e : Event}
    (ht : callsOf g!"err.Error" [e] = []) : Got m (E ++ [e]) F errs := by
  refine ⟨hg.failed, hg.len, ?_, ?_⟩
  · rw [callsOf_append, ht, List.append_nil, hg.asked]
  · rw [callsOf_append, ht, List.append_nil, hg.told]

theorem DInv.snoc {E : List Event} {s s' : FState} (hd : DInv m args E s) {e : Event}
    (ht : callsOf g!"context.WithCancel" [e] = []) (hs : s'.derived = s.derived) : DInv m args (E ++ [e]) s' := by
  intro hc
  obtain ⟨c, f, h1, h2⟩ := hd hc
  exact ⟨c, f, hs.trans h1, by rw [callsOf_append, ht, List.append_nil, h2]⟩

theorem Late.snoc {E : List Event} {s : FState} {b : Bool} (hl : Late m args E s b) {e : Event}
    (ht : callsOf g!"context.WithCancel" [e] = []) : Late m args (E ++ [e]) s b :=
  ⟨hl.started, hl.live, hl.derived.snoc ht rfl⟩

theorem Early.snoc {E : List Event} {F : List (Nat × List Val)} {s s' : FState} {b : Bool} (he : Early E F s b) {e : Event}
    (h1 : sendsOf [e] = 0) (h2 : callsOf g!"err.Error" [e] = []) (hs : s'.cancelled = s.cancelled) : Early (E ++ [e]) F s' b :=
  ⟨he.started, he.recv, hs.trans he.live, by rw [sendsOf_append, he.sends, h1], by rw [callsOf_append, he.texts, h2]; rfl⟩

theorem mem_libCalls_snoc {E : List Event} {c : LibCall} {e : Event} (hc : c ∈ libCalls E) : c ∈ libCalls (E ++ [e]) := by
  rw [libCalls_append]
  exact List.mem_append_left _ hc

theorem mem_libCalls_new {E : List Event} {f : Str} {args : List Val} {n : Nat} {r : Except Val (Vals n)} :
    ⟨f, args, plain r⟩ ∈ libCalls (E ++ [⟨.lib f args n, r⟩]) := by
  rw [libCalls_append]
  exact List.mem_append_right _ (by simp [libCalls])

theorem Why.snoc {E : List Event} {F : List (Nat × List Val)} {s s' : FState} {o : Outcome} (hw : Why d G m args E F s o)
    {e : Event} (ht : callsOf g!"err.Error" [e] = []) (hs : s.callerDone = true → s'.callerDone = true) :
    Why d G m args (E ++ [e]) F s' o := by
  cases hw with
  | success i vs hi hv => exact .success i vs hi hv
  | allFailed errs t e hr hg hn hj he hnil =>
    exact .allFailed errs t e hr (hg.snoc ht) hn (mem_libCalls_snoc hj) (mem_libCalls_snoc he) hnil
  | done errs ctx ce t e hr hg hd hc hj he hnil =>
    exact .done errs ctx ce t e hr (hg.snoc ht) (hs hd) (mem_libCalls_snoc hc) (mem_libCalls_snoc hj) (mem_libCalls_snoc he) hnil
  | zeros hr hc hd => exact .zeros hr hc (hs hd)
  | interval v hi => exact .interval v hi
  | context v hc => exact .context v (mem_libCalls_snoc hc)

theorem Why.mono {E : List Event} {F : List (Nat × List Val)} {s s' : FState} {o : Outcome} (hw : Why d G m args E F s o)
    (hs : s.callerDone = true → s'.callerDone = true) : Why d G m args E F s' o := by
  cases hw with
  | success i vs hi hv => exact .success i vs hi hv
  | allFailed errs t e hr hg hn hj he hnil => exact .allFailed errs t e hr hg hn hj he hnil
  | done errs ctx ce t e hr hg hd hc hj he hnil => exact .done errs ctx ce t e hr hg (hs hd) hc hj he hnil
  | zeros hr hc hd => exact .zeros hr hc (hs hd)
  | interval v hi => exact .interval v hi
  | context v hc => exact .context v hc

theorem Got.fails {E : List Event} {F : List (Nat × List Val)} {errs : List Val} (hg : Got m E F errs) :
    fails m F = errs.length := by
  rw [← hg.len]
  exact List.countP_eq_length.2 hg.failed

theorem vals_one {es : Vals 1} : es.1 = [es.1.headD .nil] := by
  obtain ⟨l, hl⟩ := es
  match l, hl with
  | [x], _ => rfl

/-- Steps of others. -/
theorem MLoc.Inv.mono {E : List Event} {F : List (Nat × List Val)} {s s' : FState} {b : Bool} {l : MLoc m}
    (hi : l.Inv d G args E F s b) (h1 : s.callerDone = true → s'.callerDone = true) (h2 : s'.cancelled = s.cancelled)
    (h3 : s'.derived = s.derived) : l.Inv d G args E F s' b := by
  have early : Early E F s b → Early E F s' b := fun he => ⟨he.started, he.recv, h2.trans he.live, he.sends, he.texts⟩
  have derived : DInv m args E s → DInv m args E s' := by
    intro hd hc
    rw [h3]
    exact hd hc
  have late : Late m args E s b → Late m args E s' b := fun hl => ⟨hl.started, h2.trans hl.live, derived hl.derived⟩
  have hargs : argsOf m args s' = argsOf m args s := by rw [argsOf, argsOf, h3]
  cases l with
  | ticker => exact ⟨early hi.1, hi.2⟩
  | withCancel => exact ⟨early hi.1, hi.2⟩
  | launch g f => exact ⟨early hi.1, derived hi.2.1, hi.2.2.1.trans hargs.symm, hi.2.2.2⟩
  | recv => exact ⟨late hi.1, hi.2⟩
  | select f ctx fuel errs => exact ⟨late hi.1, hi.2.1, h3.trans hi.2.2.1, hi.2.2.2⟩
  | sendNext f ctx fuel errs e => exact ⟨late hi.1, hi.2.1, h3.trans hi.2.2.1, hi.2.2.2⟩
  | errText f ctx fuel errs e => exact ⟨late hi.1, hi.2.1, h3.trans hi.2.2.1, hi.2.2.2⟩
  | join f errs => exact ⟨late hi.1, hi.2⟩
  | mkErr f t => exact ⟨late hi.1, hi.2⟩
  | ctxErr f ctx errs => exact ⟨late hi.1, hi.2.1, hi.2.2.1, h1 hi.2.2.2.1, hi.2.2.2.2⟩
  | joinDone f errs ce => exact ⟨late hi.1, hi.2.1, hi.2.2.1, h1 hi.2.2.2.1, hi.2.2.2.2⟩
  | errorf f ce t => exact ⟨late hi.1, hi.2.1, h1 hi.2.2.1, hi.2.2.2⟩
  | cancelling f o => exact ⟨late hi.1, hi.2.1, hi.2.2.1.mono h1, hi.2.2.2⟩
  | stopping o =>
    refine ⟨hi.1.mono h1, hi.2.imp early fun hx => ⟨hx.1, derived hx.2.1, hx.2.2.1, fun hc => h2.trans (hx.2.2.2 hc)⟩⟩
  | over o =>
    refine ⟨hi.1.mono h1, hi.2.imp early fun hx => ⟨hx.1, derived hx.2.1, hx.2.2.1, fun hc => h2.trans (hx.2.2.2 hc)⟩⟩

/-- Steps of the method. -/
theorem MLoc.Inv.step {E : List Event} {F : List (Nat × List Val)} {s s' : FState} {b : Bool} {l l' : MLoc m} {e : Event}
    (hi : l.Inv d G args E F s b) (hs : MLoc.Step d h l e l') (hh : fallbackHandler s e s') :
    l'.Inv d G args (E ++ [e]) F s' b ∧ s'.callerDone = s.callerDone ∧ s'.cap = s.cap ∧
      (b = true → s'.derived = s.derived) := by
  cases hs with
  | ticker hc =>
    rcases hh with ⟨_, _, rfl⟩ | ⟨_, ⟨v, hv⟩, _⟩
    · exact ⟨⟨hi.1.snoc rfl rfl rfl, hc, by rw [callsOf_append, hi.2]; rfl⟩, rfl, rfl, fun _ => rfl⟩
    · cases hv
  | tickerPlain hc =>
    rcases hh with ⟨_, _, rfl⟩ | ⟨_, ⟨v, hv⟩, _⟩
    · refine ⟨⟨hi.1.snoc rfl rfl rfl, fun hc' => ?_, ?_, ?_⟩, rfl, rfl, fun _ => rfl⟩
      · rw [hc] at hc'; cases hc'
      · rw [argsOf, if_neg (by rw [hc]; simp)]; rfl
      · rw [hc]; rfl
    · cases hv
  | tickerPanic v =>
    rcases hh with ⟨_, hv, _⟩ | ⟨hn, _, rfl⟩
    · cases hv
    · exact ⟨⟨.interval v hn, Or.inl (hi.1.snoc rfl rfl rfl)⟩, rfl, rfl, fun _ => rfl⟩
  | derive hc vs =>
    rcases libs_withCancel.1 hh with ⟨c, f, hv, rfl⟩ | ⟨⟨v, hv⟩, _⟩
    · have hv : vs.1 = [c, f] := Except.ok.inj hv
      refine ⟨⟨hi.1.snoc rfl (by rw [callsOf_lib]; rfl) rfl, fun _ => ⟨c, f, rfl, ?_⟩, ?_, ?_⟩, rfl, rfl, ?_⟩
      · rw [callsOf_append, hi.2.2, callsOf_lib, if_pos rfl, plain, hv]
        rfl
      · rw [argsOf, if_pos hc, hv]; rfl
      · rw [hc]; rfl
      · intro hb; rw [hi.1.started] at hb; cases hb
    · cases hv
  | deriveStuck hc vs => rw [hi.2.1] at hc; cases hc
  | derivePanic v =>
    rcases libs_withCancel.1 hh with ⟨c, f, hv, rfl⟩ | ⟨_, rfl⟩
    · cases hv
    · exact ⟨⟨.context v mem_libCalls_new, Or.inl (hi.1.snoc rfl (by rw [callsOf_lib]; rfl) rfl)⟩, rfl, rfl, fun _ => rfl⟩
  | go g f => exact hh.elim
  | goPlain g => exact hh.elim
  | recv vs => exact hh.elim
  | received f ctx fuel errs vs => exact hh.elim
  | done f ctx fuel errs =>
    obtain ⟨hd, rfl⟩ := hh
    obtain ⟨hl, hc, hx, hg, hn, hsd, _⟩ := hi
    have hdone : s.callerDone = true := by
      rcases hd with hd | ⟨hd, _⟩
      · exact hd
      · rw [hl.live] at hd; cases hd
    have hl' : Late m args (E ++ [⟨.recvOrDone ctx, none⟩]) { s with waiting := false } b :=
      ⟨hl.started, hl.live, hl.derived.snoc rfl rfl⟩
    refine ⟨?_, rfl, rfl, fun _ => rfl⟩
    rw [MLoc.done]
    by_cases hr : m.returnsError = true
    · rw [if_pos hr]
      exact ⟨hl', hr, hg.snoc rfl, hdone, by rw [sendsOf_append, hsd]; rfl⟩
    · rw [if_neg hr]
      exact ⟨hl', hc, .zeros (by simpa using hr) hc hdone, by rw [sendsOf_append, hsd, hg.fails]; rfl⟩
  | sendNext f ctx fuel errs e =>
    obtain ⟨_, rfl⟩ := hh
    obtain ⟨hl, hr, hx, ⟨F0, r, hF, hg, hf, he⟩, hlt, hn, hsd⟩ := hi
    exact ⟨⟨⟨hl.started, hl.live, hl.derived.snoc rfl rfl⟩, hr, hx, ⟨F0, r, hF, hg.snoc rfl, hf, he⟩, hlt, hn,
      by rw [sendsOf_append, hsd]; rfl⟩, rfl, rfl, fun _ => rfl⟩
  | errText f ctx fuel errs e ss =>
    obtain ⟨_, rfl⟩ := (libs_other (by simp)).1 hh
    obtain ⟨hl, hr, hx, ⟨F0, r, rfl, hg, hf, rfl⟩, hlt, hn, hsd⟩ := hi
    have hp : callsOf g!"context.WithCancel" [⟨.lib g!"err.Error" [lastOf r.2] 1, Except.ok ss⟩] = [] := by
      rw [callsOf_lib, if_neg (by decide)]
    have hg' : Got m (E ++ [⟨.lib g!"err.Error" [lastOf r.2] 1, Except.ok ss⟩]) (F0 ++ [r]) (errs ++ [ss.1.headD .nil]) := by
      refine ⟨?_, ?_, ?_, ?_⟩
      · intro r' hr'
        rcases List.mem_append.1 hr' with hr' | hr'
        · exact hg.failed r' hr'
        · rw [List.mem_singleton.1 hr']; exact hf
      · simp [hg.len]
      · rw [callsOf_append, callsOf_lib, if_pos rfl, List.map_append, List.map_append, hg.asked]; rfl
      · rw [callsOf_append, callsOf_lib, if_pos rfl, List.map_append, List.map_append, hg.told, plain]
        simp only [List.map_cons, List.map_nil]
        rw [← vals_one]
    have hs' : sendsOf (E ++ [⟨.lib g!"err.Error" [lastOf r.2] 1, Except.ok ss⟩]) = (errs ++ [ss.1.headD .nil]).length := by
      rw [sendsOf_append, hsd]; simp [sendsOf]
    refine ⟨?_, rfl, rfl, fun _ => rfl⟩
    rw [MLoc.again.eq_def]
    by_cases hlen : (errs ++ [ss.1.headD .nil]).length = d.impls.length
    · rw [if_pos hlen]
      exact ⟨hl.snoc hp, hr, hg', hlen, hs'⟩
    · rw [if_neg hlen]
      rw [List.length_append, List.length_singleton] at hlen
      cases fuel with
      | zero => omega
      | succ k => exact ⟨hl.snoc hp, h.shape hr, hx, hg', by simp; omega, hs', Or.inl (by simp; omega)⟩
  | errTextPanic f ctx fuel errs e v =>
    obtain ⟨⟨vs, hv⟩, _⟩ := (libs_other (by simp)).1 hh
    cases hv
  | join f errs ss =>
    obtain ⟨_, rfl⟩ := (libs_other (by simp)).1 hh
    obtain ⟨hl, hr, hg, hn, hsd⟩ := hi
    have hp := plain_lib (f := g!"strings.Join") (args := [.slice errs, .str g!";"]) (r := Except.ok ss) (by decide) (by decide)
    refine ⟨⟨hl.snoc hp.derive, hr, errs, hg.snoc hp.text, hn, by rw [sendsOf_append, hsd, hp.send]; rfl, ?_⟩,
      rfl, rfl, fun _ => rfl⟩
    have := @mem_libCalls_new E g!"strings.Join" [.slice errs, .str g!";"] 1 (Except.ok ss)
    rw [plain, vals_one] at this
    exact this
  | joinPanic f errs v =>
    obtain ⟨⟨vs, hv⟩, _⟩ := (libs_other (by simp)).1 hh
    cases hv
  | mkErr f t es =>
    obtain ⟨⟨e, hv, hnil⟩, rfl⟩ := (libs_err (Or.inr rfl)).1 hh
    obtain ⟨hl, hr, errs, hg, hn, hsd, hj⟩ := hi
    have hv : es.1 = [e] := Except.ok.inj hv
    have hp := plain_lib (f := g!"errors.New") (args := [t]) (r := Except.ok es) (by decide) (by decide)
    refine ⟨⟨hl.snoc hp.derive, h.shape hr, ?_, by rw [sendsOf_append, hsd, hp.send, hg.fails]; rfl⟩, rfl, rfl, fun _ => rfl⟩
    have := @mem_libCalls_new E g!"errors.New" [t] 1 (Except.ok es)
    rw [plain, hv] at this
    rw [hv]
    exact .allFailed errs t e hr (hg.snoc hp.text) hn (mem_libCalls_snoc hj) this hnil
  | mkErrPanic f t v =>
    obtain ⟨⟨e, hv, _⟩, _⟩ := (libs_err (Or.inr rfl)).1 hh
    cases hv
  | ctxErr f ctx errs es =>
    obtain ⟨_, rfl⟩ := (libs_other (by simp)).1 hh
    obtain ⟨hl, hr, hg, hd, hsd⟩ := hi
    have hp := plain_lib (f := g!"ctx.Err") (args := [ctx]) (r := Except.ok es) (by decide) (by decide)
    refine ⟨⟨hl.snoc hp.derive, hr, hg.snoc hp.text, hd, by rw [sendsOf_append, hsd, hp.send]; rfl, ctx, ?_⟩,
      rfl, rfl, fun _ => rfl⟩
    have := @mem_libCalls_new E g!"ctx.Err" [ctx] 1 (Except.ok es)
    rw [plain, vals_one] at this
    exact this
  | ctxErrPanic f ctx errs v =>
    obtain ⟨⟨vs, hv⟩, _⟩ := (libs_other (by simp)).1 hh
    cases hv
  | joinDone f errs e ss =>
    obtain ⟨_, rfl⟩ := (libs_other (by simp)).1 hh
    obtain ⟨hl, hr, hg, hd, hsd, ctx, hc⟩ := hi
    have hp := plain_lib (f := g!"strings.Join") (args := [.slice errs, .str g!";"]) (r := Except.ok ss) (by decide) (by decide)
    refine ⟨⟨hl.snoc hp.derive, hr, hd, errs, hg.snoc hp.text, by rw [sendsOf_append, hsd, hp.send]; rfl,
      ⟨ctx, mem_libCalls_snoc hc⟩, ?_⟩, rfl, rfl, fun _ => rfl⟩
    have := @mem_libCalls_new E g!"strings.Join" [.slice errs, .str g!";"] 1 (Except.ok ss)
    rw [plain, vals_one] at this
    exact this
  | joinDonePanic f errs e v =>
    obtain ⟨⟨vs, hv⟩, _⟩ := (libs_other (by simp)).1 hh
    cases hv
  | errorf f ce t es =>
    obtain ⟨⟨e, hv, hnil⟩, rfl⟩ := (libs_err (Or.inl rfl)).1 hh
    obtain ⟨hl, hr, hd, errs, hg, hsd, ⟨ctx, hc⟩, hj⟩ := hi
    have hv : es.1 = [e] := Except.ok.inj hv
    have hp := plain_lib (f := g!"fmt.Errorf") (args := [.str g!"%w: %s", ce, t]) (r := Except.ok es) (by decide) (by decide)
    refine ⟨⟨hl.snoc hp.derive, h.shape hr, ?_, by rw [sendsOf_append, hsd, hp.send, hg.fails]; rfl⟩, rfl, rfl, fun _ => rfl⟩
    have := @mem_libCalls_new E g!"fmt.Errorf" [.str g!"%w: %s", ce, t] 1 (Except.ok es)
    rw [plain, hv] at this
    rw [hv]
    exact .done errs ctx ce t e hr (hg.snoc hp.text) hd (mem_libCalls_snoc hc) (mem_libCalls_snoc hj) this hnil
  | errorfPanic f e t v =>
    obtain ⟨⟨e, hv, _⟩, _⟩ := (libs_err (Or.inl rfl)).1 hh
    cases hv
  | cancel f o u =>
    obtain ⟨_, rfl⟩ := libs_cancel.1 hh
    obtain ⟨hl, hc, hw, hsd⟩ := hi
    have hp := plain_lib (f := g!"cancel") (args := [f]) (r := Except.ok u) (by decide) (by decide)
    exact ⟨⟨hw.snoc hp.text id, Or.inr ⟨hl.started, hl.derived.snoc hp.derive rfl,
      by rw [sendsOf_append, hsd, hp.send]; rfl, fun _ => rfl⟩⟩, rfl, rfl, fun _ => rfl⟩
  | cancelPanic f o v =>
    obtain ⟨hv, _⟩ := libs_cancel.1 hh
    cases hv
  | stop o =>
    cases hh
    obtain ⟨hw, hx⟩ := hi
    refine ⟨⟨hw.snoc rfl id, hx.imp (fun he => he.snoc rfl rfl rfl) fun hx => ?_⟩, rfl, rfl, fun _ => rfl⟩
    exact ⟨hx.1, hx.2.1.snoc rfl rfl, by rw [sendsOf_append, hx.2.2.1]; rfl, hx.2.2.2⟩

/-- The method starts the launcher. -/
theorem MLoc.Inv.go {E : List Event} {F : List (Nat × List Val)} {s : FState} {b : Bool} {l l' : MLoc m} {env : Env}
    (hi : l.Inv d G args E F s b) (hs : MLoc.Step d h l ⟨.go .launcher env, ()⟩ l') :
    l'.Inv d G args (E ++ [⟨.go .launcher env, ()⟩]) F s true ∧ b = false ∧
      ∃ g : Scope m, env = g.env ∧ g.a = argsOf m args s := by
  cases hs with
  | go g f =>
    obtain ⟨he, hd, ha, hf⟩ := hi
    have hc : m.acceptsContext = true := hf.symm
    obtain ⟨c, f', h1, h2⟩ := hd hc
    refine ⟨⟨⟨rfl, he.live, hd.snoc rfl rfl⟩, hc, ?_, ?_, rfl, ?_, (Nat.eq_zero_or_pos _).symm⟩, he.started, g, rfl, ha⟩
    · rw [ha, argsOf, if_pos hc, h1]; rfl
    · rw [he.recv]
      exact ⟨by simp, rfl, by rw [callsOf_append, he.texts]; rfl, by rw [callsOf_append, he.texts]; rfl⟩
    · rw [sendsOf_append, he.sends]; rfl
  | goPlain g =>
    obtain ⟨he, hd, ha, hf⟩ := hi
    exact ⟨⟨⟨rfl, he.live, hd.snoc rfl rfl⟩, hf.symm, he.recv, by rw [sendsOf_append, he.sends]; rfl⟩, he.started, g, rfl, ha⟩

/-- The method receives a result. -/
theorem MLoc.Inv.comm {E : List Event} {F : List (Nat × List Val)} {s : FState} {b : Bool} {l l' : MLoc m} {vs : List Val}
    (hi : l.Inv d G args E F s b) (hs : (locs d h).Receives l vs l') (i : Nat) (hlen : vs.length = m.results.length)
    (hF : F.length < d.impls.length) : l'.Inv d G args E (F ++ [(i, vs)]) { s with waiting := false } b := by
  have hfits : m.Fits args vs := ⟨(h.call.fits G).ok, (h.call.fits G).args, hlen⟩
  rcases hs with hs | ⟨ctx, hs⟩
  · cases hs with
    | recv vs =>
      obtain ⟨hl, hc, rfl, hsd⟩ := hi
      have hr : m.returnsError = false := by
        cases hr : m.returnsError with
        | false => rfl
        | true => rw [h.shape hr] at hc; cases hc
      have hv : failedVals m vs = false := by rw [failedVals_eq, hr]; rfl
      rw [if_pos hlen]
      refine ⟨.success i vs (by simp) hv, Or.inr ⟨hl.started, hl.derived, ?_, ?_⟩⟩
      · rw [hsd, fails]; simp [hv]
      · intro hc'; rw [hc] at hc'; cases hc'
  · cases hs with
    | received f ctx fuel errs vs =>
      obtain ⟨hl, hc, hx, hg, hn, hsd, _⟩ := hi
      have hl' : Late m args E { s with waiting := false } b := ⟨hl.started, hl.live, hl.derived⟩
      have ok : failedVals m vs = false →
          (MLoc.result f vs : MLoc m).Inv d G args E (F ++ [(i, vs)]) { s with waiting := false } b := by
        intro hv
        rw [MLoc.result, if_pos hlen]
        refine ⟨hl', hc, .success i vs (by simp) hv, ?_⟩
        rw [hsd, ← hg.fails, fails, fails]
        simp [hv]
      rw [MLoc.got, if_pos hlen]
      by_cases hr : m.returnsError = true
      · rw [if_pos hr, errField_last hfits hr]
        by_cases hnil : (lastOf vs).isNil = true
        · rw [if_pos hnil]
          exact ok (by rw [failedVals_eq, hnil]; simp)
        · rw [if_neg hnil]
          refine ⟨hl', hr, hx, ⟨F, (i, vs), rfl, hg, ?_, rfl⟩, by rw [← hg.len]; exact hF, hn, hsd⟩
          rw [failedVals_eq, hr]
          simpa using hnil
      · rw [if_neg hr]
        exact ok (by rw [failedVals_eq]; simp [hr])

/-! ## All together -/

/-- How often the launcher has waited. -/
def waits (n : Nat) : Option (LLoc m) → Nat
  | none => 0
  | some (.at _ i) => i
  | some (.waiting _ i) => i
  | some .over => n - 1

/-- The launcher and the number of goroutines it has started. -/
def LLoc.Inv (d : Fallback) (a : List Val) (k : Nat) : Option (LLoc m) → Prop
  | none => k = 0
  | some (.at g i) => k = i ∧ g.a = a ∧ (i < d.impls.length ∨ d.impls.length = 0)
  | some (.waiting g i) => k = i + 1 ∧ g.a = a ∧ i + 1 < d.impls.length
  | some .over => k = d.impls.length ∧ 0 < k

/-- The goroutines for the implementations. -/
structure Kids (d : Fallback) (m : Method) (a : List Val) (L : List FLabel) (s : FState) (ys : List CLoc) : Prop where
  each : ∀ (i : Nat) (y : CLoc), ys[i]? = some y → ∃ impl, d.impls[i]? = some impl ∧
    y.Inv m impl a s (childEvents i L) (fun vs => (i, vs) ∈ received L)
  rest : ∀ i, ys.length ≤ i → childEvents i L = []
  sent : ∀ (i : Nat) (vs : List Val), (i, vs) ∈ received L → ys[i]? = some (.over (.ret [])) ∧
    ∃ impl, d.impls[i]? = some impl ∧ Just m impl a (childEvents i L) vs
  once : ((received L).map Prod.fst).Nodup

/-- The method can receive. -/
def MLoc.receiving : MLoc m → Prop
  | .recv => True
  | .select _ _ _ _ => True
  | _ => False

structure Inv (d : Fallback) (G : GoTypes) (args : List Val) (L : List FLabel) (c : FConf (MLoc m) (LLoc m) CLoc) : Prop where
  cap : c.shared.cap = d.impls.length
  done : c.shared.callerDone = true ↔ FLabel.done ∈ L
  main : c.main.Inv d G args (methodEvents L) (received L) c.shared c.launcher.isSome
  launcher : LLoc.Inv d (argsOf m args c.shared) c.children.length c.launcher
  kids : Kids d m (argsOf m args c.shared) L c.shared c.children
  most : waits d.impls.length c.launcher + c.shared.next + (if c.shared.pending then 1 else 0) ≤
    tickCount L + sendsOf (methodEvents L)
  least : sendsOf (methodEvents L) ≤ waits d.impls.length c.launcher + c.shared.next
  next : c.shared.next ≤ sendsOf (methodEvents L)
  waiting : c.shared.waiting = true → c.main.receiving

theorem methodEvents_snoc (L : List FLabel) (l : FLabel) : methodEvents (L ++ [l]) = methodEvents L ++ (FLabel.ofMethod l).toList := by
  cases l <;> simp [methodEvents, FLabel.ofMethod]

theorem received_snoc (L : List FLabel) (l : FLabel) : received (L ++ [l]) = received L ++ (FLabel.result l).toList := by
  cases l <;> simp [received, FLabel.result]

theorem childEvents_snoc (i : Nat) (L : List FLabel) (l : FLabel) :
    childEvents i (L ++ [l]) = childEvents i L ++ (FLabel.ofChild i l).toList := by
  rw [childEvents, List.filterMap_append, ← childEvents]
  cases hl : FLabel.ofChild i l <;> simp [hl]

theorem tickCount_snoc (L : List FLabel) (l : FLabel) : tickCount (L ++ [l]) = tickCount L + if FLabel.isTick l then 1 else 0 := by
  simp [tickCount, List.countP_append, List.countP_cons]

/-- Distinct numbers below `n` are at most `n`. -/
theorem length_le_of_nodup {l : List Nat} {n : Nat} (hd : l.Nodup) (hl : ∀ x ∈ l, x < n) : l.length ≤ n := by
  have : l ⊆ List.range n := fun x hx => List.mem_range.2 (hl x hx)
  have := hd.length_le_of_subset this
  simpa using this

theorem Kids.below {a : List Val} {L : List FLabel} {s : FState} {ys : List CLoc} (hk : Kids d m a L s ys) {i : Nat} {vs : List Val}
    (hi : (i, vs) ∈ received L) : i < d.impls.length := by
  obtain ⟨_, impl, hi, _⟩ := hk.sent i vs hi
  exact (List.getElem?_eq_some_iff.1 hi).1

theorem Kids.count {a : List Val} {L : List FLabel} {s : FState} {ys : List CLoc} (hk : Kids d m a L s ys) {i : Nat}
    (hi : i < d.impls.length) (hn : ∀ vs, (i, vs) ∉ received L) : (received L).length < d.impls.length := by
  have h1 : (i :: (received L).map Prod.fst).Nodup := by
    refine List.nodup_cons.2 ⟨?_, hk.once⟩
    intro hx
    obtain ⟨⟨j, vs⟩, hj, rfl⟩ := List.mem_map.1 hx
    exact hn vs hj
  have := length_le_of_nodup h1 (n := d.impls.length) (by
    intro x hx
    rcases List.mem_cons.1 hx with rfl | hx
    · exact hi
    · obtain ⟨⟨j, vs⟩, hj, rfl⟩ := List.mem_map.1 hx
      exact hk.below hj)
  simp at this
  omega

/-- A step that leaves the goroutines alone. -/
theorem Kids.other {a : List Val} {L : List FLabel} {s s' : FState} {ys : List CLoc} (hk : Kids d m a L s ys) {l : FLabel}
    (hl : ∀ i, FLabel.ofChild i l = none) (hr : FLabel.result l = none) (h1 : s.callerDone = true → s'.callerDone = true)
    (h2 : s.cancelled = true → s'.cancelled = true) : Kids d m a (L ++ [l]) s' ys := by
  have hc : ∀ i, childEvents i (L ++ [l]) = childEvents i L := fun i => by rw [childEvents_snoc, hl]; simp
  have hr : received (L ++ [l]) = received L := by rw [received_snoc, hr]; simp
  refine ⟨?_, ?_, ?_, ?_⟩
  · intro i y hy
    obtain ⟨impl, hi, hy⟩ := hk.each i y hy
    refine ⟨impl, hi, ?_⟩
    rw [hc, hr]
    exact hy.mono h1 h2 fun _ => id
  · intro i hi
    rw [hc]
    exact hk.rest i hi
  · intro i vs hi
    rw [hr] at hi
    rw [hc]
    exact hk.sent i vs hi
  · rw [hr]
    exact hk.once

/-- A new goroutine. -/
theorem Kids.start {a : List Val} {L : List FLabel} {s : FState} {ys : List CLoc} (hk : Kids d m a L s ys) {impl : Val}
    (hi : d.impls[ys.length]? = some impl) : Kids d m a L s (ys ++ [.calling impl a]) := by
  refine ⟨?_, ?_, ?_, hk.once⟩
  · intro i y hy
    rw [List.getElem?_append] at hy
    split at hy
    · exact hk.each i y hy
    · rename_i hlt
      have hy' := (List.getElem?_eq_some_iff.1 hy).1
      have hii : i = ys.length := by simp at hy'; omega
      subst hii
      simp at hy
      subst hy
      exact ⟨impl, hi, rfl, rfl, hk.rest _ (Nat.le_refl _)⟩
  · intro i hi
    simp at hi
    exact hk.rest i (by omega)
  · intro i vs hi
    obtain ⟨h1, h2⟩ := hk.sent i vs hi
    refine ⟨?_, h2⟩
    rw [List.getElem?_append_left (List.getElem?_eq_some_iff.1 h1).1, h1]

/-- A step of a goroutine by itself. -/
theorem Kids.child {a : List Val} {L : List FLabel} {s s' : FState} {ys : List CLoc} (hk : Kids d m a L s ys) {i : Nat} {y y' : CLoc}
    {e : Event} (hi : ys[i]? = some y) (hs : CLoc.Step m y e y') (hh : fallbackHandler s e s') :
    Kids d m a (L ++ [.child i e]) s' (ys.set i y') ∧ s' = s := by
  have hr : received (L ++ [.child i e]) = received L := by rw [received_snoc]; simp [FLabel.result]
  obtain ⟨impl, himpl, hy⟩ := hk.each i y hi
  obtain ⟨hy', rfl⟩ := hy.step hs hh
  have hlt := (List.getElem?_eq_some_iff.1 hi).1
  have hother : ∀ j, j ≠ i → childEvents j (L ++ [.child i e]) = childEvents j L := by
    intro j hj
    rw [childEvents_snoc, FLabel.ofChild, if_neg (Ne.symm hj)]
    simp
  refine ⟨⟨?_, ?_, ?_, ?_⟩, rfl⟩
  · intro j x hx
    by_cases hj : j = i
    · subst hj
      rw [List.getElem?_set_self hlt] at hx
      cases hx
      refine ⟨impl, himpl, ?_⟩
      rw [childEvents_snoc, FLabel.ofChild, if_pos rfl, hr]
      exact hy'
    · rw [List.getElem?_set_ne (Ne.symm hj)] at hx
      rw [hother j hj, hr]
      exact hk.each j x hx
  · intro j hj
    rw [List.length_set] at hj
    rw [hother j (by omega)]
    exact hk.rest j hj
  · intro j vs hj
    rw [hr] at hj
    obtain ⟨h1, h2⟩ := hk.sent j vs hj
    have hji : j ≠ i := by
      rintro rfl
      rw [hi] at h1
      cases h1
      cases hs
    rw [hother j hji, List.getElem?_set_ne (Ne.symm hji)]
    exact ⟨h1, h2⟩
  · rw [hr]
    exact hk.once

/-- A goroutine sends its result. -/
theorem Kids.comm {a : List Val} {L : List FLabel} {s s' : FState} {ys : List CLoc} (hk : Kids d m a L s ys) {i : Nat} {a' vs : List Val}
    (hi : ys[i]? = some (.sending a' vs)) (h1 : s.callerDone = true → s'.callerDone = true)
    (h2 : s.cancelled = true → s'.cancelled = true) :
    Kids d m a (L ++ [.comm i vs]) s' (ys.set i (.over (.ret []))) := by
  have hr : received (L ++ [.comm i vs]) = received L ++ [(i, vs)] := by rw [received_snoc]; simp [FLabel.result]
  have hc : ∀ j, childEvents j (L ++ [.comm i vs]) = childEvents j L := fun j => by
    rw [childEvents_snoc]; simp [FLabel.ofChild]
  obtain ⟨impl, himpl, ha, hj⟩ := hk.each i _ hi
  have hlt := (List.getElem?_eq_some_iff.1 hi).1
  refine ⟨?_, ?_, ?_, ?_⟩
  · intro j x hx
    rw [hc, hr]
    by_cases hji : j = i
    · subst hji
      rw [List.getElem?_set_self hlt] at hx
      cases hx
      exact ⟨impl, himpl, Or.inr ⟨rfl, _, vs, hj, Or.inl ⟨rfl, by simp⟩⟩⟩
    · rw [List.getElem?_set_ne (Ne.symm hji)] at hx
      obtain ⟨impl', h1', h2'⟩ := hk.each j x hx
      exact ⟨impl', h1', h2'.mono h1 h2 fun _ h => List.mem_append_left _ h⟩
  · intro j hj
    rw [List.length_set] at hj
    rw [hc]
    exact hk.rest j hj
  · intro j vs' hj'
    rw [hr] at hj'
    rw [hc]
    by_cases hji : j = i
    · subst hji
      refine ⟨List.getElem?_set_self hlt, impl, himpl, ?_⟩
      rcases List.mem_append.1 hj' with hj' | hj'
      · obtain ⟨h3, _⟩ := hk.sent j vs' hj'
        rw [hi] at h3
        cases h3
      · simp at hj'
        subst hj'
        exact hj
    · rw [List.getElem?_set_ne (Ne.symm hji)]
      rcases List.mem_append.1 hj' with hj' | hj'
      · exact hk.sent j vs' hj'
      · simp at hj'
        exact absurd hj'.1 hji
  · rw [hr, List.map_append]
    refine List.nodup_append.2 ⟨hk.once, by simp, ?_⟩
    intro x hx y hy hxy
    obtain ⟨⟨j, vs'⟩, hj', rfl⟩ := List.mem_map.1 hx
    simp at hy
    obtain ⟨h3, _⟩ := hk.sent j vs' hj'
    have hji : j = i := hxy.trans hy
    rw [hji, hi] at h3
    cases h3

theorem sendsOf_snoc (L : List FLabel) (e : Event) : sendsOf (methodEvents (L ++ [.main e])) =
    sendsOf (methodEvents L) + sendsOf [e] := by
  rw [methodEvents_snoc, sendsOf_append]
  rfl

theorem methodEvents_other {L : List FLabel} {l : FLabel} (hl : FLabel.ofMethod l = none) :
    methodEvents (L ++ [l]) = methodEvents L := by
  rw [methodEvents_snoc, hl]
  simp

theorem received_other {L : List FLabel} {l : FLabel} (hl : FLabel.result l = none) : received (L ++ [l]) = received L := by
  rw [received_snoc, hl]
  simp

theorem Receives.receiving {x x' : MLoc m} {vs : List Val} (hr : (locs d h).Receives x vs x') : x.receiving := by
  rcases hr with hr | ⟨ctx, hr⟩
  · cases hr; trivial
  · cases hr; trivial

theorem go_receiving {x x' : MLoc m} {env : Env} (hs : MLoc.Step d h x ⟨.go .launcher env, ()⟩ x') : x'.receiving := by
  cases hs <;> trivial

/-- The effect of an operation of the method on the rest of the state. -/
theorem main_effect {s s' : FState} {x x' : MLoc m} {e : Event} (hs : MLoc.Step d h x e x') (hh : fallbackHandler s e s') :
    s'.next = s.next + sendsOf [e] ∧ s'.pending = s.pending ∧ (s.cancelled = true → s'.cancelled = true) ∧
      (s'.waiting = true → s.waiting = true ∧ (x.receiving → False)) := by
  have lib : ∀ {f : Str} {args : List Val} {n : Nat} {r : Except Val (Vals n)}, s.libs f (okVals r) s' →
      s'.next = s.next ∧ s'.pending = s.pending ∧ (s.cancelled = true → s'.cancelled = true) ∧ s'.waiting = s.waiting := by
    intro f args n r hl
    rw [FState.libs] at hl
    split at hl
    · rcases hl with ⟨c, f, _, rfl⟩ | ⟨_, rfl⟩ <;> exact ⟨rfl, rfl, id, rfl⟩
    · split at hl
      · obtain ⟨_, rfl⟩ := hl
        exact ⟨rfl, rfl, fun _ => rfl, rfl⟩
      · split at hl
        · obtain ⟨_, rfl⟩ := hl
          exact ⟨rfl, rfl, id, rfl⟩
        · obtain ⟨_, rfl⟩ := hl
          exact ⟨rfl, rfl, id, rfl⟩
  cases hs with
  | ticker hc =>
    rcases hh with ⟨_, _, rfl⟩ | ⟨_, _, rfl⟩ <;> exact ⟨rfl, rfl, id, fun hw => ⟨hw, id⟩⟩
  | tickerPlain hc =>
    rcases hh with ⟨_, _, rfl⟩ | ⟨_, _, rfl⟩ <;> exact ⟨rfl, rfl, id, fun hw => ⟨hw, id⟩⟩
  | tickerPanic v =>
    rcases hh with ⟨_, _, rfl⟩ | ⟨_, _, rfl⟩ <;> exact ⟨rfl, rfl, id, fun hw => ⟨hw, id⟩⟩
  | go g f => exact hh.elim
  | goPlain g => exact hh.elim
  | recv vs => exact hh.elim
  | received f ctx fuel errs vs => exact hh.elim
  | done f ctx fuel errs =>
    obtain ⟨_, rfl⟩ := hh
    exact ⟨rfl, rfl, id, fun hw => by cases hw⟩
  | sendNext f ctx fuel errs e =>
    obtain ⟨_, rfl⟩ := hh
    exact ⟨rfl, rfl, id, fun hw => ⟨hw, id⟩⟩
  | stop o =>
    cases hh
    exact ⟨rfl, rfl, id, fun hw => ⟨hw, id⟩⟩
  | _ =>
    obtain ⟨h1, h2, h3, h4⟩ := lib (args := []) hh
    exact ⟨h1, h2, h3, fun hw => ⟨h4 ▸ hw, id⟩⟩

theorem Inv.step {L : List FLabel} {c c' : FConf (MLoc m) (LLoc m) CLoc} {l : FLabel} (hi : Inv d G args L c)
    (hs : FStep (locs d h) c l c') : Inv d G args (L ++ [l]) c' := by
  cases hs with
  | @main e x' s' ha hx hh =>
    obtain ⟨hm, h1, h2, h3⟩ := hi.main.step hx hh
    obtain ⟨e1, e2, e3, e4⟩ := main_effect hx hh
    have hr : received (L ++ [.main e]) = received L := received_other rfl
    have hme : methodEvents (L ++ [.main e]) = methodEvents L ++ [e] := by rw [methodEvents_snoc]; rfl
    have hargs : c.launcher.isSome = true → argsOf m args s' = argsOf m args c.shared := by
      intro hb
      rw [argsOf, argsOf, h3 hb]
    have hsn := sendsOf_snoc L e
    have ht : tickCount (L ++ [.main e]) = tickCount L := by rw [tickCount_snoc]; rfl
    refine ⟨h2.trans hi.cap, ?_, ?_, ?_, ?_, ?_, ?_, ?_, ?_⟩
    · show s'.callerDone = true ↔ _
      rw [h1, hi.done]
      simp
    · rw [hr, hme]; exact hm
    · show LLoc.Inv d (argsOf m args s') c.children.length c.launcher
      have := hi.launcher
      cases hl : c.launcher with
      | none => rw [hl] at this; exact this
      | some r => rw [hargs (by rw [hl]; rfl), ← hl]; exact this
    · show Kids d m (argsOf m args s') (L ++ [.main e]) s' c.children
      have hk := hi.kids.other (l := .main e) (s' := s') (fun _ => rfl) rfl (fun hd => by rw [h1]; exact hd) e3
      cases hl : c.launcher with
      | some r => rw [hargs (by rw [hl]; rfl)]; exact hk
      | none =>
        have h0 := hi.launcher
        rw [hl] at h0
        have h0 : c.children = [] := List.eq_nil_of_length_eq_zero h0
        rw [h0] at hk ⊢
        refine ⟨fun i y hy => by simp at hy, hk.rest, fun i vs hv => ?_, hk.once⟩
        have := (hk.sent i vs hv).1
        simp at this
    · show waits d.impls.length c.launcher + s'.next + (if s'.pending = true then 1 else 0) ≤ _
      have := hi.most
      rw [e1, e2, ht, hsn]
      omega
    · show _ ≤ waits d.impls.length c.launcher + s'.next
      have := hi.least
      rw [e1, hsn]
      omega
    · show s'.next ≤ _
      have := hi.next
      rw [e1, hsn]
      omega
    · intro hw
      have := e4 hw
      exact absurd (hi.waiting this.1) this.2
  | @goLauncher env x' r ha hx hr =>
    obtain ⟨hm, hb, g, rfl, hga⟩ := hi.main.go hx
    obtain ⟨g', hg', rfl⟩ := hr
    have hl : c.launcher = none := by
      cases hl : c.launcher with
      | none => rfl
      | some r => rw [hl] at hb; cases hb
    have h0 : c.children.length = 0 := by
      have := hi.launcher
      rw [hl] at this
      exact this
    have hga' : g'.a = g.a := by
      have h1 := Method.env_all_params (loc := g.loc) g.fits
      have h2 := Method.env_all_params (loc := g'.loc) g'.fits
      rw [← Scope.env] at h1 h2
      rw [← hg', h1] at h2
      exact (Option.some.inj h2).symm
    have hsn := sendsOf_snoc L ⟨.go .launcher g.env, ()⟩
    have hz : sendsOf [⟨.go .launcher g.env, ()⟩] = 0 := rfl
    refine ⟨hi.cap, by rw [hi.done]; simp, ?_, ?_, ?_, ?_, ?_, ?_, ?_⟩
    · rw [received_other rfl, methodEvents_snoc]; exact hm
    · exact ⟨h0, hga'.trans hga, Nat.eq_zero_or_pos _ |>.symm⟩
    · exact hi.kids.other (fun _ => rfl) rfl id id
    · have := hi.most
      rw [hl] at this
      rw [hsn, hz, tickCount_snoc]
      simp only [waits] at this ⊢
      simp only [FLabel.isTick]
      omega
    · have := hi.least
      rw [hl] at this
      rw [hsn, hz]
      simp only [waits] at this ⊢
      omega
    · have := hi.next
      rw [hsn, hz]
      exact this
    · intro hw
      exact go_receiving hx
  | @launcher e r r' s' ha hr hx hh =>
    cases hx with
    | go g i impl himpl => exact hh.elim
    | next g i b =>
      have hL := hi.launcher
      rw [hr] at hL
      obtain ⟨h1, h2, h3⟩ := hL
      have hs : s'.cap = c.shared.cap ∧ s'.callerDone = c.shared.callerDone ∧ s'.cancelled = c.shared.cancelled ∧
          s'.derived = c.shared.derived ∧ s'.waiting = c.shared.waiting ∧
          ((b = true ∧ 0 < c.shared.next ∧ s'.next = c.shared.next - 1 ∧ s'.pending = c.shared.pending) ∨
            (c.shared.pending = true ∧ s'.pending = false ∧ s'.next = c.shared.next)) := by
        cases b with
        | true =>
          obtain ⟨h0, rfl⟩ := hh
          exact ⟨rfl, rfl, rfl, rfl, rfl, Or.inl ⟨rfl, h0, rfl, rfl⟩⟩
        | false =>
          obtain ⟨h0, rfl⟩ := hh
          exact ⟨rfl, rfl, rfl, rfl, rfl, Or.inr ⟨h0, rfl, rfl⟩⟩
      obtain ⟨e1, e2, e3, e4, e5, e6⟩ := hs
      have hargs : argsOf m args s' = argsOf m args c.shared := by rw [argsOf, argsOf, e4]
      have hme : methodEvents (L ++ [.launcher ⟨.nextOrTick, b⟩]) = methodEvents L := methodEvents_other rfl
      have hmost := hi.most
      have hleast := hi.least
      have hnext := hi.next
      rw [hr] at hmost hleast
      refine ⟨e1.trans hi.cap, ?_, ?_, ?_, ?_, ?_, ?_, ?_, ?_⟩
      · show s'.callerDone = true ↔ _
        rw [e2, hi.done]
        simp
      · rw [received_other rfl, hme]
        have := hi.main.mono (s' := s') (fun hd => by rw [e2]; exact hd) e3 e4
        rw [hr] at this
        exact this
      · rw [hargs]
        exact ⟨h1, h2, Or.inl h3⟩
      · rw [hargs]
        exact hi.kids.other (fun _ => rfl) rfl (fun hd => by rw [e2]; exact hd) (fun hd => by rw [e3]; exact hd)
      · rw [hme, tickCount_snoc]
        simp only [waits, FLabel.isTick] at hmost ⊢
        rcases e6 with ⟨_, h0, h4, h5⟩ | ⟨h0, h4, h5⟩
        · rw [h4, h5]
          simp
          omega
        · rw [h4, h5]
          rw [h0] at hmost
          simp at hmost ⊢
          omega
      · rw [hme]
        simp only [waits] at hleast ⊢
        rcases e6 with ⟨_, h0, h4, _⟩ | ⟨_, _, h5⟩
        · rw [h4]; omega
        · rw [h5]; omega
      · rw [hme]
        show s'.next ≤ _
        rcases e6 with ⟨_, h0, h4, _⟩ | ⟨_, _, h5⟩
        · rw [h4]; omega
        · rw [h5]; exact hnext
      · intro hw
        exact hi.waiting (e5 ▸ hw)
  | @goImpl env r r' y ha hr hx hy =>
    cases hx with
    | go g i impl himpl =>
      have hL := hi.launcher
      rw [hr] at hL
      obtain ⟨h1, h2, h3⟩ := hL
      obtain ⟨impl', a, e1, e2, rfl⟩ := hy
      rw [childEnv_impl] at e1
      rw [childEnv_args h] at e2
      cases e1
      cases e2
      have hme : methodEvents (L ++ [.launcher ⟨.go .impl (g.childEnv i impl), ()⟩]) = methodEvents L := methodEvents_other rfl
      have hlt : i < d.impls.length := (List.getElem?_eq_some_iff.1 himpl).1
      have hmost := hi.most
      have hleast := hi.least
      rw [hr] at hmost hleast
      have hw : waits d.impls.length (some (LLoc.started d g i)) = i := by
        rw [LLoc.started]
        split
        · rfl
        · simp only [waits]; omega
      refine ⟨hi.cap, by rw [hi.done]; simp, ?_, ?_, ?_, ?_, ?_, ?_, ?_⟩
      · rw [received_other rfl, hme]
        have := hi.main
        rw [hr] at this
        exact this
      · show LLoc.Inv d _ (c.children ++ [_]).length _
        rw [List.length_append, h1, LLoc.started]
        split
        · rename_i hn
          exact ⟨rfl, h2, hn⟩
        · exact ⟨by simp; omega, by simp⟩
      · have := (hi.kids.start (impl := impl) (by rw [h1]; exact himpl)).other (l := .launcher ⟨.go .impl (g.childEnv i impl), ()⟩)
          (s' := c.shared) (fun _ => rfl) rfl id id
        rw [h2]
        exact this
      · rw [hme, tickCount_snoc]
        show waits d.impls.length (some (LLoc.started d g i)) + _ + _ ≤ _
        rw [hw]
        exact hmost
      · rw [hme]
        show _ ≤ waits d.impls.length (some (LLoc.started d g i)) + _
        rw [hw]
        exact hleast
      · rw [hme]
        exact hi.next
      · exact hi.waiting
  | @child i e y y' s' ha hy hx hh =>
    obtain ⟨hk, rfl⟩ := hi.kids.child hy hx hh
    have hme : methodEvents (L ++ [.child i e]) = methodEvents L := methodEvents_other rfl
    refine ⟨hi.cap, by rw [hi.done]; simp, ?_, ?_, hk, ?_, ?_, ?_, hi.waiting⟩
    · rw [received_other rfl, hme]
      exact hi.main
    · show LLoc.Inv d _ (c.children.set i y').length _
      rw [List.length_set]
      exact hi.launcher
    · rw [hme, tickCount_snoc]
      exact hi.most
    · rw [hme]; exact hi.least
    · rw [hme]; exact hi.next
  | @comm i vs x' y y' ha hy hx hx' =>
    obtain ⟨⟨a', rfl⟩, rfl⟩ := sends_loc hx'
    have hme : methodEvents (L ++ [.comm i vs]) = methodEvents L := methodEvents_other rfl
    obtain ⟨impl, himpl, ha', hj⟩ := hi.kids.each i _ hy
    refine ⟨hi.cap, by rw [hi.done]; simp, ?_, ?_, ?_, ?_, ?_, ?_, ?_⟩
    · rw [received_snoc, hme]
      refine hi.main.comm hx i (hj.length h.call.ok) (hi.kids.count (List.getElem?_eq_some_iff.1 himpl).1 ?_)
      intro vs' hv
      have := (hi.kids.sent i vs' hv).1
      rw [hy] at this
      cases this
    · show LLoc.Inv d _ (c.children.set i _).length _
      rw [List.length_set]
      exact hi.launcher
    · exact hi.kids.comm hy id id
    · rw [hme, tickCount_snoc]
      exact hi.most
    · rw [hme]; exact hi.least
    · rw [hme]; exact hi.next
    · intro hw; cases hw
  | @wait vs x' ha hx =>
    have hme : methodEvents (L ++ [.wait]) = methodEvents L := methodEvents_other rfl
    refine ⟨hi.cap, by rw [hi.done]; simp, ?_, hi.launcher, hi.kids.other (fun _ => rfl) rfl id id, ?_, ?_, ?_, ?_⟩
    · rw [received_other rfl, hme]
      exact hi.main.mono id rfl rfl
    · rw [hme, tickCount_snoc]; exact hi.most
    · rw [hme]; exact hi.least
    · rw [hme]; exact hi.next
    · exact fun _ => Receives.receiving hx
  | tick ha ht =>
    have hme : methodEvents (L ++ [.tick]) = methodEvents L := methodEvents_other rfl
    refine ⟨hi.cap, by rw [hi.done]; simp, ?_, hi.launcher, hi.kids.other (fun _ => rfl) rfl id id, ?_, ?_, ?_, hi.waiting⟩
    · rw [received_other rfl, hme]
      exact hi.main.mono id rfl rfl
    · rw [hme, tickCount_snoc]
      have := hi.most
      simp only [FLabel.isTick, if_true]
      omega
    · rw [hme]; exact hi.least
    · rw [hme]; exact hi.next
  | done ha =>
    have hme : methodEvents (L ++ [.done]) = methodEvents L := methodEvents_other rfl
    refine ⟨hi.cap, by simp, ?_, hi.launcher, hi.kids.other (fun _ => rfl) rfl (fun _ => rfl) id, ?_, ?_, ?_, hi.waiting⟩
    · rw [received_other rfl, hme]
      exact hi.main.mono (fun _ => rfl) rfl rfl
    · rw [hme, tickCount_snoc]; exact hi.most
    · rw [hme]; exact hi.least
    · rw [hme]; exact hi.next

theorem execL_inv {L : List FLabel} {c : FConf (MLoc m) (LLoc m) CLoc} (he : ExecL d h L c) : Inv d G args L c := by
  induction he with
  | start =>
    refine ⟨rfl, by simp [FState.init], ⟨⟨rfl, rfl, rfl, rfl, rfl⟩, rfl⟩, rfl, ⟨fun i y hy => by simp at hy, fun _ _ => rfl,
      fun i vs hv => by simp [received] at hv, by simp [received]⟩, ?_, ?_, ?_, ?_⟩
    · simp [waits, FState.init]
    · simp [methodEvents, sendsOf]
    · simp [FState.init]
    · intro hw; cases hw
  | step he hs ih => exact ih.step hs

end Fallback

end Gowrap
