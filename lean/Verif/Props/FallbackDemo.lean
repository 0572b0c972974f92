import Verif.Props.Fallback
/-!
# C52, C53: executions of the fallback decorator

Concrete executions which meet the hypotheses of the theorems, and the two ways in which C53 fails.
-/

namespace Gowrap.Props

open Gowrap Spec Fallback

/-- No goroutine has panicked. -/
macro "nopanic" : tactic => `(tactic| (rintro x hx ⟨v, hv⟩; subst hv; simp at hx))

namespace FallbackDemo

/-! ## `Find(ctx, id)` with two implementations: the first fails, the second succeeds -/

def two : Fallback := ⟨[.obj 10, .obj 11], 5⟩

def args : List Val := [.obj 1, .str g!"k"]

theorem setup : Setup demoTypes find (g!"_d", .nil) args :=
  ⟨find_callable fallbackIdents _ _ (by decide), fun _ => rfl⟩

/-- The scope of the goroutines. -/
def scope : Scope find := scopeCtx two setup rfl (.obj 7) (.obj 8)

/-- The arguments of the implementations. -/
def implArgs : List Val := [.obj 7, .str g!"k"]

def st (next : Nat) (waiting cancelled : Bool) (ticking : Bool := true) : FState :=
  ⟨next, 2, ticking, false, some (.obj 7), false, cancelled, waiting⟩

/-- Until the first implementation is called. -/
def begun : List FLabel := [
  .main ⟨.newTicker 5, Except.ok ()⟩,
  .main ⟨.lib g!"context.WithCancel" [.obj 1] 2, Except.ok ⟨[.obj 7, .obj 8], rfl⟩⟩,
  .main ⟨.go .launcher scope.env, ()⟩,
  .launcher ⟨.go .impl (scope.childEnv 0 (.obj 10)), ()⟩]

theorem begun_exec : ExecL two setup begun
    ⟨st 0 false false, .select (.obj 8) (.obj 7) 2 [], some (.waiting scope 0), [.calling (.obj 10) implArgs]⟩ := by
  have e0 : ExecL two setup _ _ := .start
  have e1 : ExecL two setup _ ⟨⟨0, 2, true, false, none, false, false, false⟩, .withCancel, none, []⟩ :=
    e0.step (.main (by nopanic) (.ticker rfl) (Or.inl ⟨by decide, rfl, rfl⟩))
  have e2 : ExecL two setup _ ⟨st 0 false false, .launch scope (some (.obj 8)), none, []⟩ :=
    e1.step (.main (by nopanic) (.derive rfl ⟨[.obj 7, .obj 8], rfl⟩) (Or.inl ⟨.obj 7, .obj 8, rfl, rfl⟩))
  have e3 : ExecL two setup _ ⟨st 0 false false, .select (.obj 8) (.obj 7) 2 [], some (.at scope 0), []⟩ :=
    e2.step (.goLauncher (by nopanic) (.go scope (.obj 8)) ⟨scope, rfl, rfl⟩)
  exact e3.step (.goImpl (by nopanic) rfl (.go scope 0 (.obj 10) rfl)
    ⟨_, _, childEnv_impl scope 0 _, childEnv_args setup scope 0 _, rfl⟩)

/-- The first implementation fails; the method starts the next. -/
def failed : List FLabel := begun ++ [
  .child 0 ⟨.impl (.obj 10) g!"Find" implArgs 2, Except.ok ⟨[.str [], .obj 20], rfl⟩⟩,
  .child 0 ⟨.lib g!"fmt.Errorf" [.str g!"%T: %v", .obj 10, .obj 20] 1, Except.ok ⟨[.obj 21], rfl⟩⟩,
  .comm 0 [.str [], .obj 21],
  .main ⟨.sendNext, ()⟩,
  .main ⟨.lib g!"err.Error" [.obj 21] 1, Except.ok ⟨[.str g!"a"], rfl⟩⟩,
  .launcher ⟨.nextOrTick, true⟩,
  .launcher ⟨.go .impl (scope.childEnv 1 (.obj 11)), ()⟩]

theorem failed_exec : ExecL two setup failed ⟨st 0 false false, .select (.obj 8) (.obj 7) 1 [.str g!"a"], some .over,
    [.over (.ret []), .calling (.obj 11) implArgs]⟩ := by
  have e1 : ExecL two setup _ ⟨st 0 false false, .select (.obj 8) (.obj 7) 2 [], some (.waiting scope 0),
      [.wrapping (.obj 10) implArgs [.str [], .obj 20]]⟩ :=
    begun_exec.step (.child (i := 0) (by nopanic) rfl (.ret (.obj 10) implArgs ⟨[.str [], .obj 20], rfl⟩) rfl)
  have e2 : ExecL two setup _ ⟨st 0 false false, .select (.obj 8) (.obj 7) 2 [], some (.waiting scope 0),
      [.sending implArgs [.str [], .obj 21]]⟩ :=
    e1.step (.child (i := 0) (by nopanic) rfl (.wrap (.obj 10) implArgs [.str [], .obj 20] ⟨[.obj 21], rfl⟩)
      ⟨⟨.obj 21, rfl, rfl⟩, rfl⟩)
  have e3 : ExecL two setup _ ⟨st 0 false false, .sendNext (.obj 8) (.obj 7) 2 [] (.obj 21), some (.waiting scope 0),
      [.over (.ret [])]⟩ :=
    e2.step (.comm (by nopanic) (i := 0) rfl (Or.inr ⟨_, .received (.obj 8) (.obj 7) 2 [] [.str [], .obj 21]⟩)
      (Or.inl ⟨_, .send implArgs [.str [], .obj 21] rfl .other⟩))
  have e4 : ExecL two setup _ ⟨st 1 false false, .errText (.obj 8) (.obj 7) 2 [] (.obj 21), some (.waiting scope 0),
      [.over (.ret [])]⟩ :=
    e3.step (.main (by nopanic) (.sendNext (.obj 8) (.obj 7) 2 [] (.obj 21)) ⟨by decide, rfl⟩)
  have e5 : ExecL two setup _ ⟨st 1 false false, .select (.obj 8) (.obj 7) 1 [.str g!"a"], some (.waiting scope 0),
      [.over (.ret [])]⟩ :=
    e4.step (.main (by nopanic) (.errText (.obj 8) (.obj 7) 2 [] (.obj 21) ⟨[.str g!"a"], rfl⟩) ⟨⟨[.str g!"a"], rfl⟩, rfl⟩)
  have e6 : ExecL two setup _ ⟨st 0 false false, .select (.obj 8) (.obj 7) 1 [.str g!"a"], some (.at scope 1),
      [.over (.ret [])]⟩ :=
    e5.step (.launcher (by nopanic) rfl (.next scope 0 true) ⟨by decide, rfl⟩)
  exact e6.step (.goImpl (by nopanic) rfl (.go scope 1 (.obj 11) rfl)
    ⟨_, _, childEnv_impl scope 1 _, childEnv_args setup scope 1 _, rfl⟩)

/-- The second implementation succeeds. -/
def succeeded : List FLabel := failed ++ [
  .child 1 ⟨.impl (.obj 11) g!"Find" implArgs 2, Except.ok ⟨[.str g!"x", .nil], rfl⟩⟩,
  .comm 1 [.str g!"x", .nil],
  .main ⟨.lib g!"cancel" [.obj 8] 0, Except.ok ⟨[], rfl⟩⟩,
  .main ⟨.stopTicker, ()⟩]

theorem succeeded_exec : ExecL two setup succeeded ⟨st 0 false true false, .over (.ret [.str g!"x", .nil]), some .over,
    [.over (.ret []), .over (.ret [])]⟩ := by
  have e1 : ExecL two setup _ ⟨st 0 false false, .select (.obj 8) (.obj 7) 1 [.str g!"a"], some .over,
      [.over (.ret []), .sending implArgs [.str g!"x", .nil]]⟩ :=
    failed_exec.step (.child (i := 1) (by nopanic) rfl (.ret (.obj 11) implArgs ⟨[.str g!"x", .nil], rfl⟩) rfl)
  have e2 : ExecL two setup _ ⟨st 0 false false, .cancelling (.obj 8) (.ret [.str g!"x", .nil]), some .over,
      [.over (.ret []), .over (.ret [])]⟩ :=
    e1.step (.comm (by nopanic) (i := 1) rfl (Or.inr ⟨_, .received (.obj 8) (.obj 7) 1 [.str g!"a"] [.str g!"x", .nil]⟩)
      (Or.inl ⟨_, .send implArgs [.str g!"x", .nil] rfl .other⟩))
  have e3 : ExecL two setup _ ⟨st 0 false true, .stopping (.ret [.str g!"x", .nil]), some .over,
      [.over (.ret []), .over (.ret [])]⟩ :=
    e2.step (.main (by nopanic) (.cancel (.obj 8) (.ret [.str g!"x", .nil]) ⟨[], rfl⟩) ⟨rfl, rfl⟩)
  exact e3.step (.main (by nopanic) (.stop _) rfl)

/-- A case for C52: the call returns what the second implementation returned. -/
example : ∃ i a, Answered two find succeeded i a (.ok [.str g!"x", .nil]) ∧ failedVals find [.str g!"x", .nil] = false :=
  C52_success two demoTypes find (g!"_d", .nil) args succeeded _ _ setup.call rfl rfl
    (locs_exec setup succeeded_exec) rfl rfl

/-- A case for the number of starts: two, no tick, one failure. -/
example : startCount succeeded = 2 ∧ tickCount succeeded = 0 ∧ failureCount find succeeded = 1 := by decide

/-- A case for the arguments. -/
example : implCalls (childEvents 1 succeeded) = [⟨.obj 11, g!"Find", implArgs, .ok [.str g!"x", .nil]⟩] := by rfl

/-! ## All implementations fail -/

/-- The second implementation fails, too. -/
def allFailed : List FLabel := failed ++ [
  .child 1 ⟨.impl (.obj 11) g!"Find" implArgs 2, Except.ok ⟨[.str [], .obj 30], rfl⟩⟩,
  .child 1 ⟨.lib g!"fmt.Errorf" [.str g!"%T: %v", .obj 11, .obj 30] 1, Except.ok ⟨[.obj 31], rfl⟩⟩,
  .comm 1 [.str [], .obj 31],
  .main ⟨.sendNext, ()⟩,
  .main ⟨.lib g!"err.Error" [.obj 31] 1, Except.ok ⟨[.str g!"b"], rfl⟩⟩,
  .main ⟨.lib g!"strings.Join" [.slice [.str g!"a", .str g!"b"], .str g!";"] 1, Except.ok ⟨[.str g!"a;b"], rfl⟩⟩,
  .main ⟨.lib g!"errors.New" [.str g!"a;b"] 1, Except.ok ⟨[.obj 40], rfl⟩⟩,
  .main ⟨.lib g!"cancel" [.obj 8] 0, Except.ok ⟨[], rfl⟩⟩,
  .main ⟨.stopTicker, ()⟩]

theorem allFailed_exec : ExecL two setup allFailed ⟨st 1 false true false, .over (.ret [.str [], .obj 40]), some .over,
    [.over (.ret []), .over (.ret [])]⟩ := by
  have e1 : ExecL two setup _ ⟨st 0 false false, .select (.obj 8) (.obj 7) 1 [.str g!"a"], some .over,
      [.over (.ret []), .wrapping (.obj 11) implArgs [.str [], .obj 30]]⟩ :=
    failed_exec.step (.child (i := 1) (by nopanic) rfl (.ret (.obj 11) implArgs ⟨[.str [], .obj 30], rfl⟩) rfl)
  have e2 : ExecL two setup _ ⟨st 0 false false, .select (.obj 8) (.obj 7) 1 [.str g!"a"], some .over,
      [.over (.ret []), .sending implArgs [.str [], .obj 31]]⟩ :=
    e1.step (.child (i := 1) (by nopanic) rfl (.wrap (.obj 11) implArgs [.str [], .obj 30] ⟨[.obj 31], rfl⟩)
      ⟨⟨.obj 31, rfl, rfl⟩, rfl⟩)
  have e3 : ExecL two setup _ ⟨st 0 false false, .sendNext (.obj 8) (.obj 7) 1 [.str g!"a"] (.obj 31), some .over,
      [.over (.ret []), .over (.ret [])]⟩ :=
    e2.step (.comm (by nopanic) (i := 1) rfl (Or.inr ⟨_, .received (.obj 8) (.obj 7) 1 [.str g!"a"] [.str [], .obj 31]⟩)
      (Or.inl ⟨_, .send implArgs [.str [], .obj 31] rfl .other⟩))
  have e4 : ExecL two setup _ ⟨st 1 false false, .errText (.obj 8) (.obj 7) 1 [.str g!"a"] (.obj 31), some .over,
      [.over (.ret []), .over (.ret [])]⟩ :=
    e3.step (.main (by nopanic) (.sendNext (.obj 8) (.obj 7) 1 [.str g!"a"] (.obj 31)) ⟨by decide, rfl⟩)
  have e5 : ExecL two setup _ ⟨st 1 false false, .join (.obj 8) [.str g!"a", .str g!"b"], some .over,
      [.over (.ret []), .over (.ret [])]⟩ :=
    e4.step (.main (by nopanic) (.errText (.obj 8) (.obj 7) 1 [.str g!"a"] (.obj 31) ⟨[.str g!"b"], rfl⟩)
      ⟨⟨[.str g!"b"], rfl⟩, rfl⟩)
  have e6 : ExecL two setup _ ⟨st 1 false false, .mkErr (.obj 8) (.str g!"a;b"), some .over,
      [.over (.ret []), .over (.ret [])]⟩ :=
    e5.step (.main (by nopanic) (.join (.obj 8) [.str g!"a", .str g!"b"] ⟨[.str g!"a;b"], rfl⟩) ⟨⟨[.str g!"a;b"], rfl⟩, rfl⟩)
  have e7 : ExecL two setup _ ⟨st 1 false false, .cancelling (.obj 8) (.ret [.str [], .obj 40]), some .over,
      [.over (.ret []), .over (.ret [])]⟩ :=
    e6.step (.main (by nopanic) (.mkErr (.obj 8) (.str g!"a;b") ⟨[.obj 40], rfl⟩) ⟨⟨.obj 40, rfl, rfl⟩, rfl⟩)
  have e8 : ExecL two setup _ ⟨st 1 false true, .stopping (.ret [.str [], .obj 40]), some .over,
      [.over (.ret []), .over (.ret [])]⟩ :=
    e7.step (.main (by nopanic) (.cancel (.obj 8) (.ret [.str [], .obj 40]) ⟨[], rfl⟩) ⟨rfl, rfl⟩)
  exact e8.step (.main (by nopanic) (.stop _) rfl)

/-- A case for C52: the call fails because all implementations failed. -/
example : (∀ i, i < two.impls.length → ∃ a vs', Answered two find allFailed i a (.ok vs') ∧ failedVals find vs' = true) ∨
    FLabel.done ∈ allFailed :=
  C52_failure two demoTypes find (g!"_d", .nil) args allFailed _ _ setup.call rfl
    (locs_exec setup allFailed_exec) rfl rfl

/-! ## The context is done -/

/-- The context of the caller is done while the first implementation runs. -/
def expired : List FLabel := begun ++ [
  .done,
  .main ⟨.recvOrDone (.obj 7), none⟩,
  .main ⟨.lib g!"ctx.Err" [.obj 7] 1, Except.ok ⟨[.obj 50], rfl⟩⟩,
  .main ⟨.lib g!"strings.Join" [.slice [], .str g!";"] 1, Except.ok ⟨[.str []], rfl⟩⟩,
  .main ⟨.lib g!"fmt.Errorf" [.str g!"%w: %s", .obj 50, .str []] 1, Except.ok ⟨[.obj 51], rfl⟩⟩,
  .main ⟨.lib g!"cancel" [.obj 8] 0, Except.ok ⟨[], rfl⟩⟩,
  .main ⟨.stopTicker, ()⟩]

def stDone (cancelled ticking : Bool) : FState := ⟨0, 2, ticking, false, some (.obj 7), true, cancelled, false⟩

theorem expired_exec : ExecL two setup expired ⟨stDone true false, .over (.ret [.str [], .obj 51]),
    some (.waiting scope 0), [.calling (.obj 10) implArgs]⟩ := by
  have e1 : ExecL two setup _ ⟨stDone false true, .select (.obj 8) (.obj 7) 2 [], some (.waiting scope 0),
      [.calling (.obj 10) implArgs]⟩ :=
    begun_exec.step (.done (by nopanic))
  have e2 : ExecL two setup _ ⟨stDone false true, .ctxErr (.obj 8) (.obj 7) [], some (.waiting scope 0),
      [.calling (.obj 10) implArgs]⟩ :=
    e1.step (.main (by nopanic) (.done (.obj 8) (.obj 7) 2 []) ⟨Or.inl rfl, rfl⟩)
  have e3 : ExecL two setup _ ⟨stDone false true, .joinDone (.obj 8) [] (.obj 50), some (.waiting scope 0),
      [.calling (.obj 10) implArgs]⟩ :=
    e2.step (.main (by nopanic) (.ctxErr (.obj 8) (.obj 7) [] ⟨[.obj 50], rfl⟩) ⟨⟨[.obj 50], rfl⟩, rfl⟩)
  have e4 : ExecL two setup _ ⟨stDone false true, .errorf (.obj 8) (.obj 50) (.str []), some (.waiting scope 0),
      [.calling (.obj 10) implArgs]⟩ :=
    e3.step (.main (by nopanic) (.joinDone (.obj 8) [] (.obj 50) ⟨[.str []], rfl⟩) ⟨⟨[.str []], rfl⟩, rfl⟩)
  have e5 : ExecL two setup _ ⟨stDone false true, .cancelling (.obj 8) (.ret [.str [], .obj 51]), some (.waiting scope 0),
      [.calling (.obj 10) implArgs]⟩ :=
    e4.step (.main (by nopanic) (.errorf (.obj 8) (.obj 50) (.str []) ⟨[.obj 51], rfl⟩) ⟨⟨.obj 51, rfl, rfl⟩, rfl⟩)
  have e6 : ExecL two setup _ ⟨stDone true true, .stopping (.ret [.str [], .obj 51]), some (.waiting scope 0),
      [.calling (.obj 10) implArgs]⟩ :=
    e5.step (.main (by nopanic) (.cancel (.obj 8) (.ret [.str [], .obj 51]) ⟨[], rfl⟩) ⟨rfl, rfl⟩)
  exact e6.step (.main (by nopanic) (.stop _) rfl)

/-- A case for C52 in which the first implementation was not waited for. -/
example : Answer two demoTypes find args expired (.ret [.str [], .obj 51]) :=
  C52_outcome two demoTypes find (g!"_d", .nil) args expired _ _ setup.call (fun _ => rfl)
    (locs_exec setup expired_exec) rfl

/-! ## The launcher remains -/

/-- The first implementation succeeds. -/
def first : List FLabel := begun ++ [
  .child 0 ⟨.impl (.obj 10) g!"Find" implArgs 2, Except.ok ⟨[.str g!"x", .nil], rfl⟩⟩,
  .comm 0 [.str g!"x", .nil],
  .main ⟨.lib g!"cancel" [.obj 8] 0, Except.ok ⟨[], rfl⟩⟩,
  .main ⟨.stopTicker, ()⟩]

def firstEnd : FConf (MLoc find) (LLoc find) CLoc :=
  ⟨st 0 false true false, .over (.ret [.str g!"x", .nil]), some (.waiting scope 0), [.over (.ret [])]⟩

theorem first_exec : ExecL two setup first firstEnd := by
  have e1 : ExecL two setup _ ⟨st 0 false false, .select (.obj 8) (.obj 7) 2 [], some (.waiting scope 0),
      [.sending implArgs [.str g!"x", .nil]]⟩ :=
    begun_exec.step (.child (i := 0) (by nopanic) rfl (.ret (.obj 10) implArgs ⟨[.str g!"x", .nil], rfl⟩) rfl)
  have e2 : ExecL two setup _ ⟨st 0 false false, .cancelling (.obj 8) (.ret [.str g!"x", .nil]), some (.waiting scope 0),
      [.over (.ret [])]⟩ :=
    e1.step (.comm (by nopanic) (i := 0) rfl (Or.inr ⟨_, .received (.obj 8) (.obj 7) 2 [] [.str g!"x", .nil]⟩)
      (Or.inl ⟨_, .send implArgs [.str g!"x", .nil] rfl .other⟩))
  have e3 : ExecL two setup _ ⟨st 0 false true, .stopping (.ret [.str g!"x", .nil]), some (.waiting scope 0),
      [.over (.ret [])]⟩ :=
    e2.step (.main (by nopanic) (.cancel (.obj 8) (.ret [.str g!"x", .nil]) ⟨[], rfl⟩) ⟨rfl, rfl⟩)
  exact e3.step (.main (by nopanic) (.stop _) rfl)

/-! ## A result is lost -/

/-- `Name() string`. -/
def name : Method := ⟨[], [], g!"Name", [], [⟨[], [], g!"s1", g!"string", false⟩], false, false⟩

def one : Fallback := ⟨[.obj 10], 5⟩

theorem nameSetup : Setup demoTypes name (g!"_d", .nil) [] :=
  ⟨⟨⟨by decide, fun h => by (cases h), fun h => by (cases h)⟩, by decide, by decide⟩, fun h => by (cases h)⟩

def nameScope : Scope name := scopePlain one nameSetup

/-- The implementation returns before the method waits for its result. -/
def lost : List FLabel := [
  .main ⟨.newTicker 5, Except.ok ()⟩,
  .main ⟨.go .launcher nameScope.env, ()⟩,
  .launcher ⟨.go .impl (nameScope.childEnv 0 (.obj 10)), ()⟩,
  .child 0 ⟨.impl (.obj 10) g!"Name" [] 1, Except.ok ⟨[.str g!"x"], rfl⟩⟩,
  .child 0 ⟨.sendOrSkip [.str g!"x"], false⟩]

def lostEnd : FConf (MLoc name) (LLoc name) CLoc :=
  ⟨⟨0, 1, true, false, none, false, false, false⟩, .recv, some .over, [.over (.ret [])]⟩

theorem lost_exec : ExecL one nameSetup lost lostEnd := by
  have e0 : ExecL one nameSetup _ _ := .start
  have e1 : ExecL one nameSetup _ ⟨⟨0, 1, true, false, none, false, false, false⟩, .launch nameScope none, none, []⟩ :=
    e0.step (.main (by nopanic) (.tickerPlain rfl) (Or.inl ⟨by decide, rfl, rfl⟩))
  have e2 : ExecL one nameSetup _ ⟨⟨0, 1, true, false, none, false, false, false⟩, .recv, some (.at nameScope 0), []⟩ :=
    e1.step (.goLauncher (by nopanic) (.goPlain nameScope) ⟨nameScope, rfl, rfl⟩)
  have e3 : ExecL one nameSetup _ ⟨⟨0, 1, true, false, none, false, false, false⟩, .recv, some .over,
      [.calling (.obj 10) []]⟩ :=
    e2.step (.goImpl (by nopanic) rfl (.go nameScope 0 (.obj 10) rfl)
      ⟨_, _, childEnv_impl nameScope 0 _, childEnv_args nameSetup nameScope 0 _, rfl⟩)
  have e4 : ExecL one nameSetup _ ⟨⟨0, 1, true, false, none, false, false, false⟩, .recv, some .over,
      [.sending [] [.str g!"x"]]⟩ :=
    e3.step (.child (i := 0) (by nopanic) rfl (.ret (.obj 10) [] ⟨[.str g!"x"], rfl⟩) rfl)
  exact e4.step (.child (i := 0) (by nopanic) rfl (.sendOrSkip [] [.str g!"x"] rfl false) ⟨rfl, rfl⟩)

end FallbackDemo

/-! ## C53 does not hold in full -/

/-- The steps of a system on locations are those of the programs. -/
theorem later_locs {G : GoTypes} {m : Method} {recv : Str × Val} {args : List Val} {d : Fallback} {h : Setup G m recv args}
    {c : FConf (MLoc m) (LLoc m) CLoc} {t : FConf (Tree Outcome) (Tree Outcome) (Tree Outcome)}
    (hl : Later (d.sys m) ((sim d h).conf c) t) : ∃ c', (sim d h).conf c' = t ∧ Later (locs d h) c c' := by
  induction hl with
  | now => exact ⟨c, rfl, .now⟩
  | step _ hs ih =>
    obtain ⟨c', rfl, hc⟩ := ih
    obtain ⟨c'', rfl, hs'⟩ := (sim d h).step hs
    exact ⟨c'', rfl, .step hc hs'⟩

/-- Nothing can move the launcher any more. -/
def Abandoned {m : Method} (g : Scope m) (i : Nat) (c : FConf (MLoc m) (LLoc m) CLoc) : Prop :=
  (∃ o, c.main = .over o) ∧ c.launcher = some (.waiting g i) ∧ c.shared.next = 0 ∧ c.shared.pending = false ∧
  c.shared.ticking = false

theorem abandoned_step {G : GoTypes} {m : Method} {recv : Str × Val} {args : List Val} {d : Fallback}
    {h : Setup G m recv args} {g : Scope m} {i : Nat} {c c' : FConf (MLoc m) (LLoc m) CLoc} {l : FLabel}
    (ha : Abandoned g i c) (hs : FStep (locs d h) c l c') : Abandoned g i c' := by
  obtain ⟨⟨o, ho⟩, hl, hn, hp, ht⟩ := ha
  cases hs with
  | main _ hm _ => rw [ho] at hm; cases hm
  | goLauncher _ hm _ => rw [ho] at hm; cases hm
  | launcher _ hr hm hs =>
    rw [hl] at hr
    cases hr
    cases hm with
    | next _ _ b =>
      cases b with
      | true => exact absurd hs.1 (by omega)
      | false => exact absurd hs.1 (by rw [hp]; simp)
  | goImpl _ hr hm _ => rw [hl] at hr; cases hr; cases hm
  | child _ hi hm hs =>
    have : ∀ s', s' = c.shared → Abandoned g i ⟨s', c.main, c.launcher, c.children⟩ := by
      rintro _ rfl; exact ⟨⟨o, ho⟩, hl, hn, hp, ht⟩
    cases hm with
    | ret impl a vs => exact this _ hs
    | panic impl a v => exact this _ hs
    | wrap impl a vs es => exact this _ hs.2
    | wrapPanic impl a vs v => exact this _ hs.2
    | send a vs hc r =>
      cases r with
      | done => exact this _ hs.2
      | other => exact hs.elim
    | sendOrSkip a vs hc r =>
      cases r with
      | true => exact hs.elim
      | false => exact this _ hs.2
  | comm _ hi hr _ => rcases hr with hr | ⟨ctx, hr⟩ <;> (rw [ho] at hr; cases hr)
  | wait _ hr => rcases hr with hr | ⟨ctx, hr⟩ <;> (rw [ho] at hr; cases hr)
  | tick _ h => rw [ht] at h; cases h
  | done _ => exact ⟨⟨o, ho⟩, hl, hn, hp, ht⟩

/-- **C53, counterexample** There are executions after which the goroutine that starts the implementations
waits for ever although the method has returned and all implementations that were called have returned. -/
theorem C53_launcher_leaks : ∃ (d : Fallback) (m : Method) (recv : Str × Val) (args : List Val) (L : List FLabel)
    (c : FConf (Tree Outcome) (Tree Outcome) (Tree Outcome)), Callable m recv fallbackIdents args ∧ m.acceptsContext = true ∧
    m.returnsError = true ∧ d.Exec demoTypes m recv args L c ∧ Finished c.main ∧ (∀ t ∈ c.children, Finished t) ∧
    ∀ c', Later (d.sys m) c c' → ∃ t, c'.launcher = some t ∧ ¬ Finished t := by
  refine ⟨FallbackDemo.two, find, (g!"_d", .nil), FallbackDemo.args, FallbackDemo.first, _, FallbackDemo.setup.call, rfl, rfl,
    locs_exec FallbackDemo.setup FallbackDemo.first_exec, ⟨_, rfl⟩, ?_, ?_⟩
  · intro t ht
    obtain rfl := List.mem_singleton.1 ht
    exact ⟨_, rfl⟩
  · intro c' hl
    obtain ⟨c', rfl, hl'⟩ := later_locs hl
    clear hl
    have : Abandoned FallbackDemo.scope 0 c' := by
      induction hl' with
      | now => exact ⟨⟨_, rfl⟩, rfl, rfl, rfl, rfl⟩
      | step _ hs ih => exact abandoned_step ih hs
    refine ⟨_, by rw [FSim.conf, this.2.1]; rfl, ?_⟩
    rintro ⟨o, ho⟩
    cases ho

/-- The method waits for a result and no goroutine has one. -/
def Forsaken {m : Method} (c : FConf (MLoc m) (LLoc m) CLoc) : Prop :=
  c.main = .recv ∧ c.launcher = some .over ∧ ∀ y ∈ c.children, y = .over (.ret [])

theorem forsaken_step {G : GoTypes} {m : Method} {recv : Str × Val} {args : List Val} {d : Fallback}
    {h : Setup G m recv args} {c c' : FConf (MLoc m) (LLoc m) CLoc} {l : FLabel}
    (ha : Forsaken c) (hs : FStep (locs d h) c l c') : Forsaken c' := by
  obtain ⟨ho, hl, hk⟩ := ha
  cases hs with
  | main _ hm hs =>
    rw [ho] at hm
    cases hm
    exact hs.elim
  | goLauncher _ hm _ => rw [ho] at hm; cases hm
  | launcher _ hr hm hs => rw [hl] at hr; cases hr; cases hm
  | goImpl _ hr hm _ => rw [hl] at hr; cases hr; cases hm
  | child _ hi hm hs =>
    rw [hk _ (List.mem_of_getElem? hi)] at hm
    cases hm
  | comm _ hi hr hm =>
    rw [hk _ (List.mem_of_getElem? hi)] at hm
    rcases hm with ⟨ctx, hm⟩ | ⟨_, hm⟩ <;> cases hm
  | wait _ hr => exact ⟨ho, hl, hk⟩
  | tick _ h => exact ⟨ho, hl, hk⟩
  | done _ => exact ⟨ho, hl, hk⟩

/-- **C53, counterexample** There are executions in which all implementations have returned, none failed, and
the method never returns. -/
theorem C53_answer_lost : ∃ (d : Fallback) (m : Method) (recv : Str × Val) (args : List Val) (L : List FLabel)
    (c : FConf (Tree Outcome) (Tree Outcome) (Tree Outcome)), Callable m recv fallbackIdents args ∧ m.returnsError = false ∧
    d.Exec demoTypes m recv args L c ∧
    (∀ i, i < d.impls.length → ∃ a vs, Answered d m L i a (.ok vs) ∧ failedVals m vs = false) ∧ 0 < d.impls.length ∧
    ∀ c', Later (d.sys m) c c' → ¬ Finished c'.main := by
  refine ⟨FallbackDemo.one, FallbackDemo.name, (g!"_d", .nil), [], FallbackDemo.lost, _, FallbackDemo.nameSetup.call, rfl,
    locs_exec FallbackDemo.nameSetup FallbackDemo.lost_exec, ?_, by decide, ?_⟩
  · intro i hi
    have : i = 0 := by
      have : i < 1 := hi
      omega
    subst this
    exact ⟨[], [.str g!"x"], ⟨.obj 10, rfl, rfl⟩, rfl⟩
  · intro c' hl
    obtain ⟨c', rfl, hl'⟩ := later_locs hl
    clear hl
    have : Forsaken c' := by
      induction hl' with
      | now => exact ⟨rfl, rfl, fun y hy => List.mem_singleton.1 hy⟩
      | step _ hs ih => exact forsaken_step ih hs
    rintro ⟨o, ho⟩
    have ho : MLoc.tree FallbackDemo.one FallbackDemo.nameSetup c'.main = .ret o := ho
    rw [this.1] at ho
    cases ho

/-- C53 does not hold in full: both halves are false. -/
theorem C53_full_false : ¬ C53_full := by
  intro h
  have ha : FallbackDemo.lostEnd.Alive (locs FallbackDemo.one FallbackDemo.nameSetup) := by
    rintro x hx ⟨v, rfl⟩
    simp [FallbackDemo.lostEnd] at hx
  have hq : Quiet (locs FallbackDemo.one FallbackDemo.nameSetup) FallbackDemo.lostEnd := by
    intro l c' hs
    cases hs with
    | main _ hm hs => cases hm; exact hs.elim
    | goLauncher _ hm _ => cases hm
    | launcher _ hr hm hs => cases hr; cases hm
    | goImpl _ hr hm _ => cases hr; cases hm
    | child _ hi hm hs =>
      rw [List.mem_singleton.1 (List.mem_of_getElem? hi)] at hm
      cases hm
    | comm _ hi hr hm =>
      rw [List.mem_singleton.1 (List.mem_of_getElem? hi)] at hm
      rcases hm with ⟨ctx, hm⟩ | ⟨_, hm⟩ <;> cases hm
    | wait _ hr => rfl
    | tick _ h => rfl
    | done _ => rfl
  have := (h FallbackDemo.one demoTypes FallbackDemo.name (g!"_d", .nil) [] FallbackDemo.lost _ FallbackDemo.nameSetup.call
    FallbackDemo.nameSetup.shape (locs_exec FallbackDemo.nameSetup FallbackDemo.lost_exec)
    ((sim _ _).alive.2 ha) (locs_quiet hq)).1 ⟨0, [], [.str g!"x"], ⟨.obj 10, rfl, rfl⟩, rfl⟩
  obtain ⟨o, ho⟩ := this
  cases ho

/-! ## Cases for the partial theorems -/

/-- A case for `C53_answers_partial` and `C53_children_end_partial`: after the first implementation succeeded. -/
example : Finished ((sim FallbackDemo.two FallbackDemo.setup).conf FallbackDemo.firstEnd).main ∧
    Answered FallbackDemo.two find FallbackDemo.first 0 FallbackDemo.implArgs (.ok [.str g!"x", .nil]) ∧
    Quiet (FallbackDemo.two.sys find) ((sim FallbackDemo.two FallbackDemo.setup).conf FallbackDemo.firstEnd) := by
  refine ⟨⟨_, rfl⟩, ⟨_, rfl, rfl⟩, locs_quiet ?_⟩
  intro l c' hs
  cases hs with
  | main _ hm hs => cases hm
  | goLauncher _ hm _ => cases hm
  | launcher _ hr hm hs =>
    cases hr
    cases hm with
    | next _ _ b =>
      cases b with
      | true => exact absurd hs.1 (by decide)
      | false => exact absurd hs.1 (by decide)
  | goImpl _ hr hm _ => cases hr; cases hm
  | child _ hi hm hs =>
    rw [List.mem_singleton.1 (List.mem_of_getElem? hi)] at hm
    cases hm
  | comm _ hi hr hm => rcases hr with hr | ⟨_, hr⟩ <;> cases hr
  | wait _ hr => rfl
  | tick _ h => rfl
  | done _ => rfl

end Gowrap.Props
