import Verif.Proofs.FallbackInv
/-!
# The fallback decorator: progress
-/

namespace Gowrap

open Spec

namespace Fallback

variable {G : GoTypes} {m : Method} {recv : Str × Val} {args : List Val} {d : Fallback} {h : Setup G m recv args}

/-! ## The goroutines that were started -/

/-- The launcher starts the implementations in order; neither it nor the method calls one. -/
structure Starts (d : Fallback) (L : List FLabel) (k : Nat) : Prop where
  count : startCount L = k
  method : implCalls (methodEvents L) = []
  launcher : implCalls (launcherEvents L) = []

theorem launcherEvents_snoc (L : List FLabel) (l : FLabel) :
    launcherEvents (L ++ [l]) = launcherEvents L ++ (FLabel.ofLauncher l).toList := by
  cases l <;> simp [launcherEvents, FLabel.ofLauncher]

theorem Starts.other {L : List FLabel} {k : Nat} {l : FLabel} (hs : Starts d L k) (h1 : FLabel.ofMethod l = none)
    (h2 : FLabel.ofLauncher l = none) : Starts d (L ++ [l]) k := by
  refine ⟨?_, ?_, ?_⟩
  · rw [startCount, launcherEvents_snoc, h2]
    simpa [startCount] using hs.count
  · rw [methodEvents_snoc, h1]
    simpa using hs.method
  · rw [launcherEvents_snoc, h2]
    simpa using hs.launcher

theorem main_no_impl {x x' : MLoc m} {e : Event} (hs : MLoc.Step d h x e x') : implCalls [e] = [] := by
  cases hs <;> rfl

theorem launcher_no_impl {x x' : LLoc m} {e : Event} (hs : LLoc.Step d x e x') : implCalls [e] = [] := by
  cases hs <;> rfl

theorem execL_starts {L : List FLabel} {c : FConf (MLoc m) (LLoc m) CLoc} (he : ExecL d h L c) :
    Starts d L c.children.length := by
  induction he with
  | start => exact ⟨rfl, rfl, rfl⟩
  | step he hs ih =>
    have main : ∀ {L k e}, Starts d L k → implCalls [e] = [] → Starts d (L ++ [.main e]) k := by
      intro L k e ih hn
      refine ⟨?_, ?_, ?_⟩
      · rw [startCount, launcherEvents_snoc]
        simpa [FLabel.ofLauncher, startCount] using ih.count
      · rw [methodEvents_snoc, implCalls_append, ih.method]
        exact hn
      · rw [launcherEvents_snoc]
        simpa [FLabel.ofLauncher] using ih.launcher
    cases hs with
    | main ha hx hh => exact main ih (main_no_impl hx)
    | goLauncher ha hx hr => exact main ih rfl
    | @launcher e r r' s' ha hr hx hh =>
      cases hx with
      | go g i impl himpl => exact hh.elim
      | next g i b =>
        refine ⟨?_, ?_, ?_⟩
        · rw [startCount, launcherEvents_snoc, List.countP_append]
          exact ih.count
        · rw [methodEvents_snoc]
          simpa [FLabel.ofMethod] using ih.method
        · rw [launcherEvents_snoc, implCalls_append, ih.launcher]
          rfl
    | @goImpl env r r' y ha hr hx hy =>
      refine ⟨?_, ?_, ?_⟩
      · rw [startCount, launcherEvents_snoc, List.countP_append, List.length_append]
        have := ih.count
        rw [startCount] at this
        rw [this]
        rfl
      · rw [methodEvents_snoc]
        simpa [FLabel.ofMethod] using ih.method
      · rw [launcherEvents_snoc, implCalls_append, ih.launcher]
        rfl
    | child ha hy hx hh =>
      rw [List.length_set]
      exact ih.other rfl rfl
    | comm ha hy hx hx' =>
      rw [List.length_set]
      exact ih.other rfl rfl
    | wait ha hx => exact ih.other rfl rfl
    | tick ha ht => exact ih.other rfl rfl
    | done ha => exact ih.other rfl rfl

/-- The first thing which the launcher does. -/
theorem execL_first {L : List FLabel} {c : FConf (MLoc m) (LLoc m) CLoc} (he : ExecL d h L c) :
    (launcherEvents L = [] ∧ ∀ r, c.launcher = some r → ∃ g, r = .at g 0) ∨
      ∃ env rest, launcherEvents L = ⟨.go .impl env, ()⟩ :: rest ∧ env g!"_impl" = d.impls[0]? := by
  induction he with
  | start => exact Or.inl ⟨rfl, fun r hr => by cases hr⟩
  | @step L c c' l he hs ih =>
    have hi := execL_inv he
    have other : FLabel.ofLauncher l = none → c'.launcher = c.launcher →
        (launcherEvents (L ++ [l]) = [] ∧ ∀ r, c'.launcher = some r → ∃ g, r = .at g 0) ∨
          ∃ env rest, launcherEvents (L ++ [l]) = ⟨.go .impl env, ()⟩ :: rest ∧ env g!"_impl" = d.impls[0]? := by
      intro hl hc
      rw [launcherEvents_snoc, hl, hc]
      simpa using ih
    cases hs with
    | main ha hx hh => exact other rfl rfl
    | @goLauncher env x' r ha hx hr =>
      rcases ih with ih | ⟨env', rest, ih, hn⟩
      · refine Or.inl ⟨by rw [launcherEvents_snoc, ih.1]; rfl, ?_⟩
        obtain ⟨g, _, rfl⟩ := hr
        intro r hr
        cases hr
        exact ⟨g, rfl⟩
      · refine Or.inr ⟨env', rest, ?_, hn⟩
        rw [launcherEvents_snoc, ih]
        simp [FLabel.ofLauncher]
    | @launcher e r r' s' ha hr hx hh =>
      cases hx with
      | go g i impl himpl => exact hh.elim
      | next g i b =>
        rcases ih with ⟨_, ih⟩ | ⟨env', rest, ih, hn⟩
        · obtain ⟨g', hg⟩ := ih _ hr
          cases hg
        · exact Or.inr ⟨env', rest ++ [⟨.nextOrTick, b⟩], by rw [launcherEvents_snoc, ih]; rfl, hn⟩
    | @goImpl env r r' y ha hr hx hy =>
      cases hx with
      | go g i impl himpl =>
        rcases ih with ⟨h0, ih⟩ | ⟨env', rest, ih, hn⟩
        · obtain ⟨g', hg⟩ := ih _ hr
          cases hg
          exact Or.inr ⟨_, [], by rw [launcherEvents_snoc, h0]; rfl, by rw [childEnv_impl, himpl]⟩
        · exact Or.inr ⟨env', rest ++ [⟨.go .impl (g.childEnv i impl), ()⟩], by rw [launcherEvents_snoc, ih]; rfl, hn⟩
    | child ha hy hx hh => exact other rfl rfl
    | comm ha hy hx hx' => exact other rfl rfl
    | wait ha hx => exact other rfl rfl
    | tick ha ht => exact other rfl rfl
    | done ha => exact other rfl rfl

/-! ## The number of steps -/

/-- How many steps the method can still take, with those of the goroutines it has not started yet. -/
def MLoc.rank (n : Nat) : MLoc m → Nat
  | .ticker => 8 * n + 10
  | .withCancel => 8 * n + 9
  | .launch _ _ => 8 * n + 8
  | .recv => 2
  | .select _ _ fuel _ => 3 * fuel + 7
  | .sendNext _ _ fuel _ _ => 3 * fuel + 6
  | .errText _ _ fuel _ _ => 3 * fuel + 5
  | .join _ _ => 4
  | .mkErr _ _ => 3
  | .ctxErr _ _ _ => 5
  | .joinDone _ _ _ => 4
  | .errorf _ _ _ => 3
  | .cancelling _ _ => 2
  | .stopping _ => 1
  | .over _ => 0

def LLoc.rank (n : Nat) : Option (LLoc m) → Nat
  | none => 0
  | some (.at _ i) => 5 * (n - i)
  | some (.waiting _ i) => 5 * (n - (i + 1)) + 1
  | some .over => 0

def CLoc.rank : CLoc → Nat
  | .calling _ _ => 3
  | .wrapping _ _ _ => 2
  | .sending _ _ => 1
  | .over _ => 0

def rank (d : Fallback) (c : FConf (MLoc m) (LLoc m) CLoc) : Nat :=
  c.main.rank d.impls.length + LLoc.rank d.impls.length c.launcher + (c.children.map CLoc.rank).sum

theorem result_rank (n : Nat) (f : Val) (vs : List Val) : (MLoc.result f vs : MLoc m).rank n ≤ 2 := by
  rw [MLoc.result]
  split <;> simp [MLoc.rank]

theorem got_rank (n : Nat) (f ctx : Val) (fuel : Nat) (errs vs : List Val) :
    (MLoc.got f ctx fuel errs vs : MLoc m).rank n ≤ 3 * fuel + 6 := by
  have := result_rank (m := m) n f vs
  rw [MLoc.got]
  split
  · split
    · split
      · omega
      · simp [MLoc.rank]
    · omega
  · simp [MLoc.rank]

theorem main_rank {x x' : MLoc m} {e : Event} (hs : MLoc.Step d h x e x') :
    x'.rank d.impls.length < x.rank d.impls.length := by
  cases hs with
  | received f ctx fuel errs vs =>
    exact Nat.lt_of_le_of_lt (got_rank d.impls.length f ctx fuel errs vs) (Nat.lt_succ_self _)
  | done f ctx fuel errs =>
    rw [MLoc.done]
    split <;> simp only [MLoc.rank] <;> omega
  | errText f ctx fuel errs e ss =>
    rw [MLoc.again.eq_def]
    split
    · simp only [MLoc.rank]; omega
    · split <;> simp only [MLoc.rank] <;> omega
  | recv vs => split <;> simp [MLoc.rank]
  | go g f => simp only [MLoc.rank]; omega
  | goPlain g => simp only [MLoc.rank]; omega
  | _ => simp only [MLoc.rank]; omega

theorem main_rank_go {x x' : MLoc m} {env : Env} (hs : MLoc.Step d h x ⟨.go .launcher env, ()⟩ x') :
    x'.rank d.impls.length + 5 * d.impls.length < x.rank d.impls.length := by
  cases hs with
  | go g f => simp only [MLoc.rank]; omega
  | goPlain g => simp only [MLoc.rank]; omega

theorem child_rank {y y' : CLoc} {e : Event} (hs : CLoc.Step m y e y') : y'.rank < y.rank := by
  cases hs with
  | ret impl a vs =>
    rw [CLoc.after]
    split <;> simp [CLoc.rank]
  | _ => simp [CLoc.rank]

theorem sum_set {ys : List CLoc} : ∀ {i : Nat} {y y' : CLoc}, ys[i]? = some y → y'.rank < y.rank →
    ((ys.set i y').map CLoc.rank).sum < (ys.map CLoc.rank).sum := by
  induction ys with
  | nil => intro i y y' hy; simp at hy
  | cons x xs ih =>
    intro i y y' hy hr
    cases i with
    | zero =>
      simp at hy
      subst hy
      simp
      omega
    | succ i =>
      have := ih (by simpa using hy) hr
      simp at this ⊢
      omega

/-- Steps of the decorator and the implementations. -/
def FLabel.busy : FLabel → Bool
  | .tick => false
  | .done => false
  | .wait => false
  | _ => true

theorem rank_step {c c' : FConf (MLoc m) (LLoc m) CLoc} {l : FLabel} (hs : FStep (locs d h) c l c') :
    rank d c' + (if FLabel.busy l then 1 else 0) ≤ rank d c := by
  cases hs with
  | main ha hx hh =>
    have := main_rank hx
    simp only [rank, FLabel.busy, if_true] at this ⊢
    omega
  | goLauncher ha hx hr =>
    have := main_rank_go hx
    obtain ⟨g, _, rfl⟩ := hr
    simp only [rank, FLabel.busy, if_true, LLoc.rank, Nat.sub_zero] at this ⊢
    omega
  | launcher ha hr hx hh =>
    cases hx with
    | go g i impl himpl => exact hh.elim
    | next g i b =>
      simp only [rank, FLabel.busy, if_true, hr, LLoc.rank]
      omega
  | goImpl ha hr hx hy =>
    cases hx with
    | go g i impl himpl =>
      obtain ⟨impl', a, _, _, rfl⟩ := hy
      have := (List.getElem?_eq_some_iff.1 himpl).1
      have hat : LLoc.rank d.impls.length (some (LLoc.at g i)) = 5 * (d.impls.length - i) := rfl
      simp only [rank, FLabel.busy, if_true, hr, List.map_append, List.sum_append, List.map_cons, List.map_nil,
        List.sum_cons, List.sum_nil, CLoc.rank]
      have hl : LLoc.rank d.impls.length (some (LLoc.started d g i)) ≤ 5 * (d.impls.length - (i + 1)) + 1 := by
        rw [LLoc.started]
        split
        · exact Nat.le_refl _
        · exact Nat.zero_le _
      omega
  | child ha hy hx hh =>
    have := sum_set hy (child_rank hx)
    simp only [rank, FLabel.busy, if_true]
    omega
  | @comm i vs x' y y' ha hy hx hx' =>
    obtain ⟨⟨a', rfl⟩, rfl⟩ := sends_loc hx'
    have h1 := sum_set hy (y' := .over (.ret [])) (by simp [CLoc.rank])
    have h2 : x'.rank d.impls.length < c.main.rank d.impls.length := by
      rcases hx with hx | ⟨ctx, hx⟩
      · exact main_rank hx
      · exact main_rank hx
    simp only [rank, FLabel.busy, if_true]
    omega
  | wait ha hx => exact Nat.le_refl _
  | tick ha ht => exact Nat.le_refl _
  | done ha => exact Nat.le_refl _

theorem execL_bound {L : List FLabel} {c : FConf (MLoc m) (LLoc m) CLoc} (he : ExecL d h L c) :
    L.countP FLabel.busy + rank d c ≤ 8 * d.impls.length + 10 := by
  induction he with
  | start => simp [rank, MLoc.rank, LLoc.rank]
  | step he hs ih =>
    have := rank_step hs
    rw [List.countP_append, List.countP_singleton]
    omega

/-! ## What can happen next -/

theorem alive_conf {c : FConf (MLoc m) (LLoc m) CLoc} {v : Val} (ha : c.Alive (locs d h)) : CLoc.over (.panic v) ∉ c.children :=
  fun hx => ha _ hx ⟨v, rfl⟩

/-- The method takes a step unless it waits for a result or is over. -/
theorem main_moves {L : List FLabel} {c : FConf (MLoc m) (LLoc m) CLoc} (hi : Inv d G args L c) (ha : c.Alive (locs d h))
    (hq : Quiet (locs d h) c) : c.main.receiving ∨ ∃ o, c.main = .over o := by
  obtain ⟨s, x, r, ys⟩ := c
  have main : ∀ {e : Event} {x' : MLoc m} {s' : FState}, MLoc.Step d h x e x' → fallbackHandler s e s' → False := by
    intro e x' s' h1 h2
    have := hq _ _ (FStep.main (c := ⟨s, x, r, ys⟩) ha h1 h2)
    cases this
  have go : ∀ {env : Env} {x' : MLoc m} {g : Scope m}, MLoc.Step d h x ⟨.go .launcher env, ()⟩ x' → env = g.env → False := by
    intro env x' g h1 h2
    have := hq _ _ (FStep.goLauncher (c := ⟨s, x, r, ys⟩) ha h1 ⟨g, h2, rfl⟩)
    cases this
  cases x with
  | ticker =>
    by_cases hn : 0 < d.interval
    · cases hc : m.acceptsContext with
      | true => exact (main (.ticker hc) (Or.inl ⟨hn, rfl, rfl⟩)).elim
      | false => exact (main (.tickerPlain hc) (Or.inl ⟨hn, rfl, rfl⟩)).elim
    · exact (main (.tickerPanic .nil) (Or.inr ⟨by omega, ⟨.nil, rfl⟩, rfl⟩)).elim
  | withCancel =>
    exact (main (.derivePanic .nil) (libs_withCancel.2 (Or.inr ⟨⟨.nil, rfl⟩, rfl⟩))).elim
  | launch g f =>
    cases f with
    | some f => exact (go (.go g f) rfl).elim
    | none => exact (go (.goPlain g) rfl).elim
  | recv => exact Or.inl trivial
  | select f ctx fuel errs => exact Or.inl trivial
  | sendNext f ctx fuel errs e =>
    obtain ⟨_, _, _, _, hlt, _, hsd⟩ := hi.main
    have h1 := hi.next
    have h2 := hi.cap
    exact (main (.sendNext f ctx fuel errs e) ⟨show s.next < s.cap by simp only at h1 h2; omega, rfl⟩).elim
  | errText f ctx fuel errs e =>
    exact (main (.errText f ctx fuel errs e ⟨[.nil], rfl⟩) ((libs_other (by simp)).2 ⟨⟨_, rfl⟩, rfl⟩)).elim
  | join f errs => exact (main (.join f errs ⟨[.nil], rfl⟩) ((libs_other (by simp)).2 ⟨⟨_, rfl⟩, rfl⟩)).elim
  | mkErr f t =>
    exact (main (.mkErr f t ⟨[.obj 0], rfl⟩) ((libs_err (Or.inr rfl)).2 ⟨⟨.obj 0, rfl, rfl⟩, rfl⟩)).elim
  | ctxErr f ctx errs => exact (main (.ctxErr f ctx errs ⟨[.nil], rfl⟩) ((libs_other (by simp)).2 ⟨⟨_, rfl⟩, rfl⟩)).elim
  | joinDone f errs e => exact (main (.joinDone f errs e ⟨[.nil], rfl⟩) ((libs_other (by simp)).2 ⟨⟨_, rfl⟩, rfl⟩)).elim
  | errorf f e t =>
    exact (main (.errorf f e t ⟨[.obj 0], rfl⟩) ((libs_err (Or.inl rfl)).2 ⟨⟨.obj 0, rfl, rfl⟩, rfl⟩)).elim
  | cancelling f o => exact (main (.cancel f o ⟨[], rfl⟩) (libs_cancel.2 ⟨rfl, rfl⟩)).elim
  | stopping o => exact (main (s' := { s with ticking := false }) (.stop o) rfl).elim
  | over o => exact Or.inr ⟨o, rfl⟩

/-- Where a goroutine can be when nothing happens. -/
theorem child_quiet {L : List FLabel} {c : FConf (MLoc m) (LLoc m) CLoc} (_hi : Inv d G args L c) (ha : c.Alive (locs d h))
    (hq : Quiet (locs d h) c) {i : Nat} {y : CLoc} (hy : c.children[i]? = some y) :
    (∃ impl a, y = .calling impl a) ∨ (∃ a vs, y = .sending a vs) ∨ y = .over (.ret []) := by
  cases y with
  | calling impl a => exact Or.inl ⟨impl, a, rfl⟩
  | wrapping impl a vs =>
    have := hq _ _ (FStep.child ha hy (.wrap impl a vs ⟨[.obj 0], rfl⟩) ((libs_err (Or.inl rfl)).2 ⟨⟨.obj 0, rfl, rfl⟩, rfl⟩))
    cases this
  | sending a vs => exact Or.inr (Or.inl ⟨a, vs, rfl⟩)
  | over o =>
    refine Or.inr (Or.inr ?_)
    obtain ⟨impl, _, hx⟩ := _hi.kids.each i _ hy
    rcases hx with ⟨v, rfl, _⟩ | ⟨rfl, _⟩
    · exact absurd (List.mem_of_getElem? hy) (alive_conf ha)
    · rfl

theorem argsOf_head {s : FState} {ctx : Val} (hc : m.acceptsContext = true) (hd : s.derived = some ctx) :
    (argsOf m args s).headD .nil = ctx := by
  rw [argsOf, if_pos hc, hd]
  rfl

/-- At the `select`, the results of goroutines that have ended were received. -/
theorem select_quiet {L : List FLabel} {c : FConf (MLoc m) (LLoc m) CLoc} (hi : Inv d G args L c) (ha : c.Alive (locs d h))
    (hq : Quiet (locs d h) c) {f ctx : Val} {fuel : Nat} {errs : List Val} (hm : c.main = .select f ctx fuel errs)
    {i : Nat} {y : CLoc} (hy : c.children[i]? = some y) :
    (∃ impl a, y = .calling impl a) ∨ ∃ impl vs, y = .over (.ret []) ∧ (i, vs) ∈ received L ∧ failedVals m vs = true ∧
      Just m impl (argsOf m args c.shared) (childEvents i L) vs := by
  have hmi := hi.main
  rw [hm] at hmi
  obtain ⟨hl, hc, hd, hg, hn, hsd, hlt⟩ := hmi
  have notDone : c.shared.callerDone = true → False := by
    intro hdone
    have := hq _ _ (FStep.main (c := c) (x' := MLoc.done G f ctx errs) (e := ⟨.recvOrDone ctx, none⟩) ha
      (by rw [hm]; exact .done f ctx fuel errs) ⟨Or.inl hdone, rfl⟩)
    cases this
  rcases child_quiet hi ha hq hy with hcall | ⟨a, vs, rfl⟩ | rfl
  · exact Or.inl hcall
  · have := hq _ _ (FStep.comm (c := c) ha hy (x' := MLoc.got f ctx fuel errs vs)
      (Or.inr ⟨ctx, by rw [hm]; exact .received f ctx fuel errs vs⟩) (Or.inl ⟨_, .send a vs hc .other⟩))
    cases this
  · obtain ⟨impl, himpl, hx⟩ := hi.kids.each i _ hy
    rcases hx with ⟨v, hv, _⟩ | ⟨_, evs', vs, hj, hx⟩
    · cases hv
    · rcases hx with ⟨rfl, hs⟩ | ⟨_, _, hdone⟩ | ⟨hc', _⟩
      · exact Or.inr ⟨impl, vs, rfl, hs, hg.failed _ hs, hj⟩
      · rcases hdone with hdone | hdone
        · exact (notDone hdone).elim
        · rw [hl.live] at hdone; cases hdone
      · rw [hc] at hc'; cases hc'

theorem implCalls_own {impl : Val} {a : List Val} {s : FState} {evs : List Event} {P : List Val → Prop} {y : CLoc}
    (hy : y.Inv m impl a s evs P) : (implCalls evs = [] ∧ y = .calling impl a) ∨
      ∃ r, implCalls evs = [⟨impl, m.name, a, r⟩] := by
  cases y with
  | calling impl' a' =>
    obtain ⟨rfl, rfl, rfl⟩ := hy
    exact Or.inl ⟨rfl, rfl⟩
  | wrapping impl' a' vs =>
    obtain ⟨rfl, rfl, _, vs', rfl, rfl⟩ := hy
    exact Or.inr ⟨_, rfl⟩
  | sending a' vs =>
    obtain ⟨rfl, hj⟩ := hy
    obtain ⟨vs', h1, _⟩ := hj.impl
    exact Or.inr ⟨_, h1⟩
  | over o =>
    rcases hy with ⟨v, rfl, rfl⟩ | ⟨rfl, evs', vs, hj, hx⟩
    · exact Or.inr ⟨_, rfl⟩
    · obtain ⟨vs', h1, _⟩ := hj.impl
      refine Or.inr ⟨.ok vs', ?_⟩
      rcases hx with ⟨rfl, _⟩ | ⟨_, rfl, _⟩ | ⟨_, rfl⟩
      · exact h1
      · rw [implCalls_append, h1]; rfl
      · rw [implCalls_append, h1]; rfl

/-- A method with a context returns when an implementation has succeeded. -/
theorem answers {L : List FLabel} {c : FConf (MLoc m) (LLoc m) CLoc} (hi : Inv d G args L c) (ha : c.Alive (locs d h))
    (hq : Quiet (locs d h) c) (hc : m.acceptsContext = true) {i : Nat} {a vs : List Val} (hans : Answered d m L i a (.ok vs))
    (hs : failedVals m vs = false) : ∃ o, c.main = .over o := by
  rcases main_moves hi ha hq with hr | ho
  · exfalso
    obtain ⟨impl, himpl, hcalls⟩ := hans
    cases hm : c.main with
    | recv =>
      have := hi.main
      rw [hm] at this
      rw [this.2.1] at hc
      cases hc
    | select f ctx fuel errs =>
      cases hy : c.children[i]? with
      | none =>
        rw [hi.kids.rest i (by simpa using hy)] at hcalls
        cases hcalls
      | some y =>
        rcases select_quiet hi ha hq hm hy with ⟨impl', a', rfl⟩ | ⟨impl', vs', rfl, _, hf, hj⟩
        · obtain ⟨_, _, hx⟩ := hi.kids.each i _ hy
          rw [hx.2.2] at hcalls
          cases hcalls
        · obtain ⟨vs'', h1, h2, _⟩ := hj.impl
          rw [h1] at hcalls
          cases hcalls
          rw [h2, hf] at hs
          cases hs
    | _ => rw [hm] at hr; exact hr
  · exact ho

/-- A method with a context returns when all implementations that were started have returned. -/
theorem answers_all {L : List FLabel} {c : FConf (MLoc m) (LLoc m) CLoc} (hi : Inv d G args L c) (ha : c.Alive (locs d h))
    (hq : Quiet (locs d h) c) (hc : m.acceptsContext = true) (hn : 0 < d.impls.length)
    (hret : ∀ impl a, CLoc.calling impl a ∉ c.children) : ∃ o, c.main = .over o := by
  rcases main_moves hi ha hq with hr | ho
  · exfalso
    cases hm : c.main with
    | recv =>
      have := hi.main
      rw [hm] at this
      rw [this.2.1] at hc
      cases hc
    | select f ctx fuel errs =>
      have hmi := hi.main
      rw [hm] at hmi
      obtain ⟨hl, _, hd, hg, hf, hsd, hlt⟩ := hmi
      -- all results were received
      have hall : ∀ i, i < c.children.length → i ∈ (received L).map Prod.fst := by
        intro i hlt
        have hy : c.children[i]? = some c.children[i] := List.getElem?_eq_getElem hlt
        rcases select_quiet hi ha hq hm hy with ⟨impl, a, hx⟩ | ⟨_, vs, _, hv, _⟩
        · exact absurd (hx ▸ List.getElem_mem hlt) (hret impl a)
        · exact List.mem_map.2 ⟨(i, vs), hv, rfl⟩
      have hcount : c.children.length ≤ errs.length := by
        have h1 := (List.nodup_range (n := c.children.length)).length_le_of_subset (l₂ := (received L).map Prod.fst)
          (fun i hx => hall i (List.mem_range.1 hx))
        rw [List.length_range, List.length_map, hg.len] at h1
        exact h1
      have hL := hi.launcher
      have hleast := hi.least
      cases hlr : c.launcher with
      | none =>
        have := hl.started
        rw [hlr] at this
        cases this
      | some r =>
        rw [hlr] at hL hleast
        cases r with
        | «at» g j =>
          obtain ⟨h1, h2, h3⟩ := hL
          have hj : j < d.impls.length := by omega
          have := hq _ _ (FStep.goImpl (c := c) ha hlr (.go g j d.impls[j] (List.getElem?_eq_getElem hj))
            ⟨_, _, childEnv_impl g j _, childEnv_args h g j _, rfl⟩)
          cases this
        | waiting g j =>
          obtain ⟨h1, h2, h3⟩ := hL
          simp only [waits] at hleast
          have hnx : 0 < c.shared.next := by omega
          have := hq _ _ (FStep.launcher (c := c) (e := ⟨.nextOrTick, true⟩) ha hlr (.next g j true) ⟨hnx, rfl⟩)
          cases this
        | over =>
          obtain ⟨h1, h2⟩ := hL
          omega
    | _ => rw [hm] at hr; exact hr
  · exact ho

/-- When the method has ended, the goroutines of implementations that have returned end. -/
theorem children_end {L : List FLabel} {c : FConf (MLoc m) (LLoc m) CLoc} (hi : Inv d G args L c) (ha : c.Alive (locs d h))
    (hq : Quiet (locs d h) c) {o : Outcome} (hm : c.main = .over o) {y : CLoc} (hy : y ∈ c.children) :
    (∃ impl a, y = .calling impl a) ∨ y = .over (.ret []) := by
  obtain ⟨i, hi'⟩ := List.getElem?_of_mem hy
  rcases child_quiet hi ha hq hi' with hcall | ⟨a, vs, rfl⟩ | rfl
  · exact Or.inl hcall
  · exfalso
    obtain ⟨impl, himpl, rfl, hj⟩ := hi.kids.each i _ hi'
    have hmi := hi.main
    rw [hm] at hmi
    rcases hmi.2 with he | ⟨hst, hd, _, hcan⟩
    · have hl : c.launcher = none := by
        have := he.started
        cases hl : c.launcher with
        | none => rfl
        | some r => rw [hl] at this; cases this
      have := hi.launcher
      rw [hl] at this
      rw [List.eq_nil_of_length_eq_zero this] at hy
      cases hy
    · cases hc : m.acceptsContext with
      | true =>
        obtain ⟨ctx, f, hd, _⟩ := hd hc
        have := hq _ _ (FStep.child (c := c) (s' := c.shared) ha hi' (.send _ vs hc .done)
          ⟨Or.inr ⟨hcan hc, by rw [argsOf_head hc hd, hd]⟩, rfl⟩)
        cases this
      | false =>
        have hw : c.shared.waiting = false := by
          cases hw : c.shared.waiting with
          | false => rfl
          | true =>
            have := hi.waiting hw
            rw [hm] at this
            exact this.elim
        have := hq _ _ (FStep.child (c := c) (s' := c.shared) ha hi' (.sendOrSkip _ vs hc false) ⟨hw, rfl⟩)
        cases this
  · exact Or.inr rfl

end Fallback

end Gowrap
