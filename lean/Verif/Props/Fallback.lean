import Verif.Proofs.FallbackLive
import Verif.Props.Control
/-!
# C52, C53: the fallback decorator
-/

namespace Gowrap.Props

open Gowrap Spec Fallback

/-! ## From locations to programs -/

theorem over_of_ret {G : GoTypes} {m : Method} {recv : Str × Val} {args : List Val} {d : Fallback} {h : Setup G m recv args}
    {x : MLoc m} {o : Outcome} (hx : x.tree d h = .ret o) : x = .over o := by
  cases x with
  | over o' => rw [MLoc.tree] at hx; cases hx; rfl
  | launch g f => cases f <;> (rw [MLoc.tree] at hx; cases hx)
  | select f ctx fuel errs => rw [MLoc.tree, loopT] at hx; cases hx
  | ticker => rw [MLoc.tree, bodyT] at hx; cases hx
  | recv => rw [MLoc.tree, recvT] at hx; cases hx
  | join f errs => rw [MLoc.tree, joinT] at hx; cases hx
  | mkErr f t => rw [MLoc.tree, newT] at hx; cases hx
  | joinDone f errs e => rw [MLoc.tree, joinDoneT] at hx; cases hx
  | errorf f e t => rw [MLoc.tree, errorfT] at hx; cases hx
  | cancelling f o => rw [MLoc.tree, cancelT] at hx; cases hx
  | stopping o => rw [MLoc.tree, stopT] at hx; cases hx
  | _ => rw [MLoc.tree] at hx; cases hx

theorem quiet_locs {G : GoTypes} {m : Method} {recv : Str × Val} {args : List Val} {d : Fallback} {h : Setup G m recv args}
    {c : FConf (MLoc m) (LLoc m) CLoc} (hq : Quiet (d.sys m) ((sim d h).conf c)) : Quiet (locs d h) c :=
  fun _ _ hs => hq _ _ ((sim d h).step' hs)

theorem locs_quiet {G : GoTypes} {m : Method} {recv : Str × Val} {args : List Val} {d : Fallback} {h : Setup G m recv args}
    {c : FConf (MLoc m) (LLoc m) CLoc} (hq : Quiet (locs d h) c) : Quiet (d.sys m) ((sim d h).conf c) := by
  intro l c' hs
  obtain ⟨c'', _, hs'⟩ := (sim d h).step hs
  exact hq _ _ hs'

/-! ## C52 -/

/-- **C52** A call ends with the results of an implementation that succeeded, with the aggregated error after
all implementations were called and failed, or with the error of the context after it was done.  It panics
only because the interval is not positive or `context.WithCancel` panics. -/
theorem C52_outcome (d : Fallback) (G : GoTypes) (m : Method) (recv : Str × Val) (args : List Val) (L : List FLabel)
    (c : FConf (Tree Outcome) (Tree Outcome) (Tree Outcome)) (o : Outcome) (h : Callable m recv fallbackIdents args)
    (hshape : m.returnsError = true → m.acceptsContext = true) (he : d.Exec G m recv args L c) (ho : c.main = .ret o) :
    Answer d G m args L o := by
  obtain ⟨c', rfl, he'⟩ := exec_locs (G := G) ⟨h, hshape⟩ he
  have hi := execL_inv he'
  have hm := hi.main
  rw [over_of_ret ho] at hm
  have answered : ∀ {i : Nat} {vs : List Val}, (i, vs) ∈ received L →
      ∃ a vs', Answered d m L i a (.ok vs') ∧ failedVals m vs' = failedVals m vs ∧ (failedVals m vs = false → vs' = vs) := by
    intro i vs hv
    obtain ⟨_, impl, himpl, hj⟩ := hi.kids.sent i vs hv
    obtain ⟨vs', h1, h2, h3⟩ := hj.impl
    exact ⟨_, vs', ⟨impl, himpl, h1⟩, h2, h3⟩
  cases hm.1 with
  | success i vs hv hs =>
    obtain ⟨a, vs', h1, _, h3⟩ := answered hv
    have := h3 hs
    subst this
    exact .success i a vs' h1 hs
  | allFailed errs t e hr hg hn hj hnew hnil =>
    refine .allFailed errs t e hr ?_ ⟨hg.asked, hg.told⟩ hn hj hnew hnil
    intro i hlt
    -- all numbers are among the senders
    have : ∃ vs, (i, vs) ∈ received L := by
      false_or_by_contra
      rename_i hno
      have := hi.kids.count hlt fun vs hv => hno ⟨vs, hv⟩
      have := hg.len
      omega
    obtain ⟨vs, hv⟩ := this
    obtain ⟨a, vs', h1, h2, _⟩ := answered hv
    exact ⟨a, vs', h1, h2.trans (hg.failed _ hv)⟩
  | done errs ctx ce t e hr hg hd hc hj hnew hnil =>
    exact .done errs ctx ce t e hr (hi.done.1 hd) ⟨hg.asked, hg.told⟩ hg.failed hc hj hnew hnil
  | zeros hr hc hd => exact .zeros hr hc (hi.done.1 hd)
  | interval v hn => exact .interval v hn
  | context v hc => exact .context v hc

/-- The model of a call never ends without an outcome; in particular the loop never needs more iterations
than the model has. -/
theorem C52_returns (d : Fallback) (G : GoTypes) (m : Method) (recv : Str × Val) (args : List Val) (L : List FLabel)
    (c : FConf (Tree Outcome) (Tree Outcome) (Tree Outcome)) (h : Callable m recv fallbackIdents args)
    (hshape : m.returnsError = true → m.acceptsContext = true) (he : d.Exec G m recv args L c) :
    c.main ≠ .ret .stuck ∧ c.launcher ≠ some (.ret .stuck) ∧ .ret .stuck ∉ c.children := by
  obtain ⟨c', rfl, he'⟩ := exec_locs (G := G) ⟨h, hshape⟩ he
  have hi := execL_inv he'
  refine ⟨?_, ?_, ?_⟩
  · intro ho
    have := C52_outcome d G m recv args L _ _ h hshape he ho
    cases this
  · intro ho
    have hL := hi.launcher
    simp only [FSim.conf] at ho
    cases hl : c'.launcher with
    | none => rw [hl] at ho; cases ho
    | some r =>
      rw [hl] at ho hL
      have ho : LLoc.tree d r = .ret .stuck := Option.some.inj ho
      cases r with
      | over => cases ho
      | waiting g i => cases ho
      | «at» g i =>
        cases hx : d.impls[i]? with
        | none =>
          rw [LLoc.tree, List.drop_eq_nil_of_le (by simpa using hx)] at ho
          cases ho
        | some impl => rw [launch_at d g hx] at ho; cases ho
  · intro ho
    obtain ⟨y, hy, hyt⟩ := List.mem_map.1 ho
    obtain ⟨i, hi'⟩ := List.getElem?_of_mem hy
    obtain ⟨impl, _, hx⟩ := hi.kids.each i y hi'
    have hyt : CLoc.tree m y = .ret .stuck := hyt
    cases y with
    | over o =>
      rw [CLoc.tree] at hyt
      cases hyt
      rcases hx with ⟨v, hv, _⟩ | ⟨hv, _⟩ <;> cases hv
    | calling impl a => rw [CLoc.tree, childT] at hyt; cases hyt
    | wrapping impl a vs => rw [CLoc.tree] at hyt; cases hyt
    | sending a vs => rw [CLoc.tree, sendT] at hyt; split at hyt <;> cases hyt

/-- A call that returns without error returns what an implementation returned without error. -/
theorem C52_success (d : Fallback) (G : GoTypes) (m : Method) (recv : Str × Val) (args : List Val) (L : List FLabel)
    (c : FConf (Tree Outcome) (Tree Outcome) (Tree Outcome)) (vs : List Val) (h : Callable m recv fallbackIdents args)
    (hctx : m.acceptsContext = true) (herr : m.returnsError = true) (he : d.Exec G m recv args L c)
    (ho : c.main = .ret (.ret vs)) (hnil : failedVals m vs = false) :
    ∃ i a, Answered d m L i a (.ok vs) ∧ failedVals m vs = false := by
  have ha := C52_outcome d G m recv args L c _ h (fun _ => hctx) he ho
  have hfail : ∀ e : Val, e.isNil = false → failedVals m (failing G m e) = true := by
    intro e hn
    rw [failedVals_eq, herr]
    simp [failing, lastOf, hn]
  generalize hvs : Outcome.ret vs = o at ha
  cases ha with
  | success i a vs' h1 h2 => cases hvs; exact ⟨i, a, h1, h2⟩
  | allFailed errs t e hr h1 ht hn hj hnew hn' => cases hvs; rw [hfail e hn'] at hnil; cases hnil
  | done errs ctx ce t e hr hd ht hf hc hj hnew hn' => cases hvs; rw [hfail e hn'] at hnil; cases hnil
  | zeros hr hc hd => rw [herr] at hr; cases hr
  | interval v hn => cases hvs
  | context v hc => cases hvs

/-- A call that returns an error does so because all implementations were called and failed, or because the
context was done. -/
theorem C52_failure (d : Fallback) (G : GoTypes) (m : Method) (recv : Str × Val) (args : List Val) (L : List FLabel)
    (c : FConf (Tree Outcome) (Tree Outcome) (Tree Outcome)) (vs : List Val) (h : Callable m recv fallbackIdents args)
    (hctx : m.acceptsContext = true) (he : d.Exec G m recv args L c)
    (ho : c.main = .ret (.ret vs)) (hfail : failedVals m vs = true) :
    (∀ i, i < d.impls.length → ∃ a vs', Answered d m L i a (.ok vs') ∧ failedVals m vs' = true) ∨ FLabel.done ∈ L := by
  have ha := C52_outcome d G m recv args L c _ h (fun _ => hctx) he ho
  generalize hvs : Outcome.ret vs = o at ha
  cases ha with
  | success i a vs' h1 h2 => cases hvs; rw [h2] at hfail; cases hfail
  | allFailed errs t e hr h1 ht hn hj hnew hn' => exact Or.inl h1
  | done errs ctx ce t e hr hd ht hf hc hj hnew hn' => exact Or.inr hd
  | zeros hr hc hd => exact Or.inr hd
  | interval v hn => cases hvs
  | context v hc => cases hvs

/-- Each implementation is called at most once, by its own goroutine, with the arguments of the caller and a
context derived from that of the caller. -/
theorem C52_calls (d : Fallback) (G : GoTypes) (m : Method) (recv : Str × Val) (args : List Val) (L : List FLabel)
    (c : FConf (Tree Outcome) (Tree Outcome) (Tree Outcome)) (h : Callable m recv fallbackIdents args)
    (hshape : m.returnsError = true → m.acceptsContext = true) (he : d.Exec G m recv args L c) :
    implCalls (methodEvents L) = [] ∧ implCalls (launcherEvents L) = [] ∧
    ∀ i, implCalls (childEvents i L) = [] ∨ ∃ a r, Answered d m L i a r ∧ ImplArgs m args L a := by
  obtain ⟨c', rfl, he'⟩ := exec_locs (G := G) ⟨h, hshape⟩ he
  have hi := execL_inv he'
  have hs := execL_starts he'
  refine ⟨hs.method, hs.launcher, fun i => ?_⟩
  cases hy : c'.children[i]? with
  | none => exact Or.inl (by rw [hi.kids.rest i (by simpa using hy)]; rfl)
  | some y =>
    obtain ⟨impl, himpl, hx⟩ := hi.kids.each i y hy
    rcases implCalls_own hx with ⟨h0, _⟩ | ⟨r, hr⟩
    · exact Or.inl h0
    · refine Or.inr ⟨_, r, ⟨impl, himpl, hr⟩, ?_⟩
      rw [ImplArgs]
      by_cases hc : m.acceptsContext = true
      · rw [if_pos hc]
        -- the launcher was started after the context was derived
        have hlt := (List.getElem?_eq_some_iff.1 hy).1
        have hst : c'.launcher.isSome = true := by
          cases hl : c'.launcher with
          | none =>
            have := hi.launcher
            rw [hl] at this
            have : c'.children.length = 0 := this
            omega
          | some r => rfl
        have hd : DInv m args (methodEvents L) c'.shared := by
          have hm := hi.main
          rw [hst] at hm
          cases hloc : c'.main <;> rw [hloc] at hm
          case ticker => exact absurd hm.1.started (by simp)
          case withCancel => exact absurd hm.1.started (by simp)
          case launch => exact absurd hm.1.started (by simp)
          case stopping => exact hm.2.elim (fun he => absurd he.started (by simp)) (·.2.1)
          case over => exact hm.2.elim (fun he => absurd he.started (by simp)) (·.2.1)
          all_goals exact hm.1.derived
        obtain ⟨ctx, f, h1, h2⟩ := hd hc
        exact ⟨ctx, f, by rw [argsOf, if_pos hc, h1]; rfl, h2⟩
      · rw [if_neg hc, argsOf, if_neg hc]

/-- One implementation is started immediately; any other only after a tick or a failure that no other start
has used. -/
theorem C52_starts (d : Fallback) (G : GoTypes) (m : Method) (recv : Str × Val) (args : List Val) (L : List FLabel)
    (c : FConf (Tree Outcome) (Tree Outcome) (Tree Outcome)) (h : Callable m recv fallbackIdents args)
    (hshape : m.returnsError = true → m.acceptsContext = true) (he : d.Exec G m recv args L c) :
    startCount L ≤ 1 + tickCount L + failureCount m L ∧
    (∀ i, startCount L ≤ i → childEvents i L = []) ∧
    -- the launcher begins with the first implementation
    (∀ e rest, launcherEvents L = e :: rest → ∃ env, e = ⟨.go .impl env, ()⟩ ∧ env g!"_impl" = d.impls[0]?) ∧
    -- and it need not wait for anything
    (c.Alive (d.sys m) → c.launcher.isSome = true → launcherEvents L = [] → 0 < d.impls.length →
      ∃ env c', FStep (d.sys m) c (.launcher ⟨.go .impl env, ()⟩) c') := by
  obtain ⟨c', rfl, he'⟩ := exec_locs (G := G) ⟨h, hshape⟩ he
  have hi := execL_inv he'
  have hs := execL_starts he'
  refine ⟨?_, ?_, ?_, ?_⟩
  · have hsends : sendsOf (methodEvents L) ≤ failureCount m L := by
      show _ ≤ fails m (received L)
      have hm := hi.main
      cases hloc : c'.main <;> rw [hloc] at hm
      case ticker => rw [hm.1.sends]; exact Nat.zero_le _
      case withCancel => rw [hm.1.sends]; exact Nat.zero_le _
      case launch => rw [hm.1.sends]; exact Nat.zero_le _
      case recv => rw [hm.2.2.2]; exact Nat.zero_le _
      case select => rw [hm.2.2.2.2.2.1, hm.2.2.2.1.fails]; exact Nat.le_refl _
      case sendNext =>
        obtain ⟨_, _, _, ⟨F0, r, hF, hg, hf, _⟩, _, _, hsd⟩ := hm
        rw [hF, hsd, fails, List.countP_append, ← fails, hg.fails]
        omega
      case errText =>
        obtain ⟨_, _, _, ⟨F0, r, hF, hg, hf, _⟩, _, _, hsd⟩ := hm
        rw [hF, hsd, fails, List.countP_append, ← fails, hg.fails]
        simp [hf]
      case join => rw [hm.2.2.2.2, hm.2.2.1.fails]; exact Nat.le_refl _
      case mkErr =>
        obtain ⟨_, _, errs, hg, _, hsd, _⟩ := hm
        rw [hsd, hg.fails]; exact Nat.le_refl _
      case ctxErr => rw [hm.2.2.2.2, hm.2.2.1.fails]; exact Nat.le_refl _
      case joinDone => rw [hm.2.2.2.2.1, hm.2.2.1.fails]; exact Nat.le_refl _
      case errorf =>
        obtain ⟨_, _, _, errs, hg, hsd, _⟩ := hm
        rw [hsd, hg.fails]; exact Nat.le_refl _
      case cancelling => rw [hm.2.2.2]; exact Nat.le_refl _
      case stopping =>
        rcases hm.2 with he | hx
        · rw [he.sends]; exact Nat.zero_le _
        · rw [hx.2.2.1]; exact Nat.le_refl _
      case over =>
        rcases hm.2 with he | hx
        · rw [he.sends]; exact Nat.zero_le _
        · rw [hx.2.2.1]; exact Nat.le_refl _
    have hmost := hi.most
    have hL := hi.launcher
    rw [hs.count]
    have hk : c'.children.length ≤ 1 + waits d.impls.length c'.launcher := by
      cases hl : c'.launcher with
      | none => rw [hl] at hL; have : c'.children.length = 0 := hL; omega
      | some r =>
        rw [hl] at hL
        cases r with
        | «at» g i => have := hL.1; simp only [waits]; omega
        | waiting g i => have := hL.1; simp only [waits]; omega
        | over => have := hL.1; simp only [waits]; omega
    omega
  · intro i hn
    rw [hs.count] at hn
    exact hi.kids.rest i hn
  · intro e rest hl
    rcases execL_first he' with ⟨h0, _⟩ | ⟨env, rest', h1, h2⟩
    · rw [h0] at hl; cases hl
    · rw [h1] at hl
      cases hl
      exact ⟨env, rfl, h2⟩
  · intro ha hst h0 hn
    rcases execL_first he' with ⟨_, hl⟩ | ⟨env, rest', h1, _⟩
    · cases hlr : c'.launcher with
      | none => simp [FSim.conf, hlr] at hst
      | some r =>
        obtain ⟨g, rfl⟩ := hl r hlr
        have := FStep.goImpl (S := locs d ⟨h, hshape⟩) (c := c') ((sim d ⟨h, hshape⟩).alive.1 ha) hlr
          (.go g 0 d.impls[0] (List.getElem?_eq_getElem hn))
          ⟨_, _, childEnv_impl g 0 _, childEnv_args (G := G) ⟨h, hshape⟩ g 0 _, rfl⟩
        exact ⟨_, _, (sim d ⟨h, hshape⟩).step' this⟩
    · rw [h1] at h0; cases h0

/-! ## C53 -/

/-- C53 in full: when nothing more happens by itself and an implementation has succeeded then the method has
returned; and when the method has returned then the goroutines have ended, except those that are inside an
implementation. -/
def C53_full : Prop :=
  ∀ (d : Fallback) (G : GoTypes) (m : Method) (recv : Str × Val) (args : List Val) (L : List FLabel)
    (c : FConf (Tree Outcome) (Tree Outcome) (Tree Outcome)), Callable m recv fallbackIdents args →
    (m.returnsError = true → m.acceptsContext = true) → d.Exec G m recv args L c → c.Alive (d.sys m) → Quiet (d.sys m) c →
    ((∃ i a vs, Answered d m L i a (.ok vs) ∧ failedVals m vs = false) → Finished c.main) ∧
    (Finished c.main → (∀ t, c.launcher = some t → Finished t) ∧ ∀ t ∈ c.children, InsideImpl t ∨ Finished t)

/-- **C53, part** Methods with a context return when an implementation has succeeded, whatever the others
do.  Missing: methods without a context, for which it is false. -/
theorem C53_answers_partial (d : Fallback) (G : GoTypes) (m : Method) (recv : Str × Val) (args : List Val) (L : List FLabel)
    (c : FConf (Tree Outcome) (Tree Outcome) (Tree Outcome)) (h : Callable m recv fallbackIdents args)
    (hctx : m.acceptsContext = true) (he : d.Exec G m recv args L c) (ha : c.Alive (d.sys m)) (hq : Quiet (d.sys m) c)
    (i : Nat) (a vs : List Val) (hans : Answered d m L i a (.ok vs)) (hs : failedVals m vs = false) : Finished c.main := by
  obtain ⟨c', rfl, he'⟩ := exec_locs (G := G) ⟨h, fun _ => hctx⟩ he
  obtain ⟨o, ho⟩ := answers (execL_inv he') ((sim d ⟨h, fun _ => hctx⟩).alive.1 ha) (quiet_locs hq) hctx hans hs
  refine ⟨o, ?_⟩
  show MLoc.tree d _ c'.main = _
  rw [ho]
  rfl

/-- Methods with a context return when all implementations that were started have returned, with or without
error: failures start the remaining implementations without a tick. -/
theorem C53_all_returned_partial (d : Fallback) (G : GoTypes) (m : Method) (recv : Str × Val) (args : List Val) (L : List FLabel)
    (c : FConf (Tree Outcome) (Tree Outcome) (Tree Outcome)) (h : Callable m recv fallbackIdents args)
    (hctx : m.acceptsContext = true) (hn : 0 < d.impls.length) (he : d.Exec G m recv args L c) (ha : c.Alive (d.sys m))
    (hq : Quiet (d.sys m) c) (hret : ∀ t ∈ c.children, ¬ InsideImpl t) : Finished c.main := by
  obtain ⟨c', rfl, he'⟩ := exec_locs (G := G) ⟨h, fun _ => hctx⟩ he
  obtain ⟨o, ho⟩ := answers_all (execL_inv he') ((sim d ⟨h, fun _ => hctx⟩).alive.1 ha) (quiet_locs hq) hctx hn (by
    intro impl a hx
    exact hret _ (List.mem_map_of_mem hx) ⟨impl, m.name, a, m.results.length, _, rfl⟩)
  refine ⟨o, ?_⟩
  show MLoc.tree d _ c'.main = _
  rw [ho]
  rfl

/-- **C53, part** A method without a context returns when an implementation has returned, unless the goroutine
of that implementation found the method not yet waiting and gave up its result. -/
theorem C53_plain_partial (d : Fallback) (G : GoTypes) (m : Method) (recv : Str × Val) (args : List Val) (L : List FLabel)
    (c : FConf (Tree Outcome) (Tree Outcome) (Tree Outcome)) (h : Callable m recv fallbackIdents args)
    (hshape : m.returnsError = true → m.acceptsContext = true) (hctx : m.acceptsContext = false)
    (he : d.Exec G m recv args L c) (ha : c.Alive (d.sys m)) (hq : Quiet (d.sys m) c)
    (i : Nat) (a vs : List Val) (hans : Answered d m L i a (.ok vs))
    (hkept : ∀ vs, ⟨.sendOrSkip vs, false⟩ ∉ childEvents i L) : Finished c.main := by
  obtain ⟨c', rfl, he'⟩ := exec_locs (G := G) ⟨h, hshape⟩ he
  have hi := execL_inv he'
  have ha' := (sim d ⟨h, hshape⟩).alive.1 ha
  have hq' := quiet_locs hq
  rcases main_moves hi ha' hq' with hr | ⟨o, ho⟩
  · exfalso
    obtain ⟨impl, himpl, hcalls⟩ := hans
    have hmi := hi.main
    cases hm : c'.main with
    | recv =>
      rw [hm] at hmi
      obtain ⟨_, _, hnone, _⟩ := hmi
      cases hy : c'.children[i]? with
      | none =>
        rw [hi.kids.rest i (by simpa using hy)] at hcalls
        cases hcalls
      | some y =>
        rcases child_quiet hi ha' hq' hy with ⟨impl', a', rfl⟩ | ⟨a', vs', rfl⟩ | rfl
        · obtain ⟨_, _, hx⟩ := hi.kids.each i _ hy
          rw [hx.2.2] at hcalls
          cases hcalls
        · cases hw : c'.shared.waiting with
          | true =>
            have := hq' _ _ (FStep.comm (c := c') ha' hy (Or.inl (by rw [hm]; exact .recv vs'))
              (Or.inr ⟨hw, .sendOrSkip a' vs' hctx true⟩))
            cases this
          | false =>
            have := hq' _ _ (FStep.child (c := c') (s' := c'.shared) ha' hy (.sendOrSkip a' vs' hctx false) ⟨hw, rfl⟩)
            cases this
        · obtain ⟨_, _, hx⟩ := hi.kids.each i _ hy
          rcases hx with ⟨v, hv, _⟩ | ⟨_, evs', vs', hj, ⟨_, hs⟩ | ⟨hc, _⟩ | ⟨_, hx⟩⟩
          · cases hv
          · have hs : (i, vs') ∈ received L := hs
            rw [hnone] at hs
            cases hs
          · rw [hctx] at hc; cases hc
          · exact hkept vs' (by rw [hx]; simp)
    | select f ctx fuel errs =>
      rw [hm] at hmi
      rw [hmi.2.1] at hctx
      cases hctx
    | _ => rw [hm] at hr; exact hr
  · refine ⟨o, ?_⟩
    show MLoc.tree d _ c'.main = _
    rw [ho]
    rfl

/-- **C53, part** When the method has returned, the goroutines of implementations end as soon as the
implementation has returned.  Missing: the goroutine that starts the others, for which it is false. -/
theorem C53_children_end_partial (d : Fallback) (G : GoTypes) (m : Method) (recv : Str × Val) (args : List Val) (L : List FLabel)
    (c : FConf (Tree Outcome) (Tree Outcome) (Tree Outcome)) (h : Callable m recv fallbackIdents args)
    (hshape : m.returnsError = true → m.acceptsContext = true) (he : d.Exec G m recv args L c) (ha : c.Alive (d.sys m))
    (hq : Quiet (d.sys m) c) (hend : Finished c.main) : ∀ t ∈ c.children, InsideImpl t ∨ Finished t := by
  obtain ⟨c', rfl, he'⟩ := exec_locs (G := G) ⟨h, hshape⟩ he
  obtain ⟨o, ho⟩ := hend
  intro t ht
  obtain ⟨y, hy, rfl⟩ := List.mem_map.1 ht
  rcases children_end (execL_inv he') ((sim d ⟨h, hshape⟩).alive.1 ha) (quiet_locs hq) (over_of_ret ho) hy with
    ⟨impl, a, rfl⟩ | rfl
  · exact Or.inl ⟨impl, m.name, a, m.results.length, _, rfl⟩
  · exact Or.inr ⟨_, rfl⟩

/-- A call and its goroutines take at most `8 n + 10` steps for `n` implementations, so they become quiet
unless an implementation does not return. -/
theorem C53_bounded (d : Fallback) (G : GoTypes) (m : Method) (recv : Str × Val) (args : List Val) (L : List FLabel)
    (c : FConf (Tree Outcome) (Tree Outcome) (Tree Outcome)) (h : Callable m recv fallbackIdents args)
    (hshape : m.returnsError = true → m.acceptsContext = true) (he : d.Exec G m recv args L c) :
    L.countP FLabel.busy ≤ 8 * d.impls.length + 10 := by
  obtain ⟨c', rfl, he'⟩ := exec_locs (G := G) ⟨h, hshape⟩ he
  have := execL_bound he'
  omega

end Gowrap.Props
