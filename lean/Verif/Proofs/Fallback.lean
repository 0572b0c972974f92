import Verif.Proofs.FallbackTrees
import Verif.Proofs.Shared
/-!
# The fallback decorator: locations in the programs

The states of the method and its goroutines are given names, and executions of the generated programs
correspond to executions on these locations.
-/

namespace Gowrap

open Spec

/-! ## Two systems that behave alike -/

/-- The states of `S'` stand for states of `S`. -/
structure FSim {M R C M' R' C' : Type} (S : FSys M R C) (S' : FSys M' R' C') where
  tm : M' → M
  tr : R' → R
  tc : C' → C
  main : ∀ {l e t'}, S.main (tm l) e t' → ∃ l', tm l' = t' ∧ S'.main l e l'
  launcher : ∀ {l e t'}, S.launcher (tr l) e t' → ∃ l', tr l' = t' ∧ S'.launcher l e l'
  child : ∀ {l e t'}, S.child (tc l) e t' → ∃ l', tc l' = t' ∧ S'.child l e l'
  goLauncher : ∀ {l l' env t}, S'.main l ⟨.go .launcher env, ()⟩ l' → S.goLauncher env t →
    ∃ r, tr r = t ∧ S'.goLauncher env r
  goImpl : ∀ {l l' env t}, S'.launcher l ⟨.go .impl env, ()⟩ l' → S.goImpl env t → ∃ y, tc y = t ∧ S'.goImpl env y
  panicked : ∀ {y}, S.panicked (tc y) ↔ S'.panicked y
  main' : ∀ {l e l'}, S'.main l e l' → S.main (tm l) e (tm l')
  launcher' : ∀ {l e l'}, S'.launcher l e l' → S.launcher (tr l) e (tr l')
  child' : ∀ {l e l'}, S'.child l e l' → S.child (tc l) e (tc l')
  goLauncher' : ∀ {l l' env r}, S'.main l ⟨.go .launcher env, ()⟩ l' → S'.goLauncher env r → S.goLauncher env (tr r)
  goImpl' : ∀ {l l' env y}, S'.launcher l ⟨.go .impl env, ()⟩ l' → S'.goImpl env y → S.goImpl env (tc y)

namespace FSim

variable {M R C M' R' C' : Type} {S : FSys M R C} {S' : FSys M' R' C'} (sim : FSim S S')

/-- The configuration for which one stands. -/
def conf (c : FConf M' R' C') : FConf M R C := ⟨c.shared, sim.tm c.main, c.launcher.map sim.tr, c.children.map sim.tc⟩

theorem alive {c : FConf M' R' C'} : (sim.conf c).Alive S ↔ c.Alive S' := by
  simp only [FConf.Alive, conf, List.mem_map, forall_exists_index, and_imp, forall_apply_eq_imp_iff₂, sim.panicked]

theorem receives {x : M'} {vs : List Val} {t' : M} (h : S.Receives (sim.tm x) vs t') :
    ∃ x', sim.tm x' = t' ∧ S'.Receives x vs x' := by
  rcases h with h | ⟨ctx, h⟩
  · obtain ⟨x', h1, h2⟩ := sim.main h
    exact ⟨x', h1, Or.inl h2⟩
  · obtain ⟨x', h1, h2⟩ := sim.main h
    exact ⟨x', h1, Or.inr ⟨ctx, h2⟩⟩

theorem sends {w : Bool} {y : C'} {vs : List Val} {t' : C} (h : S.Sends w (sim.tc y) vs t') :
    ∃ y', sim.tc y' = t' ∧ S'.Sends w y vs y' := by
  rcases h with ⟨ctx, h⟩ | ⟨hw, h⟩
  · obtain ⟨x', h1, h2⟩ := sim.child h
    exact ⟨x', h1, Or.inl ⟨ctx, h2⟩⟩
  · obtain ⟨x', h1, h2⟩ := sim.child h
    exact ⟨x', h1, Or.inr ⟨hw, h2⟩⟩

theorem step {c : FConf M' R' C'} {l : FLabel} {d : FConf M R C} (h : FStep S (sim.conf c) l d) :
    ∃ c', sim.conf c' = d ∧ FStep S' c l c' := by
  have hchild : ∀ {i : Nat} {t : C}, (sim.conf c).children[i]? = some t → ∃ y, c.children[i]? = some y ∧ sim.tc y = t := by
    intro i t hi
    rw [conf, List.getElem?_map] at hi
    cases hc : c.children[i]? with
    | none => rw [hc] at hi; cases hi
    | some y => rw [hc] at hi; exact ⟨y, rfl, Option.some.inj hi⟩
  have hlaunch : ∀ {t : R}, (sim.conf c).launcher = some t → ∃ r, c.launcher = some r ∧ sim.tr r = t := by
    intro t hi
    simp only [conf] at hi
    cases hc : c.launcher with
    | none => rw [hc] at hi; cases hi
    | some y => rw [hc] at hi; exact ⟨y, rfl, Option.some.inj hi⟩
  cases h with
  | main ha h hs =>
    obtain ⟨x', rfl, hx⟩ := sim.main h
    exact ⟨⟨_, x', c.launcher, c.children⟩, rfl, .main (sim.alive.1 ha) hx hs⟩
  | goLauncher ha h hr =>
    obtain ⟨x', rfl, hx⟩ := sim.main h
    obtain ⟨r, rfl, hr'⟩ := sim.goLauncher hx hr
    exact ⟨⟨_, x', some r, c.children⟩, rfl, .goLauncher (sim.alive.1 ha) hx hr'⟩
  | launcher ha hr h hs =>
    obtain ⟨r, hr', rfl⟩ := hlaunch hr
    obtain ⟨x', rfl, hx⟩ := sim.launcher h
    exact ⟨⟨_, c.main, some x', c.children⟩, rfl, .launcher (sim.alive.1 ha) hr' hx hs⟩
  | goImpl ha hr h hy =>
    obtain ⟨r, hr', rfl⟩ := hlaunch hr
    obtain ⟨x', rfl, hx⟩ := sim.launcher h
    obtain ⟨y, rfl, hy'⟩ := sim.goImpl hx hy
    exact ⟨⟨_, c.main, some x', c.children ++ [y]⟩, by simp [conf], .goImpl (sim.alive.1 ha) hr' hx hy'⟩
  | child ha hi h hs =>
    obtain ⟨y, hi', rfl⟩ := hchild hi
    obtain ⟨y', rfl, hy⟩ := sim.child h
    exact ⟨⟨_, c.main, c.launcher, c.children.set _ y'⟩, by simp [conf, List.map_set], .child (sim.alive.1 ha) hi' hy hs⟩
  | comm ha hi h h' =>
    obtain ⟨y, hi', rfl⟩ := hchild hi
    obtain ⟨x', rfl, hx⟩ := sim.receives h
    obtain ⟨y', rfl, hy⟩ := sim.sends h'
    exact ⟨⟨_, x', c.launcher, c.children.set _ y'⟩, by simp [conf, List.map_set], .comm (sim.alive.1 ha) hi' hx hy⟩
  | wait ha h =>
    obtain ⟨x', _, hx⟩ := sim.receives h
    exact ⟨⟨_, c.main, c.launcher, c.children⟩, rfl, .wait (sim.alive.1 ha) hx⟩
  | tick ha h => exact ⟨⟨_, c.main, c.launcher, c.children⟩, rfl, .tick (sim.alive.1 ha) h⟩
  | done ha => exact ⟨⟨_, c.main, c.launcher, c.children⟩, rfl, .done (sim.alive.1 ha)⟩

theorem step' {c c' : FConf M' R' C'} {l : FLabel} (h : FStep S' c l c') : FStep S (sim.conf c) l (sim.conf c') := by
  have hget : ∀ {i : Nat} {y : C'}, c.children[i]? = some y → (sim.conf c).children[i]? = some (sim.tc y) := by
    intro i y hi
    rw [conf, List.getElem?_map, hi]
    rfl
  have hlaunch : ∀ {r : R'}, c.launcher = some r → (sim.conf c).launcher = some (sim.tr r) := by
    intro r hr
    simp [conf, hr]
  have hrecv : ∀ {x x' : M'} {vs : List Val}, S'.Receives x vs x' → S.Receives (sim.tm x) vs (sim.tm x') := by
    rintro x x' vs (h | ⟨ctx, h⟩)
    · exact Or.inl (sim.main' h)
    · exact Or.inr ⟨ctx, sim.main' h⟩
  have hsend : ∀ {w : Bool} {y y' : C'} {vs : List Val}, S'.Sends w y vs y' → S.Sends w (sim.tc y) vs (sim.tc y') := by
    rintro w y y' vs (⟨ctx, h⟩ | ⟨hw, h⟩)
    · exact Or.inl ⟨ctx, sim.child' h⟩
    · exact Or.inr ⟨hw, sim.child' h⟩
  cases h with
  | main ha h hs => exact .main (sim.alive.2 ha) (sim.main' h) hs
  | goLauncher ha h hr => exact .goLauncher (sim.alive.2 ha) (sim.main' h) (sim.goLauncher' h hr)
  | launcher ha hr h hs => exact .launcher (sim.alive.2 ha) (hlaunch hr) (sim.launcher' h) hs
  | goImpl ha hr h hy =>
    have := FStep.goImpl (sim.alive.2 ha) (hlaunch hr) (sim.launcher' h) (sim.goImpl' h hy)
    simpa [conf] using this
  | child ha hi h hs =>
    have := FStep.child (sim.alive.2 ha) (hget hi) (sim.child' h) hs
    simpa [conf, List.map_set] using this
  | comm ha hi h h' =>
    have := FStep.comm (sim.alive.2 ha) (hget hi) (hrecv h) (hsend h')
    simpa [conf, List.map_set] using this
  | wait ha h => exact .wait (sim.alive.2 ha) (hrecv h)
  | tick ha h => exact .tick (sim.alive.2 ha) h
  | done ha => exact .done (sim.alive.2 ha)

theorem exec {n : Nat} {x : M'} {L : List FLabel} {c : FConf M R C} (h : FExec S n (sim.tm x) L c) :
    ∃ c', sim.conf c' = c ∧ FExec S' n x L c' := by
  induction h with
  | start => exact ⟨⟨.init n, x, none, []⟩, rfl, .start⟩
  | step h hs ih =>
    obtain ⟨c', rfl, he⟩ := ih
    obtain ⟨c'', rfl, hs'⟩ := sim.step hs
    exact ⟨c'', rfl, .step he hs'⟩

theorem exec' {n : Nat} {x : M'} {L : List FLabel} {c : FConf M' R' C'} (h : FExec S' n x L c) :
    FExec S n (sim.tm x) L (sim.conf c) := by
  induction h with
  | start => exact .start
  | step h hs ih => exact .step ih (sim.step' hs)

end FSim

/-! ## Locations -/

namespace Fallback

/-- Locations of a goroutine that calls an implementation. -/
inductive CLoc where
  | calling (impl : Val) (a : List Val)
  | wrapping (impl : Val) (a vs : List Val)
  | sending (a vs : List Val)
  | over (o : Outcome)

/-- Locations of the launcher: before it starts implementation `i`, and after. -/
inductive LLoc (m : Method) where
  | at (g : Scope m) (i : Nat)
  | waiting (g : Scope m) (i : Nat)
  | over

/-- Locations of the method. -/
inductive MLoc (m : Method) where
  | ticker
  | withCancel
  | launch (g : Scope m) (f : Option Val)
  | recv
  | select (f ctx : Val) (fuel : Nat) (errs : List Val)
  | sendNext (f ctx : Val) (fuel : Nat) (errs : List Val) (e : Val)
  | errText (f ctx : Val) (fuel : Nat) (errs : List Val) (e : Val)
  | join (f : Val) (errs : List Val)
  | mkErr (f s : Val)
  | ctxErr (f ctx : Val) (errs : List Val)
  | joinDone (f : Val) (errs : List Val) (e : Val)
  | errorf (f e s : Val)
  | cancelling (f : Val) (o : Outcome)
  | stopping (o : Outcome)
  | over (o : Outcome)

variable {G : GoTypes} {m : Method} {recv : Str × Val} {args : List Val}

/-! ### Goroutines that call implementations -/

def CLoc.tree (m : Method) : CLoc → Tree Outcome
  | .calling impl a => childT m impl a
  | .wrapping impl a vs => .vis (.lib g!"fmt.Errorf" [.str g!"%T: %v", impl, lastOf vs] 1) fun
      | .ok es => sendT m a (vs.dropLast ++ [es.1.headD .nil])
      | .error v => .ret (.panic v)
  | .sending a vs => sendT m a vs
  | .over o => .ret o

/-- After the implementation returned. -/
def CLoc.after (m : Method) (impl : Val) (a vs : List Val) : CLoc :=
  if m.returnsError && !(lastOf vs).isNil then .wrapping impl a vs else .sending a vs

inductive CLoc.Step (m : Method) : CLoc → Event → CLoc → Prop
  | ret (impl a) (vs : Vals m.results.length) :
      Step m (.calling impl a) ⟨.impl impl m.name a m.results.length, Except.ok vs⟩ (CLoc.after m impl a vs.1)
  | panic (impl a) (v : Val) :
      Step m (.calling impl a) ⟨.impl impl m.name a m.results.length, Except.error v⟩ (.over (.panic v))
  | wrap (impl a vs) (es : Vals 1) : Step m (.wrapping impl a vs)
      ⟨.lib g!"fmt.Errorf" [.str g!"%T: %v", impl, lastOf vs] 1, Except.ok es⟩ (.sending a (vs.dropLast ++ [es.1.headD .nil]))
  | wrapPanic (impl a vs) (v : Val) : Step m (.wrapping impl a vs)
      ⟨.lib g!"fmt.Errorf" [.str g!"%T: %v", impl, lastOf vs] 1, Except.error v⟩ (.over (.panic v))
  | send (a vs) (h : m.acceptsContext = true) (r : Choice) :
      Step m (.sending a vs) ⟨.sendOrDone (a.headD .nil) vs, r⟩ (.over (.ret []))
  | sendOrSkip (a vs) (h : m.acceptsContext = false) (r : Bool) :
      Step m (.sending a vs) ⟨.sendOrSkip vs, r⟩ (.over (.ret []))

theorem CLoc.after_tree (impl : Val) (a vs : List Val) : (CLoc.after m impl a vs).tree m = wrapT m impl a vs := by
  rw [after, wrapT]
  split <;> rfl

theorem CLoc.step_of {l : CLoc} {e : Event} {t' : Tree Outcome} (h : (l.tree m).Step e t') :
    ∃ l', l'.tree m = t' ∧ CLoc.Step m l e l' := by
  obtain ⟨op, r⟩ := e
  obtain ⟨k, hk, rfl⟩ := h
  cases l with
  | calling impl a =>
    rw [tree, childT] at hk
    injection hk with h1 h2
    subst h1
    cases h2
    cases r with
    | ok vs => exact ⟨_, after_tree impl a vs.1, .ret impl a vs⟩
    | error v => exact ⟨.over (.panic v), rfl, .panic impl a v⟩
  | wrapping impl a vs =>
    rw [tree] at hk
    injection hk with h1 h2
    subst h1
    cases h2
    cases r with
    | ok es => exact ⟨.sending a _, rfl, .wrap impl a vs es⟩
    | error v => exact ⟨.over (.panic v), rfl, .wrapPanic impl a vs v⟩
  | sending a vs =>
    rw [tree, sendT] at hk
    by_cases hc : m.acceptsContext = true
    · rw [if_pos hc] at hk
      injection hk with h1 h2
      subst h1
      cases h2
      exact ⟨.over (.ret []), rfl, .send a vs hc r⟩
    · rw [if_neg hc] at hk
      injection hk with h1 h2
      subst h1
      cases h2
      exact ⟨.over (.ret []), rfl, .sendOrSkip a vs (by simpa using hc) r⟩
  | over o => rw [tree] at hk; cases hk

theorem CLoc.step_tree {l l' : CLoc} {e : Event} (h : CLoc.Step m l e l') : (l.tree m).Step e (l'.tree m) := by
  cases h with
  | ret impl a vs => exact ⟨_, rfl, after_tree impl a vs.1⟩
  | panic impl a v => exact ⟨_, rfl, rfl⟩
  | wrap impl a vs es => exact ⟨_, rfl, rfl⟩
  | wrapPanic impl a vs v => exact ⟨_, rfl, rfl⟩
  | send a vs h r =>
    refine ⟨fun _ => .ret (.ret []), ?_, rfl⟩
    rw [tree, sendT, if_pos h]
  | sendOrSkip a vs h r =>
    refine ⟨fun _ => .ret (.ret []), ?_, rfl⟩
    rw [tree, sendT, if_neg (by rw [h]; simp)]

/-! ### The launcher -/

/-- The variables of the goroutine for implementation `i`. -/
def Scope.childEnv (g : Scope m) (i : Nat) (impl : Val) : Env := (g.env.set g!"_i" (.int i)).set g!"_impl" impl

def LLoc.tree (d : Fallback) : LLoc m → Tree Outcome
  | .at g i => (launch i (d.impls.drop i) g.env).bind goEnd
  | .waiting g i => .vis .nextOrTick fun _ => (launch (i + 1) (d.impls.drop (i + 1)) g.env).bind goEnd
  | .over => .ret (.ret [])

/-- After implementation `i` was started. -/
def LLoc.started (d : Fallback) (g : Scope m) (i : Nat) : LLoc m :=
  if i + 1 < d.impls.length then .waiting g i else .over

inductive LLoc.Step (d : Fallback) : LLoc m → Event → LLoc m → Prop
  | go (g : Scope m) (i : Nat) (impl : Val) (h : d.impls[i]? = some impl) :
      Step d (.at g i) ⟨.go .impl (g.childEnv i impl), ()⟩ (LLoc.started d g i)
  | next (g : Scope m) (i : Nat) (b : Bool) : Step d (.waiting g i) ⟨.nextOrTick, b⟩ (.at g (i + 1))

theorem launch_at (d : Fallback) (g : Scope m) {i : Nat} {impl : Val} (h : d.impls[i]? = some impl) :
    LLoc.tree d (.at g i) = .vis (.go .impl (g.childEnv i impl)) fun _ => (LLoc.started d g i).tree d := by
  have hlt := (List.getElem?_eq_some_iff.1 h).1
  have hd : d.impls.drop i = impl :: d.impls.drop (i + 1) := by
    rw [List.drop_eq_getElem_cons hlt]
    rw [(List.getElem?_eq_some_iff.1 h).2]
  rw [LLoc.tree, hd, launch, LLoc.started]
  refine Tree.vis_congr fun _ => ?_
  by_cases hn : i + 1 < d.impls.length
  · rw [if_pos hn, List.drop_eq_getElem_cons hn]
    rw [LLoc.tree, List.drop_eq_getElem_cons hn]
    rfl
  · rw [if_neg hn, List.drop_eq_nil_of_le (by omega)]
    rfl

theorem LLoc.step_of {d : Fallback} {l : LLoc m} {e : Event} {t' : Tree Outcome} (h : (l.tree d).Step e t') :
    ∃ l', LLoc.tree d l' = t' ∧ LLoc.Step d l e l' := by
  obtain ⟨op, r⟩ := e
  obtain ⟨k, hk, rfl⟩ := h
  cases l with
  | «at» g i =>
    cases hi : d.impls[i]? with
    | none =>
      rw [tree, List.drop_eq_nil_of_le (by simpa using hi)] at hk
      cases hk
    | some impl =>
      rw [launch_at d g hi] at hk
      injection hk with h1 h2
      subst h1
      cases h2
      exact ⟨_, rfl, .go g i impl hi⟩
  | waiting g i =>
    rw [tree] at hk
    injection hk with h1 h2
    subst h1
    cases h2
    exact ⟨.at g (i + 1), rfl, .next g i r⟩
  | over => rw [tree] at hk; cases hk

theorem LLoc.step_tree {d : Fallback} {l l' : LLoc m} {e : Event} (h : LLoc.Step d l e l') :
    (l.tree d).Step e (l'.tree d) := by
  cases h with
  | go g i impl h => exact ⟨_, launch_at d g h, rfl⟩
  | next g i b => exact ⟨_, rfl, rfl⟩

/-! ### The method -/

/-- Return the results of an implementation. -/
def MLoc.result (f : Val) (vs : List Val) : MLoc m :=
  if vs.length = m.results.length then .cancelling f (.ret vs) else .over .stuck

/-- After receiving `vs`. -/
def MLoc.got (f ctx : Val) (fuel : Nat) (errs vs : List Val) : MLoc m :=
  if vs.length = m.results.length then
    if m.returnsError then
      if (errField m vs).isNil then MLoc.result f vs else .sendNext f ctx fuel errs (errField m vs)
    else MLoc.result f vs
  else .over .stuck

/-- After the context was seen done. -/
def MLoc.done (G : GoTypes) (f ctx : Val) (errs : List Val) : MLoc m :=
  if m.returnsError then .ctxErr f ctx errs else .cancelling f (.ret (m.zeros G))

/-- After an error was added. -/
def MLoc.again (d : Fallback) (f ctx : Val) (fuel : Nat) (errs : List Val) : MLoc m :=
  if errs.length = d.impls.length then .join f errs
  else match fuel with
    | 0 => .over .stuck
    | k + 1 => .select f ctx k errs

def MLoc.tree (d : Fallback) (h : Setup G m recv args) : MLoc m → Tree Outcome
  | .ticker => bodyT d h
  | .withCancel => .vis (.lib g!"context.WithCancel" [args.headD .nil] 2) fun
      | .ok vs => if hc : m.acceptsContext = true then launchCtxT d h hc (vs.1.headD .nil) (vs.1.tail.headD .nil)
        else .ret .stuck
      | .error v => stopT (.panic v)
  | .launch g (some f) => .vis (.go .launcher g.env) fun _ => d.loopT G m f (g.a.headD .nil) (d.impls.length + 1) []
  | .launch g none => .vis (.go .launcher g.env) fun _ => recvT m
  | .recv => recvT m
  | .select f ctx fuel errs => d.loopT G m f ctx (fuel + 1) errs
  | .sendNext f ctx fuel errs e => .vis .sendNext fun _ => .vis (.lib g!"err.Error" [e] 1) fun
      | .ok ss => d.nextT G m f (errs ++ [ss.1.headD .nil]) (loopT G d m f ctx fuel (errs ++ [ss.1.headD .nil]))
      | .error v => cancelT f (.panic v)
  | .errText f ctx fuel errs e => .vis (.lib g!"err.Error" [e] 1) fun
      | .ok ss => d.nextT G m f (errs ++ [ss.1.headD .nil]) (loopT G d m f ctx fuel (errs ++ [ss.1.headD .nil]))
      | .error v => cancelT f (.panic v)
  | .join f errs => joinT G m f errs
  | .mkErr f s => newT G m f s
  | .ctxErr f ctx errs => .vis (.lib g!"ctx.Err" [ctx] 1) fun
      | .ok es => joinDoneT G m f errs (es.1.headD .nil)
      | .error v => cancelT f (.panic v)
  | .joinDone f errs e => joinDoneT G m f errs e
  | .errorf f e s => errorfT G m f e s
  | .cancelling f o => cancelT f o
  | .stopping o => stopT o
  | .over o => .ret o

inductive MLoc.Step (d : Fallback) (h : Setup G m recv args) : MLoc m → Event → MLoc m → Prop
  | ticker (hc : m.acceptsContext = true) : Step d h .ticker ⟨.newTicker d.interval, Except.ok ()⟩ .withCancel
  | tickerPlain (hc : m.acceptsContext = false) :
      Step d h .ticker ⟨.newTicker d.interval, Except.ok ()⟩ (.launch (scopePlain d h) none)
  | tickerPanic (v : Val) : Step d h .ticker ⟨.newTicker d.interval, Except.error v⟩ (.over (.panic v))
  | derive (hc : m.acceptsContext = true) (vs : Vals 2) :
      Step d h .withCancel ⟨.lib g!"context.WithCancel" [args.headD .nil] 2, Except.ok vs⟩
        (.launch (scopeCtx d h hc (vs.1.headD .nil) (vs.1.tail.headD .nil)) (some (vs.1.tail.headD .nil)))
  | deriveStuck (hc : m.acceptsContext = false) (vs : Vals 2) :
      Step d h .withCancel ⟨.lib g!"context.WithCancel" [args.headD .nil] 2, Except.ok vs⟩ (.over .stuck)
  | derivePanic (v : Val) :
      Step d h .withCancel ⟨.lib g!"context.WithCancel" [args.headD .nil] 2, Except.error v⟩ (.stopping (.panic v))
  | go (g : Scope m) (f : Val) : Step d h (.launch g (some f)) ⟨.go .launcher g.env, ()⟩
      (.select f (g.a.headD .nil) d.impls.length [])
  | goPlain (g : Scope m) : Step d h (.launch g none) ⟨.go .launcher g.env, ()⟩ .recv
  | recv (vs : List Val) : Step d h .recv ⟨.recv, vs⟩
      (if vs.length = m.results.length then .stopping (.ret vs) else .over .stuck)
  | received (f ctx fuel errs) (vs : List Val) :
      Step d h (.select f ctx fuel errs) ⟨.recvOrDone ctx, some vs⟩ (MLoc.got f ctx fuel errs vs)
  | done (f ctx fuel errs) : Step d h (.select f ctx fuel errs) ⟨.recvOrDone ctx, none⟩ (MLoc.done G f ctx errs)
  | sendNext (f ctx fuel errs e) : Step d h (.sendNext f ctx fuel errs e) ⟨.sendNext, ()⟩ (.errText f ctx fuel errs e)
  | errText (f ctx fuel errs e) (ss : Vals 1) : Step d h (.errText f ctx fuel errs e)
      ⟨.lib g!"err.Error" [e] 1, Except.ok ss⟩ (MLoc.again d f ctx fuel (errs ++ [ss.1.headD .nil]))
  | errTextPanic (f ctx fuel errs e) (v : Val) : Step d h (.errText f ctx fuel errs e)
      ⟨.lib g!"err.Error" [e] 1, Except.error v⟩ (.cancelling f (.panic v))
  | join (f errs) (ss : Vals 1) : Step d h (.join f errs)
      ⟨.lib g!"strings.Join" [.slice errs, .str g!";"] 1, Except.ok ss⟩ (.mkErr f (ss.1.headD .nil))
  | joinPanic (f errs) (v : Val) : Step d h (.join f errs)
      ⟨.lib g!"strings.Join" [.slice errs, .str g!";"] 1, Except.error v⟩ (.cancelling f (.panic v))
  | mkErr (f s) (es : Vals 1) : Step d h (.mkErr f s) ⟨.lib g!"errors.New" [s] 1, Except.ok es⟩
      (.cancelling f (failWith G m (es.1.headD .nil)))
  | mkErrPanic (f s) (v : Val) : Step d h (.mkErr f s) ⟨.lib g!"errors.New" [s] 1, Except.error v⟩ (.cancelling f (.panic v))
  | ctxErr (f ctx errs) (es : Vals 1) : Step d h (.ctxErr f ctx errs) ⟨.lib g!"ctx.Err" [ctx] 1, Except.ok es⟩
      (.joinDone f errs (es.1.headD .nil))
  | ctxErrPanic (f ctx errs) (v : Val) : Step d h (.ctxErr f ctx errs) ⟨.lib g!"ctx.Err" [ctx] 1, Except.error v⟩
      (.cancelling f (.panic v))
  | joinDone (f errs e) (ss : Vals 1) : Step d h (.joinDone f errs e)
      ⟨.lib g!"strings.Join" [.slice errs, .str g!";"] 1, Except.ok ss⟩ (.errorf f e (ss.1.headD .nil))
  | joinDonePanic (f errs e) (v : Val) : Step d h (.joinDone f errs e)
      ⟨.lib g!"strings.Join" [.slice errs, .str g!";"] 1, Except.error v⟩ (.cancelling f (.panic v))
  | errorf (f e s) (es : Vals 1) : Step d h (.errorf f e s) ⟨.lib g!"fmt.Errorf" [.str g!"%w: %s", e, s] 1, Except.ok es⟩
      (.cancelling f (failWith G m (es.1.headD .nil)))
  | errorfPanic (f e s) (v : Val) : Step d h (.errorf f e s)
      ⟨.lib g!"fmt.Errorf" [.str g!"%w: %s", e, s] 1, Except.error v⟩ (.cancelling f (.panic v))
  | cancel (f o) (u : Vals 0) : Step d h (.cancelling f o) ⟨.lib g!"cancel" [f] 0, Except.ok u⟩ (.stopping o)
  | cancelPanic (f o) (v : Val) : Step d h (.cancelling f o) ⟨.lib g!"cancel" [f] 0, Except.error v⟩ (.stopping (.panic v))
  | stop (o) : Step d h (.stopping o) ⟨.stopTicker, ()⟩ (.over o)

theorem MLoc.result_tree (d : Fallback) (h : Setup G m recv args) (f : Val) (vs : List Val) :
    (MLoc.result f vs).tree d h = returnT m f vs := by
  rw [result, returnT]
  split <;> rfl

theorem MLoc.got_tree (d : Fallback) (h : Setup G m recv args) (f ctx : Val) (fuel : Nat) (errs vs : List Val) :
    (MLoc.got f ctx fuel errs vs).tree d h = if vs.length = m.results.length then
        if m.returnsError then
          if (errField m vs).isNil then returnT m f vs
          else .vis .sendNext fun _ => .vis (.lib g!"err.Error" [errField m vs] 1) fun
            | .ok ss => d.nextT G m f (errs ++ [ss.1.headD .nil]) (loopT G d m f ctx fuel (errs ++ [ss.1.headD .nil]))
            | .error v => cancelT f (.panic v)
        else returnT m f vs
      else .ret .stuck := by
  rw [got]
  split
  · split
    · split
      · exact result_tree d h f vs
      · exact Tree.vis_congr fun _ => Tree.vis_congr fun x => by cases x <;> rfl
    · exact result_tree d h f vs
  · rfl

theorem MLoc.again_tree (d : Fallback) (h : Setup G m recv args) (f ctx : Val) (fuel : Nat) (errs : List Val) :
    (MLoc.again d f ctx fuel errs).tree d h = d.nextT G m f errs (loopT G d m f ctx fuel errs) := by
  rw [again.eq_def, nextT]
  split
  · rfl
  · cases fuel <;> rfl

theorem MLoc.done_tree (d : Fallback) (h : Setup G m recv args) (f ctx : Val) (errs : List Val) :
    (MLoc.done G f ctx errs).tree d h = doneT G m f ctx errs := by
  rw [done, doneT]
  split
  · exact Tree.vis_congr fun x => by cases x <;> rfl
  · rfl

theorem MLoc.step_tree {d : Fallback} {h : Setup G m recv args} {l l' : MLoc m} {e : Event}
    (hs : MLoc.Step d h l e l') : (l.tree d h).Step e (l'.tree d h) := by
  cases hs with
  | ticker hc =>
    refine ⟨_, rfl, ?_⟩
    show _ = workT d h
    rw [workT, dif_pos hc]
    refine Tree.vis_congr fun x => ?_
    cases x with
    | ok vs => exact dif_pos hc
    | error v => rfl
  | tickerPlain hc =>
    refine ⟨_, rfl, ?_⟩
    show _ = workT d h
    rw [workT, dif_neg (by rw [hc]; simp)]
    rfl
  | tickerPanic v => exact ⟨_, rfl, rfl⟩
  | derive hc vs =>
    refine ⟨_, rfl, ?_⟩
    show _ = (if hc : m.acceptsContext = true then launchCtxT d h hc (vs.1.headD .nil) (vs.1.tail.headD .nil)
      else .ret .stuck)
    rw [dif_pos hc]
    rfl
  | deriveStuck hc vs =>
    refine ⟨_, rfl, ?_⟩
    show _ = (if hc : m.acceptsContext = true then launchCtxT d h hc (vs.1.headD .nil) (vs.1.tail.headD .nil)
      else .ret .stuck)
    rw [dif_neg (by rw [hc]; simp)]
    rfl
  | derivePanic v => exact ⟨_, rfl, rfl⟩
  | go g f => exact ⟨_, rfl, rfl⟩
  | goPlain g => exact ⟨_, rfl, rfl⟩
  | recv vs =>
    refine ⟨_, rfl, ?_⟩
    show _ = (if vs.length = m.results.length then stopT (.ret vs) else .ret .stuck)
    split <;> rfl
  | received f ctx fuel errs vs => exact ⟨_, rfl, got_tree d h f ctx fuel errs vs⟩
  | done f ctx fuel errs => exact ⟨_, rfl, done_tree d h f ctx errs⟩
  | sendNext f ctx fuel errs e => exact ⟨_, rfl, Tree.vis_congr fun x => by cases x <;> rfl⟩
  | errText f ctx fuel errs e ss => exact ⟨_, rfl, again_tree d h f ctx fuel _⟩
  | ctxErr f ctx errs es => exact ⟨_, rfl, rfl⟩
  | _ => exact ⟨_, rfl, rfl⟩

theorem MLoc.step_of {d : Fallback} {h : Setup G m recv args} {l : MLoc m} {e : Event} {t' : Tree Outcome}
    (hs : (l.tree d h).Step e t') : ∃ l', MLoc.tree d h l' = t' ∧ MLoc.Step d h l e l' := by
  -- a step of the location with the same event
  suffices H : ∃ l', MLoc.Step d h l e l' by
    obtain ⟨l', hl⟩ := H
    obtain ⟨k, hk, rfl⟩ := hs
    obtain ⟨k', hk', ht⟩ := step_tree hl
    rw [hk] at hk'
    injection hk' with h1 h2
    subst h2
    exact ⟨l', ht, hl⟩
  obtain ⟨op, r⟩ := e
  obtain ⟨k, hk, rfl⟩ := hs
  cases l with
  | ticker =>
    rw [tree, bodyT] at hk
    injection hk with h1 h2
    subst h1
    cases r with
    | ok u =>
      cases hc : m.acceptsContext with
      | true => exact ⟨_, .ticker hc⟩
      | false => exact ⟨_, .tickerPlain hc⟩
    | error v => exact ⟨_, .tickerPanic v⟩
  | withCancel =>
    rw [tree] at hk
    injection hk with h1 h2
    subst h1
    cases r with
    | ok u =>
      cases hc : m.acceptsContext with
      | true => exact ⟨_, .derive hc u⟩
      | false => exact ⟨_, .deriveStuck hc u⟩
    | error v => exact ⟨_, .derivePanic v⟩
  | launch g f =>
    cases f with
    | some f =>
      rw [tree] at hk
      injection hk with h1 h2
      subst h1
      exact ⟨_, .go g f⟩
    | none =>
      rw [tree] at hk
      injection hk with h1 h2
      subst h1
      exact ⟨_, .goPlain g⟩
  | recv =>
    rw [tree, recvT] at hk
    injection hk with h1 h2
    subst h1
    exact ⟨_, .recv r⟩
  | select f ctx fuel errs =>
    rw [tree, loopT] at hk
    injection hk with h1 h2
    subst h1
    cases r with
    | some vs => exact ⟨_, .received f ctx fuel errs vs⟩
    | none => exact ⟨_, .done f ctx fuel errs⟩
  | sendNext f ctx fuel errs e =>
    rw [tree] at hk
    injection hk with h1 h2
    subst h1
    exact ⟨_, .sendNext f ctx fuel errs e⟩
  | errText f ctx fuel errs e =>
    rw [tree] at hk
    injection hk with h1 h2
    subst h1
    cases r with
    | ok ss => exact ⟨_, .errText f ctx fuel errs e ss⟩
    | error v => exact ⟨_, .errTextPanic f ctx fuel errs e v⟩
  | join f errs =>
    rw [tree, joinT] at hk
    injection hk with h1 h2
    subst h1
    cases r with
    | ok ss => exact ⟨_, .join f errs ss⟩
    | error v => exact ⟨_, .joinPanic f errs v⟩
  | mkErr f s =>
    rw [tree, newT] at hk
    injection hk with h1 h2
    subst h1
    cases r with
    | ok es => exact ⟨_, .mkErr f s es⟩
    | error v => exact ⟨_, .mkErrPanic f s v⟩
  | ctxErr f ctx errs =>
    rw [tree] at hk
    injection hk with h1 h2
    subst h1
    cases r with
    | ok es => exact ⟨_, .ctxErr f ctx errs es⟩
    | error v => exact ⟨_, .ctxErrPanic f ctx errs v⟩
  | joinDone f errs e =>
    rw [tree, joinDoneT] at hk
    injection hk with h1 h2
    subst h1
    cases r with
    | ok es => exact ⟨_, .joinDone f errs e es⟩
    | error v => exact ⟨_, .joinDonePanic f errs e v⟩
  | errorf f e s =>
    rw [tree, errorfT] at hk
    injection hk with h1 h2
    subst h1
    cases r with
    | ok es => exact ⟨_, .errorf f e s es⟩
    | error v => exact ⟨_, .errorfPanic f e s v⟩
  | cancelling f o =>
    rw [tree, cancelT] at hk
    injection hk with h1 h2
    subst h1
    cases r with
    | ok u => exact ⟨_, .cancel f o u⟩
    | error v => exact ⟨_, .cancelPanic f o v⟩
  | stopping o =>
    rw [tree, stopT] at hk
    injection hk with h1 h2
    subst h1
    exact ⟨_, .stop o⟩
  | over o => rw [tree] at hk; cases hk

/-! ### The system -/

/-- Executions on locations. -/
def locs (d : Fallback) (h : Setup G m recv args) : FSys (MLoc m) (LLoc m) CLoc where
  main := MLoc.Step d h
  launcher := LLoc.Step d
  child := CLoc.Step m
  goLauncher env r := ∃ g : Scope m, env = g.env ∧ r = .at g 0
  goImpl env y := ∃ impl a, env g!"_impl" = some impl ∧ env.all m.pnames = some a ∧ y = .calling impl a
  panicked y := ∃ v, y = .over (.panic v)

theorem childEnv_impl (g : Scope m) (i : Nat) (impl : Val) : g.childEnv i impl g!"_impl" = some impl := Env.set_same _ _ _

theorem childEnv_eq (h : Setup G m recv args) (g : Scope m) (i : Nat) (impl : Val) :
    g.childEnv i impl = m.env ((g.loc.set g!"_i" (.int i)).set g!"_impl" impl) g.a g.r := by
  have n1 := (h.call.fresh (x := g!"_i") (by simp [fallbackIdents])).2
  have n2 := (h.call.fresh (x := g!"_impl") (by simp [fallbackIdents])).2
  rw [Scope.childEnv, Scope.env, Method.env_set_other g.fits n1, Method.env_set_other g.fits n2]

theorem childEnv_args (h : Setup G m recv args) (g : Scope m) (i : Nat) (impl : Val) :
    (g.childEnv i impl).all m.pnames = some g.a := by
  rw [childEnv_eq h, Method.env_all_params g.fits]

theorem childEnv_tree (d : Fallback) (h : Setup G m recv args) (g : Scope m) (i : Nat) (impl : Val) :
    d.goTree m (g.childEnv i impl) .impl = childT m impl g.a := by
  rw [goTree, childEnv_eq h]
  refine child_eq g.fits (Env.set_same _ _ _) ?_ (h.call.fresh (by simp [fallbackIdents])).2
    (h.call.fresh (by simp [fallbackIdents])).2
  rw [Env.set_other _ _ (by decide), Env.set_other _ _ (by decide), g.fmt]

/-- The locations stand for the generated programs. -/
def sim (d : Fallback) (h : Setup G m recv args) : FSim (d.sys m) (d.locs h) where
  tm := MLoc.tree d h
  tr := LLoc.tree d
  tc := CLoc.tree m
  main := MLoc.step_of
  launcher := LLoc.step_of
  child := CLoc.step_of
  goLauncher := by
    intro l l' env t hs ht
    cases hs with
    | go g f => exact ⟨.at g 0, ht.symm, g, rfl, rfl⟩
    | goPlain g => exact ⟨.at g 0, ht.symm, g, rfl, rfl⟩
  goImpl := by
    intro l l' env t hs ht
    cases hs with
    | go g i impl hi =>
      refine ⟨.calling impl g.a, ?_, impl, g.a, childEnv_impl g i impl, childEnv_args h g i impl, rfl⟩
      rw [show t = _ from ht, childEnv_tree d h]
      rfl
  panicked := by
    intro y
    constructor
    · rintro ⟨v, hv⟩
      cases y with
      | over o => exact ⟨v, by rw [CLoc.tree] at hv; injection hv with hv; rw [hv]⟩
      | calling impl a => rw [CLoc.tree, childT] at hv; cases hv
      | wrapping impl a vs => rw [CLoc.tree] at hv; cases hv
      | sending a vs => rw [CLoc.tree, sendT] at hv; split at hv <;> cases hv
    · rintro ⟨v, rfl⟩
      exact ⟨v, rfl⟩
  main' := MLoc.step_tree
  launcher' := LLoc.step_tree
  child' := CLoc.step_tree
  goLauncher' := by
    rintro l l' env r hs ⟨g, rfl, rfl⟩
    rfl
  goImpl' := by
    rintro l l' env y hs ⟨impl, a, h1, h2, rfl⟩
    cases hs with
    | go g i impl' hi =>
      rw [childEnv_impl] at h1
      rw [childEnv_args h] at h2
      cases h1
      cases h2
      exact (childEnv_tree d h g i _).symm

/-- Executions on locations. -/
abbrev ExecL (d : Fallback) (h : Setup G m recv args) : List FLabel → FConf (MLoc m) (LLoc m) CLoc → Prop :=
  FExec (d.locs h) d.impls.length .ticker

theorem exec_locs {d : Fallback} (h : Setup G m recv args) {L : List FLabel}
    {c : FConf (Tree Outcome) (Tree Outcome) (Tree Outcome)} (he : d.Exec G m recv args L c) :
    ∃ c', (sim d h).conf c' = c ∧ ExecL d h L c' := by
  rw [Fallback.Exec, call_eq d h] at he
  exact (sim d h).exec (x := .ticker) he

theorem locs_exec {d : Fallback} (h : Setup G m recv args) {L : List FLabel} {c : FConf (MLoc m) (LLoc m) CLoc}
    (he : ExecL d h L c) : d.Exec G m recv args L ((sim d h).conf c) := by
  rw [Fallback.Exec, call_eq d h]
  exact (sim d h).exec' he

end Fallback

end Gowrap
