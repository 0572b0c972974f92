import Verif.Spec.Exec
import Verif.Model.TmplFallback
/-!
# Words for the fallback decorator

`L` is the list of the steps of one call and of the goroutines which it started.
-/

namespace Gowrap.Spec

open Gowrap

/-- The operation of the goroutine that was started as number `i`. -/
def FLabel.ofChild (i : Nat) : FLabel → Option Event
  | .child j e => if j = i then some e else none
  | _ => none

/-- What the goroutine that was started as number `i` has done, except sending its result. -/
def childEvents (i : Nat) (L : List FLabel) : List Event := L.filterMap (FLabel.ofChild i)

def FLabel.ofMethod : FLabel → Option Event
  | .main e => some e
  | _ => none

/-- What the method itself has done, except receiving results. -/
def methodEvents (L : List FLabel) : List Event := L.filterMap FLabel.ofMethod

def FLabel.ofLauncher : FLabel → Option Event
  | .launcher e => some e
  | _ => none

/-- What the goroutine that starts the implementations has done. -/
def launcherEvents (L : List FLabel) : List Event := L.filterMap FLabel.ofLauncher

def FLabel.result : FLabel → Option (Nat × List Val)
  | .comm i vs => some (i, vs)
  | _ => none

/-- The results which the method received, with the number of the sender, in order. -/
def received (L : List FLabel) : List (Nat × List Val) := L.filterMap FLabel.result

def FLabel.isTick : FLabel → Bool
  | .tick => true
  | _ => false

/-- The number of ticks. -/
def tickCount (L : List FLabel) : Nat := L.countP FLabel.isTick

/-- The number of failures which the method received. -/
def failureCount (m : Method) (L : List FLabel) : Nat := (received L).countP fun r => failedVals m r.2

def Op.isStart : Op → Bool
  | .go .impl _ => true
  | _ => false

/-- The number of implementations for which a goroutine was started. -/
def startCount (L : List FLabel) : Nat := (launcherEvents L).countP fun e => Op.isStart e.1

/-- Implementation number `i` was called, once, with these arguments, and this is what it did. -/
def Answered (d : Fallback) (m : Method) (L : List FLabel) (i : Nat) (args : List Val) (r : Except Val (List Val)) : Prop :=
  ∃ impl, d.impls[i]? = some impl ∧ implCalls (childEvents i L) = [⟨impl, m.name, args, r⟩]

/-- The arguments with which implementations are called: those of the caller, with a context derived from
that of the caller if there is one. -/
def ImplArgs (m : Method) (args : List Val) (L : List FLabel) (a : List Val) : Prop :=
  if m.acceptsContext then ∃ ctx cancel, a = ctx :: args.tail ∧
    callsOf g!"context.WithCancel" (methodEvents L) = [⟨g!"context.WithCancel", [args.headD .nil], .ok [ctx, cancel]⟩]
  else a = args

/-- The texts of the errors which the method received are these. -/
def Texts (L : List FLabel) (errs : List Val) : Prop :=
  (callsOf g!"err.Error" (methodEvents L)).map (·.args) = (received L).map (fun r => [r.2.getLast?.getD .nil]) ∧
  (callsOf g!"err.Error" (methodEvents L)).map (·.result) = errs.map fun s => .ok [s]

/-- The zero values of the results. -/
def zeroResults (G : GoTypes) (m : Method) : List Val := m.results.map fun r => G.zero r.type

/-- The results of a call that fails with the error `e`. -/
def failing (G : GoTypes) (m : Method) (e : Val) : List Val := (zeroResults G m).dropLast ++ [e]

/-- How a call can end. -/
inductive Answer (d : Fallback) (G : GoTypes) (m : Method) (args : List Val) (L : List FLabel) : Outcome → Prop
  /-- with the results of an implementation that did not fail -/
  | success (i : Nat) (a vs : List Val) (h : Answered d m L i a (.ok vs)) (hs : failedVals m vs = false) :
      Answer d G m args L (.ret vs)
  /-- with the texts of all errors, when all implementations have been called and failed -/
  | allFailed (errs : List Val) (s e : Val) (hr : m.returnsError = true)
      (h : ∀ i, i < d.impls.length → ∃ a vs, Answered d m L i a (.ok vs) ∧ failedVals m vs = true)
      (ht : Texts L errs) (hn : errs.length = d.impls.length)
      (hj : ⟨g!"strings.Join", [.slice errs, .str g!";"], .ok [s]⟩ ∈ libCalls (methodEvents L))
      (he : ⟨g!"errors.New", [s], .ok [e]⟩ ∈ libCalls (methodEvents L)) (hnil : e.isNil = false) :
      Answer d G m args L (.ret (failing G m e))
  /-- with the error of the context and the texts so far, when the context of the caller was done -/
  | done (errs : List Val) (ctx ce s e : Val) (hr : m.returnsError = true) (h : FLabel.done ∈ L) (ht : Texts L errs)
      (hf : ∀ r ∈ received L, failedVals m r.2 = true)
      (hc : ⟨g!"ctx.Err", [ctx], .ok [ce]⟩ ∈ libCalls (methodEvents L))
      (hj : ⟨g!"strings.Join", [.slice errs, .str g!";"], .ok [s]⟩ ∈ libCalls (methodEvents L))
      (he : ⟨g!"fmt.Errorf", [.str g!"%w: %s", ce, s], .ok [e]⟩ ∈ libCalls (methodEvents L)) (hnil : e.isNil = false) :
      Answer d G m args L (.ret (failing G m e))
  /-- with zero values, when the context was done and the method cannot return an error -/
  | zeros (hr : m.returnsError = false) (hc : m.acceptsContext = true) (h : FLabel.done ∈ L) :
      Answer d G m args L (.ret (zeroResults G m))
  /-- `time.NewTicker` panicked -/
  | interval (v : Val) (h : d.interval ≤ 0) : Answer d G m args L (.panic v)
  /-- `context.WithCancel` panicked -/
  | context (v : Val) (h : ⟨g!"context.WithCancel", [args.headD .nil], .error v⟩ ∈ libCalls (methodEvents L)) :
      Answer d G m args L (.panic v)

/-- A step that does not depend on the decorator: the clock, the context, an implementation that returns, or
that the method is noticed to wait. -/
def FLabel.external : FLabel → Bool
  | .tick => true
  | .done => true
  | .wait => true
  | .child _ ⟨.impl _ _ _ _, _⟩ => true
  | _ => false

/-- The decorator can do nothing before something outside happens. -/
def Quiet {M R C : Type} (S : FSys M R C) (c : FConf M R C) : Prop := ∀ l c', FStep S c l c' → FLabel.external l = true

/-- A goroutine is inside an implementation. -/
def InsideImpl (t : Tree Outcome) : Prop := ∃ impl name args n k, t = .vis (.impl impl name args n) k

/-- A method or a goroutine has ended. -/
def Finished (t : Tree Outcome) : Prop := ∃ o, t = .ret o

/-- A configuration comes after another one. -/
inductive Later {M R C : Type} (S : FSys M R C) (c : FConf M R C) : FConf M R C → Prop
  | now : Later S c c
  | step {c' c'' : FConf M R C} {l : FLabel} (h : Later S c c') (hs : FStep S c' l c'') : Later S c c''

end Gowrap.Spec
