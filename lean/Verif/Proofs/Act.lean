import Verif.Model.Cli
/-! Running computations with effects. -/

namespace Gowrap.Act

theorem run_bind {α β : Type} (x : Act α) (f : α → Act β) (h : List Ev) :
    (x >>= f) h = match x h with
      | (.ok a, h') => f a h'
      | (.error e, h') => (.error e, h') := rfl

@[simp] theorem run_pure {α : Type} (a : α) (h : List Ev) : (Pure.pure a : Act α) h = (.ok a, h) := rfl
@[simp] theorem run_emit (e : Ev) (h : List Ev) : Act.emit e h = (.ok (), h ++ [e]) := rfl
@[simp] theorem run_ask {α : Type} (o : List Ev → α) (h : List Ev) : Act.ask o h = (.ok (o h), h) := rfl
@[simp] theorem run_fail {α : Type} (e : CErr) (h : List Ev) :
    (Act.fail e : Act α) h = (.error (.error e), h) := rfl
@[simp] theorem run_lift_ok {α : Type} (a : α) (h : List Ev) : Act.lift (.ok a) h = (.ok a, h) := rfl
@[simp] theorem run_lift_error {α : Type} (e : CErr) (h : List Ev) :
    (Act.lift (.error e) : Act α) h = (.error (.error e), h) := rfl
@[simp] theorem run_emit_bind {β : Type} (e : Ev) (f : Unit → Act β) (h : List Ev) :
    (Act.emit e >>= f) h = f () (h ++ [e]) := rfl
@[simp] theorem run_ask_bind {α β : Type} (o : List Ev → α) (f : α → Act β) (h : List Ev) :
    (Act.ask o >>= f) h = f (o h) h := rfl
@[simp] theorem run_pure_bind {α β : Type} (a : α) (f : α → Act β) (h : List Ev) :
    ((Pure.pure a : Act α) >>= f) h = f a h := rfl
@[simp] theorem run_fail_bind {α β : Type} (e : CErr) (f : α → Act β) (h : List Ev) :
    ((Act.fail e : Act α) >>= f) h = (.error (.error e), h) := rfl
@[simp] theorem run_ofRes_ok {α : Type} (a : α) (h : List Ev) : Act.ofRes (.ok a) h = (.ok a, h) := rfl

/-- Every computation only adds events to the history. -/
def Extends {α : Type} (P : List Ev → Prop) (x : Act α) : Prop :=
  ∀ h, ∃ ev, (x h).2 = h ++ ev ∧ P ev

theorem Extends.mono {α : Type} {P Q : List Ev → Prop} {x : Act α} (hx : Extends P x)
    (hpq : ∀ l, P l → Q l) : Extends Q x := fun h => by
  obtain ⟨ev, h1, h2⟩ := hx h
  exact ⟨ev, h1, hpq _ h2⟩

/-- Sequencing, for a property of event lists that is closed under concatenation. -/
theorem Extends.bind {α β : Type} {P : List Ev → Prop} (hP : ∀ a b, P a → P b → P (a ++ b))
    {x : Act α} {f : α → Act β} (hx : Extends P x) (hf : ∀ a, Extends P (f a)) :
    Extends P (x >>= f) := fun h => by
  obtain ⟨ev, h1, h2⟩ := hx h
  rw [run_bind]
  cases hr : x h with
  | mk r h' =>
    rw [hr] at h1; subst h1
    cases r with
    | ok a =>
      obtain ⟨ev', h3, h4⟩ := hf a (h ++ ev)
      exact ⟨ev ++ ev', by rw [h3, List.append_assoc], hP _ _ h2 h4⟩
    | error e => exact ⟨ev, rfl, h2⟩

theorem Extends.pure {α : Type} {P : List Ev → Prop} (hP : P []) (a : α) :
    Extends P (Pure.pure a : Act α) := fun h => ⟨[], by simp, hP⟩

theorem Extends.ask {α : Type} {P : List Ev → Prop} (hP : P []) (o : List Ev → α) :
    Extends P (Act.ask o) := fun h => ⟨[], by simp, hP⟩

theorem Extends.fail {α : Type} {P : List Ev → Prop} (hP : P []) (e : CErr) :
    Extends P (Act.fail e : Act α) := fun h => ⟨[], by simp, hP⟩

theorem Extends.lift {α : Type} {P : List Ev → Prop} (hP : P []) (r : Except CErr α) :
    Extends P (Act.lift r) := fun h => by cases r <;> exact ⟨[], by simp, hP⟩

theorem Extends.ofRes {α : Type} {P : List Ev → Prop} (hP : P []) (r : Res α) :
    Extends P (Act.ofRes r) := fun h => by cases r <;> exact ⟨[], by simp [Act.ofRes], hP⟩

theorem Extends.emit {P : List Ev → Prop} {e : Ev} (hP : P [e]) :
    Extends P (Act.emit e) := fun h => ⟨[e], by simp, hP⟩

end Gowrap.Act
