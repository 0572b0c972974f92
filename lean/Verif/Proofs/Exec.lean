import Verif.Spec.Exec
/-! # Reasoning about runs of generated methods -/

namespace Gowrap

open Spec

/-! ## All runs of a tree -/

/-- `Q` holds for every complete run. -/
def Tree.All {α : Type} (t : Tree α) (Q : List Event → α → Prop) : Prop := ∀ tr a, t.Run tr a → Q tr a

namespace Tree

variable {α β : Type}

@[simp] theorem all_ret (a : α) (Q : List Event → α → Prop) : (Tree.ret a).All Q ↔ Q [] a := by
  constructor
  · intro h; exact h [] a ⟨rfl, rfl⟩
  · rintro h tr b ⟨rfl, rfl⟩; exact h

theorem all_vis (op : Op) (k : op.Resp → Tree α) (Q : List Event → α → Prop) :
    (Tree.vis op k).All Q ↔ ∀ r, (k r).All fun tr a => Q (⟨op, r⟩ :: tr) a := by
  constructor
  · intro h r tr a hr; exact h _ _ ⟨r, tr, rfl, hr⟩
  · rintro h _ b ⟨r, tr, rfl, hr⟩; exact h r tr b hr

theorem run_bind {t : Tree α} {f : α → Tree β} : ∀ {tr : List Event} {b : β},
    (t.bind f).Run tr b ↔ ∃ tr1 tr2 a, tr = tr1 ++ tr2 ∧ t.Run tr1 a ∧ (f a).Run tr2 b := by
  induction t with
  | ret a =>
    intro tr b
    constructor
    · intro h; exact ⟨[], tr, a, rfl, ⟨rfl, rfl⟩, h⟩
    · rintro ⟨tr1, tr2, a', rfl, ⟨rfl, rfl⟩, h⟩; exact h
  | vis op k ih =>
    intro tr b
    constructor
    · rintro ⟨r, tr', rfl, h⟩
      obtain ⟨tr1, tr2, a, rfl, h1, h2⟩ := (ih r).1 h
      exact ⟨⟨op, r⟩ :: tr1, tr2, a, rfl, ⟨r, tr1, rfl, h1⟩, h2⟩
    · rintro ⟨tr1, tr2, a, rfl, ⟨r, tr1', rfl, h1⟩, h2⟩
      exact ⟨r, tr1' ++ tr2, rfl, (ih r).2 ⟨tr1', tr2, a, rfl, h1, h2⟩⟩

@[simp] theorem all_bind (t : Tree α) (f : α → Tree β) (Q : List Event → β → Prop) :
    (t.bind f).All Q ↔ t.All fun tr a => (f a).All fun tr' b => Q (tr ++ tr') b := by
  constructor
  · intro h tr a h1 tr' b h2
    exact h _ _ (run_bind.2 ⟨tr, tr', a, rfl, h1, h2⟩)
  · intro h tr b hb
    obtain ⟨tr1, tr2, a, rfl, h1, h2⟩ := run_bind.1 hb
    exact h tr1 a h1 tr2 b h2

theorem All.mono {t : Tree α} {Q R : List Event → α → Prop} (h : t.All Q) (hQR : ∀ tr a, Q tr a → R tr a) :
    t.All R := fun tr a hr => hQR _ _ (h tr a hr)

/-- Every part of a run is reached. -/
theorem Run.reaches {t : Tree α} {a : α} : ∀ {tr tr' : List Event}, t.Run (tr ++ tr') a → t.Reaches tr := by
  induction t with
  | ret b =>
    rintro tr tr' ⟨h, _⟩
    exact (List.append_eq_nil_iff.1 h).1
  | vis op k ih =>
    intro tr tr' h
    cases tr with
    | nil => exact Or.inl rfl
    | cons e tr =>
      obtain ⟨r, tr2, he, hr⟩ := h
      rw [List.cons_append] at he
      cases he
      exact Or.inr ⟨r, tr, rfl, ih r hr⟩

/-- Some response to every operation; calls return. -/
def someResp : (op : Op) → op.Resp
  | .impl _ _ _ n => .ok ⟨List.replicate n .nil, by simp⟩
  | .lib _ _ n => .ok ⟨List.replicate n .nil, by simp⟩
  | .now => (0 : Int)
  | .rlock => () | .runlock => () | .lock => () | .unlock => ()
  | .getClosesAt => (none : Option Int)
  | .setClosesAt _ => ()
  | .getErrors => (0 : Nat)
  | .setErrors _ => ()
  | .errorsIs _ _ => .ok false
  | .addCounter => (0 : UInt32)
  | .takeImpl => Val.nil
  | .putImpl _ => ()
  | .takeToken => ()
  | .doneOrToken _ => Choice.other
  | .newTicker _ => .ok ()
  | .stopTicker => ()
  | .tick => ()
  | .doneOrTick _ => Choice.other
  | .go _ _ => ()
  | .nextOrTick => true
  | .sendNext => ()
  | .recv => ([] : List Val)
  | .recvOrDone _ => (none : Option (List Val))
  | .sendOrSkip _ => true
  | .sendOrDone _ _ => Choice.done

/-- Every unfinished run can be continued to a complete one in which the remaining library calls return. -/
theorem reaches_run {t : Tree α} : ∀ {tr : List Event}, t.Reaches tr →
    ∃ tr' a, t.Run (tr ++ tr') a ∧ LibsReturn tr' := by
  have complete : ∀ t : Tree α, ∃ tr a, t.Run tr a ∧ LibsReturn tr := by
    intro t
    induction t with
    | ret a => exact ⟨[], a, ⟨rfl, rfl⟩, by intro c hc; simp [libCalls] at hc⟩
    | vis op k ih =>
      obtain ⟨tr, a, h, hl⟩ := ih (someResp op)
      refine ⟨⟨op, someResp op⟩ :: tr, a, ⟨_, _, rfl, h⟩, ?_⟩
      cases op with
      | lib f args n =>
        intro c hc
        simp only [someResp, libCalls, List.mem_cons] at hc
        rcases hc with rfl | hc
        · exact ⟨_, rfl⟩
        · exact hl c hc
      | _ => exact hl
  induction t with
  | ret a =>
    intro tr h
    have : tr = [] := h
    subst this
    exact ⟨[], a, ⟨rfl, rfl⟩, by intro c hc; simp [libCalls] at hc⟩
  | vis op k ih =>
    intro tr h
    rcases h with rfl | ⟨r, tr', rfl, h⟩
    · exact complete (.vis op k)
    · obtain ⟨tr2, a, h2, hl⟩ := ih r h
      exact ⟨tr2, a, ⟨r, _, rfl, h2⟩, hl⟩

end Tree

/-! ## Events -/

namespace Spec

@[simp] theorem libsReturn_nil : LibsReturn [] := by intro c hc; simp [libCalls] at hc

@[simp] theorem libsReturn_lib (f : Str) (args : List Val) (n : Nat) (r : Except Val (Vals n))
    (tr : List Event) : LibsReturn (⟨.lib f args n, r⟩ :: tr) ↔ (∃ vs, r = .ok vs) ∧ LibsReturn tr := by
  simp only [LibsReturn, libCalls, List.mem_cons, forall_eq_or_imp]
  refine and_congr_left fun _ => ?_
  cases r with
  | ok vs => simp [plain]
  | error v => simp [plain]

theorem implCalls_append (a b : List Event) : implCalls (a ++ b) = implCalls a ++ implCalls b := by
  induction a with
  | nil => rfl
  | cons e a ih =>
    obtain ⟨op, r⟩ := e
    cases op <;> simp [implCalls, ih]

theorem libCalls_append (a b : List Event) : libCalls (a ++ b) = libCalls a ++ libCalls b := by
  induction a with
  | nil => rfl
  | cons e a ih =>
    obtain ⟨op, r⟩ := e
    cases op <;> simp [libCalls, ih]

theorem seen_append (a b : List Event) : seen (a ++ b) = seen a ++ seen b := by
  induction a with
  | nil => rfl
  | cons e a ih =>
    obtain ⟨op, r⟩ := e
    cases op <;> simp [seen, ih]

@[simp] theorem libsReturn_append (a b : List Event) :
    LibsReturn (a ++ b) ↔ LibsReturn a ∧ LibsReturn b := by
  simp only [LibsReturn, libCalls_append, List.mem_append, or_imp, forall_and]

end Spec

/-! ## Environments -/

namespace Env

@[simp] theorem set_same (env : Env) (x : Str) (v : Val) : (env.set x v) x = some v := by simp [set]

theorem set_other (env : Env) {x y : Str} (v : Val) (h : y ≠ x) : (env.set x v) y = env y := by
  simp [set, h]

theorem setAll_not_mem (env : Env) {y : Str} : ∀ {xs : List Str} {vs : List Val}, y ∉ xs →
    (env.setAll xs vs) y = env y := by
  intro xs
  induction xs generalizing env with
  | nil => intro vs _; cases vs <;> rfl
  | cons x xs ih =>
    intro vs h
    simp only [List.mem_cons, not_or] at h
    cases vs with
    | nil => rfl
    | cons v vs =>
      simp only [setAll]
      rw [ih (env.set x v) h.2, set_other env v h.1]

theorem all_congr {e e' : Env} : ∀ {xs : List Str}, (∀ x ∈ xs, e x = e' x) → e.all xs = e'.all xs := by
  intro xs
  induction xs with
  | nil => intro _; rfl
  | cons x xs ih =>
    intro h
    simp only [all]
    rw [h x (by simp), ih fun y hy => h y (by simp [hy])]

theorem all_set_not_mem (env : Env) {x : Str} (v : Val) {xs : List Str} (h : x ∉ xs) :
    (env.set x v).all xs = env.all xs :=
  all_congr fun y hy => set_other env v (by rintro rfl; exact h hy)

theorem all_setAll_disjoint (env : Env) {xs ys : List Str} (vs : List Val) (h : ∀ x ∈ xs, x ∉ ys) :
    (env.setAll ys vs).all xs = env.all xs :=
  all_congr fun x hx => setAll_not_mem env (h x hx)

theorem all_setAll (env : Env) : ∀ {xs : List Str} {vs : List Val}, xs.Nodup → xs.length = vs.length →
    (env.setAll xs vs).all xs = some vs := by
  intro xs
  induction xs generalizing env with
  | nil =>
    intro vs _ hl
    cases vs with
    | nil => rfl
    | cons _ _ => simp at hl
  | cons x xs ih =>
    intro vs hn hl
    cases vs with
    | nil => simp at hl
    | cons v vs =>
      simp only [List.nodup_cons] at hn
      simp only [setAll, all]
      rw [ih (env.set x v) hn.2 (by simpa using hl), setAll_not_mem _ hn.1]
      simp

/-- Later values win. -/
theorem setAll_setAll (env : Env) : ∀ {xs : List Str} {vs ws : List Val}, xs.length = vs.length →
    xs.length = ws.length → xs.Nodup → (env.setAll xs vs).setAll xs ws = env.setAll xs ws := by
  intro xs
  induction xs generalizing env with
  | nil => intro vs ws _ _ _; cases vs <;> cases ws <;> rfl
  | cons x xs ih =>
    intro vs ws h1 h2 hn
    cases vs with
    | nil => simp at h1
    | cons v vs =>
      cases ws with
      | nil => simp at h2
      | cons w ws =>
        simp only [List.nodup_cons] at hn
        simp only [setAll]
        have : ((env.set x v).setAll xs vs).set x w = (env.set x w).setAll xs vs := by
          funext y
          by_cases hy : y = x
          · subst hy
            rw [set_same, setAll_not_mem _ hn.1, set_same]
          · rw [set_other _ _ hy]
            clear ih h1 h2
            have : ∀ (e e' : Env) (xs : List Str) (vs : List Val), e y = e' y →
                (e.setAll xs vs) y = (e'.setAll xs vs) y := by
              intro e e' xs
              induction xs generalizing e e' with
              | nil => intro vs h; cases vs <;> exact h
              | cons z zs ih =>
                intro vs h
                cases vs with
                | nil => exact h
                | cons u us =>
                  simp only [setAll]
                  refine ih _ _ us ?_
                  simp only [set]
                  split
                  · rfl
                  · exact h
            exact this _ _ _ _ (by rw [set_other _ _ hy, set_other _ _ hy])
        rw [this, ih _ (by simpa using h1) (by simpa using h2) hn.2]

end Env

end Gowrap
