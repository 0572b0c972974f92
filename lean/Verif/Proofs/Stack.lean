import Verif.Spec.Stack
import Verif.Proofs.ExecEnv
import Verif.Model.TmplControl
import Verif.Model.TmplObserve
/-! # Runs of stacks of decorators -/

namespace Gowrap

open Spec

/-! ## Trees whose operations satisfy a predicate -/

/-- All operations that the tree may perform satisfy `P`. -/
def Tree.Only {α : Type} (P : Op → Prop) : Tree α → Prop
  | .ret _ => True
  | .vis op k => P op ∧ ∀ r, (k r).Only P

/-- All operations of the statement satisfy `P`. -/
def Stm.Only (P : Op → Prop) (s : Stm) : Prop := ∀ env, (s env).Only P

/-- The operation is a call of the method `m`, or no call of an implementation. -/
def Op.OfMethod (m : Method) : Op → Prop
  | .impl _ name args n => name = m.name ∧ args.length = m.params.length ∧ n = m.results.length
  | _ => True

namespace Tree

variable {α β : Type} {P : Op → Prop}

theorem only_bind {t : Tree α} {f : α → Tree β} (h : t.Only P) (hf : ∀ a, (f a).Only P) : (t.bind f).Only P := by
  induction t with
  | ret a => exact hf a
  | vis op k ih => exact ⟨h.1, fun r => ih r (h.2 r)⟩

end Tree

namespace Stm

variable {P : Op → Prop} {a b : Stm}

theorem only_skip : Only P skip := fun _ => trivial
theorem only_ret : Only P Stm.ret := fun _ => trivial
theorem only_stuck : Only P stuck := fun _ => trivial
theorem only_panic (v : Env → Val) : Only P (fun env => .ret (env, .panic (v env))) := fun _ => trivial

theorem only_seq (ha : a.Only P) (hb : b.Only P) : (seq a b).Only P := by
  intro env
  refine Tree.only_bind (ha env) fun r => ?_
  split
  · exact hb _
  · trivial

theorem only_op {o : Op} {k : o.Resp → Stm} (ho : P o) (h : ∀ r, (k r).Only P) : (op o k).Only P := fun env => ⟨ho, fun r => h r env⟩

theorem only_orPanic {α : Type} {k : α → Stm} (h : ∀ x, (k x).Only P) (r : Except Val α) : (orPanic k r).Only P := by
  cases r with
  | ok x => exact h x
  | error v => exact fun _ => trivial

theorem only_get {x : Str} {k : Val → Stm} (h : ∀ v, (k v).Only P) : (get x k).Only P := by
  intro env
  unfold get
  split
  · exact h _ _
  · trivial

theorem all_length {env : Env} : ∀ {xs : List Str} {vs : List Val}, env.all xs = some vs → vs.length = xs.length
  | [], vs, h => by cases h; rfl
  | x :: xs, vs, h => by
    rw [Env.all] at h
    split at h
    · rename_i v vs' _ h2
      cases h
      simp [all_length h2]
    · cases h

theorem only_getAll {xs : List Str} {k : List Val → Stm} (h : ∀ vs, vs.length = xs.length → (k vs).Only P) : (getAll xs k).Only P := by
  intro env
  unfold getAll
  split
  · rename_i vs hv
    exact h _ (all_length hv) _
  · trivial

theorem only_global {x : Str} (h : a.Only P) : (global x a).Only P := by
  intro env
  unfold global
  split
  · trivial
  · exact h _

theorem only_assign {x : Str} {v : Val} : (assign x v).Only P := by
  intro env; unfold assign; split <;> trivial

theorem only_assignAll {xs : List Str} {vs : List Val} : (assignAll xs vs).Only P := by
  intro env; unfold assignAll; split
  · split <;> trivial
  · trivial

theorem only_declare {x : Str} {v : Val} : (declare x v).Only P := by
  intro env; unfold declare; split <;> trivial

theorem only_block {xs : List Str} {vs : List Val} (h : a.Only P) : (block xs vs a).Only P :=
  fun _ => Tree.only_bind (h _) fun _ => trivial

theorem only_ite {c : Bool} (ha : a.Only P) (hb : b.Only P) : (ite c a b).Only P := by
  unfold ite; split <;> assumption

theorem only_ifthen {c : Prop} [Decidable c] (ha : a.Only P) (hb : b.Only P) : (if c then a else b : Stm).Only P := by
  split <;> assumption

theorem only_deferring (ha : a.Only P) (hb : b.Only P) : (deferring a b).Only P := by
  intro env
  refine Tree.only_bind (hb env) fun r => ?_
  split
  · trivial
  · refine Tree.only_bind (ha _) fun r' => ?_
    split <;> trivial

end Stm

variable {m : Method}

theorem only_lib0 {fn : Str} {args : List Val} : (Stm.lib0 fn args).Only (Op.OfMethod m) :=
  Stm.only_op trivial fun r => Stm.only_orPanic (fun _ => Stm.only_skip) r

theorem only_lib1 {fn : Str} {args : List Val} {k : Val → Stm} (h : ∀ v, (k v).Only (Op.OfMethod m)) :
    (Stm.lib1 fn args k).Only (Op.OfMethod m) := Stm.only_op trivial fun r => Stm.only_orPanic (fun _ => h _) r

theorem only_lib2 {fn : Str} {args : List Val} {k : Val → Val → Stm} (h : ∀ v w, (k v w).Only (Op.OfMethod m)) :
    (Stm.lib2 fn args k).Only (Op.OfMethod m) := Stm.only_op trivial fun r => Stm.only_orPanic (fun _ => h _ _) r

theorem only_assignCall {recv : Val} {k : Stm} (h : k.Only (Op.OfMethod m)) : (m.assignCall recv k).Only (Op.OfMethod m) :=
  Stm.only_getAll fun vs hv => Stm.only_op ⟨rfl, by rw [hv, Method.pnames, List.length_map], rfl⟩ fun r =>
    Stm.only_orPanic (fun _ => Stm.only_seq Stm.only_assignAll h) r

theorem only_passTo {recv : Val} : (m.passTo recv).Only (Op.OfMethod m) := only_assignCall Stm.only_ret

theorem only_exec {G : GoTypes} {recv : Str × Val} {args : List Val} {body : Stm} {P : Op → Prop} (h : body.Only P) :
    (m.exec G recv body args).Only P := by
  unfold Method.exec
  split
  · refine Tree.only_bind (h _) fun r => ?_
    split
    · trivial
    · trivial
    · trivial
    · split <;> trivial
  · trivial

theorem only_call {G : GoTypes} {d : Decorator} {recv : Str × Val} {args : List Val} (hargs : args.length = m.params.length)
    (h : ∀ b, d.body m = some b → b.Only (Op.OfMethod m)) : (d.call G m recv args).Only (Op.OfMethod m) := by
  unfold Decorator.call
  split
  · rename_i b hb
    exact only_exec (h b hb)
  · split
    · refine ⟨⟨rfl, hargs, rfl⟩, fun r => ?_⟩
      cases r <;> trivial
    · trivial

/-- The results of a method have the right number. -/
theorem call_ret_length {G : GoTypes} {d : Decorator} {recv : Str × Val} {args : List Val} {tr : List Event} {vs : List Val}
    (h : (d.call G m recv args).Run tr (.ret vs)) : vs.length = m.results.length := by
  unfold Decorator.call at h
  split at h
  · unfold Method.exec at h
    split at h
    · obtain ⟨tr1, tr2, r, rfl, _, h2⟩ := Tree.run_bind.1 h
      split at h2
      · cases h2.2
      · cases h2.2
      · have h3 := h2.2
        split at h3
        · rename_i hr
          cases h3
          rw [hr]; rfl
        · cases h3
      · split at h2
        · rename_i hv
          cases h2.2
          rw [Stm.all_length hv, Method.rnames, List.length_map]
        · cases h2.2
    · cases h.2
  · split at h
    · obtain ⟨r, tr', rfl, h2⟩ := h
      cases r with
      | ok ws =>
        cases h2.2
        exact ws.2
      | error v => cases h2.2
    · cases h.2

/-! ## Runs of `through` -/

/-- The run `tr` is the run `tr0` in which the calls of programs are replaced by runs of these. -/
inductive Expands (f : Inner) : List Event → List Event → Prop
  | nil : Expands f [] []
  | same {e : Event} {tr0 tr : List Event} (he : ∀ i name args n r, e = ⟨.impl i name args n, r⟩ → f i = none)
      (h : Expands f tr0 tr) : Expands f (e :: tr0) (e :: tr)
  | call {i : Val} {name : Str} {args : List Val} {n : Nat} {r : Except Val (Vals n)} {g : Str → List Val → Tree Outcome} {seg : List Event}
      {tr0 tr : List Event} (hg : f i = some g) (hr : (g name args).Run seg (passedOn (plain r))) (h : Expands f tr0 tr) :
      Expands f (⟨.impl i name args n, r⟩ :: tr0) (seg ++ tr)

theorem response_passedOn {n : Nat} (r : Except Val (Vals n)) : response n (passedOn (plain r)) = some r := by
  cases r with
  | ok vs => simp [plain, passedOn, response, vs.2]
  | error v => rfl

theorem through_run {f : Inner} {P : Op → Prop}
    (hf : ∀ i g name args n, f i = some g → P (.impl i name args n) → ∀ seg o, (g name args).Run seg o → LibsReturn seg →
      ∃ r : Except Val (Vals n), o = passedOn (plain r))
    {t : Tree Outcome} (ht : t.Only P) : ∀ {tr : List Event} {out : Outcome}, (through f t).Run tr out → LibsReturn tr →
      ∃ tr0, t.Run tr0 out ∧ Expands f tr0 tr := by
  induction t with
  | ret o =>
    rintro tr out ⟨rfl, rfl⟩ _
    exact ⟨[], ⟨rfl, rfl⟩, .nil⟩
  | vis op k ih =>
    intro tr out h hl
    have plainStep : ∀ (e : ∀ i name args n, op = .impl i name args n → f i = none) (tr' : List Event) (r : op.Resp),
        tr = ⟨op, r⟩ :: tr' → (through f (k r)).Run tr' out → ∃ tr0, (Tree.vis op k).Run tr0 out ∧ Expands f tr0 tr := by
      rintro e tr' r rfl h'
      obtain ⟨tr0, h0, hx⟩ := ih r (ht.2 r) h' (by
        have := (libsReturn_append [⟨op, r⟩] tr').1 (by simpa using hl)
        exact this.2)
      exact ⟨⟨op, r⟩ :: tr0, ⟨r, tr0, rfl, h0⟩, .same (by
        intro i name args n r' he
        injection he with he1 _
        exact e i name args n he1) hx⟩
    cases op with
    | impl i name args n =>
      rw [through] at h
      split at h
      · rename_i g hg
        obtain ⟨seg, tr2, o, rfl, h1, h2⟩ := Tree.run_bind.1 h
        obtain ⟨hl1, hl2⟩ := (libsReturn_append seg tr2).1 hl
        obtain ⟨r, rfl⟩ := hf i g name args n hg ht.1 seg o h1 hl1
        rw [response_passedOn] at h2
        obtain ⟨tr0, h0, hx⟩ := ih r (ht.2 r) h2 hl2
        exact ⟨⟨.impl i name args n, r⟩ :: tr0, ⟨r, tr0, rfl, h0⟩, .call hg h1 hx⟩
      · rename_i hg
        obtain ⟨r, tr', e, h'⟩ := h
        exact plainStep (by rintro i' _ _ _ he; cases he; exact hg) tr' r e h'
    | _ =>
      obtain ⟨r, tr', e, h'⟩ := h
      exact plainStep (by rintro _ _ _ _ he; cases he) tr' r e h'

/-- The other direction: runs of the programs inside fit into a run of the program outside. -/
theorem run_through {f : Inner} {t : Tree Outcome} : ∀ {tr0 tr : List Event} {out : Outcome}, t.Run tr0 out → Expands f tr0 tr →
    (through f t).Run tr out := by
  induction t with
  | ret o =>
    rintro tr0 tr out ⟨rfl, rfl⟩ h
    cases h
    exact ⟨rfl, rfl⟩
  | vis op k ih =>
    rintro tr0 tr out ⟨r, tr', rfl, h'⟩ h
    cases h with
    | same he h =>
      cases op with
      | impl i name args n =>
        rw [through, he i name args n r rfl]
        exact ⟨r, _, rfl, ih r h' h⟩
      | _ => exact ⟨r, _, rfl, ih r h' h⟩
    | call hg hr h =>
      rw [through, hg]
      refine Tree.run_bind.2 ⟨_, _, _, rfl, hr, ?_⟩
      rw [response_passedOn]
      exact ih _ h' h

theorem Expands.libs {f : Inner} {tr0 tr : List Event} (h : Expands f tr0 tr) : ∀ c ∈ libCalls tr0, c ∈ libCalls tr := by
  induction h with
  | nil => exact fun _ h => h
  | @same e tr0 tr he h ih =>
    intro c hc
    obtain ⟨op, r⟩ := e
    cases op <;> simp only [libCalls, List.mem_cons] at hc ⊢ <;> first | exact ih c hc | exact hc.imp_right (ih c)
  | call hg hr h ih =>
    intro c hc
    rw [libCalls_append]
    exact List.mem_append_right _ (ih c hc)

/-- Events other than calls of implementations are kept. -/
theorem Expands.mem {f : Inner} {tr0 tr : List Event} (h : Expands f tr0 tr) {e : Event} (he : e ∈ tr0)
    (hi : ∀ i name args n r, e ≠ ⟨.impl i name args n, r⟩) : e ∈ tr := by
  induction h with
  | nil => exact he
  | same _ _ ih =>
    rcases List.mem_cons.1 he with rfl | he
    · exact List.mem_cons_self ..
    · exact List.mem_cons_of_mem _ (ih he)
  | call _ _ _ ih =>
    rcases List.mem_cons.1 he with rfl | he
    · exact absurd rfl (hi _ _ _ _ _)
    · exact List.mem_append_right _ (ih he)

/-- If all calls are made on programs that make one call each, the calls correspond to each other. -/
theorem Expands.calls {f : Inner} {tr0 tr : List Event} (h : Expands f tr0 tr) {Q : ImplCall → ImplCall → Prop}
    (hall : ∀ c ∈ implCalls tr0, f c.impl ≠ none)
    (hone : ∀ (c : ImplCall) (g : Str → List Val → Tree Outcome) (seg : List Event), c ∈ implCalls tr0 → f c.impl = some g →
      (g c.method c.args).Run seg (passedOn c.result) → (∀ l ∈ libCalls seg, l ∈ libCalls tr) → ∃ c', implCalls seg = [c'] ∧ Q c c') :
    CallsInside Q (implCalls tr0) (implCalls tr) := by
  suffices H : ∀ (big : List Event), (∀ l ∈ libCalls tr, l ∈ libCalls big) →
      (∀ (c : ImplCall) (g : Str → List Val → Tree Outcome) (seg : List Event), c ∈ implCalls tr0 → f c.impl = some g →
        (g c.method c.args).Run seg (passedOn c.result) → (∀ l ∈ libCalls seg, l ∈ libCalls big) → ∃ c', implCalls seg = [c'] ∧ Q c c') →
      CallsInside Q (implCalls tr0) (implCalls tr) from H tr (fun _ h => h) hone
  clear hone
  intro big
  induction h with
  | nil => intro _ _; exact .nil
  | @same e tr0 tr he h ih =>
    intro hb hone
    obtain ⟨op, r⟩ := e
    cases op with
    | impl i name args n =>
      exact absurd (he i name args n r rfl) (hall ⟨i, name, args, plain r⟩ (List.mem_cons_self ..))
    | lib fn args n => exact ih hall (fun l hl => hb l (List.mem_cons_of_mem _ hl)) hone
    | _ => exact ih hall hb hone
  | @call i name args n r g seg tr0 tr hg hr h ih =>
    intro hb hone
    have hb1 : ∀ l ∈ libCalls seg, l ∈ libCalls big := fun l hl => hb l (by rw [libCalls_append]; exact List.mem_append_left _ hl)
    have hb2 : ∀ l ∈ libCalls tr, l ∈ libCalls big := fun l hl => hb l (by rw [libCalls_append]; exact List.mem_append_right _ hl)
    obtain ⟨c', hc', hq⟩ := hone ⟨i, name, args, plain r⟩ g seg (List.mem_cons_self ..) hg hr hb1
    rw [implCalls_append, hc']
    exact .cons hq (ih (fun c hc => hall c (List.mem_cons_of_mem _ hc)) hb2
      fun c g seg hc => hone c g seg (List.mem_cons_of_mem _ hc))

namespace Spec

theorem FromCtx.mono {L : List Str} {tr tr' : List Event} {a b : Val} (h : FromCtx L tr a b) (hl : ∀ c ∈ libCalls tr, c ∈ libCalls tr') :
    FromCtx L tr' a b := by
  induction h with
  | same => exact .same
  | step _ hc hs ha hr hv ih => exact .step ih (hl _ hc) hs ha hr hv

theorem FromCtx.trans {L : List Str} {tr : List Event} {a b c : Val} (h : FromCtx L tr a b) (h' : FromCtx L tr b c) : FromCtx L tr a c := by
  induction h' with
  | same => exact h
  | step _ hc hs ha hr hv ih => exact .step ih hc hs ha hr hv

theorem SameArgs.mono {L : List Str} {m : Method} {tr tr' : List Event} {a b : List Val} (h : SameArgs L m tr a b)
    (hl : ∀ c ∈ libCalls tr, c ∈ libCalls tr') : SameArgs L m tr' a b := by
  rcases h with h | ⟨hc, ctx, rest, ctx', h1, h2, h3⟩
  · exact Or.inl h
  · exact Or.inr ⟨hc, ctx, rest, ctx', h1, h2, h3.mono hl⟩

theorem SameArgs.trans {L : List Str} {m : Method} {tr : List Event} {a b c : List Val} (h : SameArgs L m tr a b) (h' : SameArgs L m tr b c) :
    SameArgs L m tr a c := by
  rcases h with rfl | ⟨hc, ctx, rest, ctx', rfl, rfl, h3⟩
  · exact h'
  · rcases h' with rfl | ⟨_, _, _, ctx'', h1, rfl, h3'⟩
    · exact Or.inr ⟨hc, _, _, _, rfl, rfl, h3⟩
    · cases h1
      exact Or.inr ⟨hc, _, _, _, rfl, rfl, h3.trans h3'⟩

theorem SameArgs.length {L : List Str} {m : Method} {tr : List Event} {a b : List Val} (h : SameArgs L m tr a b) : b.length = a.length := by
  rcases h with rfl | ⟨_, _, _, _, rfl, rfl, _⟩ <;> rfl

end Spec

end Gowrap
