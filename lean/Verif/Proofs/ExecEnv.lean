import Verif.Proofs.Exec
/-! # The variables of a generated method and symbolic execution of statements -/

namespace Gowrap

open Spec

namespace Method

/-- Variables with parameters `a`, results `r`, and `loc` for all other names. -/
def env (m : Method) (loc : Env) (a r : List Val) : Env := (loc.setAll m.pnames a).setAll m.rnames r

/-- The zero values of the results. -/
def zeros (G : GoTypes) (m : Method) : List Val := m.results.map fun r => G.zero r.type

/-- Number of arguments and results. -/
structure Fits (m : Method) (a r : List Val) : Prop where
  ok : MethodOk m
  args : a.length = m.params.length
  results : r.length = m.results.length

variable {m : Method} {loc : Env} {a r : List Val}

theorem start_eq (G : GoTypes) (m : Method) (recv : Str × Val) (args : List Val) :
    m.start G recv args = m.env (Env.set (fun _ => none) recv.1 recv.2) args (m.zeros G) := rfl

theorem zeros_length (G : GoTypes) (m : Method) : (m.zeros G).length = m.results.length := by
  simp [zeros]

theorem Fits.nodup_p (h : m.Fits a r) : m.pnames.Nodup := (List.nodup_append.1 h.ok.nodup).1
theorem Fits.nodup_r (h : m.Fits a r) : m.rnames.Nodup := (List.nodup_append.1 h.ok.nodup).2.1
theorem Fits.disjoint (h : m.Fits a r) {x : Str} (hx : x ∈ m.pnames) : x ∉ m.rnames :=
  fun hy => (List.nodup_append.1 h.ok.nodup).2.2 x hx x hy rfl
theorem Fits.lenp (h : m.Fits a r) : m.pnames.length = a.length := by simp [pnames, h.args]
theorem Fits.lenr (h : m.Fits a r) : m.rnames.length = r.length := by simp [rnames, h.results]

theorem env_other {x : Str} (hx : x ∉ m.pnames ++ m.rnames) : m.env loc a r x = loc x := by
  simp only [List.mem_append, not_or] at hx
  rw [env, Env.setAll_not_mem _ hx.2, Env.setAll_not_mem _ hx.1]

theorem env_all_params (h : m.Fits a r) : (m.env loc a r).all m.pnames = some a := by
  rw [env, Env.all_setAll_disjoint _ _ fun x hx => h.disjoint hx, Env.all_setAll _ h.nodup_p h.lenp]

theorem env_all_results (h : m.Fits a r) : (m.env loc a r).all m.rnames = some r := by
  rw [env, Env.all_setAll _ h.nodup_r h.lenr]

theorem setAll_apply (env : Env) {x : Str} : ∀ {xs : List Str} {vs : List Val}, xs.length = vs.length →
    x ∈ xs → ∀ env' : Env, (env.setAll xs vs) x = (env'.setAll xs vs) x := by
  intro xs
  induction xs generalizing env with
  | nil => intro vs _ h; simp at h
  | cons y ys ih =>
    intro vs hl h env'
    cases vs with
    | nil => simp at hl
    | cons v vs =>
      simp only [Env.setAll]
      by_cases hy : x ∈ ys
      · exact ih _ (by simpa using hl) hy _
      · simp only [List.mem_cons, hy, or_false] at h
        subst h
        rw [Env.setAll_not_mem _ hy, Env.setAll_not_mem _ hy]
        simp

theorem env_set_other (h : m.Fits a r) {x : Str} {v : Val} (hx : x ∉ m.pnames ++ m.rnames) :
    (m.env loc a r).set x v = m.env (loc.set x v) a r := by
  funext y
  by_cases hy : y = x
  · subst hy
    rw [Env.set_same, env_other hx, Env.set_same]
  · rw [Env.set_other _ _ hy]
    simp only [env]
    by_cases hr : y ∈ m.rnames
    · exact setAll_apply _ h.lenr hr _
    · rw [Env.setAll_not_mem _ hr, Env.setAll_not_mem _ hr]
      by_cases hp : y ∈ m.pnames
      · exact setAll_apply _ h.lenp hp _
      · rw [Env.setAll_not_mem _ hp, Env.setAll_not_mem _ hp, Env.set_other _ _ hy]

theorem env_setAll_results {r' : List Val} (h : m.Fits a r) (hr : r'.length = m.results.length) :
    (m.env loc a r).setAll m.rnames r' = m.env loc a r' := by
  rw [env, env, Env.setAll_setAll _ h.lenr (by simp [rnames, hr]) h.nodup_r]

theorem env_leave_other (h : m.Fits a r) {loc' : Env} {a' r' : List Val} (h' : m.Fits a' r')
    {xs : List Str} (hx : ∀ x ∈ xs, x ∉ m.pnames ++ m.rnames) :
    (m.env loc a r).leave (m.env loc' a' r') xs = m.env (loc.leave loc' xs) a r := by
  funext y
  simp only [Env.leave]
  by_cases hy : y ∈ xs
  · rw [if_pos hy, env_other (hx y hy), env_other (hx y hy)]; simp [Env.leave, hy]
  · rw [if_neg hy]
    simp only [env]
    by_cases hr : y ∈ m.rnames
    · exact setAll_apply _ h.lenr hr _
    · rw [Env.setAll_not_mem _ hr, Env.setAll_not_mem _ hr]
      by_cases hp : y ∈ m.pnames
      · exact setAll_apply _ h.lenp hp _
      · rw [Env.setAll_not_mem _ hp, Env.setAll_not_mem _ hp]; simp [Env.leave, hy]

/-! ### The context and the error -/

theorem pnames_ctx (h : MethodOk m) (hc : m.acceptsContext = true) : ∃ ps, m.pnames = g!"ctx" :: ps := by
  obtain ⟨f, rest, h1, h2⟩ := h.ctx hc
  exact ⟨rest.map (·.name), by simp [pnames, h1, h2]⟩

theorem rnames_err (h : MethodOk m) (hc : m.returnsError = true) : ∃ rs, m.rnames = rs ++ [g!"err"] := by
  obtain ⟨init, last, h1, h2, _⟩ := h.err hc
  exact ⟨init.map (·.name), by simp [rnames, h1, h2]⟩

/-- The first argument. -/
theorem args_ctx (h : m.Fits a r) (hc : m.acceptsContext = true) : ∃ c a', a = c :: a' := by
  obtain ⟨ps, hp⟩ := pnames_ctx h.ok hc
  have := h.lenp
  rw [hp] at this
  cases a with
  | nil => simp at this
  | cons c a' => exact ⟨c, a', rfl⟩

/-- The last result. -/
theorem results_err (h : m.Fits a r) (hc : m.returnsError = true) : ∃ r' e, r = r' ++ [e] := by
  obtain ⟨rs, hr⟩ := rnames_err h.ok hc
  have := h.lenr
  rw [hr] at this
  have hne : r ≠ [] := by rintro rfl; simp at this
  exact ⟨r.dropLast, r.getLast hne, (List.dropLast_concat_getLast hne).symm⟩

theorem Fits.ctx {c c' : Val} {a' : List Val} (h : m.Fits (c :: a') r) : m.Fits (c' :: a') r :=
  ⟨h.ok, by simpa using h.args, h.results⟩

theorem Fits.err {e e' : Val} {r' : List Val} (h : m.Fits a (r' ++ [e])) : m.Fits a (r' ++ [e']) :=
  ⟨h.ok, h.args, by simpa using h.results⟩

theorem env_ctx {c : Val} {a' : List Val} (h : m.Fits (c :: a') r) (hc : m.acceptsContext = true) :
    m.env loc (c :: a') r g!"ctx" = some c := by
  obtain ⟨ps, hp⟩ := pnames_ctx h.ok hc
  have hn := h.nodup_p
  rw [hp] at hn
  rw [env, Env.setAll_not_mem _ (h.disjoint (by rw [hp]; simp)), hp]
  simp only [Env.setAll]
  rw [Env.setAll_not_mem _ (List.nodup_cons.1 hn).1, Env.set_same]

theorem setAll_snoc (env : Env) {x : Str} {v : Val} : ∀ {xs : List Str} {vs : List Val},
    xs.length = vs.length → env.setAll (xs ++ [x]) (vs ++ [v]) = (env.setAll xs vs).set x v := by
  intro xs
  induction xs generalizing env with
  | nil =>
    intro vs hl
    cases vs with
    | nil => rfl
    | cons _ _ => simp at hl
  | cons y ys ih =>
    intro vs hl
    cases vs with
    | nil => simp at hl
    | cons w ws => exact ih _ (by simpa using hl)

theorem env_err {e : Val} {r' : List Val} (h : m.Fits a (r' ++ [e])) (hc : m.returnsError = true) :
    m.env loc a (r' ++ [e]) g!"err" = some e := by
  obtain ⟨rs, hr⟩ := rnames_err h.ok hc
  have hl := h.lenr
  rw [hr] at hl
  rw [env, hr, setAll_snoc _ (by simpa using hl), Env.set_same]

theorem env_set_err {e e' : Val} {r' : List Val} (h : m.Fits a (r' ++ [e])) (hc : m.returnsError = true) :
    (m.env loc a (r' ++ [e])).set g!"err" e' = m.env loc a (r' ++ [e']) := by
  obtain ⟨rs, hr⟩ := rnames_err h.ok hc
  have hl := h.lenr
  rw [hr] at hl
  rw [env, env, hr, setAll_snoc _ (by simpa using hl), setAll_snoc _ (by simpa using hl)]
  funext y
  simp only [Env.set]
  split <;> rfl

theorem env_set_ctx {c c' : Val} {a' : List Val} (h : m.Fits (c :: a') r) (hc : m.acceptsContext = true) :
    (m.env loc (c :: a') r).set g!"ctx" c' = m.env loc (c' :: a') r := by
  obtain ⟨ps, hp⟩ := pnames_ctx h.ok hc
  have hn := h.nodup_p
  have hl := h.lenp
  rw [hp] at hn hl
  have hctx : g!"ctx" ∉ m.rnames := h.disjoint (by rw [hp]; simp)
  have hps : g!"ctx" ∉ ps := (List.nodup_cons.1 hn).1
  funext y
  by_cases hy : y = g!"ctx"
  · subst hy
    rw [Env.set_same, env_ctx (h.ctx (c' := c')) hc]
  · rw [Env.set_other _ _ hy]
    simp only [env]
    by_cases hr : y ∈ m.rnames
    · exact setAll_apply _ h.lenr hr _
    · rw [Env.setAll_not_mem _ hr, Env.setAll_not_mem _ hr, hp]
      simp only [Env.setAll]
      by_cases hyp : y ∈ ps
      · exact setAll_apply _ (by simpa using hl) hyp _
      · rw [Env.setAll_not_mem _ hyp, Env.setAll_not_mem _ hyp, Env.set_other _ _ hy, Env.set_other _ _ hy]

end Method

/-! ## Symbolic execution -/

namespace Tree

variable {α : Type} {Q : List Event → α → Prop}

@[simp] theorem all_lib {f : Str} {args : List Val} {n : Nat} {k : Except Val (Vals n) → Tree α} :
    (Tree.vis (.lib f args n) k).All Q ↔
      (∀ vs : Vals n, (k (.ok vs)).All fun tr a => Q (⟨.lib f args n, Except.ok vs⟩ :: tr) a) ∧
      ∀ v, (k (.error v)).All fun tr a => Q (⟨.lib f args n, Except.error v⟩ :: tr) a := by
  rw [all_vis]
  exact ⟨fun h => ⟨fun vs => h (.ok vs), fun v => h (.error v)⟩, fun h r => by
    cases r with
    | ok vs => exact h.1 vs
    | error v => exact h.2 v⟩

@[simp] theorem all_impl {i : Val} {f : Str} {args : List Val} {n : Nat} {k : Except Val (Vals n) → Tree α} :
    (Tree.vis (.impl i f args n) k).All Q ↔
      (∀ vs : Vals n, (k (.ok vs)).All fun tr a => Q (⟨.impl i f args n, Except.ok vs⟩ :: tr) a) ∧
      ∀ v, (k (.error v)).All fun tr a => Q (⟨.impl i f args n, Except.error v⟩ :: tr) a := by
  rw [all_vis]
  exact ⟨fun h => ⟨fun vs => h (.ok vs), fun v => h (.error v)⟩, fun h r => by
    cases r with
    | ok vs => exact h.1 vs
    | error v => exact h.2 v⟩

end Tree

namespace Stm

@[simp] theorem orPanic_ok {α : Type} (k : α → Stm) (a : α) : orPanic k (.ok a) = k a := rfl
@[simp] theorem orPanic_error {α : Type} (k : α → Stm) (v : Val) (env : Env) :
    orPanic k (.error v) env = .ret (env, .panic v) := rfl
@[simp] theorem op_apply (o : Op) (k : o.Resp → Stm) (env : Env) :
    op o k env = .vis o fun r => k r env := rfl
@[simp] theorem skip_apply (env : Env) : skip env = .ret (env, .next) := rfl
@[simp] theorem ret_apply (env : Env) : ret env = .ret (env, .ret) := rfl
@[simp] theorem ite_true' (t e : Stm) : ite true t e = t := rfl
@[simp] theorem ite_false' (t e : Stm) : ite false t e = e := rfl

theorem get_apply {env : Env} {x : Str} {v : Val} (h : env x = some v) (k : Val → Stm) :
    get x k env = k v env := by simp [get, h]

theorem getAll_apply {env : Env} {xs : List Str} {vs : List Val} (h : env.all xs = some vs)
    (k : List Val → Stm) : getAll xs k env = k vs env := by simp [getAll, h]

theorem assign_apply {env : Env} {x : Str} {u : Val} (h : env x = some u) (v : Val) :
    assign x v env = .ret (env.set x v, .next) := by simp [assign, h]

theorem declare_apply {env : Env} {x : Str} (h : env x = none) (v : Val) :
    declare x v env = .ret (env.set x v, .next) := by simp [declare, h]

theorem global_apply {env : Env} {x : Str} (h : env x = none) (k : Stm) : global x k env = k env := by
  simp [global, h]

@[simp] theorem ret_bind {α β : Type} (a : α) (f : α → Tree β) : (Tree.ret a).bind f = f a := rfl

end Stm

namespace Method

variable {m : Method} {loc : Env} {a r : List Val}

theorem assignCall_apply (h : m.Fits a r) (recv : Val) (k : Stm) :
    m.assignCall recv k (m.env loc a r) = .vis (.impl recv m.name a m.results.length) fun
      | .ok vs => k (m.env loc a vs.1)
      | .error v => .ret (m.env loc a r, .panic v) := by
  rw [assignCall, Stm.getAll_apply (env_all_params h), Stm.op_apply]
  congr 1
  funext x
  cases x with
  | error v => rfl
  | ok vs =>
    simp only [Stm.orPanic_ok, Stm.seq, Stm.assignAll, env_all_results h]
    rw [if_pos (by simp [rnames, vs.2]), env_setAll_results h vs.2]
    rfl

theorem passTo_apply (h : m.Fits a r) (recv : Val) :
    m.passTo recv (m.env loc a r) = .vis (.impl recv m.name a m.results.length) fun
      | .ok vs => .ret (m.env loc a vs.1, .ret)
      | .error v => .ret (m.env loc a r, .panic v) := by
  rw [passTo, assignCall_apply h]
  rfl

/-- The end of a method. -/
def finish (m : Method) (r : Env × Flow) : Tree Outcome :=
  match r.2 with
  | .panic v => .ret (.panic v)
  | .stuck => .ret .stuck
  | .next => .ret (if m.results = [] then .ret [] else .stuck)
  | .ret => match r.1.all m.rnames with
    | some vs => .ret (.ret vs)
    | none => .ret .stuck

/-- The receiver is the only other variable at the start. -/
def recvEnv (recv : Str × Val) : Env := Env.set (fun _ => none) recv.1 recv.2

theorem exec_apply (G : GoTypes) {recv : Str × Val} {args : List Val} (h : m.WellDeclared recv args)
    (body : Stm) : m.exec G recv body args =
      (body (m.env (recvEnv recv) args (m.zeros G))).bind m.finish := by
  rw [exec, if_pos h]
  rfl

@[simp] theorem finish_panic (env : Env) (v : Val) : m.finish (env, .panic v) = .ret (.panic v) := rfl

theorem finish_ret (h : m.Fits a r) : m.finish (m.env loc a r, .ret) = .ret (.ret r) := by
  simp only [finish, env_all_results h]

end Method

/-! ## Runs in which no library function panics -/

/-- `Q` holds for every complete run in which no library function panics. -/
def Tree.AllG {α : Type} (t : Tree α) (Q : List Event → α → Prop) : Prop :=
  ∀ tr a, t.Run tr a → LibsReturn tr → Q tr a

namespace Tree

variable {α β : Type} {Q : List Event → α → Prop}

@[simp] theorem allG_ret (a : α) : (Tree.ret a).AllG Q ↔ Q [] a := by
  constructor
  · intro h; exact h [] a ⟨rfl, rfl⟩ libsReturn_nil
  · rintro h tr b ⟨rfl, rfl⟩ _; exact h

@[simp] theorem allG_bind (t : Tree α) (f : α → Tree β) (Q : List Event → β → Prop) :
    (t.bind f).AllG Q ↔ t.AllG fun tr a => (f a).AllG fun tr' b => Q (tr ++ tr') b := by
  constructor
  · intro h tr a h1 hl tr' b h2 hl'
    exact h _ _ (run_bind.2 ⟨tr, tr', a, rfl, h1, h2⟩) (by simp [hl, hl'])
  · intro h tr b hb hl
    obtain ⟨tr1, tr2, a, rfl, h1, h2⟩ := run_bind.1 hb
    simp only [libsReturn_append] at hl
    exact h tr1 a h1 hl.1 tr2 b h2 hl.2

@[simp] theorem allG_lib {f : Str} {args : List Val} {n : Nat} {k : Except Val (Vals n) → Tree α} :
    (Tree.vis (.lib f args n) k).AllG Q ↔
      ∀ vs : Vals n, (k (.ok vs)).AllG fun tr a => Q (⟨.lib f args n, Except.ok vs⟩ :: tr) a := by
  constructor
  · intro h vs tr a hr hl
    exact h _ _ ⟨_, tr, rfl, hr⟩ ((libsReturn_lib _ _ _ _ _).2 ⟨⟨vs, rfl⟩, hl⟩)
  · rintro h _ a ⟨r, tr, rfl, hr⟩ hl
    obtain ⟨⟨vs, rfl⟩, hl'⟩ := (libsReturn_lib _ _ _ _ _).1 hl
    exact h vs tr a hr hl'

@[simp] theorem allG_impl {i : Val} {f : Str} {args : List Val} {n : Nat} {k : Except Val (Vals n) → Tree α} :
    (Tree.vis (.impl i f args n) k).AllG Q ↔
      (∀ vs : Vals n, (k (.ok vs)).AllG fun tr a => Q (⟨.impl i f args n, Except.ok vs⟩ :: tr) a) ∧
      ∀ v, (k (.error v)).AllG fun tr a => Q (⟨.impl i f args n, Except.error v⟩ :: tr) a := by
  constructor
  · intro h
    exact ⟨fun vs tr a hr hl => h _ _ ⟨_, tr, rfl, hr⟩ hl, fun v tr a hr hl => h _ _ ⟨_, tr, rfl, hr⟩ hl⟩
  · rintro h _ a ⟨r, tr, rfl, hr⟩ hl
    cases r with
    | ok vs => exact h.1 vs tr a hr hl
    | error v => exact h.2 v tr a hr hl

@[simp] theorem allG_now {k : Int → Tree α} :
    (Tree.vis .now k).AllG Q ↔ ∀ t : Int, (k t).AllG fun tr a => Q (⟨.now, t⟩ :: tr) a := by
  constructor
  · intro h t tr a hr hl; exact h _ _ ⟨_, tr, rfl, hr⟩ hl
  · rintro h _ a ⟨r, tr, rfl, hr⟩ hl; exact h r tr a hr hl

theorem AllG.mono {t : Tree α} {Q R : List Event → α → Prop} (h : t.AllG Q)
    (hQR : ∀ tr a, Q tr a → R tr a) : t.AllG R := fun tr a hr hl => hQR _ _ (h tr a hr hl)

end Tree

namespace Stm

open Tree

variable {Q : List Event → Env × Flow → Prop} {env : Env}

theorem allG_seq {a b : Stm} : (seq a b env).AllG Q ↔ (a env).AllG fun tr r =>
    match r.2 with
    | .next => (b r.1).AllG fun tr' r' => Q (tr ++ tr') r'
    | fl => Q tr (r.1, fl) := by
  rw [seq, allG_bind]
  constructor
  · intro h
    refine h.mono fun tr r => ?_
    obtain ⟨e, fl⟩ := r
    cases fl <;> simp
  · intro h
    refine h.mono fun tr r => ?_
    obtain ⟨e, fl⟩ := r
    cases fl <;> simp

theorem allG_deferring {d rest : Stm} : (deferring d rest env).AllG Q ↔ (rest env).AllG fun tr r =>
    match r.2 with
    | .stuck => Q tr (r.1, .stuck)
    | fl => (d r.1).AllG fun tr' r' => match r'.2 with
      | .next | .ret => Q (tr ++ tr') (r'.1, fl)
      | fl' => Q (tr ++ tr') (r'.1, fl') := by
  rw [deferring, allG_bind]
  have : ∀ tr (r : Env × Flow), (match r.2 with
      | .stuck => Tree.ret (r.1, Flow.stuck)
      | fl => (d r.1).bind fun r' => match r'.2 with
        | .next | .ret => .ret (r'.1, fl)
        | fl' => .ret (r'.1, fl')).AllG (fun tr' b => Q (tr ++ tr') b) ↔
      match r.2 with
      | .stuck => Q tr (r.1, .stuck)
      | fl => (d r.1).AllG fun tr' r' => match r'.2 with
        | .next | .ret => Q (tr ++ tr') (r'.1, fl)
        | fl' => Q (tr ++ tr') (r'.1, fl') := by
    intro tr r
    obtain ⟨e, fl⟩ := r
    cases fl with
    | stuck => simp
    | _ =>
      simp only [allG_bind]
      constructor <;> intro h tr' x hx hl <;> have := h tr' x hx hl <;> obtain ⟨e', f'⟩ := x <;>
        cases f' <;> simpa using this
  constructor
  · intro h; exact h.mono fun tr r hr => (this tr r).1 hr
  · intro h; exact h.mono fun tr r hr => (this tr r).2 hr

theorem allG_block {xs : List Str} {vs : List Val} {body : Stm} :
    (block xs vs body env).AllG Q ↔ (body (env.setAll xs vs)).AllG fun tr r => Q tr (r.1.leave env xs, r.2) := by
  rw [block, allG_bind]
  simp

@[simp] theorem allG_lib0 {fn : Str} {args : List Val} : (lib0 fn args env).AllG Q ↔
    Q [⟨.lib fn args 0, Except.ok ⟨[], rfl⟩⟩] (env, .next) := by
  simp only [lib0, lib, op_apply, allG_lib, orPanic_ok, skip_apply, allG_ret]
  constructor
  · intro h; exact h ⟨[], rfl⟩
  · intro h vs
    obtain ⟨vs, hv⟩ := vs
    cases vs with
    | nil => exact h
    | cons _ _ => simp at hv

@[simp] theorem allG_lib1 {fn : Str} {args : List Val} {k : Val → Stm} : (lib1 fn args k env).AllG Q ↔
    ∀ v, (k v env).AllG fun tr r => Q (⟨.lib fn args 1, Except.ok ⟨[v], rfl⟩⟩ :: tr) r := by
  simp only [lib1, op_apply, allG_lib, orPanic_ok]
  constructor
  · intro h v; exact h ⟨[v], rfl⟩
  · intro h vs
    obtain ⟨vs, hv⟩ := vs
    match vs, hv with
    | [v], _ => exact h v

@[simp] theorem allG_lib2 {fn : Str} {args : List Val} {k : Val → Val → Stm} :
    (lib2 fn args k env).AllG Q ↔
    ∀ v w, (k v w env).AllG fun tr r => Q (⟨.lib fn args 2, Except.ok ⟨[v, w], rfl⟩⟩ :: tr) r := by
  simp only [lib2, op_apply, allG_lib, orPanic_ok]
  constructor
  · intro h v w; exact h ⟨[v, w], rfl⟩
  · intro h vs
    obtain ⟨vs, hv⟩ := vs
    match vs, hv with
    | [v, w], _ => exact h v w

end Stm

namespace Method

open Tree

variable {m : Method} {loc : Env} {a r : List Val}

theorem allG_passTo {Q : List Event → Env × Flow → Prop} (h : m.Fits a r) (recv : Val) :
    (m.passTo recv (m.env loc a r)).AllG Q ↔
      (∀ vs : Vals m.results.length,
        Q [⟨.impl recv m.name a m.results.length, Except.ok vs⟩] (m.env loc a vs.1, .ret)) ∧
      ∀ v, Q [⟨.impl recv m.name a m.results.length, Except.error v⟩] (m.env loc a r, .panic v) := by
  rw [passTo_apply h]
  simp

end Method

/-! ## Postconditions on the visible calls -/

/-- Every run without library panics ends with `x` after visible calls that satisfy `P`. -/
def Tree.Does {α : Type} (t : Tree α) (P : List Seen → Prop) (x : α) : Prop :=
  t.AllG fun tr y => P (seen tr) ∧ y = x

namespace Tree

variable {α β : Type}

theorem Does.ret {P : List Seen → Prop} (a : α) (h : P []) : (Tree.ret a).Does P a := by
  simp [Does, seen, h]

theorem Does.allG {t : Tree α} {P x} {Q : List Event → α → Prop} (h : t.Does P x)
    (hQ : ∀ tr, P (seen tr) → Q tr x) : t.AllG Q := by
  refine AllG.mono h ?_
  rintro tr _ ⟨hp, rfl⟩
  exact hQ tr hp

theorem Does.mono {t : Tree α} {P P' x} (h : t.Does P x) (hP : ∀ L, P L → P' L) : t.Does P' x :=
  h.allG fun _ hp => ⟨hP _ hp, rfl⟩

theorem Does.bind {t : Tree α} {f : α → Tree β} {P P' x y} (h : t.Does P x)
    (h' : ∀ L, P L → (f x).Does (fun L' => P' (L ++ L')) y) : (t.bind f).Does P' y := by
  rw [Does, allG_bind]
  refine h.allG fun tr hp => ?_
  refine (h' _ hp).allG fun tr' hp' => ?_
  exact ⟨by rw [seen_append]; exact hp', rfl⟩

end Tree

namespace Stm

open Tree

variable {env : Env} {P : List Seen → Prop}

theorem does_lib0 {fn : Str} {args : List Val} (h : P [.lib ⟨fn, args, .ok []⟩]) :
    (lib0 fn args env).Does P (env, .next) := by
  simp [Does, seen, plain, h]

theorem does_lib1 {fn : Str} {args : List Val} {k : Val → Stm} {x : Env × Flow}
    (h : ∀ v, (k v env).Does (fun L => P (.lib ⟨fn, args, .ok [v]⟩ :: L)) x) :
    (lib1 fn args k env).Does P x := by
  rw [Does, allG_lib1]
  exact fun v => (h v).allG fun tr hp => ⟨hp, rfl⟩

theorem does_skip (h : P []) : (skip env).Does P (env, .next) := Does.ret _ h

theorem does_seq {a b : Stm} {env' : Env} {P' : List Seen → Prop} {x : Env × Flow}
    (h : (a env).Does P (env', .next)) (h' : ∀ L, P L → (b env').Does (fun L' => P' (L ++ L')) x) :
    (seq a b env).Does P' x := Does.bind h h'

theorem does_block {xs : List Str} {vs : List Val} {body : Stm} {env' env'' : Env} {fl : Flow}
    (h : (body (env.setAll xs vs)).Does P (env', fl)) (he : env'.leave env xs = env'') :
    (block xs vs body env).Does P (env'', fl) := by
  subst he
  exact Does.bind h fun L hL => Does.ret _ (by simpa using hL)

end Stm

theorem Env.leave_set (env : Env) (x : Str) (v : Val) : (env.set x v).leave env [x] = env := by
  funext y
  simp only [Env.leave, Env.set, List.mem_singleton]
  split <;> simp_all

namespace Stm

variable {env : Env} {P : List Seen → Prop} {x : Str} {v : Val}

/-- A block with one variable which is not changed in the block. -/
theorem does_block1 {body : Stm} {fl : Flow} (h : (body (env.set x v)).Does P (env.set x v, fl)) :
    (block [x] [v] body env).Does P (env, fl) :=
  does_block (env' := env.set x v) h (Env.leave_set env x v)

theorem seq_declare {b : Stm} (h : env x = none) : seq (declare x v) b env = b (env.set x v) := by
  rw [seq, declare_apply h]; rfl

theorem seq_assign {b : Stm} {u : Val} (h : env x = some u) : seq (assign x v) b env = b (env.set x v) := by
  rw [seq, assign_apply h]; rfl

theorem seq_skip {b : Stm} : seq skip b env = b env := rfl

end Stm

theorem failedVals_iff (m : Method) (r : List Val) :
    failedVals m r = true ↔ Failed m (.ok r) := by
  unfold failedVals Failed
  cases h : r.getLast? with
  | none => simp_all
  | some e => simp_all

/-- The zero values do not look like a failure. -/
theorem failedVals_zeros (G : GoTypes) {m : Method} (h : MethodOk m) : failedVals m (m.zeros G) = false := by
  unfold failedVals
  cases hm : m.returnsError with
  | false => rfl
  | true =>
    obtain ⟨init, last, h1, _, h3⟩ := h.err hm
    simp [Method.zeros, h1, h3, G.zero_error, Val.isNil]

theorem failedVals_after (G : GoTypes) {m : Method} (h : MethodOk m) (r : Except Val (List Val)) :
    failedVals m (resultsAfter (m.zeros G) r) = true ↔ Failed m r := by
  cases r with
  | ok vs => exact failedVals_iff m vs
  | error v =>
    simp only [resultsAfter, failedVals_zeros G h, Failed]
    simp

/-! ## A call followed by a deferred function -/

section

variable {m : Method} {loc : Env} {a r : List Val}

/-- A deferred function that leaves the results alone, after `Pass`. -/
theorem allG_deferred_pass {Q : List Event → Outcome → Prop} {after : Stm} {base : Val}
    {P : List Val → List Seen → Prop} (h : m.Fits a r)
    (hafter : ∀ r', m.Fits a r' → ∃ loc', (after (m.env loc a r')).Does (P r') (m.env loc' a r', .next))
    (hQ : ∀ res tr L, P (resultsAfter r res) L →
      seen tr = .impl ⟨base, m.name, a, res⟩ :: L → Q tr (passedOn res)) :
    ((Stm.deferring after (m.passTo base) (m.env loc a r)).bind m.finish).AllG Q := by
  rw [Tree.allG_bind, Stm.allG_deferring, Method.allG_passTo h]
  constructor
  · intro vs
    have hf : m.Fits a vs.1 := ⟨h.ok, h.args, vs.2⟩
    obtain ⟨loc', hd⟩ := hafter vs.1 hf
    refine hd.allG fun tr hp => ?_
    simp only [Method.finish_ret hf, Tree.allG_ret]
    exact hQ (.ok vs.1) _ _ hp (by simp [seen, plain])
  · intro v
    obtain ⟨loc', hd⟩ := hafter r h
    refine hd.allG fun tr hp => ?_
    simp only [Method.finish_panic, Tree.allG_ret]
    exact hQ (.error v) _ _ hp (by simp [seen, plain])

end

/-! ## Statements that do not call an implementation -/

/-- At most `n` calls of implementations in every run. -/
def Tree.Calls {α : Type} (t : Tree α) (n : Nat) : Prop := ∀ tr x, t.Run tr x → (implCalls tr).length ≤ n

/-- At most `n` calls of implementations in every run. -/
def Stm.Calls (s : Stm) (n : Nat) : Prop := ∀ env, (s env).Calls n

namespace Tree

variable {α β : Type}

theorem Calls.mono {t : Tree α} {n k : Nat} (h : t.Calls n) (hk : n ≤ k) : t.Calls k :=
  fun tr x hr => Nat.le_trans (h tr x hr) hk

theorem calls_ret (a : α) (n : Nat) : (Tree.ret a).Calls n := by
  rintro tr x ⟨rfl, _⟩; simp [implCalls]

theorem calls_bind {t : Tree α} {f : α → Tree β} {n k : Nat} (h : t.Calls n) (hf : ∀ a, (f a).Calls k) :
    (t.bind f).Calls (n + k) := by
  intro tr b hb
  obtain ⟨tr1, tr2, a, rfl, h1, h2⟩ := run_bind.1 hb
  rw [implCalls_append, List.length_append]
  exact Nat.add_le_add (h _ _ h1) (hf a _ _ h2)

/-- The operation is not a call of an implementation. -/
def _root_.Gowrap.Op.silent : Op → Bool
  | .impl .. => false
  | _ => true

theorem calls_silent {op : Op} {k : op.Resp → Tree α} {n : Nat} (ho : op.silent = true)
    (h : ∀ r, (k r).Calls n) : (Tree.vis op k).Calls n := by
  rintro _ x ⟨r, tr, rfl, hr⟩
  have := h r tr x hr
  cases op <;> simp_all [implCalls, Op.silent]

theorem calls_impl {i : Val} {f : Str} {args : List Val} {k : Nat} {c : Except Val (Vals k) → Tree α} {n : Nat}
    (h : ∀ r, (c r).Calls n) : (Tree.vis (.impl i f args k) c).Calls (n + 1) := by
  rintro _ x ⟨r, tr, rfl, hr⟩
  have := h r tr x hr
  simp only [implCalls, List.length_cons]
  omega

end Tree

namespace Stm

open Tree

variable {a b : Stm} {n k : Nat}

theorem Calls.mono (h : a.Calls n) (hk : n ≤ k) : a.Calls k := fun env => (h env).mono hk

theorem calls_skip : Calls skip n := fun env => calls_ret _ _
theorem calls_return : Calls Stm.ret n := fun env => calls_ret _ _
theorem calls_stuck : Calls stuck n := fun env => calls_ret _ _

theorem calls_seq (ha : a.Calls n) (hb : b.Calls k) : (seq a b).Calls (n + k) := by
  intro env
  refine calls_bind (ha env) fun r => ?_
  obtain ⟨e, fl⟩ := r
  cases fl
  · exact hb e
  all_goals exact calls_ret _ _

theorem calls_op {o : Op} {c : o.Resp → Stm} (ho : o.silent = true) (h : ∀ r, (c r).Calls n) :
    (op o c).Calls n := fun env => calls_silent ho fun r => h r env

theorem calls_orPanic {α : Type} {c : α → Stm} (h : ∀ x, (c x).Calls n) (r : Except Val α) :
    (orPanic c r).Calls n := by
  cases r with
  | ok x => exact h x
  | error v => exact fun env => calls_ret _ _

theorem calls_lib0 {fn : Str} {args : List Val} : (lib0 fn args).Calls n :=
  calls_op rfl fun r => calls_orPanic (fun _ => calls_skip) r

theorem calls_lib1 {fn : Str} {args : List Val} {c : Val → Stm} (h : ∀ v, (c v).Calls n) :
    (lib1 fn args c).Calls n := calls_op rfl fun r => calls_orPanic (fun _ => h _) r

theorem calls_lib2 {fn : Str} {args : List Val} {c : Val → Val → Stm} (h : ∀ v w, (c v w).Calls n) :
    (lib2 fn args c).Calls n := calls_op rfl fun r => calls_orPanic (fun _ => h _ _) r

theorem calls_get {x : Str} {c : Val → Stm} (h : ∀ v, (c v).Calls n) : (get x c).Calls n := by
  intro env
  unfold get
  split
  · exact h _ env
  · exact calls_ret _ _

theorem calls_getAll {xs : List Str} {c : List Val → Stm} (h : ∀ v, (c v).Calls n) :
    (getAll xs c).Calls n := by
  intro env
  unfold getAll
  split
  · exact h _ env
  · exact calls_ret _ _

theorem calls_global {x : Str} (h : a.Calls n) : (global x a).Calls n := by
  intro env
  unfold global
  split
  · exact calls_ret _ _
  · exact h env

theorem calls_assign {x : Str} {v : Val} : (assign x v).Calls n := by
  intro env
  unfold assign
  split <;> exact calls_ret _ _

theorem calls_assignAll {xs : List Str} {vs : List Val} : (assignAll xs vs).Calls n := by
  intro env
  unfold assignAll
  split
  · split <;> exact calls_ret _ _
  · exact calls_ret _ _

theorem calls_declare {x : Str} {v : Val} : (declare x v).Calls n := by
  intro env
  unfold declare
  split <;> exact calls_ret _ _

theorem calls_block {xs : List Str} {vs : List Val} (h : a.Calls n) : (block xs vs a).Calls n := by
  intro env
  have := calls_bind (h (env.setAll xs vs)) (k := 0) (f := fun r => .ret (r.1.leave env xs, r.2))
    fun _ => calls_ret _ _
  exact this

theorem calls_ite {c : Bool} (ha : a.Calls n) (hb : b.Calls n) : (ite c a b).Calls n := by
  cases c
  · exact hb
  · exact ha

theorem calls_deferring (ha : a.Calls n) (hb : b.Calls k) : (deferring a b).Calls (k + n) := by
  intro env
  refine calls_bind (hb env) fun r => ?_
  have : ∀ fl : Flow, ((a r.1).bind fun r' => match r'.2 with
      | .next | .ret => Tree.ret (r'.1, fl)
      | fl' => .ret (r'.1, fl')).Calls n := by
    intro fl
    have := calls_bind (ha r.1) (k := 0) (f := fun r' => match r'.2 with
      | .next | .ret => Tree.ret (r'.1, fl)
      | fl' => .ret (r'.1, fl')) fun r' => by
        obtain ⟨e, f⟩ := r'
        cases f <;> exact calls_ret _ _
    exact this
  obtain ⟨e, fl⟩ := r
  cases fl
  · exact this .next
  · exact this .ret
  · exact this (.panic _)
  · exact calls_ret _ _

theorem calls_assignCall (m : Method) (recv : Val) (h : a.Calls n) : (m.assignCall recv a).Calls (n + 1) :=
  calls_getAll fun _ env => calls_impl fun r =>
    calls_orPanic (n := n) (fun _ => (calls_seq (n := 0) calls_assignAll h).mono (by omega)) r env

theorem calls_passTo (m : Method) (recv : Val) : (m.passTo recv).Calls 1 :=
  calls_assignCall m recv calls_return

end Stm

theorem Method.calls_exec {G : GoTypes} {m : Method} {recv : Str × Val} {body : Stm} {args : List Val} {n : Nat}
    (h : body.Calls n) : (m.exec G recv body args).Calls n := by
  unfold Method.exec
  split
  · have := Tree.calls_bind (h (m.start G recv args)) (k := 0) (f := m.finish) fun r => by
      obtain ⟨e, fl⟩ := r
      cases fl
      · exact Tree.calls_ret _ _
      · simp only [Method.finish]
        split <;> exact Tree.calls_ret _ _
      · exact Tree.calls_ret _ _
      · exact Tree.calls_ret _ _
    exact this
  · exact Tree.calls_ret _ _

/-- At the start the arguments and zero values fit. -/
theorem Spec.Callable.fits {m : Method} {recv : Str × Val} {ids : List Str} {args : List Val}
    (h : Callable m recv ids args) (G : GoTypes) : m.Fits args (m.zeros G) :=
  ⟨h.ok, h.declared.2.2, Method.zeros_length G m⟩

/-- Identifiers of the template are not declared at the start. -/
theorem Spec.Callable.fresh {m : Method} {recv : Str × Val} {ids : List Str} {args : List Val}
    (h : Callable m recv ids args) {x : Str} (hx : x ∈ ids) :
    Method.recvEnv recv x = none ∧ x ∉ m.pnames ++ m.rnames := by
  have := h.avoids x hx
  simp only [List.mem_cons, not_or] at this
  exact ⟨by simp [Method.recvEnv, Env.set, this.1], this.2⟩

end Gowrap
