import Verif.Props.Validate
/-!
# C54: exactly which methods with a context get their timeout
-/

namespace Gowrap.Props

open Gowrap Spec Tmpl

theorem setAll_some (env : Env) {x : Str} : ∀ {xs : List Str} {vs : List Val}, xs.length = vs.length → x ∈ xs → ∃ v, env.setAll xs vs x = some v := by
  intro xs
  induction xs generalizing env with
  | nil => intro vs _ h; simp at h
  | cons y ys ih =>
    intro vs hl h
    cases vs with
    | nil => simp at hl
    | cons v vs =>
      simp only [Env.setAll]
      by_cases hy : x ∈ ys
      · exact ih _ (by simpa using hl) hy
      · simp only [List.mem_cons, hy, or_false] at h
        subst h
        rw [Env.setAll_not_mem _ hy]
        exact ⟨v, by simp⟩

/-- All declared names are variables at the start of the method. -/
theorem env_declared {m : Method} {recv : Str × Val} {a r : List Val} (h : m.Fits a r) {x : Str} (hx : x ∈ recv.1 :: (m.pnames ++ m.rnames)) :
    ∃ v, m.env (Method.recvEnv recv) a r x = some v := by
  unfold Method.env
  by_cases hr : x ∈ m.rnames
  · exact setAll_some _ h.lenr hr
  · rw [Env.setAll_not_mem _ hr]
    by_cases hp : x ∈ m.pnames
    · exact setAll_some _ h.lenp hp
    · rw [Env.setAll_not_mem _ hp]
      have : x = recv.1 := by simpa [hr, hp] using hx
      subst this
      exact ⟨recv.2, by simp [Method.recvEnv]⟩

theorem passedOn_ne_stuck {res : Except Val (List Val)} : passedOn res ≠ .stuck := by
  cases res <;> exact nofun

/-- **C54** (exact): a method with a context and a positive timeout gets its deadline exactly if no parameter, no result and not the receiver is
called `cancelFunc` or `context`; if one is, the method does not compile. -/
theorem C54_exact (G : GoTypes) (iface : Str) (base : Val) (config : Str → Int) (m : Method)
    (recv : Str × Val) (args : List Val) (tr : List Event) (o : Outcome) (deadline : Val → Option Int) (now : Int)
    (hok : MethodOk m) (hd : m.WellDeclared recv args) (hc : m.acceptsContext = true) (hpos : config m.name > 0)
    (hr : ((timeoutDecorator iface base config).call G m recv args).Run tr o) (hl : LibsReturn tr)
    (hlaw : TimeoutLaw deadline now tr) :
    (Bounded base m deadline now (config m.name) args tr o ↔
      g!"cancelFunc" ∉ recv.1 :: (m.pnames ++ m.rnames) ∧ g!"context" ∉ recv.1 :: (m.pnames ++ m.rnames)) ∧
    (o = .stuck ↔ g!"cancelFunc" ∈ recv.1 :: (m.pnames ++ m.rnames) ∨ g!"context" ∈ recv.1 :: (m.pnames ++ m.rnames)) := by
  have hf : m.Fits args (m.zeros G) := ⟨hok, hd.2.2, Method.zeros_length G m⟩
  have hcall : (timeoutDecorator iface base config).call G m recv args = m.exec G recv (timeout base (config m.name) m) args := by
    simp [Decorator.call, timeoutDecorator, hc]
  by_cases h1 : g!"cancelFunc" ∈ recv.1 :: (m.pnames ++ m.rnames)
  · obtain ⟨v, hv⟩ := env_declared hf h1
    rw [hcall, Method.exec_apply G hd, timeout, Stm.seq, Stm.declare, hv] at hr
    obtain ⟨rfl, rfl⟩ := hr
    refine ⟨iff_of_false ?_ (fun h => h.1 h1), iff_of_true rfl (Or.inl h1)⟩
    rintro ⟨_, _, _, _, _, _, _, ho, _⟩
    revert ho
    exact passedOn_ne_stuck.symm
  by_cases h2 : g!"context" ∈ recv.1 :: (m.pnames ++ m.rnames)
  · obtain ⟨v, hv⟩ := env_declared hf h2
    have h1' : g!"cancelFunc" ∉ m.pnames ++ m.rnames := fun h => h1 (List.mem_cons_of_mem _ h)
    have hn : m.env (Method.recvEnv recv) args (m.zeros G) g!"cancelFunc" = none := by
      rw [Method.env_other h1', Method.recvEnv, Env.set_other _ _ (fun h => h1 (by rw [h]; exact List.mem_cons_self))]
      
    rw [hcall, Method.exec_apply G hd, timeout, Stm.seq_declare hn, if_pos hpos, Stm.global, Env.set_other _ _ (by decide), hv] at hr
    obtain ⟨rfl, rfl⟩ := hr
    refine ⟨iff_of_false ?_ (fun h => h.2 h2), iff_of_true rfl (Or.inr h2)⟩
    rintro ⟨_, _, _, _, _, _, _, ho, _⟩
    revert ho
    exact passedOn_ne_stuck.symm
  · have hcl : Callable m recv [g!"cancelFunc", g!"context"] args := ⟨hok, hd, by
      intro x hx
      simp only [List.mem_cons, List.not_mem_nil, or_false] at hx
      rcases hx with rfl | rfl
      · exact h1
      · exact h2⟩
    have hb := (C54_timeout_partial G iface base config m recv args tr o deadline now hcl hc hr hl hlaw).1 hpos
    refine ⟨iff_of_true hb ⟨h1, h2⟩, iff_of_false ?_ (fun h => h.elim h1 h2)⟩
    obtain ⟨_, _, _, _, _, _, _, ho, _⟩ := hb
    rw [ho]
    exact passedOn_ne_stuck

/-- `Run(ctx context.Context, cancelFunc func()) error` does not compile with a timeout of one. -/
example : ¬ Bounded (.obj 0) runCancel (fun _ => none) 0 1 [.obj 1, .obj 2] [] .stuck := by
  intro h
  have := (C54_exact demoTypes g!"I" (.obj 0) (fun _ => 1) runCancel (g!"_d", .nil) [.obj 1, .obj 2] [] .stuck
    (fun _ => none) 0 ⟨by decide, fun _ => ⟨[], _, rfl, rfl, rfl⟩, fun _ => ⟨_, _, rfl, rfl⟩⟩ (by decide) rfl (by decide)
    ⟨rfl, rfl⟩ (by simp [LibsReturn, libCalls]) (by simp [TimeoutLaw, callsOf, libCalls])).1.1 h
  exact this.1 (by decide)

end Gowrap.Props
