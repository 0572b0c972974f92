import Verif.Spec.Tower
import Verif.Proofs.Stack
/-! # Runs of towers of decorators -/

namespace Gowrap

open Spec

theorem Spec.Lawful.split {a b : List Event} (h : Lawful (a ++ b)) : Lawful a ∧ Lawful b := by
  obtain ⟨l1, l2⟩ := (libsReturn_append a b).1 h.libs
  refine ⟨⟨l1, fun i r hm => h.ticker i r (List.mem_append_left _ hm), fun e t r hm => h.errorsIs e t r (List.mem_append_left _ hm), fun c hc => h.makers c ?_⟩,
    ⟨l2, fun i r hm => h.ticker i r (List.mem_append_right _ hm), fun e t r hm => h.errorsIs e t r (List.mem_append_right _ hm), fun c hc => h.makers c ?_⟩⟩
  · rw [libCalls_append]; exact List.mem_append_left _ hc
  · rw [libCalls_append]; exact List.mem_append_right _ hc

/-- A run of a program with programs inside is a run of the program outside, in which their calls are replaced by runs of theirs. -/
theorem through_lawful {f : Inner} {P : Op → Prop}
    (hf : ∀ i g name args n, f i = some g → P (.impl i name args n) → ∀ seg o, (g name args).Run seg o → Lawful seg →
      ∃ r : Except Val (Vals n), o = passedOn (plain r))
    {t : Tree Outcome} (ht : t.Only P) : ∀ {tr : List Event} {out : Outcome}, (through f t).Run tr out → Lawful tr →
      ∃ tr0, t.Run tr0 out ∧ Expands f tr0 tr := by
  induction t with
  | ret o =>
    rintro tr out ⟨rfl, rfl⟩ _
    exact ⟨[], ⟨rfl, rfl⟩, .nil⟩
  | vis op k ih =>
    intro tr out h hl
    have plainStep : ∀ (e : ∀ i name args n, op = .impl i name args n → f i = none) (tr' : List Event) (r : op.Resp),
        tr = ⟨op, r⟩ :: tr' → (through f (k r)).Run tr' out → ∃ tr0, (Tree.vis op k).Run tr0 out ∧ Expands f tr0 tr := by
      rintro e tr' r rfl h'
      obtain ⟨tr0, h0, hx⟩ := ih r (ht.2 r) h' (Lawful.split (a := [⟨op, r⟩]) hl).2
      exact ⟨⟨op, r⟩ :: tr0, ⟨r, tr0, rfl, h0⟩, .same (by
        intro i name args n r' he
        injection he with he1 _
        exact e i name args n he1) hx⟩
    cases op with
    | impl i name args n =>
      rw [through] at h
      split at h
      · rename_i g hg
        obtain ⟨seg, tr2, o, rfl, h1, h2⟩ := Tree.run_bind.1 h
        obtain ⟨hl1, hl2⟩ := hl.split
        obtain ⟨r, rfl⟩ := hf i g name args n hg ht.1 seg o h1 hl1
        rw [response_passedOn] at h2
        obtain ⟨tr0, h0, hx⟩ := ih r (ht.2 r) h2 hl2
        exact ⟨⟨.impl i name args n, r⟩ :: tr0, ⟨r, tr0, rfl, h0⟩, .call hg h1 hx⟩
      · rename_i hg
        obtain ⟨r, tr', e, h'⟩ := h
        exact plainStep (by rintro i' _ _ _ he; cases he; exact hg) tr' r e h'
    | _ =>
      obtain ⟨r, tr', e, h'⟩ := h
      exact plainStep (by rintro _ _ _ _ he; cases he) tr' r e h'

/-- The calls `cs'` come in blocks, one for each of the calls `cs`. -/
inductive Blocks (Q : ImplCall → List ImplCall → Prop) : List ImplCall → List ImplCall → Prop
  | nil : Blocks Q [] []
  | cons {c : ImplCall} {seg cs cs' : List ImplCall} (h : Q c seg) (hs : Blocks Q cs cs') : Blocks Q (c :: cs) (seg ++ cs')

theorem Blocks.split {Q : ImplCall → List ImplCall → Prop} {cs cs' : List ImplCall} (h : Blocks Q cs cs') : ∀ {p : List ImplCall} {x : ImplCall} {s : List ImplCall},
    cs' = p ++ x :: s → ∃ pre c post seg p1 s1 s2, cs = pre ++ c :: post ∧ Q c seg ∧ seg = p1 ++ x :: s1 ∧ s = s1 ++ s2 ∧ Blocks Q post s2 := by
  induction h with
  | nil => intro p x s h; cases p <;> cases h
  | @cons c seg cs cs' hq hs ih =>
    intro p x s h
    rcases List.append_eq_append_iff.1 h with ⟨as, h1, h2⟩ | ⟨bs, h1, h2⟩
    · obtain ⟨pre, c1, post, seg1, p1, s1, s2, e1, e2, e3, e4, e5⟩ := ih h2
      exact ⟨c :: pre, c1, post, seg1, p1, s1, s2, by rw [e1]; rfl, e2, e3, e4, e5⟩
    · cases bs with
      | nil =>
        rw [List.nil_append] at h2
        obtain ⟨pre, c1, post, seg1, p1, s1, s2, e1, e2, e3, e4, e5⟩ := ih (p := []) h2.symm
        exact ⟨c :: pre, c1, post, seg1, p1, s1, s2, by rw [e1]; rfl, e2, e3, e4, e5⟩
      | cons y bs =>
        cases h2
        exact ⟨[], c, cs, _, p, bs, cs', rfl, hq, h1, rfl, hs⟩

theorem Blocks.last {Q : ImplCall → List ImplCall → Prop} {cs cs' : List ImplCall} (h : Blocks Q cs cs') : ∀ {c : ImplCall}, cs.getLast? = some c →
    ∃ p seg, Q c seg ∧ cs' = p ++ seg := by
  induction h with
  | nil => intro c h; cases h
  | @cons c seg cs cs' hq hs ih =>
    intro c1 h
    cases hs with
    | nil => cases h; exact ⟨[], seg, hq, by simp⟩
    | @cons c2 seg2 cs2 cs2' hq2 hs2 =>
      rw [List.getLast?_cons_cons] at h
      obtain ⟨p, seg1, h1, h2⟩ := ih h
      exact ⟨seg ++ p, seg1, h1, by rw [h2, List.append_assoc]⟩

theorem Blocks.length_le {Q : ImplCall → List ImplCall → Prop} {cs cs' : List ImplCall} (h : Blocks Q cs cs') {k : Nat} (hk : ∀ c seg, Q c seg → seg.length ≤ k) :
    cs'.length ≤ cs.length * k := by
  induction h with
  | nil => simp
  | cons hq _ ih =>
    have := hk _ _ hq
    rw [List.length_append, List.length_cons, Nat.succ_mul]
    omega

theorem Expands.blocks {f : Inner} {tr0 tr : List Event} (h : Expands f tr0 tr) {Q : ImplCall → List ImplCall → Prop}
    (hall : ∀ i, f i ≠ none)
    (hone : ∀ (c : ImplCall) (g : Str → List Val → Tree Outcome) (seg : List Event), c ∈ implCalls tr0 → f c.impl = some g →
      (g c.method c.args).Run seg (passedOn c.result) → (∀ e ∈ seg, e ∈ tr) → Q c (implCalls seg)) :
    Blocks Q (implCalls tr0) (implCalls tr) := by
  suffices H : ∀ (big : List Event), (∀ l ∈ tr, l ∈ big) →
      (∀ (c : ImplCall) (g : Str → List Val → Tree Outcome) (seg : List Event), c ∈ implCalls tr0 → f c.impl = some g →
        (g c.method c.args).Run seg (passedOn c.result) → (∀ e ∈ seg, e ∈ big) → Q c (implCalls seg)) →
      Blocks Q (implCalls tr0) (implCalls tr) from H tr (fun _ h => h) hone
  clear hone
  intro big
  induction h with
  | nil => intro _ _; exact .nil
  | @same e tr0 tr he h ih =>
    intro hb hone
    obtain ⟨op, r⟩ := e
    cases op with
    | impl i name args n => exact absurd (he i name args n r rfl) (hall i)
    | _ => exact ih (fun l hl => hb l (List.mem_cons_of_mem _ hl)) hone
  | @call i name args n r g seg tr0 tr hg hr h ih =>
    intro hb hone
    have := hone ⟨i, name, args, plain r⟩ g seg (List.mem_cons_self ..) hg hr (fun e he => hb e (List.mem_append_left _ he))
    rw [implCalls_append]
    exact .cons this (ih (fun l hl => hb l (List.mem_append_right _ hl)) fun c g seg hc => hone c g seg (List.mem_cons_of_mem _ hc))

theorem mem_libCalls {tr : List Event} {c : LibCall} : c ∈ libCalls tr ↔ ∃ n r, (⟨.lib c.fn c.args n, r⟩ : Event) ∈ tr ∧ plain r = c.result := by
  induction tr with
  | nil => simp [libCalls]
  | cons e tr ih =>
    obtain ⟨op, r⟩ := e
    cases op with
    | lib fn args n =>
      simp only [libCalls, List.mem_cons, ih]
      constructor
      · rintro (rfl | ⟨n, r, h1, h2⟩)
        · exact ⟨n, r, Or.inl rfl, rfl⟩
        · exact ⟨n, r, Or.inr h1, h2⟩
      · rintro ⟨n', r', h1 | h1, h2⟩
        · cases h1
          exact Or.inl (by rw [h2])
        · exact Or.inr ⟨n', r', h1, h2⟩
    | _ => 
      simp only [libCalls, List.mem_cons, ih]
      constructor
      · rintro ⟨n, r, h1, h2⟩; exact ⟨n, r, Or.inr h1, h2⟩
      · rintro ⟨n', r', h1 | h1, h2⟩
        · cases h1
        · exact ⟨n', r', h1, h2⟩

theorem libCalls_mono {tr tr' : List Event} (h : ∀ e ∈ tr, e ∈ tr') {c : LibCall} (hc : c ∈ libCalls tr) : c ∈ libCalls tr' := by
  obtain ⟨n, r, h1, h2⟩ := mem_libCalls.1 hc
  exact mem_libCalls.2 ⟨n, r, h _ h1, h2⟩

/-! ## Ways of being honest -/

variable {P : Val → Prop} {m : Method} {args args' : List Val} {tr : List Event} {o : Outcome}

theorem honest_once {i : Val} {res : Except Val (List Val)} (hp : P i) (hs : SameArgs contextMakers m tr args args')
    (hc : implCalls tr = [⟨i, m.name, args', res⟩]) (ho : ¬ Failed m res → o = passedOn res)
    (hf : ∀ vs, o = .ret vs → failedVals m vs = false → res = .ok vs) (hn : o ≠ .stuck) : Honest P m args tr o ∧ (implCalls tr).length ≤ 1 := by
  refine ⟨⟨?_, ?_, ?_, ?_, hn⟩, by rw [hc]; simp⟩
  · intro x hx
    rw [hc, List.mem_singleton] at hx
    subst hx
    exact ⟨hp, rfl, hs⟩
  · intro vs h1 h2
    exact ⟨_, by rw [hc]; rfl, hf vs h1 h2⟩
  · intro x hx
    rw [hc] at hx
    cases hx
    exact ho
  · intro pre x post h hne
    rw [hc] at h
    have := congrArg List.length h
    cases post with
    | nil => exact absurd rfl hne
    | cons =>
      simp only [List.length_cons, List.length_append, List.length_nil] at this
      omega

theorem passedOn_not_stuck (r : Except Val (List Val)) : passedOn r ≠ .stuck := by cases r <;> nofun

theorem honest_transparent {i : Val} (hp : P i) (hs : SameArgs contextMakers m tr args args') (h : Transparent i m args' tr o) :
    Honest P m args tr o ∧ (implCalls tr).length ≤ 1 := by
  obtain ⟨res, hc, rfl⟩ := h
  refine honest_once hp hs hc (fun _ => rfl) ?_ (passedOn_not_stuck _)
  intro vs h1 _
  cases res <;> cases h1
  rfl

theorem honest_none (hc : implCalls tr = []) (ho : ∀ vs, o = .ret vs → failedVals m vs = true) (hn : o ≠ .stuck) : Honest P m args tr o ∧ (implCalls tr).length ≤ 1 := by
  refine ⟨⟨?_, ?_, ?_, ?_, hn⟩, by rw [hc]; simp⟩
  · intro x hx; rw [hc] at hx; cases hx
  · intro vs h1 h2; rw [ho vs h1] at h2; cases h2
  · intro x hx; rw [hc] at hx; cases hx
  · intro pre x post h; rw [hc] at h; cases pre <;> cases h

theorem failedVals_snoc {init : List Val} {e : Val} (hret : m.returnsError = true) : failedVals m (init ++ [e]) = !e.isNil := by
  simp [failedVals, hret]

theorem honest_error {init : List Val} {e : Val} (hret : m.returnsError = true) (hc : implCalls tr = []) (he : e.isNil = false)
    (ho : o = .ret (init ++ [e])) : Honest P m args tr o ∧ (implCalls tr).length ≤ 1 := by
  subst ho
  refine honest_none hc ?_ nofun
  intro vs h
  cases h
  rw [failedVals_snoc hret, he]; rfl

theorem honest_panic {v : Val} (hc : implCalls tr = []) (ho : o = .panic v) : Honest P m args tr o ∧ (implCalls tr).length ≤ 1 := by
  subst ho
  exact honest_none hc nofun nofun

end Gowrap
