import Verif.Spec.Guard
import Verif.Props.Tower
/-!
# C91: guards in towers of decorators
-/

namespace Gowrap.Props

open Gowrap Spec Tmpl

/-- Whatever is called, the call passes a decorator with the property. -/
def Tower.Passes (K : Deco → Prop) : Tower → Prop
  | .impl _ => False
  | .layer d _ inside => K d ∨ ∀ i, (inside i).Passes K

/-- One of the three decorators that validate. -/
def Deco.Validates : Deco → Prop
  | .validate _ _ | .grpcValidate _ _ | .twirpValidate _ _ => True
  | _ => False

/-- The decorator gives calls of the method the timeout. -/
def Deco.Times (name : Str) (d : Int) : Deco → Prop
  | .timeout _ _ config => config name = d
  | _ => False

/-- Every call passes a rate limiter, inside of which at most `k` calls are made for it. -/
def Tower.Limited (k : Nat) : Tower → Prop
  | .impl _ => False
  | .layer d _ inside => ((∃ base, d = .controller (.rateLimit base)) ∧ ∀ i, (inside i).Within k) ∨ ∀ i, (inside i).Limited k

/-! ## Where the calls of a run come from -/

/-- The call in a run of a program with programs inside is made for a call in a run of the program outside. -/
theorem _root_.Gowrap.Expands.split {f : Inner} {tr0 tr : List Event} (h : Expands f tr0 tr) (hall : ∀ i, f i ≠ none) : ∀ {pre post : List Event} {i : Val} {name : Str}
    {a : List Val} {n : Nat} {r : Except Val (Vals n)}, tr = pre ++ ⟨.impl i name a n, r⟩ :: post →
    ∃ (pre0 post0 pre' seg1 seg2 : List Event) (i0 : Val) (name0 : Str) (a0 : List Val) (n0 : Nat) (r0 : Except Val (Vals n0)) (g : Str → List Val → Tree Outcome),
      tr0 = pre0 ++ ⟨.impl i0 name0 a0 n0, r0⟩ :: post0 ∧ pre = pre' ++ seg1 ∧ Expands f pre0 pre' ∧ f i0 = some g ∧
      (g name0 a0).Run (seg1 ++ ⟨.impl i name a n, r⟩ :: seg2) (passedOn (plain r0)) ∧ ∀ e ∈ seg1 ++ ⟨.impl i name a n, r⟩ :: seg2, e ∈ tr := by
  induction h with
  | nil => intro pre post i name a n r h; cases pre <;> cases h
  | @same e tr0 tr he h ih =>
    intro pre post i name a n r hs
    cases pre with
    | nil =>
      cases hs
      exact absurd (he _ _ _ _ _ rfl) (hall _)
    | cons x pre =>
      obtain ⟨rfl, hs'⟩ := List.cons.inj hs
      obtain ⟨pre0, post0, pre', seg1, seg2, i0, name0, a0, n0, r0, g, h1, rfl, h3, h4, h5, h6⟩ := ih hs'
      exact ⟨e :: pre0, post0, e :: pre', seg1, seg2, i0, name0, a0, n0, r0, g, by rw [h1]; rfl, rfl, .same he h3, h4, h5,
        fun x hx => List.mem_cons_of_mem _ (h6 x hx)⟩
  | @call i1 name1 a1 n1 r1 g seg tr0 tr hg hr h ih =>
    intro pre post i name a n r hs
    rcases List.append_eq_append_iff.1 hs with ⟨as, h1, h2⟩ | ⟨bs, h1, h2⟩
    · obtain ⟨pre0, post0, pre', seg1, seg2, i0, name0, a0, n0, r0, g', e1, rfl, h3, h4, h5, h6⟩ := ih h2
      exact ⟨_ :: pre0, post0, seg ++ pre', seg1, seg2, i0, name0, a0, n0, r0, g', by rw [e1]; rfl, by rw [h1, List.append_assoc], .call hg hr h3, h4, h5,
        fun x hx => List.mem_append_right _ (h6 x hx)⟩
    · cases bs with
      | nil =>
        rw [List.nil_append] at h2
        obtain ⟨pre0, post0, pre', seg1, seg2, i0, name0, a0, n0, r0, g', e1, e2, h3, h4, h5, h6⟩ := ih (pre := []) h2.symm
        obtain ⟨rfl, rfl⟩ := List.nil_eq_append_iff.1 e2
        exact ⟨_ :: pre0, post0, seg ++ [], [], seg2, i0, name0, a0, n0, r0, g', by rw [e1]; rfl, by rw [h1]; simp, .call hg hr h3, h4, h5,
          fun x hx => List.mem_append_right _ (h6 x hx)⟩
      | cons y bs =>
        cases h2
        exact ⟨[], tr0, [], pre, bs, i1, name1, a1, n1, r1, g, rfl, rfl, .nil, hg, by rw [← h1]; exact hr,
          fun x hx => List.mem_append_left _ (by rw [h1]; exact hx)⟩

theorem Lawful.sub {tr tr' : List Event} (h : Lawful tr') (hs : ∀ e ∈ tr, e ∈ tr') : Lawful tr :=
  ⟨fun l hl => h.libs l (libCalls_mono hs hl), fun i r hm => h.ticker i r (hs _ hm), fun e t r hm => h.errorsIs e t r (hs _ hm),
    fun l hl => h.makers l (libCalls_mono hs hl)⟩

theorem mem_implCalls_split {tr pre post : List Event} {i : Val} {name : Str} {a : List Val} {n : Nat} {r : Except Val (Vals n)}
    (h : tr = pre ++ ⟨.impl i name a n, r⟩ :: post) : (⟨i, name, a, plain r⟩ : ImplCall) ∈ implCalls tr := by
  rw [h, implCalls_append]
  exact List.mem_append_right _ (List.mem_cons_self ..)

theorem split_of_mem_implCalls {x : ImplCall} : ∀ {tr : List Event}, x ∈ implCalls tr → ∃ (pre post : List Event) (n : Nat) (r : Except Val (Vals n)),
    tr = pre ++ ⟨.impl x.impl x.method x.args n, r⟩ :: post ∧ plain r = x.result
  | [], h => by cases h
  | ⟨op, r⟩ :: tr, h => by
    have later : x ∈ implCalls tr → ∃ (pre post : List Event) (n : Nat) (r' : Except Val (Vals n)),
        ⟨op, r⟩ :: tr = pre ++ ⟨.impl x.impl x.method x.args n, r'⟩ :: post ∧ plain r' = x.result := fun h => by
      obtain ⟨pre, post, n, r', h1, h2⟩ := split_of_mem_implCalls h
      exact ⟨⟨op, r⟩ :: pre, post, n, r', by rw [h1]; rfl, h2⟩
    cases op with
    | impl i name a n =>
      rcases List.mem_cons.1 h with rfl | h
      · exact ⟨[], tr, n, r, rfl, rfl⟩
      · exact later h
    | _ => exact later h

/-- The decorator and what it calls. -/
structure Layered (G : GoTypes) (recv : Str) (ms : List Method) (d : Deco) (receiver : Val) (inside : Val → Tower) (m : Method) (args : List Val) (tr : List Event)
    (o : Outcome) (tr0 : List Event) : Prop where
  outer : ((d.decorator G).call G m (recv, receiver) args).Run tr0 o
  inner : Expands (fun i => some ((inside i).call G recv ms)) tr0 tr
  lawful : Lawful tr0
  callable : Callable m (recv, receiver) d.idents args
  honest : Honest (d.Impl tr0) m args tr0 o

theorem layered {G : GoTypes} {recv : Str} {ms : List Method} (hi : Interface recv ms) {d : Deco} {self : Val} {inside : Val → Tower}
    (hfit : (Tower.layer d self inside).Fits recv ms) {m : Method} (hm : m ∈ ms) {args : List Val} (ha : args.length = m.params.length) {tr : List Event} {o : Outcome}
    (hr : ((Tower.layer d self inside).call G recv ms m.name args).Run tr o) (hl : Lawful tr) : ∃ tr0, Layered G recv ms d self inside m args tr o tr0 := by
  rw [Tower.call, find_method hi.names hm] at hr
  obtain ⟨tr0, h0, hx⟩ := through_lawful (P := Op.OfMethod m) (by
    intro i g name a n hg hp seg o' hseg hl'
    obtain ⟨rfl, ha', rfl⟩ := hp
    cases hg
    exact outcome_passedOn (tower_honest G recv ms hi _ (hfit.2 i) m hm a ha' seg o' hseg hl').1.ends (fun vs h => tower_ret_length hi.names hm (h ▸ hseg)))
    (deco_only G d m (recv, self) args ha) hr hl
  obtain ⟨hok, hnd, hus⟩ := hi.ok m hm
  have hmem : ∀ e ∈ tr0, (∀ i name a n r, e ≠ ⟨.impl i name a n, r⟩) → e ∈ tr := fun e he hne => hx.mem he hne
  have hl0 : Lawful tr0 := ⟨fun c hc => hl.libs c (hx.libs c hc), fun i r h => hl.ticker i r (hmem _ h (by intro _ _ _ _ _ h'; cases h')),
    fun e t r h => hl.errorsIs e t r (hmem _ h (by intro _ _ _ _ _ h'; cases h')), fun c hc => hl.makers c (hx.libs c hc)⟩
  obtain ⟨hw, hid⟩ := hfit.1 m hm
  have hc : Callable m (recv, self) d.idents args := ⟨hok, ⟨hnd, hus, ha⟩, hid⟩
  exact ⟨tr0, h0, hx, hl0, hc, (deco_honest G d m (recv, self) args tr0 o hc hw h0 hl0).1⟩

/-! ## Validation -/

theorem requestArgs_same {L : List Str} {m : Method} {tr : List Event} {a b : List Val} (h : SameArgs L m tr a b) : requestArgs m b = requestArgs m a := by
  rcases h with rfl | ⟨hc, _, _, _, rfl, rfl, _⟩
  · rfl
  · simp [requestArgs, hc]

theorem accepted_validated {G : GoTypes} {base : Val} {m : Method} {args : List Val} {tr : List Event} {o : Outcome}
    (h : Accepted base m args (candidates G m args) tr o) {pre post : List Event} {i : Val} {name : Str} {a : List Val} {n : Nat} {r : Except Val (Vals n)}
    (hs : tr = pre ++ ⟨.impl i name a n, r⟩ :: post) : Validated G m pre a := by
  obtain ⟨res, h, _⟩ := h
  rw [hs, seen_append, show seen (⟨.impl i name a n, r⟩ :: post) = .impl ⟨i, name, a, plain r⟩ :: seen post from rfl] at h
  have hno : ∀ x ∈ (candidates G m args).map passes, ∀ c, x ≠ .impl c := by
    intro x hx c he
    obtain ⟨v, _, rfl⟩ := List.mem_map.1 hx
    cases he
  obtain ⟨h1, h2⟩ : seen pre = (candidates G m args).map passes ∧ a = args := by
    rcases List.append_eq_append_iff.1 h with ⟨as, h1, h2⟩ | ⟨bs, h1, h2⟩
    · cases as with
      | nil => exact ⟨by simpa using h1.symm, by simpa using congrArg (fun l => match l with | Seen.impl c :: _ => c.args | _ => []) h2⟩
      | cons y as => exact absurd (List.cons.inj h2).1.symm (hno _ (by rw [h1]; simp) _)
    · cases bs with
      | nil =>
        refine ⟨by simpa using h1, ?_⟩
        have := congrArg (fun l => match l with | Seen.impl c :: _ => c.args | _ => []) h2
        simpa using this.symm
      | cons y bs =>
        have := (List.cons.inj h2).2
        cases bs <;> cases this
  subst h2
  intro v hv
  exact mem_libCalls_seen (by rw [h1]; exact List.mem_map.2 ⟨v, hv, rfl⟩)

theorem rejected_none {cands zeros : List Val} {tr : List Event} {o : Outcome} {wrap : Val → Val → List Seen → Prop}
    (hw : ∀ e e' L, wrap e e' L → NoImpl L) (h : Rejected wrap cands zeros tr o) : implCalls tr = [] := by
  obtain ⟨pre, v, post, e, e', L, h1, h2, h3, h4, h5⟩ := h
  have n1 := hw e e' L h4
  rw [implCalls_of_seen, h3, List.filterMap_append, List.filterMap_cons]
  unfold NoImpl at n1
  rw [show (pre.map passes).filterMap _ = [] from noImpl_passes pre]
  exact n1

theorem deco_validates {G : GoTypes} {d : Deco} (hd : d.Validates) {m : Method} (hret : m.returnsError = true) {recv : Str × Val} {args : List Val} {tr : List Event}
    {o : Outcome} (h : Callable m recv d.idents args) (hr : ((d.decorator G).call G m recv args).Run tr o) (hl : LibsReturn tr) {pre post : List Event} {i : Val}
    {name : Str} {a : List Val} {n : Nat} {r : Except Val (Vals n)} (hs : tr = pre ++ ⟨.impl i name a n, r⟩ :: post) : Validated G m pre a := by
  have hne : implCalls tr ≠ [] := by
    rw [hs, implCalls_append]
    exact fun h => List.cons_ne_nil _ _ (List.append_eq_nil_iff.1 h).2
  have wrap : ∀ fn e e' L, invalidArgument fn e e' L → NoImpl L := by
    rintro fn e e' L ⟨msg, rfl⟩
    rfl
  cases d with
  | validate iface base =>
    rcases C55_validate G iface base m recv args tr o h.ok h.declared hret hr hl with h1 | h1
    · exact absurd (rejected_none (by rintro e e' L ⟨_, rfl⟩; rfl) h1) hne
    · exact accepted_validated h1 hs
  | grpcValidate iface base =>
    rcases (C55_grpc_partial G iface base m recv args tr o h hr hl).1 hret with h1 | h1
    · exact absurd (rejected_none (wrap _) h1) hne
    · exact accepted_validated h1 hs
  | twirpValidate iface base =>
    rcases (C55_twirp_partial G iface base m recv args tr o h hr hl).1 hret with h1 | h1
    · exact absurd (rejected_none (wrap _) h1) hne
    · exact accepted_validated h1 hs
  | observer _ => exact hd.elim
  | controller _ => exact hd.elim
  | timeout _ _ _ => exact hd.elim
  | twirpError _ _ => exact hd.elim

/-- The full claim of C91: no call that has not been validated reaches an implementation inside of a decorator that validates. -/
def C91_full : Prop := ∀ (G : GoTypes) (recv : Str) (ms : List Method) (t : Tower), Interface recv ms → ∀ m ∈ ms, t.Passes Deco.Validates →
  ∀ (args : List Val), args.length = m.params.length → ∀ (tr : List Event) (o : Outcome), (t.call G recv ms m.name args).Run tr o → Lawful tr →
  ∀ (pre post : List Event) (i : Val) (name : Str) (a : List Val) (n : Nat) (r : Except Val (Vals n)), tr = pre ++ ⟨.impl i name a n, r⟩ :: post → Validated G m pre a

/-- **C91** (partial) If every call passes a decorator that validates, wherever it is in the tower, then all arguments that reach an implementation have been
validated before, with success.  What is missing: methods that do not return an error, see `C91_full_false`, and methods with parameters or results that are called like names in the
templates. -/
theorem C91_validated_partial (G : GoTypes) (recv : Str) (ms : List Method) (hi : Interface recv ms) (m : Method) (hm : m ∈ ms) (hret : m.returnsError = true)
    (t : Tower) (hfit : t.Fits recv ms) (hv : t.Passes Deco.Validates) (args : List Val) (ha : args.length = m.params.length) (tr : List Event) (o : Outcome)
    (hr : (t.call G recv ms m.name args).Run tr o) (hl : Lawful tr) (pre post : List Event) (i : Val) (name : Str) (a : List Val) (n : Nat) (r : Except Val (Vals n))
    (hs : tr = pre ++ ⟨.impl i name a n, r⟩ :: post) : Validated G m pre a := by
  induction t generalizing args tr o pre post with
  | impl v => exact hv.elim
  | layer d self inside ih =>
    obtain ⟨tr0, hy⟩ := layered hi hfit hm ha hr hl
    obtain ⟨pre0, post0, pre', seg1, seg2, i0, name0, a0, n0, r0, g, e1, rfl, e3, e4, e5, e6⟩ := hy.inner.split (fun _ => nofun) hs
    cases e4
    obtain ⟨_, rfl, hsame⟩ := hy.honest.requests _ (mem_implCalls_split e1)
    have ha0 : a0.length = m.params.length := by rw [hsame.length, ha]
    have hlseg := Lawful.sub hl e6
    rcases hv with hv | hv
    · have h1 := deco_validates hv hret hy.callable hy.outer hy.lawful.libs e1
      have h2 := ((tower_honest G recv ms hi _ (hfit.2 i0) m hm a0 ha0 _ _ e5 hlseg).1.requests _ (mem_implCalls_split rfl)).2.2
      intro v hv
      rw [candidates, requestArgs_same h2] at hv
      rw [libCalls_append]
      exact List.mem_append_left _ (e3.libs _ (h1 v hv))
    · intro v hv'
      rw [libCalls_append]
      exact List.mem_append_right _ (ih i0 (hfit.2 i0) (hv i0) a0 ha0 _ _ e5 hlseg seg1 seg2 rfl v hv')

/-! ## Timeouts -/

/-- **C91** (partial) If every call passes a decorator that gives it the timeout, all contexts that reach implementations end with it: they were made from
the context with the timeout, which was made from the context of the caller. -/
theorem C91_timeout_partial (G : GoTypes) (recv : Str) (ms : List Method) (hi : Interface recv ms) (m : Method) (hm : m ∈ ms) (hctx : m.acceptsContext = true)
    (d : Int) (hd : d > 0) (t : Tower) (hfit : t.Fits recv ms) (hv : t.Passes (Deco.Times m.name d)) (ctx : Val) (rest : List Val)
    (ha : (ctx :: rest).length = m.params.length) (tr : List Event) (o : Outcome) (hr : (t.call G recv ms m.name (ctx :: rest)).Run tr o) (hl : Lawful tr) :
    ∀ x ∈ implCalls tr, TimesOut d tr ctx x.args := by
  induction t generalizing ctx rest tr o with
  | impl v => exact hv.elim
  | layer dec self inside ih =>
    obtain ⟨tr0, hy⟩ := layered hi hfit hm ha hr hl
    intro x hx
    obtain ⟨pre, post, n, r, hs, hres⟩ := split_of_mem_implCalls hx
    obtain ⟨pre0, post0, pre', seg1, seg2, i0, name0, a0, n0, r0, g, e1, rfl, e3, e4, e5, e6⟩ := hy.inner.split (fun _ => nofun) hs
    cases e4
    have hc0 := mem_implCalls_split e1
    obtain ⟨_, rfl, hsame⟩ := hy.honest.requests _ hc0
    have ha0 : a0.length = m.params.length := by rw [hsame.length, ha]
    have hlseg := Lawful.sub hl e6
    have h2 := ((tower_honest G recv ms hi _ (hfit.2 i0) m hm a0 ha0 _ _ e5 hlseg).1.requests _ (mem_implCalls_split rfl)).2.2
    have h2 : SameArgs contextMakers m tr a0 x.args := h2.mono fun l => libCalls_mono e6
    rcases hv with hv | hv
    · cases dec with
      | timeout iface base config =>
        cases (hv : config m.name = d)
        have := timeout_runs G (iface := iface) (base := base) (config := config) hy.callable hctx tr0 o hy.outer hy.lawful.libs
        simp only [] at this
        rw [if_pos hd] at this
        obtain ⟨_, _, ctx', cancel, res, hargs, _, hseen⟩ := this
        obtain ⟨rfl, rfl⟩ := List.cons.inj hargs
        have ha' : a0 = ctx' :: rest := by
          rw [implCalls_of_seen, hseen] at hc0
          simp at hc0
          exact hc0.2.1
        subst ha'
        have hlib := hy.inner.libs _ (mem_libCalls_seen (tr := tr0) (c := ⟨g!"context.WithTimeout", [ctx, .int (config m.name)], .ok [ctx', cancel]⟩)
          (by rw [hseen]; exact List.mem_cons_self ..))
        rcases h2 with h2 | ⟨_, c, rest', c', h3, h4, h5⟩
        · exact ⟨ctx, ctx', cancel, ctx', rest, h2, .same, hlib, .same⟩
        · cases h3
          exact ⟨ctx, ctx', cancel, c', rest, h4, .same, hlib, h5⟩
      | _ => exact hv.elim
    · obtain ⟨ctx0, rest0, rfl, hfrom⟩ : ∃ ctx0 rest0, a0 = ctx0 :: rest0 ∧ FromCtx contextMakers tr ctx ctx0 := by
        rcases hsame with h | ⟨_, c, rest', c', h3, h4, h5⟩
        · exact ⟨ctx, rest, h, .same⟩
        · cases h3
          exact ⟨c', rest, h4, h5.mono hy.inner.libs⟩
      obtain ⟨ctx1, ctx2, cancel, ctx3, rest1, q1, q2, q3, q4⟩ := ih i0 (hfit.2 i0) (hv i0) ctx0 rest0 ha0 _ _ e5 hlseg x
        (by have := mem_implCalls_split (tr := seg1 ++ ⟨.impl x.impl x.method x.args n, r⟩ :: seg2) rfl; rw [hres] at this; exact this)
      have hmono : ∀ l ∈ libCalls _, l ∈ libCalls tr := fun l => libCalls_mono e6
      exact ⟨ctx1, ctx2, cancel, ctx3, rest1, q1, hfrom.trans (q2.mono hmono), hmono _ q3, q4.mono hmono⟩

/-! ## Rate limits -/

theorem _root_.Gowrap.Expands.tokens_le {f : Inner} {tr0 tr : List Event} (h : Expands f tr0 tr) : tokens tr0 ≤ tokens tr := by
  induction h with
  | nil => exact Nat.le_refl _
  | same _ _ ih =>
    unfold tokens at *
    rw [List.countP_cons, List.countP_cons]
    omega
  | call _ _ _ ih =>
    unfold tokens at *
    rw [List.countP_cons, List.countP_append]
    simp only [isToken, Bool.false_eq_true, if_false]
    omega

theorem _root_.Gowrap.Expands.limited {f : Inner} {tr0 tr : List Event} (h : Expands f tr0 tr) (hall : ∀ i, f i ≠ none) {k : Nat}
    (hone : ∀ (c : ImplCall) (g : Str → List Val → Tree Outcome) (seg : List Event), c ∈ implCalls tr0 → f c.impl = some g →
      (g c.method c.args).Run seg (passedOn c.result) → (∀ e ∈ seg, e ∈ tr) → (implCalls seg).length ≤ k * tokens seg) :
    (implCalls tr).length ≤ k * tokens tr := by
  suffices H : ∀ (big : List Event), (∀ l ∈ tr, l ∈ big) →
      (∀ (c : ImplCall) (g : Str → List Val → Tree Outcome) (seg : List Event), c ∈ implCalls tr0 → f c.impl = some g →
        (g c.method c.args).Run seg (passedOn c.result) → (∀ e ∈ seg, e ∈ big) → (implCalls seg).length ≤ k * tokens seg) →
      (implCalls tr).length ≤ k * tokens tr from H tr (fun _ h => h) hone
  clear hone
  intro big
  induction h with
  | nil => intro _ _; exact Nat.zero_le _
  | @same e tr0 tr he h ih =>
    intro hb hone
    obtain ⟨op, r⟩ := e
    cases op with
    | impl i name args n => exact absurd (he i name args n r rfl) (hall i)
    | _ =>
      refine Nat.le_trans (ih (fun l hl => hb l (List.mem_cons_of_mem _ hl)) hone) (Nat.mul_le_mul_left k ?_)
      unfold tokens
      rw [List.countP_cons]
      omega
  | @call i name args n r g seg tr0 tr hg hr h ih =>
    intro hb hone
    have h1 := hone ⟨i, name, args, plain r⟩ g seg (List.mem_cons_self ..) hg hr (fun e he => hb e (List.mem_append_left _ he))
    have h2 := ih (fun l hl => hb l (List.mem_append_right _ hl)) fun c g seg hc => hone c g seg (List.mem_cons_of_mem _ hc)
    unfold tokens at *
    rw [implCalls_append, List.countP_append, List.length_append, Nat.mul_add]
    omega

theorem rateLimit_tokens {G : GoTypes} {base : Val} {m : Method} {recv : Str × Val} {args : List Val} {tr : List Event} {o : Outcome}
    (hok : MethodOk m) (hd : m.WellDeclared recv args) (hr : ((rateLimitDecorator base).call G m recv args).Run tr o) : (implCalls tr).length ≤ tokens tr := by
  rw [rateLimit_call G base hok hd, rateLimitT] at hr
  have one : ∀ {tr}, (callT base m args).Run tr o → (implCalls tr).length = 1 := fun hr => by
    obtain ⟨res, h, _⟩ := callT_transparent hr
    rw [h]; rfl
  split at hr
  · obtain ⟨x, tr, rfl, hr⟩ := hr
    cases x with
    | other =>
      show (implCalls tr).length ≤ _
      rw [one hr, tokens, List.countP_cons]
      simp [isToken]
    | done =>
      obtain ⟨x, tr, rfl, hr⟩ := hr
      cases x <;> obtain ⟨rfl, _⟩ := hr <;> exact Nat.zero_le _
  · obtain ⟨x, tr, rfl, hr⟩ := hr
    show (implCalls tr).length ≤ _
    rw [one hr, tokens, List.countP_cons]
    simp [isToken]

/-- **C91** (partial) If every call passes a rate limiter inside of which at most `k` calls are made for each, there are at most `k` calls of implementations
for each token received: inside of a retry the limit is one for the attempts, outside of it one for the calls. -/
theorem C91_limit_partial (G : GoTypes) (recv : Str) (ms : List Method) (hi : Interface recv ms) (m : Method) (hm : m ∈ ms) (k : Nat) (t : Tower)
    (hfit : t.Fits recv ms) (hv : t.Limited k) (args : List Val) (ha : args.length = m.params.length) (tr : List Event) (o : Outcome)
    (hr : (t.call G recv ms m.name args).Run tr o) (hl : Lawful tr) : (implCalls tr).length ≤ k * tokens tr := by
  induction t generalizing args tr o with
  | impl v => exact hv.elim
  | layer d self inside ih =>
    obtain ⟨tr0, hy⟩ := layered hi hfit hm ha hr hl
    have hargs : ∀ c ∈ implCalls tr0, c.method = m.name ∧ c.args.length = m.params.length := fun c hc => by
      obtain ⟨_, h1, h2⟩ := hy.honest.requests c hc
      exact ⟨h1, by rw [h2.length, ha]⟩
    rcases hv with ⟨⟨base, rfl⟩, hk⟩ | hv
    · have h1 : (implCalls tr).length ≤ (implCalls tr0).length * k := by
        refine (hy.inner.blocks (Q := fun _ seg => seg.length ≤ k) (fun _ => nofun) ?_).length_le fun _ _ h => h
        intro c g seg hc hg hrun hsub
        cases hg
        obtain ⟨h1, h2⟩ := hargs c hc
        rw [h1] at hrun
        exact (tower_honest G recv ms hi _ (hfit.2 _) m hm c.args h2 seg _ hrun (Lawful.sub hl hsub)).2 k (hk _)
      have h2 := rateLimit_tokens hy.callable.ok hy.callable.declared hy.outer
      calc _ ≤ _ := h1
        _ ≤ tokens tr * k := Nat.mul_le_mul_right k (Nat.le_trans h2 hy.inner.tokens_le)
        _ = _ := Nat.mul_comm ..
    · refine hy.inner.limited (fun _ => nofun) ?_
      intro c g seg hc hg hrun hsub
      cases hg
      obtain ⟨h1, h2⟩ := hargs c hc
      rw [h1] at hrun
      exact ih c.impl (hfit.2 _) (hv _) c.args h2 seg _ hrun (Lawful.sub hl hsub)

/-! ## Open circuits -/

theorem breaker_open {G : GoTypes} {d : Breaker} {m : Method} {args : List Val} {tr : List Event} {o : Outcome} (hr : (d.bodyT G m args).Run tr o)
    (ho : AllOpen tr) : implCalls tr = [] := by
  obtain ⟨_, _, rfl, c, tr, rfl, hr⟩ := hr
  obtain ⟨t, rfl, hnow⟩ := ho c (List.mem_cons_of_mem _ (List.mem_cons_self ..))
  obtain ⟨c, tr, rfl, hr⟩ := hr
  obtain ⟨t', rfl, hnow'⟩ := ho c (List.mem_cons_of_mem _ (List.mem_cons_of_mem _ (List.mem_cons_self ..)))
  obtain ⟨now, tr, rfl, hr⟩ := hr
  have := hnow' now (List.mem_cons_of_mem _ (List.mem_cons_of_mem _ (List.mem_cons_of_mem _ (List.mem_cons_self ..))))
  change (if t' > now then _ else _ : Tree Outcome).Run tr o at hr
  rw [if_pos this] at hr
  obtain ⟨_, _, rfl, x, tr, rfl, hr⟩ := hr
  cases x <;> obtain ⟨rfl, _⟩ := hr <;> rfl

/-- **C91** (partial) If every call passes a circuit breaker and all circuits are open, no implementation is called. -/
theorem C91_open_partial (G : GoTypes) (recv : Str) (ms : List Method) (hi : Interface recv ms) (m : Method) (hm : m ∈ ms) (hret : m.returnsError = true) (t : Tower)
    (hfit : t.Fits recv ms) (hv : t.Passes fun d => ∃ b, d = .controller (.breaker b)) (args : List Val) (ha : args.length = m.params.length) (tr : List Event)
    (o : Outcome) (hr : (t.call G recv ms m.name args).Run tr o) (hl : Lawful tr) (ho : AllOpen tr) : implCalls tr = [] := by
  induction t generalizing args tr o with
  | impl v => exact hv.elim
  | layer d self inside ih =>
    obtain ⟨tr0, hy⟩ := layered hi hfit hm ha hr hl
    have hb := fun Q => hy.inner.blocks (Q := Q) fun _ => nofun
    rcases hv with ⟨b, rfl⟩ | hv
    · have h0 : implCalls tr0 = [] := by
        have := hy.outer
        change (b.decorator.call G m (recv, self) args).Run tr0 o at this
        rw [breaker_call G b hy.callable hret] at this
        refine breaker_open this fun c hc => ?_
        obtain ⟨t, h1, h2⟩ := ho c (hy.inner.mem hc (by intro _ _ _ _ _ h; cases h))
        exact ⟨t, h1, fun now hn => h2 now (hy.inner.mem hn (by intro _ _ _ _ _ h; cases h))⟩
      have := hb (fun _ _ => True) fun _ _ _ _ _ _ _ => trivial
      rw [h0] at this
      generalize implCalls tr = l at this
      cases this
      rfl
    · refine List.eq_nil_of_length_eq_zero (Nat.le_zero.1 (Nat.le_trans ((hb (fun _ seg => seg.length ≤ 0) ?_).length_le fun _ _ h => h) (by simp)))
      intro c g seg hc hg hrun hsub
      cases hg
      obtain ⟨_, h1, h2⟩ := hy.honest.requests c hc
      rw [h1] at hrun
      rw [ih c.impl (hfit.2 _) (hv _) c.args (by rw [h2.length, ha]) seg _ hrun (Lawful.sub hl hsub) fun c hc => by
        obtain ⟨t, h1, h2⟩ := ho c (hsub _ hc)
        exact ⟨t, h1, fun now hn => h2 now (hsub _ hn)⟩]
      exact Nat.le_refl 0

namespace GuardDemo

/-- `Put(v any)` -/
def put : Method := ⟨[], [], g!"Put", [⟨[], [], g!"v", g!"any", false⟩], [], false, false⟩

/-- Validation around an implementation. -/
def checked : Tower := .layer (.validate g!"Store" (.obj 1)) (.obj 2) fun _ => .impl (.obj 1)

end GuardDemo

/-- C91 does not hold for methods that do not return an error: invalid arguments are passed on. -/
theorem C91_full_false : ¬ C91_full := by
  intro h
  have hrun : (GuardDemo.checked.call demoTypes g!"_d" [GuardDemo.put] g!"Put" [.obj 5]).Run [⟨.impl (.obj 1) g!"Put" [.obj 5] 0, Except.ok ⟨[], rfl⟩⟩] (.ret []) :=
    run_through (t := (validateDecorator demoTypes g!"Store" (.obj 1)).call demoTypes GuardDemo.put (g!"_d", .obj 2) [.obj 5])
      (tr0 := [⟨.impl (.obj 1) g!"Put" [.obj 5] 0, Except.ok ⟨[], rfl⟩⟩]) ⟨_, _, rfl, rfl, rfl⟩
      (.call (seg := [⟨.impl (.obj 1) g!"Put" [.obj 5] 0, Except.ok ⟨[], rfl⟩⟩]) rfl ⟨_, _, rfl, rfl, rfl⟩ .nil)
  have := h demoTypes g!"_d" [GuardDemo.put] GuardDemo.checked ⟨by decide, fun m hm => by
      obtain rfl := List.mem_singleton.1 hm
      exact ⟨⟨by decide, fun h => (by cases h), fun h => (by cases h)⟩, by decide, by decide⟩⟩ GuardDemo.put (List.mem_singleton.2 rfl) (Or.inl trivial) [.obj 5] rfl _ _ hrun
    ⟨by simp [LibsReturn, libCalls], (by intro i r hm; rcases List.mem_singleton.1 hm with hm; cases hm),
      (by intro e t r hm; rcases List.mem_singleton.1 hm with hm; cases hm), by simp [libCalls]⟩ [] [] _ _ _ _ _ rfl (.obj 5) (by simp [candidates, requestArgs, demoTypes, GuardDemo.put])
  cases this

/-! ### The tower of `TowerDemo`, and rate limits inside of retries -/

namespace GuardDemo

open TowerDemo

/-- The hypotheses hold for the tower in which a call is validated twice; before it is made the second validation succeeded, and it has the timeout. -/
example : tower.Passes Deco.Validates ∧ tower.Passes (Deco.Times g!"Find" 10) ∧
    Validated demoTypes find (first ++ [⟨.newTicker 10, Except.ok ()⟩, ⟨.doneOrTick (.obj 1), Choice.other⟩, withTimeout (.obj 18) (.obj 17), validated .nil,
      ⟨.addCounter, (1 : UInt32)⟩]) [.obj 18, .obj 5] ∧
    ∀ x ∈ implCalls trace, TimesOut 10 trace (.obj 1) x.args := by
  have h1 : tower.Passes Deco.Validates := Or.inr fun _ => Or.inr fun _ => Or.inr fun _ => Or.inl trivial
  have h2 : tower.Passes (Deco.Times g!"Find" 10) := Or.inr fun _ => Or.inr fun _ => Or.inl rfl
  refine ⟨h1, h2, ?_, ?_⟩
  · exact C91_validated_partial demoTypes g!"_d" [find] interface find (List.mem_singleton.2 rfl) rfl tower fits h1 [.obj 1, .obj 5] rfl trace _ run lawful
      _ [cancelled (.obj 17), ⟨.stopTicker, ()⟩] _ _ _ _ _ rfl
  · exact C91_timeout_partial demoTypes g!"_d" [find] interface find (List.mem_singleton.2 rfl) rfl 10 (by decide) tower fits h2 (.obj 1) [.obj 5] rfl trace _ run lawful

/-- `ratelimit(impl)`. -/
def slow : Tower := .layer (.controller (.rateLimit (.obj 22))) (.obj 23) fun _ => .impl (.obj 22)

/-- `retry(ratelimit(impl))`. -/
def attempts : Tower := .layer (.controller (.retry ⟨g!"Finder", .obj 20, 1, 10⟩)) (.obj 21) fun _ => slow

/-- `ratelimit(retry(impl))`. -/
def calls : Tower := .layer (.controller (.rateLimit (.obj 20))) (.obj 21) fun _ =>
  .layer (.controller (.retry ⟨g!"Finder", .obj 22, 1, 10⟩)) (.obj 23) fun _ => .impl (.obj 22)

/-- The limiter lets the call through. -/
def token : Event := ⟨.doneOrToken (.obj 1), Choice.other⟩

theorem slow_failed : (slow.call demoTypes g!"_d" [find] g!"Find" [.obj 1, .obj 5]).Run [token, failed (.obj 22) (.obj 1) (.obj 9)] (.ret [.str [], .obj 9]) :=
  run_through (t := (rateLimitDecorator (.obj 22)).call demoTypes find (g!"_d", .obj 23) [.obj 1, .obj 5])
    (tr0 := [token, failed (.obj 22) (.obj 1) (.obj 9)]) ⟨_, _, rfl, _, _, rfl, rfl, rfl⟩
    (.same (by nofun) (.call (seg := [failed (.obj 22) (.obj 1) (.obj 9)]) rfl ⟨_, _, rfl, rfl, rfl⟩ .nil))

theorem slow_found : (slow.call demoTypes g!"_d" [find] g!"Find" [.obj 1, .obj 5]).Run [token, found (.obj 22) (.obj 1)] (.ret [.str g!"x", .nil]) :=
  run_through (t := (rateLimitDecorator (.obj 22)).call demoTypes find (g!"_d", .obj 23) [.obj 1, .obj 5])
    (tr0 := [token, found (.obj 22) (.obj 1)]) ⟨_, _, rfl, _, _, rfl, rfl, rfl⟩
    (.same (by nofun) (.call (seg := [found (.obj 22) (.obj 1)]) rfl ⟨_, _, rfl, rfl, rfl⟩ .nil))

/-- Two attempts. -/
def twice : List Event := [token, failed (.obj 22) (.obj 1) (.obj 9), ⟨.newTicker 10, Except.ok ()⟩, ⟨.doneOrTick (.obj 1), Choice.other⟩, token,
  found (.obj 22) (.obj 1), ⟨.stopTicker, ()⟩]

theorem attempts_run : (attempts.call demoTypes g!"_d" [find] g!"Find" [.obj 1, .obj 5]).Run twice (.ret [.str g!"x", .nil]) :=
  run_through (t := (Controller.retry ⟨g!"Finder", .obj 20, 1, 10⟩).decorator.call demoTypes find (g!"_d", .obj 21) [.obj 1, .obj 5])
    (tr0 := [failed (.obj 20) (.obj 1) (.obj 9), ⟨.newTicker 10, Except.ok ()⟩, ⟨.doneOrTick (.obj 1), Choice.other⟩, found (.obj 20) (.obj 1), ⟨.stopTicker, ()⟩])
    ⟨_, _, rfl, _, _, rfl, _, _, rfl, _, _, rfl, _, _, rfl, rfl, rfl⟩
    (.call (seg := [token, failed (.obj 22) (.obj 1) (.obj 9)]) rfl slow_failed (.same (by nofun) (.same (by nofun)
      (.call (seg := [token, found (.obj 22) (.obj 1)]) rfl slow_found (.same (by nofun) .nil)))))

theorem twice_lawful : Lawful twice := by
  refine ⟨by simp [LibsReturn, libCalls, twice, token, found, failed], ?_, ?_, by simp [libCalls, twice, token, found, failed]⟩
  · intro i r hm
    simp only [twice, List.mem_cons, List.not_mem_nil, or_false] at hm
    rcases hm with hm | hm | hm | hm | hm | hm | hm <;> cases hm
    exact ⟨fun ⟨v, hv⟩ => (by cases hv), fun h => (by omega)⟩
  · intro e t r hm
    simp only [twice, List.mem_cons, List.not_mem_nil, or_false] at hm
    rcases hm with hm | hm | hm | hm | hm | hm | hm <;> cases hm

/-- Inside of the retry each attempt takes a token, outside of it each call. -/
example : attempts.Limited 1 ∧ calls.Limited 2 ∧ (implCalls twice).length ≤ 1 * tokens twice ∧ (implCalls twice).length = 2 := by
  have h : attempts.Limited 1 := Or.inr fun _ => Or.inl ⟨⟨_, rfl⟩, fun _ => Nat.le_refl 1⟩
  refine ⟨h, Or.inl ⟨⟨_, rfl⟩, fun _ => ⟨1, fun _ => Nat.le_refl 1, by decide⟩⟩, ?_, rfl⟩
  exact C91_limit_partial demoTypes g!"_d" [find] interface find (List.mem_singleton.2 rfl) 1 attempts
    (fits_layer (by simp [Deco.Works, Controller.Panics]) (by decide) fun _ => fits_layer (fun h => h) (by decide) fun _ => trivial) h _ rfl twice _ attempts_run
    twice_lawful

/-- `circuitbreaker(impl)`. -/
def breaker : Tower := .layer (.controller (.breaker ⟨g!"Finder", g!"FinderWithCircuitBreaker", .obj 43, 2, 10, []⟩)) (.obj 44) fun _ => .impl (.obj 43)

/-- `timeout(circuitbreaker(impl))`. -/
def guarded : Tower := .layer (.timeout g!"Finder" (.obj 34) fun _ => 10) (.obj 35) fun _ => breaker

/-- The circuit is open until 5, it is 3 now. -/
def rejected : List Event := [⟨.rlock, ()⟩, ⟨.getClosesAt, some (5 : Int)⟩, ⟨.getClosesAt, some (5 : Int)⟩, ⟨.now, (3 : Int)⟩, ⟨.runlock, ()⟩,
  ⟨.lib g!"errors.New" [.str g!"FinderWithCircuitBreaker: circuit is open"] 1, Except.ok ⟨[.obj 9], rfl⟩⟩]

theorem breaker_run : (breaker.call demoTypes g!"_d" [find] g!"Find" [.obj 8, .obj 5]).Run rejected (.ret [.str [], .obj 9]) :=
  run_through (t := (Controller.breaker ⟨g!"Finder", g!"FinderWithCircuitBreaker", .obj 43, 2, 10, []⟩).decorator.call demoTypes find (g!"_d", .obj 44) [.obj 8, .obj 5])
    (tr0 := rejected) ⟨_, _, rfl, _, _, rfl, _, _, rfl, _, _, rfl, _, _, rfl, _, _, rfl, rfl, rfl⟩ (expands_same _ _ (by simp [rejected]))

theorem guarded_run : (guarded.call demoTypes g!"_d" [find] g!"Find" [.obj 1, .obj 5]).Run
    (withTimeout (.obj 8) (.obj 7) :: (rejected ++ [cancelled (.obj 7)])) (.ret [.str [], .obj 9]) :=
  run_through (t := (timeoutDecorator g!"Finder" (.obj 34) fun _ => 10).call demoTypes find (g!"_d", .obj 35) [.obj 1, .obj 5])
    (tr0 := [withTimeout (.obj 8) (.obj 7), failed (.obj 34) (.obj 8) (.obj 9), cancelled (.obj 7)])
    ⟨_, _, rfl, _, _, rfl, _, _, rfl, rfl, rfl⟩ (.same (by nofun) (.call rfl breaker_run (.same (by nofun) .nil)))

/-- The circuit is open during the whole run. -/
example : implCalls (withTimeout (.obj 8) (.obj 7) :: (rejected ++ [cancelled (.obj 7)])) = [] := by
  refine C91_open_partial demoTypes g!"_d" [find] interface find (List.mem_singleton.2 rfl) rfl guarded
    (fits_layer trivial (by decide) fun _ => fits_layer (by simp [Deco.Works, Controller.Panics]) (by decide) fun _ => trivial)
    (Or.inr fun _ => Or.inl ⟨_, rfl⟩) _ rfl _ _ guarded_run ⟨?_, ?_, ?_, ?_⟩ ?_
  · simp [LibsReturn, libCalls, rejected, withTimeout, cancelled, plain]
  · intro i r hm
    simp [rejected, withTimeout, cancelled] at hm
  · intro e t r hm
    simp [rejected, withTimeout, cancelled] at hm
  · simp [libCalls, rejected, withTimeout, cancelled, plain, errorMakers, Val.isNil]
  · intro c hc
    simp [rejected, withTimeout, cancelled] at hc
    refine ⟨5, hc, fun now hn => ?_⟩
    simp [rejected, withTimeout, cancelled] at hn
    have hn : now = (3 : Int) := hn
    omega

end GuardDemo

end Gowrap.Props
