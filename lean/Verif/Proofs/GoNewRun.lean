import Verif.Proofs.GoNew
import Verif.Proofs.GoDen
import Verif.Proofs.Krfl
import Verif.Spec.New
/-!
# Running the constructors
-/

namespace Gowrap.Tmpl
open Gowrap Go Spec
set_option maxRecDepth 100000

/-- `len(spanDecorator) > 0 && spanDecorator[0] != nil` -/
def spanCond : Go.Expr :=
  .bin g!"&&" (.bin g!">" (.call (.id g!"len") [.id g!"spanDecorator"] false) (.num g!"0"))
    (.bin g!"!=" (.index (.id g!"spanDecorator") (.num g!"0")) (.id g!"nil"))

theorem ev_spanCond (rs : List Str) (fuel : Nat) {env : Env} {vs : List Val} (he : env g!"spanDecorator" = some (.slice vs))
    (hl : env g!"len" = none) (k : Bool → Stm) :
    ev (newLink rs fuel) spanCond 1 (withBool k) env = k (!(firstOf vs).isNil) env := by
  unfold spanCond
  rcases vs with _ | ⟨v, vs⟩
  · go_simp [newLink, lenFn, numeral, Fallback.lenOf]
    env_simp [he, hl, firstOf, Val.isNil]
  · have : (0 : Int) < ((vs.length + 1 : Nat) : Int) := by omega
    go_simp [newLink, lenFn, numeral, Fallback.lenOf]
    env_simp [he, hl, firstOf]

def spanSet : List Stmt := [.assign [.sel (.id g!"d") g!"_spanDecorator"] [.index (.id g!"spanDecorator") (.num g!"0")]]

def spanLit (dec iface : Str) : Stmt :=
  .define [.id g!"d"] [.lit (.name dec) [.pair (.id iface) (.id g!"base"), .pair (.id g!"_instance") (.id g!"instance")] true]

/-- The fields. -/
def spanFields (iface : Str) (base inst : Val) (vs : List Val) : Val :=
  let kvs := [(iface, base), (g!"_instance", inst)]
  .map (bif (firstOf vs).isNil then kvs else setKey g!"_spanDecorator" (firstOf vs) kvs)

theorem run_span {ps : List Group} (hp : groupNames ps = [g!"base", g!"instance", g!"spanDecorator"]) (t : Ty) (dec iface : Str)
    (base inst : Val) (vs : List Val) :
    runFunc 0 (ps, .one t, [spanLit dec iface, .cond spanCond spanSet, .ret [.id g!"d"]]) [base, inst, .slice vs] =
      .ret (.ret [spanFields iface base inst vs]) := by
  unfold runFunc
  simp only [hp]
  rw [if_pos ⟨by simp [resultNames], rfl⟩]
  let L := newLink [g!"#"] 0
  let K : Bool → Stm := fun b => Stm.seq (.ite b (inScope [] (den L spanSet (some []) .skip)) .skip) (den L [.ret [.id g!"d"]] none .skip)
  let e0 := startFunc [g!"base", g!"instance", g!"spanDecorator"] [g!"#"] [base, inst, .slice vs]
  let e1 := e0.set g!"d" (.map [(iface, base), (g!"_instance", inst)])
  have key := ev_spanCond [g!"#"] 0 (env := e1) (vs := vs) rfl rfl K
  have h2 : ((K (!(firstOf vs).isNil) e1).bind (endFunc [g!"#"])) = .ret (.ret [spanFields iface base inst vs]) := by
    rcases vs with _ | ⟨v, vs⟩
    · krfl
    · cases v <;> krfl
  have h3 := (congrArg (fun t => t.bind (endFunc [g!"#"])) key).trans h2
  kexact h3

/-! ## templates/syncpool -/

def sendBody : List Stmt := [.send (.id g!"pool") (.id g!"i")]

theorem sendVal_chan {n : Nat} {vs : List Val} (h : vs.length < n) (v : Val) : sendVal (chanVal n vs) v = some (chanVal n (vs ++ [v])) := by
  unfold chanVal sendVal
  have : (vs.length : Int) < (n : Int) := by omega
  simp [this]

theorem send_one (rs : List Str) (fuel : Nat) (v : Val) {env : Env} {n : Nat} {pre : List Val} (hp : env g!"pool" = some (chanVal n pre))
    (h : pre.length < n) :
    (inScope [g!"_", g!"i"] fun env => inScope [] (den (newLink rs fuel) sendBody (some []) .skip) (bindAll env [g!"_", g!"i"] [.nil, v])) env =
      .ret (env.set g!"pool" (chanVal n (pre ++ [v])), .next) := by
  unfold sendBody
  rw [inScope_nil]
  unfold inScope
  simp only [show bindAll env [g!"_", g!"i"] [.nil, v] = env.set g!"i" v from rfl]
  have h1 : (env.set g!"i" v) g!"pool" = some (chanVal n pre) := by rw [← hp]; rfl
  go_simp [newLink]
  simp only [Stm.get, h1, show (env.set g!"i" v) g!"i" = some v from rfl, sendVal_chan h, Stm.assign]
  show Tree.ret (_, _) = _
  congr 2
  funext y
  by_cases hi : y = g!"i" <;> by_cases hpo : y = g!"pool" <;> by_cases hu : y = g!"_" <;> simp_all [Env.leave, Env.set]

theorem send_all (rs : List Str) (fuel : Nat) : ∀ (vs pre : List Val) {env : Env} {n : Nat}, env g!"pool" = some (chanVal n pre) →
    pre.length + vs.length ≤ n →
    rangeN (fun v => inScope [g!"_", g!"i"] fun env => inScope [] (den (newLink rs fuel) sendBody (some []) .skip) (bindAll env [g!"_", g!"i"] [.nil, v])) vs env =
      .ret (env.set g!"pool" (chanVal n (pre ++ vs)), .next)
  | [], pre, env, n, hp, _ => by
    rw [List.append_nil]
    show Tree.ret (env, _) = _
    congr 2
    funext y
    by_cases h : y = g!"pool" <;> simp [Env.set, h, hp]
  | v :: vs, pre, env, n, hp, h => by
    have h := h
    rw [List.length_cons] at h
    show Stm.seq _ _ env = _
    refine (congrArg (fun t => Tree.bind t _) (send_one rs fuel v hp (by omega))).trans ?_
    show rangeN _ vs (env.set _ _) = _
    rw [send_all rs fuel vs (pre ++ [v]) (n := n) (by simp [Env.set]) (by simp; omega)]
    congr 2
    funext y
    by_cases h : y = g!"pool" <;> simp [Env.set, h]

def makePool (T : List Go.Tok) : Stmt :=
  .define [.id g!"pool"] [.call (.id g!"make") [.type (.chan (.toks T)), .call (.id g!"len") [.id g!"impls"] false] false]

def emptyCheck (x : Str) : Stmt :=
  .cond (.bin g!"==" (.call (.id g!"len") [.id x] false) (.num g!"0")) [.expr (.call (.id g!"panic") [.str g!"empty pool"] false)]

theorem run_sync {ps : List Group} (hp : groupNames ps = [g!"impls"]) (t : Ty) (dec : Str) (T : List Go.Tok) (v : Val) (vs : List Val) :
    runFunc 0 (ps, .one t, [emptyCheck g!"impls", makePool T, .range [.id g!"_", .id g!"i"] (.id g!"impls") sendBody,
      .ret [.lit (.name dec) [.pair (.id g!"pool") (.id g!"pool")] false]]) [.slice (v :: vs)] =
      .ret (.ret [.map [(g!"pool", chanVal (vs.length + 1) (v :: vs))]]) := by
  unfold runFunc
  simp only [hp]
  rw [if_pos ⟨by simp [resultNames], rfl⟩]
  let L := newLink [g!"#"] 0
  let body : Val → Stm := fun v => inScope [g!"_", g!"i"] fun env => inScope [] (den L sendBody (some []) .skip) (bindAll env [g!"_", g!"i"] [.nil, v])
  let e0 := startFunc [g!"impls"] [g!"#"] [.slice (v :: vs)]
  let e1 := e0.set g!"pool" (chanVal (vs.length + 1) [])
  have key : rangeN body (v :: vs) e1 = .ret (e1.set g!"pool" (chanVal (vs.length + 1) ([] ++ (v :: vs))), .next) :=
    send_all [g!"#"] 0 (v :: vs) [] (env := e1) (n := vs.length + 1) rfl (by simp)
  let R : Stm := den L [.ret [.lit (.name dec) [.pair (.id g!"pool") (.id g!"pool")] false]] none .skip
  have h2 : ((Stm.seq (rangeN body (v :: vs)) R e1).bind (endFunc [g!"#"])) = .ret (.ret [.map [(g!"pool", chanVal (vs.length + 1) (v :: vs))]]) := by
    unfold Stm.seq
    rw [key]
    krfl
  kexact h2

theorem run_sync_empty {ps : List Group} (hp : groupNames ps = [g!"impls"]) (t : Ty) (r : List Stmt) :
    runFunc 0 (ps, .one t, emptyCheck g!"impls" :: r) [.slice []] = .ret (.panic (.str g!"empty pool")) := by
  unfold runFunc
  simp only [hp]
  rw [if_pos ⟨by simp [resultNames], rfl⟩]
  krfl


/-! ## templates/ratelimit -/

def moreTicks : Go.Expr := .bin g!"<" (.id g!"i") (.id g!"burst")

def tickBody : List Stmt := [.send (.sel (.id g!"d") g!"_ticks") (.id g!"now")]

/-- The struct while it is filled. -/
def limiter (base : Val) (cap : Nat) (vs : List Val) : Val := .map [(g!"_base", base), (g!"_ticks", chanVal cap vs)]

theorem tick_cond (rs : List Str) (fuel : Nat) {env : Env} {i n : Nat} (hi : env g!"i" = some (.int i)) (hn : env g!"burst" = some (.int n))
    (k : Bool → Stm) : ev (newLink rs fuel) moreTicks 1 (withBool k) env = k (decide (i < n)) env := by
  unfold moreTicks
  go_simp [newLink]
  env_simp [hi, hn]

theorem tick_post (rs : List Str) (fuel : Nat) {env : Env} {i : Nat} (hi : env g!"i" = some (.int i)) :
    stm (newLink rs fuel) (.inc (.id g!"i")) (some []) .skip env = .ret (env.set g!"i" (.int (i + 1 : Nat)), .next) := by
  go_simp [newLink]
  rw [Stm.get_apply hi]
  simp [Stm.assign, hi]

theorem tick_send (rs : List Str) (fuel : Nat) {env : Env} {n : Nat} {base now : Val} {vs : List Val}
    (hd : env g!"d" = some (limiter base n vs)) (hw : env g!"now" = some now) (h : vs.length < n) :
    inScope [] (den (newLink rs fuel) tickBody (some []) .skip) env = .ret (env.set g!"d" (limiter base n (vs ++ [now])), .next) := by
  rw [inScope_nil]
  unfold tickBody
  go_simp [newLink]
  have h1 : (limiter base n vs).field g!"_ticks" = chanVal n vs := by simp [limiter, Val.field, getKey]
  have h2 : ∀ c, (limiter base n vs).setField g!"_ticks" c = .map [(g!"_base", base), (g!"_ticks", c)] := fun c => by
    simp [limiter, Val.setField, setKey]
  simp only [Stm.get, hd, hw, h1, sendVal_chan h, Stm.assign, h2]
  rfl

theorem tick_loop (rs : List Str) (fuel : Nat) (base now : Val) (n : Nat) : ∀ (k i : Nat) (env : Env), i + k = n →
    env g!"i" = some (.int i) → env g!"burst" = some (.int n) → env g!"now" = some now →
    env g!"d" = some (limiter base n (List.replicate i now)) →
    loopN (fun k => ev (newLink rs fuel) moreTicks 1 (withBool k)) (stm (newLink rs fuel) (.inc (.id g!"i")) (some []) .skip)
      (inScope [] (den (newLink rs fuel) tickBody (some []) .skip)) (k + 1) env =
      .ret ((env.set g!"d" (limiter base n (List.replicate n now))).set g!"i" (.int n), .next)
  | 0, i, env, hk, hi, hb, hn, hd => by
    have hk : i = n := by omega
    subst hk
    rw [loopN, tick_cond rs fuel hi hb, decide_eq_false (by omega)]
    show Tree.ret (env, _) = _
    congr 2
    funext y
    by_cases h1 : y = g!"i" <;> by_cases h2 : y = g!"d" <;> simp_all [Env.set]
  | k + 1, i, env, hk, hi, hb, hn, hd => by
    rw [loopN, tick_cond rs fuel hi hb, decide_eq_true (by omega)]
    refine (congrArg (fun t => Tree.bind t _) (tick_send rs fuel hd hn (by simp; omega))).trans ?_
    rw [← List.replicate_succ']
    refine (congrArg (fun t => Tree.bind t _) (tick_post rs fuel (env := env.set g!"d" (limiter base n (List.replicate (i + 1) now))) (i := i)
      (by rw [← hi]; rfl))).trans ?_
    refine (tick_loop rs fuel base now n k (i + 1) ((env.set g!"d" (limiter base n (List.replicate (i + 1) now))).set g!"i" (.int (i + 1 : Nat)))
      (by omega) rfl (by rw [← hb]; rfl) (by rw [← hn]; rfl) rfl).trans ?_
    congr 2
    funext y
    by_cases h1 : y = g!"i" <;> by_cases h2 : y = g!"d" <;> simp_all [Env.set]

def limiterLit (dec : Str) : Stmt :=
  .define [.id g!"d"] [.un g!"&" (.lit (.name dec) [.pair (.id g!"_base") (.id g!"base"),
    .pair (.id g!"_ticks") (.call (.id g!"make") [.type (.chan (.qual g!"time" g!"Time")), .id g!"burst"] false)] true)]

def limiterEnd : List Stmt :=
  [.define [.id g!"delay"] [.call (.sel (.id g!"time") g!"Duration") [.bin g!"/" (.call (.id g!"float64") [.sel (.id g!"time") g!"Second"] false) (.id g!"rps")] false],
    .go (.call (.fn [] .none [.range [.id g!"t"] (.call (.sel (.id g!"time") g!"Tick") [.id g!"delay"] false) [.send (.sel (.id g!"d") g!"_ticks") (.id g!"t")]]) [] false),
    .ret [.id g!"d"]]

def limiterBody (dec : Str) : List Stmt :=
  limiterLit dec :: .define [.id g!"now"] [.call (.sel (.id g!"time") g!"Now") [] false] ::
  .loop (.define [.id g!"i"] [.num g!"0"]) moreTicks (.inc (.id g!"i")) tickBody :: limiterEnd

theorem stm_limiterLit (rs : List Str) (fuel : Nat) (dec : Str) {env : Env} {base : Val} {n : Nat} (hb : env g!"base" = some base)
    (hn : env g!"burst" = some (.int n)) (hm : env g!"make" = none) (hd : env g!"d" = none) (k : Stm) :
    stm (newLink rs fuel) (limiterLit dec) none k env = k (env.set g!"d" (limiter base n [])) := by
  unfold limiterLit
  have : ¬ (n : Int) < 0 := by omega
  go_simp [newLink, makeChanFn, structVal, fieldKeys]
  env_simp [hb, hn, hm]
  simp [Stm.seq, this, Stm.declare, hd]
  rfl

theorem run_limiter {ps : List Group} (hp : groupNames ps = [g!"base", g!"burst", g!"rps"]) (t : Ty) (dec : Str) (base rps : Val) (n : Nat) :
    ∃ E : Int → Val → Env, (∀ now delay, E now delay g!"delay" = some delay ∧ E now delay g!"d" = some (limiter base n (List.replicate n (.int now)))) ∧
    runFunc (n + 1) (ps, .one t, limiterBody dec) [base, .int n, rps] =
      .vis .now fun (now : Int) => callLib g!"float64" [.int 1000000000] fun second => callLib g!"/" [second, rps] fun q =>
        callLib g!"time.Duration" [q] fun delay => .vis (.go .ticker (E now delay)) fun _ =>
          .ret (.ret [limiter base n (List.replicate n (.int now))]) := by
  let L := newLink [g!"#"] (n + 1)
  let e0 := startFunc [g!"base", g!"burst", g!"rps"] [g!"#"] [base, .int n, rps]
  let e1 : Int → Env := fun now => (e0.set g!"d" (limiter base n [])).set g!"now" (.int now)
  let e2 : Int → Env := fun now => ((((e1 now).set g!"i" (.int 0)).set g!"d" (limiter base n (List.replicate n (.int now)))).set g!"i" (.int n)).leave (e1 now) [g!"i"]
  refine ⟨fun now delay => (e2 now).set g!"delay" delay, fun now delay => ⟨rfl, rfl⟩, ?_⟩
  unfold runFunc
  simp only [hp]
  rw [if_pos ⟨by simp [resultNames], rfl⟩]
  have hloop : ∀ now, inScope [g!"i"] (stm L (.define [.id g!"i"] [.num g!"0"]) (some []) (loopN (fun k => ev L moreTicks 1 (withBool k))
      (stm L (.inc (.id g!"i")) (some []) .skip) (inScope [] (den L tickBody (some []) .skip)) (n + 1))) (e1 now) = .ret (e2 now, .next) := by
    intro now
    have key := tick_loop [g!"#"] (n + 1) base (.int now) n n 0 ((e1 now).set g!"i" (.int 0)) (by omega) rfl rfl rfl rfl
    have := congrArg (fun t => Tree.bind t (fun r : Env × Flow => .ret (r.1.leave (e1 now) [g!"i"], r.2))) key
    kexact this
  have hend : ∀ now, (den L limiterEnd none .skip (e2 now)).bind (endFunc [g!"#"]) =
      callLib g!"float64" [.int 1000000000] fun second => callLib g!"/" [second, rps] fun q =>
        callLib g!"time.Duration" [q] fun delay => .vis (.go .ticker ((e2 now).set g!"delay" delay)) fun _ =>
          .ret (.ret [limiter base n (List.replicate n (.int now))]) := by
    intro now
    refine Tree.vis_congr fun r => ?_
    match r with
    | .error _ => rfl
    | .ok ⟨[second], _⟩ =>
      refine Tree.vis_congr fun r => ?_
      match r with
      | .error _ => rfl
      | .ok ⟨[q], _⟩ =>
        refine Tree.vis_congr fun r => ?_
        match r with
        | .error _ => rfl
        | .ok ⟨[delay], _⟩ => rfl
  have h1 := stm_limiterLit [g!"#"] (n + 1) dec (env := e0) (base := base) (n := n) rfl rfl rfl rfl
    (den L (.define [.id g!"now"] [.call (.sel (.id g!"time") g!"Now") [] false] ::
      .loop (.define [.id g!"i"] [.num g!"0"]) moreTicks (.inc (.id g!"i")) tickBody :: limiterEnd) none .skip)
  refine (congrArg (fun t => Tree.bind t (endFunc [g!"#"])) h1).trans ?_
  refine Tree.vis_congr fun now => ?_
  have h2 := congrArg (fun t => (Tree.bind t fun r => match r.2 with
    | .next => den L limiterEnd none .skip r.1
    | fl => .ret (r.1, fl)).bind (endFunc [g!"#"])) (hloop now)
  have h3 := h2.trans (hend now)
  kexact h3

theorem stm_limiterLit_negative (rs : List Str) (fuel : Nat) (dec : Str) {env : Env} {base : Val} {n : Int} (hb : env g!"base" = some base)
    (hn : env g!"burst" = some (.int n)) (hm : env g!"make" = none) (h : n < 0) (k : Stm) :
    stm (newLink rs fuel) (limiterLit dec) none k env = .ret (env, .panic .nil) := by
  unfold limiterLit
  go_simp [newLink, makeChanFn, structVal, fieldKeys]
  env_simp [hb, hn, hm]
  simp [h]

theorem run_limiter_negative {ps : List Group} (hp : groupNames ps = [g!"base", g!"burst", g!"rps"]) (t : Ty) (dec : Str) (base rps : Val)
    (fuel : Nat) {n : Int} (hn : n < 0) :
    runFunc fuel (ps, .one t, limiterBody dec) [base, .int n, rps] = .ret (.panic .nil) := by
  unfold runFunc
  simp only [hp]
  rw [if_pos ⟨by simp [resultNames], rfl⟩]
  have h1 := stm_limiterLit_negative [g!"#"] fuel dec (env := startFunc [g!"base", g!"burst", g!"rps"] [g!"#"] [base, .int n, rps])
    (base := base) rfl rfl rfl hn
    (den (newLink [g!"#"] fuel) (.define [.id g!"now"] [.call (.sel (.id g!"time") g!"Now") [] false] ::
      .loop (.define [.id g!"i"] [.num g!"0"]) moreTicks (.inc (.id g!"i")) tickBody :: limiterEnd) none .skip)
  exact congrArg (fun t => Tree.bind t (endFunc [g!"#"])) h1

end Gowrap.Tmpl
