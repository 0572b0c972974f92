import Verif.Proofs.ExecEnv
import Verif.Model.TmplValidate
import Verif.Spec.Validate
/-! # Runs of the validation decorators, twirp_error and timeout -/

namespace Gowrap

open Spec Tmpl

variable {m : Method} {loc : Env} {a r : List Val}

theorem Val.eq_nil_of_isNil {v : Val} (h : v.isNil = true) : v = .nil := by
  cases v <;> simp [Val.isNil] at h ⊢

theorem Env.set_eq {env : Env} {x : Str} {v : Val} (h : env x = some v) : env.set x v = env := by
  funext y
  simp only [Env.set]
  split
  · rename_i hy; rw [hy, h]
  · rfl

theorem Tree.AllG.bind' {α β : Type} {t : Tree α} {f : α → Tree β} {P : List Event → α → Prop}
    {Q : List Event → β → Prop} (h : t.AllG P) (hf : ∀ tr a, P tr a → (f a).AllG fun tr' b => Q (tr ++ tr') b) :
    (t.bind f).AllG Q := by
  rw [Tree.allG_bind]
  exact h.mono hf

/-- The arguments of the candidate parameters. -/
def cands (G : GoTypes) (m : Method) (ps : List Str) (vs : List Val) : List Val :=
  ((ps.zip vs).filter fun x => notContext m x.1 && G.validatable x.2).map (·.2)

theorem allG_validateParams (G : GoTypes) {onInvalid : Stm} {W : Val → Val → List Seen → Prop} {globs : List Str}
    (hinv : ∀ env e, env g!"err" = some e → (∀ g ∈ globs, env g = none) → (onInvalid env).AllG fun tr x =>
      ∃ e', x = (env.set g!"err" e', Flow.ret) ∧ W e e' (seen tr))
    {env : Env} (herr : env g!"err" = some .nil)
    (hg : ∀ g ∈ globs, env g = none ∧ g ≠ g!"_v" ∧ g ≠ g!"_ok" ∧ g ≠ g!"err") :
    ∀ {ps : List Str} {vs : List Val}, env.all ps = some vs →
      (validateParams G m onInvalid ps env).AllG fun tr x =>
        (x = (env, Flow.next) ∧ seen tr = (cands G m ps vs).map passes) ∨
        ∃ pre v post e e' L, cands G m ps vs = pre ++ v :: post ∧ e.isNil = false ∧
          seen tr = pre.map passes ++ .lib ⟨g!"Validate", [v], .ok [e]⟩ :: L ∧ W e e' L ∧
          x = (env.set g!"err" e', Flow.ret) := by
  intro ps
  induction ps with
  | nil =>
    intro vs _
    rw [validateParams, Stm.skip_apply, Tree.allG_ret]
    exact Or.inl ⟨rfl, by simp [cands, seen]⟩
  | cons p ps ih =>
    intro vs h
    simp only [Env.all] at h
    cases hp : env p with
    | none => simp [hp] at h
    | some v =>
    cases hq : env.all ps with
    | none => simp [hp, hq] at h
    | some vs' =>
    simp only [hp, hq, Option.some.injEq] at h
    subst h
    rw [validateParams]
    by_cases hc : notContext m p = true
    · rw [if_pos hc, Stm.allG_seq, Stm.get_apply hp, Stm.allG_block]
      cases hv : G.validatable v with
      | false =>
        rw [Stm.ite_false', Stm.skip_apply, Tree.allG_ret]
        have e0 : (env.setAll [g!"_v", g!"_ok"] [v, .bool false]).leave env [g!"_v", g!"_ok"] = env := by
          funext y
          simp only [Env.leave, Env.setAll, Env.set, List.mem_cons, List.not_mem_nil, or_false]
          split
          · rfl
          · rename_i hy
            simp only [not_or] at hy
            simp [hy.1, hy.2]
        rw [e0]
        refine (ih hq).mono fun tr x hx => ?_
        have : cands G m (p :: ps) (v :: vs') = cands G m ps vs' := by simp [cands, hv]
        rwa [this, List.nil_append]
      | true =>
        have hcs : cands G m (p :: ps) (v :: vs') = v :: cands G m ps vs' := by simp [cands, hv, hc]
        have hv' : env.setAll [g!"_v", g!"_ok"] [v, .bool true] g!"_v" = some v := by
          simp only [Env.setAll]
          rw [Env.set_other _ _ (by decide), Env.set_same]
        have he' : env.setAll [g!"_v", g!"_ok"] [v, .bool true] g!"err" = some .nil := by
          simp only [Env.setAll]
          rw [Env.set_other _ _ (by decide), Env.set_other _ _ (by decide), herr]
        rw [Stm.ite_true', Stm.get_apply hv', Stm.allG_lib1]
        intro e
        rw [Stm.seq_assign he', Stm.get_apply (Env.set_same _ _ _)]
        have e0 : ∀ w : Val, ((env.setAll [g!"_v", g!"_ok"] [v, .bool true]).set g!"err" w).leave env
            [g!"_v", g!"_ok"] = env.set g!"err" w := by
          intro w
          funext y
          simp only [Env.leave, Env.setAll, Env.set, List.mem_cons, List.not_mem_nil, or_false]
          split
          · rename_i hy
            rcases hy with rfl | rfl
            · rw [if_neg (by decide)]
            · rw [if_neg (by decide)]
          · rename_i hy
            simp only [not_or] at hy
            simp [hy.1, hy.2]
        cases hn : e.isNil with
        | true =>
          rw [Stm.ite_true', Stm.skip_apply, Tree.allG_ret, e0, Val.eq_nil_of_isNil hn, Env.set_eq herr]
          refine (ih hq).mono fun tr x hx => ?_
          rw [hcs]
          rcases hx with ⟨rfl, hs⟩ | ⟨pre, v', post, e1, e', L, h1, h2, h3, h4, rfl⟩
          · exact Or.inl ⟨rfl, congrArg (List.cons _) hs⟩
          · exact Or.inr ⟨v :: pre, v', post, e1, e', L, by rw [h1]; rfl, h2, congrArg (List.cons _) h3, h4, rfl⟩
        | false =>
          rw [Stm.ite_false']
          refine (hinv _ e (Env.set_same _ _ _) ?_).mono fun tr x hx => ?_
          · intro g hgm
            obtain ⟨g1, g2, g3, g4⟩ := hg g hgm
            simp only [Env.setAll]
            rw [Env.set_other _ _ g4, Env.set_other _ _ g3, Env.set_other _ _ g2, g1]
          · obtain ⟨e', rfl, hw⟩ := hx
            have e1 : (((env.setAll [g!"_v", g!"_ok"] [v, .bool true]).set g!"err" e).set g!"err" e').leave env
                [g!"_v", g!"_ok"] = env.set g!"err" e' := by
              rw [← e0 e']
              congr 1
              funext y
              simp only [Env.set]
              split <;> rfl
            refine Or.inr ⟨[], v, cands G m ps vs', e, e', seen tr, hcs, hn, rfl, hw, ?_⟩
            rw [e1]
    · rw [if_neg hc]
      refine (ih hq).mono fun tr x hx => ?_
      have : cands G m (p :: ps) (v :: vs') = cands G m ps vs' := by simp [cands, hc]
      rwa [this]

/-- The candidates in terms of positions. -/
theorem cands_eq (G : GoTypes) (h : m.Fits a r) : cands G m m.pnames a = candidates G m a := by
  have key : ∀ (ps : List Str) (vs : List Val), ps.length = vs.length → (∀ p ∈ ps, notContext m p = true) →
      cands G m ps vs = vs.filter G.validatable := by
    intro ps
    induction ps with
    | nil => intro vs hl _; cases vs with
      | nil => rfl
      | cons v vs => simp at hl
    | cons p ps ih =>
      intro vs hl hn
      cases vs with
      | nil => simp at hl
      | cons v vs =>
        have := ih vs (by simpa using hl) (fun q hq => hn q (List.mem_cons_of_mem _ hq))
        have hp := hn p (List.mem_cons_self ..)
        unfold cands at this ⊢
        by_cases hv : G.validatable v = true <;> simp [hp, hv, this]
  unfold candidates requestArgs
  cases hc : m.acceptsContext with
  | false =>
    rw [if_neg (by simp)]
    exact key _ _ h.lenp fun p _ => by simp [notContext, hc]
  | true =>
    obtain ⟨ps, hp⟩ := Method.pnames_ctx h.ok hc
    obtain ⟨c, a', rfl⟩ := Method.args_ctx h hc
    have hn := h.nodup_p
    have hl := h.lenp
    rw [hp] at hn hl ⊢
    rw [if_pos rfl, List.tail_cons, ← key ps a' (by simpa using hl)]
    · simp [cands, notContext, hc]
    · intro p hpm
      have : p ≠ g!"ctx" := by
        rintro rfl
        exact (List.nodup_cons.1 hn).1 hpm
      simp [notContext, this]

/-- Validation before the call. -/
theorem validated_runs (G : GoTypes) {onInvalid : Stm} {W : Val → Val → List Seen → Prop} {globs : List Str}
    {recv : Str × Val} {args : List Val} {base : Val}
    (h : Callable m recv globs args) (hret : m.returnsError = true)
    (hglobs : ∀ g ∈ globs, g ≠ g!"_v" ∧ g ≠ g!"_ok")
    (hinv : ∀ env e, env g!"err" = some e → (∀ g ∈ globs, env g = none) → (onInvalid env).AllG fun tr x =>
      ∃ e', x = (env.set g!"err" e', Flow.ret) ∧ W e e' (seen tr)) :
    (m.exec G recv (.seq (validateParams G m onInvalid m.pnames) (m.passTo base)) args).AllG fun tr o =>
      Rejected W (candidates G m args) (m.zeros G) tr o ∨ Accepted base m args (candidates G m args) tr o := by
  have hf := h.fits G
  obtain ⟨rs, z, hz⟩ := Method.results_err hf hret
  have hznil : z = .nil := by
    have := failedVals_zeros G h.ok
    rw [failedVals, hret, hz] at this
    simp at this
    exact Val.eq_nil_of_isNil this
  rw [Method.exec_apply G h.declared, Tree.allG_bind, Stm.allG_seq]
  have hfz : m.Fits args (rs ++ [z]) := by rw [← hz]; exact hf
  rw [hz]
  have hsome : m.env (Method.recvEnv recv) args (rs ++ [z]) g!"err" = some .nil := by
    rw [Method.env_err hfz hret, hznil]
  have herrname : ∀ g ∈ globs, g ≠ g!"err" := by
    intro g hg he
    obtain ⟨rs', hr'⟩ := Method.rnames_err h.ok hret
    exact (h.fresh hg).2 (by rw [he, hr']; simp)
  refine (allG_validateParams (m := m) G hinv hsome ?_ (Method.env_all_params hfz)).mono fun tr x hx => ?_
  · intro g hg
    obtain ⟨h1, h2⟩ := h.fresh hg
    exact ⟨by rw [Method.env_other h2, h1], (hglobs g hg).1, (hglobs g hg).2, herrname g hg⟩
  · rw [cands_eq G hf] at hx
    rcases hx with ⟨rfl, hs⟩ | ⟨pre, v, post, e, e', L, h1, h2, h3, h4, rfl⟩
    · simp only
      rw [Method.allG_passTo hfz]
      constructor
      · intro vs
        rw [Method.finish_ret ⟨hf.ok, hf.args, vs.2⟩, Tree.allG_ret]
        exact Or.inr ⟨.ok vs.1, by rw [List.append_nil, seen_append, hs]; rfl, rfl⟩
      · intro v
        rw [Method.finish_panic, Tree.allG_ret]
        exact Or.inr ⟨.error v, by rw [List.append_nil, seen_append, hs]; rfl, rfl⟩
    · simp only
      rw [Method.env_set_err hfz hret, Method.finish_ret hfz.err, Tree.allG_ret, List.append_nil]
      exact Or.inl ⟨pre, v, post, e, e', L, h1, h2, h3, h4, by simp⟩

/-- A method whose body only passes the call on. -/
theorem passTo_runs (G : GoTypes) {recv : Str × Val} {args : List Val} {base : Val} (hok : MethodOk m)
    (hd : m.WellDeclared recv args) :
    (m.exec G recv (m.passTo base) args).AllG fun tr o => ∃ res, seen tr = [.impl ⟨base, m.name, args, res⟩] ∧
      o = passedOn res := by
  have hf : m.Fits args (m.zeros G) := ⟨hok, hd.2.2, Method.zeros_length G m⟩
  rw [Method.exec_apply G hd, Tree.allG_bind, Method.allG_passTo hf]
  constructor
  · intro vs
    rw [Method.finish_ret ⟨hf.ok, hf.args, vs.2⟩, Tree.allG_ret]
    exact ⟨.ok vs.1, rfl, rfl⟩
  · intro v
    rw [Method.finish_panic, Tree.allG_ret]
    exact ⟨.error v, rfl, rfl⟩

/-! ## twirp_error -/

theorem allG_injectRequest (G : GoTypes) (q : Val) {e : Val} {rs : List Val} (h : m.Fits a (rs ++ [e]))
    (hret : m.returnsError = true) :
    (injectRequest G q (m.env loc a (rs ++ [e]))).AllG fun tr x =>
      ∃ e', x = (m.env loc a (rs ++ [e']), .next) ∧ Annotate G q e (seen tr) e' := by
  rw [injectRequest, Stm.get_apply (Method.env_err h hret)]
  have hmeta : ∀ twerr, (Stm.lib2 g!"json.Marshal" [q] (fun jsonReq _ =>
      .lib1 g!"twirp.WithMeta" [twerr, .str g!"request", jsonReq] fun e => .assign g!"err" e)
        (m.env loc a (rs ++ [e]))).AllG fun tr x => ∃ e' json y, x = (m.env loc a (rs ++ [e']), .next) ∧
          seen tr = [.lib ⟨g!"json.Marshal", [q], .ok [json, y]⟩,
            .lib ⟨g!"twirp.WithMeta", [twerr, .str g!"request", json], .ok [e']⟩] := by
    intro twerr
    rw [Stm.allG_lib2]
    intro json y
    rw [Stm.allG_lib1]
    intro e'
    rw [Stm.assign_apply (Method.env_err h hret), Method.env_set_err h hret, Tree.allG_ret]
    exact ⟨e', json, y, rfl, rfl⟩
  cases hn : e.isNil with
  | true =>
    rw [Stm.ite_true', Stm.skip_apply, Tree.allG_ret]
    exact ⟨e, rfl, by rw [Annotate, if_pos hn]; exact ⟨rfl, rfl⟩⟩
  | false =>
    rw [Stm.ite_false']
    cases ht : G.twirpError e with
    | true =>
      rw [Stm.ite_true']
      refine (hmeta e).mono fun tr x hx => ?_
      obtain ⟨e', json, y, hx, hs⟩ := hx
      refine ⟨e', hx, ?_⟩
      rw [Annotate, if_neg (by simp [hn])]
      exact ⟨e, json, y, Or.inl ⟨ht, rfl, hs⟩⟩
    | false =>
      rw [Stm.ite_false', Stm.allG_lib1]
      intro twerr
      refine (hmeta twerr).mono fun tr x hx => ?_
      obtain ⟨e', json, y, hx, hs⟩ := hx
      refine ⟨e', hx, ?_⟩
      rw [Annotate, if_neg (by simp [hn])]
      exact ⟨twerr, json, y, Or.inr ⟨ht, congrArg (List.cons _) hs⟩⟩

/-- The arguments that are added to the error. -/
def reqs (m : Method) (ps : List Str) (vs : List Val) : List Val :=
  ((ps.zip vs).filter fun x => notContext m x.1).map (·.2)

theorem reqs_eq (h : m.Fits a r) : reqs m m.pnames a = requestArgs m a := by
  have key : ∀ (ps : List Str) (vs : List Val), ps.length = vs.length → (∀ p ∈ ps, notContext m p = true) →
      reqs m ps vs = vs := by
    intro ps
    induction ps with
    | nil => intro vs hl _; cases vs with
      | nil => rfl
      | cons v vs => simp at hl
    | cons p ps ih =>
      intro vs hl hn
      cases vs with
      | nil => simp at hl
      | cons v vs =>
        have := ih vs (by simpa using hl) (fun q hq => hn q (List.mem_cons_of_mem _ hq))
        unfold reqs at this ⊢
        simp [hn p (List.mem_cons_self ..), this]
  unfold requestArgs
  cases hc : m.acceptsContext with
  | false =>
    rw [if_neg (by simp)]
    exact key _ _ h.lenp fun p _ => by simp [notContext, hc]
  | true =>
    obtain ⟨ps, hp⟩ := Method.pnames_ctx h.ok hc
    obtain ⟨c, a', rfl⟩ := Method.args_ctx h hc
    have hn := h.nodup_p
    have hl := h.lenp
    rw [hp] at hn hl ⊢
    rw [if_pos rfl, List.tail_cons]
    refine Eq.trans ?_ (key ps a' (by simpa using hl) ?_)
    · simp [reqs, notContext, hc]
    · intro p hpm
      have : p ≠ g!"ctx" := by
        rintro rfl
        exact (List.nodup_cons.1 hn).1 hpm
      simp [notContext, this]

theorem allG_twirpDefers (G : GoTypes) {base : Val} {rs : List Val} (h : m.Fits a (rs ++ [.nil]))
    (hret : m.returnsError = true) (hn : g!"injectRequestDataToError" ∉ m.pnames ++ m.rnames)
    (hl : loc g!"injectRequestDataToError" = none) :
    ∀ {ps : List Str} {vs : List Val}, (m.env loc a (rs ++ [.nil])).all ps = some vs →
      (twirpDefers G m (m.passTo base) ps (m.env loc a (rs ++ [.nil]))).AllG fun tr x =>
        (∃ ws e e' L, x = (m.env loc a (ws ++ [e']), .ret) ∧ (ws ++ [e']).length = m.results.length ∧
          seen tr = .impl ⟨base, m.name, a, .ok (ws ++ [e])⟩ :: L ∧ AnnotateAll G e (reqs m ps vs) L e') ∨
        ∃ v, x = (m.env loc a (rs ++ [.nil]), .panic v) ∧
          seen tr = [.impl ⟨base, m.name, a, .error v⟩] := by
  intro ps
  induction ps with
  | nil =>
    intro vs _
    rw [twirpDefers, Method.allG_passTo h]
    constructor
    · intro ws
      obtain ⟨ws', e, he⟩ := Method.results_err ⟨h.ok, h.args, ws.2⟩ hret
      refine Or.inl ⟨ws', e, e, [], by rw [he], by rw [← he]; exact ws.2, ?_, rfl, rfl⟩
      rw [← he]; rfl
    · intro v
      exact Or.inr ⟨v, rfl, rfl⟩
  | cons p ps ih =>
    intro vs hall
    simp only [Env.all] at hall
    cases hp : m.env loc a (rs ++ [.nil]) p with
    | none => simp [hp] at hall
    | some v =>
    cases hq : (m.env loc a (rs ++ [.nil])).all ps with
    | none => simp [hp, hq] at hall
    | some vs' =>
    simp only [hp, hq, Option.some.injEq] at hall
    subst hall
    rw [twirpDefers]
    by_cases hc : notContext m p = true
    · rw [if_pos hc, Stm.global_apply (by rw [Method.env_other hn, hl]), Stm.get_apply hp, Stm.allG_deferring]
      have hreq : reqs m (p :: ps) (v :: vs') = v :: reqs m ps vs' := by simp [reqs, hc]
      refine (ih hq).mono fun tr x hx => ?_
      rcases hx with ⟨ws, e, e', L, rfl, hlen, hs, hann⟩ | ⟨pv, rfl, hs⟩
      · simp only
        have hf' : m.Fits a (ws ++ [e']) := ⟨h.ok, h.args, hlen⟩
        refine (allG_injectRequest G v hf' hret).mono fun tr' x' hx' => ?_
        obtain ⟨e2, rfl, h2⟩ := hx'
        refine Or.inl ⟨ws, e, e2, L ++ seen tr', rfl, by simpa using hlen, ?_, ?_⟩
        · rw [seen_append, hs]; rfl
        · rw [hreq]
          exact ⟨e', L, seen tr', hann, h2, rfl⟩
      · simp only
        refine (allG_injectRequest G v h hret).mono fun tr' x' hx' => ?_
        obtain ⟨e2, rfl, h2⟩ := hx'
        rw [Annotate, if_pos (show Val.nil.isNil = true from rfl)] at h2
        refine Or.inr ⟨pv, by rw [h2.2], ?_⟩
        rw [seen_append, hs, h2.1]; rfl
    · rw [if_neg hc]
      have hreq : reqs m (p :: ps) (v :: vs') = reqs m ps vs' := by simp [reqs, hc]
      rw [hreq]
      exact ih hq

theorem twirpError_runs (G : GoTypes) {iface : Str} {base : Val} {recv : Str × Val} {args : List Val}
    (h : Callable m recv [g!"injectRequestDataToError"] args) (hret : m.returnsError = true) :
    ((twirpErrorDecorator G iface base).call G m recv args).AllG fun tr o =>
      (∃ ws e e' L, o = .ret (ws ++ [e']) ∧
        seen tr = .impl ⟨base, m.name, args, .ok (ws ++ [e])⟩ :: L ∧ AnnotateAll G e (requestArgs m args) L e') ∨
      ∃ v, o = .panic v ∧ seen tr = [.impl ⟨base, m.name, args, .error v⟩] := by
  have hf := h.fits G
  obtain ⟨rs, z, hz⟩ := Method.results_err hf hret
  have hznil : z = .nil := by
    have := failedVals_zeros G h.ok
    rw [failedVals, hret, hz] at this
    simp at this
    exact Val.eq_nil_of_isNil this
  subst hznil
  have f1 := h.fresh (x := g!"injectRequestDataToError") (by simp)
  have hcall : (twirpErrorDecorator G iface base).call G m recv args =
      m.exec G recv (twirpError G base m) args := rfl
  have hfz : m.Fits args (rs ++ [.nil]) := by rw [← hz]; exact hf
  rw [hcall, Method.exec_apply G h.declared, twirpError, if_pos hret, hz, Tree.allG_bind]
  refine (allG_twirpDefers G hfz hret f1.2 f1.1 (Method.env_all_params hfz)).mono fun tr x hx => ?_
  rw [reqs_eq hf] at hx
  rcases hx with ⟨ws, e, e', L, rfl, hlen, hs, hann⟩ | ⟨v, rfl, hs⟩
  · rw [Method.finish_ret ⟨hf.ok, hf.args, hlen⟩, Tree.allG_ret, List.append_nil]
    exact Or.inl ⟨ws, e, e', L, rfl, hs, hann⟩
  · rw [Method.finish_panic, Tree.allG_ret, List.append_nil]
    exact Or.inr ⟨v, rfl, hs⟩

/-! ## timeout -/

theorem timeout_runs (G : GoTypes) {iface : Str} {base : Val} {config : Str → Int} {recv : Str × Val}
    {args : List Val} (h : Callable m recv [g!"cancelFunc", g!"context"] args) (hc : m.acceptsContext = true) :
    ((timeoutDecorator iface base config).call G m recv args).AllG fun tr o =>
      if config m.name > 0 then ∃ ctx rest ctx' cancel res, args = ctx :: rest ∧ o = passedOn res ∧
        seen tr = [.lib ⟨g!"context.WithTimeout", [ctx, .int (config m.name)], .ok [ctx', cancel]⟩,
          .impl ⟨base, m.name, ctx' :: rest, res⟩, .lib ⟨g!"cancel", [cancel], .ok []⟩]
      else ∃ res, o = passedOn res ∧ seen tr = [.impl ⟨base, m.name, args, res⟩] := by
  have hf := h.fits G
  have f1 := h.fresh (x := g!"cancelFunc") (by simp)
  have f2 := h.fresh (x := g!"context") (by simp)
  have hcall : (timeoutDecorator iface base config).call G m recv args =
      m.exec G recv (timeout base (config m.name) m) args := by
    simp [Decorator.call, timeoutDecorator, hc]
  rw [hcall, Method.exec_apply G h.declared, timeout, Tree.allG_bind,
    Stm.seq_declare (by rw [Method.env_other f1.2, f1.1]), Method.env_set_other hf f1.2]
  split
  · obtain ⟨c, a', rfl⟩ := Method.args_ctx hf hc
    rw [Stm.global_apply (by rw [Method.env_other f2.2, Env.set_other _ _ (by decide), f2.1]),
      Stm.get_apply (Method.env_ctx hf hc), Stm.allG_lib2]
    intro ctx' cancel
    rw [Stm.seq_assign (Method.env_ctx hf hc), Method.env_set_ctx hf hc,
      Stm.seq_assign (u := .nil) (by rw [Method.env_other f1.2, Env.set_same]), Method.env_set_other hf.ctx f1.2,
      Stm.get_apply (v := cancel) (by rw [Method.env_other f1.2, Env.set_same])]
    have := allG_deferred_pass (m := m) (base := base) (after := .lib0 g!"cancel" [cancel])
      (loc := ((Method.recvEnv recv).set g!"cancelFunc" .nil).set g!"cancelFunc" cancel)
      (P := fun _ L => L = [.lib ⟨g!"cancel", [cancel], .ok []⟩]) (hf.ctx (c' := ctx'))
      (fun r' _ => ⟨_, Stm.does_lib0 rfl⟩)
      (Q := fun tr o => ∃ res, o = passedOn res ∧ seen tr =
        [.impl ⟨base, m.name, ctx' :: a', res⟩, .lib ⟨g!"cancel", [cancel], .ok []⟩])
      (by rintro res tr L rfl hs; exact ⟨res, rfl, hs⟩)
    rw [Tree.allG_bind] at this
    refine this.mono fun tr x hx => hx.mono fun tr' o ho => ?_
    obtain ⟨res, ho, hs⟩ := ho
    exact ⟨c, a', ctx', cancel, res, rfl, ho, congrArg (List.cons _) hs⟩
  · rw [Method.allG_passTo hf]
    constructor
    · intro vs
      rw [Method.finish_ret ⟨hf.ok, hf.args, vs.2⟩, Tree.allG_ret]
      exact ⟨.ok vs.1, rfl, rfl⟩
    · intro v
      rw [Method.finish_panic, Tree.allG_ret]
      exact ⟨.error v, rfl, rfl⟩

end Gowrap
