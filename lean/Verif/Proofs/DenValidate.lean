import Verif.Proofs.GoDen
import Verif.Proofs.TmValidate
import Verif.Proofs.TmGrpcValidate
import Verif.Proofs.TmTwirpValidate
/-!
# The meaning of the code generated by templates/validate, grpc_validate and twirp_validate
-/

namespace Gowrap.Tmpl

open Gowrap Go

set_option maxRecDepth 100000

/-- `interface{ Validate() error }` -/
abbrev validateT : Ty := .iface [.mk g!"Validate" [] (.one (.name g!"error"))]

/-- `if _v, _ok := interface{}(p).(…); _ok { if err = _v.Validate(); err != nil { … } }` -/
def validateS (onErr : List Stmt) (p : Str) : Stmt :=
  .condInit (.define [.id g!"_v", .id g!"_ok"] [.assert (callE (.type (.iface [])) [.id p]) validateT])
    (.id g!"_ok") [.condInit (.assign [.id g!"err"] [callE (dotE g!"_v" g!"Validate") []]) (notNilE (.id g!"err")) onErr]

def validateLoop (onErr : List Stmt) (m : Method) (p : Param) : List Stmt :=
  bif m.acceptsContext && Param.isCtx p then [] else [validateS onErr p.name]

/-- `err = f(code, err.Error())` and `return` -/
def invalidStmts (f code : Go.Expr) : List Stmt :=
  [.assign [.id g!"err"] [callE f [code, callE (dotE g!"err" g!"Error") []]], .ret []]

def grpcInvalidStmts : List Stmt := invalidStmts (dotE g!"grpc_status" g!"Error") (dotE g!"grpc_codes" g!"InvalidArgument")

def twirpInvalidStmts : List Stmt := invalidStmts (dotE g!"twirp" g!"NewError") (dotE g!"twirp" g!"InvalidArgument")

def validateStmts (onErr : List Stmt) (iface : Str) (m : Method) : List Stmt :=
  bif m.returnsError then .many (m.params.flatMap (validateLoop onErr m)) :: passStmts (fieldE iface) m else passStmts (fieldE iface) m

theorem tmValidate_param (u : Uni) (d : Inputs) (m : Method) (p : Param) :
    tmValidate.paramStmts u d m p = validateLoop [.ret []] m p := by
  unfold Template.paramStmts validateLoop
  generalize Param.isCtx p = c
  cases m.acceptsContext <;> cases c <;> krfl

theorem tmGrpcValidate_param (u : Uni) (d : Inputs) (m : Method) (p : Param) :
    tmGrpcValidate.paramStmts u d m p = validateLoop grpcInvalidStmts m p := by
  unfold Template.paramStmts validateLoop
  generalize Param.isCtx p = c
  cases m.acceptsContext <;> cases c <;> krfl

theorem tmTwirpValidate_param (u : Uni) (d : Inputs) (m : Method) (p : Param) :
    tmTwirpValidate.paramStmts u d m p = validateLoop twirpInvalidStmts m p := by
  unfold Template.paramStmts validateLoop
  generalize Param.isCtx p = c
  cases m.acceptsContext <;> cases c <;> krfl

theorem tmValidate_loop (u : Uni) (d : Inputs) (m : Method) : tmValidate.loopStmts u d m = m.params.flatMap (validateLoop [.ret []] m) := by
  show m.params.flatMap (tmValidate.paramStmts u d m) = _
  rw [show tmValidate.paramStmts u d m = validateLoop [.ret []] m from funext (tmValidate_param u d m)]

theorem tmGrpcValidate_loop (u : Uni) (d : Inputs) (m : Method) :
    tmGrpcValidate.loopStmts u d m = m.params.flatMap (validateLoop grpcInvalidStmts m) := by
  show m.params.flatMap (tmGrpcValidate.paramStmts u d m) = _
  rw [show tmGrpcValidate.paramStmts u d m = validateLoop grpcInvalidStmts m from funext (tmGrpcValidate_param u d m)]

theorem tmTwirpValidate_loop (u : Uni) (d : Inputs) (m : Method) :
    tmTwirpValidate.loopStmts u d m = m.params.flatMap (validateLoop twirpInvalidStmts m) := by
  show m.params.flatMap (tmTwirpValidate.paramStmts u d m) = _
  rw [show tmTwirpValidate.paramStmts u d m = validateLoop twirpInvalidStmts m from funext (tmTwirpValidate_param u d m)]

theorem tmValidate_method (u : Uni) (d : Inputs) (m : Method) :
    tmValidate.methodDecls u d m =
      [.method g!"_d" (.name (tmValidate.names u d).dec) m.name (paramDecls m.params) (paramDecls m.results)
        (validateStmts [.ret []] d.name m)] := by
  unfold Template.methodDecls Template.methodFill validateStmts
  rw [← tmValidate_loop u d m]
  obtain ⟨doc, cm, nm, ps, rs, re, ac⟩ := m
  generalize tmValidate.loopStmts u d _ = l
  generalize tmValidate.loopText u d _ = t
  cases ps <;> cases rs <;> cases re <;> krfl

theorem tmTwirpValidate_method (u : Uni) (d : Inputs) (m : Method) :
    tmTwirpValidate.methodDecls u d m =
      [.method g!"_d" (.name (tmTwirpValidate.names u d).dec) m.name (paramDecls m.params) (paramDecls m.results)
        (validateStmts twirpInvalidStmts d.name m)] := by
  unfold Template.methodDecls Template.methodFill validateStmts
  rw [← tmTwirpValidate_loop u d m]
  obtain ⟨doc, cm, nm, ps, rs, re, ac⟩ := m
  generalize tmTwirpValidate.loopStmts u d _ = l
  generalize tmTwirpValidate.loopText u d _ = t
  cases ps <;> cases rs <;> cases re <;> krfl

theorem tmGrpcValidate_method (u : Uni) (d : Inputs) (m : Method) :
    tmGrpcValidate.methodDecls u d m = bif m.returnsError then
      [.method g!"_d" (.name (tmGrpcValidate.names u d).dec) m.name (paramDecls m.params) (paramDecls m.results)
        (validateStmts grpcInvalidStmts d.name m)] else [] := by
  unfold Template.methodDecls Template.methodFill validateStmts
  rw [← tmGrpcValidate_loop u d m]
  obtain ⟨doc, cm, nm, ps, rs, re, ac⟩ := m
  generalize tmGrpcValidate.loopStmts u d _ = l
  generalize tmGrpcValidate.loopText u d _ = t
  cases ps <;> cases rs <;> cases re <;> krfl

/-- One parameter. -/
theorem den_validate {G : GoTypes} {L : Link} {onErr : List Stmt} {onInvalid : Stm} (ha : L.asserts = assertsValidate G)
    (hf : L.fn [g!"_v", g!"Validate"] = some (method g!"Validate")) (hd : hasDefer onErr = false) (hv : L.impl (.id g!"_v") = false)
    (he : inScope (declared onErr) (den L onErr (some []) .skip) = onInvalid) {p : Str}
    (hp : p ≠ g!"nil" ∧ p ≠ g!"true" ∧ p ≠ g!"false") (k : Stm) :
    stm L (validateS onErr p) none k = .seq (.get p fun v =>
          .block [g!"_v", g!"_ok"] [v, .bool (G.validatable v)]
            (.ite (G.validatable v)
              (.get g!"_v" fun v => .lib1 g!"Validate" [v] fun e => .seq (.assign g!"err" e)
                (.get g!"err" fun e => .ite e.isNil .skip onInvalid))
              .skip)) k := by
  unfold validateS
  go_simp [ha, hf, hd, he, hv, hp.1, hp.2.1, hp.2.2, assertsValidate]
  congr 1
  funext v
  cases hg : G.validatable v
  · funext env
    simp [inScope, Stm.block, Stm.seq, defineAll, Block.has, bindAll, Env.setAll, Stm.get, Env.set]
    congr 1
    funext y
    by_cases h1 : y = g!"_v" <;> by_cases h2 : y = g!"_ok" <;> simp [Env.leave, Env.set, h1, h2]
  · congr 1

theorem den_validates {G : GoTypes} {L : Link} {onErr : List Stmt} {onInvalid : Stm} (ha : L.asserts = assertsValidate G)
    (hf : L.fn [g!"_v", g!"Validate"] = some (method g!"Validate")) (hd : hasDefer onErr = false) (hv : L.impl (.id g!"_v") = false)
    (he : inScope (declared onErr) (den L onErr (some []) .skip) = onInvalid) (m : Method) (k : Stm) :
    ∀ ps : List Param, Plain (ps.map (·.name)) →
    den L (ps.flatMap (validateLoop onErr m)) none k = .seq (validateParams G m onInvalid (ps.map (·.name))) k
  | [], _ => rfl
  | p :: ps, h => by
    rw [List.flatMap_cons, den_append, den_validates ha hf hd hv he m k ps h.cons.2, List.map_cons, validateParams]
    unfold validateLoop notContext
    rw [show Param.isCtx p = decide (p.name = g!"ctx") from rfl]
    cases hc : (m.acceptsContext && decide (p.name = g!"ctx"))
    · show den L [_] none _ = _
      rw [den_cons, den_validate ha hf hd hv he h.cons.1, show (!false) = true from rfl, if_pos rfl, Stm.seq_assoc]
      rfl
    · rfl

theorem den_validateAll {G : GoTypes} {L : Link} {onErr : List Stmt} {onInvalid : Stm} (ha : L.asserts = assertsValidate G)
    (hf : L.fn [g!"_v", g!"Validate"] = some (method g!"Validate")) (hd : hasDefer onErr = false) (hv : L.impl (.id g!"_v") = false)
    (he : inScope (declared onErr) (den L onErr (some []) .skip) = onInvalid) {iface : Str} {base : Val} {m : Method}
    (hi : L.impl (fieldE iface) = true) (hr : ∀ k, ev L (fieldE iface) 1 k = k [base])
    (hp : Plain m.pnames) (hres : L.results = m.rnames) :
    denBody L (validateStmts onErr iface m) =
      .seq (if m.returnsError then validateParams G m onInvalid m.pnames else .skip) (m.passTo base) := by
  unfold denBody validateStmts
  cases m.returnsError
  · exact den_pass (base := value base) hi hr hp hres _ _
  · show den L (_ :: _) none _ = _
    rw [den_cons, den_pass (base := value base) hi hr hp hres, stm_many, den_validates ha hf hd hv he m _ _ hp]
    rfl

theorem tmValidate_den (G : GoTypes) (iface : Str) (base : Val) (m : Method) (hp : Plain m.pnames) :
    denBody (validateLink G iface base m) (validateStmts [.ret []] iface m) = validate G base m :=
  den_validateAll rfl rfl rfl rfl rfl (by go_simp [validateLink]) (fun k => by go_simp [validateLink]) hp rfl

theorem tmGrpcValidate_den (G : GoTypes) (iface : Str) (base : Val) (m : Method) (hp : Plain m.pnames) (he : m.returnsError = true) :
    denBody (grpcValidateLink G iface base m) (validateStmts grpcInvalidStmts iface m) = grpcValidate G base m := by
  refine (den_validateAll (G := G) (base := base) (onInvalid := grpcInvalid) rfl rfl rfl rfl ?_ (by go_simp [grpcValidateLink])
    (fun k => by go_simp [grpcValidateLink]) hp rfl).trans ?_
  · unfold grpcInvalidStmts invalidStmts grpcInvalid
    go_simp [grpcValidateLink]
  · rw [if_pos he]
    rfl

theorem tmTwirpValidate_den (G : GoTypes) (iface : Str) (base : Val) (m : Method) (hp : Plain m.pnames) :
    denBody (twirpValidateLink G iface base m) (validateStmts twirpInvalidStmts iface m) = twirpValidate G base m := by
  refine (den_validateAll (G := G) (base := base) (onInvalid := twirpInvalid) rfl rfl rfl rfl ?_ (by go_simp [twirpValidateLink])
    (fun k => by go_simp [twirpValidateLink]) hp rfl)
  unfold twirpInvalidStmts invalidStmts twirpInvalid
  go_simp [twirpValidateLink, Stm.global_twice]

end Gowrap.Tmpl
