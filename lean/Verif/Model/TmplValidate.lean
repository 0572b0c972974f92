import Verif.Model.Exec
/-!
# The validation templates, twirp_error and timeout

templates/validate, grpc_validate, twirp_validate, twirp_error, timeout.
-/

namespace Gowrap.Tmpl

open Gowrap

/-- `not (and $method.AcceptsContext (eq $param.Name "ctx"))`, e.g. templates/validate:20. -/
def notContext (m : Method) (p : Str) : Bool := !(m.acceptsContext && p = g!"ctx")

/-- The loop over the parameters in templates/validate:19-27, grpc_validate:24-33 and
twirp_validate:23-32; `onInvalid` is what happens when `Validate` returned an error. -/
def validateParams (G : GoTypes) (m : Method) (onInvalid : Stm) : List Str → Stm
  | [] => .skip
  | p :: ps =>
    if notContext m p then
      .seq (.get p fun v =>
          .block [g!"_v", g!"_ok"] [v, .bool (G.validatable v)]
            (.ite (G.validatable v)
              (.get g!"_v" fun v => .lib1 g!"Validate" [v] fun e => .seq (.assign g!"err" e)
                (.get g!"err" fun e => .ite e.isNil .skip onInvalid))
              .skip))
        (validateParams G m onInvalid ps)
    else validateParams G m onInvalid ps

/-- templates/validate:17-30. -/
def validate (G : GoTypes) (base : Val) (m : Method) : Stm :=
  .seq (if m.returnsError then validateParams G m .ret m.pnames else .skip) (m.passTo base)

/-- templates/validate:4-31. -/
def validateDecorator (G : GoTypes) (iface : Str) (base : Val) : Decorator :=
  ⟨[iface], true, base, fun m => some (validate G base m)⟩

/-- templates/grpc_validate:28-29. -/
def grpcInvalid : Stm :=
  .global g!"grpc_status" (.global g!"grpc_codes" (.get g!"err" fun e => .lib1 g!"Error" [e] fun msg =>
    .lib1 g!"status.Error" [.str g!"InvalidArgument", msg] fun e' => .seq (.assign g!"err" e') .ret))

/-- templates/grpc_validate:23-35. -/
def grpcValidate (G : GoTypes) (base : Val) (m : Method) : Stm :=
  .seq (validateParams G m grpcInvalid m.pnames) (m.passTo base)

/-- templates/grpc_validate:9-37: only methods that return an error are declared. -/
def grpcValidateDecorator (G : GoTypes) (iface : Str) (base : Val) : Decorator :=
  ⟨[iface], true, base, fun m => if m.returnsError then some (grpcValidate G base m) else none⟩

/-- templates/twirp_validate:27-28. -/
def twirpInvalid : Stm :=
  .global g!"twirp" (.get g!"err" fun e => .lib1 g!"Error" [e] fun msg =>
    .lib1 g!"twirp.NewError" [.str g!"InvalidArgument", msg] fun e' => .seq (.assign g!"err" e') .ret)

/-- templates/twirp_validate:21-35. -/
def twirpValidate (G : GoTypes) (base : Val) (m : Method) : Stm :=
  .seq (if m.returnsError then validateParams G m twirpInvalid m.pnames else .skip) (m.passTo base)

/-- templates/twirp_validate:8-36. -/
def twirpValidateDecorator (G : GoTypes) (iface : Str) (base : Val) : Decorator :=
  ⟨[iface], true, base, fun m => some (twirpValidate G base m)⟩

/-- `injectRequestDataToError`, templates/twirp_error:33-44; `perr` points to the variable `err`.  It is
a function of its own, so package names cannot be hidden by the parameters of the method. -/
def injectRequest (G : GoTypes) (req : Val) : Stm :=
  .get g!"err" fun err =>
    .ite err.isNil .skip
      (let withMeta := fun twerr => .lib2 g!"json.Marshal" [req] fun jsonReq _ =>
        .lib1 g!"twirp.WithMeta" [twerr, .str g!"request", jsonReq] fun e => .assign g!"err" e
      .ite (G.twirpError err) (withMeta err) (.lib1 g!"twirp.InternalErrorWith" [err] withMeta))

/-- templates/twirp_error:23-29: one deferred call per parameter, then the call. -/
def twirpDefers (G : GoTypes) (m : Method) (rest : Stm) : List Str → Stm
  | [] => rest
  | p :: ps =>
    if notContext m p then .global g!"injectRequestDataToError" (.get p fun v =>
      .deferring (injectRequest G v) (twirpDefers G m rest ps))
    else twirpDefers G m rest ps

/-- templates/twirp_error:21-30. -/
def twirpError (G : GoTypes) (base : Val) (m : Method) : Stm :=
  twirpDefers G m (m.passTo base) (if m.returnsError then m.pnames else [])

/-- templates/twirp_error:8-31. -/
def twirpErrorDecorator (G : GoTypes) (iface : Str) (base : Val) : Decorator :=
  ⟨[iface], true, base, fun m => some (twirpError G base m)⟩

/-- templates/timeout:31-38; `timeout` is the field `{{$method.Name}}Timeout` of the configuration. -/
def timeout (base : Val) (timeout : Int) (m : Method) : Stm :=
  .seq (.declare g!"cancelFunc" .nil)
    (if timeout > 0 then
      .global g!"context" (.get g!"ctx" fun ctx => .lib2 g!"context.WithTimeout" [ctx, .int timeout]
        fun ctx' cancel => .seq (.assign g!"ctx" ctx') (.seq (.assign g!"cancelFunc" cancel)
          (.get g!"cancelFunc" fun cancel => .deferring (.lib0 g!"cancel" [cancel]) (m.passTo base))))
    else m.passTo base)

/-- templates/timeout:9-40: only methods that accept a context are declared. -/
def timeoutDecorator (iface : Str) (base : Val) (config : Str → Int) : Decorator :=
  ⟨[iface, g!"config"], true, base,
    fun m => if m.acceptsContext then some (timeout base (config m.name) m) else none⟩

end Gowrap.Tmpl
