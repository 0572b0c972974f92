import Verif.Model.Header
import Verif.Model.Utf8
import Verif.Model.Main
/-!
# Model of the gen command as a whole

`Sys` leaves loading packages, `NewGenerator` and the execution of the two templates open.  Here these parts are the modelled functions.
-/

namespace Gowrap

open Tmpl

/-- The bytes of a text: files and Go strings are encoded in UTF-8. -/
def utf8 (s : Str) : Bytes := s.flatMap fun c => encodeRune c.toNat

/-- The text that bytes are the encoding of, if any; `n` bounds the number of characters. -/
def textOf : Nat → Bytes → Option Str
  | _, [] => some []
  | 0, _ :: _ => none
  | n + 1, b :: bs =>
    let r := decodeRune (b :: bs)
    let e := encodeRune r
    if e = (b :: bs).take e.length then (textOf n ((b :: bs).drop e.length)).map (Char.ofNat r :: ·) else none

/-- `NewGenerator` for the options of the command, cmd_generate.go:85. -/
def World.newGenerator (w : World) (sched : Sched) (fuel : Nat) (o : GenOptions) : Res Generator :=
  Gowrap.newGenerator w sched fuel (o.forGenerator o.source)

/-- `pkg.Load` as called in cmd_generate.go:149-152.  (It does not panic, see Model/Package.lean.) -/
def World.loadPackage (w : World) (path : Str) : Except CErr (PkgId × Str) :=
  match w.load path with
  | .ok p => .ok (p, (w.pkg p).path)
  | _ => .error (.external 0)

/-- The header, generator/generator.go:305-313. -/
def World.header (w : World) (g : Generator) (o : GenOptions) : Option Bytes := (renderHeader w.uni (g.header w o)).map utf8

/-- The body, generator/generator.go:315-330; `none` if executing the template fails or the template uses features of text/template that
Model/TextTemplate.lean does not cover. -/
def World.body (w : World) (g : Generator) (o : GenOptions) : Option Bytes := do
  let template ← textOf o.bodyTemplate.length o.bodyTemplate
  let t ← render w.uni template (g.inputs (o.forGenerator o.source) o.vars)
  return utf8 t

/-- A modelled step, or else the oracle. -/
def orElse {α : Type} (g : Res Generator) (step : Generator → Option α) (oracle : Except CErr α) : Except CErr α :=
  match g with
  | .ok g =>
    match step g with
    | some a => .ok a
    | none => oracle
  | _ => oracle

/-- The system in which packages are those of a world.  `NewGenerator` is called once (cmd_generate.go:85), so the header and the body are
generated with the same iteration orders. -/
def World.sys (w : World) (sched : Sched) (fuel : Nat) (s : Sys) : Sys := { s with
  loadPackage := fun _ path => w.loadPackage path
  newGenerator := fun _ o => do
    let _ ← w.newGenerator sched fuel o
    return ()
  header := fun h o => orElse (w.newGenerator sched fuel o) (fun g => w.header g o) (s.header h o)
  body := fun h o => orElse (w.newGenerator sched fuel o) (fun g => w.body g o) (s.body h o) }

end Gowrap
