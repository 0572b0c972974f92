import Verif.Model.Generator
import Verif.Model.TextTemplate
/-!
# Model of the data that `Generate` passes to the body template
-/

namespace Gowrap

open Tmpl

/-- The `TemplateInputs` of `Generate`, generator/generator.go:315-327.  `g.Options` are the options given to `NewGenerator`, except
that `Imports` has been extended (generator/generator.go:221, 250). -/
def Generator.inputs (g : Generator) (o : Options) (vars : Str → Option VarValue) : Inputs where
  name := o.interfaceName
  type := g.interfaceType
  genericTypes := g.genericTypes
  genericParams := g.genericParams
  methods := g.methods
  vars := vars
  imports := g.imports

end Gowrap
