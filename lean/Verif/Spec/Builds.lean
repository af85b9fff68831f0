import Verif.Model.Basic
import Verif.Model.DataSource

/-!
# Two builds of the same function

The functions of the model have a parameter `chk`: overflow checks are on (debug profile) or off (release
profile).
-/

namespace Verif.Spec

open Verif

/-- What a function does with overflow checks, compared with what it does without them: it panics, or both do the
same, be it a result, a panic or undefined behaviour.  `p` is the panic. -/
def Agrees {ε α : Type} (p : ε) (checked unchecked : Except ε α) : Prop :=
  checked = .error p ∨ checked = unchecked

/-- Two data sources that answer every question alike, or the first with a panic. -/
structure SourcesAgree (checked unchecked : DataSource) : Prop where
  prim : ∀ p path, Agrees .panic (checked.prim p path) (unchecked.prim p path)
  tag : ∀ path, Agrees .panic (checked.tag path) (unchecked.tag path)
  length : ∀ path, Agrees .panic (checked.length path) (unchecked.length path)
  bytes : ∀ path, Agrees .panic (checked.bytes path) (unchecked.bytes path)

end Verif.Spec
