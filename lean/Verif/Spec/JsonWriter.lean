import Verif.Model.JsonDecoder

/-!
# Byte strings without escapes

Written independently of the encoder.
-/

namespace Verif.Spec
open Verif.Json

/-- Neither a backslash nor anything outside of ASCII. -/
def Slim (bs : Bytes) : Prop := ∀ b ∈ bs, b < 128 ∧ b ≠ 92

/-- Numbers are written without backslashes and within ASCII, as Rust does. -/
def SlimFloats (F : FloatText) : Prop :=
  (∀ v, ∀ c ∈ F.show32 v, c.toNat < 128 ∧ c.toNat ≠ 92) ∧ (∀ v, ∀ c ∈ F.show64 v, c.toNat < 128 ∧ c.toNat ≠ 92)

end Verif.Spec
