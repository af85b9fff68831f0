import Verif.Spec.Value

/-! # Specification: types that got additional enum cases

Uses only the syntax of types. -/

namespace Verif.Spec

open Verif

/-- The second type is the first one with cases added at the end of some of its enums, at any depth.  The labels of the
added cases are new. -/
inductive Grown : Ty → Ty → Prop
  | unit : Grown .unit .unit
  | prim (p : Prim) : Grown (.prim p) (.prim p)
  | string : Grown .string .string
  | tuple {cs ds : List Ty} : cs.length = ds.length →
      (∀ (i : Nat) (c d : Ty), cs[i]? = some c → ds[i]? = some d → Grown c d) →
      Grown (.tuple cs) (.tuple ds)
  | struct {fs gs : List (Str × Ty)} : fs.map (·.1) = gs.map (·.1) →
      (∀ (i : Nat) (f g : Str × Ty), fs[i]? = some f → gs[i]? = some g → Grown f.2 g.2) →
      Grown (.struct fs) (.struct gs)
  | enum {cs ds : List (Str × Ty)} : cs.map (·.1) <+: ds.map (·.1) →
      (∀ (i : Nat) (c d : Str × Ty), cs[i]? = some c → ds[i]? = some d → Grown c.2 d.2) →
      (∀ (i j : Nat) (c d : Str × Ty), cs[i]? = some c → cs.length ≤ j → ds[j]? = some d → d.1 ≠ c.1) →
      Grown (.enum cs) (.enum ds)

end Verif.Spec
