import Verif.Spec.Width
import Verif.Spec.Value

/-! # Specification: components in another order -/

namespace Verif.Spec

open Verif

/-- A component of a value before and after: its label and type, and its value. -/
structure Moved where
  label : Str
  ty : Ty
  val : Val
  label' : Str
  ty' : Ty
  val' : Val

/-- The second type and value are the first ones with the components of tuples, the fields of structs and the cases of
enums in another order, at any depth.  The cases of an enum that the value has not may be anything, as long as the enum
has as many cases as before and the same widest word.  Labels, numbers and the letters of strings do not matter. -/
inductive Shuffled : Ty → Val → Ty → Val → Prop
  | unit : Shuffled .unit .unit .unit .unit
  | prim (v v' : PrimVal) : v.kind = v'.kind → Shuffled (.prim v.kind) (.prim v) (.prim v'.kind) (.prim v')
  | str (bs bs' : Bytes) : bs.length = bs'.length → Shuffled .string (.str bs) .string (.str bs')
  | tuple {zs zs' : List Moved} : zs.Perm zs' → (∀ z ∈ zs, Shuffled z.ty z.val z.ty' z.val') →
      Shuffled (.tuple (zs.map (·.ty))) (.seq (zs.map (·.val)))
        (.tuple (zs'.map (·.ty'))) (.seq (zs'.map (·.val')))
  | struct {zs zs' : List Moved} : zs.Perm zs' → (∀ z ∈ zs, Shuffled z.ty z.val z.ty' z.val') →
      Shuffled (.struct (zs.map fun z => (z.label, z.ty))) (.seq (zs.map (·.val)))
        (.struct (zs'.map fun z => (z.label', z.ty'))) (.seq (zs'.map (·.val')))
  | enum {cs cs' : List (Str × Ty)} {i i' : Nat} {c c' : Str × Ty} {v v' : Val} : cs.length = cs'.length →
      cs[i]? = some c → cs'[i']? = some c' → widestF cs = widestF cs' → Shuffled c.2 v c'.2 v' →
      Shuffled (.enum cs) (.case i v) (.enum cs') (.case i' v')

end Verif.Spec
