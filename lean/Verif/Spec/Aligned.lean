import Verif.Model.Types

/-! # Types in which no two enums are stored one after the other -/

namespace Verif.Spec

mutual
/-- The number of enums in a value of the type that are not inside the case of another. -/
def enumsIn : Ty → Nat
  | .unit => 0
  | .prim _ => 0
  | .string => 0
  | .tuple cs => enumsInL cs
  | .struct fs => enumsInF fs
  | .enum _ => 1
def enumsInL : List Ty → Nat
  | [] => 0
  | c :: cs => enumsIn c + enumsInL cs
def enumsInF : List (Str × Ty) → Nat
  | [] => 0
  | f :: fs => enumsInP f + enumsInF fs
def enumsInP : Str × Ty → Nat
  | (_, t) => enumsIn t
end

mutual
/-- No case of an enum in the type holds two enums. -/
def calm : Ty → Bool
  | .unit => true
  | .prim _ => true
  | .string => true
  | .tuple cs => calmL cs
  | .struct fs => calmF fs
  | .enum cs => calmC cs
def calmL : List Ty → Bool
  | [] => true
  | c :: cs => calm c && calmL cs
def calmF : List (Str × Ty) → Bool
  | [] => true
  | f :: fs => calmP f && calmF fs
def calmC : List (Str × Ty) → Bool
  | [] => true
  | f :: fs => calmP f && decide (enumsIn f.2 ≤ 1) && calmC fs
def calmP : Str × Ty → Bool
  | (_, t) => calm t
end

/-- Neither a value of the type nor a case of an enum in it holds two enums. -/
def LoneEnums (t : Ty) : Prop := enumsIn t ≤ 1 ∧ calm t = true

end Verif.Spec
