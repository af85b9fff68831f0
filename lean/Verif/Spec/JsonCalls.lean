import Verif.Spec.Json

/-!
# The size of the documents of a type

How many values a document of a type has at most, how deep they are nested, and how many tokens it has; and the same
for a value.
-/

namespace Verif.Spec

open Verif Json

mutual
/-- How deep the documents of the type are nested. -/
def typeDepth : Ty → Nat
  | .unit | .prim _ | .string => 1
  | .tuple cs => typeDepthL cs + 1
  | .struct fs => typeDepthF fs + 1
  | .enum cs => typeDepthF cs + 1
/-- The deepest component. -/
def typeDepthL : List Ty → Nat
  | [] => 0
  | c :: cs => max (typeDepth c) (typeDepthL cs)
/-- The deepest field or case. -/
def typeDepthF : List (Str × Ty) → Nat
  | [] => 0
  | (_, t) :: fs => max (typeDepth t) (typeDepthF fs)
end

mutual
/-- How many values there are at most in a document of the type, with itself. -/
def typeValues : Ty → Nat
  | .unit | .prim _ | .string => 1
  | .tuple cs => typeValuesL cs + 1
  | .struct fs => typeValuesF fs + 1
  | .enum cs => typeValuesE cs + 1
/-- The values of all components. -/
def typeValuesL : List Ty → Nat
  | [] => 0
  | c :: cs => typeValues c + typeValuesL cs
/-- The values of all fields. -/
def typeValuesF : List (Str × Ty) → Nat
  | [] => 0
  | (_, t) :: fs => typeValues t + typeValuesF fs
/-- The values of the largest case. -/
def typeValuesE : List (Str × Ty) → Nat
  | [] => 0
  | (_, t) :: cs => max (typeValues t) (typeValuesE cs)
end

mutual
/-- How many tokens a document of the type has at most. -/
def typeToks : Ty → Nat
  | .unit | .prim _ | .string => 1
  | .tuple cs => 1 + (typeToksL cs - 1) + 1
  | .struct fs => 1 + (typeToksF fs - 1) + 1
  | .enum cs => 7 + typeToksE cs + 1
/-- The tokens of all components, with a comma for each. -/
def typeToksL : List Ty → Nat
  | [] => 0
  | c :: cs => 1 + typeToks c + typeToksL cs
/-- The tokens of all fields, with a comma, a label and a colon for each. -/
def typeToksF : List (Str × Ty) → Nat
  | [] => 0
  | (_, t) :: fs => 3 + typeToks t + typeToksF fs
/-- The tokens of the largest case. -/
def typeToksE : List (Str × Ty) → Nat
  | [] => 0
  | (_, t) :: cs => max (typeToks t) (typeToksE cs)
end

mutual
/-- The number of values in a value, with itself. -/
def valSize : Val → Nat
  | .unit | .prim _ | .str _ => 1
  | .seq vs => valSizeL vs + 1
  | .case _ v => valSize v + 1
/-- The values in all of them. -/
def valSizeL : List Val → Nat
  | [] => 0
  | v :: vs => valSize v + valSizeL vs
end

mutual
/-- How deep the values in a value are nested. -/
def valDepth : Val → Nat
  | .unit | .prim _ | .str _ => 1
  | .seq vs => valDepthL vs + 1
  | .case _ v => valDepth v + 1
/-- The deepest of them. -/
def valDepthL : List Val → Nat
  | [] => 0
  | v :: vs => max (valDepth v) (valDepthL vs)
end

end Verif.Spec
