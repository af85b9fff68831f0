import Verif.Model.MarshallerCalls
import Verif.Spec.Value

/-!
# Specification: what the encoder asks for

Given by the value alone.  A layer is what lies outside the cases of enums; the layer of a case inside `k` enums is
written once and measured `k` times, once for each enum around it.
-/

namespace Verif.Spec

open Verif

mutual
/-- What measuring a value at path `p` asks for: the length of each string and the tag of each enum, once. -/
def measuring : Val → Path → List Visit
  | .unit, _ => []
  | .prim _, _ => []
  | .str _, p => [.ask p .length]
  | .seq vs, p => measuringFrom vs p 0
  | .case i v, p => .ask p .tag :: .measure :: measuring v (p ++ [i])
def measuringFrom : List Val → Path → Nat → List Visit
  | [], _, _ => []
  | v :: vs, p, i => measuring v (p ++ [i]) ++ measuringFrom vs p (i + 1)
end

mutual
/-- What encoding a value at path `p` inside `k` enums asks for: each number once; of each string the bytes once and
the length twice, and once more for each enum around it; the tag of each enum likewise. -/
def encoding : Nat → Val → Path → List Visit
  | _, .unit, _ => []
  | _, .prim v, p => [.ask p (.prim v.kind)]
  | k, .str _, p => .ask p .bytes :: List.replicate (2 + k) (.ask p .length)
  | k, .seq vs, p => encodingFrom k vs p 0
  | k, .case i v, p => List.replicate (2 + k) (.ask p .tag) ++ .encode :: List.replicate (1 + k) .measure ++
      encoding (k + 1) v (p ++ [i])
def encodingFrom : Nat → List Val → Path → Nat → List Visit
  | _, [], _, _ => []
  | k, v :: vs, p, i => encoding k v (p ++ [i]) ++ encodingFrom k vs p (i + 1)
end

mutual
/-- The number of enums of a value. -/
def caseCount : Val → Nat
  | .unit => 0
  | .prim _ => 0
  | .str _ => 0
  | .seq vs => caseCountL vs
  | .case _ v => 1 + caseCount v
def caseCountL : List Val → Nat
  | [] => 0
  | v :: vs => caseCount v + caseCountL vs
end

mutual
/-- How deep the enums of a value are nested. -/
def caseDepth : Val → Nat
  | .unit => 0
  | .prim _ => 0
  | .str _ => 0
  | .seq vs => caseDepthL vs
  | .case _ v => 1 + caseDepth v
def caseDepthL : List Val → Nat
  | [] => 0
  | v :: vs => max (caseDepth v) (caseDepthL vs)
end

mutual
/-- The number of pairs of an enum of the value and an enum around it, itself included, when `k` enums are around
the value. -/
def casePairs : Nat → Val → Nat
  | _, .unit => 0
  | _, .prim _ => 0
  | _, .str _ => 0
  | k, .seq vs => casePairsL k vs
  | k, .case _ v => 1 + k + casePairs (k + 1) v
def casePairsL : Nat → List Val → Nat
  | _, [] => 0
  | k, v :: vs => casePairs k v + casePairsL k vs
end

/-- The calls made so far are among `vs`; after success they are all of `vs`, in some order. -/
def AsksFor {α : Type} (x : Traced α) (vs : List Visit) : Prop :=
  ∃ rest, (x.visits ++ rest).Perm vs ∧ ∀ a, x.result = .ok a → rest = []

/-- The question is one for this leaf. -/
def Concerns : Ask → Leaf → Prop
  | .prim k, .prim v => v.kind = k
  | .tag, .tag _ => True
  | .length, .str _ => True
  | .bytes, .str _ => True
  | _, _ => False

end Verif.Spec
