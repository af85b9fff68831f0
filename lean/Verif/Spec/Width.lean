import Verif.Spec.Value

/-! # Specification: the widest word in the encoding of a type

Uses only the syntax of types. -/

namespace Verif.Spec

open Verif

/-- Bytes of the smallest machine word that can hold a tag for `n` cases. -/
def tagWord (n : Nat) : Nat := if n ≤ 2 ^ 8 then 1 else if n ≤ 2 ^ 16 then 2 else if n ≤ 2 ^ 32 then 4 else 8

mutual
/-- Bytes of the widest machine word among the numbers, lengths of strings and tags of a type, in all its cases. -/
def widest : Ty → Nat
  | .unit => 1
  | .prim p => p.size
  | .string => 4
  | .tuple cs => widestL cs
  | .struct fs => widestF fs
  | .enum cs => max (tagWord cs.length) (widestF cs)
def widestL : List Ty → Nat
  | [] => 1
  | c :: cs => max (widest c) (widestL cs)
def widestF : List (Str × Ty) → Nat
  | [] => 1
  | f :: fs => max (widestP f) (widestF fs)
def widestP : Str × Ty → Nat
  | (_, t) => widest t
end

/-- The second type is the first one with cases added at the end of some of its enums, at any depth.  An enum with
added cases needs as many bits for its tag as before, and no added case has a wider word than all the cases before.
Labels do not matter. -/
inductive Roomy : Ty → Ty → Prop
  | unit : Roomy .unit .unit
  | prim (p : Prim) : Roomy (.prim p) (.prim p)
  | string : Roomy .string .string
  | tuple {cs ds : List Ty} : cs.length = ds.length →
      (∀ (i : Nat) (c d : Ty), cs[i]? = some c → ds[i]? = some d → Roomy c d) →
      Roomy (.tuple cs) (.tuple ds)
  | struct {fs gs : List (Str × Ty)} : fs.length = gs.length →
      (∀ (i : Nat) (f g : Str × Ty), fs[i]? = some f → gs[i]? = some g → Roomy f.2 g.2) →
      Roomy (.struct fs) (.struct gs)
  | enum {cs ds : List (Str × Ty)} : cs.length ≤ ds.length → (∀ k, cs.length ≤ 2 ^ k → ds.length ≤ 2 ^ k) →
      (∀ (i : Nat) (c d : Str × Ty), cs[i]? = some c → ds[i]? = some d → Roomy c.2 d.2) →
      (∀ (j : Nat) (d : Str × Ty), cs.length ≤ j → ds[j]? = some d → ∃ c ∈ cs, widest d.2 ≤ widest c.2) →
      Roomy (.enum cs) (.enum ds)

end Verif.Spec
