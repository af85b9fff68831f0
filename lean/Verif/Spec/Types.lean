import Verif.Model.Types

/-! # Specification of qualified names: following labels from the root of a type

Uses only the type syntax of the model, none of its functions. -/

namespace Verif.Spec

open Verif

/-- `s` is a decimal numeral (possibly with a leading plus sign) for `n`. -/
def Numeral (s : Str) (n : Nat) : Prop :=
  ∃ ds : List Nat, ds ≠ [] ∧ (∀ d ∈ ds, d < 10) ∧
    (s = ds.map (fun d => Char.ofNat (48 + d)) ∨ s = '+' :: ds.map (fun d => Char.ofNat (48 + d))) ∧
    n = ds.foldl (fun acc d => acc * 10 + d) 0

/-- Position of the first entry with the given label. -/
def FirstAt (label : Str) (fs : List (Str × Ty)) (i : Nat) (t : Ty) : Prop :=
  fs[i]? = some (label, t) ∧ ∀ j u, j < i → fs[j]? ≠ some (label, u)

/-- Following the pieces of a name from `t` goes through the child positions `p` and ends in `u`. -/
inductive Walk : Ty → List Str → Path → Ty → Prop
  | here (t : Ty) : Walk t [] [] t
  | case {cs l i c ls p u} : FirstAt l cs i c → Walk c ls p u → Walk (.enum cs) (l :: ls) (i :: p) u
  | field {fs l i c ls p u} : FirstAt l fs i c → Walk c ls p u → Walk (.struct fs) (l :: ls) (i :: p) u
  | component {cs : List Ty} {l i c ls p u} : Numeral l i → cs[i]? = some c → Walk c ls p u →
      Walk (.tuple cs) (l :: ls) (i :: p) u

/-- `pieces` are the parts of `name` between dots. -/
def Pieces (name : Str) (pieces : List Str) : Prop :=
  pieces ≠ [] ∧ (∀ s ∈ pieces, '.' ∉ s) ∧ name = List.intercalate ['.'] pieces

/-- Position `p` exists in `t` and holds `u`. -/
inductive Child : Ty → Path → Ty → Prop
  | here (t : Ty) : Child t [] t
  | case {cs : List (Str × Ty)} {l i c p u} : cs[i]? = some (l, c) → Child c p u → Child (.enum cs) (i :: p) u
  | field {fs : List (Str × Ty)} {l i c p u} : fs[i]? = some (l, c) → Child c p u → Child (.struct fs) (i :: p) u
  | component {cs : List Ty} {i c p u} : cs[i]? = some c → Child c p u → Child (.tuple cs) (i :: p) u

/-- Labels are distinct within each struct and enum and contain no dot, and tuples are not longer than
any machine integer, at every node on every path. -/
def GoodLabels (t : Ty) : Prop :=
  ∀ p u, Child t p u → match u with
    | .struct fs => (fs.map (·.1)).Nodup ∧ ∀ f ∈ fs, '.' ∉ f.1
    | .enum cs => (cs.map (·.1)).Nodup ∧ ∀ c ∈ cs, '.' ∉ c.1
    | .tuple cs => cs.length < 2 ^ 64
    | _ => True

end Verif.Spec
