import Verif.Model.JsonFill

/-!
# Vocabulary for the data source after a failed parse
-/

namespace Verif.Spec

/-- The entries of a data source, by path. -/
def entries (d : IntermediateDataSource) : Path → Option Value := fun p => mapGet Path.cmp p d

/-- The entries are part of a value of the type: nothing, a leaf, or parts of the components; for an enum there is a
case, with parts of its value and nothing of the other cases. -/
inductive PartOf : Ty → (Path → Option Value) → Prop
  | nothing {t : Ty} {g : Path → Option Value} : (∀ r, g r = none) → PartOf t g
  | prim {v : PrimVal} {g : Path → Option Value} : g [] = some (.prim v) → (∀ i r, g (i :: r) = none) →
      PartOf (.prim v.kind) g
  | string {s : Str} {g : Path → Option Value} : g [] = some (.string s) → (∀ i r, g (i :: r) = none) →
      PartOf .string g
  | tuple {cs : List Ty} {g : Path → Option Value} : g [] = none → (∀ i r, cs.length ≤ i → g (i :: r) = none) →
      (∀ (i : Nat) (c : Ty), cs[i]? = some c → PartOf c (fun r => g (i :: r))) → PartOf (.tuple cs) g
  | struct {fs : List (Str × Ty)} {g : Path → Option Value} : g [] = none →
      (∀ i r, fs.length ≤ i → g (i :: r) = none) →
      (∀ (i : Nat) (l : Str) (c : Ty), fs[i]? = some (l, c) → PartOf c (fun r => g (i :: r))) → PartOf (.struct fs) g
  | enum {cs : List (Str × Ty)} {g : Path → Option Value} {i : Nat} {l : Str} {c : Ty} : g [] = some (.tag i) →
      cs[i]? = some (l, c) → PartOf c (fun r => g (i :: r)) → (∀ j r, j ≠ i → g (j :: r) = none) →
      PartOf (.enum cs) g

end Verif.Spec
