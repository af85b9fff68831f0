import Verif.Spec.Layout

/-! # Specification: sizes and alignment of stored enums -/

namespace Verif.Spec

open Verif

mutual
/-- A value with this layout can take `n` bytes: `n` is the least multiple of the alignment that leaves room for the
fixed-size fields and the variable-size ones. -/
inductive Possible : Layout → Nat → Prop
  | mk {l : Layout} {s n : Nat} : PossibleVars l.vars s → l.alignment ∣ n → l.varOffset + s ≤ n →
      n < l.varOffset + s + l.alignment → Possible l n
/-- These variable-size fields can take `s` bytes: strings any number, enums that of one of their cases. -/
inductive PossibleVars : List VarField → Nat → Prop
  | nil : PossibleVars [] 0
  | string {p : Path} {fi : Nat} {vs : List VarField} {s : Nat} (n : Nat) : PossibleVars vs s →
      PossibleVars (.string p fi :: vs) (n + s)
  | enum {p : Path} {fi : Nat} {cs : List Layout} {c : Layout} {vs : List VarField} {n s : Nat} : c ∈ cs →
      Possible c n → PossibleVars vs s → PossibleVars (.enum p fi cs :: vs) (n + s)
end

/-- Whenever two enums are stored one after the other, every size of every case of the earlier one is a multiple of the
alignment of every case of the later one. -/
def Smooth (l : Layout) : Prop :=
  ∀ m, Nested l m → m.vars.Pairwise fun v w => ∀ p fi cs q gi ds, v = .enum p fi cs → w = .enum q gi ds →
    ∀ c ∈ cs, ∀ n, Possible c n → ∀ d ∈ ds, d.alignment ∣ n

end Verif.Spec
