import Verif.Model.SqlTyping

/-! # Specification: the common type of two types -/

namespace Verif.Sql

/-- `t` is the common type of `l` and `r`: the same data type, NULL if one of them may be NULL; tuples of the same
length component by component. -/
inductive Unifies : ScalarType → ScalarType → ScalarType → Prop
  | scalar (typ : DataType) (a b : Bool) : Unifies (.scalar typ a) (.scalar typ b) (.scalar typ (a || b))
  | tuple {ls rs ts : List ScalarType} : ls.length = rs.length → ts.length = ls.length →
      (∀ (i : Nat) (l r t : ScalarType), ls[i]? = some l → rs[i]? = some r → ts[i]? = some t → Unifies l r t) →
      Unifies (.tuple ls) (.tuple rs) (.tuple ts)

end Verif.Sql
