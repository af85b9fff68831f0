import Verif.Spec.Value

/-! # Specification: values of the same form -/

namespace Verif.Spec

open Verif

/-- The values differ in numbers and in the letters of strings only: strings are as long, enums have the same
case. -/
inductive SameForm : Val → Val → Prop
  | unit : SameForm .unit .unit
  | prim (v v' : PrimVal) : SameForm (.prim v) (.prim v')
  | str {bs bs' : Bytes} : bs.length = bs'.length → SameForm (.str bs) (.str bs')
  | nil : SameForm (.seq []) (.seq [])
  | cons {v v' : Val} {vs vs' : List Val} : SameForm v v' → SameForm (.seq vs) (.seq vs') →
      SameForm (.seq (v :: vs)) (.seq (v' :: vs'))
  | case {i : Nat} {v v' : Val} : SameForm v v' → SameForm (.case i v) (.case i v')

end Verif.Spec
