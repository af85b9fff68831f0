import Verif.Spec.Value

/-! # Specification: two data sources with the same answers -/

namespace Verif.Spec

/-- Every answer of the first source is also the answer of the second. -/
structure Prolongs (s s' : DataSource) : Prop where
  prim : ∀ k q v, s.prim k q = .ok v → s'.prim k q = .ok v
  tag : ∀ q i, s.tag q = .ok i → s'.tag q = .ok i
  length : ∀ q n, s.length q = .ok n → s'.length q = .ok n
  bytes : ∀ q bs, s.bytes q = .ok bs → s'.bytes q = .ok bs

/-- The questions for a part of type `u` at path `q` have the same outcome. -/
def SameAnswers (s s' : DataSource) (q : Path) : Ty → Prop
  | .prim k => s.prim k q = s'.prim k q
  | .string => s.length q = s'.length q ∧ s.bytes q = s'.bytes q
  | .enum _ => s.tag q = s'.tag q
  | _ => True

end Verif.Spec
