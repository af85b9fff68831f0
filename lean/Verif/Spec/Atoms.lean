import Verif.Spec.Value

/-! # What a type is made of, without its grouping -/

namespace Verif.Spec

/-- A machine word, a text, or a choice between lists of them. -/
inductive Atom where
  | prim (p : Prim)
  | text
  | choice (cases : List (List Atom))

mutual
/-- The atoms of a type from left to right; tuples, structs, units and labels leave no trace. -/
def atoms : Ty → List Atom
  | .unit => []
  | .prim p => [.prim p]
  | .string => [.text]
  | .tuple cs => atomsL cs
  | .struct fs => atomsF fs
  | .enum cs => [.choice (atomsC cs)]
def atomsL : List Ty → List Atom
  | [] => []
  | c :: cs => atoms c ++ atomsL cs
def atomsF : List (Str × Ty) → List Atom
  | [] => []
  | f :: fs => atomsP f ++ atomsF fs
def atomsC : List (Str × Ty) → List (List Atom)
  | [] => []
  | c :: cs => atomsP c :: atomsC cs
def atomsP : Str × Ty → List Atom
  | (_, t) => atoms t
end

/-- The words, texts and case numbers of a value from left to right. -/
def contents (v : Val) : List Leaf := (leaves v []).map (·.2)

end Verif.Spec
