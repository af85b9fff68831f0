import Verif.Model.DataSource

/-! # Specification: values of a type and their leaves

A value is a tree.  Its leaves are what a data source is asked for: one primitive, string or case tag
per path; only the active case of an enum has leaves. -/

namespace Verif.Spec

open Verif

/-- A value; strings are their bytes. -/
inductive Val where
  | unit
  | prim (v : PrimVal)
  | str (bs : Bytes)
  | seq (vs : List Val)
  | case (i : Nat) (v : Val)

/-- `v` is a value of type `t`. -/
inductive Typed : Ty → Val → Prop
  | unit : Typed .unit .unit
  | prim (v : PrimVal) : Typed (.prim v.kind) (.prim v)
  | str (bs : Bytes) : Typed .string (.str bs)
  | tuple {cs : List Ty} {vs : List Val} : vs.length = cs.length →
      (∀ (i : Nat) (c : Ty) (v : Val), cs[i]? = some c → vs[i]? = some v → Typed c v) →
      Typed (.tuple cs) (.seq vs)
  | struct {fs : List (Str × Ty)} {vs : List Val} : vs.length = fs.length →
      (∀ (i : Nat) (f : Str × Ty) (v : Val), fs[i]? = some f → vs[i]? = some v → Typed f.2 v) →
      Typed (.struct fs) (.seq vs)
  | enum {cs : List (Str × Ty)} {i : Nat} {c : Str × Ty} {v : Val} : cs[i]? = some c → Typed c.2 v →
      Typed (.enum cs) (.case i v)

/-- What is stored at one path. -/
inductive Leaf where
  | prim (v : PrimVal)
  | str (bs : Bytes)
  | tag (i : Nat)
  deriving DecidableEq

mutual
/-- The leaves of a value located at path `p`. -/
def leaves : Val → Path → List (Path × Leaf)
  | .unit, _ => []
  | .prim v, p => [(p, .prim v)]
  | .str bs, p => [(p, .str bs)]
  | .seq vs, p => leavesFrom vs p 0
  | .case i v, p => (p, .tag i) :: leaves v (p ++ [i])
/-- The leaves of components number `i`, `i + 1`, ... -/
def leavesFrom : List Val → Path → Nat → List (Path × Leaf)
  | [], _, _ => []
  | v :: vs, p, i => leaves v (p ++ [i]) ++ leavesFrom vs p (i + 1)
end

/-- The data source answers the questions for one leaf. -/
def Answers (src : DataSource) (p : Path) : Leaf → Prop
  | .prim v => src.prim v.kind p = .ok v.val
  | .str bs => src.length p = .ok bs.length ∧ src.bytes p = .ok bs
  | .tag i => src.tag p = .ok i

/-- The data source presents the value `v`. -/
def Presents (src : DataSource) (v : Val) (p : Path) : Prop :=
  ∀ q l, (q, l) ∈ leaves v p → Answers src q l

/-- The answers of a data source are no undefined behaviour. -/
structure Tame (src : DataSource) : Prop where
  prim : ∀ p q, src.prim p q ≠ .error .ub
  tag : ∀ q, src.tag q ≠ .error .ub
  length : ∀ q, src.length q ≠ .error .ub
  bytes : ∀ q, src.bytes q ≠ .error .ub

/-- `q` is the path of a part of type `u` of what the source presents as a `t` at path `p`; of an enum only
the case whose tag the source gives is a part. -/
inductive Part (src : DataSource) : Ty → Path → Path → Ty → Prop
  | here (t : Ty) (p : Path) : Part src t p p t
  | tuple {cs : List Ty} {i : Nat} {c u : Ty} {p q : Path} : cs[i]? = some c → Part src c (p ++ [i]) q u →
      Part src (.tuple cs) p q u
  | struct {fs : List (Str × Ty)} {i : Nat} {f : Str × Ty} {u : Ty} {p q : Path} : fs[i]? = some f →
      Part src f.2 (p ++ [i]) q u → Part src (.struct fs) p q u
  | enum {cs : List (Str × Ty)} {i : Nat} {c : Str × Ty} {u : Ty} {p q : Path} : src.tag p = .ok i →
      cs[i]? = some c → Part src c.2 (p ++ [i]) q u → Part src (.enum cs) p q u

/-- The source answers the questions for a part of type `u` at path `q`. -/
def Readable (src : DataSource) (q : Path) : Ty → Prop
  | .prim k => ∃ v, src.prim k q = .ok v
  | .string => ∃ bs, src.length q = .ok bs.length ∧ src.bytes q = .ok bs
  | .enum cs => ∃ i, i < cs.length ∧ src.tag q = .ok i
  | _ => True

/-- Tuples, structs and enums of the type are non-empty. -/
inductive Inhab : Ty → Prop
  | unit : Inhab .unit
  | prim (p : Prim) : Inhab (.prim p)
  | string : Inhab .string
  | tuple {cs : List Ty} : cs ≠ [] → (∀ c ∈ cs, Inhab c) → Inhab (.tuple cs)
  | struct {fs : List (Str × Ty)} : fs ≠ [] → (∀ f ∈ fs, Inhab f.2) → Inhab (.struct fs)
  | enum {cs : List (Str × Ty)} : cs ≠ [] → (∀ c ∈ cs, Inhab c.2) → Inhab (.enum cs)

/-- Each enum inside the type satisfies `P` of its number of cases. -/
inductive AllEnums (P : Nat → Prop) : Ty → Prop
  | unit : AllEnums P .unit
  | prim (p : Prim) : AllEnums P (.prim p)
  | string : AllEnums P .string
  | tuple {cs : List Ty} : (∀ c ∈ cs, AllEnums P c) → AllEnums P (.tuple cs)
  | struct {fs : List (Str × Ty)} : (∀ f ∈ fs, AllEnums P f.2) → AllEnums P (.struct fs)
  | enum {cs : List (Str × Ty)} : P cs.length → (∀ c ∈ cs, AllEnums P c.2) → AllEnums P (.enum cs)

/-- Number of nodes of a type. -/
def nodes : Ty → Nat
  | .unit => 1
  | .prim _ => 1
  | .string => 1
  | .tuple cs => 1 + nodesL cs
  | .struct fs => 1 + nodesF fs
  | .enum cs => 1 + nodesF cs
where
  nodesL : List Ty → Nat
    | [] => 0
    | c :: cs => nodes c + nodesL cs
  nodesF : List (Str × Ty) → Nat
    | [] => 0
    | f :: fs => nodesP f + nodesF fs
  nodesP : Str × Ty → Nat
    | (_, t) => nodes t

/-- A generous bound for the memory a value needs: 64 bytes per leaf, and the string bytes. -/
def weight (v : Val) : Nat :=
  64 + ((leaves v []).map fun l => match l.2 with
    | .str bs => 64 + bs.length
    | _ => 64).sum

end Verif.Spec
