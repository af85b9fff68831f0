import Verif.Model.Marshaller
import Verif.Spec.Value

/-! # Specification: places in a layout -/

namespace Verif.Spec

open Verif

/-- `m` is `l` or the layout of an enum case somewhere inside `l`. -/
inductive Nested : Layout → Layout → Prop
  | self (l : Layout) : Nested l l
  | case {l c m : Layout} {p : Path} {fi : Nat} {cs : List Layout} :
      VarField.enum p fi cs ∈ l.vars → c ∈ cs → Nested c m → Nested l m

/-- The field uses bit number `i` of the encoding. -/
def UsesBit (f : FixedField) (i : Nat) : Prop :=
  match f.kind with
  | .prim p => 8 * f.offset ≤ i ∧ i < 8 * (f.offset + p.size)
  | .length => 8 * f.offset ≤ i ∧ i < 8 * (f.offset + 4)
  | .bitfield _ o n => 8 * f.offset + o ≤ i ∧ i < 8 * f.offset + o + n
  | .container .. => False

/-- The field is read and written through a machine word that contains byte number `i`. -/
def TouchesByte (f : FixedField) (i : Nat) : Prop :=
  match f.kind with
  | .prim p => f.offset ≤ i ∧ i < f.offset + p.size
  | .length => f.offset ≤ i ∧ i < f.offset + 4
  | .bitfield p _ _ => f.offset ≤ i ∧ i < f.offset + p.size
  | .container .. => False

/-- Both fields are tags inside the same container. -/
def ShareContainer (f g : FixedField) : Prop :=
  f.offset = g.offset ∧ ∃ p a m b n, f.kind = .bitfield p a m ∧ g.kind = .bitfield p b n

/-- Size of the machine word a field is accessed through. -/
def wordSize (f : FixedField) : Nat :=
  match f.kind with
  | .prim p => p.size
  | .length => 4
  | .bitfield p _ _ => p.size
  | .container _ p => p.size

/-- `m` is `l` or the layout of an enum case inside `l` that a value with these leaves has chosen. -/
inductive Chosen (ls : List (Path × Leaf)) : Layout → Layout → Prop
  | self (l : Layout) : Chosen ls l l
  | case {l c m : Layout} {p : Path} {fi i : Nat} {cs : List Layout} :
      VarField.enum p fi cs ∈ l.vars → (p, .tag i) ∈ ls → cs[i]? = some c → Chosen ls c m → Chosen ls l m

/-- If the field is a tag, it does not fill its machine word; in a build with overflow checks (`chk`) it
also does not start at the end of the word (as a tag without bits does if the word is full). -/
def HasRoom (chk : Bool) (f : FixedField) : Prop :=
  ∀ p o n, f.kind = .bitfield p o n → n < 8 * p.size ∧ (chk = true → o < 8 * p.size)

/-- Every tag of the value with these leaves has room. -/
def TagsHaveRoom (chk : Bool) (ls : List (Path × Leaf)) (l : Layout) : Prop :=
  ∀ m, Chosen ls l m → ∀ f ∈ m.fixed, HasRoom chk f

/-- The numbers of cases whose tag is stored faithfully at every place: those needing a number of bits different from
8, 16, 32 and 64; a build with overflow checks (`chk`) also needs two cases. -/
def TagFits (chk : Bool) (n : Nat) : Prop :=
  (n ≤ 128 ∨ (256 < n ∧ n ≤ 2 ^ 15) ∨ (2 ^ 16 < n ∧ n ≤ 2 ^ 31) ∨
    (2 ^ 32 < n ∧ n ≤ 2 ^ 63)) ∧ (chk = true → 2 ≤ n)

/-- A type and value within the limits of the format: fewer than 2^59 nodes in the type, strings
shorter than 2^32 bytes, less than 2^63 bytes in total. -/
structure Fits (chk : Bool) (t : Ty) (v : Val) : Prop where
  inhab : Inhab t
  nodes : nodes t < 2 ^ 59
  tags : ∀ l, Layout.new chk t = .ok l → TagsHaveRoom chk (leaves v []) l
  typed : Typed t v
  strings : ∀ q bs, (q, Leaf.str bs) ∈ leaves v [] → bs.length < 2 ^ 32
  total : weight v < 2 ^ 63

/-- Distance of the field stored at path `q` from the start of the encoding. -/
def placeOf (chk : Bool) (l : Layout) (data : Bytes) (q : Path) : Res Nat := do
  let w ← l.locate chk q data
  let f ← getAt w.layout.fixed w.index.fixedIdx
  pure (data.length - w.data.length + f.offset)

/-- Whenever two enums are stored one after the other, no case of the later one has a larger alignment than a case of
the earlier one. -/
def Descending (l : Layout) : Prop :=
  ∀ m, Nested l m → m.vars.Pairwise fun v w => ∀ p fi cs q gi ds, v = .enum p fi cs → w = .enum q gi ds →
    ∀ c ∈ cs, ∀ d ∈ ds, d.alignment ≤ c.alignment

/-- The types differ only in labels. -/
inductive Relabelled : Ty → Ty → Prop
  | unit : Relabelled .unit .unit
  | prim (p : Prim) : Relabelled (.prim p) (.prim p)
  | string : Relabelled .string .string
  | tuple {cs ds : List Ty} : cs.length = ds.length →
      (∀ (i : Nat) (c d : Ty), cs[i]? = some c → ds[i]? = some d → Relabelled c d) →
      Relabelled (.tuple cs) (.tuple ds)
  | struct {cs ds : List (Str × Ty)} : cs.length = ds.length →
      (∀ (i : Nat) (c d : Str × Ty), cs[i]? = some c → ds[i]? = some d → Relabelled c.2 d.2) →
      Relabelled (.struct cs) (.struct ds)
  | enum {cs ds : List (Str × Ty)} : cs.length = ds.length →
      (∀ (i : Nat) (c d : Str × Ty), cs[i]? = some c → ds[i]? = some d → Relabelled c.2 d.2) →
      Relabelled (.enum cs) (.enum ds)

end Verif.Spec
