import Verif.Model.Types

/-! # Model of `src/core/value.rs` and `src/core/data_source.rs` -/

namespace Verif

/-- The Rust type of the values of a primitive, `PrimitiveValue` in src/core/value.rs L25-41.
Integers are bit vectors of their width; `f32` and `f64` are their IEEE bit patterns. -/
def Prim.Val : Prim → Type
  | .bool => Bool
  | .char => Char
  | .u8 => BitVec 8
  | .u16 => BitVec 16
  | .u32 => BitVec 32
  | .u64 => BitVec 64
  | .u128 => BitVec 128
  | .i8 => BitVec 8
  | .i16 => BitVec 16
  | .i32 => BitVec 32
  | .i64 => BitVec 64
  | .i128 => BitVec 128
  | .f32 => BitVec 32
  | .f64 => BitVec 64

instance : (p : Prim) → DecidableEq p.Val
  | .bool => inferInstanceAs (DecidableEq Bool)
  | .char => inferInstanceAs (DecidableEq Char)
  | .u8 | .i8 => inferInstanceAs (DecidableEq (BitVec 8))
  | .u16 | .i16 => inferInstanceAs (DecidableEq (BitVec 16))
  | .u32 | .i32 | .f32 => inferInstanceAs (DecidableEq (BitVec 32))
  | .u64 | .i64 | .f64 => inferInstanceAs (DecidableEq (BitVec 64))
  | .u128 | .i128 => inferInstanceAs (DecidableEq (BitVec 128))

/-- `PrimitiveValue`, src/core/value.rs L25-41; `primitive()` L44-61 is `kind`. -/
structure PrimVal where
  kind : Prim
  val : kind.Val
  deriving DecidableEq

/-- In-memory bit pattern of a primitive value (as stored through a raw pointer in
src/core/marshaller.rs L585-645). -/
def Prim.store : (p : Prim) → p.Val → Nat
  | .bool, b => Bool.toNat b
  | .char, c => Char.toNat c
  | .u8, v | .i8, v => BitVec.toNat (w := 8) v
  | .u16, v | .i16, v => BitVec.toNat (w := 16) v
  | .u32, v | .i32, v | .f32, v => BitVec.toNat (w := 32) v
  | .u64, v | .i64, v | .f64, v => BitVec.toNat (w := 64) v
  | .u128, v | .i128, v => BitVec.toNat (w := 128) v

/-- Reading a primitive through a raw pointer (`*pointer` in src/core/marshaller.rs L722-725): a bit
pattern that is no `bool` or no `char` is undefined behaviour. -/
def Prim.load : (p : Prim) → Nat → Res p.Val
  | .bool, n => if n = 0 then .ok false else if n = 1 then .ok true else .error .ub
  | .char, n => if h : n.isValidChar then .ok (Char.ofNatAux n h) else .error .ub
  | .u8, n | .i8, n => .ok (BitVec.ofNat 8 n)
  | .u16, n | .i16, n => .ok (BitVec.ofNat 16 n)
  | .u32, n | .i32, n | .f32, n => .ok (BitVec.ofNat 32 n)
  | .u64, n | .i64, n | .f64, n => .ok (BitVec.ofNat 64 n)
  | .u128, n | .i128, n => .ok (BitVec.ofNat 128 n)

/-- `Value`, src/core/value.rs L64-68. -/
inductive Value where
  | prim (v : PrimVal)
  | string (s : Str)
  | tag (n : Nat)
  deriving DecidableEq

/-- The `DataSource` trait, src/core/data_source.rs L33-62.  The fourteen `get_<primitive>` methods are
one field indexed by the primitive. -/
structure DataSource where
  prim : (p : Prim) → Path → Res p.Val
  tag : Path → Res Nat
  length : Path → Res Nat
  bytes : Path → Res Bytes

/-- `BTreeMap::insert` on entries in key order; an existing key keeps its place. -/
def mapInsert {α β : Type} (cmp : α → α → Ordering) (k : α) (v : β) : List (α × β) → List (α × β)
  | [] => [(k, v)]
  | e :: es => match cmp k e.1 with
    | .lt => (k, v) :: e :: es
    | .eq => (e.1, v) :: es
    | .gt => e :: mapInsert cmp k v es

/-- `BTreeMap::get`: the entry whose key compares equal. -/
def mapGet {α β : Type} (cmp : α → α → Ordering) (k : α) : List (α × β) → Option β
  | [] => none
  | e :: es => match cmp k e.1 with
    | .eq => some e.2
    | _ => mapGet cmp k es

/-- `IntermediateDataSource`, src/core/data_source.rs L66-68. -/
abbrev IntermediateDataSource := List (Path × Value)

namespace IntermediateDataSource

/-- `new`, src/core/data_source.rs L120-124. -/
def new : IntermediateDataSource := []

/-- `clear`, src/core/data_source.rs L126-128. -/
def clear (_ : IntermediateDataSource) : IntermediateDataSource := []

/-- `add_primitive`, src/core/data_source.rs L130-133. -/
def addPrimitive (d : IntermediateDataSource) (p : Path) (v : PrimVal) : IntermediateDataSource :=
  mapInsert Path.cmp p (.prim v) d

/-- `add_string`, src/core/data_source.rs L135-138. -/
def addString (d : IntermediateDataSource) (p : Path) (s : Str) : IntermediateDataSource :=
  mapInsert Path.cmp p (.string s) d

/-- `add_case_tag`, src/core/data_source.rs L140-142. -/
def addCaseTag (d : IntermediateDataSource) (p : Path) (n : Nat) : IntermediateDataSource :=
  mapInsert Path.cmp p (.tag n) d

/-- `impl DataSource for IntermediateDataSource`, src/core/data_source.rs L70-117. -/
def source (d : IntermediateDataSource) : DataSource where
  prim p path := match mapGet Path.cmp path d with
    | some (.prim v) => if h : v.kind = p then .ok (h ▸ v.val) else .error .panic
    | _ => .error .panic
  tag path := match mapGet Path.cmp path d with
    | some (.tag n) => .ok n
    | _ => .error .panic
  length path := match mapGet Path.cmp path d with
    | some (.string s) => .ok s.utf8.length
    | _ => .error .panic
  bytes path := match mapGet Path.cmp path d with
    | some (.string s) => .ok s.utf8
    | _ => .error .panic

end IntermediateDataSource

end Verif
