import Verif.Model.Text

/-! # Model of `src/core/types/mod.rs` -/

namespace Verif

/-- `Primitive`, src/core/types/mod.rs L30-46. -/
inductive Prim where
  | bool | char | u8 | u16 | u32 | u64 | u128 | i8 | i16 | i32 | i64 | i128 | f32 | f64
  deriving DecidableEq, Repr

/-- `Primitive::encoding_size`, src/core/types/mod.rs L48-67. -/
def Prim.size : Prim → Nat
  | .bool => 1
  | .char => 4
  | .u8 => 1
  | .u16 => 2
  | .u32 => 4
  | .u64 => 8
  | .u128 => 16
  | .i8 => 1
  | .i16 => 2
  | .i32 => 4
  | .i64 => 8
  | .i128 => 16
  | .f32 => 4
  | .f64 => 8

/-- `Type`/`Kind`/`Field`/`Case`, src/core/types/mod.rs L98-149.  `Type { kind }` and `Kind` are
merged; a `Field` or `Case` is the pair of its label and type. -/
inductive Ty where
  | unit
  | prim (p : Prim)
  | string
  | tuple (components : List Ty)
  | struct (fields : List (Str × Ty))
  | enum (cases : List (Str × Ty))

/-- `Path`, src/core/types/mod.rs L168-170. -/
abbrev Path := List Nat

/-- `find_field_index` and `find_case_index`, src/core/types/mod.rs L114-134 (identical loops),
started at index `i`. -/
def findLabel (label : Str) : List (Str × Ty) → Nat → Option Nat
  | [], _ => none
  | f :: fs, i => if f.1 = label then some i else findLabel label fs (i + 1)

/-- One step of `Type::extract`, src/core/types/mod.rs L155-161: panics on a leaf and when the index
is out of range. -/
def Ty.child (t : Ty) (i : Nat) : Res Ty :=
  match t with
  | .enum cases => match cases[i]? with
    | some c => .ok c.2
    | none => .error .panic
  | .struct fields => match fields[i]? with
    | some f => .ok f.2
    | none => .error .panic
  | .tuple components => match components[i]? with
    | some c => .ok c
    | none => .error .panic
  | _ => .error .panic

/-- `Type::extract`, src/core/types/mod.rs L151-166. -/
def Ty.extract (t : Ty) : Path → Res Ty
  | [] => .ok t
  | i :: p => do
    let c ← t.child i
    c.extract p

/-- `Path::create_empty` L173-175, `with_component` L177-181. -/
def Path.withComponent (p : Path) (i : Nat) : Path := p ++ [i]

/-- `Path::is_prefix_of`, src/core/types/mod.rs L183-189. -/
def Path.isPrefixOf (p q : Path) : Bool :=
  if q.length < p.length then false else p == q.take p.length

/-- `Path::is_proper_prefix_of`, src/core/types/mod.rs L191-197 (compares `self.0.len()` with
itself, as the code does). -/
def Path.isProperPrefixOf (p q : Path) : Bool :=
  if p.length = p.length then false else Path.isPrefixOf p q

/-- `name.split(".")`, used at src/core/types/mod.rs L206; `cur` is the reversed current piece. -/
def splitDots (cur : Str) : Str → List Str
  | [] => [cur.reverse]
  | c :: cs => if c = '.' then cur.reverse :: splitDots [] cs else splitDots (c :: cur) cs

/-- Loop body of `Path::resolve_qualified_name`, src/core/types/mod.rs L206-241, over the pieces of the
name.  `none` is `Err(message)`; the message is not modelled. -/
def resolvePieces (t : Ty) : List Str → Option Path
  | [] => some []
  | piece :: rest =>
    match t with
    | .enum cases => match findLabel piece cases 0 with
      | some i => match cases[i]? with
        | some c => (resolvePieces c.2 rest).map (i :: ·)
        | none => none
      | none => none
    | .struct fields => match findLabel piece fields 0 with
      | some i => match fields[i]? with
        | some f => (resolvePieces f.2 rest).map (i :: ·)
        | none => none
      | none => none
    | .tuple components => match parseUnsigned (W64 - 1) piece with
      | some i => match components[i]? with
        | some c => (resolvePieces c rest).map (i :: ·)
        | none => none
      | none => none
    | _ => none

/-- `Path::resolve_qualified_name`, src/core/types/mod.rs L203-244. -/
def resolveQualifiedName (t : Ty) (name : Str) : Option Path := resolvePieces t (splitDots [] name)

/-- The comparison loop of `impl Ord for Path`, src/core/types/mod.rs L265-271. -/
def Path.cmpLoop : Path → Path → Option Ordering
  | a :: as, b :: bs => if a < b then some .lt else if a > b then some .gt else Path.cmpLoop as bs
  | _, _ => none

/-- `impl Ord for Path`, src/core/types/mod.rs L261-275. -/
def Path.cmp (p q : Path) : Ordering :=
  match Path.cmpLoop p q with
  | some o => o
  | none => compare p.length q.length

end Verif
