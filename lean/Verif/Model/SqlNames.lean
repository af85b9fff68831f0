import Verif.Model.Basic
/-!
# SQL names and maps keyed by names (`src/sql/symbols.rs`)

A `Name` is a string whose comparisons go through the upper-case form of its characters.  The
upper-casing of one character, `char::to_uppercase` of the Rust standard library (a sequence of one to
three characters), is the parameter `up`; nothing is assumed about it.

Everything that is built on names uses them only through `NameOps`: comparing two of them, making one
from a string constant, and appending a counter.  `nameOps up` is the implementation of the
repository.  The rest of the SQL model is written over an arbitrary `NameOps N`, so that it cannot look
at the spelling of a name in any other way than the code does.
-/

namespace Verif.Sql

/-- `Name` (`src/sql/symbols.rs` L26-29): a string, as its list of characters. -/
structure Name where
  string : List Char
  deriving DecidableEq, Repr

/-- `Name::new`, `From<&str>`, `From<String>` (`src/sql/symbols.rs` L32-34, L47-57). -/
def Name.ofString (s : String) : Name := ⟨s.toList⟩

/-- `Iterator::eq` of the Rust standard library on character iterators. -/
def iterEq : List Char → List Char → Bool
  | [], [] => true
  | a :: as, b :: bs => a == b && iterEq as bs
  | _, _ => false

/-- `Iterator::cmp` of the Rust standard library on character iterators: the first difference decides,
a proper prefix is smaller.  `char` is ordered by its scalar value. -/
def iterCmp : List Char → List Char → Ordering
  | [], [] => .eq
  | [], _ :: _ => .lt
  | _ :: _, [] => .gt
  | a :: as, b :: bs => if a.toNat < b.toNat then .lt else if b.toNat < a.toNat then .gt else iterCmp as bs

/-- `self.string.chars().flat_map(|c| c.to_uppercase())` (`src/sql/symbols.rs` L61 and the other
comparison functions). -/
def Name.upper (up : Char → List Char) (n : Name) : List Char := n.string.flatMap up

/-- `impl PartialEq for Name` (`src/sql/symbols.rs` L59-65). -/
def Name.eq (up : Char → List Char) (a b : Name) : Bool := iterEq (a.upper up) (b.upper up)

/-- `impl PartialEq<str> for Name` (`src/sql/symbols.rs` L69-75). -/
def Name.eqStr (up : Char → List Char) (a : Name) (s : List Char) : Bool :=
  iterEq (a.upper up) (s.flatMap up)

/-- `impl Ord for Name` (`src/sql/symbols.rs` L85-91). -/
def Name.cmp (up : Char → List Char) (a b : Name) : Ordering := iterCmp (a.upper up) (b.upper up)

/-- `impl PartialOrd for Name` (`src/sql/symbols.rs` L77-83).  `Iterator::partial_cmp` of iterators over
`char`, whose elements always compare. -/
def Name.partialCmp (up : Char → List Char) (a b : Name) : Option Ordering :=
  some (iterCmp (a.upper up) (b.upper up))

/-- `impl PartialOrd<str> for Name` (`src/sql/symbols.rs` L93-99). -/
def Name.partialCmpStr (up : Char → List Char) (a : Name) (s : List Char) : Option Ordering :=
  some (iterCmp (a.upper up) (s.flatMap up))

/-- What the SQL code does with names. -/
structure NameOps (N : Type) where
  /-- `Ord::cmp`, used by `BTreeMap` and `BTreeSet`. -/
  cmp : N → N → Ordering
  /-- `PartialEq::eq`. -/
  eq : N → N → Bool
  /-- `Name::from("…")`. -/
  lit : String → N
  /-- `Name::from(format!("{}{}", name, counter))`. -/
  numbered : N → Nat → N

/-- `format!("{}{}", name, counter)` (`src/sql/ast/typing.rs` L101): the display form of a name is its
string (`src/sql/symbols.rs` L41-45), that of an integer its decimal digits. -/
def Name.numbered (n : Name) (k : Nat) : Name := ⟨n.string ++ (Nat.toDigits 10 k)⟩

/-- The names of the repository. -/
def nameOps (up : Char → List Char) : NameOps Name where
  cmp := Name.cmp up
  eq := Name.eq up
  lit := Name.ofString
  numbered := Name.numbered

/-! ## `BTreeMap<Name, V>`

The standard library map is simplified to the list of its entries in key order.  Looking up scans the
list for an entry whose key compares equal; inserting keeps the order.  As in the standard library, an
insertion that meets an equal key replaces the value and keeps the *old* key. -/

/-- `BTreeMap<Name, V>`: entries in increasing key order. -/
abbrev TMap (N V : Type) := List (N × V)

namespace TMap
variable {N V : Type} (ops : NameOps N)

/-- `BTreeMap::get`. -/
def get (m : TMap N V) (k : N) : Option V :=
  match m with
  | [] => none
  | (k', v) :: r => if ops.cmp k k' = .eq then some v else get r k

/-- `BTreeMap::contains_key`. -/
def containsKey (m : TMap N V) (k : N) : Bool := (m.get ops k).isSome

/-- `BTreeMap::insert`, without the old value it returns, which is `get` of the map before. -/
def insert (m : TMap N V) (k : N) (v : V) : TMap N V :=
  match m with
  | [] => [(k, v)]
  | (k', v') :: r =>
    match ops.cmp k k' with
    | .lt => (k, v) :: (k', v') :: r
    | .eq => (k', v) :: r
    | .gt => (k', v') :: insert r k v

/-- `BTreeMap::remove`. -/
def remove (m : TMap N V) (k : N) : TMap N V := m.filter fun e => ops.cmp k e.1 ≠ .eq

/-- `iter.collect::<BTreeMap<_, _>>()`: the entries are inserted one after the other.  This is how the standard library
did it before Rust 1.57; since then it sorts the entries and keeps the last of those with equal keys, that is
`collectLast`.  The two differ in nothing but the spelling of the key that is kept (`TMap.collectLast_keys` in
`Verif.Proof.SqlNames`). -/
def collect (es : List (N × V)) : TMap N V := es.foldl (fun m e => insert ops m e.1 e.2) []

/-- Inserting an entry that replaces key and value of an equal key.  Only used to say what `collect` does since Rust
1.57. -/
def replace (m : TMap N V) (k : N) (v : V) : TMap N V :=
  match m with
  | [] => [(k, v)]
  | (k', v') :: r =>
    match ops.cmp k k' with
    | .lt => (k, v) :: (k', v') :: r
    | .eq => (k, v) :: r
    | .gt => (k', v') :: replace r k v

/-- `iter.collect::<BTreeMap<_, _>>()` since Rust 1.57: of the entries with equal keys the last one is kept, key and
value. -/
def collectLast (es : List (N × V)) : TMap N V := es.foldl (fun m e => replace ops m e.1 e.2) []

end TMap

end Verif.Sql
