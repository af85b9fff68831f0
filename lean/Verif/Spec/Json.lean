import Verif.Model.JsonEncoder
import Verif.Spec.Value
import Verif.Spec.Types

/-!
# Specification: JSON documents and what they denote

A document is a tree; it is independent of the text it is read from.  `Denotes` says which documents
represent which value of a type.
-/

namespace Verif.Spec

open Verif Json

/-- A JSON document; numbers and strings are the text between the delimiters after resolving escapes. -/
inductive Tree where
  | null
  | bool (b : Bool)
  | str (s : Str)
  | num (s : Str)
  | arr (ts : List Tree)
  | obj (ms : List (Str × Tree))

/-- Put `sep` between lists. -/
def sepBy {α : Type} (sep : α) : List (List α) → List α
  | [] => []
  | [x] => x
  | x :: y :: xs => x ++ sep :: sepBy sep (y :: xs)

mutual
/-- The tokens of a document (json.org). -/
def Tree.toks : Tree → List Json.Tok
  | .null => [.null]
  | .bool b => [if b then .true else .false]
  | .str s => [.string s]
  | .num s => [.number s]
  | .arr ts => [.beginArray] ++ sepBy .comma (toksL ts) ++ [.endArray]
  | .obj ms => [.beginObject] ++ sepBy .comma (toksM ms) ++ [.endObject]
/-- The tokens of each element. -/
def toksL : List Tree → List (List Json.Tok)
  | [] => []
  | t :: ts => t.toks :: toksL ts
/-- The tokens of each member. -/
def toksM : List (Str × Tree) → List (List Json.Tok)
  | [] => []
  | m :: ms => memberToks m :: toksM ms
/-- The tokens of one member. -/
def memberToks : Str × Tree → List Json.Tok
  | (l, t) => .string l :: .colon :: t.toks
end

/-- `s` is a decimal numeral, possibly with a sign, for `i`. -/
def SignedNumeral (s : Str) (i : Int) : Prop :=
  (∃ n : Nat, Numeral s n ∧ i = n) ∨
  (∃ (s' : Str) (n : Nat), s = '-' :: s' ∧ s'.head? ≠ some '+' ∧ Numeral s' n ∧ i = -(n : Int))

/-- The text denotes the number. -/
def NumText (F : FloatText) (s : Str) : PrimVal → Prop
  | ⟨.u8, v⟩ => Numeral s (BitVec.toNat (w := 8) v)
  | ⟨.u16, v⟩ => Numeral s (BitVec.toNat (w := 16) v)
  | ⟨.u32, v⟩ => Numeral s (BitVec.toNat (w := 32) v)
  | ⟨.u64, v⟩ => Numeral s (BitVec.toNat (w := 64) v)
  | ⟨.u128, v⟩ => Numeral s (BitVec.toNat (w := 128) v)
  | ⟨.i8, v⟩ => SignedNumeral s (BitVec.toInt (n := 8) v)
  | ⟨.i16, v⟩ => SignedNumeral s (BitVec.toInt (n := 16) v)
  | ⟨.i32, v⟩ => SignedNumeral s (BitVec.toInt (n := 32) v)
  | ⟨.i64, v⟩ => SignedNumeral s (BitVec.toInt (n := 64) v)
  | ⟨.i128, v⟩ => SignedNumeral s (BitVec.toInt (n := 128) v)
  | ⟨.f32, v⟩ => F.parse32 s = some v
  | ⟨.f64, v⟩ => F.parse64 s = some v
  | ⟨.bool, _⟩ | ⟨.char, _⟩ => False

/-- The document represents the value of the type. -/
inductive Denotes (F : FloatText) : Ty → Tree → Val → Prop
  | unit : Denotes F .unit .null .unit
  | bool (b : Bool) : Denotes F (.prim .bool) (.bool b) (.prim ⟨.bool, b⟩)
  | char (c : Char) : Denotes F (.prim .char) (.str [c]) (.prim ⟨.char, c⟩)
  | num {p : Prim} {s : Str} {v : PrimVal} : v.kind = p → NumText F s v →
      Denotes F (.prim p) (.num s) (.prim v)
  | numStr {p : Prim} {s : Str} {v : PrimVal} : v.kind = p → NumText F s v →
      Denotes F (.prim p) (.str s) (.prim v)
  | string (s : Str) : Denotes F .string (.str s) (.str s.utf8)
  | tuple {cs : List Ty} {ts : List Tree} {vs : List Val} : ts.length = cs.length →
      vs.length = cs.length →
      (∀ (i : Nat) (c : Ty) (t : Tree) (v : Val), cs[i]? = some c → ts[i]? = some t → vs[i]? = some v →
        Denotes F c t v) →
      Denotes F (.tuple cs) (.arr ts) (.seq vs)
  /-- The labels of the type are distinct, and the object has each of them once, in any order. -/
  | struct {fs : List (Str × Ty)} {ms : List (Str × Tree)} {vs : List Val} : (fs.map (·.1)).Nodup →
      (ms.map (·.1)).Perm (fs.map (·.1)) → vs.length = fs.length →
      (∀ (i : Nat) (f : Str × Ty) (t : Tree) (v : Val), fs[i]? = some f → (f.1, t) ∈ ms →
        vs[i]? = some v → Denotes F f.2 t v) →
      Denotes F (.struct fs) (.obj ms) (.seq vs)
  /-- If cases share a label, the last one counts. -/
  | enum {cs : List (Str × Ty)} {i : Nat} {l : Str} {c : Ty} {t : Tree} {v : Val} : cs[i]? = some (l, c) →
      (∀ (j : Nat) (d : Str × Ty), i < j → cs[j]? = some d → d.1 ≠ l) → Denotes F c t v →
      Denotes F (.enum cs) (.obj [("kind".toList, .str l), ("value".toList, t)]) (.case i v)

/-- What the decoder takes.  This differs from `Denotes` for structs with 64 or more fields: none is
accepted, except that the empty object is accepted for 64 fields if `lax`, and then nothing is stored. -/
inductive Takes (F : FloatText) (lax : Prop) : Ty → Tree → Val → Prop
  | unit : Takes F lax .unit .null .unit
  | bool (b : Bool) : Takes F lax (.prim .bool) (.bool b) (.prim ⟨.bool, b⟩)
  | char (c : Char) : Takes F lax (.prim .char) (.str [c]) (.prim ⟨.char, c⟩)
  | num {p : Prim} {s : Str} {v : PrimVal} : v.kind = p → NumText F s v →
      Takes F lax (.prim p) (.num s) (.prim v)
  | numStr {p : Prim} {s : Str} {v : PrimVal} : v.kind = p → NumText F s v →
      Takes F lax (.prim p) (.str s) (.prim v)
  | string (s : Str) : Takes F lax .string (.str s) (.str s.utf8)
  | tuple {cs : List Ty} {ts : List Tree} {vs : List Val} : ts.length = cs.length →
      vs.length = cs.length →
      (∀ (i : Nat) (c : Ty) (t : Tree) (v : Val), cs[i]? = some c → ts[i]? = some t → vs[i]? = some v →
        Takes F lax c t v) →
      Takes F lax (.tuple cs) (.arr ts) (.seq vs)
  | struct {fs : List (Str × Ty)} {ms : List (Str × Tree)} {vs : List Val} : fs.length ≤ 63 →
      (fs.map (·.1)).Nodup → (ms.map (·.1)).Perm (fs.map (·.1)) → vs.length = fs.length →
      (∀ (i : Nat) (f : Str × Ty) (t : Tree) (v : Val), fs[i]? = some f → (f.1, t) ∈ ms →
        vs[i]? = some v → Takes F lax f.2 t v) →
      Takes F lax (.struct fs) (.obj ms) (.seq vs)
  | gap {fs : List (Str × Ty)} : lax → fs.length = 64 → Takes F lax (.struct fs) (.obj []) .unit
  | enum {cs : List (Str × Ty)} {i : Nat} {l : Str} {c : Ty} {t : Tree} {v : Val} : cs[i]? = some (l, c) →
      (∀ (j : Nat) (d : Str × Ty), i < j → cs[j]? = some d → d.1 ≠ l) → Takes F lax c t v →
      Takes F lax (.enum cs) (.obj [("kind".toList, .str l), ("value".toList, t)]) (.case i v)

/-- Two documents for the type that differ only in the order of the members of structs. -/
inductive Reordered : Ty → Tree → Tree → Prop
  | refl {t : Ty} {tr : Tree} : Reordered t tr tr
  | tuple {cs : List Ty} {ts ts' : List Tree} : ts'.length = ts.length →
      (∀ (i : Nat) (c : Ty) (t t' : Tree), cs[i]? = some c → ts[i]? = some t → ts'[i]? = some t' →
        Reordered c t t') →
      Reordered (.tuple cs) (.arr ts) (.arr ts')
  | struct {fs : List (Str × Ty)} {ms ms' : List (Str × Tree)} : (ms'.map (·.1)).Perm (ms.map (·.1)) →
      (∀ (f : Str × Ty) (t t' : Tree), f ∈ fs → (f.1, t) ∈ ms → (f.1, t') ∈ ms' → Reordered f.2 t t') →
      Reordered (.struct fs) (.obj ms) (.obj ms')
  | enum {cs : List (Str × Ty)} {k v l : Str} {t t' : Tree} :
      (∀ (c : Str × Ty), c ∈ cs → Reordered c.2 t t') →
      Reordered (.enum cs) (.obj [(k, .str l), (v, t)]) (.obj [(k, .str l), (v, t')])

/-- Starting with the current token `k` and the input `s`, the tokens `ks` are read, and then the tokenizer
is at token `k'` with the input `s'` left. -/
inductive Reads (u : Char → Bool) : Json.Tok → Str → List Json.Tok → Json.Tok → Str → Prop
  | nil {k : Json.Tok} {s : Str} : Reads u k s [] k s
  | cons {k k1 k2 : Json.Tok} {s s1 s2 : Str} {ks : List Json.Tok} : next u s = .ok (k1, s1) →
      Reads u k1 s1 ks k2 s2 → Reads u k s (k :: ks) k2 s2

/-- The text begins with the tokens; then comes token `k` and the input `s'`. -/
def StartsWith (u : Char → Bool) (s : Str) (ks : List Json.Tok) (k : Json.Tok) (s' : Str) : Prop :=
  ∃ k0 s0, next u s = .ok (k0, s0) ∧ Reads u k0 s0 ks k s'

/-- The tokens are read in front of `r`. -/
inductive Toks (u : Char → Bool) : Str → List Json.Tok → Str → Prop
  | nil {s : Str} : Toks u s [] s
  | cons {s s1 r : Str} {k : Json.Tok} {ks : List Json.Tok} : next u s = .ok (k, s1) → Toks u s1 ks r →
      Toks u s (k :: ks) r

/-- The leaf a stored value stands for. -/
def leafOf : Value → Leaf
  | .prim v => .prim v
  | .string s => .str s.utf8
  | .tag n => .tag n

/-- The data source holds exactly the leaves of the value. -/
def HoldsExactly (d : IntermediateDataSource) (v : Val) : Prop :=
  ∀ q l, (mapGet Path.cmp q d).map leafOf = some l ↔ (q, l) ∈ leaves v []

/-- Each struct inside the type satisfies `P` of its number of fields. -/
inductive AllStructs (P : Nat → Prop) : Ty → Prop
  | unit : AllStructs P .unit
  | prim (p : Prim) : AllStructs P (.prim p)
  | string : AllStructs P .string
  | tuple {cs : List Ty} : (∀ c ∈ cs, AllStructs P c) → AllStructs P (.tuple cs)
  | struct {fs : List (Str × Ty)} : P fs.length → (∀ f ∈ fs, AllStructs P f.2) →
      AllStructs P (.struct fs)
  | enum {cs : List (Str × Ty)} : (∀ c ∈ cs, AllStructs P c.2) → AllStructs P (.enum cs)

end Verif.Spec
