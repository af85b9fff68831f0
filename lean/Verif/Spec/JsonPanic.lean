import Verif.Spec.JsonText

/-!
# Where the decoder is when it panics

The decoder holds one token and asks for the next one as soon as it has used that one.  `Asks` describes the
tokens it has used when it asks for another, and when it panics itself.
-/

namespace Verif.Spec

open Verif.Json

/-- The last of the labelled entries with the label. -/
def LastOf (fs : List (Str × Ty)) (l : Str) (c : Ty) : Prop :=
  ∃ i : Nat, fs[i]? = some (l, c) ∧ ∀ (j : Nat) (g : Str × Ty), i < j → fs[j]? = some g → g.1 ≠ l

/-- What is being read: a document for a type; the rest of an array, with these components to come; the rest of
an object for these fields, of which some have been read.  The flag says that nothing comes before in the array
or object, so that no comma is needed. -/
inductive Place where
  | doc (t : Ty)
  | elems (first : Bool) (cs : List Ty)
  | members (first : Bool) (fs : List (Str × Ty)) (seen : List Str)

/-- The comma, if one is needed. -/
def lead (first : Bool) : List Json.Tok := bif first then [] else [.comma]

/-- The tokens before the value of an enum case. -/
def caseToks (l : Str) : List Json.Tok :=
  [.beginObject, .string "kind".toList, .colon, .string l, .comma, .string "value".toList, .colon]

/-- `Asks F lax true p ks`: at `p` the decoder can use the tokens `ks` and then asks for another one.
`Asks F lax false p ks`: it uses `ks`, gets another token, and panics. -/
inductive Asks (F : FloatText) (lax : Prop) : Bool → Place → List Json.Tok → Prop
  | null : Asks F lax true (.doc .unit) [.null]
  | bool (b : Bool) : Asks F lax true (.doc (.prim .bool)) [bif b then .true else .false]
  /-- The token after a string is asked for before the string is found to be too long. -/
  | char (s : Str) : Asks F lax true (.doc (.prim .char)) [.string s]
  | num {s : Str} {v : PrimVal} : NumText F s v → Asks F lax true (.doc (.prim v.kind)) [.number s]
  | numStr {s : Str} {v : PrimVal} : NumText F s v → Asks F lax true (.doc (.prim v.kind)) [.string s]
  | string (s : Str) : Asks F lax true (.doc .string) [.string s]
  | array {cs : List Ty} : Asks F lax true (.doc (.tuple cs)) [.beginArray]
  | elems {b : Bool} {cs : List Ty} {ks : List Json.Tok} : Asks F lax b (.elems true cs) ks →
      Asks F lax b (.doc (.tuple cs)) (.beginArray :: ks)
  | elemsComma {c : Ty} {cs : List Ty} : Asks F lax true (.elems false (c :: cs)) [.comma]
  | elem {b first : Bool} {c : Ty} {cs : List Ty} {ks : List Json.Tok} : Asks F lax b (.doc c) ks →
      Asks F lax b (.elems first (c :: cs)) (lead first ++ ks)
  | elemDone {b first : Bool} {c : Ty} {cs : List Ty} {t : Tree} {v : Val} {ks : List Json.Tok} :
      Takes F lax c t v → Asks F lax b (.elems false cs) ks →
      Asks F lax b (.elems first (c :: cs)) (lead first ++ t.toks ++ ks)
  | elemsEnd {first : Bool} : Asks F lax true (.elems first []) [.endArray]
  | object {fs : List (Str × Ty)} : Asks F lax true (.doc (.struct fs)) [.beginObject]
  /-- The panic of the decoder itself. -/
  | wide {fs : List (Str × Ty)} : 64 < fs.length ∨ (fs.length = 64 ∧ ¬ lax) →
      Asks F lax false (.doc (.struct fs)) [.beginObject]
  | gap {fs : List (Str × Ty)} : lax → fs.length = 64 →
      Asks F lax true (.doc (.struct fs)) [.beginObject, .endObject]
  | members {b : Bool} {fs : List (Str × Ty)} {ks : List Json.Tok} : fs.length ≤ 63 →
      Asks F lax b (.members true fs []) ks → Asks F lax b (.doc (.struct fs)) (.beginObject :: ks)
  | membersComma {fs : List (Str × Ty)} {seen : List Str} : seen.length < fs.length →
      Asks F lax true (.members false fs seen) [.comma]
  | label {first : Bool} {fs : List (Str × Ty)} {seen : List Str} {l : Str} {c : Ty} : LastOf fs l c →
      l ∉ seen → Asks F lax true (.members first fs seen) (lead first ++ [.string l])
  | colon {first : Bool} {fs : List (Str × Ty)} {seen : List Str} {l : Str} {c : Ty} : LastOf fs l c →
      l ∉ seen → Asks F lax true (.members first fs seen) (lead first ++ [.string l, .colon])
  | member {b first : Bool} {fs : List (Str × Ty)} {seen : List Str} {l : Str} {c : Ty} {ks : List Json.Tok} :
      LastOf fs l c → l ∉ seen → Asks F lax b (.doc c) ks →
      Asks F lax b (.members first fs seen) (lead first ++ [.string l, .colon] ++ ks)
  | memberDone {b first : Bool} {fs : List (Str × Ty)} {seen : List Str} {l : Str} {c : Ty} {t : Tree} {v : Val}
      {ks : List Json.Tok} : LastOf fs l c → l ∉ seen → Takes F lax c t v →
      Asks F lax b (.members false fs (l :: seen)) ks →
      Asks F lax b (.members first fs seen) (lead first ++ memberToks (l, t) ++ ks)
  | membersEnd {first : Bool} {fs : List (Str × Ty)} {seen : List Str} : seen.length = fs.length →
      Asks F lax true (.members first fs seen) [.endObject]
  | kind {cs : List (Str × Ty)} {ks : List Json.Tok} : ks ≠ [] →
      ks <+: [.beginObject, .string "kind".toList, .colon] → Asks F lax true (.doc (.enum cs)) ks
  | case {cs : List (Str × Ty)} {l : Str} {c : Ty} {ks : List Json.Tok} : LastOf cs l c → ks ≠ [] →
      ks <+: caseToks l → Asks F lax true (.doc (.enum cs)) ks
  | value {b : Bool} {cs : List (Str × Ty)} {l : Str} {c : Ty} {ks : List Json.Tok} : LastOf cs l c →
      Asks F lax b (.doc c) ks → Asks F lax b (.doc (.enum cs)) (caseToks l ++ ks)
  | caseEnd {cs : List (Str × Ty)} {l : Str} {c : Ty} {t : Tree} {v : Val} : LastOf cs l c → Takes F lax c t v →
      Asks F lax true (.doc (.enum cs)) (caseToks l ++ t.toks ++ [.endObject])

/-- After white space comes a string with an escape sequence of four hexadecimal digits for a surrogate. -/
def BadNext (s : Str) : Prop := ∃ ws r, s = ws ++ r ∧ (∀ c ∈ ws, isSpace c = true) ∧ BadString r

end Verif.Spec
