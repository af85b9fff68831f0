import Verif.Model.Nsm
import Verif.Model.TypeParser
import Verif.Model.Marshaller
import Verif.Model.JsonFill
import Verif.Model.JsonEncoder

/-!
# The unit tests of the repository, run on the model

These are tests of the model, not proofs about it: each `#[test]` function of `/repo/src/core` is repeated here
with its inputs and its assertions, so that a model that departs from the code where the code is tested does not
build.  `src/lib.rs` L48-51 (`2 + 2 == 4`) calls none of the code and is left out.  The tests of the repository
run in the debug profile, so `chk` is `true`.

A test is a function of type `Res Unit` that is `.ok ()` when every assertion holds.  `unwrap` on `Err` or
`None` is a panic.  The literal `3.141` and `3.1415926` are the bit patterns of the nearest `f64`; the text
functions of `f64`, a parameter of the model, are given on the one text the tests use.
-/

namespace Verif.RepoTests

open Verif Verif.Json IntermediateDataSource

/-- `Option::unwrap`, `Result::unwrap`. -/
def unwrap {α : Type} : Option α → Res α
  | some a => .ok a
  | none => .error .panic

/-- `assert_eq!` of a call and an expected value. -/
def same {α : Type} [DecidableEq α] (x : Res α) (y : α) : Res Unit := do
  assert (decide ((← x) = y))

open Lean in
/-- The characters of a literal, as a list. -/
macro "str!" s:str : term => do
  let cs := s.getString.toList.toArray.map (fun c => Syntax.mkCharLit c)
  `(([$cs,*] : Str))

open Lean in
/-- `"..".as_bytes()`. -/
macro "bytes!" s:str : term => `(Str.utf8 (str! $s))

/-- Do all of these. -/
def every : List (Res Unit) → Res Unit
  | [] => .ok ()
  | x :: xs => do x; every xs

/-- `TypeParser::parse(..).unwrap()`. -/
def typ (s : Str) : Res Ty := unwrap (TypeParser.parse s)

/-- `Path::resolve_qualified_name(..).unwrap()`. -/
def path (t : Ty) (s : Str) : Res Path := unwrap (resolveQualifiedName t s)

/-- `PrimitiveValue::U32(n)`. -/
def u32 (n : Nat) : PrimVal := ⟨.u32, BitVec.ofNat 32 n⟩

/-- The bits of `3.141f64`. -/
def bits3141 : BitVec 64 := 0x400920C49BA5E354#64

/-- `f64` text functions on the one text of the tests. -/
def floats : FloatText where
  parse32 _ := none
  parse64 s := if s = str! "3.141" then some bits3141 else none
  show32 _ := []
  show64 b := if b = bits3141 then str! "3.141" else []

def env : Env := ⟨fun _ => true, floats, true⟩

/-- A decoder result as `Ok` or a panic: the tests panic on `Err`. -/
def parsed (r : Parse Unit × IntermediateDataSource) : Res IntermediateDataSource :=
  match r with
  | (.ok (), d) => .ok d
  | (.error _, _) => .error .panic

/-- `test_align`, src/core/util.rs L87-120. -/
example : every [
    same (align true 0 1) 0,
    same (align true 1 1) 1,
    same (align true 2 1) 2,
    same (align true 3 1) 3,
    same (align true 4 1) 4,
    same (align true 5 1) 5,
    same (align true 158273 1) 158273,
    same (align true 1 2) 2,
    same (align true 2 2) 2,
    same (align true 3 2) 4,
    same (align true 4 2) 4,
    same (align true 5 2) 6,
    same (align true 158273 2) 158274,
    same (align true 1 4) 4,
    same (align true 2 4) 4,
    same (align true 3 4) 4,
    same (align true 4 4) 4,
    same (align true 5 4) 8,
    same (align true 158273 4) 158276,
    same (align true 1 16) 16,
    same (align true 2 16) 16,
    same (align true 3 16) 16,
    same (align true 4 16) 16,
    same (align true 5 16) 16,
    same (align true 15 16) 16,
    same (align true 16 16) 16,
    same (align true 17 16) 32,
    same (align true 158273 16) 158288
  ] = .ok () := by decide +kernel

/-- `test_required_bits`, src/core/util.rs L133-147. -/
example : every [
    assert (requiredBits 0 == 0),
    assert (requiredBits 1 == 1),
    assert (requiredBits 2 == 2),
    assert (requiredBits 3 == 2),
    assert (requiredBits 4 == 3),
    assert (requiredBits 5 == 3),
    assert (requiredBits 32767 == 15),
    assert (requiredBits 32768 == 16),
    assert (requiredBits 32769 == 16),
    assert (requiredBits (W64 - 1) == 8 * 8)
  ] = .ok () := by decide +kernel

/-- `test_unit`, src/core/types/mod.rs L320-328. -/
example : TypeParser.parse (str! "()") = some .unit := rfl

/-- `test_primitives`, src/core/types/mod.rs L330-416. -/
example : [str! "bool", str! "char", str! "f32", str! "f64", str! "u8", str! "u16", str! "u32", str! "u64", str! "u128",
    str! "i8", str! "i16", str! "i32", str! "i64", str! "i128"].map TypeParser.parse =
    [Prim.bool, .char, .f32, .f64, .u8, .u16, .u32, .u64, .u128, .i8, .i16, .i32, .i64, .i128].map
      (fun p => some (.prim p)) := rfl

/-- `test_string`, src/core/types/mod.rs L418-426. -/
example : TypeParser.parse (str! "string") = some .string := rfl

/-- `test_tuples`, src/core/types/mod.rs L428-465. -/
example : TypeParser.parse (str! "(char, bool, i16)") = some (.tuple [.prim .char, .prim .bool, .prim .i16]) ∧
    TypeParser.parse (str! "(char, (bool), i16)") =
      some (.tuple [.prim .char, .tuple [.prim .bool], .prim .i16]) := ⟨rfl, rfl⟩

/-- `test_struct`, src/core/types/mod.rs L467-525. -/
example : TypeParser.parse (str! "struct {first: char, second: bool, third: i16}") =
      some (.struct [(str! "first", .prim .char), (str! "second", .prim .bool), (str! "third", .prim .i16)]) ∧
    TypeParser.parse (str! "struct {first: char, second: struct { field: bool }, third: i16}") =
      some (.struct [(str! "first", .prim .char), (str! "second", .struct [(str! "field", .prim .bool)]),
        (str! "third", .prim .i16)]) := ⟨rfl, rfl⟩

/-- `test_enum`, src/core/types/mod.rs L527-585. -/
example : TypeParser.parse (str! "enum { first: char, second: bool, third: i16}") =
      some (.enum [(str! "first", .prim .char), (str! "second", .prim .bool), (str! "third", .prim .i16)]) ∧
    TypeParser.parse (str! "enum { first: char, second: enum { field: bool }, third: i16}") =
      some (.enum [(str! "first", .prim .char), (str! "second", .enum [(str! "field", .prim .bool)]),
        (str! "third", .prim .i16)]) := ⟨rfl, rfl⟩

/-- `run_component_test`, src/core/types/mod.rs L303-318. -/
def component (input name : Str) : Res Ty := do
  let t ← typ input
  t.extract (← path t name)

/-- `test_resolve_name`, src/core/types/mod.rs L587-612. -/
example : component (str! "enum { first: char, second: enum { field: bool }, third: i16}")
      (str! "second.field") =
      .ok (.prim .bool) ∧
    component (str! "enum { first: char, second: struct { field: bool }, third: i16}")
      (str! "second.field") =
      .ok (.prim .bool) ∧
    component (str! "(char, enum { case: f32 }, i16)")
      (str! "1.case") = .ok (.prim .f32) := ⟨rfl, rfl, rfl⟩

/-- The type of the first tests of the data source, the decoder, the encoder and the marshaller
(e.g. src/core/data_source.rs L156-167), with the spaces of the source text. -/
def personText : Str := str! "
            struct {
                first: string,
                last: string,
                address: string,
                city: struct {
                    name: string,
                    zip: u32
                }
            }
            "

/-- The tuple type of the second tests of the decoder and the encoder (src/core/json/decoder.rs L593-603). -/
def tupleText : Str := str! "
            (
                string,
                string,
                string,
                (
                    string,
                    u32
                )
            )
            "

/-- The enum type of the third tests (src/core/json/decoder.rs L635-640). -/
def someText : Str := str! "
            enum {
                Some: f64,
                None: ()
            }
            "

/-- The five paths of a test. -/
def paths (t : Ty) (names : List Str) : Res (Path × Path × Path × Path × Path) :=
  match names with
  | [a, b, c, d, e] => do
    pure (← path t a, ← path t b, ← path t c, ← path t d, ← path t e)
  | _ => .error .panic

/-- The names of the struct and the names of the tuple. -/
def personNames : List Str :=
  [str! "first", str! "last", str! "address", str! "city.name", str! "city.zip"]
def tupleNames : List Str := [str! "0", str! "1", str! "2", str! "3.0", str! "3.1"]

/-- The data source filled by hand (src/core/data_source.rs L175-180). -/
def person (p : Path × Path × Path × Path × Path) : IntermediateDataSource :=
  addPrimitive (addString (addString (addString (addString new p.1 (str! "John")) p.2.1 (str! "Doe")) p.2.2.1
    (str! "123 Main Street")) p.2.2.2.1 (str! "Anywhere")) p.2.2.2.2 (u32 12345)

/-- The five final assertions (src/core/data_source.rs L182-186). -/
def isPerson (p : Path × Path × Path × Path × Path) (d : DataSource) : Res Unit := every [
    same (d.bytes p.1) (bytes! "John"),
    same (d.bytes p.2.1) (bytes! "Doe"),
    same (d.bytes p.2.2.1) (bytes! "123 Main Street"),
    same (d.bytes p.2.2.2.1) (bytes! "Anywhere"),
    same (d.prim .u32 p.2.2.2.2) (12345#32 : BitVec 32)]

/-- `smoke_test`, src/core/data_source.rs L151-188. -/
example : (do
    let p ← paths (← typ personText) personNames
    isPerson p (person p).source : Res Unit) = .ok () := by decide +kernel

def personJson : Str :=
  str! "{\"first\":\"John\",\"last\":\"Doe\",\"address\":\"123 Main Street\"," ++
    str! "\"city\":{\"name\":\"Anywhere\",\"zip\":12345}}"
def tupleJson : Str := str! "[\"John\",\"Doe\",\"123 Main Street\",[\"Anywhere\",12345]]"

/-- `struct_test`, src/core/json/decoder.rs L547-586. -/
example : (do
    let t ← typ personText
    let p ← paths t personNames
    let d ← parsed (decodeInto env t personJson new)
    isPerson p d.source : Res Unit) = .ok () := by decide +kernel

/-- `tuple_test`, src/core/json/decoder.rs L588-627. -/
example : (do
    let t ← typ tupleText
    let p ← paths t tupleNames
    let d ← parsed (decodeInto env t tupleJson new)
    isPerson p d.source : Res Unit) = .ok () := by decide +kernel

/-- `enum_test`, src/core/json/decoder.rs L630-665: the second text is read into the same data source. -/
example : (do
    let t ← typ someText
    let some ← path t (str! "Some")
    let d ← parsed (decodeInto env t (str! "{\"kind\":\"Some\",\"value\":3.141}") new)
    same (d.source.tag []) 0
    same (d.source.prim .f64 some) bits3141
    let d ← parsed (decodeInto env t (str! "{\"kind\":\"None\",\"value\":null}") d)
    same (d.source.tag []) 1 : Res Unit) = .ok () := by decide +kernel

/-- `test_struct`, src/core/json/encoder.rs L416-453. -/
example : (do
    let t ← typ personText
    let p ← paths t personNames
    same (encode floats t (person p).source) (Str.utf8 personJson) : Res Unit) = .ok () := by decide +kernel

/-- `test_tuple`, src/core/json/encoder.rs L455-492. -/
example : (do
    let t ← typ tupleText
    let p ← paths t tupleNames
    same (encode floats t (person p).source) (Str.utf8 tupleJson) : Res Unit) = .ok () := by decide +kernel

/-- `enum_test`, src/core/json/encoder.rs L494-527. -/
example : (do
    let t ← typ someText
    let some ← path t (str! "Some")
    let d := addPrimitive (addCaseTag new [] 0) some ⟨.f64, bits3141⟩
    same (encode floats t d.source) (bytes! "{\"kind\":\"Some\",\"value\":3.141}")
    let d := addCaseTag (clear d) [] 1
    same (encode floats t d.source) (bytes! "{\"kind\":\"None\",\"value\":null}") : Res Unit) = .ok () := by
  decide +kernel

/-- The tokens of an input up to the first `Eof`, at most `n`; `none` when a call of `next` is not `Ok`. -/
def tokens : Nat → Str → Option (List Json.Tok)
  | 0, _ => some []
  | n + 1, s => match next (fun _ => true) s with
    | .ok (t, rest) => (tokens n rest).map (t :: ·)
    | .error _ => none

/-- `smoketest`, src/core/json/tokenizer.rs L411-458. -/
example : tokens 14 (str! " []{},:1234.34 -123 \"Hallo\" true false null") =
    some [.beginArray, .endArray, .beginObject, .endObject, .comma, .colon, .number (str! "1234.34"),
      .number (str! "-123"), .string (str! "Hallo"), .true, .false, .null, .eof, .eof] := by decide +kernel

/-- `is_value_token`, src/core/json/tokenizer.rs L461-481. -/
def isToken (input : Str) (index : Nat) (token : Json.Tok) : Bool :=
  match tokens (index + 1) input with
  | some ts => ts[index]? == some token
  | none => false

/-- Characters by number, for texts that are not printable ASCII. -/
def cs (l : List Nat) : Str := l.map Char.ofNat

/-- `test_strings`, src/core/json/tokenizer.rs L491-551: 37 texts. -/
example : every [
    assert (isToken (str! " \"abc\" ") 0 (.string (str! "abc"))),
    assert (isToken (str! ": null \"abc\" ") 2 (.string (str! "abc"))),
    assert (isToken (str! "[\"\\u0060\\u012a\\u12AB\"]") 1 (.string (cs [96, 298, 4779]))),
    assert (isToken (str! "[\"\\\"\\\\\\/\\b\\f\\n\\r\\t\"]") 1 (.string (cs [34, 92, 47, 8, 12, 10, 13, 9]))),
    assert (isToken (str! "[\"\\\\u0000\"]") 1 (.string (str! "\\u0000"))),
    assert (isToken (str! "[\"\\\"\"]") 1 (.string (str! "\""))),
    assert (isToken (str! "[\"a/*b*/c/*d//e\"]") 1 (.string (str! "a/*b*/c/*d//e"))),
    assert (isToken (str! "[\"\\\\a\"]") 1 (.string (str! "\\a"))),
    assert (isToken (str! "[\"\\\\n\"]") 1 (.string (str! "\\n"))),
    assert (isToken (str! "[\"\\u0012\"]") 1 (.string (cs [18]))),
    assert (isToken (str! "[\"\\uFFFF\"]") 1 (.string (cs [65535]))),
    assert (isToken (str! "[ \"asd\"]") 1 (.string (str! "asd"))),
    assert (isToken (str! "[\"new\\u00A0line\"]") 1 (.string (cs [110, 101, 119, 160, 108, 105, 110, 101]))),
    assert (isToken (cs [91, 34, 1114111, 34, 93]) 1 (.string (cs [1114111]))),
    assert (isToken (cs [91, 34, 65535, 34, 93]) 1 (.string (cs [65535]))),
    assert (isToken (str! "[\"\\u0000\"]") 1 (.string (cs [0]))),
    assert (isToken (str! "[\"\\u002c\"]") 1 (.string (str! ","))),
    assert (isToken (cs [91, 34, 960, 34, 93]) 1 (.string (cs [960]))),
    assert (isToken (cs [91, 34, 114687, 34, 93]) 1 (.string (cs [114687]))),
    assert (isToken (str! "[\"asd \"]") 1 (.string (str! "asd "))),
    assert (isToken (str! "[\"\\u0821\"]") 1 (.string (cs [2081]))),
    assert (isToken (str! "[\"\\u0123\"]") 1 (.string (cs [291]))),
    assert (isToken (str! "[\"\"]") 1 (.string (str! ""))),
    assert (isToken (str! "[\"\"]") 1 (.string (str! ""))),
    assert (isToken (str! "[\"\\u0061\\u30af\\u30EA\\u30b9\"]") 1 (.string (cs [97, 12463, 12522, 12473]))),
    assert (isToken (str! "[\"new\\u000Aline\"]") 1 (.string (cs [110, 101, 119, 10, 108, 105, 110, 101]))),
    assert (isToken (cs [91, 34, 127, 34, 93]) 1 (.string (cs [127]))),
    assert (isToken (str! "[\"\\uA66D\"]") 1 (.string (cs [42605]))),
    assert (isToken (str! "[\"\\u005C\"]") 1 (.string (str! "\\"))),
    assert (isToken (cs [91, 34, 9026, 12852, 9026, 34, 93]) 1 (.string (cs [9026, 12852, 9026]))),
    assert (isToken (str! "[\"\\u200B\"]") 1 (.string (cs [8203]))),
    assert (isToken (str! "[\"\\u2064\"]") 1 (.string (cs [8292]))),
    assert (isToken (str! "[\"\\uFDD0\"]") 1 (.string (cs [64976]))),
    assert (isToken (str! "[\"\\uFFFE\"]") 1 (.string (cs [65534]))),
    assert (isToken (str! "[\"\\u0022\"]") 1 (.string (str! "\""))),
    assert (isToken (cs [91, 34, 8364, 119070, 34, 93]) 1 (.string (cs [8364, 119070]))),
    assert (isToken (cs [91, 34, 97, 127, 97, 34, 93]) 1 (.string (cs [97, 127, 97])))
  ] = .ok () := by decide +kernel

/-- `test_numbers`, src/core/json/tokenizer.rs L553-582: 20 texts. -/
example : every [
    assert (isToken (str! " 123.45 ") 0 (.number (str! "123.45"))),
    assert (isToken (str! ": null -764.87 ") 2 (.number (str! "-764.87"))),
    assert (isToken (str! "[123e65]") 1 (.number (str! "123e65"))),
    assert (isToken (str! "[0e+1]") 1 (.number (str! "0e+1"))),
    assert (isToken (str! "[0e1]") 1 (.number (str! "0e1"))),
    assert (isToken (str! "[ 4]") 1 (.number (str! "4"))),
    assert (isToken (str! "[-0.000000000000000000000000000000000000000000000000000000000000000000000000000001]") 1
      (.number (str! "-0.000000000000000000000000000000000000000000000000000000000000000000000000000001"))),
    assert (isToken (str! "[20e1]") 1 (.number (str! "20e1"))),
    assert (isToken (str! "[-0]") 1 (.number (str! "-0"))),
    assert (isToken (str! "[-123]") 1 (.number (str! "-123"))),
    assert (isToken (str! "[-1]") 1 (.number (str! "-1"))),
    assert (isToken (str! "[1E22]") 1 (.number (str! "1E22"))),
    assert (isToken (str! "[1E-2]") 1 (.number (str! "1E-2"))),
    assert (isToken (str! "[1E+2]") 1 (.number (str! "1E+2"))),
    assert (isToken (str! "[123e45]") 1 (.number (str! "123e45"))),
    assert (isToken (str! "[123.456e78]") 1 (.number (str! "123.456e78"))),
    assert (isToken (str! "[1e-2]") 1 (.number (str! "1e-2"))),
    assert (isToken (str! "[1e+2]") 1 (.number (str! "1e+2"))),
    assert (isToken (str! "[123]") 1 (.number (str! "123"))),
    assert (isToken (str! "[123.456789]") 1 (.number (str! "123.456789")))
  ] = .ok () := by decide +kernel

/-- The loop of `append_test`, src/core/nsm.rs L254-261: rows are appended while they fit. -/
def fillPage (row : Bytes) : Nat → Bytes → Res Bytes
  | 0, _ => .error .panic
  | n + 1, page => do
    if row.length ≤ (← Nsm.maxInsertRowSize true 8 page) then
      let index ← Nsm.numRows page
      let page ← Nsm.appendRow true 8 page row
      same (Nsm.getRow true 8 page index) row
      fillPage row n page
    else .ok page

/-- `append_test`, src/core/nsm.rs L214-273. -/
example : (do
    let page ← Nsm.initializePage true 8 (List.replicate 512 0)
    same (Nsm.numRows page) 0
    same (Nsm.maxInsertRowSize true 8 page) (512 - 8)
    let page ← Nsm.appendRow true 8 page (bytes! "This is the first row to add")
    let page ← Nsm.appendRow true 8 page (bytes! "Here is a second row to add to the page")
    let page ← Nsm.appendRow true 8 page (bytes! "And also a third row")
    let page ← Nsm.appendRow true 8 page (bytes! "")
    let page ← Nsm.appendRow true 8 page (bytes! "And one more row after we added the empty row")
    same (Nsm.numRows page) 5
    same (Nsm.getRow true 8 page 0) (bytes! "This is the first row to add")
    same (Nsm.getRow true 8 page 1) (bytes! "Here is a second row to add to the page")
    same (Nsm.getRow true 8 page 2) (bytes! "And also a third row")
    same (Nsm.getRow true 8 page 3) (bytes! "")
    same (Nsm.getRow true 8 page 4) (bytes! "And one more row after we added the empty row")
    let row := bytes! "More row data to add to the page"
    let page ← fillPage row 20 page
    let space ← Nsm.maxInsertRowSize true 8 page
    let page ← (if space > 0 then do
        let index ← Nsm.numRows page
        let page ← Nsm.appendRow true 8 page (row.take space)
        same (Nsm.getRow true 8 page index) (row.take space)
        pure page
      else pure page)
    same (Nsm.maxInsertRowSize true 8 page) 0 : Res Unit) = .ok () := by decide +kernel

/-- `test_insert_remove`, src/core/nsm.rs L275-429. -/
example : (do
    let page ← Nsm.initializePage true 8 (List.replicate 512 0)
    same (Nsm.numRows page) 0
    same (Nsm.maxInsertRowSize true 8 page) (512 - 8)
    let page ← Nsm.appendRow true 8 page (bytes! "This is the first row to add")
    let page ← Nsm.appendRow true 8 page (bytes! "Here is a second row to add to the page")
    let page ← Nsm.appendRow true 8 page (bytes! "And also a third row")
    let page ← Nsm.appendRow true 8 page (bytes! "")
    let page ← Nsm.appendRow true 8 page (bytes! "And one more row after we added the empty row")
    same (Nsm.numRows page) 5
    same (Nsm.getRow true 8 page 0) (bytes! "This is the first row to add")
    same (Nsm.getRow true 8 page 1) (bytes! "Here is a second row to add to the page")
    same (Nsm.getRow true 8 page 2) (bytes! "And also a third row")
    same (Nsm.getRow true 8 page 3) (bytes! "")
    same (Nsm.getRow true 8 page 4) (bytes! "And one more row after we added the empty row")
    let page ← Nsm.removeRow true 8 page 1
    same (Nsm.numRows page) 4
    same (Nsm.getRow true 8 page 0) (bytes! "This is the first row to add")
    same (Nsm.getRow true 8 page 1) (bytes! "And also a third row")
    same (Nsm.getRow true 8 page 2) (bytes! "")
    same (Nsm.getRow true 8 page 3) (bytes! "And one more row after we added the empty row")
    let page ← Nsm.insertRow true 8 page 0 (bytes! "Inserting a new first row in front of everything")
    same (Nsm.numRows page) 5
    same (Nsm.getRow true 8 page 0) (bytes! "Inserting a new first row in front of everything")
    same (Nsm.getRow true 8 page 1) (bytes! "This is the first row to add")
    same (Nsm.getRow true 8 page 2) (bytes! "And also a third row")
    same (Nsm.getRow true 8 page 3) (bytes! "")
    same (Nsm.getRow true 8 page 4) (bytes! "And one more row after we added the empty row")
    let page ← Nsm.insertRow true 8 page 3 (bytes! "Inserting another row in the middle")
    same (Nsm.numRows page) 6
    same (Nsm.getRow true 8 page 0) (bytes! "Inserting a new first row in front of everything")
    same (Nsm.getRow true 8 page 1) (bytes! "This is the first row to add")
    same (Nsm.getRow true 8 page 2) (bytes! "And also a third row")
    same (Nsm.getRow true 8 page 3) (bytes! "Inserting another row in the middle")
    same (Nsm.getRow true 8 page 4) (bytes! "")
    same (Nsm.getRow true 8 page 5) (bytes! "And one more row after we added the empty row")
    let page ← Nsm.insertRow true 8 page 6 (bytes! "And a new last row")
    same (Nsm.numRows page) 7
    same (Nsm.getRow true 8 page 5) (bytes! "And one more row after we added the empty row")
    same (Nsm.getRow true 8 page 6) (bytes! "And a new last row")
    let page ← Nsm.removeRow true 8 page 0
    same (Nsm.numRows page) 6
    same (Nsm.getRow true 8 page 0) (bytes! "This is the first row to add")
    same (Nsm.getRow true 8 page 1) (bytes! "And also a third row")
    same (Nsm.getRow true 8 page 2) (bytes! "Inserting another row in the middle")
    same (Nsm.getRow true 8 page 3) (bytes! "")
    same (Nsm.getRow true 8 page 4) (bytes! "And one more row after we added the empty row")
    same (Nsm.getRow true 8 page 5) (bytes! "And a new last row")
    let page ← Nsm.removeRow true 8 page 5
    same (Nsm.numRows page) 5
    same (Nsm.getRow true 8 page 0) (bytes! "This is the first row to add")
    same (Nsm.getRow true 8 page 1) (bytes! "And also a third row")
    same (Nsm.getRow true 8 page 2) (bytes! "Inserting another row in the middle")
    same (Nsm.getRow true 8 page 3) (bytes! "")
    same (Nsm.getRow true 8 page 4) (bytes! "And one more row after we added the empty row")
    let page ← Nsm.removeRow true 8 page 2
    let page ← Nsm.removeRow true 8 page 1
    let page ← Nsm.removeRow true 8 page 0
    let page ← Nsm.removeRow true 8 page 0
    same (Nsm.numRows page) 1
    same (Nsm.getRow true 8 page 0) (bytes! "And one more row after we added the empty row")
    let page ← Nsm.removeRow true 8 page 0
    same (Nsm.numRows page) 0 : Res Unit) = .ok () := by decide +kernel

/-- The path and fixed field of a string. -/
def isString : VarField → Option (Path × Nat)
  | .string p i => some (p, i)
  | .enum .. => none

/-- `test_struct_layout`, src/core/marshaller.rs L991-1127. -/
example : (do
    let t ← typ personText
    let p ← paths t personNames
    let layout ← Layout.new true t
    assert (layout.alignment == 4)
    assert (layout.varOffset == 4 * 5)
    assert (layout.vars.length == 4)
    assert (layout.fixed == [⟨p.1, .length, 0⟩, ⟨p.2.1, .length, 4⟩, ⟨p.2.2.1, .length, 4 * 2⟩,
      ⟨p.2.2.2.1, .length, 4 * 3⟩, ⟨p.2.2.2.2, .prim .u32, 4 * 4⟩])
    assert (layout.vars.map isString == [some (p.1, 0), some (p.2.1, 1), some (p.2.2.1, 2), some (p.2.2.2.1, 3)])
    let size ← layout.sizeWithSource true (person p).source
    same (align true (4 * 5 + 4 + 3 + 15 + 8) layout.alignment) size
    let (buffer, n) ← layout.encode true (person p).source (List.replicate size 0)
    assert (n == size)
    every ([(0, 4), (4, 3), (8, 15), (12, 8), (16, 12345)].map fun x => same (getValue 4 buffer x.1) x.2)
    assert (slice buffer 20 4 == bytes! "John")
    assert (slice buffer 24 3 == bytes! "Doe")
    assert (slice buffer 27 15 == bytes! "123 Main Street")
    assert (slice buffer 42 8 == bytes! "Anywhere")
    isPerson p (layout.source true buffer) : Res Unit) = .ok () := by decide +kernel

/-- The type of `test_enum_layout`, src/core/marshaller.rs L1135-1148. -/
def enumText : Str := str! "
            enum {
                Person: struct {
                    first: string,
                    last: string,
                    age: u8
                },
                Address: struct {
                    street: string,
                    city: string,
                    zip: u32,
                    state: string
                },
                Empty: ()
            }
            "

/-- One block of `test_enum_layout`: the size, the encoding in `buffer.resize(size, 0)`, and what is read. -/
def roundTrip (layout : Layout) (d : IntermediateDataSource) (buffer : Bytes) (size : Nat) :
    Res (Bytes × DataSource) := do
  same (layout.sizeWithSource true d.source) size
  let (buffer, n) ← layout.encode true d.source (buffer.take size ++ List.replicate (size - buffer.length) 0)
  assert (n == size)
  pure (buffer, layout.source true buffer)

/-- `test_enum_layout`, src/core/marshaller.rs L1129-1327. -/
example : (do
    let t ← typ enumText
    let first ← path t (str! "Person.first")
    let last ← path t (str! "Person.last")
    let age ← path t (str! "Person.age")
    let street ← path t (str! "Address.street")
    let city ← path t (str! "Address.city")
    let state ← path t (str! "Address.state")
    let zip ← path t (str! "Address.zip")
    let layout ← Layout.new true t
    assert (layout.alignment == 4)
    assert (layout.vars.length == 1)
    assert (layout.varOffset == 4)
    assert (layout.fixed == [⟨[], .bitfield .u8 0 2, 0⟩])
    match layout.vars with
    | [.enum p i [c0, c1, c2]] =>
      assert (p == [])
      assert (i == 0)
      assert (c0.alignment == 4)
      assert (c0.fixed.map (·.path) == [first, last, age])
      assert ((c0.fixed.take 2).map (·.kind) == [.length, .length])
      assert (c0.varOffset == 4 * 2 + 1)
      assert (c0.vars.map (fun v => (v.path, v.fixedIdx)) == [(first, 0), (last, 1)])
      assert (c1.alignment == 4)
      assert (c1.varOffset == 4 * 3 + 4)
      assert (c1.fixed.map (·.path) == [street, city, zip, state])
      assert (c1.vars.map (fun v => (v.path, v.fixedIdx)) == [(street, 0), (city, 1), (state, 3)])
      assert (c2.alignment == 1)
      assert (c2.fixed.length == 0)
      assert (c2.vars.length == 0)
      assert (c2.varOffset == 0)
    | _ => .error .panic
    let d := addCaseTag new [] 2
    let (buffer, mds) ← roundTrip layout d [] 4
    same (mds.tag []) 2
    let d := addPrimitive (addString (addString (addCaseTag (clear d) [] 0) first (str! "Hubert")) last
      (str! "Hantel")) age ⟨.u8, 46#8⟩
    let (buffer, mds) ← roundTrip layout d buffer (← align true (4 + 4 * 2 + 6 + 6 + 1) 4)
    same (mds.tag []) 0
    same (mds.bytes first) (bytes! "Hubert")
    same (mds.bytes last) (bytes! "Hantel")
    same (mds.prim .u8 age) (46#8 : BitVec 8)
    let d := addString (addPrimitive (addString (addString (addCaseTag (clear d) [] 1) street
      (str! "123 Main Street")) city (str! "Anywhere")) zip (u32 12345)) state (str! "ID")
    let (_, mds) ← roundTrip layout d buffer (← align true (4 + 4 * 3 + 15 + 8 + 2 + 4) 4)
    same (mds.tag []) 1
    same (mds.bytes street) (bytes! "123 Main Street")
    same (mds.bytes city) (bytes! "Anywhere")
    same (mds.prim .u32 zip) (12345#32 : BitVec 32)
    same (mds.bytes state) (bytes! "ID") : Res Unit) = .ok () := by decide +kernel

/-- The type of `test_multiple_enums`, src/core/marshaller.rs L1334-1378. -/
def enumsText : Str := str! "
                struct {
                    fill1: u16,
                    e1: enum {
                        A: (),
                        B: (),
                        C: (),
                        D: (),
                        E: (),
                        F: (),
                        G: (),
                        H: (),
                        I: (),
                        J: (),
                        K: ()
                    },
                    e2: enum {
                        None: (),
                        Some: u64
                    },
                    fill2: f64,
                    fill3: u8,
                    e3: enum {
                        A: (),
                        B: (),
                        C: (),
                        D: (),
                        E: (),
                    },
                    fill4: i128,
                    fill5: i32,
                    e4: enum {
                        A: (),
                        B: (),
                        C: (),
                        D: (),
                        E: (),
                        F: (),
                        G: (),
                        H: (),
                        I: (),
                        J: (),
                    }
                }
                "

/-- `test_multiple_enums`, src/core/marshaller.rs L1329-1426. -/
example : (do
    let t ← typ enumsText
    let fill1 ← path t (str! "fill1")
    let fill2 ← path t (str! "fill2")
    let fill3 ← path t (str! "fill3")
    let fill4 ← path t (str! "fill4")
    let fill5 ← path t (str! "fill5")
    let e1 ← path t (str! "e1")
    let e2 ← path t (str! "e2")
    let e3 ← path t (str! "e3")
    let e4 ← path t (str! "e4")
    let layout ← Layout.new true t
    let d := addPrimitive new fill1 ⟨.u16, 64123#16⟩
    let d := addPrimitive d fill2 ⟨.f64, 0x400921fb4d12d84a#64⟩
    let d := addPrimitive d fill3 ⟨.u8, 195#8⟩
    let d := addPrimitive d fill4 ⟨.i128, BitVec.ofInt 128 (-98765234567993635)⟩
    let d := addPrimitive d fill5 ⟨.i32, BitVec.ofInt 32 (-12345678)⟩
    let d := addCaseTag (addCaseTag (addCaseTag (addCaseTag d e1 4) e2 0) e3 3) e4 7
    let size ← layout.sizeWithSource true d.source
    let (_, mds) ← roundTrip layout d [] size
    same (mds.prim .u16 fill1) (64123#16 : BitVec 16)
    same (mds.prim .f64 fill2) (0x400921fb4d12d84a#64 : BitVec 64)
    same (mds.prim .u8 fill3) (195#8 : BitVec 8)
    same (mds.prim .i128 fill4) (BitVec.ofInt 128 (-98765234567993635))
    same (mds.prim .i32 fill5) (BitVec.ofInt 32 (-12345678))
    same (mds.tag e1) 4
    same (mds.tag e2) 0
    same (mds.tag e3) 3
    same (mds.tag e4) 7 : Res Unit) = .ok () := by decide +kernel

end Verif.RepoTests
