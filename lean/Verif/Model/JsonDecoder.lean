import Verif.Model.JsonTokenizer
import Verif.Model.DataSource

/-!
# Model of `src/core/json/decoder.rs`

The parser objects built by `parser_for_type` are functions on the state: the tokenizer and the data source
being filled.  After `Err` the data source may have been filled in part; `Verif/Model/JsonFill.lean` has this.
-/

namespace Verif.Json

/-- Library functions for floating point numbers: `f32`/`f64` `FromStr` and `Display`, on bit patterns.
They are arbitrary here; theorems that depend on them say what they need. -/
structure FloatText where
  parse32 : Str → Option (BitVec 32)
  parse64 : Str → Option (BitVec 64)
  show32 : BitVec 32 → Str
  show64 : BitVec 64 → Str

/-- The parts of the environment left open: alphanumeric characters above U+007F, floating point text, and
whether overflow checks are on. -/
structure Env where
  alnum : Char → Bool
  floats : FloatText
  chk : Bool

/-- The tokenizer and the data source. -/
structure St where
  tok : Tok
  rest : Str
  out : IntermediateDataSource

/-- `dyn JsonParser`, src/core/json/decoder.rs L47-53. -/
abbrev Parser := St → Parse St

/-- `tokenizer.next()?`. -/
def advance (env : Env) (st : St) : Parse St := do
  let (tok, rest) ← next env.alnum st.rest
  .ok { st with tok := tok, rest := rest }

/-- `must_be`, src/core/json/decoder.rs L34-45. -/
def mustBe (env : Env) (tok : Tok) (st : St) : Parse St :=
  if st.tok ≠ tok then fail else advance env st

/-- `BitSet::new_with_elements` for `u64`, src/core/json/decoder.rs L65-68.  Shifting by 64 panics with
overflow checks and shifts by 0 without. -/
def newWithElements (chk : Bool) (n : Nat) : Parse Nat :=
  if n > 64 then panic
  else if n = 64 then (if chk then panic else .ok 0)
  else .ok ((1 <<< n) - 1)

/-- `clear_element`, src/core/json/decoder.rs L70-72. -/
def clearElement (set index : Nat) : Nat := set &&& notW (1 <<< index)

/-- `has_element`, src/core/json/decoder.rs L74-76. -/
def hasElement (set index : Nat) : Bool := set &&& (1 <<< index) != 0

/-- Look-up in a `BTreeMap` collected from labelled entries: the last entry with the label
(src/core/json/decoder.rs L477-481, L498-508). -/
def lastEntry {α : Type} (label : Str) : List (Str × α) → Option α
  | [] => none
  | e :: es => match lastEntry label es with
    | some x => some x
    | none => if e.1 = label then some e.2 else none

/-- The labels with their positions, starting at `i`. -/
def numbered : List (Str × Ty) → Nat → List (Str × Nat)
  | [], _ => []
  | f :: fs, i => (f.1, i) :: numbered fs (i + 1)

/-- The label at the current token and its index, src/core/json/decoder.rs L116-123. -/
def fieldIndex (indices : List (Str × Nat)) : Tok → Parse Nat
  | .string label => match lastEntry label indices with
    | none => fail
    | some i => .ok i
  | _ => fail

/-- `self.fields[index]`, src/core/json/decoder.rs L141. -/
def fieldParser (fields : List Parser) (index : Nat) : Parser :=
  match fields[index]? with
  | some p => p
  | none => fun _ => panic

/-- The separator before a field, src/core/json/decoder.rs L106-114. -/
def separator (env : Env) (first : Bool) (st : St) : Parse St :=
  if first then .ok st else mustBe env .comma st

/-- The loop of `StructParser::parse`, src/core/json/decoder.rs L105-142.  The number bounds the iterations;
each clears an element of a set of at most 64. -/
def structLoop (env : Env) (indices : List (Str × Nat)) (fields : List Parser) :
    Nat → Nat → Bool → St → Parse St
  | 0, visited, _, st => if visited = 0 then .ok st else fail
  | n + 1, visited, first, st =>
    if visited = 0 then .ok st
    else do
      let st ← separator env first st
      let index ← fieldIndex indices st.tok
      if hasElement visited index then do
        let st ← advance env st
        let st ← mustBe env .colon st
        let st ← fieldParser fields index st
        structLoop env indices fields n (clearElement visited index) false st
      else fail

/-- `StructParser::parse`, src/core/json/decoder.rs L89-151. -/
def structParser (env : Env) (indices : List (Str × Nat)) (fields : List Parser) : Parser := fun st => do
  let st ← mustBe env .beginObject st
  let visited ← newWithElements env.chk fields.length
  let st ← structLoop env indices fields 64 visited true st
  mustBe env .endObject st

/-- The case at the current token, src/core/json/decoder.rs L186-193. -/
def findCase (cases : List (Str × (Nat × Parser))) : Tok → Parse (Nat × Parser)
  | .string label => match lastEntry label cases with
    | none => fail
    | some c => .ok c
  | _ => fail

/-- `EnumParser::parse`, src/core/json/decoder.rs L158-225. -/
def enumParser (env : Env) (path : Path) (cases : List (Str × (Nat × Parser))) : Parser := fun st => do
  let st ← mustBe env .beginObject st
  let st ← mustBe env (.string ['k', 'i', 'n', 'd']) st
  let st ← mustBe env .colon st
  let (index, parser) ← findCase cases st.tok
  let st ← advance env { st with out := st.out.addCaseTag path index }
  let st ← mustBe env .comma st
  let st ← mustBe env (.string ['v', 'a', 'l', 'u', 'e']) st
  let st ← mustBe env .colon st
  let st ← parser st
  mustBe env .endObject st

/-- The loop of `TupleParser::parse`, src/core/json/decoder.rs L243-256. -/
def tupleLoop (env : Env) : List Parser → Bool → Parser
  | [], _ => fun st => .ok st
  | e :: es, first => fun st => do
    let st ← separator env first st
    let st ← e st
    tupleLoop env es false st

/-- `TupleParser::parse`, src/core/json/decoder.rs L231-265. -/
def tupleParser (env : Env) (elements : List Parser) : Parser := fun st => do
  let st ← mustBe env .beginArray st
  let st ← tupleLoop env elements true st
  mustBe env .endArray st

/-- `StringParser::parse`, src/core/json/decoder.rs L271-284. -/
def stringParser (env : Env) (path : Path) : Parser := fun st =>
  match st.tok with
  | .string s => advance env { st with out := st.out.addString path s }
  | _ => fail

/-- `T::from_str` for the numeric primitives, src/core/json/decoder.rs L303. -/
def fromStr (F : FloatText) : Prim → Str → Option PrimVal
  | .f32, s => (F.parse32 s).map fun v => ⟨.f32, v⟩
  | .f64, s => (F.parse64 s).map fun v => ⟨.f64, v⟩
  | .u8, s => (parseUnsigned (2 ^ 8 - 1) s).map fun n => ⟨.u8, BitVec.ofNat 8 n⟩
  | .u16, s => (parseUnsigned (2 ^ 16 - 1) s).map fun n => ⟨.u16, BitVec.ofNat 16 n⟩
  | .u32, s => (parseUnsigned (2 ^ 32 - 1) s).map fun n => ⟨.u32, BitVec.ofNat 32 n⟩
  | .u64, s => (parseUnsigned (2 ^ 64 - 1) s).map fun n => ⟨.u64, BitVec.ofNat 64 n⟩
  | .u128, s => (parseUnsigned (2 ^ 128 - 1) s).map fun n => ⟨.u128, BitVec.ofNat 128 n⟩
  | .i8, s => (parseSigned (-2 ^ 7) (2 ^ 7 - 1) s).map fun n => ⟨.i8, BitVec.ofInt 8 n⟩
  | .i16, s => (parseSigned (-2 ^ 15) (2 ^ 15 - 1) s).map fun n => ⟨.i16, BitVec.ofInt 16 n⟩
  | .i32, s => (parseSigned (-2 ^ 31) (2 ^ 31 - 1) s).map fun n => ⟨.i32, BitVec.ofInt 32 n⟩
  | .i64, s => (parseSigned (-2 ^ 63) (2 ^ 63 - 1) s).map fun n => ⟨.i64, BitVec.ofInt 64 n⟩
  | .i128, s => (parseSigned (-2 ^ 127) (2 ^ 127 - 1) s).map fun n => ⟨.i128, BitVec.ofInt 128 n⟩
  | .bool, _ | .char, _ => none

/-- `parse_primitive_number`, src/core/json/decoder.rs L291-310. -/
def parsePrimitiveNumber (env : Env) (p : Prim) (path : Path) : Parser := fun st =>
  match st.tok with
  | .string s | .number s => match fromStr env.floats p s with
    | some v => advance env { st with out := st.out.addPrimitive path v }
    | none => fail
  | _ => fail

/-- `extract_char`, src/core/json/decoder.rs L312-323. -/
def extractChar : Str → Option Char
  | [c] => some c
  | _ => none

/-- `PrimitiveParser::parse`, src/core/json/decoder.rs L325-437. -/
def primitiveParser (env : Env) (p : Prim) (path : Path) : Parser :=
  match p with
  | .bool => fun st => match st.tok with
    | .true => advance env { st with out := st.out.addPrimitive path ⟨.bool, Bool.true⟩ }
    | .false => advance env { st with out := st.out.addPrimitive path ⟨.bool, Bool.false⟩ }
    | _ => fail
  | .char => fun st => match st.tok with
    | .string s => match extractChar s with
      | none => do
        let _ ← advance env st
        fail
      | some c => advance env { st with out := st.out.addPrimitive path ⟨.char, c⟩ }
    | _ => fail
  | p => parsePrimitiveNumber env p path

/-- `NullParser::parse`, src/core/json/decoder.rs L441-455. -/
def nullParser (env : Env) : Parser := fun st =>
  match st.tok with
  | .null => advance env st
  | _ => fail

mutual
/-- `parser_for_type`, src/core/json/decoder.rs L457-516. -/
def parserFor (env : Env) : Path → Ty → Parser
  | _, .unit => nullParser env
  | p, .prim q => primitiveParser env q p
  | p, .string => stringParser env p
  | p, .tuple cs => tupleParser env (parsersL env p cs 0)
  | p, .struct fs => structParser env (numbered fs 0) (parsersF env p fs 0)
  | p, .enum cs => enumParser env p (parsersE env p cs 0)
/-- The component parsers, src/core/json/decoder.rs L466-473. -/
def parsersL (env : Env) : Path → List Ty → Nat → List Parser
  | _, [], _ => []
  | p, c :: cs, i => parserFor env (p ++ [i]) c :: parsersL env p cs (i + 1)
/-- The field parsers, src/core/json/decoder.rs L482-489. -/
def parsersF (env : Env) : Path → List (Str × Ty) → Nat → List Parser
  | _, [], _ => []
  | p, f :: fs, i => parserP env (p ++ [i]) f :: parsersF env p fs (i + 1)
/-- The case parsers, src/core/json/decoder.rs L498-508. -/
def parsersE (env : Env) : Path → List (Str × Ty) → Nat → List (Str × (Nat × Parser))
  | _, [], _ => []
  | p, c :: cs, i => (c.1, (i, parserP env (p ++ [i]) c)) :: parsersE env p cs (i + 1)
/-- The parser of one field or case. -/
def parserP (env : Env) : Path → Str × Ty → Parser
  | p, (_, t) => parserFor env p t
end

/-- `JsonDecoder::new` and `JsonDecoder::parse`, src/core/json/decoder.rs L522-537. -/
def decode (env : Env) (t : Ty) (input : Str) : Parse IntermediateDataSource := do
  let (tok, rest) ← next env.alnum input
  let st ← parserFor env [] t { tok := tok, rest := rest, out := [] }
  .ok st.out

end Verif.Json
