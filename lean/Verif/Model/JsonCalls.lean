import Verif.Model.JsonDecoder

/-!
# The decoder with the number of calls

The functions of `Verif/Model/JsonDecoder.lean` once more; beside the outcome they return how many calls of
`JsonParser::parse` were made, how deep these were nested, and how often `Tokenizer::next` was called.  The tokenizer
has loops only, so that `parse` is the only function of the decoder that calls itself.
-/

namespace Verif.Json

/-- An outcome, and what it took: calls of `parse`, their nesting, calls of `next`. -/
structure Costed (α : Type) where
  result : Parse α
  calls : Nat
  depth : Nat
  reads : Nat

/-- The outcome of something that calls neither. -/
def Costed.free {α : Type} (x : Parse α) : Costed α := ⟨x, 0, 0, 0⟩

/-- One after the other; after an error or a panic nothing more is called. -/
def Costed.andThen {α β : Type} (x : Costed α) (f : α → Costed β) : Costed β :=
  match x.result with
  | .ok a => ⟨(f a).result, x.calls + (f a).calls, max x.depth (f a).depth, x.reads + (f a).reads⟩
  | .error e => ⟨.error e, x.calls, x.depth, x.reads⟩

instance : Monad Costed where
  pure a := .free (.ok a)
  bind := Costed.andThen

/-- A call of `parse`. -/
def parseCall {α : Type} (x : Costed α) : Costed α := ⟨x.result, x.calls + 1, x.depth + 1, x.reads⟩

/-- `dyn JsonParser`, src/core/json/decoder.rs L47-53. -/
abbrev CostedParser := St → Costed St

/-- `tokenizer.next()?`. -/
def advanceC (env : Env) (st : St) : Costed St := ⟨advance env st, 0, 0, 1⟩

/-- `must_be`, src/core/json/decoder.rs L34-45. -/
def mustBeC (env : Env) (tok : Tok) (st : St) : Costed St :=
  if st.tok ≠ tok then .free fail else advanceC env st

/-- `self.fields[index]`, src/core/json/decoder.rs L141. -/
def fieldParserC (fields : List CostedParser) (index : Nat) : CostedParser :=
  match fields[index]? with
  | some p => p
  | none => fun _ => .free panic

/-- The separator before a field, src/core/json/decoder.rs L106-114. -/
def separatorC (env : Env) (first : Bool) (st : St) : Costed St :=
  if first then .free (.ok st) else mustBeC env .comma st

/-- The loop of `StructParser::parse`, src/core/json/decoder.rs L105-142, as `structLoop`. -/
def structLoopC (env : Env) (indices : List (Str × Nat)) (fields : List CostedParser) :
    Nat → Nat → Bool → St → Costed St
  | 0, visited, _, st => .free (if visited = 0 then .ok st else fail)
  | n + 1, visited, first, st =>
    if visited = 0 then .free (.ok st)
    else do
      let st ← separatorC env first st
      let index ← .free (fieldIndex indices st.tok)
      if hasElement visited index then do
        let st ← advanceC env st
        let st ← mustBeC env .colon st
        let st ← fieldParserC fields index st
        structLoopC env indices fields n (clearElement visited index) false st
      else .free fail

/-- `StructParser::parse`, src/core/json/decoder.rs L89-151. -/
def structParserC (env : Env) (indices : List (Str × Nat)) (fields : List CostedParser) : CostedParser :=
  fun st => parseCall do
    let st ← mustBeC env .beginObject st
    let visited ← .free (newWithElements env.chk fields.length)
    let st ← structLoopC env indices fields 64 visited true st
    mustBeC env .endObject st

/-- The case at the current token, src/core/json/decoder.rs L186-193. -/
def findCaseC (cases : List (Str × (Nat × CostedParser))) : Tok → Parse (Nat × CostedParser)
  | .string label => match lastEntry label cases with
    | none => fail
    | some c => .ok c
  | _ => fail

/-- `EnumParser::parse`, src/core/json/decoder.rs L158-225. -/
def enumParserC (env : Env) (path : Path) (cases : List (Str × (Nat × CostedParser))) : CostedParser :=
  fun st => parseCall do
    let st ← mustBeC env .beginObject st
    let st ← mustBeC env (.string ['k', 'i', 'n', 'd']) st
    let st ← mustBeC env .colon st
    let (index, parser) ← .free (findCaseC cases st.tok)
    let st ← advanceC env { st with out := st.out.addCaseTag path index }
    let st ← mustBeC env .comma st
    let st ← mustBeC env (.string ['v', 'a', 'l', 'u', 'e']) st
    let st ← mustBeC env .colon st
    let st ← parser st
    mustBeC env .endObject st

/-- The loop of `TupleParser::parse`, src/core/json/decoder.rs L243-256. -/
def tupleLoopC (env : Env) : List CostedParser → Bool → CostedParser
  | [], _ => fun st => .free (.ok st)
  | e :: es, first => fun st => do
    let st ← separatorC env first st
    let st ← e st
    tupleLoopC env es false st

/-- `TupleParser::parse`, src/core/json/decoder.rs L231-265. -/
def tupleParserC (env : Env) (elements : List CostedParser) : CostedParser := fun st => parseCall do
  let st ← mustBeC env .beginArray st
  let st ← tupleLoopC env elements true st
  mustBeC env .endArray st

/-- `StringParser::parse`, src/core/json/decoder.rs L271-284. -/
def stringParserC (env : Env) (path : Path) : CostedParser := fun st => parseCall <|
  match st.tok with
  | .string s => advanceC env { st with out := st.out.addString path s }
  | _ => .free fail

/-- `parse_primitive_number`, src/core/json/decoder.rs L291-310. -/
def parsePrimitiveNumberC (env : Env) (p : Prim) (path : Path) : CostedParser := fun st =>
  match st.tok with
  | .string s | .number s => match fromStr env.floats p s with
    | some v => advanceC env { st with out := st.out.addPrimitive path v }
    | none => .free fail
  | _ => .free fail

/-- `PrimitiveParser::parse`, src/core/json/decoder.rs L325-437. -/
def primitiveParserC (env : Env) (p : Prim) (path : Path) : CostedParser := fun st => parseCall <|
  match p with
  | .bool => match st.tok with
    | .true => advanceC env { st with out := st.out.addPrimitive path ⟨.bool, Bool.true⟩ }
    | .false => advanceC env { st with out := st.out.addPrimitive path ⟨.bool, Bool.false⟩ }
    | _ => .free fail
  | .char => match st.tok with
    | .string s => match extractChar s with
      | none => do
        let _ ← advanceC env st
        .free fail
      | some c => advanceC env { st with out := st.out.addPrimitive path ⟨.char, c⟩ }
    | _ => .free fail
  | p => parsePrimitiveNumberC env p path st

/-- `NullParser::parse`, src/core/json/decoder.rs L441-455. -/
def nullParserC (env : Env) : CostedParser := fun st => parseCall <|
  match st.tok with
  | .null => advanceC env st
  | _ => .free fail

mutual
/-- `parser_for_type`, src/core/json/decoder.rs L457-516. -/
def parserForC (env : Env) : Path → Ty → CostedParser
  | _, .unit => nullParserC env
  | p, .prim q => primitiveParserC env q p
  | p, .string => stringParserC env p
  | p, .tuple cs => tupleParserC env (parsersLC env p cs 0)
  | p, .struct fs => structParserC env (numbered fs 0) (parsersFC env p fs 0)
  | p, .enum cs => enumParserC env p (parsersEC env p cs 0)
/-- The component parsers, src/core/json/decoder.rs L466-473. -/
def parsersLC (env : Env) : Path → List Ty → Nat → List CostedParser
  | _, [], _ => []
  | p, c :: cs, i => parserForC env (p ++ [i]) c :: parsersLC env p cs (i + 1)
/-- The field parsers, src/core/json/decoder.rs L482-489. -/
def parsersFC (env : Env) : Path → List (Str × Ty) → Nat → List CostedParser
  | _, [], _ => []
  | p, f :: fs, i => parserPC env (p ++ [i]) f :: parsersFC env p fs (i + 1)
/-- The case parsers, src/core/json/decoder.rs L498-508. -/
def parsersEC (env : Env) : Path → List (Str × Ty) → Nat → List (Str × (Nat × CostedParser))
  | _, [], _ => []
  | p, c :: cs, i => (c.1, (i, parserPC env (p ++ [i]) c)) :: parsersEC env p cs (i + 1)
/-- The parser of one field or case. -/
def parserPC (env : Env) : Path → Str × Ty → CostedParser
  | p, (_, t) => parserForC env p t
end

/-- `JsonDecoder::new` and `JsonDecoder::parse`, src/core/json/decoder.rs L522-537; `Tokenizer::new` calls `next`
(src/core/json/tokenizer.rs L140-155). -/
def decodeC (env : Env) (t : Ty) (input : Str) : Costed IntermediateDataSource := do
  let (tok, rest) ← ⟨next env.alnum input, 0, 0, 1⟩
  let st ← parserForC env [] t { tok := tok, rest := rest, out := [] }
  return st.out

end Verif.Json
