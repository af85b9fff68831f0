import Verif.Model.JsonDecoder

/-!
# Model of `src/core/json/decoder.rs` with the data source after errors

The functions of `Verif/Model/JsonDecoder.lean` again, in a form in which the data source that is being filled is
there whatever the outcome.  C114 shows that they agree when the outcome is `Ok`.
-/

namespace Verif.Json

/-- A function that is given `data_source: &mut IntermediateDataSource`: the outcome, and the data source after it. -/
def Fill (α : Type) := IntermediateDataSource → Parse α × IntermediateDataSource

/-- The operator `?`: an error or panic ends the function, and the data source is left as it is. -/
def Fill.bind {α β : Type} (f : Fill α) (g : α → Fill β) : Fill β := fun d =>
  match f d with
  | (.ok a, d') => g a d'
  | (.error e, d') => (.error e, d')

instance : Monad Fill where
  pure a := fun d => (.ok a, d)
  bind := Fill.bind

/-- A computation that does not use the data source. -/
def Fill.lift {α : Type} (r : Parse α) : Fill α := fun d => (r, d)

/-- A call that changes the data source. -/
def Fill.change (f : IntermediateDataSource → IntermediateDataSource) : Fill Unit := fun d => (.ok (), f d)

/-- The tokenizer: the current token and the text that is left. -/
abbrev Pos := Tok × Str

/-- `dyn JsonParser`, src/core/json/decoder.rs L47-53. -/
abbrev Filler := Pos → Fill Pos

/-- `tokenizer.next()?`. -/
def fillAdvance (env : Env) (p : Pos) : Fill Pos := Fill.lift (next env.alnum p.2)

/-- `must_be`, src/core/json/decoder.rs L34-45. -/
def fillMustBe (env : Env) (tok : Tok) (p : Pos) : Fill Pos :=
  if p.1 ≠ tok then Fill.lift fail else fillAdvance env p

/-- `self.fields[index]`, src/core/json/decoder.rs L141. -/
def fillField (fields : List Filler) (index : Nat) : Filler :=
  match fields[index]? with
  | some p => p
  | none => fun _ => Fill.lift panic

/-- The separator before a field, src/core/json/decoder.rs L106-114. -/
def fillSeparator (env : Env) (first : Bool) (p : Pos) : Fill Pos :=
  if first then pure p else fillMustBe env .comma p

/-- The loop of `StructParser::parse`, src/core/json/decoder.rs L105-142. -/
def fillStructLoop (env : Env) (indices : List (Str × Nat)) (fields : List Filler) : Nat → Nat → Bool → Filler
  | 0, visited, _, p => if visited = 0 then pure p else Fill.lift fail
  | n + 1, visited, first, p =>
    if visited = 0 then pure p
    else do
      let p ← fillSeparator env first p
      let index ← Fill.lift (fieldIndex indices p.1)
      if hasElement visited index then do
        let p ← fillAdvance env p
        let p ← fillMustBe env .colon p
        let p ← fillField fields index p
        fillStructLoop env indices fields n (clearElement visited index) false p
      else Fill.lift fail

/-- `StructParser::parse`, src/core/json/decoder.rs L89-151. -/
def fillStruct (env : Env) (indices : List (Str × Nat)) (fields : List Filler) : Filler := fun p => do
  let p ← fillMustBe env .beginObject p
  let visited ← Fill.lift (newWithElements env.chk fields.length)
  let p ← fillStructLoop env indices fields 64 visited true p
  fillMustBe env .endObject p

/-- The case at the current token, src/core/json/decoder.rs L186-193. -/
def fillCase (cases : List (Str × (Nat × Filler))) : Tok → Parse (Nat × Filler)
  | .string label => match lastEntry label cases with
    | none => fail
    | some c => .ok c
  | _ => fail

/-- `EnumParser::parse`, src/core/json/decoder.rs L158-225. -/
def fillEnum (env : Env) (path : Path) (cases : List (Str × (Nat × Filler))) : Filler := fun p => do
  let p ← fillMustBe env .beginObject p
  let p ← fillMustBe env (.string ['k', 'i', 'n', 'd']) p
  let p ← fillMustBe env .colon p
  let c ← Fill.lift (fillCase cases p.1)
  Fill.change fun d => d.addCaseTag path c.1
  let p ← fillAdvance env p
  let p ← fillMustBe env .comma p
  let p ← fillMustBe env (.string ['v', 'a', 'l', 'u', 'e']) p
  let p ← fillMustBe env .colon p
  let p ← c.2 p
  fillMustBe env .endObject p

/-- The loop of `TupleParser::parse`, src/core/json/decoder.rs L243-256. -/
def fillTupleLoop (env : Env) : List Filler → Bool → Filler
  | [], _ => fun p => pure p
  | e :: es, first => fun p => do
    let p ← fillSeparator env first p
    let p ← e p
    fillTupleLoop env es false p

/-- `TupleParser::parse`, src/core/json/decoder.rs L231-265. -/
def fillTuple (env : Env) (elements : List Filler) : Filler := fun p => do
  let p ← fillMustBe env .beginArray p
  let p ← fillTupleLoop env elements true p
  fillMustBe env .endArray p

/-- `StringParser::parse`, src/core/json/decoder.rs L271-284. -/
def fillString (env : Env) (path : Path) : Filler := fun p =>
  match p.1 with
  | .string s => do
    Fill.change fun d => d.addString path s
    fillAdvance env p
  | _ => Fill.lift fail

/-- `parse_primitive_number`, src/core/json/decoder.rs L291-310. -/
def fillNumber (env : Env) (q : Prim) (path : Path) : Filler := fun p =>
  match p.1 with
  | .string s | .number s => match fromStr env.floats q s with
    | some v => do
      Fill.change fun d => d.addPrimitive path v
      fillAdvance env p
    | none => Fill.lift fail
  | _ => Fill.lift fail

/-- `PrimitiveParser::parse`, src/core/json/decoder.rs L325-437. -/
def fillPrimitive (env : Env) (q : Prim) (path : Path) : Filler :=
  match q with
  | .bool => fun p => match p.1 with
    | .true => do
      Fill.change fun d => d.addPrimitive path ⟨.bool, Bool.true⟩
      fillAdvance env p
    | .false => do
      Fill.change fun d => d.addPrimitive path ⟨.bool, Bool.false⟩
      fillAdvance env p
    | _ => Fill.lift fail
  | .char => fun p => match p.1 with
    | .string s => match extractChar s with
      | none => do
        let _ ← fillAdvance env p
        Fill.lift fail
      | some c => do
        Fill.change fun d => d.addPrimitive path ⟨.char, c⟩
        fillAdvance env p
    | _ => Fill.lift fail
  | q => fillNumber env q path

/-- `NullParser::parse`, src/core/json/decoder.rs L441-455. -/
def fillNull (env : Env) : Filler := fun p =>
  match p.1 with
  | .null => fillAdvance env p
  | _ => Fill.lift fail

mutual
/-- `parser_for_type`, src/core/json/decoder.rs L457-516. -/
def fillFor (env : Env) : Path → Ty → Filler
  | _, .unit => fillNull env
  | p, .prim q => fillPrimitive env q p
  | p, .string => fillString env p
  | p, .tuple cs => fillTuple env (fillersL env p cs 0)
  | p, .struct fs => fillStruct env (numbered fs 0) (fillersF env p fs 0)
  | p, .enum cs => fillEnum env p (fillersE env p cs 0)
/-- The component parsers, src/core/json/decoder.rs L466-473. -/
def fillersL (env : Env) : Path → List Ty → Nat → List Filler
  | _, [], _ => []
  | p, c :: cs, i => fillFor env (p ++ [i]) c :: fillersL env p cs (i + 1)
/-- The field parsers, src/core/json/decoder.rs L482-489. -/
def fillersF (env : Env) : Path → List (Str × Ty) → Nat → List Filler
  | _, [], _ => []
  | p, f :: fs, i => fillerP env (p ++ [i]) f :: fillersF env p fs (i + 1)
/-- The case parsers, src/core/json/decoder.rs L498-508. -/
def fillersE (env : Env) : Path → List (Str × Ty) → Nat → List (Str × (Nat × Filler))
  | _, [], _ => []
  | p, c :: cs, i => (c.1, (i, fillerP env (p ++ [i]) c)) :: fillersE env p cs (i + 1)
/-- The parser of one field or case. -/
def fillerP (env : Env) : Path → Str × Ty → Filler
  | p, (_, t) => fillFor env p t
end

/-- `JsonDecoder::parse`, src/core/json/decoder.rs L528-537, for the data source `old`: the outcome and the data source
after it.  It is cleared only when the first token has been read. -/
def decodeInto (env : Env) (t : Ty) (input : Str) (old : IntermediateDataSource) : Parse Unit × IntermediateDataSource :=
  match next env.alnum input with
  | .error e => (.error e, old)
  | .ok p =>
    match fillFor env [] t p old.clear with
    | (.ok _, d) => (.ok (), d)
    | (.error e, d) => (.error e, d)

end Verif.Json
