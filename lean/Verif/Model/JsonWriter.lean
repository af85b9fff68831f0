import Verif.Model.JsonEncoder

/-!
# Model of `src/core/json/encoder.rs` with an arbitrary writer

`JsonEncoder::encode` takes a `&mut dyn io::Write`.  `Verif.Json.encode` (`Verif/Model/JsonEncoder.lean`)
models the case of a `Vec<u8>`; here the writer is anything that keeps the contract of `io::Write`.

The encoder learns about its writer through the results of `write` only, so a writer is the list of the
answers it gives, one for each call.  The answers may be any; a list that is too short stands for a call
that has not come back yet (`Out.waiting`), so the lists describe every stage of every execution, including
the ones in which `write_all` tries forever.  Not modelled: a writer that claims to have taken more than it
was offered (the contract forbids it), and writers that panic.

`io::Write::write_all` and `io::Write::write_fmt` are standard library code, modelled by their documentation.
-/

namespace Verif.Json

/-- What one call of `io::Write::write` returns. -/
inductive Answer where
  /-- `Ok(n)`, with `n` the number given here or the length of the slice offered if that is less. -/
  | took (n : Nat)
  /-- `Err` of kind `ErrorKind::Interrupted`. -/
  | interrupted
  /-- `Err` of any other kind. -/
  | failed
  deriving DecidableEq, Repr

/-- The writer: the answers to come and the bytes it has taken. -/
structure Io where
  script : List Answer
  received : Bytes
  deriving DecidableEq, Repr

/-- How far a function with a writer has come. -/
inductive Out where
  /-- `Ok(())`. -/
  | done
  /-- `Err(_)`. -/
  | ioErr
  /-- In a call of the writer. -/
  | waiting
  | fault (f : Fault)
  deriving DecidableEq, Repr

/-- A function with a `&mut dyn io::Write` that returns `io::Result<()>`. -/
abbrev Step := Io → Out × Io

/-- `writer.write(bs)?;`, as in `write_ch`, src/core/json/encoder.rs L33-81: one call, and the number of bytes
taken is not looked at. -/
def writeOnce (bs : Bytes) : Step
  | ⟨[], r⟩ => (.waiting, ⟨[], r⟩)
  | ⟨.took n :: s, r⟩ => (.done, ⟨s, r ++ bs.take n⟩)
  | ⟨.interrupted :: s, r⟩ => (.ioErr, ⟨s, r⟩)
  | ⟨.failed :: s, r⟩ => (.ioErr, ⟨s, r⟩)

/-- The loop of `io::Write::write_all`: until the slice is empty; interruptions are ignored and `Ok(0)` is the
error `WriteZero`. -/
def writeAllLoop : List Answer → Bytes → Bytes → Out × Io
  | s, r, [] => (.done, ⟨s, r⟩)
  | [], r, _ :: _ => (.waiting, ⟨[], r⟩)
  | .took 0 :: s, r, _ :: _ => (.ioErr, ⟨s, r⟩)
  | .took (n + 1) :: s, r, b :: bs => writeAllLoop s (r ++ b :: bs.take n) (bs.drop n)
  | .interrupted :: s, r, b :: bs => writeAllLoop s r (b :: bs)
  | .failed :: s, r, _ :: _ => (.ioErr, ⟨s, r⟩)

/-- `writer.write_all(bs)?;` -/
def writeAll (bs : Bytes) : Step := fun io => writeAllLoop io.script io.received bs

/-- One statement after the other; `?` after the first. -/
def Step.andThen (a b : Step) : Step := fun io =>
  match a io with
  | (.done, io) => b io
  | r => r

/-- Ask the data source, which may panic. -/
def Step.reading {α : Type} (r : Res α) (k : α → Step) : Step :=
  match r with
  | .ok a => k a
  | .error f => fun io => (.fault f, io)

/-- Nothing to be done. -/
def Step.skip : Step := fun io => (.done, io)

/-- `write_ch`, src/core/json/encoder.rs L33-81: the bytes of the character in one call of `write`. -/
def writeChTo (c : Char) : Step := writeOnce (writeCh c)

/-- The loop of `emit_utf8_string`, src/core/json/encoder.rs L86-88. -/
def writeChars : Str → Step
  | [] => .skip
  | c :: s => (writeChTo c).andThen (writeChars s)

/-- `emit_utf8_string`, src/core/json/encoder.rs L83-92. -/
def emitStringTo (s : Str) : Step :=
  ((writeAll (Str.utf8 ['"'])).andThen (writeChars s)).andThen (writeAll (Str.utf8 ['"']))

/-- The pieces in which `write!` hands over a number to `write_all` (`io::Write::write_fmt`): for an integer
the sign and the digits, for a floating point number whatever the library makes of it. -/
structure Pieces where
  split : Str → List Str
  whole : ∀ s, (split s).flatten = s

/-- `write!(writer, "{}", value)?;`, src/core/json/encoder.rs L229. -/
def writePieces : List Str → Step
  | [] => .skip
  | s :: ss => (writeAll s.utf8).andThen (writePieces ss)

/-- `dyn JsonEmitter`, src/core/json/encoder.rs L94-96. -/
abbrev EmitterTo := DataSource → Step

/-- `EmitBoolean`, `EmitChar` and `EmitNumber`, src/core/json/encoder.rs L188-249, and their choice in
`emitter_for_type` L257-342. -/
def emitPrimTo (F : FloatText) (P : Pieces) (p : Prim) (path : Path) : EmitterTo := fun src =>
  match p with
  | .bool => .reading (src.prim .bool path) fun v => writeAll (display F .bool v).utf8
  | .char =>
    ((writeAll (Str.utf8 ['"'])).andThen (.reading (src.prim .char path) writeChTo)).andThen
      (writeAll (Str.utf8 ['"']))
  | p => .reading (src.prim p path) fun v => writePieces (P.split (display F p v))

/-- `EmitString`, src/core/json/encoder.rs L176-186. -/
def emitStrTo (path : Path) : EmitterTo := fun src =>
  .reading (src.bytes path) fun bs =>
    match fromUtf8 bs with
    | some s => emitStringTo s
    | none => fun io => (.fault .panic, io)

/-- The separator between components, src/core/json/encoder.rs L116-122, L140-146. -/
def commaTo (first : Bool) : Step := if first then .skip else writeAll (Str.utf8 [','])

/-- The loop of `EmitTuple::emit`, src/core/json/encoder.rs L116-125. -/
def emitAllTo : List EmitterTo → Bool → EmitterTo
  | [], _ => fun _ => .skip
  | e :: es, first => fun src => ((commaTo first).andThen (e src)).andThen (emitAllTo es false src)

/-- The loop of `EmitStruct::emit`, src/core/json/encoder.rs L140-151. -/
def emitFieldsTo : List (Str × EmitterTo) → Bool → EmitterTo
  | [], _ => fun _ => .skip
  | (name, e) :: es, first => fun src =>
    ((((commaTo first).andThen (emitStringTo name)).andThen (writeAll (Str.utf8 [':']))).andThen
      (e src)).andThen (emitFieldsTo es false src)

/-- `EmitTuple::emit`, src/core/json/encoder.rs L112-130. -/
def emitTupleTo (components : List EmitterTo) : EmitterTo := fun src =>
  ((writeAll (Str.utf8 ['['])).andThen (emitAllTo components true src)).andThen (writeAll (Str.utf8 [']']))

/-- `EmitStruct::emit`, src/core/json/encoder.rs L136-156. -/
def emitStructTo (fields : List (Str × EmitterTo)) : EmitterTo := fun src =>
  ((writeAll (Str.utf8 ['{'])).andThen (emitFieldsTo fields true src)).andThen (writeAll (Str.utf8 ['}']))

/-- The part of `EmitEnum::emit` after the tag is known, src/core/json/encoder.rs L168-172;
`self.cases[case_tag]` panics out of range. -/
def emitCaseTo (cases : List (Str × EmitterTo)) (src : DataSource) (tag : Nat) : Step :=
  match cases[tag]? with
  | some c =>
    (((emitStringTo c.1).andThen
      (writeAll (Str.utf8 [',', '"', 'v', 'a', 'l', 'u', 'e', '"', ':']))).andThen (c.2 src)).andThen
      (writeAll (Str.utf8 ['}']))
  | none => fun io => (.fault .panic, io)

/-- `EmitEnum::emit`, src/core/json/encoder.rs L163-174. -/
def emitEnumTo (path : Path) (cases : List (Str × EmitterTo)) : EmitterTo := fun src =>
  (writeAll (Str.utf8 ['{', '"', 'k', 'i', 'n', 'd', '"', ':'])).andThen
    (.reading (src.tag path) (emitCaseTo cases src))

mutual
/-- `emitter_for_type`, src/core/json/encoder.rs L255-393. -/
def emitterTo (F : FloatText) (P : Pieces) : Path → Ty → EmitterTo
  | _, .unit => fun _ => writeAll (Str.utf8 ['n', 'u', 'l', 'l'])
  | p, .prim q => emitPrimTo F P q p
  | p, .string => emitStrTo p
  | p, .tuple cs => emitTupleTo (emittersToL F P p cs 0)
  | p, .struct fs => emitStructTo (emittersToF F P p fs 0)
  | p, .enum cs => emitEnumTo p (emittersToF F P p cs 0)
/-- The component emitters, src/core/json/encoder.rs L344-351. -/
def emittersToL (F : FloatText) (P : Pieces) : Path → List Ty → Nat → List EmitterTo
  | _, [], _ => []
  | p, c :: cs, i => emitterTo F P (p ++ [i]) c :: emittersToL F P p cs (i + 1)
/-- The field and case emitters, src/core/json/encoder.rs L361-371, L375-385. -/
def emittersToF (F : FloatText) (P : Pieces) : Path → List (Str × Ty) → Nat → List (Str × EmitterTo)
  | _, [], _ => []
  | p, f :: fs, i => emitterToP F P (p ++ [i]) f :: emittersToF F P p fs (i + 1)
/-- The emitter of one field or case, with its label. -/
def emitterToP (F : FloatText) (P : Pieces) : Path → Str × Ty → Str × EmitterTo
  | p, (l, t) => (l, emitterTo F P p t)
end

/-- `JsonEncoder::new` and `JsonEncoder::encode`, src/core/json/encoder.rs L395-407. -/
def encodeTo (F : FloatText) (P : Pieces) (t : Ty) (src : DataSource) : Step := emitterTo F P [] t src

end Verif.Json
