import Verif.Model.JsonDecoder
import Verif.Model.Utf8

/-!
# Model of `src/core/json/encoder.rs`

The writer is a `Vec<u8>` (as in the tests): writing appends and cannot fail.  The emitter objects built by
`emitter_for_type` are functions from the data source to the bytes written.
-/

namespace Verif.Json

/-- `c as u8`: the low eight bits. -/
def asU8 (n : Nat) : UInt8 := UInt8.ofNat n

/-- `write_ch`, src/core/json/encoder.rs L33-81. -/
def writeCh (c : Char) : Bytes :=
  let v := c.toNat
  if v = 0 then ['\\', '0'].map fun c => asU8 c.toNat
  else if c = '\\' then ['\\', '\\'].map fun c => asU8 c.toNat
  else if c = '/' then ['\\', '/'].map fun c => asU8 c.toNat
  else if c = '"' then ['\\', '"'].map fun c => asU8 c.toNat
  else if v = 8 then ['\\', 'b'].map fun c => asU8 c.toNat
  else if v = 12 then ['\\', 'f'].map fun c => asU8 c.toNat
  else if c = '\n' then ['\\', 'n'].map fun c => asU8 c.toNat
  else if c = '\r' then ['\\', 'r'].map fun c => asU8 c.toNat
  else if c = '\t' then ['\\', 't'].map fun c => asU8 c.toNat
  else if v ≤ 0x1f then
    (['\\', 'u', '0', '0'].map fun c => asU8 c.toNat) ++ [(48 : UInt8) + (asU8 v >>> 4), (48 : UInt8) + (asU8 v &&& 0xf)]
  else if v ≤ 0x7f then [asU8 v]
  else if v ≤ 0x7ff then
    [asU8 (v >>> 6) &&& 0x1f ||| 0xc0, asU8 v &&& 0x3f ||| 0x80]
  else if v ≤ 0x7fff then
    [asU8 (v >>> 12) &&& 0x0f ||| 0xe0, asU8 (v >>> 6) &&& 0x3f ||| 0x80, asU8 v &&& 0x3f ||| 0x80]
  else
    [asU8 (v >>> 18) &&& 0x07 ||| 0xf0, asU8 (v >>> 12) &&& 0x3f ||| 0x80,
      asU8 (v >>> 6) &&& 0x3f ||| 0x80, asU8 v &&& 0x3f ||| 0x80]

/-- `emit_utf8_string`, src/core/json/encoder.rs L83-92. -/
def emitString (s : Str) : Bytes := Str.utf8 ['"'] ++ s.flatMap writeCh ++ Str.utf8 ['"']

/-- `dyn JsonEmitter`, src/core/json/encoder.rs L94-96. -/
abbrev Emitter := DataSource → Res Bytes

/-- `Display` of the numeric primitives, src/core/json/encoder.rs L224-249 (`bool` and `char` have their own
emitters). -/
def display (F : FloatText) : (p : Prim) → p.Val → Str
  | .bool, b => bif b then ['t', 'r', 'u', 'e'] else ['f', 'a', 'l', 's', 'e']
  | .char, c => [c]
  | .u8, v => decDigits (BitVec.toNat (w := 8) v)
  | .u16, v => decDigits (BitVec.toNat (w := 16) v)
  | .u32, v => decDigits (BitVec.toNat (w := 32) v)
  | .u64, v => decDigits (BitVec.toNat (w := 64) v)
  | .u128, v => decDigits (BitVec.toNat (w := 128) v)
  | .i8, v => decInt (BitVec.toInt (n := 8) v)
  | .i16, v => decInt (BitVec.toInt (n := 16) v)
  | .i32, v => decInt (BitVec.toInt (n := 32) v)
  | .i64, v => decInt (BitVec.toInt (n := 64) v)
  | .i128, v => decInt (BitVec.toInt (n := 128) v)
  | .f32, v => F.show32 v
  | .f64, v => F.show64 v

/-- `EmitBoolean`, `EmitChar` and `EmitNumber`, src/core/json/encoder.rs L188-249, and their choice in
`emitter_for_type` L257-342. -/
def emitPrim (F : FloatText) (p : Prim) (path : Path) : Emitter := fun src =>
  match p with
  | .char => do
    let c ← src.prim .char path
    pure (Str.utf8 ['"'] ++ writeCh c ++ Str.utf8 ['"'])
  | p => do
    let v ← src.prim p path
    pure (display F p v).utf8

/-- `EmitString`, src/core/json/encoder.rs L176-186. -/
def emitStr (path : Path) : Emitter := fun src => do
  let bs ← src.bytes path
  match fromUtf8 bs with
  | some s => pure (emitString s)
  | none => .error .panic

/-- The separator between components, src/core/json/encoder.rs L116-122, L140-146. -/
def comma (first : Bool) : Bytes := if first then [] else Str.utf8 [',']

/-- The loop of `EmitTuple::emit`, src/core/json/encoder.rs L116-125. -/
def emitAll : List Emitter → Bool → Emitter
  | [], _ => fun _ => pure []
  | e :: es, first => fun src => do
    let b ← e src
    let bs ← emitAll es false src
    pure (comma first ++ b ++ bs)

/-- The loop of `EmitStruct::emit`, src/core/json/encoder.rs L140-151. -/
def emitFields : List (Str × Emitter) → Bool → Emitter
  | [], _ => fun _ => pure []
  | (name, e) :: es, first => fun src => do
    let b ← e src
    let bs ← emitFields es false src
    pure (comma first ++ emitString name ++ Str.utf8 [':'] ++ b ++ bs)

/-- `EmitTuple::emit`, src/core/json/encoder.rs L112-130. -/
def emitTuple (components : List Emitter) : Emitter := fun src => do
  let bs ← emitAll components true src
  pure (Str.utf8 ['['] ++ bs ++ Str.utf8 [']'])

/-- `EmitStruct::emit`, src/core/json/encoder.rs L136-156. -/
def emitStruct (fields : List (Str × Emitter)) : Emitter := fun src => do
  let bs ← emitFields fields true src
  pure (Str.utf8 ['{'] ++ bs ++ Str.utf8 ['}'])

/-- `EmitEnum::emit`, src/core/json/encoder.rs L163-174; `self.cases[case_tag]` panics out of range. -/
def emitEnum (path : Path) (cases : List (Str × Emitter)) : Emitter := fun src => do
  let tag ← src.tag path
  match cases[tag]? with
  | some c => do
    let b ← c.2 src
    pure (Str.utf8 ['{', '"', 'k', 'i', 'n', 'd', '"', ':'] ++ emitString c.1 ++
      Str.utf8 [',', '"', 'v', 'a', 'l', 'u', 'e', '"', ':'] ++ b ++ Str.utf8 ['}'])
  | none => .error .panic

mutual
/-- `emitter_for_type`, src/core/json/encoder.rs L255-393. -/
def emitterFor (F : FloatText) : Path → Ty → Emitter
  | _, .unit => fun _ => pure (Str.utf8 ['n', 'u', 'l', 'l'])
  | p, .prim q => emitPrim F q p
  | p, .string => emitStr p
  | p, .tuple cs => emitTuple (emittersL F p cs 0)
  | p, .struct fs => emitStruct (emittersF F p fs 0)
  | p, .enum cs => emitEnum p (emittersF F p cs 0)
/-- The component emitters, src/core/json/encoder.rs L344-351. -/
def emittersL (F : FloatText) : Path → List Ty → Nat → List Emitter
  | _, [], _ => []
  | p, c :: cs, i => emitterFor F (p ++ [i]) c :: emittersL F p cs (i + 1)
/-- The field and case emitters, src/core/json/encoder.rs L361-371, L375-385. -/
def emittersF (F : FloatText) : Path → List (Str × Ty) → Nat → List (Str × Emitter)
  | _, [], _ => []
  | p, f :: fs, i => emitterP F (p ++ [i]) f :: emittersF F p fs (i + 1)
/-- The emitter of one field or case, with its label. -/
def emitterP (F : FloatText) : Path → Str × Ty → Str × Emitter
  | p, (l, t) => (l, emitterFor F p t)
end

/-- `JsonEncoder::new` and `JsonEncoder::encode`, src/core/json/encoder.rs L395-407: the bytes written. -/
def encode (F : FloatText) (t : Ty) (src : DataSource) : Res Bytes := emitterFor F [] t src

end Verif.Json
