import Verif.Model.Marshaller

/-!
# The encoder with what it calls

`encoding_size_with_source` and `encode_with_source` of `Verif/Model/Marshaller.lean` once more; beside the outcome
they return, in order, the calls of these two functions and the calls of functions of the data source.
-/

namespace Verif

/-- The functions of `DataSource`, src/core/data_source.rs L33-62. -/
inductive Ask where
  | prim (p : Prim)
  | tag
  | length
  | bytes
  deriving DecidableEq

/-- One call: of `encode_with_source`, of `encoding_size_with_source`, or of a function of the data source. -/
inductive Visit where
  | encode
  | measure
  | ask (path : Path) (what : Ask)
  deriving DecidableEq

/-- An outcome and the calls made, in order. -/
structure Traced (α : Type) where
  result : Res α
  visits : List Visit

/-- The outcome of something that calls none of these functions. -/
def Traced.quiet {α : Type} (x : Res α) : Traced α := ⟨x, []⟩

/-- One after the other; after a panic nothing more is called. -/
def Traced.andThen {α β : Type} (x : Traced α) (f : α → Traced β) : Traced β :=
  match x.result with
  | .ok a => ⟨(f a).result, x.visits ++ (f a).visits⟩
  | .error e => ⟨.error e, x.visits⟩

instance : Monad Traced where
  pure a := .quiet (.ok a)
  bind := Traced.andThen

/-- A call that is recorded before the body runs. -/
def Traced.entering {α : Type} (v : Visit) (x : Traced α) : Traced α := ⟨x.result, v :: x.visits⟩

/-- `source.get_length(path)`. -/
def DataSource.lengthT (src : DataSource) (path : Path) : Traced Nat := ⟨src.length path, [.ask path .length]⟩

/-- `source.get_case_tag(path)`. -/
def DataSource.tagT (src : DataSource) (path : Path) : Traced Nat := ⟨src.tag path, [.ask path .tag]⟩

/-- `source.get_bytes(path)`. -/
def DataSource.bytesT (src : DataSource) (path : Path) : Traced Bytes := ⟨src.bytes path, [.ask path .bytes]⟩

/-- `source.get_bool(path)`, `source.get_char(path)` and so on. -/
def DataSource.primT (src : DataSource) (p : Prim) (path : Path) : Traced p.Val :=
  ⟨src.prim p path, [.ask path (.prim p)]⟩

mutual
/-- `Layout::encoding_size_with_source`, src/core/marshaller.rs L492-512, as `Layout.sizeWithSource`. -/
def Layout.sizeT (chk : Bool) (src : DataSource) : Layout → Traced Nat
  | .mk al vo _ _ vars => .entering .measure do
    let o ← varsSizeT chk src vars vo
    .quiet (align chk o al)
/-- Its loop, L498-509. -/
def varsSizeT (chk : Bool) (src : DataSource) : List VarField → Nat → Traced Nat
  | [], o => .quiet (.ok o)
  | v :: vs, o => do
    let o' ← varSizeT chk src v o
    varsSizeT chk src vs o'
/-- One iteration, L499-508. -/
def varSizeT (chk : Bool) (src : DataSource) : VarField → Nat → Traced Nat
  | .string path _, o => do
    let n ← src.lengthT path
    .quiet (addW chk o n)
  | .enum path _ cases, o => do
    let tag ← src.tagT path
    let n ← caseSizeT chk src cases tag
    .quiet (addW chk o n)
/-- `cases[case_tag].encoding_size_with_source(source)`, L506. -/
def caseSizeT (chk : Bool) (src : DataSource) : List Layout → Nat → Traced Nat
  | [], _ => .quiet (.error .panic)
  | l :: _, 0 => l.sizeT chk src
  | _ :: ls, i + 1 => caseSizeT chk src ls i
end

/-- Writing one fixed size field, src/core/marshaller.rs L521-648, as `writeFixed`. -/
def writeFixedT (chk : Bool) (src : DataSource) (f : FixedField) (buf : Bytes) : Traced Bytes :=
  match f.kind with
  | .length => do
    let n ← src.lengthT f.path
    .quiet do
      assert (n ≤ 4294967295)
      writeRaw 4 buf f.offset n
  | .bitfield p bitOffset numBits => do
    let tag ← src.tagT f.path
    .quiet <| if p.isContainer then do
      let mask ← tagMask chk (8 * p.size) bitOffset numBits
      let c ← readRaw p.size buf f.offset
      let t ← shlW chk (8 * p.size) (tag % 2 ^ (8 * p.size)) bitOffset
      writeRaw p.size buf f.offset ((c &&& (2 ^ (8 * p.size) - 1 - mask)) ||| (t &&& mask))
    else .error .panic
  | .prim p => do
    let v ← src.primT p f.path
    .quiet (writeRaw p.size buf f.offset (p.store v))
  | .container .. => .quiet (.error .panic)

/-- The loop over the fixed size fields, L521-648. -/
def writeFixedsT (chk : Bool) (src : DataSource) : List FixedField → Bytes → Traced Bytes
  | [], buf => .quiet (.ok buf)
  | f :: fs, buf => do
    let buf ← writeFixedT chk src f buf
    writeFixedsT chk src fs buf

/-- `copy_bytes`, src/core/marshaller.rs L669-680, with the slicing of the buffer before it, as `copyBytes`. -/
def copyBytesT (src : DataSource) (buf : Bytes) (offset : Nat) (path : Path) (length : Nat) : Traced Bytes := do
  .quiet (assert (offset ≤ buf.length))
  let data ← src.bytesT path
  .quiet do
    assert (length == data.length)
    if buf.length < offset + length then .error .ub else pure (splice buf offset data)

mutual
/-- `Layout::encode_with_source`, src/core/marshaller.rs L514-666, as `Layout.encode`. -/
def Layout.encodeT (chk : Bool) (src : DataSource) : Layout → Bytes → Traced (Bytes × Nat)
  | .mk al vo _ fixed vars, buf => .entering .encode do
    .quiet (assert (buf.length ≥ vo))
    let buf ← writeFixedsT chk src fixed buf
    let r ← encodeVarsT chk src vars buf vo
    .quiet do
      let n ← align chk r.2 al
      pure (r.1, n)
/-- The loop over the variable size fields, L650-663. -/
def encodeVarsT (chk : Bool) (src : DataSource) : List VarField → Bytes → Nat → Traced (Bytes × Nat)
  | [], buf, o => .quiet (.ok (buf, o))
  | v :: vs, buf, o => do
    let r ← encodeVarT chk src v buf o
    encodeVarsT chk src vs r.1 r.2
/-- One iteration, L651-662. -/
def encodeVarT (chk : Bool) (src : DataSource) : VarField → Bytes → Nat → Traced (Bytes × Nat)
  | .string path _, buf, o => do
    let n ← src.lengthT path
    let buf ← copyBytesT src buf o path n
    .quiet do
      let o ← addW chk o n
      pure (buf, o)
  | .enum path _ cases, buf, o => do
    let tag ← src.tagT path
    .quiet (assert (o ≤ buf.length))
    let r ← encodeCaseT chk src cases tag (buf.drop o)
    let n ← caseSizeT chk src cases tag
    .quiet do
      let o' ← addW chk o n
      pure (buf.take o ++ r.1, o')
/-- `cases[case_tag].encode_with_source(&mut buffer[offset..], source)`, L660. -/
def encodeCaseT (chk : Bool) (src : DataSource) : List Layout → Nat → Bytes → Traced (Bytes × Nat)
  | [], _, _ => .quiet (.error .panic)
  | l :: _, 0, buf => l.encodeT chk src buf
  | _ :: ls, i + 1, buf => encodeCaseT chk src ls i buf
end

end Verif
