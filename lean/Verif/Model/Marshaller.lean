import Verif.Model.Util
import Verif.Model.DataSource

/-!
# Model of `src/core/marshaller.rs`

Pointer accesses go through `readRaw`/`writeRaw`: `data[off..].as_ptr()` panics when `off` exceeds the
slice, and the access through the resulting pointer is undefined behaviour when it leaves the slice.
Whether a pointer is suitably aligned depends on the address of the buffer; misaligned accesses are
modelled as ordinary accesses, and alignment is the subject of C20 and C21.
`chk` says whether the arithmetic overflow checks of the debug profile are on.
-/

namespace Verif

/-- `FixedSizeFieldKind`, src/core/marshaller.rs L39-51. -/
inductive FixedKind where
  | prim (p : Prim)
  | length
  | container (index : Nat) (p : Prim)
  | bitfield (p : Prim) (bitOffset numBits : Nat)
  deriving DecidableEq, Repr

/-- `FixedSizeFieldKind::encoding_size`, src/core/marshaller.rs L53-62. -/
def FixedKind.size : FixedKind → Res Nat
  | .prim p => .ok p.size
  | .length => .ok 4
  | .container _ p => .ok p.size
  | .bitfield .. => .error .panic

/-- `FixedSizeField`, src/core/marshaller.rs L64-71. -/
structure FixedField where
  path : Path
  kind : FixedKind
  offset : Nat
  deriving DecidableEq, Repr

/-- `FixedSizeField::encoding_size`, src/core/marshaller.rs L80-89. -/
def FixedField.size (f : FixedField) : Nat :=
  match f.kind with
  | .length => 4
  | .prim p => p.size
  | .container _ p => p.size
  | .bitfield p _ _ => p.size

/-- `Bitfield`, src/core/marshaller.rs L73-78. -/
structure Bitfield where
  path : Path
  bitOffset : Nat
  numBits : Nat
  index : Nat
  deriving DecidableEq, Repr

/-- `Index`, src/core/marshaller.rs L120-125. -/
structure Index where
  path : Path
  fixedIdx : Nat
  varIdx : Nat
  deriving DecidableEq, Repr

mutual
/-- `Layout`, src/core/marshaller.rs L383-401. -/
inductive Layout where
  | mk (alignment varOffset : Nat) (indices : List Index) (fixed : List FixedField)
      (vars : List VarField)
/-- `VariableSizeField` and `VariableSizeFieldKind`, src/core/marshaller.rs L91-104. -/
inductive VarField where
  | string (path : Path) (fixedIdx : Nat)
  | enum (path : Path) (fixedIdx : Nat) (cases : List Layout)
end

/-- Field accesses of `Layout`. -/
def Layout.alignment : Layout → Nat | .mk a _ _ _ _ => a
def Layout.varOffset : Layout → Nat | .mk _ o _ _ _ => o
def Layout.indices : Layout → List Index | .mk _ _ i _ _ => i
def Layout.fixed : Layout → List FixedField | .mk _ _ _ f _ => f
def Layout.vars : Layout → List VarField | .mk _ _ _ _ v => v

/-- Field accesses of `VariableSizeField`. -/
def VarField.path : VarField → Path | .string p _ => p | .enum p _ _ => p
def VarField.fixedIdx : VarField → Nat | .string _ i => i | .enum _ i _ => i
/-- `var_size_fields[i].fixed_field_index = ...`, src/core/marshaller.rs L370. -/
def VarField.setFixedIdx (i : Nat) : VarField → VarField
  | .string p _ => .string p i
  | .enum p _ cs => .enum p i cs

/-- `VariableSizeField::alignment`, src/core/marshaller.rs L106-117 (`max` of a possibly empty
iterator, with default 1). -/
def VarField.alignment : VarField → Nat
  | .string .. => 1
  | .enum _ _ [] => 1
  | .enum _ _ (c :: cs) => cs.foldl (fun m l => max m l.alignment) c.alignment

/-- `slice::sort_by` (a stable sort): insertion of one element, in front of those not before it. -/
def sortInsert {α : Type} (le : α → α → Bool) (x : α) : List α → List α
  | [] => [x]
  | y :: ys => if le x y then x :: y :: ys else y :: sortInsert le x ys

/-- `slice::sort_by` (a stable sort). -/
def sortBy {α : Type} (le : α → α → Bool) : List α → List α
  | [] => []
  | x :: xs => sortInsert le x (sortBy le xs)

/-- `primitive_for_bits`, src/core/marshaller.rs L204-218. -/
def primitiveForBits (numBits : Nat) : Res Prim := do
  assert (numBits ≤ 128)
  if numBits > 64 then pure .u128
  else if numBits > 32 then pure .u64
  else if numBits > 16 then pure .u32
  else if numBits > 8 then pure .u16
  else pure .u8

/-- One bit field container: entries of `result`, `capacity` and `offsets` at the same position,
src/core/marshaller.rs L221-223. -/
structure Container where
  prim : Prim
  capacity : Nat
  offset : Nat
  deriving DecidableEq, Repr

/-- The loop L234-243 of `allocate_bitfields`: first container with room, from position `i` on.
Returns the position, the bit offset and the updated containers. -/
def placeBits (numBits : Nat) : List Container → Nat → Option (Nat × Nat × List Container)
  | [], _ => none
  | c :: cs, i =>
    if c.capacity ≥ numBits then
      some (i, c.offset, { c with capacity := c.capacity - numBits, offset := c.offset + numBits } :: cs)
    else match placeBits numBits cs (i + 1) with
      | some (j, o, cs') => some (j, o, c :: cs')
      | none => none

/-- The loop L228-257 of `allocate_bitfields`. -/
def allocateLoop : List Bitfield → List Container → Res (List Bitfield × List Container)
  | [], cs => .ok ([], cs)
  | f :: fs, cs =>
    match placeBits f.numBits cs 0 with
    | some (j, o, cs') => do
      let (fs', cs'') ← allocateLoop fs cs'
      pure ({ f with index := j, bitOffset := o } :: fs', cs'')
    | none => do
      let p ← primitiveForBits f.numBits
      let (fs', cs'') ← allocateLoop fs
        (cs ++ [{ prim := p, capacity := p.size * 8 - f.numBits, offset := f.numBits }])
      pure ({ f with index := cs.length, bitOffset := 0 } :: fs', cs'')

/-- `allocate_bitfields`, src/core/marshaller.rs L220-260. -/
def allocateBitfields (fs : List Bitfield) : Res (List Bitfield × List Container) :=
  allocateLoop (sortBy (fun l r => r.numBits ≤ l.numBits) fs) []

/-- The container fields pushed at L247-251 of `allocate_bitfields`, from position `i` on. -/
def containerFields : List Container → Nat → List FixedField
  | [], _ => []
  | c :: cs, i => { path := [], kind := .container i c.prim, offset := 0 } :: containerFields cs (i + 1)

/-- Offset assignment, src/core/marshaller.rs L288-294. -/
def assignOffsets (chk : Bool) : List FixedField → Nat → Res (List FixedField × Nat)
  | [], size => .ok ([], size)
  | f :: fs, size => do
    let n ← f.kind.size
    let size' ← addW chk size n
    let (fs', total) ← assignOffsets chk fs size'
    pure ({ f with offset := size } :: fs', total)

/-- `offset_map`, src/core/marshaller.rs L314-322: offset and primitive of container `i`.  The indices
of containers are distinct, so that the hash map is a lookup of the first match. -/
def containerAt (i : Nat) : List FixedField → Option (Nat × Prim)
  | [] => none
  | f :: fs => match f.kind with
    | .container j p => if j = i then some (f.offset, p) else containerAt i fs
    | _ => containerAt i fs

/-- Test used at L326-329 to drop containers. -/
def FixedField.isContainer (f : FixedField) : Bool :=
  match f.kind with
  | .container .. => true
  | _ => false

/-- Bit fields become fixed fields, src/core/marshaller.rs L330-341. -/
def bitfieldFields (fixed : List FixedField) : List Bitfield → Res (List FixedField)
  | [] => .ok []
  | b :: bs => match containerAt b.index fixed with
    | some (off, p) => do
      let r ← bitfieldFields fixed bs
      pure ({ path := b.path, kind := .bitfield p b.bitOffset b.numBits, offset := off } :: r)
    | none => .error .panic

/-- `field_indices` before sorting, src/core/marshaller.rs L346-354, from position `i` on. -/
def enumIndices : List FixedField → Nat → List Index
  | [], _ => []
  | f :: fs, i => { path := f.path, fixedIdx := i, varIdx := 0 } :: enumIndices fs (i + 1)

/-- Outcome of a binary search. -/
inductive Found where
  | at (i : Nat)
  | insertAt (i : Nat)
  deriving DecidableEq, Repr

/-- `field_indices.binary_search_by(|probe| probe.path.cmp(path).reverse())`, used at
src/core/marshaller.rs L364, L717, L757, L813, L887, by its documented contract for a list in
descending path order without duplicates: the position of the path, or the position where it could be
inserted.  Counted from position `i`. -/
def searchIndex (path : Path) : List Index → Nat → Found
  | [], i => .insertAt i
  | x :: xs, i => match Path.cmp x.path path with
    | .gt => searchIndex path xs (i + 1)
    | .eq => .at i
    | .lt => .insertAt i

/-- `lookup`, src/core/marshaller.rs L357-360. -/
def lookupMap (indices : List Index) : List (Path × Nat) :=
  indices.foldl (fun m x => mapInsert Path.cmp x.path x.fixedIdx m) []

/-- `field_indices[idx].var_size_field_index = field_index`. -/
def setVarIdx (indices : List Index) (i v : Nat) : List Index :=
  match indices, i with
  | [], _ => []
  | x :: xs, 0 => { x with varIdx := v } :: xs
  | x :: xs, i + 1 => x :: setVarIdx xs i v

/-- The loop at src/core/marshaller.rs L362-376, from variable field number `i` on. -/
def linkVars (lookup : List (Path × Nat)) :
    List VarField → Nat → List Index → Res (List VarField × List Index)
  | [], _, indices => .ok ([], indices)
  | v :: vs, i, indices =>
    match searchIndex v.path indices 0 with
    | .insertAt _ => .error .panic
    | .at k => match mapGet Path.cmp v.path lookup with
      | none => .error .panic
      | some fi => do
        let (vs', indices') ← linkVars lookup vs (i + 1) (setVarIdx indices k i)
        pure (v.setFixedIdx fi :: vs', indices')

/-- The size of the first fixed field, or 1, src/core/marshaller.rs L296-300. -/
def firstSize : List FixedField → Res Nat
  | [] => .ok 1
  | f :: _ => f.kind.size

/-- The alignment of the first variable field, or 1, src/core/marshaller.rs L302-306. -/
def firstAlignment : List VarField → Nat
  | [] => 1
  | v :: _ => v.alignment

/-- `calculate_layout` after the call of `unroll_type`, src/core/marshaller.rs L277-381. -/
def finishLayout (chk : Bool) (fixed : List FixedField) (bits : List Bitfield)
    (vars : List VarField) : Res Layout := do
  let (bits, containers) ← allocateBitfields bits
  let fixed := sortBy (fun l r => decide (r.size ≤ l.size)) (fixed ++ containerFields containers 0)
  let vars := sortBy (fun l r => decide (r.alignment ≤ l.alignment)) vars
  let (fixed, size) ← assignOffsets chk fixed 0
  let fixedAlignment ← firstSize fixed
  let varAlignment := firstAlignment vars
  let size ← align chk size varAlignment
  let bitFixed ← bitfieldFields fixed bits
  let fixed := fixed.filter (fun f => !f.isContainer) ++ bitFixed
  let indices := sortBy (fun l r => Path.cmp l.path r.path != .lt) (enumIndices fixed 0)
  let (vars, indices) ← linkVars (lookupMap indices) vars 0 indices
  pure (.mk (max fixedAlignment varAlignment) size indices fixed vars)

/-- Result of `unroll_type`: the three vectors it appends to. -/
structure Unrolled where
  fixed : List FixedField := []
  bits : List Bitfield := []
  vars : List VarField := []

/-- Appending to the three vectors. -/
def Unrolled.append (a b : Unrolled) : Unrolled :=
  ⟨a.fixed ++ b.fixed, a.bits ++ b.bits, a.vars ++ b.vars⟩

mutual
/-- `unroll_type`, src/core/marshaller.rs L127-202, returning what it pushes. `num_bits as u8` is exact
because `required_bits` is at most 64. -/
def unrollType (chk : Bool) : Ty → Path → Res Unrolled
  | .unit, _ => .ok {}
  | .prim p, path => .ok { fixed := [⟨path, .prim p, 0⟩] }
  | .string, path => .ok { fixed := [⟨path, .length, 0⟩], vars := [.string path 0] }
  | .tuple cs, path => do
    assert (cs.length > 0)
    unrollTuple chk cs path 0
  | .struct fs, path => do
    assert (fs.length > 0)
    unrollStruct chk fs path 0
  | .enum cs, path => do
    assert (cs.length > 0)
    let layouts ← caseLayouts chk cs path 0
    pure { bits := [⟨path, 0, requiredBits (cs.length - 1), 0⟩], vars := [.enum path 0 layouts] }
/-- The loop over tuple components, L151-161. -/
def unrollTuple (chk : Bool) : List Ty → Path → Nat → Res Unrolled
  | [], _, _ => .ok {}
  | c :: cs, path, i => do
    let a ← unrollType chk c (path.withComponent i)
    let b ← unrollTuple chk cs path (i + 1)
    pure (a.append b)
/-- The loop over struct fields, L165-175. -/
def unrollStruct (chk : Bool) : List (Str × Ty) → Path → Nat → Res Unrolled
  | [], _, _ => .ok {}
  | f :: fs, path, i => do
    let a ← unrollField chk f (path.withComponent i)
    let b ← unrollStruct chk fs path (i + 1)
    pure (a.append b)
/-- `&field.typ` of the loop over struct fields. -/
def unrollField (chk : Bool) : Str × Ty → Path → Res Unrolled
  | (_, t), path => unrollType chk t path
/-- The loop over enum cases, L188-193; `calculate_layout` is `caseLayout`. -/
def caseLayouts (chk : Bool) : List (Str × Ty) → Path → Nat → Res (List Layout)
  | [], _, _ => .ok []
  | c :: cs, path, i => do
    let l ← caseLayout chk c (path.withComponent i)
    let ls ← caseLayouts chk cs path (i + 1)
    pure (l :: ls)
/-- `calculate_layout(&case.typ, &prefix)` for one enum case, L262-381. -/
def caseLayout (chk : Bool) : Str × Ty → Path → Res Layout
  | (_, t), path => do
    let u ← unrollType chk t path
    finishLayout chk u.fixed u.bits u.vars
end

/-- `calculate_layout`, src/core/marshaller.rs L262-381. -/
def calculateLayout (chk : Bool) (t : Ty) (path : Path) : Res Layout := do
  let u ← unrollType chk t path
  finishLayout chk u.fixed u.bits u.vars

/-- `Layout::new`, src/core/marshaller.rs L404-407. -/
def Layout.new (chk : Bool) (t : Ty) : Res Layout := calculateLayout chk t []

/-- `*pointer` for a pointer to `n` bytes at `data[off..]`. -/
def readRaw (n : Nat) (data : Bytes) (off : Nat) : Res Nat :=
  if data.length < off then .error .panic
  else if data.length < off + n then .error .ub
  else .ok (leVal (slice data off n))

/-- `*pointer = v` for a pointer to `n` bytes at `data[off..]`. -/
def writeRaw (n : Nat) (data : Bytes) (off v : Nat) : Res Bytes :=
  if data.length < off then .error .panic
  else if data.length < off + n then .error .ub
  else .ok (splice data off (leBytes n v))

/-- `a << s` on a `w` bit word; without overflow checks the shift amount is masked. -/
def shlW (chk : Bool) (w a s : Nat) : Res Nat :=
  if s < w then .ok ((a * 2 ^ s) % 2 ^ w)
  else if chk then .error .panic else .ok ((a * 2 ^ (s % w)) % 2 ^ w)

/-- `a >> s` on a `w` bit word; without overflow checks the shift amount is masked. -/
def shrW (chk : Bool) (w a s : Nat) : Res Nat :=
  if s < w then .ok (a / 2 ^ s)
  else if chk then .error .panic else .ok (a / 2 ^ (s % w))

/-- The primitives accepted as bit field containers, src/core/marshaller.rs L431-456. -/
def Prim.isContainer : Prim → Bool
  | .u8 | .u16 | .u32 | .u64 | .u128 => true
  | _ => false

/-- Reading a case tag, src/core/marshaller.rs L424-463 and L820-859: the container is truncated to
`usize`, shifted and masked. -/
def readTag (chk : Bool) (f : FixedField) (data : Bytes) : Res Nat :=
  match f.kind with
  | .bitfield p bitOffset numBits =>
    if p.isContainer then do
      let c ← readRaw p.size data f.offset
      let v ← shrW chk 64 (c % W64) bitOffset
      let m ← shlW chk 64 1 numBits
      let m ← subW chk m 1
      pure (v &&& m)
    else .error .panic
  | _ => .error .panic

/-- `list[i]`, panicking out of range. -/
def getAt {α : Type} (l : List α) (i : Nat) : Res α :=
  match l[i]? with
  | some x => .ok x
  | none => .error .panic

mutual
/-- `Layout::encoding_size`, src/core/marshaller.rs L485-490. -/
def Layout.encodingSize (chk : Bool) : Layout → Bytes → Res Nat
  | .mk al vo _ fixed vars, data => do
    let o ← varsEnd chk fixed data vars vo
    align chk o al
/-- The loop of `variable_field_offset`, src/core/marshaller.rs L410-482. -/
def varsEnd (chk : Bool) (fixed : List FixedField) (data : Bytes) : List VarField → Nat → Res Nat
  | [], o => .ok o
  | v :: vs, o => do
    let o' ← varEnd chk fixed data v o
    varsEnd chk fixed data vs o'
/-- One iteration of that loop, L412-480. -/
def varEnd (chk : Bool) (fixed : List FixedField) (data : Bytes) : VarField → Nat → Res Nat
  | .string _ fi, o => do
    let f ← getAt fixed fi
    let n ← readRaw 4 data f.offset
    addW chk o n
  | .enum _ fi cases, o => do
    let f ← getAt fixed fi
    let tag ← readTag chk f data
    assert (o ≤ data.length)
    let n ← caseSize chk cases tag (data.drop o)
    addW chk o n
/-- `cases[case_tag].encoding_size(case_data)`, L475. -/
def caseSize (chk : Bool) : List Layout → Nat → Bytes → Res Nat
  | [], _, _ => .error .panic
  | l :: _, 0, data => l.encodingSize chk data
  | _ :: ls, i + 1, data => caseSize chk ls i data
end

/-- `Layout::variable_field_offset`, src/core/marshaller.rs L409-483. -/
def Layout.variableFieldOffset (chk : Bool) (l : Layout) (i : Nat) (data : Bytes) : Res Nat := do
  assert (i ≤ l.vars.length)
  varsEnd chk l.fixed data (l.vars.take i) l.varOffset

mutual
/-- `Layout::encoding_size_with_source`, src/core/marshaller.rs L492-512. -/
def Layout.sizeWithSource (chk : Bool) (src : DataSource) : Layout → Res Nat
  | .mk al vo _ _ vars => do
    let o ← varsSize chk src vars vo
    align chk o al
/-- Its loop, L498-509. -/
def varsSize (chk : Bool) (src : DataSource) : List VarField → Nat → Res Nat
  | [], o => .ok o
  | v :: vs, o => do
    let o' ← varSize chk src v o
    varsSize chk src vs o'
/-- One iteration, L499-508. -/
def varSize (chk : Bool) (src : DataSource) : VarField → Nat → Res Nat
  | .string path _, o => do
    let n ← src.length path
    addW chk o n
  | .enum path _ cases, o => do
    let tag ← src.tag path
    let n ← caseSizeWithSource chk src cases tag
    addW chk o n
/-- `cases[case_tag].encoding_size_with_source(source)`, L506. -/
def caseSizeWithSource (chk : Bool) (src : DataSource) : List Layout → Nat → Res Nat
  | [], _ => .error .panic
  | l :: _, 0 => l.sizeWithSource chk src
  | _ :: ls, i + 1 => caseSizeWithSource chk src ls i
end

/-- `(1uN << num_bits) - 1) << bit_offset` for an `w` bit container, e.g. src/core/marshaller.rs L551. -/
def tagMask (chk : Bool) (w bitOffset numBits : Nat) : Res Nat := do
  let m ← shlW chk w 1 numBits
  let m ← subP m 1
  shlW chk w m bitOffset

/-- Writing one fixed size field, src/core/marshaller.rs L521-648. -/
def writeFixed (chk : Bool) (src : DataSource) (f : FixedField) (buf : Bytes) : Res Bytes :=
  match f.kind with
  | .length => do
    let n ← src.length f.path
    assert (n ≤ 4294967295)
    writeRaw 4 buf f.offset n
  | .bitfield p bitOffset numBits => do
    let tag ← src.tag f.path
    if p.isContainer then do
      let mask ← tagMask chk (8 * p.size) bitOffset numBits
      let c ← readRaw p.size buf f.offset
      let t ← shlW chk (8 * p.size) (tag % 2 ^ (8 * p.size)) bitOffset
      writeRaw p.size buf f.offset ((c &&& (2 ^ (8 * p.size) - 1 - mask)) ||| (t &&& mask))
    else .error .panic
  | .prim p => do
    let v ← src.prim p f.path
    writeRaw p.size buf f.offset (p.store v)
  | .container .. => .error .panic

/-- The loop over the fixed size fields, L521-648. -/
def writeFixeds (chk : Bool) (src : DataSource) : List FixedField → Bytes → Res Bytes
  | [], buf => .ok buf
  | f :: fs, buf => do
    let buf ← writeFixed chk src f buf
    writeFixeds chk src fs buf

/-- `copy_bytes(&mut buffer[offset..], path, length, source)`, src/core/marshaller.rs L669-680: the
target slice is made with `from_raw_parts_mut`, without a check against the buffer. -/
def copyBytes (src : DataSource) (buf : Bytes) (offset : Nat) (path : Path) (length : Nat) :
    Res Bytes := do
  assert (offset ≤ buf.length)
  let data ← src.bytes path
  assert (length == data.length)
  if buf.length < offset + length then .error .ub else pure (splice buf offset data)

mutual
/-- `Layout::encode_with_source`, src/core/marshaller.rs L514-666: new buffer contents and result. -/
def Layout.encode (chk : Bool) (src : DataSource) : Layout → Bytes → Res (Bytes × Nat)
  | .mk al vo _ fixed vars, buf => do
    assert (buf.length ≥ vo)
    let buf ← writeFixeds chk src fixed buf
    let (buf, o) ← encodeVars chk src vars buf vo
    let n ← align chk o al
    pure (buf, n)
/-- The loop over the variable size fields, L650-663. -/
def encodeVars (chk : Bool) (src : DataSource) : List VarField → Bytes → Nat → Res (Bytes × Nat)
  | [], buf, o => .ok (buf, o)
  | v :: vs, buf, o => do
    let (buf, o) ← encodeVar chk src v buf o
    encodeVars chk src vs buf o
/-- One iteration, L651-662. -/
def encodeVar (chk : Bool) (src : DataSource) : VarField → Bytes → Nat → Res (Bytes × Nat)
  | .string path _, buf, o => do
    let n ← src.length path
    let buf ← copyBytes src buf o path n
    let o ← addW chk o n
    pure (buf, o)
  | .enum path _ cases, buf, o => do
    let tag ← src.tag path
    assert (o ≤ buf.length)
    let (sub, _) ← encodeCase chk src cases tag (buf.drop o)
    let n ← caseSizeWithSource chk src cases tag
    let o' ← addW chk o n
    pure (buf.take o ++ sub, o')
/-- `cases[case_tag].encode_with_source(&mut buffer[offset..], source)`, L660. -/
def encodeCase (chk : Bool) (src : DataSource) : List Layout → Nat → Bytes → Res (Bytes × Nat)
  | [], _, _ => .error .panic
  | l :: _, 0, buf => l.encode chk src buf
  | _ :: ls, i + 1, buf => encodeCase chk src ls i buf
end

/-- What the search loop of the four readers ends with: the layout the path belongs to, its data and
the index entry of the path. -/
structure Located where
  layout : Layout
  data : Bytes
  index : Index

mutual
/-- The loop shared by `get_primitive`, `get_bytes`, `get_case_tag` and `get_length`,
src/core/marshaller.rs L714-748, L754-803, L811-878, L886-922 up to the `Ok(idx)` arm. -/
def Layout.locate (chk : Bool) (path : Path) : Layout → Bytes → Res Located
  | .mk al vo indices fixed vars, data =>
    match searchIndex path indices 0 with
    | .at i => do
      let x ← getAt indices i
      pure ⟨.mk al vo indices fixed vars, data, x⟩
    | .insertAt i => match indices[i]? with
      | none => .error .panic
      | some x =>
        if Path.isPrefixOf x.path path then do
          let tag ← getAt path x.path.length
          let o ← (Layout.mk al vo indices fixed vars).variableFieldOffset chk x.varIdx data
          assert (o ≤ data.length)
          locateVars chk path vars x.varIdx tag (data.drop o)
        else .error .panic
/-- `&layout.var_size_fields[var_size_field_index].kind`, L739. -/
def locateVars (chk : Bool) (path : Path) : List VarField → Nat → Nat → Bytes → Res Located
  | [], _, _, _ => .error .panic
  | v :: _, 0, tag, data => locateVar chk path v tag data
  | _ :: vs, i + 1, tag, data => locateVars chk path vs i tag data
/-- The `match` on the kind, L739-742. -/
def locateVar (chk : Bool) (path : Path) : VarField → Nat → Bytes → Res Located
  | .string .., _, _ => .error .panic
  | .enum _ _ cases, tag, data => locateCase chk path cases tag data
/-- `layout = &cases[case_tag]`, L740. -/
def locateCase (chk : Bool) (path : Path) : List Layout → Nat → Bytes → Res Located
  | [], _, _ => .error .panic
  | l :: _, 0, data => l.locate chk path data
  | _ :: ls, i + 1, data => locateCase chk path ls i data
end

/-- `Marshaller::get_primitive::<T>`, src/core/marshaller.rs L705-749, with `T::tag() = p`. -/
def Layout.getPrimitive (chk : Bool) (l : Layout) (data : Bytes) (p : Prim) (path : Path) :
    Res p.Val := do
  let w ← l.locate chk path data
  let f ← getAt w.layout.fixed w.index.fixedIdx
  match f.kind with
  | .prim q => do
    assert (q == p)
    let n ← readRaw p.size w.data f.offset
    p.load n
  | _ => .error .panic

/-- `Marshaller::get_bytes`, src/core/marshaller.rs L751-804; the slice is made with `from_raw_parts`,
without a check against the data. -/
def Layout.getBytes (chk : Bool) (l : Layout) (data : Bytes) (path : Path) : Res Bytes := do
  let w ← l.locate chk path data
  let f ← getAt w.layout.fixed w.index.fixedIdx
  let o ← w.layout.variableFieldOffset chk w.index.varIdx w.data
  match f.kind with
  | .length => do
    let n ← readRaw 4 w.data f.offset
    match w.layout.vars[w.index.varIdx]? with
    | some (.string ..) => do
      assert (o ≤ w.data.length)
      if w.data.length < o + n then .error .ub else pure (slice w.data o n)
    | _ => .error .panic
  | _ => .error .panic

/-- `Marshaller::get_case_tag`, src/core/marshaller.rs L808-879. -/
def Layout.getCaseTag (chk : Bool) (l : Layout) (data : Bytes) (path : Path) : Res Nat := do
  let w ← l.locate chk path data
  let f ← getAt w.layout.fixed w.index.fixedIdx
  readTag chk f w.data

/-- `Marshaller::get_length`, src/core/marshaller.rs L883-923. -/
def Layout.getLength (chk : Bool) (l : Layout) (data : Bytes) (path : Path) : Res Nat := do
  let w ← l.locate chk path data
  let f ← getAt w.layout.fixed w.index.fixedIdx
  match f.kind with
  | .length => readRaw 4 w.data f.offset
  | _ => .error .panic

/-- `MarshallerDataSource`, src/core/marshaller.rs L926-976. -/
def Layout.source (chk : Bool) (l : Layout) (data : Bytes) : DataSource where
  prim p path := l.getPrimitive chk data p path
  tag path := l.getCaseTag chk data path
  length path := l.getLength chk data path
  bytes path := l.getBytes chk data path

end Verif
