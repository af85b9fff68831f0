import Verif.Model.Nsm
import Verif.Model.Marshaller

/-!
# Accesses through pointers, with addresses

`util::get_value`, `util::set_value` and the functions of `src/core/marshaller.rs` read and write machine words
through pointers of type `*const T` and `*mut T` into a slice of bytes.  Rust makes it undefined behaviour to do
so at an address that is not a multiple of the alignment of `T`.  The models in `Verif/Model/Nsm.lean` and
`Verif/Model/Marshaller.lean` leave addresses out; the functions below are the same functions with the address
`base` of the first byte of the slice.

The alignment of a type is taken to be its size.  (That of `u128` and `i128` is 16 since Rust 1.77, 8 before on
x86-64.)  Copying bytes (`ptr::copy::<u8>`, `copy_from_slice`, `from_raw_parts`) needs no alignment.
-/

namespace Verif

/-- A pointer to `n` bytes at `base + off` is dereferenced. -/
def atAddress (n base off : Nat) : Res Unit := if (base + off) % n = 0 then .ok () else .error .ub

/-- `util::set_value::<T>`, src/core/util.rs L156-164. -/
def setValueAt (base n : Nat) (buffer : Bytes) (offset value : Nat) : Res Bytes := do
  assert (offset + n ≤ buffer.length)
  atAddress n base offset
  pure (splice buffer offset (leBytes n value))

/-- `util::get_value::<T>`, src/core/util.rs L166-174. -/
def getValueAt (base n : Nat) (buffer : Bytes) (offset : Nat) : Res Nat := do
  assert (offset + n ≤ buffer.length)
  atAddress n base offset
  pure (leVal (slice buffer offset n))

namespace Nsm

/-- `initialize_page`, src/core/nsm.rs L39-46. -/
def initializePageAt (base : Nat) (chk : Bool) (a : Nat) (page : Bytes) : Res Bytes := do
  assert (4 ≤ page.length)
  assert (page.length ≤ 2 ^ 32 - 1)
  let l ← align chk page.length a
  assert (l == page.length)
  setValueAt base 4 page 0 0

/-- `num_rows`, src/core/nsm.rs L48-50. -/
def numRowsAt (base : Nat) (page : Bytes) : Res Nat := getValueAt base 4 page 0

/-- `set_num_rows`, src/core/nsm.rs L52-54. -/
def setNumRowsAt (base : Nat) (page : Bytes) (n : Nat) : Res Bytes := setValueAt base 4 page 0 (n % 2 ^ 32)

/-- `set_row_offset`, src/core/nsm.rs L56-58. -/
def setRowOffsetAt (base : Nat) (page : Bytes) (index offset : Nat) : Res Bytes :=
  setValueAt base 4 page (4 * (index + 1)) offset

/-- `get_row_offset`, src/core/nsm.rs L60-62. -/
def getRowOffsetAt (base : Nat) (page : Bytes) (index : Nat) : Res Nat := getValueAt base 4 page (4 * (index + 1))

/-- `aligned_row_offset`, src/core/nsm.rs L189-193. -/
def alignedRowOffsetAt (base : Nat) (chk : Bool) (a : Nat) (page : Bytes) (index : Nat) : Res Nat := do
  let n ← numRowsAt base page
  assert (index < n)
  let v ← getRowOffsetAt base page index
  let mask ← alignmentMask chk a
  pure (v &&& mask)

/-- `row_offset_padding`, src/core/nsm.rs L195-203. -/
def rowOffsetPaddingAt (base : Nat) (chk : Bool) (a : Nat) (page : Bytes) (index : Nat) : Res (Nat × Nat) := do
  let n ← numRowsAt base page
  assert (index < n)
  let v ← getRowOffsetAt base page index
  let mask ← alignmentMask chk a
  pure (v &&& mask, v &&& (2 ^ 32 - 1 - mask))

/-- `if index > 0 { aligned_row_offset(page, index - 1) } else { page.len() }`, src/core/nsm.rs L66-70, L79-83, L108-112, L145-149, L176-180. -/
def upperBoundAt (base : Nat) (chk : Bool) (a : Nat) (page : Bytes) (index : Nat) : Res Nat :=
  if index > 0 then alignedRowOffsetAt base chk a page (index - 1) else pure page.length

/-- `get_row`, src/core/nsm.rs L64-73. -/
def getRowAt (base : Nat) (chk : Bool) (a : Nat) (page : Bytes) (index : Nat) : Res Bytes := do
  let (offset, padding) ← rowOffsetPaddingAt base chk a page index
  let next ← upperBoundAt base chk a page index
  let stop ← subW chk next padding
  assert (offset ≤ stop && stop ≤ page.length)
  pure (slice page offset (stop - offset))

/-- `max_insert_row_size`, src/core/nsm.rs L170-187. -/
def maxInsertRowSizeAt (base : Nat) (chk : Bool) (a : Nat) (page : Bytes) : Res Nat := do
  let n ← numRowsAt base page
  let lower ← align chk (4 * (n + 2)) a
  let upper ← upperBoundAt base chk a page n
  pure (if upper ≥ lower then upper - lower else 0)

/-- `append_row`, src/core/nsm.rs L75-96. -/
def appendRowAt (base : Nat) (chk : Bool) (a : Nat) (page row : Bytes) : Res Bytes := do
  let m ← maxInsertRowSizeAt base chk a page
  assert (row.length ≤ m)
  let n ← numRowsAt base page
  let alignedLen ← align chk row.length a
  let upper ← upperBoundAt base chk a page n
  let rowOffset ← subW chk upper alignedLen
  let padding ← subW chk alignedLen row.length
  let indexValue := (rowOffset ||| padding) % 2 ^ 32
  let page ← copyRow page rowOffset row
  let page ← setRowOffsetAt base page n indexValue
  setNumRowsAt base page (n + 1)

/-- The loop `for row_index in (index..num_rows).rev()`, src/core/nsm.rs L120-123. -/
def shiftUpAt (base : Nat) (chk : Bool) (delta index : Nat) : Nat → Bytes → Res Bytes
  | 0, page => pure page
  | c + 1, page => do
    let old ← getRowOffsetAt base page (index + c)
    let new ← subW chk old delta
    let page ← setRowOffsetAt base page (index + c + 1) (new % 2 ^ 32)
    shiftUpAt base chk delta index c page

/-- `insert_row`, src/core/nsm.rs L98-137. -/
def insertRowAt (base : Nat) (chk : Bool) (a : Nat) (page : Bytes) (index : Nat) (row : Bytes) : Res Bytes := do
  let m ← maxInsertRowSizeAt base chk a page
  assert (row.length ≤ m)
  let n ← numRowsAt base page
  if index = n then appendRowAt base chk a page row
  else do
    let delta ← align chk row.length a
    let lastIdx ← subW chk n 1
    let lastOffset ← alignedRowOffsetAt base chk a page lastIdx
    let rowOffset ← upperBoundAt base chk a page index
    let dst ← subW chk lastOffset delta
    let len ← subW chk rowOffset lastOffset
    let page ← moveBytes page lastOffset dst len
    let page ← shiftUpAt base chk delta index (n - index) page
    let padding ← subW chk delta row.length
    let rowOffset ← subW chk rowOffset delta
    let indexValue := (rowOffset ||| padding) % 2 ^ 32
    let page ← copyRow page rowOffset row
    let page ← setRowOffsetAt base page index indexValue
    setNumRowsAt base page (n + 1)

/-- The loop `for row_index in index + 1..num_rows`, src/core/nsm.rs L154-157. -/
def shiftDownAt (base : Nat) (delta : Nat) : Nat → Nat → Bytes → Res Bytes
  | _, 0, page => pure page
  | i, c + 1, page => do
    let old ← getRowOffsetAt base page i
    let page ← setRowOffsetAt base page (i - 1) ((old + delta) % 2 ^ 32)
    shiftDownAt base delta (i + 1) c page

/-- The block `if index < num_rows - 1 { .. }` of `remove_row`, src/core/nsm.rs L143-164. -/
def removeShiftAt (base : Nat) (chk : Bool) (a : Nat) (page : Bytes) (index n : Nat) : Res Bytes :=
  if index < n - 1 then do
    let rowOffset ← alignedRowOffsetAt base chk a page index
    let prevOffset ← upperBoundAt base chk a page index
    let lastOffset ← alignedRowOffsetAt base chk a page (n - 1)
    let delta ← subW chk prevOffset rowOffset
    let page ← shiftDownAt base delta (index + 1) (n - (index + 1)) page
    let len ← subW chk rowOffset lastOffset
    let dst ← addW chk lastOffset delta
    moveBytes page lastOffset dst len
  else pure page

/-- `remove_row`, src/core/nsm.rs L139-168. -/
def removeRowAt (base : Nat) (chk : Bool) (a : Nat) (page : Bytes) (index : Nat) : Res Bytes := do
  let n ← numRowsAt base page
  assert (index < n)
  let page ← removeShiftAt base chk a page index n
  setNumRowsAt base page (n - 1)

end Nsm

/-- `*pointer` for a pointer to `n` bytes at `data[off..]`. -/
def readRawAt (base n : Nat) (data : Bytes) (off : Nat) : Res Nat :=
  if data.length < off then .error .panic
  else do
    atAddress n base off
    if data.length < off + n then .error .ub else .ok (leVal (slice data off n))

/-- `*pointer = v` for a pointer to `n` bytes at `data[off..]`. -/
def writeRawAt (base n : Nat) (data : Bytes) (off v : Nat) : Res Bytes :=
  if data.length < off then .error .panic
  else do
    atAddress n base off
    if data.length < off + n then .error .ub else .ok (splice data off (leBytes n v))

/-- Reading a case tag, src/core/marshaller.rs L424-463 and L820-859. -/
def readTagAt (base : Nat) (chk : Bool) (f : FixedField) (data : Bytes) : Res Nat :=
  match f.kind with
  | .bitfield p bitOffset numBits =>
    if p.isContainer then do
      let c ← readRawAt base p.size data f.offset
      let v ← shrW chk 64 (c % W64) bitOffset
      let m ← shlW chk 64 1 numBits
      let m ← subW chk m 1
      pure (v &&& m)
    else .error .panic
  | _ => .error .panic

mutual
/-- `Layout::encoding_size`, src/core/marshaller.rs L485-490. -/
def Layout.encodingSizeAt (chk : Bool) : Nat → Layout → Bytes → Res Nat
  | base, .mk al vo _ fixed vars, data => do
    let o ← varsEndAt chk base fixed data vars vo
    align chk o al
/-- The loop of `variable_field_offset`, src/core/marshaller.rs L410-482. -/
def varsEndAt (chk : Bool) (base : Nat) (fixed : List FixedField) (data : Bytes) : List VarField → Nat → Res Nat
  | [], o => .ok o
  | v :: vs, o => do
    let o' ← varEndAt chk base fixed data v o
    varsEndAt chk base fixed data vs o'
/-- One iteration of that loop, L412-480. -/
def varEndAt (chk : Bool) (base : Nat) (fixed : List FixedField) (data : Bytes) : VarField → Nat → Res Nat
  | .string _ fi, o => do
    let f ← getAt fixed fi
    let n ← readRawAt base 4 data f.offset
    addW chk o n
  | .enum _ fi cases, o => do
    let f ← getAt fixed fi
    let tag ← readTagAt base chk f data
    assert (o ≤ data.length)
    let n ← caseSizeAt chk (base + o) cases tag (data.drop o)
    addW chk o n
/-- `cases[case_tag].encoding_size(case_data)`, L475. -/
def caseSizeAt (chk : Bool) (base : Nat) : List Layout → Nat → Bytes → Res Nat
  | [], _, _ => .error .panic
  | l :: _, 0, data => l.encodingSizeAt chk base data
  | _ :: ls, i + 1, data => caseSizeAt chk base ls i data
end

/-- `Layout::variable_field_offset`, src/core/marshaller.rs L409-483. -/
def Layout.variableFieldOffsetAt (chk : Bool) (base : Nat) (l : Layout) (i : Nat) (data : Bytes) : Res Nat := do
  assert (i ≤ l.vars.length)
  varsEndAt chk base l.fixed data (l.vars.take i) l.varOffset

/-- Writing one fixed size field, src/core/marshaller.rs L521-648. -/
def writeFixedAt (chk : Bool) (src : DataSource) (base : Nat) (f : FixedField) (buf : Bytes) : Res Bytes :=
  match f.kind with
  | .length => do
    let n ← src.length f.path
    assert (n ≤ 4294967295)
    writeRawAt base 4 buf f.offset n
  | .bitfield p bitOffset numBits => do
    let tag ← src.tag f.path
    if p.isContainer then do
      let mask ← tagMask chk (8 * p.size) bitOffset numBits
      let c ← readRawAt base p.size buf f.offset
      let t ← shlW chk (8 * p.size) (tag % 2 ^ (8 * p.size)) bitOffset
      writeRawAt base p.size buf f.offset ((c &&& (2 ^ (8 * p.size) - 1 - mask)) ||| (t &&& mask))
    else .error .panic
  | .prim p => do
    let v ← src.prim p f.path
    writeRawAt base p.size buf f.offset (p.store v)
  | .container .. => .error .panic

/-- The loop over the fixed size fields, L521-648. -/
def writeFixedsAt (chk : Bool) (src : DataSource) (base : Nat) : List FixedField → Bytes → Res Bytes
  | [], buf => .ok buf
  | f :: fs, buf => do
    let buf ← writeFixedAt chk src base f buf
    writeFixedsAt chk src base fs buf

mutual
/-- `Layout::encode_with_source`, src/core/marshaller.rs L514-666. -/
def Layout.encodeAt (chk : Bool) (src : DataSource) : Nat → Layout → Bytes → Res (Bytes × Nat)
  | base, .mk al vo _ fixed vars, buf => do
    assert (buf.length ≥ vo)
    let buf ← writeFixedsAt chk src base fixed buf
    let (buf, o) ← encodeVarsAt chk src base vars buf vo
    let n ← align chk o al
    pure (buf, n)
/-- The loop over the variable size fields, L650-663. -/
def encodeVarsAt (chk : Bool) (src : DataSource) (base : Nat) : List VarField → Bytes → Nat → Res (Bytes × Nat)
  | [], buf, o => .ok (buf, o)
  | v :: vs, buf, o => do
    let (buf, o) ← encodeVarAt chk src base v buf o
    encodeVarsAt chk src base vs buf o
/-- One iteration, L651-662. -/
def encodeVarAt (chk : Bool) (src : DataSource) (base : Nat) : VarField → Bytes → Nat → Res (Bytes × Nat)
  | .string path _, buf, o => do
    let n ← src.length path
    let buf ← copyBytes src buf o path n
    let o ← addW chk o n
    pure (buf, o)
  | .enum path _ cases, buf, o => do
    let tag ← src.tag path
    assert (o ≤ buf.length)
    let (sub, _) ← encodeCaseAt chk src (base + o) cases tag (buf.drop o)
    let n ← caseSizeWithSource chk src cases tag
    let o' ← addW chk o n
    pure (buf.take o ++ sub, o')
/-- `cases[case_tag].encode_with_source(&mut buffer[offset..], source)`, L660. -/
def encodeCaseAt (chk : Bool) (src : DataSource) (base : Nat) : List Layout → Nat → Bytes → Res (Bytes × Nat)
  | [], _, _ => .error .panic
  | l :: _, 0, buf => l.encodeAt chk src base buf
  | _ :: ls, i + 1, buf => encodeCaseAt chk src base ls i buf
end

/-- What the search loop of the four readers ends with, and the address of the data. -/
structure LocatedAt where
  found : Located
  base : Nat

mutual
/-- The loop shared by `get_primitive`, `get_bytes`, `get_case_tag` and `get_length`,
src/core/marshaller.rs L714-748, L754-803, L811-878, L886-922 up to the `Ok(idx)` arm. -/
def Layout.locateAt (chk : Bool) (path : Path) : Nat → Layout → Bytes → Res LocatedAt
  | base, .mk al vo indices fixed vars, data =>
    match searchIndex path indices 0 with
    | .at i => do
      let x ← getAt indices i
      pure ⟨⟨.mk al vo indices fixed vars, data, x⟩, base⟩
    | .insertAt i => match indices[i]? with
      | none => .error .panic
      | some x =>
        if Path.isPrefixOf x.path path then do
          let tag ← getAt path x.path.length
          let o ← (Layout.mk al vo indices fixed vars).variableFieldOffsetAt chk base x.varIdx data
          assert (o ≤ data.length)
          locateVarsAt chk path (base + o) vars x.varIdx tag (data.drop o)
        else .error .panic
/-- `&layout.var_size_fields[var_size_field_index].kind`, L739. -/
def locateVarsAt (chk : Bool) (path : Path) (base : Nat) : List VarField → Nat → Nat → Bytes → Res LocatedAt
  | [], _, _, _ => .error .panic
  | v :: _, 0, tag, data => locateVarAt chk path base v tag data
  | _ :: vs, i + 1, tag, data => locateVarsAt chk path base vs i tag data
/-- The `match` on the kind, L739-742. -/
def locateVarAt (chk : Bool) (path : Path) (base : Nat) : VarField → Nat → Bytes → Res LocatedAt
  | .string .., _, _ => .error .panic
  | .enum _ _ cases, tag, data => locateCaseAt chk path base cases tag data
/-- `layout = &cases[case_tag]`, L740. -/
def locateCaseAt (chk : Bool) (path : Path) (base : Nat) : List Layout → Nat → Bytes → Res LocatedAt
  | [], _, _ => .error .panic
  | l :: _, 0, data => l.locateAt chk path base data
  | _ :: ls, i + 1, data => locateCaseAt chk path base ls i data
end

/-- `Marshaller::get_primitive::<T>`, src/core/marshaller.rs L705-749, with `T::tag() = p`. -/
def Layout.getPrimitiveAt (chk : Bool) (base : Nat) (l : Layout) (data : Bytes) (p : Prim) (path : Path) :
    Res p.Val := do
  let w ← l.locateAt chk path base data
  let f ← getAt w.found.layout.fixed w.found.index.fixedIdx
  match f.kind with
  | .prim q => do
    assert (q == p)
    let n ← readRawAt w.base p.size w.found.data f.offset
    p.load n
  | _ => .error .panic

/-- `Marshaller::get_bytes`, src/core/marshaller.rs L751-804. -/
def Layout.getBytesAt (chk : Bool) (base : Nat) (l : Layout) (data : Bytes) (path : Path) : Res Bytes := do
  let w ← l.locateAt chk path base data
  let f ← getAt w.found.layout.fixed w.found.index.fixedIdx
  let o ← w.found.layout.variableFieldOffsetAt chk w.base w.found.index.varIdx w.found.data
  match f.kind with
  | .length => do
    let n ← readRawAt w.base 4 w.found.data f.offset
    match w.found.layout.vars[w.found.index.varIdx]? with
    | some (.string ..) => do
      assert (o ≤ w.found.data.length)
      if w.found.data.length < o + n then .error .ub else pure (slice w.found.data o n)
    | _ => .error .panic
  | _ => .error .panic

/-- `Marshaller::get_case_tag`, src/core/marshaller.rs L808-879. -/
def Layout.getCaseTagAt (chk : Bool) (base : Nat) (l : Layout) (data : Bytes) (path : Path) : Res Nat := do
  let w ← l.locateAt chk path base data
  let f ← getAt w.found.layout.fixed w.found.index.fixedIdx
  readTagAt w.base chk f w.found.data

/-- `Marshaller::get_length`, src/core/marshaller.rs L883-923. -/
def Layout.getLengthAt (chk : Bool) (base : Nat) (l : Layout) (data : Bytes) (path : Path) : Res Nat := do
  let w ← l.locateAt chk path base data
  let f ← getAt w.found.layout.fixed w.found.index.fixedIdx
  match f.kind with
  | .length => readRawAt w.base 4 w.found.data f.offset
  | _ => .error .panic

/-- `MarshallerDataSource`, src/core/marshaller.rs L926-976, for data at the address `base`. -/
def Layout.sourceAt (chk : Bool) (base : Nat) (l : Layout) (data : Bytes) : DataSource where
  prim p path := l.getPrimitiveAt chk base data p path
  tag path := l.getCaseTagAt chk base data path
  length path := l.getLengthAt chk base data path
  bytes path := l.getBytesAt chk base data path

end Verif
