import Verif.Proof.FileTable
import Verif.Props.Volume

/-! # C122–C123: what is written to the blocks of a new volume -/

namespace Verif.Props

open Verif Storage

/-! ## C122 -/

/-- C122, the header itself: its fields are at the positions of the documented structure.

Full statement of C122: `init_file_header` returns, and the record it wrote has the header and a list of attributes that
reads as the name of the file and its extent, if it has one.  What is missing is that it never returns
(`C122_attributes_refuted`, `C122_record_refuted`) and that the extent is written to the wrong place
(`C122_extent_refuted`). -/
theorem C122_header_partial (extent : Option Extent) (padding : Bytes) (t : Nat) (use : Nat × Nat) (ht : t < 2 ^ 64)
    (h1 : use.1 < 2 ^ 32) (h2 : use.2 < 2 ^ 32) (he : ∀ e, extent = some e → e.numBlocks < 2 ^ 32)
    (hp : padding.length = 4) :
    let record := fileHeaderBytes extent padding t use
    record.length = 40 ∧ Spec.QuadIs record 0 1 ∧ Spec.QuadIs record 4 1 ∧
    Spec.QuadIs record 8 (t % 2 ^ 32) ∧ Spec.QuadIs record 12 (t / 2 ^ 32) ∧
    Spec.QuadIs record 16 (t % 2 ^ 32) ∧ Spec.QuadIs record 20 (t / 2 ^ 32) ∧
    Spec.QuadIs record 24 ((extent.map (·.numBlocks)).getD 0) ∧ Spec.QuadIs record 28 use.1 ∧
    Spec.QuadIs record 32 use.2 := by
  intro record
  have hn : extent.elim 0 (·.numBlocks) = (extent.map (·.numBlocks)).getD 0 := by
    cases extent <;> rfl
  have hnb : (extent.map (·.numBlocks)).getD 0 < 2 ^ 32 := by
    cases extent with
    | none => decide
    | some e => exact he e rfl
  have h8 : ∀ v, leBytes 8 v = leBytes 4 v ++ leBytes 4 (v / 2 ^ 32) := by
    intro v
    simp only [leBytes, List.cons_append, List.nil_append, Nat.div_div_eq_div_mul]
  have hr : record = leBytes 4 1 ++ leBytes 4 1 ++ leBytes 4 t ++ leBytes 4 (t / 2 ^ 32) ++ leBytes 4 t ++
      leBytes 4 (t / 2 ^ 32) ++ leBytes 4 ((extent.map (·.numBlocks)).getD 0) ++ leBytes 4 use.1 ++
      leBytes 4 use.2 ++ padding := by
    show fileHeaderBytes extent padding t use = _
    unfold fileHeaderBytes
    rw [hn, h8]
    simp only [List.append_assoc]
  have hlen : record.length = 40 := by
    rw [hr]; simp [hp]
  have key : ∀ (a b : Bytes) (v o : Nat), record = a ++ (leBytes 4 v ++ b) → a.length = o →
      Spec.QuadIs record o (v % 2 ^ 32) := by
    intro a b v o h ho
    rw [quadIs_iff]
    have hl : record.length = o + (4 + b.length) := by rw [h]; simp [ho]
    refine ⟨by omega, ?_⟩
    have : slice record o 4 = leBytes 4 v := by
      rw [h, ← ho]
      unfold slice
      rw [List.drop_left, List.take_left' (leBytes_length 4 v)]
    rw [this, leVal_leBytes]
  refine ⟨hlen, ?_, ?_, ?_, ?_, ?_, ?_, ?_, ?_, ?_⟩
  · exact key [] _ 1 0 (by rw [hr]; simp only [List.append_assoc]; rfl) rfl
  · exact key (leBytes 4 1) _ 1 4 (by rw [hr]; simp only [List.append_assoc]; rfl) rfl
  · exact key (leBytes 4 1 ++ leBytes 4 1) _ t 8 (by rw [hr]; simp only [List.append_assoc]; rfl) rfl
  · have := key (leBytes 4 1 ++ leBytes 4 1 ++ leBytes 4 t) _ (t / 2 ^ 32) 12
      (by rw [hr]; simp only [List.append_assoc]; rfl) rfl
    rwa [Nat.mod_eq_of_lt (by omega)] at this
  · exact key (leBytes 4 1 ++ leBytes 4 1 ++ leBytes 4 t ++ leBytes 4 (t / 2 ^ 32)) _ t 16
      (by rw [hr]; simp only [List.append_assoc]; rfl) rfl
  · have := key (leBytes 4 1 ++ leBytes 4 1 ++ leBytes 4 t ++ leBytes 4 (t / 2 ^ 32) ++ leBytes 4 t) _ (t / 2 ^ 32) 20
      (by rw [hr]; simp only [List.append_assoc]; rfl) rfl
    rwa [Nat.mod_eq_of_lt (by omega)] at this
  · have := key (leBytes 4 1 ++ leBytes 4 1 ++ leBytes 4 t ++ leBytes 4 (t / 2 ^ 32) ++ leBytes 4 t ++
      leBytes 4 (t / 2 ^ 32)) _ ((extent.map (·.numBlocks)).getD 0) 24
      (by rw [hr]; simp only [List.append_assoc]; rfl) rfl
    rwa [Nat.mod_eq_of_lt hnb] at this
  · have := key (leBytes 4 1 ++ leBytes 4 1 ++ leBytes 4 t ++ leBytes 4 (t / 2 ^ 32) ++ leBytes 4 t ++
      leBytes 4 (t / 2 ^ 32) ++ leBytes 4 ((extent.map (·.numBlocks)).getD 0)) _ use.1 28
      (by rw [hr]; simp only [List.append_assoc]; rfl) rfl
    rwa [Nat.mod_eq_of_lt h1] at this
  · have := key (leBytes 4 1 ++ leBytes 4 1 ++ leBytes 4 t ++ leBytes 4 (t / 2 ^ 32) ++ leBytes 4 t ++
      leBytes 4 (t / 2 ^ 32) ++ leBytes 4 ((extent.map (·.numBlocks)).getD 0) ++ leBytes 4 use.1) padding use.2 32
      (by rw [hr]; simp only [List.append_assoc]) rfl
    rwa [Nat.mod_eq_of_lt h2] at this

example : fileHeaderBytes (some ⟨1, 4⟩) [9, 9, 9, 9] 105185280000000 (4, 0) =
    [1, 0, 0, 0, 1, 0, 0, 0, 0, 0, 64, 91, 170, 95, 0, 0, 0, 0, 64, 91, 170, 95, 0, 0, 4, 0, 0, 0, 4, 0, 0, 0, 0, 0, 0, 0,
      9, 9, 9, 9] := by decide

/-- C122, the name: it is written if and only if it takes the rest of the record, and then reads as documented. -/
theorem C122_name_partial (b name : Bytes) (o : Nat) :
    ((∃ out, writeName b name o = .ok out) ↔ b.length = o + 3 + name.length ∧ name.length ≤ 255 ∧ o % 2 = 0) ∧
    ∀ out o', writeName b name o = .ok (out, o') →
      o' = b.length ∧ out.length = b.length ∧ (∀ i, i < o → out[i]? = b[i]?) ∧
      Spec.WordIs out o 1 ∧ Spec.ByteIs out (o + 2) name.length ∧
      ∀ i v, name[i]? = some v → Spec.ByteIs out (o + 3 + i) v.toNat := by
  constructor
  · constructor
    · rintro ⟨out, h⟩
      obtain ⟨h1, h2, h3, _⟩ := writeName_ok.1 h
      exact ⟨h1, h2, h3⟩
    · rintro ⟨h1, h2, h3⟩
      exact ⟨_, writeName_ok.2 ⟨h1, h2, h3, rfl⟩⟩
  · intro out o' h
    obtain ⟨h1, h2, h3, h4⟩ := writeName_ok.1 h
    injection h4 with h4 h5
    have l1 : (splice b o (leBytes 2 1)).length = b.length := splice_length _ _ _ (by rw [leBytes_length]; omega)
    have l2 : (splice (splice b o (leBytes 2 1)) (o + 2) (leBytes 1 name.length)).length = b.length := by
      rw [splice_length _ _ _ (by rw [leBytes_length]; omega), l1]
    have l3 : out.length = b.length := by
      rw [h4, splice_length _ _ _ (by omega), l2]
    refine ⟨h5, l3, ?_, ?_, ?_, ?_⟩
    · intro i hi
      rw [h4, splice_getElem? _ _ _ _ (by omega), if_neg (by omega), splice_getElem? _ _ _ _ (by
        rw [leBytes_length]; omega), if_neg (by omega), splice_getElem? _ _ _ _ (by rw [leBytes_length]; omega),
        if_neg (by omega)]
    · rw [wordIs_iff, l3]
      refine ⟨by omega, ?_⟩
      rw [h4, slice_splice_disjoint (by omega) (by omega), slice_splice_disjoint (by rw [leBytes_length]; omega) (by omega)]
      have := slice_splice_same (buf := b) (bs := leBytes 2 1) (off := o) (by rw [leBytes_length]; omega)
      rw [leBytes_length] at this
      rw [this]
      rfl
    · rw [byteIs_iff, l3]
      refine ⟨by omega, ?_⟩
      rw [h4, slice_splice_disjoint (by omega) (by omega)]
      have := slice_splice_same (buf := splice b o (leBytes 2 1)) (bs := leBytes 1 name.length) (off := o + 2)
        (by rw [leBytes_length]; omega)
      rw [leBytes_length] at this
      rw [this, leVal_leBytes, Nat.mod_eq_of_lt (by omega)]
    · intro i v hv
      have hi : i < name.length := (List.getElem?_eq_some_iff.1 hv).1
      refine ⟨v, ?_, rfl⟩
      rw [h4, splice_getElem? _ _ _ _ (by omega), if_pos (by omega), ← hv]
      congr 1; omega

example : writeName [1, 2, 3, 4, 5, 6, 7, 8] [65, 66, 67] 2 = .ok ([1, 2, 1, 0, 3, 65, 66, 67], 8) ∧
    writeName (List.replicate 1024 0) [65, 66, 67] 40 = .error .panic := by decide +kernel

/-- C122 fails after the header: the attributes are never written completely.  The name is only copied if it takes the rest
of the record, and then there is no room for what follows.  In a record of an even number of bytes, as all records have,
other than 42 it is always a panic. -/
theorem C122_attributes_refuted (chk : Bool) (b name : Bytes) (size : Nat) (extent : Option Extent)
    (hb : b.length < 2 ^ 63) :
    (∀ out, writeAttributes chk b name size extent ≠ .ok out) ∧
    (b.length % 2 = 0 → b.length ≠ 42 → writeAttributes chk b name size extent = .error .panic) := by
  have hstart : alignN chk 64 fileHeaderSize 2 = .ok 40 := by
    rw [alignN_two (by decide)]; rfl
  have hafter : ∀ b' : Bytes, b'.length = b.length →
      writeExtents chk b' b.length size extent = .error .panic := by
    intro b' h
    unfold writeExtents
    rw [alignN_two hb]
    have : assert (decide (Spec.upTo 2 b.length < b'.length)) = .error .panic := by
      unfold assert Spec.upTo
      rw [if_neg (by simp; omega)]
    simp only [Res.bind_ok]
    rw [this]
    rfl
  have hok : ∀ out, writeName b name 40 = .ok out →
      writeAttributes chk b name size extent = .error .panic := by
    rintro ⟨b', o'⟩ h
    obtain ⟨h1, h2, _⟩ := (C122_name_partial b name 40).2 b' o' h
    unfold writeAttributes
    rw [hstart]
    simp only [Res.bind_ok]
    rw [h]
    simp only [Res.bind_ok]
    rw [h1, hafter b' h2]
    rfl
  have herr : ∀ e, writeName b name 40 = .error e → writeAttributes chk b name size extent = .error e := by
    intro e h
    unfold writeAttributes
    rw [hstart]
    simp only [Res.bind_ok]
    rw [h]
    rfl
  constructor
  · intro out h
    cases hn : writeName b name 40 with
    | ok x => rw [hok x hn] at h; cases h
    | error e => rw [herr e hn] at h; cases h
  · intro he h42
    cases hn : writeName b name 40 with
    | ok x => exact hok x hn
    | error e =>
      rw [herr e hn]
      unfold writeName at hn
      by_cases h0 : 40 < b.length
      · rw [assert_ok (u := ()) |>.2 (by simpa using h0)] at hn
        simp only [Res.bind_ok] at hn
        rw [store_ok (by rw [leBytes_length]; omega) (by omega)] at hn
        simp only [Res.bind_ok] at hn
        have l1 : (splice b 40 (leBytes 2 1)).length = b.length :=
          splice_length _ _ _ (by rw [leBytes_length]; omega)
        by_cases hl : name.length ≤ 255
        · rw [assert_ok (u := ()) |>.2 (by simpa using hl)] at hn
          simp only [Res.bind_ok] at hn
          rw [store_ok (by rw [leBytes_length]; omega) (by omega)] at hn
          simp only [Res.bind_ok] at hn
          rw [assert_ok (u := ()) |>.2 (by
            rw [splice_length _ _ _ (by rw [leBytes_length]; omega), l1, decide_eq_true_iff]; omega)] at hn
          simp only [Res.bind_ok] at hn
          unfold copyFromSlice at hn
          unfold assert at hn
          split at hn
          · cases hn
          · simp only [Res.bind_error] at hn
            injection hn with hn
            rw [← hn]
        · unfold assert at hn
          rw [if_neg (by simpa using hl)] at hn
          injection hn with hn
          rw [← hn]
      · unfold assert at hn
        rw [if_neg (by simpa using h0)] at hn
        injection hn with hn
        rw [← hn]

example : (List.replicate 1024 0 : Bytes).length < 2 ^ 63 ∧ (List.replicate 1024 0 : Bytes).length % 2 = 0 ∧
    writeAttributes true (List.replicate 1024 0) [36, 102] 16384 (some ⟨1, 4⟩) = .error .panic ∧
    writeAttributes true (List.replicate 42 0) [36, 102] 16384 (some ⟨1, 4⟩) = .error .ub := by decide +kernel

/-- C122 fails as a whole: no call of `init_file_header` returns. -/
theorem C122_record_refuted (chk : Bool) (p : Params) (volume base index : Nat) (name : Bytes) (size : Nat)
    (extent : Option Extent) (clock : Nat × Nat) (padding : Bytes) (blocks : Blocks) (hp : padding.length = 4)
    (out : Blocks) : initFileRecord chk p volume base index name size extent clock padding blocks ≠ .ok out := by
  intro h
  unfold initFileRecord at h
  rw [Res.bind_eq_ok] at h
  obtain ⟨r, h, _⟩ := h
  refine C73_file_header_refuted chk p volume base index size clock _ _ r ?_ h
  intro t u
  unfold fileHeaderBytes
  simp [hp, fileHeaderSize]

example : ([0, 0, 0, 0] : Bytes).length = 4 := rfl

/-- C122 fails for the extent, even where everything else is right.  At a position that is a multiple of 4 the list of
extents is written without undefined behaviour if and only if `2 * o + 12` bytes fit in the record, since the extent is
put at `o` plus its position in the record; and a reader of the documented format then finds a list of one
extent, made of the bytes that were there before. -/
theorem C122_extent_refuted (chk : Bool) (b : Bytes) (o size : Nat) (e : Extent) (ho : o < 2 ^ 62) (h4 : o % 4 = 0)
    (h44 : 44 ≤ o) (hb : o < b.length) :
    ((∃ out, writeExtents chk b o size (some e) = .ok out) ↔ 2 * o + 12 ≤ b.length) ∧
    (b.length < 2 * o + 12 → writeExtents chk b o size (some e) = .error .ub) ∧
    ∀ b1 o1 b2, writeExtents chk b o size (some e) = .ok (b1, o1) → writeEnd chk b1 o1 = .ok b2 →
      ∀ as, Spec.Lists b2 o as ↔ ∃ p n, Spec.QuadIs b (o + 4) p ∧ Spec.QuadIs b (o + 8) n ∧ as = [.extents [(p, n)]] := by
  have hu : Spec.upTo 2 o = o := by unfold Spec.upTo; omega
  have hv : Spec.upTo 4 (o + 4) = o + 4 := by unfold Spec.upTo; omega
  have hw := @writeExtents_some chk b o size e ho
  rw [hu, hv, if_neg (by omega)] at hw
  refine ⟨?_, ?_, ?_⟩
  · rw [hw]
    split
    · exact ⟨fun _ => by omega, fun _ => ⟨_, rfl⟩⟩
    · exact ⟨fun ⟨_, h⟩ => (by cases h), fun h => by omega⟩
  · intro h
    rw [hw, if_neg (by omega)]
  · intro b1 o1 b2 h1 h2
    rw [hw] at h1
    split at h1
    · rename_i hf
      injection h1 with h1
      injection h1 with h1 h1'
      subst h1'
      rw [writeEnd_ok (by omega)] at h2
      have hu2 : Spec.upTo 2 (o + 4 + 8) = o + 12 := by unfold Spec.upTo; omega
      rw [hu2] at h2
      have le : e.bytes.length = 8 := by simp [Extent.bytes]
      have l1 : (splice b o (leBytes 2 16)).length = b.length := splice_length _ _ _ (by rw [leBytes_length]; omega)
      have l2 : (splice (splice b o (leBytes 2 16)) (o + 2) (leBytes 2 1)).length = b.length := by
        rw [splice_length _ _ _ (by rw [leBytes_length]; omega), l1]
      have l3 : b1.length = b.length := by
        rw [← h1, splice_length _ _ _ (by omega), l2]
      rw [if_neg (by omega), if_neg (by omega)] at h2
      injection h2 with h2
      have l4 : b2.length = b.length := by
        rw [← h2, splice_length _ _ _ (by rw [leBytes_length]; omega), l3]
      have w0 : leVal (slice b2 o 2) = 16 := by
        rw [← h2, slice_splice_disjoint (by rw [leBytes_length]; omega) (by omega), ← h1,
          slice_splice_disjoint (by omega) (by omega), slice_splice_disjoint (by rw [leBytes_length]; omega) (by omega)]
        have := slice_splice_same (buf := b) (bs := leBytes 2 16) (off := o) (by rw [leBytes_length]; omega)
        rw [leBytes_length] at this
        rw [this]; rfl
      have w1 : leVal (slice b2 (o + 2) 2) = 1 := by
        rw [← h2, slice_splice_disjoint (by rw [leBytes_length]; omega) (by omega), ← h1,
          slice_splice_disjoint (by omega) (by omega)]
        have := slice_splice_same (buf := splice b o (leBytes 2 16)) (bs := leBytes 2 1) (off := o + 2)
          (by rw [leBytes_length]; omega)
        rw [leBytes_length] at this
        rw [this]; rfl
      have w2 : leVal (slice b2 (o + 12) 2) = 0 := by
        rw [← h2]
        have := slice_splice_same (buf := b1) (bs := leBytes 2 0) (off := o + 12) (by rw [leBytes_length]; omega)
        rw [leBytes_length] at this
        rw [this]; rfl
      have w3 : ∀ i, i = o + 4 ∨ i = o + 8 → slice b2 i 4 = slice b i 4 := by
        intro i hi
        rw [← h2, slice_splice_disjoint (by rw [leBytes_length]; omega) (by omega), ← h1,
          slice_splice_disjoint (by omega) (by omega),
          slice_splice_disjoint (by rw [leBytes_length]; omega) (by rw [leBytes_length]; omega),
          slice_splice_disjoint (by rw [leBytes_length]; omega) (by rw [leBytes_length]; omega)]
      have q : ∀ i v, i = o + 4 ∨ i = o + 8 → (Spec.QuadIs b2 i v ↔ Spec.QuadIs b i v) := by
        intro i v hi
        rw [quadIs_iff, quadIs_iff, w3 i hi, l4]
      have stop : Spec.WordIs b2 (o + 12) 0 := wordIs_iff.2 ⟨by omega, w2.symm⟩
      have hu3 : Spec.upTo 2 (o + 12) = o + 12 := by unfold Spec.upTo; omega
      intro as
      constructor
      · intro h
        cases h with
        | stop h => have := (wordIs_iff.1 h).2; omega
        | name h => have := (wordIs_iff.1 h).2; omega
        | @extents _ list rest _ hl hx hr =>
          have hl1 : list.length = 1 := by have := (wordIs_iff.1 hl).2; omega
          match list, hl1 with
          | [(p, n)], _ =>
            obtain ⟨hp, hn⟩ := hx 0 p n rfl
            rw [hv] at hp hn hr
            refine ⟨p, n, (q _ _ (.inl rfl)).1 hp, (q _ _ (.inr rfl)).1 hn, ?_⟩
            have hr' : Spec.Lists b2 (o + 12) rest := by
              rw [show Spec.upTo 2 (o + 4 + 8 * [(p, n)].length) = o + 12 from hu3] at hr
              exact hr
            cases hr' with
            | stop => rfl
            | name h => have := (wordIs_iff.1 h).2; omega
            | extents h => have := (wordIs_iff.1 h).2; omega
      · rintro ⟨p, n, hp, hn, rfl⟩
        refine .extents (wordIs_iff.2 ⟨by omega, w0.symm⟩) (wordIs_iff.2 ⟨by omega, w1.symm⟩) ?_ ?_
        · intro i p' n' hi
          match i, hi with
          | 0, hi =>
            injection hi with hi
            injection hi with hi1 hi2
            subst hi1; subst hi2
            rw [hv]
            exact ⟨(q _ _ (.inl rfl)).2 hp, (q _ _ (.inr rfl)).2 hn⟩
        · rw [hv]
          rw [show Spec.upTo 2 (o + 4 + 8 * [(p, n)].length) = o + 12 from hu3]
          exact .stop stop
    · cases h1

example : writeExtents true (List.replicate 512 7) 44 16384 (some ⟨1, 4⟩) = .ok
    (List.replicate 44 7 ++ [16, 0, 1, 0] ++ List.replicate 44 7 ++ [1, 0, 0, 0, 4, 0, 0, 0] ++ List.replicate 412 7, 56) ∧
    writeExtents true (List.replicate 512 7) 252 16384 (some ⟨1, 4⟩) = .error .ub := by decide +kernel

/-- C122 fails for the extent after half of all names: if the length of the name is 2 or 3 above a multiple of 4, the
position after it is not a multiple of 4, and writing the extent is undefined behaviour however long the record is. -/
theorem C122_unaligned_refuted (chk : Bool) (b name : Bytes) (size : Nat) (e : Extent) (hn : name.length ≤ 255)
    (hb : 44 + name.length < b.length) (h : 2 ≤ name.length % 4) :
    writeExtents chk b (43 + name.length) size (some e) = .error .ub := by
  rw [writeExtents_some (by omega)]
  have : Spec.upTo 2 (43 + name.length) % 4 = 2 ∧ Spec.upTo 2 (43 + name.length) ≤ 44 + name.length := by
    unfold Spec.upTo; omega
  rw [if_neg (by omega), if_neg (by omega)]

/-- The name `$volume_header` has 14 bytes. -/
example : writeExtents true (List.replicate 1024 0) (43 + 14) 4096 (some ⟨0, 1⟩) = .error .ub ∧
    writeExtents true (List.replicate 1024 0) (43 + 13) 4096 (some ⟨0, 1⟩) ≠ .error .ub ∧ 14 % 4 = 2 := by decide +kernel

/-! ## C123 -/

/-- The location of an offset in a volume (see C44). -/
def place (volume offset : Nat) : Nat := volume * 2 ^ 56 + offset

/-- C123, the mirror.  If all buffers have the same size and the mirror ends within the offsets that a location can have,
copying the file table to its mirror succeeds; afterwards every block of the mirror equals the block of the table, and no
other block has changed, in particular none of the table. -/
theorem C123_mirror (chk : Bool) (p : Params) (h : Sane p) (volume : Nat) (hv : volume < 256) (blocks : Blocks)
    (size : Nat) (hs : ∀ l, (blocks l).length = size) (r : Regions) (hr : regions chk p = .ok r)
    (hfit : (mirrorRange r).start + (mirrorRange r).len ≤ 2 ^ 56) :
    ∃ out, writeMirror chk volume r blocks = .ok out ∧
      (∀ k, k * 2 ^ p.logBlock < (mirrorRange r).len →
        out (place volume ((mirrorRange r).start + k * 2 ^ p.logBlock))
          = blocks (place volume ((tableRange r).start + k * 2 ^ p.logBlock)) ∧
        out (place volume ((tableRange r).start + k * 2 ^ p.logBlock))
          = blocks (place volume ((tableRange r).start + k * 2 ^ p.logBlock))) ∧
      ∀ l, (∀ b, (mirrorRange r).Has b → l ≠ place volume b) → out l = blocks l := by
  obtain ⟨tb, bb, h1, h2, h3, h4⟩ := @regions_ok chk p h.block h.header h.size h.whole
  rw [h4] at hr
  injection hr with hr
  subst hr
  have hp := Nat.two_pow_pos p.logBlock
  simp only [mirrorRange, tableRange, Spec.Range.Has, place] at hfit ⊢
  unfold writeMirror
  obtain ⟨out, o1, o2, o3⟩ := @mirrorLoop_ok chk volume
    { blockSize := 2 ^ p.logBlock, tableOffset := 2 ^ p.logBlock, tableSize := 2 ^ p.logHeader * 16,
      tableBlocks := tb, mirrorOffset := 2 ^ p.logBlock + tb * 2 ^ p.logBlock,
      bitmapOffset := 2 ^ p.logBlock + tb * 2 ^ p.logBlock + tb,
      bitmapBits := p.volumeSize / 2 ^ p.logBlock, bitmapSize := (p.volumeSize / 2 ^ p.logBlock + 7) / 8,
      bitmapBlocks := bb, total := 1 + tb * 2 + bb } hv hp tb 0 blocks
    (by rw [Nat.zero_add]; exact Nat.le_refl _) (by rw [Nat.zero_add]; exact hfit) (fun l l' => by rw [hs, hs])
  simp only [Nat.zero_add] at o2 o3
  refine ⟨out, o1, ?_, ?_⟩
  · intro k hk
    have hk' : k < tb := Nat.lt_of_mul_lt_mul_right hk
    refine ⟨o2 k (by omega) hk', o3 _ ?_⟩
    intro j _ hj heq
    omega
  · intro l hl
    refine o3 l ?_
    intro j _ hj
    refine hl _ ⟨by omega, ?_⟩
    have : (j + 1) * 2 ^ p.logBlock ≤ tb * 2 ^ p.logBlock := Nat.mul_le_mul_right _ hj
    rw [Nat.add_mul, Nat.one_mul] at this
    omega

/-- The first block of the mirror of `smallVolume` is at 20480, the first block of its table at 4096. -/
example : Sane smallVolume ∧ regions true smallVolume = .ok ⟨4096, 4096, 16384, 4, 20480, 20484, 256, 32, 1, 10⟩ ∧
    (∀ l, ((fun l => [UInt8.ofNat (l / 4096), 1]) l : Bytes).length = 2) ∧
    (writeMirror true 0 ⟨4096, 4096, 16384, 4, 20480, 20484, 256, 32, 1, 10⟩
      (fun l => [UInt8.ofNat (l / 4096), 1])).toOption.map (fun out => (out 20480, out 4096, out 32768, out 36864))
      = some ([1, 1], [1, 1], [4, 1], [9, 1]) :=
  ⟨smallVolume_sane, by decide, fun _ => rfl, by decide +kernel⟩

/-- C123, the bitmap: the bytes of its blocks.  If no buffer is smaller than a block and the bitmap ends within the
offsets that a location can have, writing it succeeds; afterwards the bits of its blocks, read in order, are those of C56,
and neither the rest of their buffers nor any other block has changed. -/
theorem C123_bitmap (chk : Bool) (p : Params) (h : Sane p) (hb : 4 ≤ p.logBlock) (volume : Nat) (hv : volume < 256)
    (blocks : Blocks) (hs : ∀ l, 2 ^ p.logBlock ≤ (blocks l).length) (r : Regions) (hr : regions chk p = .ok r)
    (hfit : (bitmapRange r).start + (bitmapRange r).len ≤ 2 ^ 56) :
    ∃ out, writeBitmap chk p volume r blocks = .ok out ∧
      (∀ k i, k * 2 ^ p.logBlock < (bitmapRange r).len → i < 8 * 2 ^ p.logBlock →
        (Spec.bytesBit (out (place volume ((bitmapRange r).start + k * 2 ^ p.logBlock))) i = true ↔
          (r.total / 128 = (8 * 2 ^ p.logBlock * k + i) / 128 → r.total ≤ 8 * 2 ^ p.logBlock * k + i) ∧
          (r.bitmapBits / 128 = (8 * 2 ^ p.logBlock * k + i) / 128 →
            r.bitmapBits % 128 + (8 * 2 ^ p.logBlock * k + i) % 128 < 128))) ∧
      (∀ l i, 2 ^ p.logBlock ≤ i → (out l)[i]? = (blocks l)[i]?) ∧
      ∀ l, (∀ b, (bitmapRange r).Has b → l ≠ place volume b) → out l = blocks l := by
  obtain ⟨r', bs, g1, g2, g3, g4, g5, g6⟩ := C56_written chk p h hb
  rw [hr] at g1
  injection g1 with g1
  subst g1
  obtain ⟨tb, bb, h1, h2, h3, h4⟩ := @regions_ok chk p h.block h.header h.size h.whole
  have hr' := hr
  rw [h4] at hr'
  injection hr' with hr'
  have hbs : r.blockSize = 2 ^ p.logBlock := by rw [← hr']
  have hp := Nat.two_pow_pos p.logBlock
  obtain ⟨w, hw⟩ : ∃ w, 2 ^ p.logBlock = 16 * w := Nat.pow_dvd_pow 2 hb
  have hlen : ∀ b ∈ bs, b.length = w := fun b hb => by have := g4 b hb; omega
  have hrange : (bitmapRange r).start = r.bitmapOffset ∧ (bitmapRange r).len = bs.length * 2 ^ p.logBlock := by
    simp only [bitmapRange]
    rw [g3, hbs]
    exact ⟨trivial, rfl⟩
  obtain ⟨out, o1, o2, o3⟩ := @bitmapLoop_ok chk volume r hv (by rw [hbs]; exact hp) bs 0 blocks
    (by rw [Nat.zero_add, hbs, ← hrange.1, ← hrange.2]; exact hfit)
    (fun ws hws l => by have := hs l; rw [hlen ws hws]; omega)
  simp only [Nat.zero_add] at o2 o3
  rw [hbs] at o2 o3
  refine ⟨out, ?_, ?_, ?_, ?_⟩
  · unfold writeBitmap
    rw [g2]
    exact o1
  · intro k i hk hi
    rw [hrange.2] at hk
    have hk' : k < bs.length := Nat.lt_of_mul_lt_mul_right hk
    obtain ⟨ws, hws⟩ : ∃ ws, bs[k]? = some ws := ⟨_, List.getElem?_eq_getElem hk'⟩
    have hwl := hlen ws (List.mem_of_getElem? hws)
    have hout := o2 k ws hws
    have hsize := hs (volume * 2 ^ 56 + (r.bitmapOffset + k * 2 ^ p.logBlock))
    unfold place
    rw [hrange.1, hout]
    have hbit : ∀ x : Bytes, Spec.bytesBit x i = bit x i := fun x => (bit_eq x i).symm
    rw [hbit, bit_splice (by rw [wordBytes_length]; omega), if_pos (by rw [wordBytes_length]; omega), Nat.mul_zero,
      Nat.sub_zero, bit_wordBytes, ← wordsBit_flatten bs hlen k i ws hws (by omega)]
    have e : 128 * w * k = 8 * 2 ^ p.logBlock * k := by
      rw [hw]; congr 1; omega
    rw [e]
    refine g6 _ ?_
    rw [g5, hrange.2]
    have : (k + 1) * 2 ^ p.logBlock ≤ bs.length * 2 ^ p.logBlock := Nat.mul_le_mul_right _ hk'
    rw [Nat.add_mul, Nat.one_mul] at this
    rw [Nat.mul_assoc, Nat.mul_comm _ k]
    omega
  · intro l i hi
    by_cases hl : ∃ j, j < bs.length ∧ l = volume * 2 ^ 56 + (r.bitmapOffset + j * 2 ^ p.logBlock)
    · obtain ⟨j, hj, rfl⟩ := hl
      have hws := List.getElem?_eq_getElem hj
      have hwl := hlen _ (List.getElem_mem hj)
      have hsize := hs (volume * 2 ^ 56 + (r.bitmapOffset + j * 2 ^ p.logBlock))
      rw [o2 j _ hws, splice_getElem? _ _ _ _ (by rw [wordBytes_length]; omega), if_neg]
      rw [wordBytes_length]
      omega
    · rw [o3 l fun j hj e => hl ⟨j, hj, e⟩]
  · intro l hl
    refine o3 l ?_
    intro j hj
    refine hl _ ⟨by rw [hrange.1]; omega, ?_⟩
    rw [hrange.1, hrange.2]
    have : (j + 1) * 2 ^ p.logBlock ≤ bs.length * 2 ^ p.logBlock := Nat.mul_le_mul_right _ hj
    rw [Nat.add_mul, Nat.one_mul] at this
    omega

/-- A volume of 64 blocks of 16 bytes. -/
def tinyVolume : Params := ⟨1024, 4, 2⟩

/-- The regions of `tinyVolume`. -/
def tinyRegions : Regions := ⟨16, 16, 64, 4, 80, 84, 64, 8, 1, 10⟩

theorem tinyVolume_sane : Sane tinyVolume := ⟨by decide, by decide, by decide, by decide⟩

/-- Bits 0 to 9 of the bitmap of `tinyVolume`, that is its metadata, are clear. -/
example : Sane tinyVolume ∧ 4 ≤ tinyVolume.logBlock ∧ regions true tinyVolume = .ok tinyRegions ∧
    (∀ l, 2 ^ tinyVolume.logBlock ≤ ((fun _ => List.replicate 20 7 : Blocks) l).length) ∧
    (writeBitmap true tinyVolume 0 tinyRegions (fun _ => List.replicate 20 7)).toOption.map (fun out => (out 84, out 85))
      = some ([0, 252, 255, 255, 255, 255, 255, 255, 0, 0, 0, 0, 0, 0, 0, 0, 7, 7, 7, 7], List.replicate 20 7) :=
  ⟨tinyVolume_sane, by decide, by decide, fun _ => by simp [tinyVolume], by decide +kernel⟩

/-- C123 fails for the bitmap if the buffers of the pool are smaller than the blocks of the volume, which nothing checks
at this point: the words are then written past the end of the buffer. -/
theorem C123_bitmap_refuted (chk : Bool) (p : Params) (h : Sane p) (hb : 4 ≤ p.logBlock) (hn : 0 < p.volumeSize)
    (volume : Nat) (hv : volume < 256) (blocks : Blocks) (hs : ∀ l, (blocks l).length < 2 ^ p.logBlock) (r : Regions)
    (hr : regions chk p = .ok r) (hfit : (bitmapRange r).start + (bitmapRange r).len ≤ 2 ^ 56) :
    writeBitmap chk p volume r blocks = .error .ub := by
  obtain ⟨r', bs, g1, g2, g3, g4, g5, g6⟩ := C56_written chk p h hb
  rw [hr] at g1
  injection g1 with g1
  subst g1
  obtain ⟨tb, bb, h1, h2, h3, h4⟩ := @regions_ok chk p h.block h.header h.size h.whole
  have hr' := hr
  rw [h4] at hr'
  injection hr' with hr'
  have hbb : r.bitmapBlocks = bb := by rw [← hr']
  have hp := Nat.two_pow_pos p.logBlock
  have b := (ceil_least (s := (p.volumeSize / 2 ^ p.logBlock + 7) / 8) hp).1
  rw [← h2] at b
  have hq : 0 < p.volumeSize / 2 ^ p.logBlock := Nat.div_pos (Nat.le_of_dvd hn h.whole) hp
  have hbb0 : 0 < bb := by
    rcases Nat.eq_zero_or_pos bb with z | z
    · rw [z] at b; omega
    · exact z
  unfold writeBitmap
  rw [g2]
  simp only [Res.bind_ok]
  match bs, g3, g4 with
  | [], g3, _ => simp at g3; omega
  | ws :: rest, g3, g4 =>
    have hw := g4 ws List.mem_cons_self
    have hbp : (bitmapRange r).len = bb * r.blockSize := by rw [← hbb]; rfl
    have hst : (bitmapRange r).start = r.bitmapOffset := rfl
    have hbs : r.blockSize = 2 ^ p.logBlock := by rw [← hr']
    have : 1 * r.blockSize ≤ bb * r.blockSize := Nat.mul_le_mul_right _ hbb0
    unfold bitmapLoop
    rw [mulW_ok (by omega)]
    simp only [Res.bind_ok]
    rw [addW_ok (by omega)]
    simp only [Res.bind_ok]
    rw [Location.new_ok hv (by omega)]
    simp only [Res.bind_ok]
    rw [storeWords_bad ws 0 _ (by have := hs (volume * 2 ^ 56 + (r.bitmapOffset + 0 * r.blockSize)); omega) (by omega)]
    rfl

example : 0 < tinyVolume.volumeSize ∧ (∀ l, ((fun _ => List.replicate 8 7 : Blocks) l).length < 2 ^ tinyVolume.logBlock) ∧
    writeBitmap true tinyVolume 0 tinyRegions (fun _ => List.replicate 8 7) = .error .ub :=
  ⟨by decide, fun _ => by simp [tinyVolume], rfl⟩

end Verif.Props
