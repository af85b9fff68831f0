import Verif.Proof.Extend
import Verif.Props.Overlay
import Verif.Spec.Extend

/-! # Property C130: what follows a record does not matter (`src/core/marshaller.rs`) -/

namespace Verif.Props

open Verif Spec

/-! ## C130 -/

/-- C130. Whatever is read from bytes, and the size found for them, is the same if further bytes follow; this is so for
every layout and all bytes. -/
theorem C130_longer (chk : Bool) (l : Layout) (data more : Bytes) :
    Prolongs (l.source chk data) (l.source chk (data ++ more)) ∧
    ∀ n, l.encodingSize chk data = .ok n → l.encodingSize chk (data ++ more) = .ok n :=
  ⟨⟨fun k q _ h => (getPrimitive_extend chk more l data k q).eq h,
    fun q _ h => (getCaseTag_extend chk more l data q).eq h,
    fun q _ h => (getLength_extend chk more l data q).eq h,
    fun q _ h => (getBytes_extend chk more l data q).eq h⟩,
   fun _ h => (encodingSize_extend chk more l data).eq h⟩

/-- The sample with `FE ED` behind it: the string and the size are those found without. -/
example : ∃ l, Layout.new true recTy = .ok l ∧ ∀ data : Bytes, l.encodingSize true data = .ok 24 →
    l.getBytes true data [1] = .ok [104, 105] →
    l.encodingSize true (data ++ [0xFE, 0xED]) = .ok 24 ∧
    l.getBytes true (data ++ [0xFE, 0xED]) [1] = .ok [104, 105] := by
  obtain ⟨l, hl, _⟩ := rec_size
  refine ⟨l, hl, fun data h1 h2 => ?_⟩
  have h := C130_longer true l data [0xFE, 0xED]
  exact ⟨h.2 24 h1, h.1.bytes [1] _ h2⟩

theorem presents_prolongs {s s' : DataSource} (h : Prolongs s s') {v : Val} {p : Path} (hp : Presents s v p) :
    Presents s' v p := by
  intro q l hl
  have := hp q l hl
  cases l with
  | prim v => exact h.prim _ _ _ this
  | str bs => exact ⟨h.length _ _ this.1, h.bytes _ _ this.2⟩
  | tag i => exact h.tag _ _ this

theorem same_answers {chk : Bool} {l : Layout} {data : Bytes} (more : Bytes) {q : Path} {u : Ty}
    (h : Legible chk l data q u) : SameAnswers (l.source chk data) (l.source chk (data ++ more)) q u := by
  have hx := (C130_longer chk l data more).1
  cases u with
  | prim k =>
    obtain ⟨n, hn⟩ := h
    show l.getPrimitive chk data k q = l.getPrimitive chk (data ++ more) k q
    rw [getPrimitive_stored, getPrimitive_stored, hn, (storedAt_extend chk more l data k q).eq hn]
  | string =>
    obtain ⟨bs, h1, h2⟩ := h
    exact ⟨h1.trans (hx.length _ _ h1).symm, h2.trans (hx.bytes _ _ h2).symm⟩
  | enum cs =>
    obtain ⟨i, _, h1⟩ := h
    exact h1.trans (hx.tag _ _ h1).symm
  | unit => trivial
  | tuple cs => trivial
  | struct fs => trivial

/-- C130. If bytes are found to have a size and are not fewer, then all other bytes that begin like them, up to that
size, are found to have this size, have the same parts, and all questions for these parts have the same outcome. -/
theorem C130_inside (chk : Bool) (t : Ty) (hi : Inhab t) (hn : nodes t < 2 ^ 29) (l : Layout)
    (hl : Layout.new chk t = .ok l) (data : Bytes) (n : Nat) (hs : l.encodingSize chk data = .ok n)
    (hd : n ≤ data.length) (data' : Bytes) (hd' : data'.take n = data.take n) :
    l.encodingSize chk data' = .ok n ∧ ∀ q u,
      (Part (l.source chk data') t [] q u ↔ Part (l.source chk data) t [] q u) ∧
      (Part (l.source chk data) t [] q u → SameAnswers (l.source chk data) (l.source chk data') q u) := by
  have hcut := (legible chk _ t (Nat.le_refl _) hn hi [] l hl data n hs).2.2.1 n (Nat.le_refl _)
  have hlen : (data.take n).length = n := by rw [List.length_take]; omega
  have hleg := (legible chk _ t (Nat.le_refl _) hn hi [] l hl _ n hcut).2.2.2 (by omega)
  have key : ∀ more : Bytes, l.encodingSize chk (data.take n ++ more) = .ok n ∧ ∀ q u,
      (Part (l.source chk (data.take n ++ more)) t [] q u ↔ Part (l.source chk (data.take n)) t [] q u) ∧
      (Part (l.source chk (data.take n)) t [] q u →
        SameAnswers (l.source chk (data.take n)) (l.source chk (data.take n ++ more)) q u) := by
    intro more
    have hx := C130_longer chk l (data.take n) more
    refine ⟨hx.2 n hcut, fun q u => ⟨⟨fun h => part_known h hx.1.tag fun q cs hp => ?_, fun h => part_kept h hx.1.tag⟩,
      fun h => same_answers more (hleg q u h)⟩⟩
    obtain ⟨i, _, h1⟩ := hleg q _ hp
    exact ⟨i, h1⟩
  have k1 := key (data.drop n)
  have k2 := key (data'.drop n)
  rw [List.take_append_drop] at k1
  rw [← hd', List.take_append_drop, hd'] at k2
  refine ⟨k2.1, fun q u => ⟨(k2.2 q u).1.trans (k1.2 q u).1.symm, fun h => ?_⟩⟩
  have hp := (k1.2 q u).1.1 h
  have a1 := (k1.2 q u).2 hp
  have a2 := (k2.2 q u).2 hp
  cases u with
  | prim k => exact Eq.trans (Eq.symm a1) a2
  | string => exact ⟨a1.1.symm.trans a2.1, a1.2.symm.trans a2.2⟩
  | enum cs => exact Eq.trans (Eq.symm a1) a2
  | unit => trivial
  | tuple cs => trivial
  | struct fs => trivial

/-- 24 bytes nobody encoded, with a Boolean that is none. -/
def oddBytes : Bytes :=
  [2, 0, 0, 0, 0x34, 0x12, 0xFD, 0xEE, 1, 0, 0, 0, 7, 65, 0, 0, 104, 105, 0xEE, 0, 0, 0, 0, 0]

/-- Whatever follows these bytes, they are found to have the size 24, and reading the Boolean is undefined. -/
example (more : Bytes) : ∃ l, Layout.new true recTy = .ok l ∧ l.encodingSize true (oddBytes ++ more) = .ok 24 ∧
    l.getPrimitive true (oddBytes ++ more) .bool [2, 1, 1] = .error .ub := by
  obtain ⟨l, hl, _⟩ := rec_size
  have h1 : (Layout.new true recTy >>= fun l => l.encodingSize true oddBytes) = .ok 24 := by decide
  have h2 : (Layout.new true recTy >>= fun l => l.getPrimitive true oddBytes .bool [2, 1, 1]) = .error .ub := by decide
  have h3 : (Layout.new true recTy >>= fun l => l.getCaseTag true oddBytes [2]) = .ok 1 := by decide
  rw [hl] at h1 h2 h3
  obtain ⟨h4, h5⟩ := C130_inside true recTy rec_inhab (by decide) l hl oddBytes 24 h1 (by decide) (oddBytes ++ more)
    (List.take_append_of_le_length (by decide))
  refine ⟨l, hl, h4, ?_⟩
  have hp : Part (l.source true oddBytes) recTy [] [2, 1, 1] (.prim .bool) :=
    .struct (i := 2) rfl (.enum (i := 1) h3 rfl (.tuple (i := 1) rfl (.here _ _)))
  have h6 : l.getPrimitive true oddBytes .bool [2, 1, 1] = l.getPrimitive true (oddBytes ++ more) .bool [2, 1, 1] :=
    (h5 [2, 1, 1] (.prim .bool)).2 hp
  rw [← h6]
  exact h2

/-- C104, the other direction of `C104_value`: bytes in which a value is read are found to have the size of the value,
or `encoding_size` does not return; it returns if there are as many bytes. -/
theorem C104_measured (chk : Bool) (t : Ty) (v : Val) (h : Fits chk t v) (l : Layout)
    (hl : Layout.new chk t = .ok l) (data : Bytes) (hp : Presents (l.source chk data) v [])
    (src : DataSource) (hs : Presents src v []) (size : Nat) (hsize : l.sizeWithSource chk src = .ok size) :
    (∀ n, l.encodingSize chk data = .ok n → n = size) ∧
    (size ≤ data.length → l.encodingSize chk data = .ok size) := by
  have long : ∀ data, Presents (l.source chk data) v [] → size ≤ data.length →
      l.encodingSize chk data = .ok size := by
    intro data hp hd
    have he := (C121_exactly chk t v h l hl src hs size hsize data hd).1 hp
    obtain ⟨n, hn, _, hall⟩ := C22_size chk t v h l hl src hs
    rw [hsize] at hn
    cases hn
    obtain ⟨data', h1, h2, _⟩ := hall data hd
    rw [he] at h1
    cases h1
    exact h2
  refine ⟨fun n hn => ?_, long data hp⟩
  have hx := C130_longer chk l data (List.replicate size 0)
  have := long _ (presents_prolongs hx.1 hp) (by rw [List.length_append, List.length_replicate]; omega)
  rw [hx.2 n hn] at this
  exact Except.ok.inj this

/-- 24 bytes that show the sample, with other bytes in the gaps. -/
def shownBytes : Bytes := [2, 0, 0, 0, 3, 2, 0xFD, 0xEE, 1, 0, 0, 0, 1, 65, 9, 9, 104, 105, 0xEE, 0, 7, 0, 0, 0]

example : ∃ l, Layout.new true recTy = .ok l ∧ l.encodingSize true shownBytes = .ok 24 := by
  obtain ⟨l, hl, hsize⟩ := rec_size
  refine ⟨l, hl, (C104_measured true recTy recVal (rec_fits true) l hl _ ?_ recSrc rec_presents 24 hsize).2 (by decide)⟩
  have h1 : (Layout.new true recTy >>= fun l => l.getPrimitive true shownBytes .u16 [0]) = .ok (515 : BitVec 16) := by
    decide
  have h2 : (Layout.new true recTy >>= fun l => l.getLength true shownBytes [1]) = .ok 2 := by decide
  have h3 : (Layout.new true recTy >>= fun l => l.getBytes true shownBytes [1]) = .ok [104, 105] := by decide
  have h4 : (Layout.new true recTy >>= fun l => l.getCaseTag true shownBytes [2]) = .ok 1 := by decide
  have h5 : (Layout.new true recTy >>= fun l => l.getLength true shownBytes [2, 1, 0]) = .ok 1 := by decide
  have h6 : (Layout.new true recTy >>= fun l => l.getBytes true shownBytes [2, 1, 0]) = .ok [65] := by decide
  have h7 : (Layout.new true recTy >>= fun l => l.getPrimitive true shownBytes .bool [2, 1, 1]) = .ok true := by decide
  rw [hl] at h1 h2 h3 h4 h5 h6 h7
  intro q lf h
  simp only [rec_leaves, List.mem_cons, List.not_mem_nil, or_false, Prod.mk.injEq] at h
  rcases h with ⟨rfl, rfl⟩ | ⟨rfl, rfl⟩ | ⟨rfl, rfl⟩ | ⟨rfl, rfl⟩ | ⟨rfl, rfl⟩
  · exact h1
  · exact ⟨h2, h3⟩
  · exact h4
  · exact ⟨h5, h6⟩
  · exact h7

end Verif.Props
