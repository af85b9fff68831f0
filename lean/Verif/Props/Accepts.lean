import Verif.Proof.Accepts
import Verif.Props.Marshaller

/-! # C116: what the encoder accepts

The source is arbitrary: any answers, also ones that do not fit together. -/

namespace Verif.Props

open Verif Verif.Spec

/-- C116. Whatever the source answers, if encoding succeeds then the source presents a value of the type, whose
strings are shorter than 2^32 bytes. -/
theorem C116_only_values (chk : Bool) (t : Ty) (hi : Inhab t) (hn : nodes t < 2 ^ 59) (l : Layout)
    (hl : Layout.new chk t = .ok l) (src : DataSource) (buf : Bytes) (r : Bytes × Nat)
    (he : l.encode chk src buf = .ok r) :
    ∃ v, Typed t v ∧ Presents src v [] ∧ ∀ q bs, (q, Leaf.str bs) ∈ leaves v [] → bs.length < 2 ^ 32 :=
  encode_shows chk _ t (Nat.le_refl _) hn hi [] l hl src buf r he

/-- C116, with overflow checks: encoding succeeds with some buffer if and only if the source presents a value of the
type whose strings are shorter than 2^32 bytes and whose tags have room. -/
theorem C116_checked_iff (t : Ty) (hi : Inhab t) (hn : nodes t < 2 ^ 24) (l : Layout)
    (hl : Layout.new true t = .ok l) (src : DataSource) :
    (∃ buf r, l.encode true src buf = .ok r) ↔ ∃ v, Typed t v ∧ Presents src v [] ∧
      (∀ q bs, (q, Leaf.str bs) ∈ leaves v [] → bs.length < 2 ^ 32) ∧ TagsHaveRoom true (leaves v []) l := by
  constructor
  · rintro ⟨buf, r, he⟩
    obtain ⟨v, h1, h2, h3⟩ := C116_only_values true t hi (by omega) l hl src buf r he
    exact ⟨v, h1, h2, h3,
      (C26_checked_iff t hi (by omega) v h1 h3 (weight_small h1 hn h3) l hl src h2).1.1 ⟨buf, r, he⟩⟩
  · rintro ⟨v, h1, h2, h3, h4⟩
    exact (C26_checked_iff t hi (by omega) v h1 h3 (weight_small h1 hn h3) l hl src h2).1.2 h4

/-- C116, without overflow checks: encoding succeeds with some buffer if and only if the source presents a value of
the type whose strings are shorter than 2^32 bytes. -/
theorem C116_unchecked_iff (t : Ty) (hi : Inhab t) (hn : nodes t < 2 ^ 24) (l : Layout)
    (hl : Layout.new false t = .ok l) (src : DataSource) :
    (∃ buf r, l.encode false src buf = .ok r) ↔ ∃ v, Typed t v ∧ Presents src v [] ∧
      ∀ q bs, (q, Leaf.str bs) ∈ leaves v [] → bs.length < 2 ^ 32 := by
  constructor
  · rintro ⟨buf, r, he⟩
    exact C116_only_values false t hi (by omega) l hl src buf r he
  · rintro ⟨v, h1, h2, h3⟩
    obtain ⟨n, _, h4, _⟩ := C26_unchecked_iff t hi (by omega) v h1 h3 (weight_small h1 hn h3) l hl src h2
    obtain ⟨data, h5, _⟩ := h4 (List.replicate n 0) (by simp)
    exact ⟨_, _, h5⟩

/-- The sample record. -/
example : ∃ l, Layout.new false recTy = .ok l ∧ ∃ buf r, l.encode false recSrc buf = .ok r := by
  obtain ⟨l, hl⟩ := (C18_layout_new false recTy (by decide)).2 rec_inhab
  exact ⟨l, hl, (C116_unchecked_iff recTy rec_inhab (by decide) l hl recSrc).2 ⟨recVal, rec_typed, rec_presents, by
    intro q bs h
    simp only [rec_leaves, List.mem_cons, List.not_mem_nil, or_false, Prod.mk.injEq, reduceCtorEq, and_false,
      false_or, Leaf.str.injEq] at h
    rcases h with ⟨_, rfl⟩ | ⟨_, rfl⟩ <;> decide⟩⟩

/-- C116, reading back: with overflow checks, whatever the source answers, if encoding into a buffer of the announced
size succeeds then source and reader present the same value. -/
theorem C116_reads_back (t : Ty) (hi : Inhab t) (hn : nodes t < 2 ^ 24) (l : Layout)
    (hl : Layout.new true t = .ok l) (src : DataSource) (buf data : Bytes) (n : Nat) (hb : n ≤ buf.length)
    (he : l.encode true src buf = .ok (data, n)) :
    ∃ v, Typed t v ∧ Presents src v [] ∧ Presents (l.source true data) v [] ∧
      Presents (l.source true (data.take n)) v [] := by
  obtain ⟨v, h1, h2, h3⟩ := C116_only_values true t hi (by omega) l hl src buf _ he
  have hw := weight_small h1 hn h3
  have hr := (C26_checked_iff t hi (by omega) v h1 h3 hw l hl src h2).1.1 ⟨buf, _, he⟩
  have hf : Fits true t v := ⟨hi, by omega, fun l' hl' => by rw [hl] at hl'; cases hl'; exact hr, h1, h3, hw⟩
  obtain ⟨h4, h5⟩ := C25_round_trip true t v hf l hl src h2 buf data n he hb
  exact ⟨v, h1, h2, h4, h5⟩

/-- A source whose answers do not fit together: the string is announced with three bytes and given with five. -/
def liar : DataSource :=
  { (IntermediateDataSource.new.addString [] ['h', 'e', 'l', 'l', 'o']).source with length := fun _ => .ok 3 }

example : ∃ l, Layout.new true .string = .ok l ∧
    l.encode true (IntermediateDataSource.new.addString [] ['h', 'e', 'l', 'l', 'o']).source
      (List.replicate 12 0) = .ok ([5, 0, 0, 0, 104, 101, 108, 108, 111, 0, 0, 0], 12) ∧
    l.encode true liar (List.replicate 12 0) = .error .panic := ⟨_, rfl, by decide, by decide⟩

/-- So no buffer will do for it. -/
example : ∀ l, Layout.new true .string = .ok l → ¬ ∃ buf r, l.encode true liar buf = .ok r := by
  intro l hl h
  obtain ⟨v, h1, h2, _⟩ := (C116_checked_iff .string .string (by decide) l hl liar).1 h
  cases h1 with
  | str bs =>
    obtain ⟨h3, h4⟩ := h2 [] (.str bs) (by simp [leaves])
    have h3 : Except.ok (ε := Fault) 3 = .ok bs.length := h3
    have h4 : Except.ok (ε := Fault) [104, 101, 108, 108, 111] = .ok bs := h4
    cases h4
    cases h3

/-- A tag that names no case of the enum is refused, too. -/
example : ∃ l, Layout.new true (.enum [([], .unit), ([], .prim .u8)]) = .ok l ∧
    (∃ data, l.encode true ((IntermediateDataSource.new.addCaseTag [] 1).addPrimitive [1] ⟨.u8, (7 : BitVec 8)⟩).source
      [0, 0] = .ok (data, 2)) ∧
    l.encode true (IntermediateDataSource.new.addCaseTag [] 2).source [0, 0] = .error .panic :=
  ⟨_, rfl, ⟨_, rfl⟩, by decide⟩

end Verif.Props
