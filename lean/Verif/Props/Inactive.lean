import Verif.Props.Marshaller
import Verif.Proof.Inactive
import Verif.Proof.SmoothExact

/-! # C29 for every enum type -/

namespace Verif.Props

open Verif Spec

/-- C29 is false for every enum type: the first bytes, which hold the tag, and the others are independent.  The
tag is read from the first `n` bytes, everything in a case is read from the others, whichever case the tag
tells. -/
theorem C29_independent_refuted (chk : Bool) (cs : List (Str × Ty)) (hi : Inhab (.enum cs))
    (hn : nodes (.enum cs) < 2 ^ 59) (l : Layout) (hl : Layout.new chk (.enum cs) = .ok l) :
    ∃ n, ∀ one other : Bytes, n ≤ one.length → n ≤ other.length →
      l.getCaseTag chk (one.take n ++ other.drop n) [] = l.getCaseTag chk one [] ∧
      ∀ i q, (∀ p, l.getPrimitive chk (one.take n ++ other.drop n) p (i :: q) = l.getPrimitive chk other p (i :: q)) ∧
        l.getCaseTag chk (one.take n ++ other.drop n) (i :: q) = l.getCaseTag chk other (i :: q) ∧
        l.getLength chk (one.take n ++ other.drop n) (i :: q) = l.getLength chk other (i :: q) ∧
        l.getBytes chk (one.take n ++ other.drop n) (i :: q) = l.getBytes chk other (i :: q) := by
  obtain ⟨h1, y, f, h2, h3, h4⟩ := locate_case hi hn hl
  refine ⟨l.varOffset, fun one other ha hb => ⟨?_, fun i q => ?_⟩⟩
  · simp only [Layout.getCaseTag, h4, Res.bind_ok, getAt_ok h2]
    unfold readTag
    cases hk : f.kind with
    | bitfield p a m =>
      simp only [FixedField.size, hk] at h3
      simp only [readRaw_take h3 ha]
    | _ => rfl
  · have : l.locate chk (i :: q) (one.take l.varOffset ++ other.drop l.varOffset) = l.locate chk (i :: q) other := by
      rw [h1, h1]
      have e : (one.take l.varOffset ++ other.drop l.varOffset).drop l.varOffset = other.drop l.varOffset := by
        rw [List.drop_append_of_le_length (by simp; omega)]
        simp
      have e2 : (one.take l.varOffset ++ other.drop l.varOffset).length = other.length := by simp; omega
      rw [e, e2]
    simp only [Layout.getPrimitive, Layout.getCaseTag, Layout.getLength, Layout.getBytes, this]
    simp

/-- C29 is false for every enum type and all values: for two values of different cases there are bytes that
hold the tag of one and in which all the fields of the other can be read. -/
theorem C29_always_refuted (chk : Bool) (cs : List (Str × Ty)) (i j : Nat) (u w : Val)
    (hu : Fits chk (.enum cs) (.case i u)) (hw : Fits chk (.enum cs) (.case j w)) :
    ∃ (l : Layout) (data : Bytes), Layout.new chk (.enum cs) = .ok l ∧ l.getCaseTag chk data [] = .ok j ∧
      ∀ q leaf, (q, leaf) ∈ leaves u [i] → Answers (l.source chk data) q leaf := by
  obtain ⟨l, hl⟩ := (C18_layout_new chk (.enum cs) hu.nodes).2 hu.inhab
  obtain ⟨n, hmix⟩ := C29_independent_refuted chk cs hu.inhab hu.nodes l hl
  have encoded : ∀ v, Fits chk (.enum cs) v → ∃ data : Bytes, n ≤ data.length ∧ Presents (l.source chk data) v [] := by
    intro v hv
    obtain ⟨m, hm, _⟩ := C22_size chk _ v hv l hl (valSource v) (valSource_presents v)
    obtain ⟨data, h1, h2, _⟩ := C23_inside chk _ v hv l hl (valSource v) (valSource_presents v) m hm
      (List.replicate (m + n) 0) (by simp)
    refine ⟨data, by rw [h2]; simp, ?_⟩
    exact (C25_round_trip chk _ v hv l hl (valSource v) (valSource_presents v) _ data m h1 (by simp)).1
  obtain ⟨one, ho, hpo⟩ := encoded _ hw
  obtain ⟨other, ht, hpt⟩ := encoded _ hu
  obtain ⟨h1, h2⟩ := hmix one other ho ht
  refine ⟨l, one.take n ++ other.drop n, hl, ?_, fun q leaf hq => ?_⟩
  · rw [h1]
    exact hpo [] (.tag j) (by rw [leaves]; simp)
  · have ha := hpt q leaf (by rw [leaves]; simp [hq])
    obtain ⟨s, rfl⟩ : ∃ s, q = i :: s := by
      cases hu.typed with
      | enum hc ht =>
        obtain ⟨s, hs⟩ := leaves_prefix ht _ _ hq
        exact ⟨s, by simpa using hs.symm⟩
    obtain ⟨g1, g2, g3, g4⟩ := h2 i s
    cases leaf with
    | prim v => exact (g1 v.1).trans ha
    | str bs => exact ⟨g3.trans ha.1, g4.trans ha.2⟩
    | tag k => exact g2.trans ha

/-- `{ u8 | string }`: bytes with tag 0 in which the string of case 1 can be read. -/
example : ∃ (l : Layout) (data : Bytes), Layout.new true (.enum [([], .prim .u8), ([], .string)]) = .ok l ∧
    l.getCaseTag true data [] = .ok 0 ∧ l.getBytes true data [1] = .ok [65, 66] := by
  have hinh : Inhab (.enum [([], .prim .u8), ([], .string)]) := .enum (by simp) (by simp; exact ⟨.prim _, .string⟩)
  have hroom := tagFits_room hinh (by decide)
    (.enum ⟨Or.inl (by decide), fun _ => by decide⟩ (by simp; exact ⟨.prim _, .string⟩) : AllEnums (TagFits true) _)
  obtain ⟨l, data, h1, h2, h3⟩ := C29_always_refuted true [([], .prim .u8), ([], .string)] 1 0 (.str [65, 66])
    (.prim ⟨.u8, (7 : BitVec 8)⟩)
    ⟨hinh, by decide, hroom _, .enum (c := ([], .string)) rfl (.str _), by
      intro q bs h; simp [leaves] at h; simp [h], by decide⟩
    ⟨hinh, by decide, hroom _, .enum (c := ([], .prim .u8)) rfl (.prim ⟨.u8, (7 : BitVec 8)⟩), by
      intro q bs h; simp [leaves] at h, by decide⟩
  exact ⟨l, data, h1, h2, (h3 [1] (.str [65, 66]) (by simp [leaves])).2⟩

end Verif.Props
