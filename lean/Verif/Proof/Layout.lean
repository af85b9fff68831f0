import Verif.Proof.Sort

/-! # Facts about a finished layout -/

namespace Verif

/-! ## Bit field allocation -/

/-- Bits used in container `i`. -/
def usedBits (cs : List Container) (i : Nat) : Nat := ((cs[i]?).map (·.offset)).getD 0

theorem placeBits_some {nb : Nat} {cs cs' : List Container} {i j o : Nat}
    (h : placeBits nb cs i = some (j, o, cs')) :
    ∃ k c, j = i + k ∧ cs[k]? = some c ∧ nb ≤ c.capacity ∧ o = c.offset ∧
      cs' = cs.set k { c with capacity := c.capacity - nb, offset := c.offset + nb } := by
  induction cs generalizing i j o cs' with
  | nil => simp [placeBits] at h
  | cons c cs ih =>
    rw [placeBits] at h
    split at h
    · rename_i hc
      simp only [Option.some.injEq, Prod.mk.injEq] at h
      exact ⟨0, c, h.1.symm, rfl, hc, h.2.1.symm, by simp [← h.2.2]⟩
    · split at h
      · rename_i j' o' cs'' he
        simp only [Option.some.injEq, Prod.mk.injEq] at h
        obtain ⟨k, c', h1, h2, h3, h4, h5⟩ := ih he
        refine ⟨k + 1, c', ?_, by simpa using h2, h3, ?_, ?_⟩
        · rw [← h.1, h1]; omega
        · rw [← h.2.1, h4]
        · rw [← h.2.2, h5]; simp
      · simp at h

/-- What is known of each container. -/
def ContainerOk (c : Container) : Prop :=
  (c.prim.isContainer = true ∧ c.prim.size ≤ 8) ∧ c.capacity + c.offset = 8 * c.prim.size

theorem primitiveForBits_ok {nb : Nat} (h : nb ≤ 64) :
    ∃ p, primitiveForBits nb = .ok p ∧ (p.isContainer = true ∧ p.size ≤ 8) ∧ nb ≤ 8 * p.size := by
  unfold primitiveForBits
  simp only [show decide (nb ≤ 128) = true by simp; omega, assert_true, Res.bind_ok,
    show ¬ nb > 64 by omega, if_false, Res.pure_eq]
  split
  · exact ⟨_, rfl, ⟨rfl, by decide⟩, by simp [Prim.size]; omega⟩
  · split
    · exact ⟨_, rfl, ⟨rfl, by decide⟩, by simp [Prim.size]; omega⟩
    · split
      · exact ⟨_, rfl, ⟨rfl, by decide⟩, by simp [Prim.size]; omega⟩
      · exact ⟨_, rfl, ⟨rfl, by decide⟩, by simp [Prim.size]; omega⟩

structure AllocOk (fs : List Bitfield) (cs : List Container) (fs' : List Bitfield)
    (cs' : List Container) : Prop where
  same : fs'.map (fun f => (f.path, f.numBits)) = fs.map (fun f => (f.path, f.numBits))
  grow : cs'.length ≤ cs.length + fs.length
  prims : ∀ (i : Nat) (c : Container), cs[i]? = some c → ∃ c' : Container, cs'[i]? = some c' ∧ c'.prim = c.prim
  mono : ∀ i, usedBits cs i ≤ usedBits cs' i
  ok : ∀ c ∈ cs', ContainerOk c
  room : ∀ f ∈ fs', f.index < cs'.length ∧ usedBits cs f.index ≤ f.bitOffset ∧
    f.bitOffset + f.numBits ≤ usedBits cs' f.index
  disj : fs'.Pairwise (fun f g => f.index = g.index → f.bitOffset + f.numBits ≤ g.bitOffset)
  used : ∀ i, cs.length ≤ i → i < cs'.length → ∃ f ∈ fs', f.index = i

theorem allocateLoop_ok (fs : List Bitfield) (cs : List Container) (hb : ∀ f ∈ fs, f.numBits ≤ 64)
    (hc : ∀ c ∈ cs, ContainerOk c) :
    ∃ fs' cs', allocateLoop fs cs = .ok (fs', cs') ∧ AllocOk fs cs fs' cs' := by
  induction fs generalizing cs with
  | nil => exact ⟨[], cs, rfl, ⟨rfl, by simp, fun i c h => ⟨c, h, rfl⟩, fun i => Nat.le_refl _, hc,
      by simp, .nil, fun i h1 h2 => by omega⟩⟩
  | cons f fs ih =>
    rw [allocateLoop]
    have hb' : ∀ f ∈ fs, f.numBits ≤ 64 := fun g hg => hb g (by simp [hg])
    -- the containers after placing `f`, with its position and offset
    have step : ∀ (j o : Nat) (cs1 : List Container),
        (∀ c ∈ cs1, ContainerOk c) → cs1.length ≤ cs.length + 1 → cs.length ≤ cs1.length →
        (∀ (i : Nat) (c : Container), cs[i]? = some c → ∃ c' : Container, cs1[i]? = some c' ∧ c'.prim = c.prim) →
        (∀ i, usedBits cs i ≤ usedBits cs1 i) → j < cs1.length → usedBits cs j ≤ o →
        usedBits cs1 j = o + f.numBits → (∀ i, cs.length ≤ i → i < cs1.length → i = j) →
        ∃ fs' cs', allocateLoop fs cs1 = .ok (fs', cs') ∧
          AllocOk (f :: fs) cs ({ f with index := j, bitOffset := o } :: fs') cs' := by
      intro j o cs1 h1 h2 h2' h3 h4 h5 h6 h7 h8
      obtain ⟨fs', cs', he, ha⟩ := ih cs1 hb' h1
      have hlen : cs1.length ≤ cs'.length := by
        rcases Nat.lt_or_ge cs'.length cs1.length with hlt | h
        · obtain ⟨c, hc1⟩ : ∃ c, cs1[cs1.length - 1]? = some c :=
            ⟨cs1[cs1.length - 1]'(by omega), List.getElem?_eq_getElem _⟩
          obtain ⟨c', hc', -⟩ := ha.prims _ _ hc1
          have := (List.getElem?_eq_some_iff.1 hc').1
          omega
        · exact h
      refine ⟨fs', cs', he, ⟨by simp [ha.same], by have := ha.grow; simp; omega, ?_, ?_, ha.ok, ?_, ?_, ?_⟩⟩
      · intro i c hi
        obtain ⟨c1, hc1, hp1⟩ := h3 i c hi
        obtain ⟨c2, hc2, hp2⟩ := ha.prims i c1 hc1
        exact ⟨c2, hc2, hp2.trans hp1⟩
      · intro i; exact Nat.le_trans (h4 i) (ha.mono i)
      · intro g hg
        rcases List.mem_cons.1 hg with rfl | hg
        · refine ⟨by simp; omega, h6, ?_⟩
          simp only
          rw [← h7]; exact ha.mono j
        · obtain ⟨r1, r2, r3⟩ := ha.room g hg
          exact ⟨r1, Nat.le_trans (h4 _) r2, r3⟩
      · rw [List.pairwise_cons]
        refine ⟨?_, ha.disj⟩
        intro g hg heq
        obtain ⟨r1, r2, r3⟩ := ha.room g hg
        simp only at heq ⊢
        rw [← heq, h7] at r2
        exact r2
      · intro i hi1 hi2
        rcases Nat.lt_or_ge i cs1.length with hlt | hge
        · exact ⟨_, List.mem_cons_self, (h8 i hi1 hlt).symm⟩
        · obtain ⟨g, hg, hgi⟩ := ha.used i hge hi2
          exact ⟨g, List.mem_cons_of_mem _ hg, hgi⟩
    split
    · rename_i j o cs1 hp
      obtain ⟨k, c, hj, hk, hcap, ho, hcs⟩ := placeBits_some hp
      have hjk : j = k := by omega
      subst hjk
      have hjl := (List.getElem?_eq_some_iff.1 hk).1
      have hcok := hc c (List.mem_of_getElem? hk)
      have hget : ∀ i, cs1[i]? = if i = j then
          some { c with capacity := c.capacity - f.numBits, offset := c.offset + f.numBits }
          else cs[i]? := by
        intro i
        rw [hcs, List.getElem?_set]
        by_cases hi : j = i
        · subst hi; simp [hjl]
        · simp [hi, Ne.symm hi]
      obtain ⟨fs', cs', he, ha⟩ := step j o cs1 (by
          intro x hx
          rw [hcs] at hx
          rcases List.mem_or_eq_of_mem_set hx with hx | rfl
          · exact hc x hx
          · exact ⟨hcok.1, by simp only; have := hcok.2; omega⟩)
        (by rw [hcs]; simp) (by rw [hcs]; simp)
        (by
          intro i x hx
          rw [hget i]
          by_cases hi : i = j
          · subst hi
            rw [hk] at hx
            cases hx
            exact ⟨{ c with capacity := c.capacity - f.numBits, offset := c.offset + f.numBits },
              by rw [if_pos rfl], rfl⟩
          · rw [if_neg hi]; exact ⟨x, hx, rfl⟩)
        (by
          intro i
          unfold usedBits
          rw [hget i]
          by_cases hi : i = j
          · subst hi; rw [hk]; simp
          · simp [hi])
        (by rw [hcs]; simpa using hjl)
        (by unfold usedBits; rw [hk, ho]; simp)
        (by unfold usedBits; rw [hget j, ho]; simp)
        (by intro i h1 h2; rw [hcs, List.length_set] at h2; omega)
      exact ⟨_, cs', by simp [he], ha⟩
    · rename_i hp
      obtain ⟨p, hp1, hp2, hp3⟩ := primitiveForBits_ok (hb f (by simp))
      let c : Container := { prim := p, capacity := p.size * 8 - f.numBits, offset := f.numBits }
      have hget : ∀ i, (cs ++ [c])[i]? = if i = cs.length then some c else cs[i]? := by
        intro i
        rw [List.getElem?_append]
        by_cases hi : i < cs.length
        · simp [hi, show i ≠ cs.length by omega]
        · by_cases hi2 : i = cs.length
          · simp [hi2]
          · simp only [hi, if_false, hi2]
            rw [List.getElem?_eq_none (by simp; omega), List.getElem?_eq_none (by omega)]
      obtain ⟨fs', cs', he, ha⟩ := step cs.length 0 (cs ++ [c]) (by
          intro x hx
          rcases List.mem_append.1 hx with hx | hx
          · exact hc x hx
          · rw [List.mem_singleton.1 hx]; exact ⟨hp2, by simp only [c]; omega⟩)
        (by simp) (by simp)
        (by
          intro i x hx
          have := (List.getElem?_eq_some_iff.1 hx).1
          rw [hget i, if_neg (by omega)]
          exact ⟨x, hx, rfl⟩)
        (by
          intro i
          unfold usedBits
          rw [hget i]
          by_cases hi : i = cs.length
          · rw [if_pos hi, List.getElem?_eq_none (by omega)]; simp
          · simp [hi])
        (by simp)
        (by unfold usedBits; rw [List.getElem?_eq_none (by omega)]; simp)
        (by unfold usedBits; rw [hget]; simp [c])
        (by intro i h1 h2; rw [List.length_append, List.length_singleton] at h2; omega)
      refine ⟨_, cs', ?_, ha⟩
      simp only [hp1, Res.bind_ok]
      rw [he]
      rfl

theorem allocateBitfields_ok (fs : List Bitfield) (hb : ∀ f ∈ fs, f.numBits ≤ 64) :
    ∃ fs' cs', allocateBitfields fs = .ok (fs', cs') ∧
      AllocOk (sortBy (fun l r => r.numBits ≤ l.numBits) fs) [] fs' cs' :=
  allocateLoop_ok _ [] (fun f hf => hb f ((sortBy_perm _ _).mem_iff.1 hf)) (by simp)

/-! ## Offsets -/

/-- `assignOffsets` without faults. -/
def placed : List FixedField → Nat → List FixedField
  | [], _ => []
  | f :: fs, s => { f with offset := s } :: placed fs (s + f.size)

theorem FixedField.kind_size {f : FixedField} (h : ∀ p a b, f.kind ≠ .bitfield p a b) :
    f.kind.size = .ok f.size := by
  unfold FixedKind.size FixedField.size
  split <;> first | rfl | (rename_i hk; simp_all)

def totalSize (fs : List FixedField) : Nat := (fs.map (·.size)).sum

theorem assignOffsets_ok (chk : Bool) (fs : List FixedField) (s : Nat)
    (hk : ∀ f ∈ fs, ∀ p a b, f.kind ≠ .bitfield p a b) (hs : s + totalSize fs < W64) :
    assignOffsets chk fs s = .ok (placed fs s, s + totalSize fs) := by
  induction fs generalizing s with
  | nil => rfl
  | cons f fs ih =>
    simp only [totalSize, List.map_cons, List.sum_cons] at hs
    rw [assignOffsets, FixedField.kind_size (hk f (by simp))]
    simp only [Res.bind_ok, addW]
    rw [if_pos (by omega)]
    simp only [Res.bind_ok]
    rw [ih (s + f.size) (fun g hg => hk g (by simp [hg])) (by simp only [totalSize]; omega)]
    simp [placed, totalSize]; omega

theorem mem_placed {fs : List FixedField} {s : Nat} {g : FixedField} (h : g ∈ placed fs s) :
    ∃ f ∈ fs, g.path = f.path ∧ g.kind = f.kind ∧ g.size = f.size ∧ s ≤ g.offset ∧
      g.offset + g.size ≤ s + totalSize fs := by
  induction fs generalizing s with
  | nil => simp [placed] at h
  | cons f fs ih =>
    rw [placed] at h
    simp only [totalSize, List.map_cons, List.sum_cons]
    rcases List.mem_cons.1 h with rfl | h
    · exact ⟨f, by simp, rfl, rfl, rfl, Nat.le_refl _, by simp [FixedField.size]⟩
    · obtain ⟨f', h1, h2, h3, h4, h5, h6⟩ := ih h
      exact ⟨f', by simp [h1], h2, h3, h4, by omega, by simp only [totalSize] at h6; omega⟩

theorem placed_pairwise (fs : List FixedField) (s : Nat) :
    (placed fs s).Pairwise (fun f g => f.offset + f.size ≤ g.offset) := by
  induction fs generalizing s with
  | nil => exact .nil
  | cons f fs ih =>
    rw [placed, List.pairwise_cons]
    refine ⟨fun g hg => ?_, ih _⟩
    obtain ⟨_, _, _, _, _, h, _⟩ := mem_placed hg
    exact h

theorem placed_map_path (fs : List FixedField) (s : Nat) :
    (placed fs s).map (fun f => (f.path, f.kind)) = fs.map (fun f => (f.path, f.kind)) := by
  induction fs generalizing s with
  | nil => rfl
  | cons f fs ih => simp [placed, ih]

/-- The sizes that occur. -/
def SmallPow (n : Nat) : Prop := n = 1 ∨ n = 2 ∨ n = 4 ∨ n = 8 ∨ n = 16

theorem Prim.size_pow (p : Prim) : SmallPow p.size := by
  cases p <;> simp [SmallPow, Prim.size]

theorem FixedField.size_pow (f : FixedField) : SmallPow f.size := by
  unfold FixedField.size
  split
  · simp [SmallPow]
  · exact Prim.size_pow _
  · exact Prim.size_pow _
  · exact Prim.size_pow _

theorem SmallPow.dvd {a b : Nat} (ha : SmallPow a) (hb : SmallPow b) (h : a ≤ b) : a ∣ b := by
  rcases ha with rfl | rfl | rfl | rfl | rfl <;> rcases hb with rfl | rfl | rfl | rfl | rfl <;>
    first | omega | decide

theorem SmallPow.pos {a : Nat} (ha : SmallPow a) : 0 < a := by rcases ha with rfl|rfl|rfl|rfl|rfl <;> decide
theorem SmallPow.le {a : Nat} (ha : SmallPow a) : a ≤ 16 := by rcases ha with rfl|rfl|rfl|rfl|rfl <;> decide
theorem SmallPow.eq_pow {a : Nat} (ha : SmallPow a) : ∃ k, k < 64 ∧ a = 2 ^ k := by
  rcases ha with rfl | rfl | rfl | rfl | rfl
  · exact ⟨0, by decide, rfl⟩
  · exact ⟨1, by decide, rfl⟩
  · exact ⟨2, by decide, rfl⟩
  · exact ⟨3, by decide, rfl⟩
  · exact ⟨4, by decide, rfl⟩
theorem SmallPow.max {a b : Nat} (ha : SmallPow a) (hb : SmallPow b) : SmallPow (max a b) := by
  rcases Nat.le_total a b with h | h
  · rw [Nat.max_eq_right h]; exact hb
  · rw [Nat.max_eq_left h]; exact ha

theorem placed_aligned (fs : List FixedField) (s : Nat) (hp : fs.Pairwise (fun a b => b.size ≤ a.size))
    (hs : ∀ f ∈ fs, f.size ∣ s) : ∀ g ∈ placed fs s, g.size ∣ g.offset := by
  induction fs generalizing s with
  | nil => simp [placed]
  | cons f fs ih =>
    rw [List.pairwise_cons] at hp
    intro g hg
    rw [placed] at hg
    rcases List.mem_cons.1 hg with rfl | hg
    · exact hs f (by simp)
    · refine ih (s + f.size) hp.2 (fun h hh => ?_) g hg
      exact Nat.dvd_add (hs h (by simp [hh])) (SmallPow.dvd h.size_pow f.size_pow (hp.1 h hh))

theorem align_smallPow {chk : Bool} {v a : Nat} (ha : SmallPow a) (hv : v + 16 < W64) :
    align chk v a = .ok (alignUp v a) := by
  have hle := ha.le
  obtain ⟨k, hk, rfl⟩ := ha.eq_pow
  exact align_ok hk (by omega)

theorem firstSize_spec {fs : List FixedField} (hk : ∀ f ∈ fs, ∀ p a b, f.kind ≠ .bitfield p a b)
    (hp : fs.Pairwise (fun a b => b.size ≤ a.size)) :
    ∃ n, firstSize fs = .ok n ∧ SmallPow n ∧ (∀ f ∈ fs, f.size ≤ n) ∧ (n = 1 ∨ ∃ f ∈ fs, f.size = n) := by
  cases fs with
  | nil => exact ⟨1, rfl, Or.inl rfl, by simp, .inl rfl⟩
  | cons f fs =>
    rw [List.pairwise_cons] at hp
    refine ⟨f.size, FixedField.kind_size (hk f (by simp)), f.size_pow, ?_, .inr ⟨f, by simp, rfl⟩⟩
    intro g hg
    rcases List.mem_cons.1 hg with rfl | hg
    · exact Nat.le_refl _
    · exact hp.1 g hg

theorem firstAlignment_spec {vs : List VarField} (ha : ∀ v ∈ vs, SmallPow v.alignment)
    (hp : vs.Pairwise (fun a b => b.alignment ≤ a.alignment)) :
    SmallPow (firstAlignment vs) ∧ (∀ v ∈ vs, v.alignment ≤ firstAlignment vs) ∧
      (firstAlignment vs = 1 ∨ ∃ v ∈ vs, v.alignment = firstAlignment vs) := by
  cases vs with
  | nil => exact ⟨Or.inl rfl, by simp, .inl rfl⟩
  | cons v vs =>
    rw [List.pairwise_cons] at hp
    refine ⟨ha v (by simp), ?_, .inr ⟨v, by simp, rfl⟩⟩
    intro g hg
    rcases List.mem_cons.1 hg with rfl | hg
    · exact Nat.le_refl _
    · exact hp.1 g hg

/-! ## Containers -/

theorem containerFields_spec (cs : List Container) (i : Nat) (f : FixedField) :
    f ∈ containerFields cs i ↔ ∃ k c, cs[k]? = some c ∧ f = ⟨[], .container (i + k) c.prim, 0⟩ := by
  induction cs generalizing i with
  | nil => simp [containerFields]
  | cons c cs ih =>
    rw [containerFields, List.mem_cons, ih]
    constructor
    · rintro (h | ⟨k, c', h1, h2⟩)
      · exact ⟨0, c, rfl, h⟩
      · exact ⟨k + 1, c', by simpa using h1, by rw [h2, show i + 1 + k = i + (k + 1) by omega]⟩
    · rintro ⟨k, c', h1, h2⟩
      cases k with
      | zero => left; simp at h1; subst h1; exact h2
      | succ k => right; exact ⟨k, c', by simpa using h1, by rw [h2, show i + 1 + k = i + (k + 1) by omega]⟩

theorem containerFields_length (cs : List Container) (i : Nat) :
    (containerFields cs i).length = cs.length := by
  induction cs generalizing i with
  | nil => rfl
  | cons c cs ih => simp [containerFields, ih]

theorem containerAt_mem {i : Nat} {fs : List FixedField} {o : Nat} {p : Prim}
    (h : containerAt i fs = some (o, p)) : ∃ f ∈ fs, f.kind = .container i p ∧ f.offset = o := by
  induction fs with
  | nil => simp [containerAt] at h
  | cons f fs ih =>
    rw [containerAt] at h
    split at h
    · rename_i j q hk
      split at h
      · rename_i hj
        simp only [Option.some.injEq, Prod.mk.injEq] at h
        exact ⟨f, by simp, by rw [hk, hj, h.2], h.1⟩
      · obtain ⟨g, h1, h2⟩ := ih h; exact ⟨g, by simp [h1], h2⟩
    · obtain ⟨g, h1, h2⟩ := ih h; exact ⟨g, by simp [h1], h2⟩

theorem containerAt_of_mem {i : Nat} {fs : List FixedField} {f : FixedField} {p : Prim}
    (hf : f ∈ fs) (hk : f.kind = .container i p) : ∃ r, containerAt i fs = some r := by
  induction fs with
  | nil => simp at hf
  | cons g gs ih =>
    rw [containerAt]
    rcases List.mem_cons.1 hf with rfl | hf
    · rw [hk]; exact ⟨_, if_pos rfl⟩
    · split
      · split
        · exact ⟨_, rfl⟩
        · exact ih hf
      · exact ih hf

/-- The fixed field made from a bit field. -/
def bitField (fixed : List FixedField) (b : Bitfield) : FixedField :=
  ⟨b.path, .bitfield ((containerAt b.index fixed).getD (0, .u8)).2 b.bitOffset b.numBits,
    ((containerAt b.index fixed).getD (0, .u8)).1⟩

theorem bitfieldFields_ok {fixed : List FixedField} {bs : List Bitfield}
    (h : ∀ b ∈ bs, ∃ r, containerAt b.index fixed = some r) :
    bitfieldFields fixed bs = .ok (bs.map (bitField fixed)) := by
  induction bs with
  | nil => rfl
  | cons b bs ih =>
    obtain ⟨⟨o, p⟩, hr⟩ := h b (by simp)
    rw [bitfieldFields, hr]
    simp only
    rw [ih (fun x hx => h x (by simp [hx]))]
    simp [bitField, hr]

end Verif
