import Verif.Proof.Nested

/-! # Reading arbitrary data whose announced size does not exceed its length -/

namespace Verif

open Spec

/-! ## Parts and slots -/

/-- A part is a slot of the layout or lies inside the active case of an enum slot. -/
theorem part_slot {src : DataSource} {t u : Ty} {p q : Path} (h : Part src t p q u) :
    (∃ s : Slot, s.ty = u) → (∃ s : Slot, s.ty = u ∧ (q, s) ∈ slots t p) ∨
      ∃ r cs i c, (r, Slot.enum cs) ∈ slots t p ∧ src.tag r = .ok i ∧ cs[i]? = some c ∧
        Part src c.2 (r ++ [i]) q u := by
  induction h with
  | here t p =>
    rintro ⟨s, rfl⟩
    refine Or.inl ⟨s, rfl, ?_⟩
    cases s <;> simp [Slot.ty, slots]
  | @tuple cs i c u p q hc _ ih =>
    intro hs
    rcases ih hs with ⟨s, h1, h2⟩ | ⟨r, ds, j, d, h1, h2⟩
    · exact Or.inl ⟨s, h1, by rw [slots, mem_slotsL_iff]; exact ⟨i, c, hc, by simpa using h2⟩⟩
    · exact Or.inr ⟨r, ds, j, d, by rw [slots, mem_slotsL_iff]; exact ⟨i, c, hc, by simpa using h1⟩, h2⟩
  | @struct fs i f u p q hc _ ih =>
    intro hs
    have hc' : (fs.map (·.2))[i]? = some f.2 := by rw [List.getElem?_map, hc]; rfl
    rcases ih hs with ⟨s, h1, h2⟩ | ⟨r, ds, j, d, h1, h2⟩
    · exact Or.inl ⟨s, h1, by rw [slots, slotsF_eq, mem_slotsL_iff]; exact ⟨i, f.2, hc', by simpa using h2⟩⟩
    · exact Or.inr ⟨r, ds, j, d, by
        rw [slots, slotsF_eq, mem_slotsL_iff]; exact ⟨i, f.2, hc', by simpa using h1⟩, h2⟩
  | @enum cs i c u p q ht hc hp _ =>
    intro _
    exact Or.inr ⟨p, cs, i, c, by simp [slots], ht, hc, hp⟩

/-- Parts depend on the tags at the paths below only. -/
theorem part_congr {s1 s2 : DataSource} {t u : Ty} {p q : Path} (h : Part s1 t p q u) :
    (∀ r, s1.tag (p ++ r) = s2.tag (p ++ r)) → Part s2 t p q u := by
  induction h with
  | here t p => exact fun _ => .here t p
  | tuple hc _ ih => exact fun hs => .tuple hc (ih fun r => by simpa using hs (_ :: r))
  | struct hc _ ih => exact fun hs => .struct hc (ih fun r => by simpa using hs (_ :: r))
  | enum ht hc _ ih =>
    exact fun hs => .enum (by simpa using (hs []).symm.trans (by simpa using ht)) hc
      (ih fun r => by simpa using hs (_ :: r))

theorem part_prefix {src : DataSource} {t u : Ty} {p q : Path} (h : Part src t p q u) : ∃ r, q = p ++ r := by
  induction h with
  | here => exact ⟨[], by simp⟩
  | @tuple _ i _ _ _ _ _ _ ih => obtain ⟨r, rfl⟩ := ih; exact ⟨i :: r, by simp⟩
  | @struct _ i _ _ _ _ _ _ ih => obtain ⟨r, rfl⟩ := ih; exact ⟨i :: r, by simp⟩
  | @enum _ i _ _ _ _ _ _ _ ih => obtain ⟨r, rfl⟩ := ih; exact ⟨i :: r, by simp⟩

/-- A source that answers all questions presents a value. -/
theorem readable_value {src : DataSource} (t : Ty) : ∀ p : Path,
    (∀ q u, Part src t p q u → Readable src q u) → ∃ v, Typed t v ∧ Presents src v p := by
  have list : ∀ (cs : List Ty), (∀ c ∈ cs, ∀ p : Path, (∀ q u, Part src c p q u → Readable src q u) →
      ∃ v, Typed c v ∧ Presents src v p) → ∀ (p : Path) (i : Nat),
      (∀ (k : Nat) (c : Ty), cs[k]? = some c → ∀ q u, Part src c (p ++ [i + k]) q u → Readable src q u) →
      ∃ vs : List Val, vs.length = cs.length ∧
        (∀ (k : Nat) (c : Ty) (v : Val), cs[k]? = some c → vs[k]? = some v → Typed c v) ∧
        ∀ q l, (q, l) ∈ leavesFrom vs p i → Answers src q l := by
    intro cs
    induction cs with
    | nil => intro _ p i _; exact ⟨[], rfl, by simp, by simp [leavesFrom]⟩
    | cons c cs ih =>
      intro hc p i hr
      obtain ⟨v, h1, h2⟩ := hc c (by simp) (p ++ [i]) (hr 0 c rfl)
      obtain ⟨vs, g1, g2, g3⟩ := ih (fun d hd => hc d (by simp [hd])) p (i + 1)
        (fun k d hk q u hp => hr (k + 1) d (by simpa using hk) q u (by
          rw [show i + (k + 1) = i + 1 + k by omega]; exact hp))
      refine ⟨v :: vs, by simp [g1], ?_, ?_⟩
      · intro k d w hk hw
        cases k with
        | zero => simp at hk hw; subst hk hw; exact h1
        | succ k => exact g2 k d w (by simpa using hk) (by simpa using hw)
      · intro q l h
        rw [leavesFrom, List.mem_append] at h
        rcases h with h | h
        · exact h2 q l h
        · exact g3 q l h
  induction t using Ty.ind with
  | unit => exact fun p _ => ⟨.unit, .unit, by simp [Presents, leaves]⟩
  | prim k =>
    intro p h
    obtain ⟨v, hv⟩ := h p _ (.here _ _)
    refine ⟨.prim ⟨k, v⟩, .prim ⟨k, v⟩, ?_⟩
    intro q l hl
    simp [leaves] at hl
    obtain ⟨rfl, rfl⟩ := hl
    exact hv
  | string =>
    intro p h
    obtain ⟨bs, hv⟩ := h p _ (.here _ _)
    refine ⟨.str bs, .str bs, ?_⟩
    intro q l hl
    simp [leaves] at hl
    obtain ⟨rfl, rfl⟩ := hl
    exact hv
  | tuple cs ih =>
    intro p h
    obtain ⟨vs, h1, h2, h3⟩ := list cs ih p 0 (fun k c hk q u hp => h q u (.tuple hk (by simpa using hp)))
    exact ⟨.seq vs, .tuple h1 h2, h3⟩
  | struct fs ih =>
    intro p h
    obtain ⟨vs, h1, h2, h3⟩ := list (fs.map (·.2)) (by
        intro c hc
        obtain ⟨f, hf, rfl⟩ := List.mem_map.1 hc
        exact ih f hf) p 0 (by
        intro k c hk q u hp
        rw [List.getElem?_map, Option.map_eq_some_iff] at hk
        obtain ⟨f, hf, rfl⟩ := hk
        exact h q u (.struct hf (by simpa using hp)))
    refine ⟨.seq vs, .struct (by simpa using h1) (fun i f v hf hv => h2 i f.2 v ?_ hv), h3⟩
    rw [List.getElem?_map, hf]; rfl
  | enum cs ih =>
    intro p h
    obtain ⟨i, hi, ht⟩ := h p _ (.here _ _)
    have hc := List.getElem?_eq_getElem hi
    obtain ⟨v, h1, h2⟩ := ih _ (List.getElem_mem hi) (p ++ [i]) (fun q u hp => h q u (.enum ht hc hp))
    refine ⟨.case i v, .enum hc h1, ?_⟩
    intro q l hl
    rw [leaves] at hl
    rcases List.mem_cons.1 hl with hl | hl
    · cases hl; exact ht
    · exact h2 q l hl

/-! ## Bounds -/

theorem slots_nodes (t : Ty) : ∀ p : Path, ((slots t p).map (fun x => nodes x.2.ty)).sum ≤ nodes t := by
  have list : ∀ (cs : List Ty), (∀ c ∈ cs, ∀ p : Path, ((slots c p).map (fun x => nodes x.2.ty)).sum ≤ nodes c) →
      ∀ (p : Path) (i : Nat), ((slotsL cs p i).map (fun x => nodes x.2.ty)).sum ≤ nodes.nodesL cs := by
    intro cs
    induction cs with
    | nil => intro _ p i; simp [slotsL]
    | cons c cs ih =>
      intro h p i
      rw [slotsL, List.map_append, List.sum_append, nodes.nodesL]
      exact Nat.add_le_add (h c (by simp) _) (ih (fun d hd => h d (by simp [hd])) _ _)
  have names : ∀ fs : List (Str × Ty), nodes.nodesL (fs.map (·.2)) = nodes.nodesF fs := by
    intro fs
    induction fs with
    | nil => rfl
    | cons f fs ih =>
      obtain ⟨a, b⟩ := f
      rw [List.map_cons, nodes.nodesL, nodes.nodesF, nodes.nodesP, ih]
  induction t using Ty.ind with
  | unit => simp [slots]
  | prim k => simp [slots, Slot.ty]
  | string => simp [slots, Slot.ty]
  | tuple cs ih => intro p; rw [slots, nodes]; have := list cs ih p 0; omega
  | struct fs ih =>
    intro p
    rw [slots, slotsF_eq, nodes]
    have := list (fs.map (·.2)) (by
      intro c hc
      obtain ⟨f, hf, rfl⟩ := List.mem_map.1 hc
      exact ih f hf) p 0
    rw [names] at this
    omega
  | enum cs ih => simp [slots, Slot.ty]

/-- The most a variable field can occupy. -/
def slotCap : Slot → Nat
  | .prim _ => 0
  | .str => 4294967296
  | .enum cs => 17179869184 * nodes.nodesF cs

/-- The same by path. -/
def capAt (xs : List (Path × Slot)) (q : Path) : Nat :=
  match xs.find? (fun x => x.1 == q) with
  | some x => slotCap x.2
  | none => 0

theorem capAt_eq {xs : List (Path × Slot)} (h : (xs.map (·.1)).Nodup) {x : Path × Slot} (hx : x ∈ xs) :
    capAt xs x.1 = slotCap x.2 := by
  have : xs.find? (fun y => y.1 == x.1) = some x := by
    induction xs with
    | nil => simp at hx
    | cons y ys ih =>
      rw [List.map_cons, List.nodup_cons] at h
      rcases List.mem_cons.1 hx with rfl | hx
      · simp
      · rw [List.find?_cons_of_neg, ih h.2 hx]
        intro e
        exact h.1 (by rw [eq_of_beq e]; exact List.mem_map_of_mem hx)
  rw [capAt, this]

theorem leVal_lt' (bs : Bytes) : leVal bs < 256 ^ bs.length := by
  induction bs with
  | nil => simp [leVal]
  | cons b bs ih =>
    have hb : b.toNat < 256 := UInt8.toNat_lt b
    rw [leVal, List.length_cons, Nat.pow_succ]
    omega

theorem readRaw_lt {data : Bytes} {o n : Nat} (h : readRaw 4 data o = .ok n) : n < 4294967296 := by
  unfold readRaw at h
  split at h
  · cases h
  · split at h
    · cases h
    · cases h
      have := leVal_lt' (slice data o 4)
      have hl : (slice data o 4).length ≤ 4 := by unfold slice; rw [List.length_take]; omega
      have h2 : 256 ^ (slice data o 4).length ≤ 256 ^ 4 := Nat.pow_le_pow_right (by decide) hl
      omega

theorem addW_eq {chk : Bool} {a b n : Nat} (h : addW chk a b = .ok n) (hb : a + b < W64) : n = a + b := by
  rw [addW_ok hb] at h; cases h; rfl

theorem caseSize_at {chk : Bool} {cs : List Layout} {i : Nat} {data : Bytes} {n : Nat}
    (h : caseSize chk cs i data = .ok n) : ∃ c, cs[i]? = some c ∧ c.encodingSize chk data = .ok n := by
  induction cs generalizing i with
  | nil => rw [caseSize] at h; cases h
  | cons c cs ih =>
    cases i with
    | zero => rw [caseSize] at h; exact ⟨c, rfl, h⟩
    | succ i => rw [caseSize] at h; simpa using ih h

/-- One field after the other: the offsets grow and stay within the bounds. -/
theorem varsEnd_steps {chk : Bool} {fixed : List FixedField} {data : Bytes} {sz : Path → Nat} (vs : List VarField)
    (hv : ∀ v ∈ vs, ∀ o o', varEnd chk fixed data v o = .ok o' → o + sz v.path < W64 →
      o ≤ o' ∧ o' ≤ o + sz v.path) :
    ∀ (o e : Nat), varsEnd chk fixed data vs o = .ok e → o + total sz vs < W64 →
      o ≤ e ∧ e ≤ o + total sz vs ∧ ∀ (j : Nat) (v : VarField), vs[j]? = some v → ∃ a b,
        varsEnd chk fixed data (vs.take j) o = .ok a ∧ varEnd chk fixed data v a = .ok b ∧ o ≤ a ∧ a ≤ b ∧
        b ≤ e ∧ a ≤ o + total sz (vs.take j) := by
  induction vs with
  | nil => intro o e h _; rw [varsEnd] at h; cases h; simp [total]
  | cons v vs ih =>
    intro o e h ho
    rw [total_cons] at ho
    rw [varsEnd] at h
    obtain ⟨o1, h1, h⟩ := Res.bind_eq_ok.1 h
    obtain ⟨a1, a2⟩ := hv v (by simp) o o1 h1 (by omega)
    obtain ⟨b1, b2, b3⟩ := ih (fun w hw => hv w (by simp [hw])) o1 e h (by omega)
    refine ⟨by omega, by rw [total_cons]; omega, ?_⟩
    intro j w hw
    cases j with
    | zero =>
      simp at hw; subst hw
      exact ⟨o, o1, by rw [List.take_zero, varsEnd], h1, by omega, by omega, by omega, by omega⟩
    | succ j =>
      obtain ⟨a, b, c1, c2, c3, c4, c5, c6⟩ := b3 j w (by simpa using hw)
      refine ⟨a, b, ?_, c2, by omega, c4, c5, ?_⟩
      · rw [List.take_succ_cons, varsEnd, h1]; exact c1
      · rw [List.take_succ_cons, total_cons]; omega

/-! ## Leaving out what lies behind -/

theorem slice_cut {data : Bytes} {o n m : Nat} (h : o + n ≤ m) : slice (data.take m) o n = slice data o n := by
  unfold slice
  rw [List.drop_take, List.take_take, Nat.min_eq_left (by omega)]

theorem readRaw_cut {data : Bytes} {o n m a : Nat} (h : readRaw n data o = .ok a) (hm : o + n ≤ m) :
    readRaw n (data.take m) o = .ok a := by
  unfold readRaw at h ⊢
  split at h
  · cases h
  · split at h
    · cases h
    · rw [if_neg (by rw [List.length_take]; omega), if_neg (by rw [List.length_take]; omega), slice_cut hm]
      exact h

theorem readTag_cut {chk : Bool} {f : FixedField} {data : Bytes} {m a : Nat} (h : readTag chk f data = .ok a)
    (hm : f.offset + f.size ≤ m) : readTag chk f (data.take m) = .ok a := by
  unfold readTag at h ⊢
  unfold FixedField.size at hm
  split at h
  · rename_i hk
    rw [hk] at hm
    split at h
    · rename_i hc
      obtain ⟨c, h1, h2⟩ := Res.bind_eq_ok.1 h
      rw [if_pos hc, readRaw_cut h1 hm]
      exact h2
    · cases h
  · cases h

theorem caseSize_of {chk : Bool} {cs : List Layout} {i : Nat} {c : Layout} (h : cs[i]? = some c) (data : Bytes) :
    caseSize chk cs i data = c.encodingSize chk data := by
  induction cs generalizing i with
  | nil => cases h
  | cons d cs ih =>
    cases i with
    | zero => cases h; rw [caseSize]
    | succ i => rw [caseSize]; exact ih h

theorem varsEnd_cut {chk : Bool} {fixed : List FixedField} {data data' : Bytes} {sz : Path → Nat} (vo : Nat)
    (vs : List VarField) (hv : ∀ v ∈ vs, ∀ o o', varEnd chk fixed data v o = .ok o' → o + sz v.path < W64 →
      o ≤ o' ∧ o' ≤ o + sz v.path) (m : Nat)
    (hc : ∀ v ∈ vs, ∀ o o', varEnd chk fixed data v o = .ok o' → o + sz v.path < W64 → vo ≤ o → o' ≤ m →
      varEnd chk fixed data' v o = .ok o') :
    ∀ (o e : Nat), varsEnd chk fixed data vs o = .ok e → o + total sz vs < W64 → vo ≤ o → e ≤ m →
      varsEnd chk fixed data' vs o = .ok e := by
  induction vs with
  | nil => intro o e h _ _ _; rw [varsEnd] at h ⊢; exact h
  | cons v vs ih =>
    intro o e h ho hvo hm
    rw [total_cons] at ho
    rw [varsEnd] at h ⊢
    obtain ⟨o1, h1, h⟩ := Res.bind_eq_ok.1 h
    obtain ⟨a1, a2⟩ := hv v (by simp) o o1 h1 (by omega)
    obtain ⟨b1, b2, b3⟩ := varsEnd_steps vs (fun w hw => hv w (by simp [hw])) o1 e h (by omega)
    rw [hc v (by simp) o o1 h1 (by omega) hvo (by omega)]
    exact ih (fun w hw => hv w (by simp [hw])) (fun w hw => hc w (by simp [hw])) o1 e h (by omega) (by omega) hm

/-! ## Reading -/

/-- The bytes of the number, Boolean or character of kind `k` stored at path `q`, as a number. -/
def Layout.storedAt (chk : Bool) (l : Layout) (data : Bytes) (k : Prim) (q : Path) : Res Nat := do
  let w ← l.locate chk q data
  let f ← getAt w.layout.fixed w.index.fixedIdx
  match f.kind with
  | .prim k' => do
    assert (k' == k)
    readRaw k.size w.data f.offset
  | _ => .error .panic

theorem getPrimitive_stored (chk : Bool) (l : Layout) (data : Bytes) (k : Prim) (q : Path) :
    l.getPrimitive chk data k q = l.storedAt chk data k q >>= k.load := by
  unfold Layout.getPrimitive Layout.storedAt
  cases l.locate chk q data with
  | error e => rfl
  | ok w =>
    simp only [Res.bind_ok]
    cases getAt w.layout.fixed w.index.fixedIdx with
    | error e => rfl
    | ok f =>
      simp only [Res.bind_ok]
      cases f.kind with
      | prim k' => dsimp only; cases assert (k' == k) <;> rfl
      | _ => rfl

/-- Like `Readable`, but a Boolean or character may be stored by bytes that are none. -/
def Legible (chk : Bool) (l : Layout) (data : Bytes) (q : Path) : Ty → Prop
  | .prim k => ∃ n, l.storedAt chk data k q = .ok n
  | u => Readable (l.source chk data) q u

theorem load_legible (k : Prim) (n : Nat) :
    (∃ v, k.load n = .ok v) ∨ (k.load n = .error .ub ∧ (k = .bool ∨ k = .char)) := by
  cases k with
  | bool =>
    simp only [Prim.load]
    split
    · exact Or.inl ⟨_, rfl⟩
    · split
      · exact Or.inl ⟨_, rfl⟩
      · exact Or.inr ⟨rfl, by simp⟩
  | char =>
    simp only [Prim.load]
    split
    · exact Or.inl ⟨_, rfl⟩
    · exact Or.inr ⟨rfl, by simp⟩
  | _ => exact Or.inl ⟨_, rfl⟩

/-- The source of a layout below the path of an enum field is the source of the case. -/
theorem source_below {chk : Bool} {l l' : Layout} {data data' : Bytes} {q : Path}
    (h : l.locate chk q data = l'.locate chk q data') :
    (l.source chk data).tag q = (l'.source chk data').tag q ∧
    ∀ u, Legible chk l' data' q u → Legible chk l data q u := by
  refine ⟨?_, ?_⟩
  · simp only [Layout.source, Layout.getCaseTag]; rw [h]
  · intro u hu
    cases u with
    | prim k => simp only [Legible, Layout.storedAt] at hu ⊢; rw [h]; exact hu
    | string =>
      simp only [Legible, Readable, Layout.source, Layout.getLength, Layout.getBytes] at hu ⊢
      rw [h]; exact hu
    | enum cs => simp only [Legible, Readable, Layout.source, Layout.getCaseTag] at hu ⊢; rw [h]; exact hu
    | unit => exact hu
    | tuple cs => exact hu
    | struct fs => exact hu

set_option maxHeartbeats 1000000 in
theorem legible (chk : Bool) (n : Nat) : ∀ (t : Ty), nodes t ≤ n → n < 2 ^ 29 → Inhab t →
    ∀ (p : Path) (l : Layout), calculateLayout chk t p = .ok l → ∀ (data : Bytes) (sz : Nat),
    l.encodingSize chk data = .ok sz → l.varOffset ≤ sz ∧ sz ≤ 17179869184 * nodes t ∧
      (∀ m, sz ≤ m → l.encodingSize chk (data.take m) = .ok sz) ∧ (sz ≤ data.length → ∀ q u,
        Part (l.source chk data) t p q u → Legible chk l data q u) := by
  induction n with
  | zero => intro t h; have := nodes_pos t; omega
  | succ n ih =>
    intro t hn hn2 hi p l hl data size hsize
    obtain ⟨hu, hcases, l', hl', hf⟩ := unroll_and_layout chk t hi (by omega) p
    rw [hl] at hl'
    cases hl'
    obtain ⟨al, vo, idx, fixed, vars⟩ := l
    have hal : SmallPow al := hf.al
    have hin : ∀ f ∈ fixed, f.offset + f.size ≤ vo := hf.inside
    have hbound : vo ≤ 16 * (((slots t p).filterMap Slot.fixed).length +
      ((slots t p).filterMap Slot.bits).length) + 16 := hf.bound
    have hsorted : idx.Pairwise (fun a b => b.path < a.path) := hf.sorted
    have hidxF : ∀ x ∈ idx, ∃ f, fixed[x.fixedIdx]? = some f ∧ f.path = x.path := hf.idxFixed
    have hidxA : ∀ f ∈ fixed, ∃ x ∈ idx, x.path = f.path := hf.idxAll
    have hidxV : ∀ (i : Nat) (v : VarField), vars[i]? = some v → ∀ x ∈ idx, x.path = v.path → x.varIdx = i :=
      hf.idxVar
    have hguard : ∀ v ∈ vars, ∃ f, fixed[v.fixedIdx]? = some f ∧ f.path = v.path := hf.guard
    have hvp : (vars.map (·.setFixedIdx 0)).Perm (((slots t p).filterMap (Slot.var chk)).map (·.setFixedIdx 0)) :=
      hf.vars
    have hfp : (fixed.map (·.path)).Perm ((slots t p).map (·.1)) := hf.paths.trans (paths_perm _)
    have hnd := slots_nodup t p
    have hvslot : ∀ v ∈ vars, ∃ x ∈ slots t p, ∃ w, Slot.var chk x = some w ∧ v = w.setFixedIdx v.fixedIdx ∧
        v.path = x.1 := by
      intro v hv
      have h1 := hvp.mem_iff.1 (List.mem_map_of_mem (f := (·.setFixedIdx 0)) hv)
      obtain ⟨w, hw, he⟩ := List.mem_map.1 h1
      obtain ⟨x, hx, hxw⟩ := List.mem_filterMap.1 hw
      have h2 := setFixedIdx_inj he.symm
      refine ⟨x, hx, w, hxw, h2, ?_⟩
      rw [h2, VarField.setFixedIdx_path, varSlot_path hxw]
    have hslotv : ∀ x ∈ slots t p, ∀ w, Slot.var chk x = some w → ∃ (j : Nat) (fi : Nat),
        vars[j]? = some (w.setFixedIdx fi) := by
      intro x hx w hxw
      have h1 : w.setFixedIdx 0 ∈ ((slots t p).filterMap (Slot.var chk)).map (·.setFixedIdx 0) :=
        List.mem_map_of_mem (List.mem_filterMap.2 ⟨x, hx, hxw⟩)
      obtain ⟨v, hv, he⟩ := List.mem_map.1 (hvp.mem_iff.2 h1)
      obtain ⟨j, hj⟩ := List.getElem?_of_mem hv
      exact ⟨j, v.fixedIdx, by rw [← setFixedIdx_inj he]; exact hj⟩
    have hsame : ∀ v ∈ vars, ∀ g' g, getAt fixed v.fixedIdx = .ok g' → g ∈ fixed → g.path = v.path → g' = g := by
      intro v hv g' g hg' hgm hg2
      obtain ⟨g2, hgu, hgp⟩ := hguard v hv
      rw [getAt_ok hgu] at hg'
      obtain rfl := Except.ok.inj hg'
      have hnf : (fixed.map (·.path)).Nodup := hfp.nodup_iff.2 hnd
      by_cases e : g2 = g
      · exact e
      · exfalso
        rw [List.nodup_iff_pairwise_ne, List.pairwise_map] at hnf
        rcases pairwise_mem_ne hnf (List.mem_of_getElem? hgu) hgm e with h | h
        · exact h (by rw [hgp, hg2])
        · exact h (by rw [hgp, hg2])
    -- the cases of an enum slot
    have hcase : ∀ r cs, (r, Slot.enum cs) ∈ slots t p → ∀ (i : Nat) (c : Layout), (layouts chk cs r)[i]? = some c →
        ∃ e, cs[i]? = some e ∧ Inhab e.2 ∧ nodes e.2 ≤ nodes.nodesF cs ∧ nodes e.2 ≤ n ∧
          calculateLayout chk e.2 (r ++ [i]) = .ok c := by
      intro r cs hx i c hc
      obtain ⟨_, e2, e3⟩ := hcases r cs hx
      have hil := (List.getElem?_eq_some_iff.1 hc).1
      obtain ⟨l', f1, f2, f3⟩ := e3 i _ (List.getElem?_eq_getElem (by omega))
      rw [hc] at f1
      cases f1
      have hem : cs[i]'(by omega) ∈ cs := List.getElem_mem _
      have hinh := slots_inherit (Q := Inhab) (fun cs h => by cases h with | tuple _ h => exact h)
        (fun fs h => by cases h with | struct _ h => exact h) t p hi _ hx
      have hno := slots_inherit (Q := fun u => nodes u ≤ nodes t)
        (fun cs h c hc => by have := nodes_mem_tuple hc; omega)
        (fun fs h f hf => by have := nodesF_mem hf; rw [nodes] at h; omega) t p (Nat.le_refl _) _ hx
      have hic : Inhab (cs[i]'(by omega)).2 := by cases hinh with | enum _ h => exact h _ hem
      have hnf := nodesF_mem hem
      simp only [Slot.ty, nodes] at hno
      exact ⟨_, List.getElem?_eq_getElem (by omega), hic, hnf, by omega, f2⟩
    -- the bounds of the variable fields
    have hstep : ∀ v ∈ vars, ∀ o o', varEnd chk fixed data v o = .ok o' → o + capAt (slots t p) v.path < W64 →
        o ≤ o' ∧ o' ≤ o + capAt (slots t p) v.path := by
      intro v hv o o' h ho
      obtain ⟨x, hx, w, hxw, h2, h3⟩ := hvslot v hv
      rw [h3, capAt_eq hnd hx] at ho ⊢
      generalize v.fixedIdx = fi at h2
      subst h2
      obtain ⟨xq, xs⟩ := x
      cases xs with
      | prim k => simp [Slot.var] at hxw
      | str =>
        simp [Slot.var] at hxw
        subst hxw
        rw [VarField.setFixedIdx, varEnd] at h
        obtain ⟨f, _, h⟩ := Res.bind_eq_ok.1 h
        obtain ⟨m, hm, h⟩ := Res.bind_eq_ok.1 h
        have hmlt := readRaw_lt hm
        simp only [slotCap] at ho ⊢
        have := addW_eq h (by omega)
        omega
      | enum cs =>
        simp [Slot.var] at hxw
        subst hxw
        rw [VarField.setFixedIdx, varEnd] at h
        obtain ⟨f, _, h⟩ := Res.bind_eq_ok.1 h
        obtain ⟨tag, _, h⟩ := Res.bind_eq_ok.1 h
        obtain ⟨_, _, h⟩ := Res.bind_eq_ok.1 h
        obtain ⟨m, hm, h⟩ := Res.bind_eq_ok.1 h
        obtain ⟨c, hc1, hc2⟩ := caseSize_at hm
        obtain ⟨e, he1, he2, he3, he4, he5⟩ := hcase xq cs hx tag c hc1
        obtain ⟨_, hb, _, _⟩ := ih e.2 he4 (by omega) he2 _ c he5 _ m hc2
        simp only [slotCap] at ho ⊢
        have := addW_eq h (by omega)
        omega
    have htot : vo + total (capAt (slots t p)) vars + 16 ≤ 17179869184 * nodes t := by
      have h1 : total (capAt (slots t p)) vars = total (capAt (slots t p)) ((slots t p).filterMap (Slot.var chk)) := by
        have hp : (vars.map (·.path)).Perm (((slots t p).filterMap (Slot.var chk)).map (·.path)) := by
          have := hvp.map VarField.path
          simpa [List.map_map, Function.comp_def] using this
        have := (hp.map (capAt (slots t p))).sum_nat
        simpa [total, List.map_map, Function.comp_def] using this
      have h2 := sum_filterMap_le (chk := chk) (capAt (slots t p)) (slots t p)
      have h3 : ((slots t p).map (fun x => 64 + capAt (slots t p) x.1)).sum ≤
          ((slots t p).map (fun x => 17179869184 * nodes x.2.ty)).sum := by
        apply sum_map_le
        intro x hx
        rw [capAt_eq hnd hx]
        obtain ⟨xq, xs⟩ := x
        cases xs <;> simp only [slotCap, Slot.ty, nodes] <;> omega
      rw [sum_map_add] at h3
      have h4 := (paths_perm (slots t p)).length_eq
      simp only [List.length_append, List.length_map] at h4
      have h5 : ((slots t p).map (fun x => 17179869184 * nodes x.2.ty)).sum =
          17179869184 * ((slots t p).map (fun x => nodes x.2.ty)).sum := by
        generalize slots t p = xs
        induction xs with
        | nil => rfl
        | cons x xs ih => simp only [List.map_cons, List.sum_cons, ih]; omega
      have h6 := slots_nodes t p
      have h7 := nodes_pos t
      rcases Nat.eq_zero_or_pos (slots t p).length with h | h
      · have : slots t p = [] := List.eq_nil_of_length_eq_zero h
        have hz : ((slots t p).map (fun x => capAt (slots t p) x.1)).sum = 0 := by rw [this]; rfl
        omega
      · omega
    rw [Layout.encodingSize] at hsize
    obtain ⟨e, hve, hsize⟩ := Res.bind_eq_ok.1 hsize
    obtain ⟨he1, he2, hsteps⟩ := varsEnd_steps vars hstep vo e hve (by omega)
    have halle := hal.le
    rw [align_smallPow hal (by omega)] at hsize
    have hlt := alignUp_lt e hal.pos
    have hge := le_alignUp e hal.pos
    cases hsize
    refine ⟨by simp only [Layout.varOffset]; omega, by omega, ?_, ?_⟩
    · intro m hm
      suffices hc : ∀ v ∈ vars, ∀ o o', varEnd chk fixed data v o = .ok o' → o + capAt (slots t p) v.path < W64 →
          vo ≤ o → o' ≤ m → varEnd chk fixed (data.take m) v o = .ok o' by
        have hv := varsEnd_cut vo vars hstep m hc vo e hve (by omega) (Nat.le_refl _) (by omega)
        rw [Layout.encodingSize, hv, Res.bind_ok, align_smallPow hal (by omega)]
      intro v hv o o' h ho hvo ho'
      obtain ⟨hle1, hle2⟩ := hstep v hv o o' h ho
      obtain ⟨x, hx, w, hxw, h2, h3⟩ := hvslot v hv
      obtain ⟨g, hg1, hg2⟩ := hguard v hv
      have hgm := List.mem_of_getElem? hg1
      have hgi := hin g hgm
      rw [h3, capAt_eq hnd hx] at ho hle2
      rw [h3] at hg2
      generalize v.fixedIdx = fi at h2 hg1
      subst h2
      obtain ⟨xq, xs⟩ := x
      cases xs with
      | prim k => simp [Slot.var] at hxw
      | str =>
        have hsz : 4 ≤ g.size := by
          have huniq : ∀ s', (xq, s') ∈ slots t p → s' = Slot.str := by
            intro s' hs'
            by_cases e : s' = .str
            · exact e
            · exfalso
              rcases pairwise_mem_ne (slots_apart t p) hs' hx (by intro h; cases h; exact e rfl) with h | h
              · exact h.1 (List.prefix_refl _)
              · exact h.1 (List.prefix_refl _)
          rcases hf.kinds g hgm with ⟨f, hff, h1, h2⟩ | ⟨b, hb, pr, o, h1, _, _⟩
          · obtain ⟨⟨yq, ys⟩, hy, hyf⟩ := List.mem_filterMap.1 hff
            cases ys with
            | prim k =>
              simp [Slot.fixed] at hyf; subst hyf
              simp only at h1
              rw [h1, hg2] at hy
              exact nomatch huniq _ hy
            | str =>
              simp [Slot.fixed] at hyf; subst hyf
              simp only at h2
              rw [FixedField.size, ← h2]
              exact Nat.le_refl 4
            | enum cs => simp [Slot.fixed] at hyf
          · obtain ⟨⟨yq, ys⟩, hy, hyb⟩ := List.mem_filterMap.1 hb
            cases ys with
            | prim k => simp [Slot.bits] at hyb
            | str => simp [Slot.bits] at hyb
            | enum cs =>
              simp [Slot.bits] at hyb; subst hyb
              simp only at h1
              rw [h1, hg2] at hy
              exact nomatch huniq _ hy
        simp [Slot.var] at hxw
        subst hxw
        rw [VarField.setFixedIdx, varEnd] at h ⊢
        rw [getAt_ok hg1, Res.bind_ok] at h ⊢
        obtain ⟨k, hk, h⟩ := Res.bind_eq_ok.1 h
        rw [readRaw_cut hk (by omega)]
        exact h
      | enum cs =>
        simp [Slot.var] at hxw
        subst hxw
        rw [VarField.setFixedIdx, varEnd] at h ⊢
        rw [getAt_ok hg1, Res.bind_ok] at h ⊢
        obtain ⟨tag, htag, h⟩ := Res.bind_eq_ok.1 h
        obtain ⟨_, has, h⟩ := Res.bind_eq_ok.1 h
        obtain ⟨k, hk, h⟩ := Res.bind_eq_ok.1 h
        obtain ⟨c, hc1, hc2⟩ := caseSize_at hk
        obtain ⟨e, he1, he2, he3, he4, he5⟩ := hcase xq cs hx tag c hc1
        obtain ⟨_, hb, hcut, _⟩ := ih e.2 he4 (by omega) he2 _ c he5 _ k hc2
        simp only [slotCap] at ho
        have hk' := addW_eq h (by omega)
        rw [readTag_cut htag (by omega)]
        have hol : o ≤ data.length := by
          by_cases hd : o ≤ data.length
          · exact hd
          · simp [assert, hd] at has
        simp only [Res.bind_ok]
        rw [show decide (o ≤ (data.take m).length) = true by simp; omega, assert_true, Res.bind_ok,
          caseSize_of hc1, List.drop_take, hcut (m - o) (by omega)]
        exact h
    intro hle q u hpart
    -- finding a slot
    have hslot : ∀ xq xs, (xq, xs) ∈ slots t p → ∃ y g, y ∈ idx ∧ y.path = xq ∧
        fixed[y.fixedIdx]? = some g ∧ g.path = xq ∧
        (Layout.mk al vo idx fixed vars).locate chk xq data = .ok ⟨.mk al vo idx fixed vars, data, y⟩ := by
      intro xq xs hx
      obtain ⟨f, hff, hfx⟩ : ∃ f ∈ fixed, f.path = xq := by
        have := hfp.mem_iff.2 (List.mem_map_of_mem (f := (·.1)) hx)
        obtain ⟨f, hf1, hf2⟩ := List.mem_map.1 this
        exact ⟨f, hf1, hf2⟩
      obtain ⟨y, hy, hyp⟩ := hidxA f hff
      rw [hfx] at hyp
      obtain ⟨g, hg1, hg2⟩ := hidxF y hy
      rw [hyp] at hg2
      obtain ⟨k, hk⟩ := List.getElem?_of_mem hy
      refine ⟨y, g, hy, hyp, hg1, hg2, ?_⟩
      rw [Layout.locate, searchIndex_at hsorted hk hyp 0]
      simp only [Nat.zero_add]
      rw [getAt_ok hk]; rfl
    have hoff : ∀ (j : Nat) (w : VarField), vars[j]? = some w → ∃ a b,
        (Layout.mk al vo idx fixed vars).variableFieldOffset chk j data = .ok a ∧
        varEnd chk fixed data w a = .ok b ∧ a ≤ b ∧ b ≤ e ∧ a ≤ vo + total (capAt (slots t p)) vars ∧
        a + capAt (slots t p) w.path < W64 := by
      intro j w hj
      obtain ⟨a, b, c1, c2, c3, c4, c5, c6⟩ := hsteps j w hj
      have hjl := (List.getElem?_eq_some_iff.1 hj).1
      have ht1 := total_take_le (capAt (slots t p)) vars j
      have ht2 := total_take_get (capAt (slots t p)) hj
      refine ⟨a, b, ?_, c2, c4, c5, by omega, by omega⟩
      change (do assert (decide (j ≤ vars.length)); varsEnd chk fixed data (vars.take j) vo) = _
      rw [show decide (j ≤ vars.length) = true by simp; omega, assert_true, Res.bind_ok]
      exact c1
    have hsrc : (∃ s : Slot, s.ty = u) ∨ Legible chk (.mk al vo idx fixed vars) data q u := by
      cases u with
      | prim k => exact Or.inl ⟨.prim k, rfl⟩
      | string => exact Or.inl ⟨.str, rfl⟩
      | enum cs => exact Or.inl ⟨.enum cs, rfl⟩
      | unit => exact Or.inr trivial
      | tuple cs => exact Or.inr trivial
      | struct fs => exact Or.inr trivial
    rcases hsrc with hsrc | hsrc
    case inr => exact hsrc
    rcases part_slot hpart hsrc with ⟨s, rfl, hx⟩ | ⟨r, cs, i, c, hx, htag, hc, hsub⟩
    · obtain ⟨y, g, hy, hyp, hg1, hg2, hloc⟩ := hslot q s hx
      have hgm := List.mem_of_getElem? hg1
      have hgi := hin g hgm
      have huniq : ∀ s', (q, s') ∈ slots t p → s' = s := by
        intro s' hs'
        by_cases e : s' = s
        · exact e
        · exfalso
          rcases pairwise_mem_ne (slots_apart t p) hs' hx (by intro h; cases h; exact e rfl) with h | h
          · exact h.1 (List.prefix_refl _)
          · exact h.1 (List.prefix_refl _)
      have hkind : (∃ k, s = .prim k ∧ g.kind = .prim k) ∨ (s = .str ∧ g.kind = .length) ∨
          ∃ cs pr o, s = .enum cs ∧ g.kind = .bitfield pr o (requiredBits (cs.length - 1)) := by
        rcases hf.kinds g hgm with ⟨f, hff, h1, h2⟩ | ⟨b, hb, pr, o, h1, h2, _⟩
        · obtain ⟨⟨xq, xs⟩, hx', hxf⟩ := List.mem_filterMap.1 hff
          cases xs with
          | prim k =>
            simp [Slot.fixed] at hxf; subst hxf
            simp only at h1 h2
            rw [h1, hg2] at hx'
            exact Or.inl ⟨k, (huniq _ hx').symm, h2.symm⟩
          | str =>
            simp [Slot.fixed] at hxf; subst hxf
            simp only at h1 h2
            rw [h1, hg2] at hx'
            exact Or.inr (Or.inl ⟨(huniq _ hx').symm, h2.symm⟩)
          | enum cs => simp [Slot.fixed] at hxf
        · obtain ⟨⟨xq, xs⟩, hx', hxb⟩ := List.mem_filterMap.1 hb
          cases xs with
          | prim k => simp [Slot.bits] at hxb
          | str => simp [Slot.bits] at hxb
          | enum cs =>
            simp [Slot.bits] at hxb; subst hxb
            simp only at h1 h2
            rw [h1, hg2] at hx'
            exact Or.inr (Or.inr ⟨cs, pr, o, (huniq _ hx').symm, h2⟩)
      rcases hkind with ⟨k, rfl, hk⟩ | ⟨rfl, hk⟩ | ⟨cs, pr, o, rfl, hk⟩
      · simp only [Slot.ty, Legible, Layout.storedAt]
        rw [hloc]
        simp only [Res.bind_ok, Layout.fixed]
        rw [getAt_ok hg1]
        simp only [Res.bind_ok, hk, beq_self_eq_true, assert_true]
        simp only [FixedField.size, hk] at hgi
        rw [readRaw_ok (by omega)]
        exact ⟨_, rfl⟩
      · obtain ⟨j, fi, hj⟩ := hslotv _ hx _ rfl
        have hvj : y.varIdx = j := hidxV j _ hj y hy (by rw [hyp]; rfl)
        obtain ⟨a, b, h1, h2, h3, h4, h5, h6⟩ := hoff j _ hj
        simp only [VarField.setFixedIdx] at h2 h6
        rw [varEnd] at h2
        obtain ⟨g', hg', h2⟩ := Res.bind_eq_ok.1 h2
        obtain ⟨m, hm, h2⟩ := Res.bind_eq_ok.1 h2
        have hgg : g' = g := hsame _ (List.mem_of_getElem? hj) g' g hg' hgm hg2
        subst hgg
        have hmlt := readRaw_lt hm
        have hcap : capAt (slots t p) q = 4294967296 := capAt_eq hnd hx
        rw [VarField.path, hcap] at h6
        have hb := addW_eq h2 (by omega)
        refine ⟨slice data a m, ?_, ?_⟩
        · simp only [Layout.source, Layout.getLength]
          rw [hloc]
          simp only [Res.bind_ok, Layout.fixed]
          rw [getAt_ok hg1]
          simp only [Res.bind_ok, hk]
          rw [hm]
          have : (slice data a m).length = m := by
            unfold slice; rw [List.length_take, List.length_drop]; omega
          rw [this]
        · simp only [Layout.source, Layout.getBytes]
          rw [hloc]
          simp only [Res.bind_ok, Layout.fixed]
          rw [getAt_ok hg1]
          simp only [Res.bind_ok, hk, hvj]
          rw [h1]
          simp only [Res.bind_ok, hm, Layout.vars, hj, VarField.setFixedIdx]
          rw [show decide (a ≤ data.length) = true by simp; omega, assert_true, Res.bind_ok, if_neg (by omega)]
          rfl
      · obtain ⟨j, fi, hj⟩ := hslotv _ hx _ rfl
        obtain ⟨a, b, h1, h2, h3, h4, h5, h6⟩ := hoff j _ hj
        simp only [VarField.setFixedIdx] at h2 h6
        rw [varEnd] at h2
        obtain ⟨g', hg', h2⟩ := Res.bind_eq_ok.1 h2
        obtain ⟨tag, htag, h2⟩ := Res.bind_eq_ok.1 h2
        obtain ⟨_, _, h2⟩ := Res.bind_eq_ok.1 h2
        obtain ⟨m, hm, h2⟩ := Res.bind_eq_ok.1 h2
        obtain ⟨c, hc1, _⟩ := caseSize_at hm
        have hgg : g' = g := hsame _ (List.mem_of_getElem? hj) g' g hg' hgm hg2
        subst hgg
        obtain ⟨e', he', _⟩ := hcase q cs hx tag c hc1
        refine ⟨tag, (List.getElem?_eq_some_iff.1 he').1, ?_⟩
        simp only [Layout.source, Layout.getCaseTag]
        rw [hloc]
        simp only [Res.bind_ok, Layout.fixed]
        rw [getAt_ok hg1]
        exact htag
    · obtain ⟨y, g, hy, hyp, hg1, hg2, hloc⟩ := hslot r _ hx
      have hgm := List.mem_of_getElem? hg1
      obtain ⟨j, fi, hj⟩ := hslotv _ hx _ rfl
      have hvj : y.varIdx = j := hidxV j _ hj y hy (by rw [hyp]; rfl)
      obtain ⟨a, b, h1, h2, h3, h4, h5, h6⟩ := hoff j _ hj
      simp only [VarField.setFixedIdx] at h2 h6
      rw [varEnd] at h2
      obtain ⟨g', hg', h2⟩ := Res.bind_eq_ok.1 h2
      obtain ⟨tag, htag', h2⟩ := Res.bind_eq_ok.1 h2
      obtain ⟨_, _, h2⟩ := Res.bind_eq_ok.1 h2
      obtain ⟨m, hm, h2⟩ := Res.bind_eq_ok.1 h2
      obtain ⟨lc, hc1, hc2⟩ := caseSize_at hm
      have hgg : g' = g := hsame _ (List.mem_of_getElem? hj) g' g hg' hgm hg2
      subst hgg
      have hti : tag = i := by
        simp only [Layout.source, Layout.getCaseTag] at htag
        rw [hloc] at htag
        simp only [Res.bind_ok, Layout.fixed] at htag
        rw [getAt_ok hg1] at htag
        simp only [Res.bind_ok] at htag
        rw [htag'] at htag
        exact Except.ok.inj htag
      subst hti
      obtain ⟨e', he1', he2', he3', he4', he5'⟩ := hcase r cs hx tag lc hc1
      rw [hc] at he1'
      cases he1'
      obtain ⟨hb1, hb2, _, hb3⟩ := ih c.2 he4' (by omega) he2' _ lc he5' _ m hc2
      have hcap : capAt (slots t p) r = 17179869184 * nodes.nodesF cs := capAt_eq hnd hx
      rw [VarField.path, hcap] at h6
      have hbeq := addW_eq h2 (by omega)
      -- reading below the enum is reading the case
      have hbelow : ∀ s, (Layout.mk al vo idx fixed vars).locate chk (r ++ [tag] ++ s) data =
          lc.locate chk (r ++ [tag] ++ s) (data.drop a) := by
        intro s
        have hapart : ∀ z ∈ idx, z ≠ y → Apart z.path y.path := by
          intro z hz hne
          obtain ⟨h', hh1, hh2⟩ := hidxF z hz
          have hzs : z.path ∈ (slots t p).map (·.1) := by
            rw [← hh2]
            exact hfp.mem_iff.1 (List.mem_map_of_mem (f := (·.path)) (List.mem_of_getElem? hh1))
          obtain ⟨s, hs, hse⟩ := List.mem_map.1 hzs
          have hpne : z.path ≠ y.path := by
            intro e
            obtain ⟨k, hk⟩ := List.getElem?_of_mem hy
            obtain ⟨m, hm'⟩ := List.getElem?_of_mem hz
            have := getElem?_of_pairwise_lt hsorted hm' hk e
            subst this
            rw [hk] at hm'
            exact hne (by simpa using hm'.symm)
          have hsne : s ≠ (r, Slot.enum cs) := by
            intro e; apply hpne; rw [← hse, e, hyp]
          rw [← hse, hyp]
          rcases pairwise_mem_ne (slots_apart t p) hs hx hsne with h | h
          · exact h
          · exact ⟨h.2, h.1⟩
        have hnone : ∀ z ∈ idx, z.path ≠ y.path ++ (tag :: s) := by
          intro z hz e
          by_cases hzy : z = y
          · rw [hzy] at e
            have := congrArg List.length e
            simp at this
          · exact (hapart z hz hzy).2 (by rw [e]; exact List.prefix_append _ _)
        obtain ⟨m', hm1, hm2⟩ := searchIndex_inside hsorted hy (s := tag :: s) (by simp) hapart hnone
        have hqq : r ++ [tag] ++ s = y.path ++ (tag :: s) := by rw [hyp]; simp
        rw [Layout.locate, hqq, hm1]
        simp only [hm2]
        rw [if_pos ((Path.isPrefixOf_iff _ _).2 ⟨_, rfl⟩), getAt_ok (x := tag) (by simp)]
        simp only [Res.bind_ok]
        rw [hvj, h1]
        simp only [Res.bind_ok]
        rw [show decide (a ≤ data.length) = true by simp; omega, assert_true, Res.bind_ok, locateVars_eq hj]
        simp only [VarField.setFixedIdx]
        rw [locateVar, locateCase_eq hc1]
      obtain ⟨s, rfl⟩ := part_prefix hsub
      refine (source_below (hbelow s)).2 u (hb3 ?_ _ _ (part_congr hsub fun s' => (source_below (hbelow s')).1))
      rw [List.length_drop]; omega

end Verif
