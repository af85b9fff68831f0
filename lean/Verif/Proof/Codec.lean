import Verif.Proof.Fields

/-! # Encoding and reading back: the variable part -/

namespace Verif

open Spec

theorem addW_ok {chk : Bool} {a b : Nat} (h : a + b < W64) : addW chk a b = .ok (a + b) := by
  rw [addW, if_pos h]

theorem getAt_ok {α : Type} {l : List α} {i : Nat} {x : α} (h : l[i]? = some x) : getAt l i = .ok x := by
  rw [getAt, h]

theorem caseSize_eq {chk : Bool} {ls : List Layout} {i : Nat} {l : Layout} (h : ls[i]? = some l)
    (data : Bytes) : caseSize chk ls i data = l.encodingSize chk data := by
  induction ls generalizing i with
  | nil => simp at h
  | cons x xs ih =>
    cases i with
    | zero => simp at h; subst h; rw [caseSize]
    | succ i => rw [caseSize]; exact ih (by simpa using h)

theorem caseSizeWithSource_eq {chk : Bool} {src : DataSource} {ls : List Layout} {i : Nat} {l : Layout}
    (h : ls[i]? = some l) : caseSizeWithSource chk src ls i = l.sizeWithSource chk src := by
  induction ls generalizing i with
  | nil => simp at h
  | cons x xs ih =>
    cases i with
    | zero => simp at h; subst h; rw [caseSizeWithSource]
    | succ i => rw [caseSizeWithSource]; exact ih (by simpa using h)

theorem encodeCase_eq {chk : Bool} {src : DataSource} {ls : List Layout} {i : Nat} {l : Layout}
    (h : ls[i]? = some l) (buf : Bytes) : encodeCase chk src ls i buf = l.encode chk src buf := by
  induction ls generalizing i with
  | nil => simp at h
  | cons x xs ih =>
    cases i with
    | zero => simp at h; subst h; rw [encodeCase]
    | succ i => rw [encodeCase]; exact ih (by simpa using h)

theorem locateCase_eq {chk : Bool} {path : Path} {ls : List Layout} {i : Nat} {l : Layout}
    (h : ls[i]? = some l) (data : Bytes) : locateCase chk path ls i data = l.locate chk path data := by
  induction ls generalizing i with
  | nil => simp at h
  | cons x xs ih =>
    cases i with
    | zero => simp at h; subst h; rw [locateCase]
    | succ i => rw [locateCase]; exact ih (by simpa using h)

theorem locateVars_eq {chk : Bool} {path : Path} {vs : List VarField} {i tag : Nat} {v : VarField}
    (h : vs[i]? = some v) (data : Bytes) :
    locateVars chk path vs i tag data = locateVar chk path v tag data := by
  induction vs generalizing i with
  | nil => simp at h
  | cons x xs ih =>
    cases i with
    | zero => simp at h; subst h; rw [locateVars]
    | succ i => rw [locateVars]; exact ih (by simpa using h)

/-- What can be read at the place of a variable field. -/
def VarRead (chk : Bool) (w : Val) (sz : Nat) (data : Bytes) : VarField → Prop
  | .string _ _ => ∃ bs, w = .str bs ∧ sz = bs.length ∧ data.take sz = bs
  | .enum path _ cases => ∃ i w' l, w = .case i w' ∧ cases[i]? = some l ∧
      l.encodingSize chk data = .ok sz ∧
      ∀ q leaf, (q, leaf) ∈ leaves w' (path ++ [i]) → Answers (l.source chk data) q leaf

/-- What is read at the place of a variable field if the buffer was not lucky. -/
def VarMisread (chk : Bool) (w : Val) (data : Bytes) : VarField → Prop
  | .string _ _ => False
  | .enum path _ cases => ∃ i w' l q j, w = .case i w' ∧ cases[i]? = some l ∧
      (q, Leaf.tag j) ∈ leaves w' (path ++ [i]) ∧ ¬ Answers (l.source chk data) q (.tag j)

/-- A word that is read but not written: its first bit, the number of bits, and what should be there. -/
structure Need where
  start : Nat
  width : Nat
  value : Nat

/-- The words that are not written happen to be right. -/
def Lucky (ns : List Need) (buf : Bytes) : Prop := ∀ n ∈ ns, getBits buf n.start n.width = n.value

theorem lucky_nil {buf : Bytes} : Lucky [] buf := fun _ hn => nomatch hn

theorem Lucky.congr {ns : List Need} {size : Nat} (h : ∀ n ∈ ns, n.start + n.width ≤ 8 * size) {a b : Bytes}
    (hab : ∀ i, i < 8 * size → bit a i = bit b i) : Lucky ns a ↔ Lucky ns b := by
  have : ∀ n ∈ ns, getBits a n.start n.width = getBits b n.start n.width := fun n hn =>
    getBits_congr fun i hi => hab _ (by have := h n hn; omega)
  unfold Lucky
  constructor
  · intro hl n hn
    rw [← this n hn]; exact hl n hn
  · intro hl n hn
    rw [this n hn]; exact hl n hn

/-- The source presents the value at path `q`. -/
def Pres (src : DataSource) (env : Path → Val) (q : Path) : Prop :=
  ∀ r l, (r, l) ∈ leaves (env q) q → Answers src r l

/-- The strings of the value are at their places in the data. -/
def StrsAt (w : Val) (p : Path) (pl : Path → Nat) (data : Bytes) : Prop :=
  ∀ q bs, (q, Leaf.str bs) ∈ leaves w p → slice data (pl q) bs.length = bs

/-- The number lies inside one of the strings of the value, which are at their places from `o` on. -/
def Cuts (w : Val) (p : Path) (pl : Path → Nat) (o n : Nat) : Prop :=
  ∃ q bs, (q, Leaf.str bs) ∈ leaves w p ∧ o + pl q ≤ n ∧ n < o + pl q + bs.length

/-- Everything about the encoding of one variable field. -/
structure VarGood (chk : Bool) (env : Path → Val) (v : VarField) (sz : Nat) (pl : Path → Nat)
    (ns : List Need) : Prop where
  needs : ∀ n ∈ ns, n.start + n.width ≤ 8 * sz
  len : ∀ src buf o r, Pres src env v.path → encodeVar chk src v buf o = .ok r → r.1.length = buf.length
  within : ∀ q bs, (q, Leaf.str bs) ∈ leaves (env v.path) v.path → pl q + bs.length ≤ sz
  short : ∀ src, Pres src env v.path → ∀ (buf : Bytes) (o : Nat), buf.length < o + sz → o + sz < W64 →
    (encodeVar chk src v buf o = .error .ub ↔ Cuts (env v.path) v.path pl o buf.length)
  size : ∀ src, Pres src env v.path → ∀ o, o + sz < W64 → varSize chk src v o = .ok (o + sz)
  enc : ∀ (buf : Bytes) (o : Nat), o + sz ≤ buf.length → o + sz < W64 → ∃ buf' : Bytes,
    (∀ src, Pres src env v.path → encodeVar chk src v buf o = .ok (buf', o + sz)) ∧
    buf'.length = buf.length ∧
    (∀ i, i < 8 * o ∨ 8 * (o + sz) ≤ i → bit buf' i = bit buf i) ∧
    ∀ data : Bytes, o + sz ≤ data.length →
      (∀ i, 8 * o ≤ i → i < 8 * (o + sz) → bit data i = bit buf' i) →
      ((Lucky ns (buf.drop o) → VarRead chk (env v.path) sz (data.drop o) v) ∧
        (¬ Lucky ns (buf.drop o) → VarMisread chk (env v.path) (data.drop o) v)) ∧
      StrsAt (env v.path) v.path pl (data.drop o)

/-- Bytes taken by variable fields. -/
def total (sz : Path → Nat) (vs : List VarField) : Nat := (vs.map (fun v => sz v.path)).sum

theorem total_cons (sz : Path → Nat) (v : VarField) (vs : List VarField) :
    total sz (v :: vs) = sz v.path + total sz vs := by simp [total]

theorem total_take_le (sz : Path → Nat) (vs : List VarField) (j : Nat) :
    total sz (vs.take j) ≤ total sz vs := by
  induction vs generalizing j with
  | nil => simp [total]
  | cons v vs ih =>
    cases j with
    | zero => simp [total]
    | succ j => rw [List.take_succ_cons, total_cons, total_cons]; have := ih j; omega

theorem total_take_get (sz : Path → Nat) {vs : List VarField} {j : Nat} {v : VarField}
    (h : vs[j]? = some v) : total sz (vs.take j) + sz v.path ≤ total sz vs := by
  induction vs generalizing j with
  | nil => simp at h
  | cons w vs ih =>
    cases j with
    | zero => simp at h; subst h; simp [total]
    | succ j => rw [List.take_succ_cons, total_cons, total_cons]; have := ih (j := j) (by simpa using h); omega

theorem varsSize_ok {chk : Bool} {env : Path → Val} {sz : Path → Nat} {pl : Path → Path → Nat} {nd : Path → List Need} {src : DataSource}
    (vs : List VarField) (o : Nat) (hg : ∀ v ∈ vs, VarGood chk env v (sz v.path) (pl v.path) (nd v.path))
    (hs : ∀ v ∈ vs, Pres src env v.path) (ho : o + total sz vs < W64) :
    varsSize chk src vs o = .ok (o + total sz vs) := by
  induction vs generalizing o with
  | nil => rw [varsSize]; simp [total]
  | cons v vs ih =>
    rw [total_cons] at ho ⊢
    rw [varsSize, (hg v (by simp)).size src (hs v (by simp)) o (by omega), Res.bind_ok,
      ih _ (fun w hw => hg w (by simp [hw])) (fun w hw => hs w (by simp [hw])) (by omega)]
    rw [Nat.add_assoc]

theorem encodeVars_ok {chk : Bool} {env : Path → Val} {sz : Path → Nat} {pl : Path → Path → Nat} {nd : Path → List Need}
    (vs : List VarField) (buf : Bytes) (o : Nat) (hg : ∀ v ∈ vs, VarGood chk env v (sz v.path) (pl v.path) (nd v.path))
    (hb : o + total sz vs ≤ buf.length) (ho : o + total sz vs < W64) :
    ∃ buf' : Bytes, (∀ src, (∀ v ∈ vs, Pres src env v.path) →
        encodeVars chk src vs buf o = .ok (buf', o + total sz vs)) ∧
      buf'.length = buf.length ∧
      (∀ i, i < 8 * o ∨ 8 * (o + total sz vs) ≤ i → bit buf' i = bit buf i) ∧
      ∀ data : Bytes, o + total sz vs ≤ data.length →
        (∀ i, 8 * o ≤ i → i < 8 * (o + total sz vs) → bit data i = bit buf' i) →
        ∀ (j : Nat) (v : VarField), vs[j]? = some v →
          ((Lucky (nd v.path) (buf.drop (o + total sz (vs.take j))) →
              VarRead chk (env v.path) (sz v.path) (data.drop (o + total sz (vs.take j))) v) ∧
            (¬ Lucky (nd v.path) (buf.drop (o + total sz (vs.take j))) →
              VarMisread chk (env v.path) (data.drop (o + total sz (vs.take j))) v)) ∧
          StrsAt (env v.path) v.path (pl v.path) (data.drop (o + total sz (vs.take j))) := by
  induction vs generalizing o buf with
  | nil =>
    exact ⟨buf, fun src _ => by rw [encodeVars]; simp [total], rfl, fun _ _ => rfl, by simp⟩
  | cons v vs ih =>
    rw [total_cons] at hb ho ⊢
    obtain ⟨b1, h1, h2, h3, h4⟩ := (hg v (by simp)).enc buf o (by omega) (by omega)
    obtain ⟨b2, k1, k2, k3, k4⟩ := ih b1 (o + sz v.path) (fun w hw => hg w (by simp [hw]))
      (by rw [h2]; omega) (by omega)
    refine ⟨b2, ?_, k2.trans h2, ?_, ?_⟩
    · intro src hs
      rw [encodeVars, h1 src (hs v (by simp))]
      simp only [Res.bind_ok]
      rw [k1 src (fun w hw => hs w (by simp [hw])), Nat.add_assoc]
    · intro i hi
      rw [k3 i (by omega), h3 i (by omega)]
    · intro data hl hd j w hw
      cases j with
      | zero =>
        simp at hw
        subst hw
        simp only [List.take_zero]
        rw [show total sz [] = 0 from rfl, Nat.add_zero]
        exact h4 data (by omega) fun i hi1 hi2 => by rw [hd i hi1 (by omega), k3 i (by omega)]
      | succ j =>
        rw [List.take_succ_cons, total_cons, ← Nat.add_assoc]
        have hw' : vs[j]? = some w := by simpa using hw
        have := k4 data (by omega) (fun i hi1 hi2 => hd i (by omega) (by omega)) j w hw'
        rwa [Lucky.congr (b := buf.drop (o + sz v.path + total sz (vs.take j)))
          (hg w (List.mem_cons_of_mem _ (List.mem_of_getElem? hw'))).needs (fun i _ => by
            rw [bit_drop, bit_drop, h3 _ (by omega)])] at this

theorem encodeVar_size {chk : Bool} {src : DataSource} {v : VarField} {buf buf' : Bytes} {o n : Nat}
    (h1 : encodeVar chk src v buf o = .ok (buf', n)) : varSize chk src v o = .ok n := by
  cases v with
  | string p fi =>
    rw [encodeVar] at h1
    obtain ⟨m, e1, h1⟩ := Res.bind_eq_ok.1 h1
    obtain ⟨b, _, h1⟩ := Res.bind_eq_ok.1 h1
    obtain ⟨o', e2, h1⟩ := Res.bind_eq_ok.1 h1
    cases h1
    rw [varSize, e1, Res.bind_ok, e2]
  | enum p fi cs =>
    rw [encodeVar] at h1
    obtain ⟨m, e1, h1⟩ := Res.bind_eq_ok.1 h1
    obtain ⟨_, _, h1⟩ := Res.bind_eq_ok.1 h1
    obtain ⟨⟨b, k⟩, _, h1⟩ := Res.bind_eq_ok.1 h1
    obtain ⟨s, e3, h1⟩ := Res.bind_eq_ok.1 h1
    obtain ⟨o', e2, h1⟩ := Res.bind_eq_ok.1 h1
    cases h1
    rw [varSize, e1, Res.bind_ok, e3, Res.bind_ok, e2]

theorem encodeVars_size {chk : Bool} {src : DataSource} (vs : List VarField) (buf buf' : Bytes) (o n : Nat)
    (h : encodeVars chk src vs buf o = .ok (buf', n)) : varsSize chk src vs o = .ok n := by
  induction vs generalizing buf o with
  | nil => rw [encodeVars] at h; cases h; rw [varsSize]
  | cons v vs ih =>
    rw [encodeVars] at h
    obtain ⟨⟨b1, o1⟩, h1, h2⟩ := Res.bind_eq_ok.1 h
    rw [varsSize]
    rw [encodeVar_size h1, Res.bind_ok]
    exact ih _ _ h2

theorem encodeVars_length {chk : Bool} {src : DataSource} (vs : List VarField)
    (h : ∀ v ∈ vs, ∀ buf o r, encodeVar chk src v buf o = .ok r → r.1.length = buf.length)
    (buf : Bytes) (o : Nat) (r : Bytes × Nat) (he : encodeVars chk src vs buf o = .ok r) : r.1.length = buf.length := by
  induction vs generalizing buf o with
  | nil => rw [encodeVars] at he; cases he; rfl
  | cons v vs ih =>
    rw [encodeVars] at he
    obtain ⟨⟨b1, o1⟩, h1, h2⟩ := Res.bind_eq_ok.1 he
    rw [ih (fun w hw => h w (by simp [hw])) b1 o1 h2]
    exact h v (by simp) buf o _ h1

/-- The rest of a buffer that is too short is never left. -/
theorem encodeVars_beyond {chk : Bool} {src : DataSource} (vs : List VarField) {env : Path → Val}
    (hs : ∀ v ∈ vs, Pres src env v.path)
    (hk : ∀ v ∈ vs, match v with
      | .string .. => ∃ bs, env v.path = .str bs
      | .enum .. => ∃ i w, env v.path = .case i w)
    (buf : Bytes) (o : Nat) (h : buf.length < o) : encodeVars chk src vs buf o ≠ .error .ub := by
  cases vs with
  | nil => rw [encodeVars]; exact fun h => nomatch h
  | cons v vs =>
    have h1 := hs v (by simp)
    have h2 := hk v (by simp)
    have hd : decide (o ≤ buf.length) = false := decide_eq_false (by omega)
    rw [encodeVars]
    cases v with
    | string p fi =>
      obtain ⟨bs, hb⟩ := h2
      have ha : Answers src p (.str bs) := h1 p _ (by rw [hb]; simp [leaves, VarField.path])
      rw [encodeVar, ha.1]
      simp only [Res.bind_ok, copyBytes, hd]
      exact fun h => nomatch h
    | enum p fi cs =>
      obtain ⟨i, w, hb⟩ := h2
      have ha : Answers src p (.tag i) := h1 p _ (by rw [hb]; simp [leaves, VarField.path])
      rw [encodeVar, show src.tag p = .ok i from ha]
      simp only [Res.bind_ok, hd]
      exact fun h => nomatch h

/-- Encoding leaves a buffer that is too short exactly if the buffer ends inside a string. -/
theorem encodeVars_short {chk : Bool} {env : Path → Val} {sz : Path → Nat} {pl : Path → Path → Nat} {nd : Path → List Need} {src : DataSource}
    (vs : List VarField) (buf : Bytes) (o : Nat) (hg : ∀ v ∈ vs, VarGood chk env v (sz v.path) (pl v.path) (nd v.path))
    (hs : ∀ v ∈ vs, Pres src env v.path)
    (hk : ∀ v ∈ vs, match v with
      | .string .. => ∃ bs, env v.path = .str bs
      | .enum .. => ∃ i w, env v.path = .case i w)
    (ho : o + total sz vs < W64) (hb : buf.length < o + total sz vs) :
    encodeVars chk src vs buf o = .error .ub ↔ ∃ (j : Nat) (v : VarField), vs[j]? = some v ∧
      Cuts (env v.path) v.path (pl v.path) (o + total sz (vs.take j)) buf.length := by
  induction vs generalizing o buf with
  | nil =>
    constructor
    · intro h; rw [encodeVars] at h; cases h
    · rintro ⟨j, v, h, _⟩; simp at h
  | cons v vs ih =>
    rw [total_cons] at ho hb
    have hgv := hg v (by simp)
    have hsv := hs v (by simp)
    have hs' : ∀ w ∈ vs, Pres src env w.path := fun w hw => hs w (by simp [hw])
    have hk' := fun w hw => hk w (List.mem_cons_of_mem v hw)
    have hsplit : (∃ (j : Nat) (u : VarField), (v :: vs)[j]? = some u ∧
        Cuts (env u.path) u.path (pl u.path) (o + total sz ((v :: vs).take j)) buf.length) ↔
        Cuts (env v.path) v.path (pl v.path) o buf.length ∨ ∃ (j : Nat) (u : VarField), vs[j]? = some u ∧
        Cuts (env u.path) u.path (pl u.path) (o + sz v.path + total sz (vs.take j)) buf.length := by
      constructor
      · rintro ⟨j, u, h1, h2⟩
        cases j with
        | zero => simp at h1; subst h1; exact .inl (by simpa [total] using h2)
        | succ j =>
          rw [List.take_succ_cons, total_cons, ← Nat.add_assoc] at h2
          exact .inr ⟨j, u, by simpa using h1, h2⟩
      · rintro (h | ⟨j, u, h1, h2⟩)
        · exact ⟨0, v, rfl, by simpa [total] using h⟩
        · refine ⟨j + 1, u, by simpa using h1, ?_⟩
          rw [List.take_succ_cons, total_cons, ← Nat.add_assoc]
          exact h2
    rw [hsplit, encodeVars]
    by_cases hfit : o + sz v.path ≤ buf.length
    · obtain ⟨b1, h1, h2, _, _⟩ := hgv.enc buf o hfit (by omega)
      have hno : ¬ Cuts (env v.path) v.path (pl v.path) o buf.length := by
        rintro ⟨q, bs, h3, h4, h5⟩
        have := hgv.within q bs h3
        omega
      rw [h1 src hsv]
      simp only [Res.bind_ok]
      rw [ih b1 (o + sz v.path) (fun w hw => hg w (by simp [hw])) hs' hk' (by omega) (by rw [h2]; omega), h2]
      constructor
      · exact .inr
      · exact fun h => h.resolve_left hno
    · have hno : ¬ ∃ (j : Nat) (u : VarField), vs[j]? = some u ∧
          Cuts (env u.path) u.path (pl u.path) (o + sz v.path + total sz (vs.take j)) buf.length := by
        rintro ⟨j, u, _, q, bs, _, h4, _⟩
        omega
      rw [or_iff_left hno, ← hgv.short src hsv buf o (by omega) (by omega)]
      cases he : encodeVar chk src v buf o with
      | error e => exact Iff.rfl
      | ok r =>
        obtain ⟨b1, o1⟩ := r
        constructor
        · intro h
          exfalso
          have hl : b1.length = buf.length := hgv.len src buf o _ hsv he
          have ho1 : o1 = o + sz v.path := by
            have := encodeVar_size he
            rw [hgv.size src hsv o (by omega)] at this
            exact (Except.ok.inj this).symm
          exact encodeVars_beyond vs hs' hk' b1 o1 (by omega) h
        · intro h; cases h

/-- The fixed fields of `data` hold the values of `env`. -/
structure FixedRead (chk : Bool) (env : Path → Val) (fixed : List FixedField) (data : Bytes) : Prop where
  good : ∀ f ∈ fixed, FieldGood chk env f
  inside : ∀ f ∈ fixed, f.offset + f.size ≤ data.length
  get : ∀ f ∈ fixed, getBits data f.bitStart f.bitCount = fieldVal env f

theorem FixedRead.length {chk : Bool} {env : Path → Val} {fixed : List FixedField} {data : Bytes}
    (h : FixedRead chk env fixed data) {f : FixedField} (hf : f ∈ fixed) {bs : Bytes}
    (he : env f.path = .str bs) : f.kind = .length ∧ readRaw 4 data f.offset = .ok bs.length := by
  have hg := h.good f hf
  have hi := h.inside f hf
  have hv := h.get f hf
  obtain ⟨q, k, o⟩ := f
  simp only at he
  cases k with
  | prim p => obtain ⟨v, h1, _⟩ := hg; simp only at h1; rw [he] at h1; cases h1
  | length =>
    simp only [FixedField.bitStart, FixedField.bitCount, FixedField.size, fieldVal, he] at hv hi
    exact ⟨rfl, by rw [readRaw_ok hi, hv]⟩
  | container i p => exact hg.elim
  | bitfield p a n => obtain ⟨i, w, h1, _⟩ := hg; simp only at h1; rw [he] at h1; cases h1

theorem varEnd_ok {chk : Bool} {env : Path → Val} {fixed : List FixedField} {data : Bytes}
    (hf : FixedRead chk env fixed data) {v : VarField}
    (hv : ∃ f, fixed[v.fixedIdx]? = some f ∧ f.path = v.path) {o sz : Nat}
    (hr : VarRead chk (env v.path) sz (data.drop o) v) (ho : o + sz < W64) (hl : o ≤ data.length) :
    varEnd chk fixed data v o = .ok (o + sz) := by
  obtain ⟨f, hf1, hf2⟩ := hv
  have hm := List.mem_of_getElem? hf1
  cases v with
  | string p fi =>
    obtain ⟨bs, h1, h2, -⟩ := hr
    have hf1' : getAt fixed fi = .ok f := getAt_ok hf1
    rw [varEnd, hf1']
    simp only [Res.bind_ok]
    rw [(hf.length hm (bs := bs) (by rw [hf2]; exact h1)).2]
    simp only [Res.bind_ok]
    rw [← h2, addW_ok ho]
  | enum p fi cases =>
    obtain ⟨i, w', l, h1, h2, h3, -⟩ := hr
    have hf1' : getAt fixed fi = .ok f := getAt_ok hf1
    rw [varEnd, hf1']
    simp only [Res.bind_ok]
    rw [readTag_ok (hf.good f hm) (hf.inside f hm) (i := i) (w := w') (by rw [hf2]; exact h1) (hf.get f hm)]
    simp only [Res.bind_ok]
    rw [show decide (o ≤ data.length) = true by simp [hl], assert_true, Res.bind_ok, caseSize_eq h2, h3]
    simp only [Res.bind_ok]
    rw [addW_ok ho]

theorem varsEnd_ok {chk : Bool} {env : Path → Val} {sz : Path → Nat} {fixed : List FixedField}
    {data : Bytes} (hf : FixedRead chk env fixed data) (vs : List VarField) (o : Nat)
    (hv : ∀ v ∈ vs, ∃ f, fixed[v.fixedIdx]? = some f ∧ f.path = v.path)
    (hr : ∀ (j : Nat) (v : VarField), vs[j]? = some v →
      VarRead chk (env v.path) (sz v.path) (data.drop (o + total sz (vs.take j))) v)
    (ho : o + total sz vs < W64) (hl : o + total sz vs ≤ data.length) :
    varsEnd chk fixed data vs o = .ok (o + total sz vs) := by
  induction vs generalizing o with
  | nil => rw [varsEnd]; simp [total]
  | cons v vs ih =>
    rw [total_cons] at ho hl ⊢
    have h0 := hr 0 v rfl
    simp only [List.take_zero] at h0
    rw [show total sz [] = 0 from rfl, Nat.add_zero] at h0
    rw [varsEnd, varEnd_ok hf (hv v (by simp)) h0 (by omega) (by omega)]
    simp only [Res.bind_ok]
    rw [ih _ (fun w hw => hv w (by simp [hw])) ?_ (by omega) (by omega), Nat.add_assoc]
    intro j w hw
    have := hr (j + 1) w (by simpa using hw)
    rw [List.take_succ_cons, total_cons, ← Nat.add_assoc] at this
    exact this

/-! ## Finding a path -/

theorem lt_append {q s : Path} (h : s ≠ []) : q < q ++ s := by
  induction q with
  | nil => cases s with
    | nil => exact absurd rfl h
    | cons a s => exact List.nil_lt_cons a s
  | cons a q ih => rw [List.cons_append, List.cons_lt_cons_iff]; exact Or.inr ⟨rfl, ih⟩

theorem prefix_of_between {q x s : Path} (h1 : q < x) (h2 : x < q ++ s) : q <+: x := by
  induction q generalizing x with
  | nil => exact List.nil_prefix
  | cons a q ih =>
    cases x with
    | nil => exact absurd h1 (List.not_lt_nil _)
    | cons b x =>
      rw [List.cons_append, List.cons_lt_cons_iff] at h2
      rw [List.cons_lt_cons_iff] at h1
      rcases h1 with h1 | ⟨rfl, h1⟩
      · rcases h2 with h2 | ⟨rfl, h2⟩ <;> omega
      · rcases h2 with h2 | ⟨-, h2⟩
        · omega
        · exact (List.cons_prefix_cons).2 ⟨rfl, ih h1 h2⟩

theorem searchIndex_inside {xs : List Index} (hp : xs.Pairwise (fun a b => b.path < a.path)) {x : Index}
    (hx : x ∈ xs) {s : Path} (hs : s ≠ []) (ha : ∀ y ∈ xs, y ≠ x → Apart y.path x.path)
    (hb : ∀ y ∈ xs, y.path ≠ x.path ++ s) :
    ∃ k, searchIndex (x.path ++ s) xs 0 = .insertAt k ∧ xs[k]? = some x := by
  obtain ⟨k, h1, h2, h3, h4⟩ := searchIndex_insertAt hp hb 0
  refine ⟨k, by simpa using h1, ?_⟩
  obtain ⟨m, hm⟩ := List.getElem?_of_mem hx
  have hmk : k ≤ m := by
    rcases Nat.lt_or_ge m k with hlt | h
    · have : x ∈ xs.take k := by
        apply List.mem_of_getElem? (i := m)
        rw [List.getElem?_take, if_pos hlt]; exact hm
      exact absurd (h3 x this) (List.lt_asymm (lt_append hs))
    · exact h
  have hml := (List.getElem?_eq_some_iff.1 hm).1
  obtain ⟨y, hy⟩ : ∃ y, xs[k]? = some y := ⟨xs[k]'(by omega), List.getElem?_eq_getElem _⟩
  have hlt := h2 y hy
  by_cases hyx : y = x
  · rw [hy, hyx]
  · exfalso
    have hne : k ≠ m := by rintro rfl; rw [hy] at hm; exact hyx (by simpa using hm)
    have hord : x.path < y.path := by
      rw [List.pairwise_iff_getElem] at hp
      obtain ⟨hk', rfl⟩ := List.getElem?_eq_some_iff.1 hy
      obtain ⟨hm', rfl⟩ := List.getElem?_eq_some_iff.1 hm
      exact hp k m hk' hm' (by omega)
    exact (ha y (List.mem_of_getElem? hy) hyx).2 (prefix_of_between hord hlt)

theorem Answers_of_locate {chk : Bool} {l l' : Layout} {data data' : Bytes} {q : Path}
    (h : l.locate chk q data = l'.locate chk q data') {leaf : Leaf}
    (ha : Answers (l'.source chk data') q leaf) : Answers (l.source chk data) q leaf := by
  cases leaf with
  | prim v =>
    simp only [Answers, Layout.source, Layout.getPrimitive] at ha ⊢
    rw [h]; exact ha
  | str bs =>
    simp only [Answers, Layout.source, Layout.getLength, Layout.getBytes] at ha ⊢
    rw [h]; exact ha
  | tag i =>
    simp only [Answers, Layout.source, Layout.getCaseTag] at ha ⊢
    rw [h]; exact ha

end Verif
