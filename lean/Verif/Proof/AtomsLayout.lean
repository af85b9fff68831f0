import Verif.Proof.Codec2

/-! # Layouts that differ only in their paths -/

namespace Verif

open Spec

/-- Lists of the same length whose elements are related one by one. -/
inductive Beside {α β : Type} (R : α → β → Prop) : List α → List β → Prop where
  | nil : Beside R [] []
  | cons {a b as bs} : R a b → Beside R as bs → Beside R (a :: as) (b :: bs)

namespace Beside

variable {α β γ δ : Type} {R : α → β → Prop}

theorem append {as as' : List α} {bs bs' : List β} (h : Beside R as bs) (h' : Beside R as' bs') :
    Beside R (as ++ as') (bs ++ bs') := by
  induction h with
  | nil => exact h'
  | cons h _ ih => exact .cons h ih

theorem of_get {as : List α} {bs : List β} (hl : as.length = bs.length)
    (h : ∀ (i : Nat) (a : α) (b : β), as[i]? = some a → bs[i]? = some b → R a b) : Beside R as bs := by
  induction as generalizing bs with
  | nil =>
    cases bs with
    | nil => exact .nil
    | cons b bs => simp at hl
  | cons a as ih =>
    cases bs with
    | nil => simp at hl
    | cons b bs =>
      exact .cons (h 0 a b rfl rfl) (ih (by simpa using hl) fun i x y hx hy =>
        h (i + 1) x y (by simpa using hx) (by simpa using hy))

theorem filterMap {as : List α} {bs : List β} {S : γ → δ → Prop} {f : α → Option γ} {g : β → Option δ}
    (h : Beside R as bs)
    (hf : ∀ a b, R a b → (f a = none ∧ g b = none) ∨ ∃ x y, f a = some x ∧ g b = some y ∧ S x y) :
    Beside S (as.filterMap f) (bs.filterMap g) := by
  induction h with
  | nil => exact .nil
  | cons h _ ih =>
    rcases hf _ _ h with ⟨h1, h2⟩ | ⟨x, y, h1, h2, h3⟩
    · rw [List.filterMap_cons_none h1, List.filterMap_cons_none h2]; exact ih
    · rw [List.filterMap_cons_some h1, List.filterMap_cons_some h2]; exact .cons h3 ih

theorem filter {as : List α} {bs : List β} {f : α → Bool} {g : β → Bool}
    (h : Beside R as bs) (hf : ∀ a b, R a b → f a = g b) {S : α → β → Prop}
    (hs : ∀ a b, R a b → f a = true → S a b) : Beside S (as.filter f) (bs.filter g) := by
  induction h with
  | nil => exact .nil
  | @cons a b as bs h _ ih =>
    rw [List.filter_cons, List.filter_cons, ← hf _ _ h]
    split
    · next hx => exact .cons (hs _ _ h hx) ih
    · exact ih

theorem sortInsert {as : List α} {bs : List β} {le : α → α → Bool} {le' : β → β → Bool}
    (hle : ∀ a b a' b', R a a' → R b b' → le a b = le' a' b') {x : α} {y : β} (hx : R x y) (h : Beside R as bs) :
    Beside R (Verif.sortInsert le x as) (Verif.sortInsert le' y bs) := by
  induction h with
  | nil => exact .cons hx .nil
  | cons h h' ih =>
    rw [Verif.sortInsert, Verif.sortInsert, hle _ _ _ _ hx h]
    split
    · exact .cons hx (.cons h h')
    · exact .cons h ih

theorem sortBy {as : List α} {bs : List β} {le : α → α → Bool} {le' : β → β → Bool}
    (hle : ∀ a b a' b', R a a' → R b b' → le a b = le' a' b') (h : Beside R as bs) :
    Beside R (Verif.sortBy le as) (Verif.sortBy le' bs) := by
  induction h with
  | nil => exact .nil
  | cons h _ ih => exact sortInsert hle h ih

theorem imp {S : α → β → Prop} {as : List α} {bs : List β} (h : Beside R as bs) (hs : ∀ a b, R a b → S a b) :
    Beside S as bs := by
  induction h with
  | nil => exact .nil
  | cons h _ ih => exact .cons (hs _ _ h) ih

end Beside

/-- The fields differ only in their paths, which are related unless they are containers. -/
def FixedTwin (R : Path → Path → Prop) (f g : FixedField) : Prop :=
  f.kind = g.kind ∧ f.offset = g.offset ∧ (f.isContainer = false → R f.path g.path)

/-- The bit fields differ only in their paths, which are related. -/
def BitTwin (R : Path → Path → Prop) (b c : Bitfield) : Prop :=
  b.numBits = c.numBits ∧ b.bitOffset = c.bitOffset ∧ b.index = c.index ∧ R b.path c.path

mutual
/-- The layouts differ only in their paths and in what depends on the order of the paths. -/
def LayoutTwin (R : Path → Path → Prop) : Layout → Layout → Prop
  | .mk al vo _ fx vs, .mk al' vo' _ fx' vs' => al = al' ∧ vo = vo' ∧ Beside (FixedTwin R) fx fx' ∧ VarsTwin R vs vs'
def VarsTwin (R : Path → Path → Prop) : List VarField → List VarField → Prop
  | [], [] => True
  | v :: vs, w :: ws => VarTwin R v w ∧ VarsTwin R vs ws
  | _, _ => False
def VarTwin (R : Path → Path → Prop) : VarField → VarField → Prop
  | .string p _, .string q _ => R p q
  | .enum p _ cs, .enum q _ ds => R p q ∧ LayoutsTwin R cs ds
  | _, _ => False
def LayoutsTwin (R : Path → Path → Prop) : List Layout → List Layout → Prop
  | [], [] => True
  | c :: cs, d :: ds => LayoutTwin R c d ∧ LayoutsTwin R cs ds
  | _, _ => False
end

theorem varsTwin_beside {R : Path → Path → Prop} : ∀ {vs ws : List VarField},
    VarsTwin R vs ws ↔ Beside (VarTwin R) vs ws
  | [], [] => by simp [VarsTwin, Beside.nil]
  | v :: vs, w :: ws => by
    rw [VarsTwin, varsTwin_beside]
    exact ⟨fun h => .cons h.1 h.2, fun h => by cases h with | cons h1 h2 => exact ⟨h1, h2⟩⟩
  | [], _ :: _ => by simp only [VarsTwin, false_iff]; intro h; cases h
  | _ :: _, [] => by simp only [VarsTwin, false_iff]; intro h; cases h

theorem layoutsTwin_beside {R : Path → Path → Prop} : ∀ {vs ws : List Layout},
    LayoutsTwin R vs ws ↔ Beside (LayoutTwin R) vs ws
  | [], [] => by simp [LayoutsTwin, Beside.nil]
  | v :: vs, w :: ws => by
    rw [LayoutsTwin, layoutsTwin_beside]
    exact ⟨fun h => .cons h.1 h.2, fun h => by cases h with | cons h1 h2 => exact ⟨h1, h2⟩⟩
  | [], _ :: _ => by simp only [LayoutsTwin, false_iff]; intro h; cases h
  | _ :: _, [] => by simp only [LayoutsTwin, false_iff]; intro h; cases h

theorem LayoutTwin.alignment {R : Path → Path → Prop} {l m : Layout} (h : LayoutTwin R l m) :
    l.alignment = m.alignment := by
  cases l; cases m
  rw [LayoutTwin] at h
  exact h.1

theorem VarTwin.alignment {R : Path → Path → Prop} {v w : VarField} (h : VarTwin R v w) :
    v.alignment = w.alignment := by
  cases v <;> cases w <;> simp only [VarTwin] at h
  · rfl
  · have := layoutsTwin_beside.1 h.2
    clear h
    cases this with
    | nil => rfl
    | @cons c d cs ds h1 h2 =>
      rw [VarField.alignment, VarField.alignment, h1.alignment]
      generalize d.alignment = m
      induction h2 generalizing m with
      | nil => rfl
      | cons h3 h4 ih =>
        rw [List.foldl_cons, List.foldl_cons, h3.alignment]
        exact ih _

/-! ## Encoding -/

/-- The sources answer alike at related paths. -/
def Alike (R : Path → Path → Prop) (src src' : DataSource) : Prop :=
  ∀ p q, R p q → (∀ a, src.prim a p = src'.prim a q) ∧ src.tag p = src'.tag q ∧ src.length p = src'.length q ∧
    src.bytes p = src'.bytes q

mutual
theorem sizeWithSource_twin {chk : Bool} {R : Path → Path → Prop} {src src' : DataSource} (ha : Alike R src src') :
    ∀ {l m : Layout}, LayoutTwin R l m → l.sizeWithSource chk src = m.sizeWithSource chk src'
  | .mk al vo ix fx vs, .mk al' vo' ix' fx' vs', h => by
    rw [LayoutTwin] at h
    obtain ⟨rfl, rfl, _, h⟩ := h
    rw [Layout.sizeWithSource, Layout.sizeWithSource, varsSize_twin ha h vo]
theorem varsSize_twin {chk : Bool} {R : Path → Path → Prop} {src src' : DataSource} (ha : Alike R src src') :
    ∀ {vs ws : List VarField}, VarsTwin R vs ws → ∀ o, varsSize chk src vs o = varsSize chk src' ws o
  | [], [], _, _ => by rw [varsSize, varsSize]
  | v :: vs, w :: ws, h, o => by
    rw [VarsTwin] at h
    rw [varsSize, varsSize, varSize_twin ha h.1 o]
    congr 1
    funext o'
    exact varsSize_twin ha h.2 o'
  | [], _ :: _, h, _ => by simp [VarsTwin] at h
  | _ :: _, [], h, _ => by simp [VarsTwin] at h
theorem varSize_twin {chk : Bool} {R : Path → Path → Prop} {src src' : DataSource} (ha : Alike R src src') :
    ∀ {v w : VarField}, VarTwin R v w → ∀ o, varSize chk src v o = varSize chk src' w o
  | .string p i, .string q j, h, o => by
    rw [VarTwin] at h
    rw [varSize, varSize, (ha _ _ h).2.2.1]
  | .enum p i cs, .enum q j ds, h, o => by
    rw [VarTwin] at h
    rw [varSize, varSize, (ha _ _ h.1).2.1]
    congr 1
    funext tag
    rw [caseSizeWithSource_twin ha h.2 tag]
  | .string .., .enum .., h, _ => by simp [VarTwin] at h
  | .enum .., .string .., h, _ => by simp [VarTwin] at h
theorem caseSizeWithSource_twin {chk : Bool} {R : Path → Path → Prop} {src src' : DataSource}
    (ha : Alike R src src') : ∀ {cs ds : List Layout}, LayoutsTwin R cs ds →
    ∀ i, caseSizeWithSource chk src cs i = caseSizeWithSource chk src' ds i
  | [], [], _, _ => by rw [caseSizeWithSource, caseSizeWithSource]
  | c :: cs, d :: ds, h, 0 => by
    rw [LayoutsTwin] at h
    rw [caseSizeWithSource, caseSizeWithSource]
    exact sizeWithSource_twin ha h.1
  | c :: cs, d :: ds, h, i + 1 => by
    rw [LayoutsTwin] at h
    rw [caseSizeWithSource, caseSizeWithSource]
    exact caseSizeWithSource_twin ha h.2 i
  | [], _ :: _, h, _ => by simp [LayoutsTwin] at h
  | _ :: _, [], h, _ => by simp [LayoutsTwin] at h
end

theorem writeFixed_twin {chk : Bool} {R : Path → Path → Prop} {src src' : DataSource} (ha : Alike R src src')
    {f g : FixedField} (h : FixedTwin R f g) (buf : Bytes) :
    writeFixed chk src f buf = writeFixed chk src' g buf := by
  obtain ⟨p, k, o⟩ := f
  obtain ⟨q, k', o'⟩ := g
  obtain ⟨h1, h2, h3⟩ := h
  simp only at h1 h2
  subst h1 h2
  cases k with
  | container => rfl
  | prim a =>
    have := (ha _ _ (h3 rfl)).1 a
    simp only at this
    simp only [writeFixed, this]
  | length =>
    have := (ha _ _ (h3 rfl)).2.2.1
    simp only at this
    simp only [writeFixed, this]
  | bitfield =>
    have := (ha _ _ (h3 rfl)).2.1
    simp only at this
    simp only [writeFixed, this]

theorem writeFixeds_twin {chk : Bool} {R : Path → Path → Prop} {src src' : DataSource} (ha : Alike R src src')
    {fs gs : List FixedField} (h : Beside (FixedTwin R) fs gs) : ∀ buf : Bytes,
    writeFixeds chk src fs buf = writeFixeds chk src' gs buf := by
  induction h with
  | nil => intro buf; rfl
  | cons h _ ih =>
    intro buf
    rw [writeFixeds, writeFixeds, writeFixed_twin ha h]
    congr 1
    funext b
    exact ih b

mutual
theorem encode_twin {chk : Bool} {R : Path → Path → Prop} {src src' : DataSource} (ha : Alike R src src') :
    ∀ {l m : Layout}, LayoutTwin R l m → ∀ buf, l.encode chk src buf = m.encode chk src' buf
  | .mk al vo ix fx vs, .mk al' vo' ix' fx' vs', h, buf => by
    rw [LayoutTwin] at h
    obtain ⟨rfl, rfl, h0, h⟩ := h
    rw [Layout.encode, Layout.encode, writeFixeds_twin ha h0]
    congr 1
    funext _
    congr 1
    funext b
    rw [encodeVars_twin ha h b vo]
theorem encodeVars_twin {chk : Bool} {R : Path → Path → Prop} {src src' : DataSource} (ha : Alike R src src') :
    ∀ {vs ws : List VarField}, VarsTwin R vs ws → ∀ buf o, encodeVars chk src vs buf o = encodeVars chk src' ws buf o
  | [], [], _, _, _ => by rw [encodeVars, encodeVars]
  | v :: vs, w :: ws, h, buf, o => by
    rw [VarsTwin] at h
    rw [encodeVars, encodeVars, encodeVar_twin ha h.1 buf o]
    congr 1
    funext ⟨b, o'⟩
    exact encodeVars_twin ha h.2 b o'
  | [], _ :: _, h, _, _ => by simp [VarsTwin] at h
  | _ :: _, [], h, _, _ => by simp [VarsTwin] at h
theorem encodeVar_twin {chk : Bool} {R : Path → Path → Prop} {src src' : DataSource} (ha : Alike R src src') :
    ∀ {v w : VarField}, VarTwin R v w → ∀ buf o, encodeVar chk src v buf o = encodeVar chk src' w buf o
  | .string p i, .string q j, h, buf, o => by
    rw [VarTwin] at h
    rw [encodeVar, encodeVar, (ha _ _ h).2.2.1]
    simp only [copyBytes, (ha _ _ h).2.2.2]
  | .enum p i cs, .enum q j ds, h, buf, o => by
    rw [VarTwin] at h
    rw [encodeVar, encodeVar, (ha _ _ h.1).2.1]
    congr 1
    funext tag
    rw [encodeCase_twin ha h.2 tag, caseSizeWithSource_twin ha h.2 tag]
  | .string .., .enum .., h, _, _ => by simp [VarTwin] at h
  | .enum .., .string .., h, _, _ => by simp [VarTwin] at h
theorem encodeCase_twin {chk : Bool} {R : Path → Path → Prop} {src src' : DataSource} (ha : Alike R src src') :
    ∀ {cs ds : List Layout}, LayoutsTwin R cs ds →
    ∀ i buf, encodeCase chk src cs i buf = encodeCase chk src' ds i buf
  | [], [], _, _, _ => by rw [encodeCase, encodeCase]
  | c :: cs, d :: ds, h, 0, buf => by
    rw [LayoutsTwin] at h
    rw [encodeCase, encodeCase]
    exact encode_twin ha h.1 buf
  | c :: cs, d :: ds, h, i + 1, buf => by
    rw [LayoutsTwin] at h
    rw [encodeCase, encodeCase]
    exact encodeCase_twin ha h.2 i buf
  | [], _ :: _, h, _, _ => by simp [LayoutsTwin] at h
  | _ :: _, [], h, _, _ => by simp [LayoutsTwin] at h
end

/-! ## Making layouts -/

theorem FixedTwin.size {R : Path → Path → Prop} {f g : FixedField} (h : FixedTwin R f g) : f.size = g.size := by
  simp only [FixedField.size, h.1]

theorem FixedTwin.isContainer {R : Path → Path → Prop} {f g : FixedField} (h : FixedTwin R f g) :
    f.isContainer = g.isContainer := by
  simp only [FixedField.isContainer, h.1]

theorem allocateLoop_twin {R : Path → Path → Prop} {bs bs' : List Bitfield} (h : Beside (BitTwin R) bs bs') :
    ∀ {cs : List Container} {out out' : List Bitfield} {ds ds' : List Container},
    allocateLoop bs cs = .ok (out, ds) → allocateLoop bs' cs = .ok (out', ds') →
    Beside (BitTwin R) out out' ∧ ds = ds' := by
  induction h with
  | nil =>
    intro cs out out' ds ds' h1 h2
    cases h1; cases h2
    exact ⟨.nil, rfl⟩
  | cons h _ ih =>
    intro cs out out' ds ds' h1 h2
    rw [allocateLoop] at h1 h2
    rw [← h.1] at h2
    split at h1
    · next j o cs' hp =>
      rw [hp] at h2
      obtain ⟨⟨x, y⟩, h3, h4⟩ := Res.bind_eq_ok.1 h1
      obtain ⟨⟨x', y'⟩, h5, h6⟩ := Res.bind_eq_ok.1 h2
      cases h4; cases h6
      obtain ⟨h7, h8⟩ := ih h3 h5
      exact ⟨.cons ⟨rfl, rfl, rfl, h.2.2.2⟩ h7, h8⟩
    · next hp =>
      rw [hp] at h2
      obtain ⟨a, h0, h1⟩ := Res.bind_eq_ok.1 h1
      obtain ⟨a', h0', h2⟩ := Res.bind_eq_ok.1 h2
      rw [h0] at h0'
      cases h0'
      obtain ⟨⟨x, y⟩, h3, h4⟩ := Res.bind_eq_ok.1 h1
      obtain ⟨⟨x', y'⟩, h5, h6⟩ := Res.bind_eq_ok.1 h2
      cases h4; cases h6
      obtain ⟨h7, h8⟩ := ih h3 h5
      exact ⟨.cons ⟨rfl, rfl, rfl, h.2.2.2⟩ h7, h8⟩

theorem containerFields_twin (R : Path → Path → Prop) : ∀ (cs : List Container) (i : Nat),
    Beside (FixedTwin R) (containerFields cs i) (containerFields cs i)
  | [], _ => .nil
  | c :: cs, i => .cons ⟨rfl, rfl, fun h => by cases h⟩ (containerFields_twin R cs (i + 1))

theorem assignOffsets_twin {R : Path → Path → Prop} {chk : Bool} {fs gs : List FixedField}
    (h : Beside (FixedTwin R) fs gs) : ∀ {n : Nat} {fs' gs' : List FixedField} {a b : Nat},
    assignOffsets chk fs n = .ok (fs', a) → assignOffsets chk gs n = .ok (gs', b) →
    Beside (FixedTwin R) fs' gs' ∧ a = b := by
  induction h with
  | nil =>
    intro n fs' gs' a b h1 h2
    cases h1; cases h2
    exact ⟨.nil, rfl⟩
  | cons h _ ih =>
    intro n fs' gs' a b h1 h2
    rw [assignOffsets] at h1 h2
    rw [← h.1] at h2
    obtain ⟨s, h3, h1⟩ := Res.bind_eq_ok.1 h1
    obtain ⟨s', h3', h2⟩ := Res.bind_eq_ok.1 h2
    rw [h3] at h3'
    cases h3'
    obtain ⟨n1, h4, h1⟩ := Res.bind_eq_ok.1 h1
    obtain ⟨n2, h4', h2⟩ := Res.bind_eq_ok.1 h2
    rw [h4] at h4'
    cases h4'
    obtain ⟨⟨x, y⟩, h5, h1⟩ := Res.bind_eq_ok.1 h1
    obtain ⟨⟨x', y'⟩, h5', h2⟩ := Res.bind_eq_ok.1 h2
    cases h1; cases h2
    obtain ⟨h7, h8⟩ := ih h5 h5'
    exact ⟨.cons ⟨rfl, rfl, h.2.2⟩ h7, h8⟩

theorem containerAt_twin {R : Path → Path → Prop} {fs gs : List FixedField} (h : Beside (FixedTwin R) fs gs)
    (i : Nat) : containerAt i fs = containerAt i gs := by
  induction h with
  | nil => rfl
  | cons h _ ih => simp only [containerAt, h.1, h.2.1, ih]

theorem bitfieldFields_twin {R : Path → Path → Prop} {fs gs : List FixedField} (h : Beside (FixedTwin R) fs gs)
    {bs cs : List Bitfield} (hb : Beside (BitTwin R) bs cs) : ∀ {xs ys : List FixedField},
    bitfieldFields fs bs = .ok xs → bitfieldFields gs cs = .ok ys → Beside (FixedTwin R) xs ys := by
  induction hb with
  | nil =>
    intro xs ys h1 h2
    cases h1; cases h2
    exact .nil
  | cons hb _ ih =>
    intro xs ys h1 h2
    rw [bitfieldFields] at h1 h2
    rw [← containerAt_twin h, ← hb.2.2.1] at h2
    split at h1
    · next hc =>
      rw [hc] at h2
      obtain ⟨r, h3, h4⟩ := Res.bind_eq_ok.1 h1
      obtain ⟨r', h5, h6⟩ := Res.bind_eq_ok.1 h2
      cases h4; cases h6
      exact .cons ⟨by simp only [hb.1, hb.2.1], rfl, fun _ => hb.2.2.2⟩ (ih h3 h5)
    · cases h1

theorem VarTwin.setFixedIdx {R : Path → Path → Prop} {v w : VarField} (h : VarTwin R v w) (i j : Nat) :
    VarTwin R (v.setFixedIdx i) (w.setFixedIdx j) := by
  cases v <;> cases w <;> simp only [VarTwin] at h <;> simp [VarField.setFixedIdx, VarTwin, h]

theorem linkVars_head {lookup : List (Path × Nat)} {v : VarField} {vs vs' : List VarField} {i : Nat}
    {ix ix' : List Index} (h : linkVars lookup (v :: vs) i ix = .ok (vs', ix')) :
    ∃ fi us iy iz j, vs' = v.setFixedIdx fi :: us ∧ linkVars lookup vs j iy = .ok (us, iz) := by
  rw [linkVars] at h
  cases hs : searchIndex v.path ix 0 with
  | insertAt k => rw [hs] at h; cases h
  | «at» k =>
    rw [hs] at h
    simp only at h
    cases hm : mapGet Path.cmp v.path lookup with
    | none => rw [hm] at h; cases h
    | some fi =>
      rw [hm] at h
      obtain ⟨⟨us, iy⟩, h1, h2⟩ := Res.bind_eq_ok.1 h
      cases h2
      exact ⟨fi, us, _, _, _, rfl, h1⟩

theorem linkVars_twin {R : Path → Path → Prop} {lookup lookup' : List (Path × Nat)} {vs ws : List VarField}
    (h : Beside (VarTwin R) vs ws) : ∀ {i j : Nat} {ix ix' iy iy' : List Index} {vs' ws' : List VarField},
    linkVars lookup vs i ix = .ok (vs', ix') → linkVars lookup' ws j iy = .ok (ws', iy') →
    Beside (VarTwin R) vs' ws' := by
  induction h with
  | nil =>
    intro i j ix ix' iy iy' vs' ws' h1 h2
    cases h1; cases h2
    exact .nil
  | cons h _ ih =>
    intro i j ix ix' iy iy' vs' ws' h1 h2
    obtain ⟨a, us, _, _, _, rfl, h3⟩ := linkVars_head h1
    obtain ⟨b, us', _, _, _, rfl, h4⟩ := linkVars_head h2
    exact .cons (h.setFixedIdx a b) (ih h3 h4)

theorem finish_twin {R : Path → Path → Prop} {chk : Bool} {fx gx : List FixedField} {bs cs : List Bitfield}
    {vs ws : List VarField} (hf : Beside (FixedTwin R) fx gx) (hb : Beside (BitTwin R) bs cs)
    (hv : Beside (VarTwin R) vs ws) {l m : Layout} (h : finishLayout chk fx bs vs = .ok l)
    (h' : finishLayout chk gx cs ws = .ok m) : LayoutTwin R l m := by
  unfold finishLayout at h h'
  obtain ⟨⟨b1, c1⟩, h1, h⟩ := Res.bind_eq_ok.1 h
  obtain ⟨⟨b2, c2⟩, h1', h'⟩ := Res.bind_eq_ok.1 h'
  obtain ⟨kb, rfl⟩ := allocateLoop_twin (hb.sortBy fun a b a' b' h1 h2 => by rw [h1.1, h2.1]) h1 h1'
  obtain ⟨⟨f1, s1⟩, h2, h⟩ := Res.bind_eq_ok.1 h
  obtain ⟨⟨f2, s2⟩, h2', h'⟩ := Res.bind_eq_ok.1 h'
  obtain ⟨kf, rfl⟩ := assignOffsets_twin ((hf.append (containerFields_twin R c1 0)).sortBy
    fun a b a' b' h1 h2 => by rw [h1.size, h2.size]) h2 h2'
  have ks := hv.sortBy (le := fun l r => decide (r.alignment ≤ l.alignment))
    (le' := fun l r => decide (r.alignment ≤ l.alignment)) fun a b a' b' h1 h2 => by rw [h1.alignment, h2.alignment]
  obtain ⟨a1, h3, h⟩ := Res.bind_eq_ok.1 h
  obtain ⟨a2, h3', h'⟩ := Res.bind_eq_ok.1 h'
  have e1 : firstSize f1 = firstSize f2 := by
    cases kf with
    | nil => rfl
    | cons k _ => simp only [firstSize, k.1]
  rw [e1, h3'] at h3
  cases h3
  have e2 : firstAlignment (sortBy (fun l r : VarField => decide (r.alignment ≤ l.alignment)) vs) =
      firstAlignment (sortBy (fun l r : VarField => decide (r.alignment ≤ l.alignment)) ws) := by
    revert ks
    generalize sortBy (fun l r : VarField => decide (r.alignment ≤ l.alignment)) vs = xs
    generalize sortBy (fun l r : VarField => decide (r.alignment ≤ l.alignment)) ws = ys
    intro ks
    cases ks with
    | nil => rfl
    | cons k _ => simp only [firstAlignment, k.alignment]
  obtain ⟨z1, h4, h⟩ := Res.bind_eq_ok.1 h
  obtain ⟨z2, h4', h'⟩ := Res.bind_eq_ok.1 h'
  rw [e2, h4'] at h4
  cases h4
  obtain ⟨x1, h5, h⟩ := Res.bind_eq_ok.1 h
  obtain ⟨x2, h5', h'⟩ := Res.bind_eq_ok.1 h'
  have kx := bitfieldFields_twin kf kb h5 h5'
  obtain ⟨⟨u1, i1⟩, h6, h⟩ := Res.bind_eq_ok.1 h
  obtain ⟨⟨u2, i2⟩, h6', h'⟩ := Res.bind_eq_ok.1 h'
  cases h; cases h'
  rw [LayoutTwin]
  refine ⟨by rw [e2], rfl, ?_, varsTwin_beside.2 (linkVars_twin ks h6 h6')⟩
  exact (kf.filter (fun a b h => by rw [h.isContainer]) (fun a b h _ => h)).append kx

end Verif
