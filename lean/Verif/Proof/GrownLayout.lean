import Verif.Proof.Width

/-! # Layouts whose enums got additional cases -/

namespace Verif

open Spec

mutual
/-- The second layout is the first one with cases added at the end of some of its enums. -/
def LayoutGrown : Layout → Layout → Prop
  | .mk al vo ix fx vs, .mk al' vo' ix' fx' vs' => al = al' ∧ vo = vo' ∧ ix = ix' ∧ fx = fx' ∧ VarsGrown vs vs'
def VarsGrown : List VarField → List VarField → Prop
  | [], [] => True
  | v :: vs, w :: ws => VarGrown v w ∧ VarsGrown vs ws
  | _, _ => False
def VarGrown : VarField → VarField → Prop
  | .string p i, .string q j => p = q ∧ i = j
  | .enum p i cs, .enum q j ds => p = q ∧ i = j ∧ LayoutsGrown cs ds
  | _, _ => False
def LayoutsGrown : List Layout → List Layout → Prop
  | [], _ => True
  | c :: cs, d :: ds => LayoutGrown c d ∧ LayoutsGrown cs ds
  | _, _ => False
end

/-- Whatever the first computation returns, the second returns too. -/
def KeepsOk {α : Type} (a b : Res α) : Prop := ∀ x, a = .ok x → b = .ok x

theorem KeepsOk.rfl {α : Type} {a : Res α} : KeepsOk a a := fun _ h => h

theorem KeepsOk.bind {α β : Type} {a b : Res α} {f g : α → Res β} (h : KeepsOk a b) (hf : ∀ x, KeepsOk (f x) (g x)) :
    KeepsOk (a >>= f) (b >>= g) := by
  intro y hy
  obtain ⟨x, h1, h2⟩ := Res.bind_eq_ok.1 hy
  rw [h x h1]
  exact hf x y h2

theorem KeepsOk.err {α : Type} {e : Fault} {b : Res α} : KeepsOk (.error e) b := fun _ h => nomatch h

mutual
theorem sizeWithSource_grown (chk : Bool) (src : DataSource) : ∀ {l m : Layout}, LayoutGrown l m →
    KeepsOk (l.sizeWithSource chk src) (m.sizeWithSource chk src)
  | .mk al vo ix fx vs, .mk al' vo' ix' fx' vs', h => by
    rw [LayoutGrown] at h
    obtain ⟨rfl, rfl, rfl, rfl, h⟩ := h
    rw [Layout.sizeWithSource, Layout.sizeWithSource]
    exact (varsSize_grown chk src h vo).bind fun _ => .rfl
theorem varsSize_grown (chk : Bool) (src : DataSource) : ∀ {vs ws : List VarField}, VarsGrown vs ws →
    ∀ o, KeepsOk (varsSize chk src vs o) (varsSize chk src ws o)
  | [], [], _, _ => .rfl
  | v :: vs, w :: ws, h, o => by
    rw [VarsGrown] at h
    rw [varsSize, varsSize]
    exact (varSize_grown chk src h.1 o).bind fun o' => varsSize_grown chk src h.2 o'
  | [], _ :: _, h, _ => by simp [VarsGrown] at h
  | _ :: _, [], h, _ => by simp [VarsGrown] at h
theorem varSize_grown (chk : Bool) (src : DataSource) : ∀ {v w : VarField}, VarGrown v w →
    ∀ o, KeepsOk (varSize chk src v o) (varSize chk src w o)
  | .string p i, .string q j, h, o => by
    rw [VarGrown] at h
    obtain ⟨rfl, rfl⟩ := h
    exact .rfl
  | .enum p i cs, .enum q j ds, h, o => by
    rw [VarGrown] at h
    obtain ⟨rfl, rfl, h⟩ := h
    rw [varSize, varSize]
    exact KeepsOk.rfl.bind fun tag => (caseSizeWithSource_grown chk src h tag).bind fun _ => .rfl
  | .string .., .enum .., h, _ => by simp [VarGrown] at h
  | .enum .., .string .., h, _ => by simp [VarGrown] at h
theorem caseSizeWithSource_grown (chk : Bool) (src : DataSource) : ∀ {cs ds : List Layout}, LayoutsGrown cs ds →
    ∀ i, KeepsOk (caseSizeWithSource chk src cs i) (caseSizeWithSource chk src ds i)
  | [], _, _, _ => by rw [caseSizeWithSource]; exact .err
  | c :: cs, d :: ds, h, 0 => by
    rw [LayoutsGrown] at h
    rw [caseSizeWithSource, caseSizeWithSource]
    exact sizeWithSource_grown chk src h.1
  | c :: cs, d :: ds, h, i + 1 => by
    rw [LayoutsGrown] at h
    rw [caseSizeWithSource, caseSizeWithSource]
    exact caseSizeWithSource_grown chk src h.2 i
  | _ :: _, [], h, _ => by simp [LayoutsGrown] at h
end

mutual
theorem encode_grown (chk : Bool) (src : DataSource) : ∀ {l m : Layout}, LayoutGrown l m →
    ∀ buf, KeepsOk (l.encode chk src buf) (m.encode chk src buf)
  | .mk al vo ix fx vs, .mk al' vo' ix' fx' vs', h, buf => by
    rw [LayoutGrown] at h
    obtain ⟨rfl, rfl, rfl, rfl, h⟩ := h
    rw [Layout.encode, Layout.encode]
    exact KeepsOk.rfl.bind fun _ => KeepsOk.rfl.bind fun b => (encodeVars_grown chk src h b vo).bind fun _ => .rfl
theorem encodeVars_grown (chk : Bool) (src : DataSource) : ∀ {vs ws : List VarField}, VarsGrown vs ws →
    ∀ buf o, KeepsOk (encodeVars chk src vs buf o) (encodeVars chk src ws buf o)
  | [], [], _, _, _ => .rfl
  | v :: vs, w :: ws, h, buf, o => by
    rw [VarsGrown] at h
    rw [encodeVars, encodeVars]
    exact (encodeVar_grown chk src h.1 buf o).bind fun x => encodeVars_grown chk src h.2 x.1 x.2
  | [], _ :: _, h, _, _ => by simp [VarsGrown] at h
  | _ :: _, [], h, _, _ => by simp [VarsGrown] at h
theorem encodeVar_grown (chk : Bool) (src : DataSource) : ∀ {v w : VarField}, VarGrown v w →
    ∀ buf o, KeepsOk (encodeVar chk src v buf o) (encodeVar chk src w buf o)
  | .string p i, .string q j, h, _, _ => by
    rw [VarGrown] at h
    obtain ⟨rfl, rfl⟩ := h
    exact .rfl
  | .enum p i cs, .enum q j ds, h, buf, o => by
    rw [VarGrown] at h
    obtain ⟨rfl, rfl, h⟩ := h
    rw [encodeVar, encodeVar]
    exact KeepsOk.rfl.bind fun tag => KeepsOk.rfl.bind fun _ => (encodeCase_grown chk src h tag _).bind fun _ =>
      (caseSizeWithSource_grown chk src h tag).bind fun _ => .rfl
  | .string .., .enum .., h, _, _ => by simp [VarGrown] at h
  | .enum .., .string .., h, _, _ => by simp [VarGrown] at h
theorem encodeCase_grown (chk : Bool) (src : DataSource) : ∀ {cs ds : List Layout}, LayoutsGrown cs ds →
    ∀ i buf, KeepsOk (encodeCase chk src cs i buf) (encodeCase chk src ds i buf)
  | [], _, _, _, _ => by rw [encodeCase]; exact .err
  | c :: cs, d :: ds, h, 0, buf => by
    rw [LayoutsGrown] at h
    rw [encodeCase, encodeCase]
    exact encode_grown chk src h.1 buf
  | c :: cs, d :: ds, h, i + 1, buf => by
    rw [LayoutsGrown] at h
    rw [encodeCase, encodeCase]
    exact encodeCase_grown chk src h.2 i buf
  | _ :: _, [], h, _, _ => by simp [LayoutsGrown] at h
end

mutual
theorem encodingSize_grown (chk : Bool) : ∀ {l m : Layout}, LayoutGrown l m →
    ∀ data, KeepsOk (l.encodingSize chk data) (m.encodingSize chk data)
  | .mk al vo ix fx vs, .mk al' vo' ix' fx' vs', h, data => by
    rw [LayoutGrown] at h
    obtain ⟨rfl, rfl, rfl, rfl, h⟩ := h
    rw [Layout.encodingSize, Layout.encodingSize]
    exact (varsEnd_grown chk fx data h vo).bind fun _ => .rfl
termination_by structural l => l
theorem varsEnd_grown (chk : Bool) (fx : List FixedField) (data : Bytes) : ∀ {vs ws : List VarField},
    VarsGrown vs ws → ∀ o, KeepsOk (varsEnd chk fx data vs o) (varsEnd chk fx data ws o)
  | [], [], _, _ => .rfl
  | v :: vs, w :: ws, h, o => by
    rw [VarsGrown] at h
    rw [varsEnd, varsEnd]
    exact (varEnd_grown chk fx data h.1 o).bind fun o' => varsEnd_grown chk fx data h.2 o'
  | [], _ :: _, h, _ => by simp [VarsGrown] at h
  | _ :: _, [], h, _ => by simp [VarsGrown] at h
termination_by structural l => l
theorem varEnd_grown (chk : Bool) (fx : List FixedField) (data : Bytes) : ∀ {v w : VarField},
    VarGrown v w → ∀ o, KeepsOk (varEnd chk fx data v o) (varEnd chk fx data w o)
  | .string p i, .string q j, h, o => by
    rw [VarGrown] at h
    obtain ⟨rfl, rfl⟩ := h
    exact .rfl
  | .enum p i cs, .enum q j ds, h, o => by
    rw [VarGrown] at h
    obtain ⟨rfl, rfl, h⟩ := h
    rw [varEnd, varEnd]
    exact KeepsOk.rfl.bind fun f => KeepsOk.rfl.bind fun tag => KeepsOk.rfl.bind fun _ =>
      (caseSize_grown chk h tag _).bind fun _ => .rfl
  | .string .., .enum .., h, _ => by simp [VarGrown] at h
  | .enum .., .string .., h, _ => by simp [VarGrown] at h
termination_by structural l => l
theorem caseSize_grown (chk : Bool) : ∀ {cs ds : List Layout}, LayoutsGrown cs ds →
    ∀ i data, KeepsOk (caseSize chk cs i data) (caseSize chk ds i data)
  | [], _, _, _, _ => by rw [caseSize]; exact .err
  | c :: cs, d :: ds, h, 0, data => by
    rw [LayoutsGrown] at h
    rw [caseSize, caseSize]
    exact encodingSize_grown chk h.1 data
  | c :: cs, d :: ds, h, i + 1, data => by
    rw [LayoutsGrown] at h
    rw [caseSize, caseSize]
    exact caseSize_grown chk h.2 i data
  | _ :: _, [], h, _, _ => by simp [LayoutsGrown] at h
termination_by structural l => l
end

theorem VarsGrown.length : ∀ {vs ws : List VarField}, VarsGrown vs ws → vs.length = ws.length
  | [], [], _ => rfl
  | v :: vs, w :: ws, h => by rw [VarsGrown] at h; simp [VarsGrown.length h.2]
  | [], _ :: _, h => by simp [VarsGrown] at h
  | _ :: _, [], h => by simp [VarsGrown] at h

theorem VarsGrown.take : ∀ {vs ws : List VarField} (i : Nat), VarsGrown vs ws → VarsGrown (vs.take i) (ws.take i)
  | _, _, 0, _ => by simp [VarsGrown]
  | [], [], _ + 1, _ => by simp [VarsGrown]
  | v :: vs, w :: ws, i + 1, h => by
    rw [VarsGrown] at h
    simp only [List.take_succ_cons, VarsGrown]
    exact ⟨h.1, h.2.take i⟩
  | [], _ :: _, _ + 1, h => by simp [VarsGrown] at h
  | _ :: _, [], _ + 1, h => by simp [VarsGrown] at h

theorem VarsGrown.get : ∀ {vs ws : List VarField} (i : Nat), VarsGrown vs ws →
    (vs[i]? = none ∧ ws[i]? = none) ∨ ∃ v w, vs[i]? = some v ∧ ws[i]? = some w ∧ VarGrown v w
  | [], [], _, _ => .inl (by simp)
  | v :: vs, w :: ws, 0, h => by
    rw [VarsGrown] at h
    exact .inr ⟨v, w, by rfl, by rfl, h.1⟩
  | v :: vs, w :: ws, i + 1, h => by
    rw [VarsGrown] at h
    simpa using h.2.get i
  | [], _ :: _, _, h => by simp [VarsGrown] at h
  | _ :: _, [], _, h => by simp [VarsGrown] at h

theorem variableFieldOffset_grown (chk : Bool) {l m : Layout} (h : LayoutGrown l m) (i : Nat) (data : Bytes) :
    KeepsOk (l.variableFieldOffset chk i data) (m.variableFieldOffset chk i data) := by
  obtain ⟨al, vo, ix, fx, vs⟩ := l
  obtain ⟨al', vo', ix', fx', vs'⟩ := m
  rw [LayoutGrown] at h
  obtain ⟨rfl, rfl, rfl, rfl, h⟩ := h
  unfold Layout.variableFieldOffset
  simp only [Layout.vars, Layout.fixed, Layout.varOffset, h.length]
  exact KeepsOk.rfl.bind fun _ => varsEnd_grown chk fx data (h.take i) vo

/-- Whatever is located in the first layout is located in the second. -/
def KeepsPlace (a b : Res Located) : Prop :=
  ∀ w, a = .ok w → ∃ w', b = .ok w' ∧ LayoutGrown w.layout w'.layout ∧ w'.data = w.data ∧ w'.index = w.index

theorem KeepsPlace.err {e : Fault} {b : Res Located} : KeepsPlace (.error e) b := fun _ h => nomatch h

theorem KeepsPlace.after {α : Type} {a b : Res α} {f g : α → Res Located} (h : KeepsOk a b)
    (hf : ∀ x, KeepsPlace (f x) (g x)) : KeepsPlace (a >>= f) (b >>= g) := by
  intro y hy
  obtain ⟨x, h1, h2⟩ := Res.bind_eq_ok.1 hy
  rw [h x h1]
  exact hf x y h2

mutual
theorem locate_grown (chk : Bool) (path : Path) : ∀ {l m : Layout}, LayoutGrown l m →
    ∀ data, KeepsPlace (l.locate chk path data) (m.locate chk path data)
  | .mk al vo ix fx vs, .mk al' vo' ix' fx' vs', h, data => by
    have h0 := h
    rw [LayoutGrown] at h
    obtain ⟨rfl, rfl, rfl, rfl, h⟩ := h
    rw [Layout.locate, Layout.locate]
    cases searchIndex path ix 0 with
    | «at» i =>
      refine KeepsPlace.after .rfl fun x => ?_
      intro w hw
      cases hw
      exact ⟨_, rfl, h0, rfl, rfl⟩
    | insertAt i =>
      simp only
      cases ix[i]? with
      | none => exact .err
      | some x =>
        simp only
        split
        · exact KeepsPlace.after .rfl fun tag => KeepsPlace.after (variableFieldOffset_grown chk h0 _ _) fun o =>
            KeepsPlace.after .rfl fun _ => locateVars_grown chk path h _ _ _
        · exact .err
theorem locateVars_grown (chk : Bool) (path : Path) : ∀ {vs ws : List VarField}, VarsGrown vs ws →
    ∀ i tag data, KeepsPlace (locateVars chk path vs i tag data) (locateVars chk path ws i tag data)
  | [], [], _, _, _, _ => by rw [locateVars]; exact .err
  | v :: vs, w :: ws, h, 0, tag, data => by
    rw [VarsGrown] at h
    rw [locateVars, locateVars]
    exact locateVar_grown chk path h.1 tag data
  | v :: vs, w :: ws, h, i + 1, tag, data => by
    rw [VarsGrown] at h
    rw [locateVars, locateVars]
    exact locateVars_grown chk path h.2 i tag data
  | [], _ :: _, h, _, _, _ => by simp [VarsGrown] at h
  | _ :: _, [], h, _, _, _ => by simp [VarsGrown] at h
theorem locateVar_grown (chk : Bool) (path : Path) : ∀ {v w : VarField}, VarGrown v w →
    ∀ tag data, KeepsPlace (locateVar chk path v tag data) (locateVar chk path w tag data)
  | .string p i, .string q j, _, _, _ => by rw [locateVar]; exact .err
  | .enum p i cs, .enum q j ds, h, tag, data => by
    rw [VarGrown] at h
    obtain ⟨rfl, rfl, h⟩ := h
    rw [locateVar, locateVar]
    exact locateCase_grown chk path h tag data
  | .string .., .enum .., h, _, _ => by simp [VarGrown] at h
  | .enum .., .string .., h, _, _ => by simp [VarGrown] at h
theorem locateCase_grown (chk : Bool) (path : Path) : ∀ {cs ds : List Layout}, LayoutsGrown cs ds →
    ∀ i data, KeepsPlace (locateCase chk path cs i data) (locateCase chk path ds i data)
  | [], _, _, _, _ => by rw [locateCase]; exact .err
  | c :: cs, d :: ds, h, 0, data => by
    rw [LayoutsGrown] at h
    rw [locateCase, locateCase]
    exact locate_grown chk path h.1 data
  | c :: cs, d :: ds, h, i + 1, data => by
    rw [LayoutsGrown] at h
    rw [locateCase, locateCase]
    exact locateCase_grown chk path h.2 i data
  | _ :: _, [], h, _, _ => by simp [LayoutsGrown] at h
end

theorem LayoutGrown.fixed {l m : Layout} (h : LayoutGrown l m) : m.fixed = l.fixed := by
  obtain ⟨al, vo, ix, fx, vs⟩ := l
  obtain ⟨al', vo', ix', fx', vs'⟩ := m
  rw [LayoutGrown] at h
  exact h.2.2.2.1.symm

theorem LayoutGrown.vars {l m : Layout} (h : LayoutGrown l m) : VarsGrown l.vars m.vars := by
  obtain ⟨al, vo, ix, fx, vs⟩ := l
  obtain ⟨al', vo', ix', fx', vs'⟩ := m
  rw [LayoutGrown] at h
  exact h.2.2.2.2

/-- Looking up a path and then reading. -/
theorem read_grown {α : Type} {chk : Bool} {path : Path} {l m : Layout} (h : LayoutGrown l m) {data : Bytes}
    {f : Located → Res α} (hf : ∀ w w', LayoutGrown w.layout w'.layout → w'.data = w.data → w'.index = w.index →
      KeepsOk (f w) (f w')) : KeepsOk (l.locate chk path data >>= f) (m.locate chk path data >>= f) := by
  intro x hx
  obtain ⟨w, h1, h2⟩ := Res.bind_eq_ok.1 hx
  obtain ⟨w', h3, h4, h5, h6⟩ := locate_grown chk path h data w h1
  rw [h3]
  exact hf w w' h4 h5 h6 x h2

/-- Whatever can be read from data with the first layout is read alike with the second. -/
theorem source_grown (chk : Bool) {l m : Layout} (h : LayoutGrown l m) (data : Bytes) (q : Path) :
    (∀ p, KeepsOk ((l.source chk data).prim p q) ((m.source chk data).prim p q)) ∧
    KeepsOk ((l.source chk data).tag q) ((m.source chk data).tag q) ∧
    KeepsOk ((l.source chk data).length q) ((m.source chk data).length q) ∧
    KeepsOk ((l.source chk data).bytes q) ((m.source chk data).bytes q) := by
  refine ⟨fun p => ?_, ?_, ?_, ?_⟩
  · refine read_grown h fun w w' h1 h2 h3 => ?_
    rw [h1.fixed, h2, h3]
    exact .rfl
  · refine read_grown h fun w w' h1 h2 h3 => ?_
    rw [h1.fixed, h2, h3]
    exact .rfl
  · refine read_grown h fun w w' h1 h2 h3 => ?_
    rw [h1.fixed, h2, h3]
    exact .rfl
  · refine read_grown h fun w w' h1 h2 h3 => ?_
    rw [h1.fixed, h2, h3]
    refine KeepsOk.rfl.bind fun f => (variableFieldOffset_grown chk h1 _ _).bind fun o => ?_
    cases f.kind with
    | length =>
      refine KeepsOk.rfl.bind fun n => ?_
      rcases h1.vars.get w.index.varIdx with ⟨e1, e2⟩ | ⟨v, v', e1, e2, e3⟩
      · rw [e1]; exact .err
      · rw [e1, e2]
        cases v with
        | enum => exact .err
        | string =>
          cases v' with
          | string => exact .rfl
          | enum => simp [VarGrown] at e3
    | _ => exact .err

end Verif
