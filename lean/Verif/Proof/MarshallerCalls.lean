import Verif.Proof.Codec3
import Verif.Spec.MarshallerCalls

/-! # The calls of the encoder -/

namespace Verif

open Spec

/-! ## The outcome is that of the encoder -/

theorem Traced.bind_result {α β : Type} (x : Traced α) (f : α → Traced β) :
    (x >>= f).result = x.result >>= fun a => (f a).result := by
  obtain ⟨r, v⟩ := x
  cases r <;> rfl

theorem Traced.quiet_result {α : Type} (x : Res α) : (Traced.quiet x).result = x := rfl

theorem Traced.entering_result {α : Type} (v : Visit) (x : Traced α) : (Traced.entering v x).result = x.result := rfl

theorem writeFixedT_result (chk : Bool) (src : DataSource) (f : FixedField) (buf : Bytes) :
    (writeFixedT chk src f buf).result = writeFixed chk src f buf := by
  obtain ⟨p, k, o⟩ := f
  cases k <;> simp only [writeFixedT, writeFixed] <;> first | rfl | rw [Traced.bind_result] <;> rfl

theorem writeFixedsT_result (chk : Bool) (src : DataSource) (fs : List FixedField) : ∀ buf : Bytes,
    (writeFixedsT chk src fs buf).result = writeFixeds chk src fs buf := by
  induction fs with
  | nil => intro buf; rfl
  | cons f fs ih =>
    intro buf
    rw [writeFixedsT, writeFixeds, Traced.bind_result, writeFixedT_result]
    exact bind_congr ih

theorem copyBytesT_result (src : DataSource) (buf : Bytes) (o : Nat) (path : Path) (n : Nat) :
    (copyBytesT src buf o path n).result = copyBytes src buf o path n := by
  rw [copyBytesT, copyBytes, Traced.bind_result]
  refine bind_congr fun _ => ?_
  rw [Traced.bind_result]
  rfl

mutual
theorem sizeT_result (chk : Bool) (src : DataSource) : (l : Layout) →
    (l.sizeT chk src).result = l.sizeWithSource chk src
  | .mk al vo _ _ vars => by
    rw [Layout.sizeT, Layout.sizeWithSource, Traced.entering_result, Traced.bind_result, varsSizeT_result]
    rfl
theorem varsSizeT_result (chk : Bool) (src : DataSource) : (vs : List VarField) → (o : Nat) →
    (varsSizeT chk src vs o).result = varsSize chk src vs o
  | [], o => by rw [varsSizeT, varsSize]; rfl
  | v :: vs, o => by
    rw [varsSizeT, varsSize, Traced.bind_result, varSizeT_result]
    exact bind_congr fun o' => varsSizeT_result chk src vs o'
theorem varSizeT_result (chk : Bool) (src : DataSource) : (v : VarField) → (o : Nat) →
    (varSizeT chk src v o).result = varSize chk src v o
  | .string path _, o => by rw [varSizeT, varSize, Traced.bind_result]; rfl
  | .enum path _ cases, o => by
    rw [varSizeT, varSize, Traced.bind_result]
    refine bind_congr fun tag => ?_
    rw [Traced.bind_result, caseSizeT_result]
    rfl
theorem caseSizeT_result (chk : Bool) (src : DataSource) : (ls : List Layout) → (i : Nat) →
    (caseSizeT chk src ls i).result = caseSizeWithSource chk src ls i
  | [], _ => by rw [caseSizeT, caseSizeWithSource]; rfl
  | l :: _, 0 => by rw [caseSizeT, caseSizeWithSource]; exact sizeT_result chk src l
  | _ :: ls, i + 1 => by rw [caseSizeT, caseSizeWithSource]; exact caseSizeT_result chk src ls i
end

mutual
theorem encodeT_result (chk : Bool) (src : DataSource) : (l : Layout) → (buf : Bytes) →
    (l.encodeT chk src buf).result = l.encode chk src buf
  | .mk al vo _ fixed vars, buf => by
    rw [Layout.encodeT, Layout.encode, Traced.entering_result, Traced.bind_result]
    refine bind_congr fun _ => ?_
    rw [Traced.bind_result, writeFixedsT_result]
    refine bind_congr fun b => ?_
    rw [Traced.bind_result, encodeVarsT_result]
    rfl
theorem encodeVarsT_result (chk : Bool) (src : DataSource) : (vs : List VarField) → (buf : Bytes) → (o : Nat) →
    (encodeVarsT chk src vs buf o).result = encodeVars chk src vs buf o
  | [], buf, o => by rw [encodeVarsT, encodeVars]; rfl
  | v :: vs, buf, o => by
    rw [encodeVarsT, encodeVars, Traced.bind_result, encodeVarT_result]
    exact bind_congr fun r => encodeVarsT_result chk src vs r.1 r.2
theorem encodeVarT_result (chk : Bool) (src : DataSource) : (v : VarField) → (buf : Bytes) → (o : Nat) →
    (encodeVarT chk src v buf o).result = encodeVar chk src v buf o
  | .string path _, buf, o => by
    rw [encodeVarT, encodeVar, Traced.bind_result]
    refine bind_congr fun n => ?_
    rw [Traced.bind_result, copyBytesT_result]
    rfl
  | .enum path _ cases, buf, o => by
    rw [encodeVarT, encodeVar, Traced.bind_result]
    refine bind_congr fun tag => ?_
    rw [Traced.bind_result]
    refine bind_congr fun _ => ?_
    rw [Traced.bind_result, encodeCaseT_result]
    refine bind_congr fun r => ?_
    rw [Traced.bind_result, caseSizeT_result]
    rfl
theorem encodeCaseT_result (chk : Bool) (src : DataSource) : (ls : List Layout) → (i : Nat) → (buf : Bytes) →
    (encodeCaseT chk src ls i buf).result = encodeCase chk src ls i buf
  | [], _, _ => by rw [encodeCaseT, encodeCase]; rfl
  | l :: _, 0, buf => by rw [encodeCaseT, encodeCase]; exact encodeT_result chk src l buf
  | _ :: ls, i + 1, buf => by rw [encodeCaseT, encodeCase]; exact encodeCaseT_result chk src ls i buf
end

/-! ## Collecting calls -/

theorem _root_.Verif.Spec.AsksFor.quiet {α : Type} (x : Res α) :
    AsksFor (Traced.quiet x) [] := ⟨[], .refl _, fun _ _ => rfl⟩

theorem _root_.Verif.Spec.AsksFor.one {α : Type} (x : Res α) (v : Visit) : AsksFor (⟨x, [v]⟩ : Traced α) [v] :=
  ⟨[], .refl _, fun _ _ => rfl⟩

theorem _root_.Verif.Spec.AsksFor.perm {α : Type} {x : Traced α} {vs ws : List Visit} (h : AsksFor x vs)
    (hp : vs.Perm ws) : AsksFor x ws := by
  obtain ⟨rest, h1, h2⟩ := h
  exact ⟨rest, h1.trans hp, h2⟩

theorem _root_.Verif.Spec.AsksFor.bind {α β : Type} {x : Traced α} {f : α → Traced β} {vs ws : List Visit}
    (hx : AsksFor x vs)
    (hf : ∀ a, x.result = .ok a → AsksFor (f a) ws) : AsksFor (x >>= f) (vs ++ ws) := by
  obtain ⟨rest, h1, h2⟩ := hx
  obtain ⟨r, v⟩ := x
  cases r with
  | error e => exact ⟨rest ++ ws, by rw [← List.append_assoc]; exact h1.append_right _, fun a h => nomatch h⟩
  | ok a =>
    obtain ⟨rest', h3, h4⟩ := hf a rfl
    have h0 := h2 a rfl
    subst h0
    rw [List.append_nil] at h1
    refine ⟨rest', ?_, h4⟩
    show (v ++ (f a).visits ++ rest').Perm _
    rw [List.append_assoc]
    exact h1.append h3

theorem _root_.Verif.Spec.AsksFor.entering {α : Type} {x : Traced α} {vs : List Visit} (v : Visit) (h : AsksFor x vs) :
    AsksFor (x.entering v) (v :: vs) := by
  obtain ⟨rest, h1, h2⟩ := h
  exact ⟨rest, h1.cons v, h2⟩

/-! ## Functions of a value that go through tuples and structs -/

/-- Nothing for the unit value, and one component of a sequence after the other. -/
structure Additive {β : Type} (F : Val → Path → List β) (FL : List Val → Path → Nat → List β) : Prop where
  unit : ∀ p, F .unit p = []
  seq : ∀ vs p, F (.seq vs) p = FL vs p 0
  nil : ∀ p i, FL [] p i = []
  cons : ∀ v vs p i, FL (v :: vs) p i = F v (p ++ [i]) ++ FL vs p (i + 1)

theorem additive_measuring : Additive measuring measuringFrom :=
  ⟨fun _ => by rw [measuring], fun _ _ => by rw [measuring], fun _ _ => by rw [measuringFrom],
    fun _ _ _ _ => by rw [measuringFrom]⟩

theorem additive_encoding (k : Nat) : Additive (encoding k) (encodingFrom k) :=
  ⟨fun _ => by rw [encoding], fun _ _ => by rw [encoding], fun _ _ => by rw [encodingFrom],
    fun _ _ _ _ => by rw [encodingFrom]⟩

theorem additive_leaves : Additive leaves leavesFrom :=
  ⟨fun _ => by rw [leaves], fun _ _ => by rw [leaves], fun _ _ => by rw [leavesFrom],
    fun _ _ _ _ => by rw [leavesFrom]⟩

theorem typed_slots_all {t : Ty} {v : Val} (h : Typed t v) : ∀ p : Path, ∃ env : Path → Val,
    (∀ x ∈ slots t p, Typed x.2.ty (env x.1)) ∧
    ∀ {β : Type} (F : Val → Path → List β) (FL : List Val → Path → Nat → List β), Additive F FL →
      F v p = (slots t p).flatMap (fun x => F (env x.1) x.1) := by
  have list : ∀ (cs : List Ty) (vs : List Val), vs.length = cs.length →
      (∀ (i : Nat) (c : Ty) (v : Val), cs[i]? = some c → vs[i]? = some v → ∀ p : Path, ∃ env : Path → Val,
        (∀ x ∈ slots c p, Typed x.2.ty (env x.1)) ∧
        ∀ {β : Type} (F : Val → Path → List β) (FL : List Val → Path → Nat → List β), Additive F FL →
          F v p = (slots c p).flatMap (fun x => F (env x.1) x.1)) →
      ∀ (p : Path) (i : Nat), ∃ env : Path → Val,
        (∀ x ∈ slotsL cs p i, Typed x.2.ty (env x.1)) ∧
        ∀ {β : Type} (F : Val → Path → List β) (FL : List Val → Path → Nat → List β), Additive F FL →
          FL vs p i = (slotsL cs p i).flatMap (fun x => F (env x.1) x.1) := by
    intro cs
    induction cs with
    | nil =>
      intro vs hl _ p i
      cases vs with
      | nil => exact ⟨fun _ => .unit, by simp [slotsL], fun F FL hF => by simp [slotsL, hF.nil]⟩
      | cons v vs => simp at hl
    | cons c cs ih =>
      intro vs hl h p i
      cases vs with
      | nil => simp at hl
      | cons v vs =>
        obtain ⟨e1, a1, a2⟩ := h 0 c v rfl rfl (p ++ [i])
        obtain ⟨e2, b1, b2⟩ := ih vs (by simpa using hl)
          (fun k d w hd hw => h (k + 1) d w (by simpa using hd) (by simpa using hw)) p (i + 1)
        have s1 : ∀ x ∈ slots c (p ++ [i]), (p ++ [i]) <+: x.1 := by
          intro x hx
          obtain ⟨r, hr⟩ := slots_prefix _ _ _ hx
          rw [hr]; exact List.prefix_append _ _
        have s2 : ∀ x ∈ slotsL cs p (i + 1), ¬ (p ++ [i]) <+: x.1 := by
          intro x hx hp
          obtain ⟨k, d, _, h2⟩ := mem_slotsL hx
          obtain ⟨r, hr⟩ := slots_prefix _ _ _ h2
          rw [hr, List.append_assoc, List.prefix_append_right_inj] at hp
          simp at hp
          omega
        refine ⟨fun q => if (p ++ [i]) <+: q then e1 q else e2 q, ?_, ?_⟩
        · intro x hx
          rw [slotsL] at hx
          rcases List.mem_append.1 hx with hx | hx
          · simp only [if_pos (s1 x hx)]; exact a1 x hx
          · simp only [if_neg (s2 x hx)]; exact b1 x hx
        · intro β F FL hF
          rw [hF.cons, slotsL, List.flatMap_append, a2 F FL hF, b2 F FL hF]
          congr 1
          · apply flatMap_congr'
            intro x hx
            simp only [if_pos (s1 x hx)]
          · apply flatMap_congr'
            intro x hx
            simp only [if_neg (s2 x hx)]
  induction h with
  | unit => intro p; exact ⟨fun _ => .unit, by simp [slots], fun F FL hF => by simp [slots, hF.unit]⟩
  | prim v => intro p; exact ⟨fun _ => .prim v, by simp [slots, Slot.ty]; exact .prim v, by simp [slots]⟩
  | str bs => intro p; exact ⟨fun _ => .str bs, by simp [slots, Slot.ty]; exact .str bs, by simp [slots]⟩
  | tuple hl _ ih =>
    intro p
    rw [slots]
    obtain ⟨env, h1, h2⟩ := list _ _ hl ih p 0
    exact ⟨env, h1, fun F FL hF => by rw [hF.seq]; exact h2 F FL hF⟩
  | @struct fs vs hl _ ih =>
    intro p
    rw [slots, slotsF_eq]
    obtain ⟨env, h1, h2⟩ := list (fs.map (·.2)) vs (by simpa using hl) (by
      intro i c v hc hv
      rw [List.getElem?_map, Option.map_eq_some_iff] at hc
      obtain ⟨f, hf, rfl⟩ := hc
      exact ih i f v hf hv) p 0
    exact ⟨env, h1, fun F FL hF => by rw [hF.seq]; exact h2 F FL hF⟩
  | @enum cs i c v h1 h2 ih =>
    intro p
    exact ⟨fun _ => .case i v, by simp [slots, Slot.ty]; exact .enum h1 h2, by simp [slots]⟩

/-! ## Encoding is measuring once more inside one more enum -/

mutual
theorem encoding_succ (k : Nat) : (v : Val) → (p : Path) →
    (encoding k v p ++ measuring v p).Perm (encoding (k + 1) v p)
  | .unit, p => by simp [encoding, measuring]
  | .prim _, p => by simp [encoding, measuring]
  | .str _, p => by
    rw [encoding, encoding, measuring, List.cons_append, ← Nat.add_assoc, List.replicate_succ']
  | .seq vs, p => by rw [encoding, encoding, measuring]; exact encodingFrom_succ k vs p 0
  | .case i v, p => by
    rw [encoding, encoding, measuring]
    have ih := encoding_succ (k + 1) v (p ++ [i])
    rw [show 2 + (k + 1) = (2 + k) + 1 by omega, show 1 + (k + 1) = (1 + k) + 1 by omega, List.replicate_succ,
      List.replicate_succ]
    have e : ∀ (A B C D : List Visit) (x y z : Visit),
        (A ++ z :: B ++ C ++ x :: y :: D).Perm (x :: A ++ z :: (y :: B) ++ (C ++ D)) := by
      intro A B C D x y z
      refine List.perm_iff_count.2 fun a => ?_
      simp only [List.count_append, List.count_cons]
      omega
    refine (e _ _ _ _ _ _ _).trans ?_
    exact List.Perm.append_left _ ih
theorem encodingFrom_succ (k : Nat) : (vs : List Val) → (p : Path) → (i : Nat) →
    (encodingFrom k vs p i ++ measuringFrom vs p i).Perm (encodingFrom (k + 1) vs p i)
  | [], p, i => by simp [encodingFrom, measuringFrom]
  | v :: vs, p, i => by
    rw [encodingFrom, encodingFrom, measuringFrom]
    have h1 := encoding_succ k v (p ++ [i])
    have h2 := encodingFrom_succ k vs p (i + 1)
    refine (List.perm_iff_count.2 fun a => ?_ : List.Perm _ _).trans (h1.append h2)
    simp only [List.count_append]
    omega
end

/-! ## One layer -/

/-- What the loop over the fixed size fields asks for. -/
def fixedPart : Val → Path → List Visit
  | .prim v, p => [.ask p (.prim v.kind)]
  | .str _, p => [.ask p .length]
  | .case _ _, p => [.ask p .tag]
  | _, _ => []

/-- What the loop over the variable size fields asks for. -/
def varPart : Val → Path → List Visit
  | .str _, p => [.ask p .length, .ask p .bytes]
  | .case i v, p => .ask p .tag :: (.encode :: encoding 0 v (p ++ [i])) ++ (.measure :: measuring v (p ++ [i]))
  | _, _ => []

theorem parts_perm {s : Slot} {v : Val} (h : Typed s.ty v) (p : Path) :
    (fixedPart v p ++ varPart v p).Perm (encoding 0 v p) := by
  cases s with
  | prim k => simp only [Slot.ty] at h; cases h; simp [fixedPart, varPart, encoding]
  | str =>
    simp only [Slot.ty] at h
    cases h
    refine List.perm_iff_count.2 fun a => ?_
    simp [fixedPart, varPart, encoding, List.count_cons, List.replicate]
    omega
  | enum cs =>
    simp only [Slot.ty] at h
    cases h with
    | @enum _ i c w h1 h2 =>
      rw [encoding]
      refine List.Perm.trans ?_ (List.Perm.append_left _ (encoding_succ 0 w (p ++ [i])))
      refine List.perm_iff_count.2 fun a => ?_
      simp [fixedPart, varPart, List.count_cons, List.replicate]
      omega

theorem writeFixedsT_makes {chk : Bool} {src : DataSource} {g : Path → List Visit} (fs : List FixedField)
    (h : ∀ f ∈ fs, ∀ buf, AsksFor (writeFixedT chk src f buf) (g f.path)) : ∀ buf,
    AsksFor (writeFixedsT chk src fs buf) ((fs.map (·.path)).flatMap g) := by
  induction fs with
  | nil => intro buf; exact .quiet _
  | cons f fs ih =>
    intro buf
    rw [writeFixedsT, List.map_cons, List.flatMap_cons]
    exact (h f (by simp) buf).bind fun b _ => ih (fun f hf => h f (by simp [hf])) b

theorem varsSizeT_makes {chk : Bool} {src : DataSource} {g : Path → List Visit} (vs : List VarField)
    (h : ∀ v ∈ vs, ∀ o, AsksFor (varSizeT chk src v o) (g v.path)) : ∀ o,
    AsksFor (varsSizeT chk src vs o) ((vs.map (·.path)).flatMap g) := by
  induction vs with
  | nil => intro o; rw [varsSizeT]; exact .quiet _
  | cons f fs ih =>
    intro o
    rw [varsSizeT, List.map_cons, List.flatMap_cons]
    exact (h f (by simp) o).bind fun b _ => ih (fun f hf => h f (by simp [hf])) b

theorem encodeVarsT_makes {chk : Bool} {src : DataSource} {g : Path → List Visit} (vs : List VarField)
    (h : ∀ v ∈ vs, ∀ buf o, AsksFor (encodeVarT chk src v buf o) (g v.path)) : ∀ buf o,
    AsksFor (encodeVarsT chk src vs buf o) ((vs.map (·.path)).flatMap g) := by
  induction vs with
  | nil => intro buf o; rw [encodeVarsT]; exact .quiet _
  | cons f fs ih =>
    intro buf o
    rw [encodeVarsT, List.map_cons, List.flatMap_cons]
    exact (h f (by simp) buf o).bind fun b _ => ih (fun f hf => h f (by simp [hf])) b.1 b.2

theorem caseSizeT_eq {chk : Bool} {src : DataSource} {ls : List Layout} {i : Nat} {l : Layout}
    (h : ls[i]? = some l) : caseSizeT chk src ls i = l.sizeT chk src := by
  induction ls generalizing i with
  | nil => simp at h
  | cons a ls ih =>
    cases i with
    | zero => simp at h; subst h; rw [caseSizeT]
    | succ i => rw [caseSizeT]; exact ih (by simpa using h)

theorem encodeCaseT_eq {chk : Bool} {src : DataSource} {ls : List Layout} {i : Nat} {l : Layout} {buf : Bytes}
    (h : ls[i]? = some l) : encodeCaseT chk src ls i buf = l.encodeT chk src buf := by
  induction ls generalizing i with
  | nil => simp at h
  | cons a ls ih =>
    cases i with
    | zero => simp at h; subst h; rw [encodeCaseT]
    | succ i => rw [encodeCaseT]; exact ih (by simpa using h)

theorem writeFixedT_makes {chk : Bool} {src : DataSource} {f : FixedField} {buf : Bytes} {v : Visit}
    (h : match f.kind with
      | .length => v = .ask f.path .length
      | .bitfield .. => v = .ask f.path .tag
      | .prim p => v = .ask f.path (.prim p)
      | .container .. => False) : AsksFor (writeFixedT chk src f buf) [v] := by
  obtain ⟨p, k, o⟩ := f
  cases k with
  | container a b => exact absurd h id
  | length =>
    simp only at h
    subst h
    exact AsksFor.bind (ws := []) (.one _ _) fun _ _ => .quiet _
  | bitfield a b c =>
    simp only at h
    subst h
    exact AsksFor.bind (ws := []) (.one _ _) fun _ _ => .quiet _
  | prim a =>
    simp only at h
    subst h
    exact AsksFor.bind (ws := []) (.one _ _) fun _ _ => .quiet _

theorem flatMap_vars {chk : Bool} {g : Path → List Visit} (xs : List (Path × Slot))
    (h : ∀ q k, (q, Slot.prim k) ∈ xs → g q = []) :
    ((xs.filterMap (Slot.var chk)).map (·.path)).flatMap g = xs.flatMap (fun x => g x.1) := by
  induction xs with
  | nil => rfl
  | cons x xs ih =>
    obtain ⟨q, s⟩ := x
    have ih := ih (fun q k hq => h q k (by simp [hq]))
    cases s with
    | prim k =>
      rw [List.filterMap_cons_none (f := Slot.var chk) rfl, List.flatMap_cons, h q k (by simp), ih]
      rfl
    | str =>
      rw [List.filterMap_cons_some (f := Slot.var chk) rfl, List.flatMap_cons, List.map_cons, List.flatMap_cons, ih]
      rfl
    | enum cs =>
      rw [List.filterMap_cons_some (f := Slot.var chk) rfl, List.flatMap_cons, List.map_cons, List.flatMap_cons, ih]
      rfl

theorem setFixedIdx_path (v : VarField) (i : Nat) : (v.setFixedIdx i).path = v.path := by
  cases v <;> rfl

theorem makes (chk : Bool) (n : Nat) : ∀ (t : Ty), nodes t ≤ n → n < 2 ^ 59 → Inhab t →
    ∀ (v : Val), Typed t v → ∀ (p : Path) (l : Layout), calculateLayout chk t p = .ok l →
    ∀ src : DataSource, Presents src v p →
      AsksFor (l.sizeT chk src) (.measure :: measuring v p) ∧
      ∀ buf, AsksFor (l.encodeT chk src buf) (.encode :: encoding 0 v p) := by
  induction n with
  | zero => intro t h; have := nodes_pos t; omega
  | succ n ih =>
    intro t hn hn2 hi v hv p l hl src hs
    obtain ⟨hu, hcases, l', hl', hfacts⟩ := unroll_and_layout chk t hi (by omega) p
    rw [hl] at hl'
    cases hl'
    obtain ⟨env, htyped, hall⟩ := typed_slots_all hv p
    have hp : ∀ x ∈ slots t p, Pres src env x.1 := by
      intro x hx r l hr
      refine hs r l ?_
      rw [hall _ _ additive_leaves]; exact List.mem_flatMap.2 ⟨x, hx, hr⟩
    have hfix : ∀ f ∈ l.fixed, ∀ buf, AsksFor (writeFixedT chk src f buf) (fixedPart (env f.path) f.path) := by
      intro f hf buf
      rcases hfacts.kinds f hf with ⟨g, hg, h1, h2⟩ | ⟨b, hb, pr, o, h1, h2, h3, h4⟩
      · obtain ⟨⟨q, s⟩, hx, hxg⟩ := List.mem_filterMap.1 hg
        have hty := htyped _ hx
        simp only at hty
        cases s with
        | prim pr =>
          simp [Slot.fixed] at hxg
          subst hxg
          obtain ⟨fp, fk, fo⟩ := f
          simp only at h1 h2
          subst h1 h2
          generalize hev : env q = ev at hty
          cases hty with
          | prim w => exact writeFixedT_makes rfl
        | str =>
          simp [Slot.fixed] at hxg
          subst hxg
          obtain ⟨fp, fk, fo⟩ := f
          simp only at h1 h2
          subst h1 h2
          generalize hev : env q = ev at hty
          cases hty with
          | str bs => exact writeFixedT_makes rfl
        | enum cs => simp [Slot.fixed] at hxg
      · obtain ⟨⟨q, s⟩, hx, hxb⟩ := List.mem_filterMap.1 hb
        have hty := htyped _ hx
        simp only at hty
        cases s with
        | prim pr => simp [Slot.bits] at hxb
        | str => simp [Slot.bits] at hxb
        | enum cs =>
          simp [Slot.bits] at hxb
          subst hxb
          obtain ⟨fp, fk, fo⟩ := f
          simp only at h1 h2
          subst h1 h2
          generalize hev : env q = ev at hty
          cases hty with
          | @enum _ i c w hc1 hc2 => exact writeFixedT_makes rfl
    have hvar : ∀ w ∈ l.vars, (∀ o, AsksFor (varSizeT chk src w o) (measuring (env w.path) w.path)) ∧
        ∀ buf o, AsksFor (encodeVarT chk src w buf o) (varPart (env w.path) w.path) := by
      intro w hw
      have h1 := hfacts.vars.mem_iff.1 (List.mem_map_of_mem (f := (·.setFixedIdx 0)) hw)
      obtain ⟨w0, hw0, he⟩ := List.mem_map.1 h1
      obtain ⟨⟨q, s⟩, hx, hxw⟩ := List.mem_filterMap.1 hw0
      have h2 := setFixedIdx_inj he.symm
      generalize w.fixedIdx = fi at h2
      subst h2
      have hty := htyped _ hx
      have q1 := hp _ hx
      unfold Pres at q1
      simp only at hty q1
      cases s with
      | prim pr => simp [Slot.var] at hxw
      | str =>
        simp [Slot.var] at hxw
        subst hxw
        simp only [VarField.setFixedIdx, VarField.path]
        generalize hev : env q = ev at hty q1
        cases hty with
        | str bs =>
          refine ⟨fun o => ?_, fun buf o => ?_⟩
          · rw [varSizeT, measuring]
            exact AsksFor.bind (ws := []) (.one _ _) fun _ _ => .quiet _
          · rw [encodeVarT]
            refine AsksFor.bind (vs := [.ask q .length]) (ws := [.ask q .bytes]) (.one _ _) fun m _ => ?_
            refine AsksFor.bind (vs := [.ask q .bytes]) (ws := []) ?_ fun _ _ => .quiet _
            rw [copyBytesT]
            refine AsksFor.bind (vs := []) (ws := [.ask q .bytes]) (.quiet _) fun _ _ => ?_
            exact AsksFor.bind (ws := []) (.one _ _) fun _ _ => .quiet _
      | enum cs =>
        simp [Slot.var] at hxw
        subst hxw
        simp only [VarField.setFixedIdx, VarField.path]
        obtain ⟨_, e2, e3⟩ := hcases q cs hx
        have hinh := slots_inherit (Q := Inhab) (fun cs h => by cases h with | tuple _ h => exact h)
          (fun fs h => by cases h with | struct _ h => exact h) t p hi _ hx
        have hno := slots_inherit (Q := fun u => nodes u ≤ nodes t)
          (fun cs h c hc => by have := nodes_mem_tuple hc; omega)
          (fun fs h f hf => by have := nodesF_mem hf; rw [nodes] at h; omega) t p (Nat.le_refl _) _ hx
        generalize hev : env q = ev at hty q1
        cases hty with
        | @enum _ i c w hc1 hc2 =>
          have a1 : Answers src q (.tag i) := q1 q _ (by simp [leaves])
          have a1 : src.tag q = .ok i := a1
          obtain ⟨lc, f1, f2, f3⟩ := e3 i c hc1
          have hem : c ∈ cs := List.mem_of_getElem? hc1
          have hic : Inhab c.2 := by cases hinh with | enum _ h => exact h _ hem
          have hnc : nodes c.2 ≤ n := by
            have := nodesF_mem hem
            simp only [Slot.ty, nodes] at hno
            omega
          obtain ⟨g1, g2⟩ := ih c.2 hnc (by omega) hic w hc2 _ lc f2 src
            (fun r l hr => q1 r l (by rw [leaves]; exact List.mem_cons_of_mem _ hr))
          refine ⟨fun o => ?_, fun buf o => ?_⟩
          · rw [varSizeT, measuring]
            refine AsksFor.bind (vs := [.ask q .tag]) (.one _ _) fun tag htag => ?_
            have : tag = i := by
              have htag : src.tag q = .ok tag := htag
              rw [a1] at htag; exact (Except.ok.inj htag).symm
            subst this
            rw [caseSizeT_eq f1]
            have := AsksFor.bind (ws := []) g1 (f := fun m => Traced.quiet (addW chk o m)) fun _ _ => .quiet _
            rwa [List.append_nil] at this
          · rw [encodeVarT, varPart, List.cons_append]
            refine AsksFor.bind (vs := [.ask q .tag]) (.one _ _) fun tag htag => ?_
            have : tag = i := by
              have htag : src.tag q = .ok tag := htag
              rw [a1] at htag; exact (Except.ok.inj htag).symm
            subst this
            refine AsksFor.bind (vs := []) (.quiet _) fun _ _ => ?_
            rw [encodeCaseT_eq f1]
            refine AsksFor.bind (g2 _) fun r _ => ?_
            rw [caseSizeT_eq f1, ← List.append_nil (_ :: measuring _ _)]
            exact AsksFor.bind g1 fun _ _ => .quiet _
    have hvp : (l.vars.map (·.path)).Perm (((slots t p).filterMap (Slot.var chk)).map (·.path)) := by
      have := hfacts.vars.map (·.path)
      simpa [List.map_map, Function.comp_def, setFixedIdx_path] using this
    have hfp := hfacts.paths.trans (paths_perm _)
    obtain ⟨al, vo, idx, fixed, vars⟩ := l
    simp only [Layout.fixed, Layout.vars] at hfix hvar hvp hfp
    refine ⟨?_, fun buf => ?_⟩
    · rw [Layout.sizeT]
      refine AsksFor.entering _ ?_
      have h1 := varsSizeT_makes (g := fun q => measuring (env q) q) vars (fun w hw => (hvar w hw).1) vo
      have h2 := AsksFor.bind (ws := []) h1 (f := fun o => Traced.quiet (align chk o al)) fun _ _ => .quiet _
      rw [List.append_nil] at h2
      refine h2.perm ((hvp.flatMap_right _).trans ?_)
      rw [flatMap_vars _ (fun q k hq => ?_), hall _ _ additive_measuring]
      have := htyped _ hq
      simp only [Slot.ty] at this
      generalize env q = e at this
      cases this
      simp [measuring]
    · rw [Layout.encodeT]
      refine AsksFor.entering _ ?_
      have h1 := fun b => encodeVarsT_makes (g := fun q => varPart (env q) q) vars (fun w hw => (hvar w hw).2) b vo
      have h0 := writeFixedsT_makes (g := fun q => fixedPart (env q) q) fixed hfix buf
      refine AsksFor.perm (AsksFor.bind (vs := []) (.quiet _) fun _ _ => AsksFor.bind h0 fun b _ =>
        AsksFor.bind (ws := []) (h1 b) fun _ _ => .quiet _) ?_
      rw [List.append_nil, List.nil_append]
      refine ((hfp.flatMap_right _).append (hvp.flatMap_right _)).trans ?_
      rw [flatMap_vars _ (fun q k hq => ?_), hall _ _ (additive_encoding 0), List.flatMap_map]
      · generalize hxs : slots t p = xs at htyped
        clear hxs hp hfix hvar hvp hfp h0 h1 hfacts hcases hu hall hl
        induction xs with
        | nil => exact .refl _
        | cons x xs ih =>
          rw [List.flatMap_cons, List.flatMap_cons, List.flatMap_cons]
          have h1 := parts_perm (htyped x (by simp)) x.1
          have h2 := ih (fun y hy => htyped y (by simp [hy]))
          refine List.Perm.trans (List.perm_iff_count.2 fun a => ?_) (h1.append h2)
          simp only [List.count_append]
          omega
      · have := htyped _ hq
        simp only [Slot.ty] at this
        generalize env q = e at this
        cases this
        simp [varPart]

/-! ## What is asked for, in numbers -/

mutual
theorem encoding_mem {k : Nat} {q : Path} {a : Ask} : (v : Val) → (p : Path) → .ask q a ∈ encoding k v p →
    ∃ l, (q, l) ∈ leaves v p ∧ Concerns a l
  | .unit, p, h => by simp [encoding] at h
  | .prim v, p, h => by
    simp [encoding] at h
    obtain ⟨rfl, rfl⟩ := h
    exact ⟨.prim v, by simp [leaves], rfl⟩
  | .str bs, p, h => by
    simp [encoding] at h
    rcases h with ⟨rfl, rfl⟩ | ⟨rfl, rfl⟩ <;> exact ⟨.str bs, by simp [leaves], trivial⟩
  | .seq vs, p, h => by rw [encoding] at h; rw [leaves]; exact encodingFrom_mem vs p 0 h
  | .case i v, p, h => by
    rw [encoding] at h
    rw [leaves]
    simp only [List.append_assoc, List.cons_append, List.mem_append, List.mem_cons, List.mem_replicate, Visit.ask.injEq,
      reduceCtorEq, and_false, false_or] at h
    rcases h with ⟨_, rfl, rfl⟩ | h
    · exact ⟨.tag i, by simp, trivial⟩
    · obtain ⟨l, h1, h2⟩ := encoding_mem v _ h
      exact ⟨l, List.mem_cons_of_mem _ h1, h2⟩
theorem encodingFrom_mem {k : Nat} {q : Path} {a : Ask} : (vs : List Val) → (p : Path) → (i : Nat) →
    .ask q a ∈ encodingFrom k vs p i → ∃ l, (q, l) ∈ leavesFrom vs p i ∧ Concerns a l
  | [], p, i, h => by simp [encodingFrom] at h
  | v :: vs, p, i, h => by
    rw [encodingFrom] at h
    rw [leavesFrom]
    rcases List.mem_append.1 h with h | h
    · obtain ⟨l, h1, h2⟩ := encoding_mem v _ h
      exact ⟨l, List.mem_append_left _ h1, h2⟩
    · obtain ⟨l, h1, h2⟩ := encodingFrom_mem vs p _ h
      exact ⟨l, List.mem_append_right _ h1, h2⟩
end

mutual
theorem measuring_mem {q : Path} {a : Ask} : (v : Val) → (p : Path) → .ask q a ∈ measuring v p →
    ∃ l, (q, l) ∈ leaves v p ∧ (a = .length ∧ Concerns .length l ∨ a = .tag ∧ Concerns .tag l)
  | .unit, p, h => by simp [measuring] at h
  | .prim v, p, h => by simp [measuring] at h
  | .str bs, p, h => by
    simp [measuring] at h
    obtain ⟨rfl, rfl⟩ := h
    exact ⟨.str bs, by simp [leaves], .inl ⟨rfl, trivial⟩⟩
  | .seq vs, p, h => by rw [measuring] at h; rw [leaves]; exact measuringFrom_mem vs p 0 h
  | .case i v, p, h => by
    rw [measuring] at h
    rw [leaves]
    simp only [List.mem_cons, Visit.ask.injEq, reduceCtorEq, false_or] at h
    rcases h with ⟨rfl, rfl⟩ | h
    · exact ⟨.tag i, by simp, .inr ⟨rfl, trivial⟩⟩
    · obtain ⟨l, h1, h2⟩ := measuring_mem v _ h
      exact ⟨l, List.mem_cons_of_mem _ h1, h2⟩
theorem measuringFrom_mem {q : Path} {a : Ask} : (vs : List Val) → (p : Path) → (i : Nat) →
    .ask q a ∈ measuringFrom vs p i →
    ∃ l, (q, l) ∈ leavesFrom vs p i ∧ (a = .length ∧ Concerns .length l ∨ a = .tag ∧ Concerns .tag l)
  | [], p, i, h => by simp [measuringFrom] at h
  | v :: vs, p, i, h => by
    rw [measuringFrom] at h
    rw [leavesFrom]
    rcases List.mem_append.1 h with h | h
    · obtain ⟨l, h1, h2⟩ := measuring_mem v _ h
      exact ⟨l, List.mem_append_left _ h1, h2⟩
    · obtain ⟨l, h1, h2⟩ := measuringFrom_mem vs p _ h
      exact ⟨l, List.mem_append_right _ h1, h2⟩
end

mutual
theorem measuring_count : (v : Val) → (p : Path) →
    (measuring v p).count .measure = caseCount v ∧ (measuring v p).count .encode = 0
  | .unit, p => by simp [measuring, caseCount]
  | .prim v, p => by simp [measuring, caseCount]
  | .str bs, p => by simp [measuring, caseCount]
  | .seq vs, p => by rw [measuring, caseCount]; exact measuringFrom_count vs p 0
  | .case i v, p => by
    obtain ⟨h1, h2⟩ := measuring_count v (p ++ [i])
    simp [measuring, caseCount, h1, h2]
    omega
theorem measuringFrom_count : (vs : List Val) → (p : Path) → (i : Nat) →
    (measuringFrom vs p i).count .measure = caseCountL vs ∧ (measuringFrom vs p i).count .encode = 0
  | [], p, i => by simp [measuringFrom, caseCountL]
  | v :: vs, p, i => by
    obtain ⟨h1, h2⟩ := measuring_count v (p ++ [i])
    obtain ⟨h3, h4⟩ := measuringFrom_count vs p (i + 1)
    simp [measuringFrom, caseCountL, List.count_append, h1, h2, h3, h4]
end

mutual
theorem encoding_count : (k : Nat) → (v : Val) → (p : Path) →
    (encoding k v p).count .encode = caseCount v ∧ (encoding k v p).count .measure = casePairs k v
  | k, .unit, p => by simp [encoding, caseCount, casePairs]
  | k, .prim v, p => by simp [encoding, caseCount, casePairs]
  | k, .str bs, p => by simp [encoding, caseCount, casePairs, List.count_replicate]
  | k, .seq vs, p => by rw [encoding, caseCount, casePairs]; exact encodingFrom_count k vs p 0
  | k, .case i v, p => by
    obtain ⟨h1, h2⟩ := encoding_count (k + 1) v (p ++ [i])
    simp [encoding, caseCount, casePairs, List.count_append, List.count_replicate, h1, h2]
    omega
theorem encodingFrom_count : (k : Nat) → (vs : List Val) → (p : Path) → (i : Nat) →
    (encodingFrom k vs p i).count .encode = caseCountL vs ∧
      (encodingFrom k vs p i).count .measure = casePairsL k vs
  | k, [], p, i => by simp [encodingFrom, caseCountL, casePairsL]
  | k, v :: vs, p, i => by
    obtain ⟨h1, h2⟩ := encoding_count k v (p ++ [i])
    obtain ⟨h3, h4⟩ := encodingFrom_count k vs p (i + 1)
    simp [encodingFrom, caseCountL, casePairsL, List.count_append, h1, h2, h3, h4]
end

mutual
theorem casePairs_le : (k : Nat) → (v : Val) →
    casePairs k v ≤ caseCount v * (k + caseDepth v) ∧ caseCount v ≤ casePairs k v
  | k, .unit => by simp [caseCount, casePairs]
  | k, .prim v => by simp [caseCount, casePairs]
  | k, .str bs => by simp [caseCount, casePairs]
  | k, .seq vs => by rw [caseCount, casePairs, caseDepth]; exact casePairsL_le k vs
  | k, .case i v => by
    obtain ⟨h1, h2⟩ := casePairs_le (k + 1) v
    rw [caseCount, casePairs, caseDepth, Nat.add_mul, Nat.one_mul]
    rw [show k + (1 + caseDepth v) = k + 1 + caseDepth v by omega]
    omega
theorem casePairsL_le : (k : Nat) → (vs : List Val) →
    casePairsL k vs ≤ caseCountL vs * (k + caseDepthL vs) ∧ caseCountL vs ≤ casePairsL k vs
  | k, [] => by simp [caseCountL, casePairsL]
  | k, v :: vs => by
    obtain ⟨h1, h2⟩ := casePairs_le k v
    obtain ⟨h3, h4⟩ := casePairsL_le k vs
    rw [caseCountL, casePairsL, caseDepthL, Nat.add_mul]
    have e1 : caseCount v * (k + caseDepth v) ≤ caseCount v * (k + max (caseDepth v) (caseDepthL vs)) :=
      Nat.mul_le_mul_left _ (by omega)
    have e2 : caseCountL vs * (k + caseDepthL vs) ≤ caseCountL vs * (k + max (caseDepth v) (caseDepthL vs)) :=
      Nat.mul_le_mul_left _ (by omega)
    omega
end

theorem _root_.Verif.Spec.AsksFor.all {α : Type} {x : Traced α} {vs : List Visit} (h : AsksFor x vs)
    {a : α} (ha : x.result = .ok a) :
    x.visits.Perm vs := by
  obtain ⟨rest, h1, h2⟩ := h
  rw [h2 a ha, List.append_nil] at h1
  exact h1

theorem _root_.Verif.Spec.AsksFor.mem {α : Type} {x : Traced α} {vs : List Visit} (h : AsksFor x vs)
    {v : Visit} (hv : v ∈ x.visits) :
    v ∈ vs := by
  obtain ⟨rest, h1, h2⟩ := h
  exact h1.mem_iff.1 (List.mem_append_left _ hv)

end Verif
