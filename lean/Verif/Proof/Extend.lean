import Verif.Proof.Readable

/-! # Reading more bytes than there were: what was read before is read again -/

namespace Verif

/-- What the first computation returns, the second returns as well. -/
def Kept (r : α → β → Prop) (x : Res α) (y : Res β) : Prop := ∀ a, x = .ok a → ∃ b, y = .ok b ∧ r a b

namespace Kept

theorem refl (x : Res α) : Kept Eq x x := fun a h => ⟨a, h, rfl⟩

theorem error {r : α → β → Prop} {e : Fault} {y : Res β} : Kept r (.error e) y := fun _ h => nomatch h

theorem pure {r : α → β → Prop} {a : α} {b : β} (h : r a b) : Kept r (Except.ok a) (Except.ok b) := by
  intro a' e
  cases e
  exact ⟨b, rfl, h⟩

theorem bind {r : α → β → Prop} {s : γ → δ → Prop} {x : Res α} {y : Res β} {f : α → Res γ} {g : β → Res δ}
    (hx : Kept r x y) (hf : ∀ a b, r a b → Kept s (f a) (g b)) : Kept s (x >>= f) (y >>= g) := by
  intro c hc
  cases hxa : x with
  | error e => rw [hxa] at hc; exact nomatch hc
  | ok a =>
    rw [hxa] at hc
    obtain ⟨b, hb, hr⟩ := hx a hxa
    obtain ⟨d, hd, hs⟩ := hf a b hr c hc
    exact ⟨d, by rw [hb]; exact hd, hs⟩

theorem same {s : γ → δ → Prop} {x : Res α} {f : α → Res γ} {g : α → Res δ} (hf : ∀ a, Kept s (f a) (g a)) :
    Kept s (x >>= f) (x >>= g) := (refl x).bind fun a _ h => h ▸ hf a

theorem eq {x y : Res α} (h : Kept Eq x y) {a : α} (hx : x = .ok a) : y = .ok a := by
  obtain ⟨b, hb, rfl⟩ := h a hx
  exact hb

end Kept

variable (chk : Bool) (z : Bytes)

theorem slice_extend {data : Bytes} {o n : Nat} (h : o + n ≤ data.length) : slice (data ++ z) o n = slice data o n := by
  unfold slice
  rw [List.drop_append_of_le_length (by omega), List.take_append_of_le_length (by rw [List.length_drop]; omega)]

theorem readRaw_extend (n o : Nat) (data : Bytes) : Kept Eq (readRaw n data o) (readRaw n (data ++ z) o) := by
  intro a h
  unfold readRaw at h ⊢
  split at h
  · exact nomatch h
  · split at h
    · exact nomatch h
    · rw [if_neg (by rw [List.length_append]; omega), if_neg (by rw [List.length_append]; omega),
        slice_extend z (by omega)]
      exact ⟨a, h, rfl⟩

theorem readTag_extend (f : FixedField) (data : Bytes) : Kept Eq (readTag chk f data) (readTag chk f (data ++ z)) := by
  unfold readTag
  split
  · split
    · exact (readRaw_extend z _ _ _).bind fun a b h => h ▸ .refl _
    · exact .error
  · exact .error

theorem inside_extend (o : Nat) (data : Bytes) :
    Kept (fun _ _ => o ≤ data.length) (assert (decide (o ≤ data.length)))
      (assert (decide (o ≤ (data ++ z).length))) := by
  intro a h
  by_cases hd : o ≤ data.length
  · refine ⟨(), ?_, hd⟩
    have : o ≤ (data ++ z).length := by rw [List.length_append]; omega
    simp only [assert, this, decide_true, if_true]
  · simp only [assert, hd, decide_false] at h
    exact nomatch h

mutual
theorem encodingSize_extend : ∀ (l : Layout) (data : Bytes),
    Kept Eq (l.encodingSize chk data) (l.encodingSize chk (data ++ z))
  | .mk al vo _ fixed vars, data => by
    unfold Layout.encodingSize
    exact (varsEnd_extend fixed data vars vo).bind fun a b h => h ▸ .refl _
theorem varsEnd_extend (fixed : List FixedField) (data : Bytes) : ∀ (vs : List VarField) (o : Nat),
    Kept Eq (varsEnd chk fixed data vs o) (varsEnd chk fixed (data ++ z) vs o)
  | [], o => by unfold varsEnd; exact .refl _
  | v :: vs, o => by
    unfold varsEnd
    exact (varEnd_extend fixed data v o).bind fun a b h => h ▸ varsEnd_extend fixed data vs a
theorem varEnd_extend (fixed : List FixedField) (data : Bytes) : ∀ (v : VarField) (o : Nat),
    Kept Eq (varEnd chk fixed data v o) (varEnd chk fixed (data ++ z) v o)
  | .string _ fi, o => by
    unfold varEnd
    exact .same fun f => (readRaw_extend z _ _ _).bind fun a b h => h ▸ .refl _
  | .enum _ fi cases, o => by
    unfold varEnd
    refine .same fun f => (readTag_extend chk z _ _).bind fun tag _ h => h ▸ (inside_extend z o data).bind
      fun _ _ ho => ?_
    rw [List.drop_append_of_le_length ho]
    exact (caseSize_extend cases tag _).bind fun a b h => h ▸ .refl _
theorem caseSize_extend : ∀ (ls : List Layout) (i : Nat) (data : Bytes),
    Kept Eq (caseSize chk ls i data) (caseSize chk ls i (data ++ z))
  | [], _, _ => by unfold caseSize; exact .refl _
  | l :: _, 0, data => by unfold caseSize; exact encodingSize_extend l data
  | _ :: ls, i + 1, data => by unfold caseSize; exact caseSize_extend ls i data
end

theorem variableFieldOffset_extend (l : Layout) (i : Nat) (data : Bytes) :
    Kept Eq (l.variableFieldOffset chk i data) (l.variableFieldOffset chk i (data ++ z)) :=
  .same fun _ => varsEnd_extend chk z _ _ _ _

/-- The same place, with more bytes behind it. -/
def Further (z : Bytes) (a b : Located) : Prop := b = ⟨a.layout, a.data ++ z, a.index⟩

mutual
theorem locate_extend (path : Path) : ∀ (l : Layout) (data : Bytes),
    Kept (Further z) (l.locate chk path data) (l.locate chk path (data ++ z))
  | .mk al vo indices fixed vars, data => by
    unfold Layout.locate
    split
    · exact .same fun x => .pure rfl
    · split
      · exact .error
      · split
        · refine .same fun tag => (variableFieldOffset_extend chk z _ _ _).bind fun o _ h => h ▸
            (inside_extend z o data).bind fun _ _ ho => ?_
          rw [List.drop_append_of_le_length ho]
          exact locateVars_extend path vars _ tag _
        · exact .error
theorem locateVars_extend (path : Path) : ∀ (vs : List VarField) (i tag : Nat) (data : Bytes),
    Kept (Further z) (locateVars chk path vs i tag data) (locateVars chk path vs i tag (data ++ z))
  | [], _, _, _ => by unfold locateVars; exact .error
  | v :: _, 0, tag, data => by unfold locateVars; exact locateVar_extend path v tag data
  | _ :: vs, i + 1, tag, data => by unfold locateVars; exact locateVars_extend path vs i tag data
theorem locateVar_extend (path : Path) : ∀ (v : VarField) (tag : Nat) (data : Bytes),
    Kept (Further z) (locateVar chk path v tag data) (locateVar chk path v tag (data ++ z))
  | .string .., _, _ => by unfold locateVar; exact .error
  | .enum _ _ cases, tag, data => by unfold locateVar; exact locateCase_extend path cases tag data
theorem locateCase_extend (path : Path) : ∀ (ls : List Layout) (i : Nat) (data : Bytes),
    Kept (Further z) (locateCase chk path ls i data) (locateCase chk path ls i (data ++ z))
  | [], _, _ => by unfold locateCase; exact .error
  | l :: _, 0, data => by unfold locateCase; exact locate_extend path l data
  | _ :: ls, i + 1, data => by unfold locateCase; exact locateCase_extend path ls i data
end

theorem getPrimitive_extend (l : Layout) (data : Bytes) (p : Prim) (path : Path) :
    Kept Eq (l.getPrimitive chk data p path) (l.getPrimitive chk (data ++ z) p path) := by
  unfold Layout.getPrimitive
  refine (locate_extend chk z path l data).bind fun w _ h => h ▸ .same fun f => ?_
  split
  · exact .same fun _ => (readRaw_extend z _ _ _).bind fun a b h => h ▸ .refl _
  · exact .error

theorem storedAt_extend (l : Layout) (data : Bytes) (p : Prim) (path : Path) :
    Kept Eq (l.storedAt chk data p path) (l.storedAt chk (data ++ z) p path) := by
  unfold Layout.storedAt
  refine (locate_extend chk z path l data).bind fun w _ h => h ▸ .same fun f => ?_
  split
  · exact .same fun _ => readRaw_extend z _ _ _
  · exact .error

theorem getBytes_extend (l : Layout) (data : Bytes) (path : Path) :
    Kept Eq (l.getBytes chk data path) (l.getBytes chk (data ++ z) path) := by
  unfold Layout.getBytes
  refine (locate_extend chk z path l data).bind fun w _ h => h ▸ .same fun f =>
    (variableFieldOffset_extend chk z _ _ _).bind fun o _ h => h ▸ ?_
  split
  · refine (readRaw_extend z _ _ _).bind fun n _ h => h ▸ ?_
    dsimp only
    split
    · refine (inside_extend z o _).bind fun _ _ ho => ?_
      split
      · exact .error
      · rw [if_neg (by rw [List.length_append]; omega), slice_extend z (by omega)]
        exact .refl _
    · exact .error
  · exact .error

theorem getCaseTag_extend (l : Layout) (data : Bytes) (path : Path) :
    Kept Eq (l.getCaseTag chk data path) (l.getCaseTag chk (data ++ z) path) := by
  unfold Layout.getCaseTag
  exact (locate_extend chk z path l data).bind fun w _ h => h ▸ .same fun f => readTag_extend chk z f _

theorem getLength_extend (l : Layout) (data : Bytes) (path : Path) :
    Kept Eq (l.getLength chk data path) (l.getLength chk (data ++ z) path) := by
  unfold Layout.getLength
  refine (locate_extend chk z path l data).bind fun w _ h => h ▸ .same fun f => ?_
  split
  · exact readRaw_extend z _ _ _
  · exact .error

open Spec

/-- Parts with known tags are parts for every source that knows these tags. -/
theorem part_kept {s s' : DataSource} {t u : Ty} {p q : Path} (h : Part s t p q u)
    (hs : ∀ q i, s.tag q = .ok i → s'.tag q = .ok i) : Part s' t p q u := by
  induction h with
  | here t p => exact .here t p
  | tuple hc _ ih => exact .tuple hc ih
  | struct hc _ ih => exact .struct hc ih
  | enum ht hc _ ih => exact .enum (hs _ _ ht) hc ih

/-- Parts for a source that knows more tags are parts for the first if it knows all tags it is asked for. -/
theorem part_known {s s' : DataSource} {t u : Ty} {p q : Path} (h : Part s' t p q u)
    (hs : ∀ q i, s.tag q = .ok i → s'.tag q = .ok i)
    (hk : ∀ q cs, Part s t p q (.enum cs) → ∃ i, s.tag q = .ok i) : Part s t p q u := by
  induction h with
  | here t p => exact .here t p
  | tuple hc _ ih => exact .tuple hc (ih fun q cs h => hk q cs (.tuple hc h))
  | struct hc _ ih => exact .struct hc (ih fun q cs h => hk q cs (.struct hc h))
  | enum ht hc _ ih =>
    obtain ⟨j, hj⟩ := hk _ _ (.here _ _)
    have := hs _ _ hj
    rw [ht] at this
    cases this
    exact .enum hj hc (ih fun q cs h => hk q cs (.enum hj hc h))

end Verif
