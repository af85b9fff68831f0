import Verif.Proof.Layout2
import Verif.Spec.Value

/-! # The slots of a type, and layouts of all well-formed types -/

namespace Verif

open Spec

/-- Induction over types. -/
theorem Ty.ind {P : Ty → Prop} (unit : P .unit) (prim : ∀ p, P (.prim p)) (string : P .string)
    (tuple : ∀ cs, (∀ c ∈ cs, P c) → P (.tuple cs))
    (struct : ∀ fs, (∀ f ∈ fs, P f.2) → P (.struct fs))
    (enum : ∀ cs, (∀ c ∈ cs, P c.2) → P (.enum cs)) : ∀ t, P t
  | .unit => unit
  | .prim p => prim p
  | .string => string
  | .tuple cs => tuple cs (fun c hc =>
      have : sizeOf c < 1 + sizeOf cs := by have := List.sizeOf_lt_of_mem hc; omega
      Ty.ind unit prim string tuple struct enum c)
  | .struct fs => struct fs (fun f hf =>
      have : sizeOf f.2 < 1 + sizeOf fs := by
        have := List.sizeOf_lt_of_mem hf
        have h2 : sizeOf f = 1 + sizeOf f.1 + sizeOf f.2 := rfl
        omega
      Ty.ind unit prim string tuple struct enum f.2)
  | .enum cs => enum cs (fun f hf =>
      have : sizeOf f.2 < 1 + sizeOf cs := by
        have := List.sizeOf_lt_of_mem hf
        have h2 : sizeOf f = 1 + sizeOf f.1 + sizeOf f.2 := rfl
        omega
      Ty.ind unit prim string tuple struct enum f.2)

/-- What one path of a layout holds. -/
inductive Slot where
  | prim (p : Prim)
  | str
  | enum (cs : List (Str × Ty))

def Slot.ty : Slot → Ty
  | .prim p => .prim p
  | .str => .string
  | .enum cs => .enum cs

mutual
/-- The paths one layout of the type holds: everything outside enum cases. -/
def slots : Ty → Path → List (Path × Slot)
  | .unit, _ => []
  | .prim p, q => [(q, .prim p)]
  | .string, q => [(q, .str)]
  | .tuple cs, q => slotsL cs q 0
  | .struct fs, q => slotsF fs q 0
  | .enum cs, q => [(q, .enum cs)]
def slotsL : List Ty → Path → Nat → List (Path × Slot)
  | [], _, _ => []
  | c :: cs, q, i => slots c (q ++ [i]) ++ slotsL cs q (i + 1)
def slotsF : List (Str × Ty) → Path → Nat → List (Path × Slot)
  | [], _, _ => []
  | f :: fs, q, i => slotsP f (q ++ [i]) ++ slotsF fs q (i + 1)
def slotsP : Str × Ty → Path → List (Path × Slot)
  | (_, t), q => slots t q
end

theorem slotsP_eq (f : Str × Ty) (q : Path) : slotsP f q = slots f.2 q := by
  obtain ⟨a, b⟩ := f; rw [slotsP]

theorem slotsF_eq (fs : List (Str × Ty)) (q : Path) (i : Nat) :
    slotsF fs q i = slotsL (fs.map (·.2)) q i := by
  induction fs generalizing i with
  | nil => simp [slotsF, slotsL]
  | cons f fs ih => simp [slotsF, slotsL, slotsP_eq, ih]

theorem mem_slotsL {cs : List Ty} {q : Path} {i : Nat} {x : Path × Slot} (h : x ∈ slotsL cs q i) :
    ∃ k c, cs[k]? = some c ∧ x ∈ slots c (q ++ [i + k]) := by
  induction cs generalizing i with
  | nil => simp [slotsL] at h
  | cons c cs ih =>
    rw [slotsL] at h
    rcases List.mem_append.1 h with h | h
    · exact ⟨0, c, rfl, h⟩
    · obtain ⟨k, d, h1, h2⟩ := ih h
      exact ⟨k + 1, d, by simpa using h1, by rw [show i + (k + 1) = i + 1 + k by omega]; exact h2⟩

theorem mem_slotsL_iff {cs : List Ty} {q : Path} {i : Nat} {x : Path × Slot} : x ∈ slotsL cs q i ↔
    ∃ k c, cs[k]? = some c ∧ x ∈ slots c (q ++ [i + k]) := by
  refine ⟨mem_slotsL, ?_⟩
  induction cs generalizing i with
  | nil => simp
  | cons c cs ih =>
    rintro ⟨k, d, h1, h2⟩
    rw [slotsL, List.mem_append]
    cases k with
    | zero => simp at h1; subst h1; exact Or.inl h2
    | succ k =>
      right
      exact ih ⟨k, d, by simpa using h1, by rw [show i + 1 + k = i + (k + 1) by omega]; exact h2⟩

/-- All slot paths extend the path of the type. -/
theorem slots_prefix (t : Ty) : ∀ (q : Path) (x : Path × Slot), x ∈ slots t q → ∃ r, x.1 = q ++ r := by
  have list : ∀ cs : List Ty, (∀ c ∈ cs, ∀ (q : Path) (x : Path × Slot), x ∈ slots c q → ∃ r, x.1 = q ++ r) →
      ∀ (q : Path) (x : Path × Slot), x ∈ slotsL cs q 0 → ∃ r, x.1 = q ++ r := by
    intro cs ih q x hx
    obtain ⟨k, c, h1, h2⟩ := mem_slotsL hx
    obtain ⟨r, hr⟩ := ih c (List.mem_of_getElem? h1) _ _ h2
    exact ⟨_, by rw [hr, List.append_assoc]⟩
  induction t using Ty.ind with
  | unit => simp [slots]
  | prim p => intro q x hx; simp [slots] at hx; exact ⟨[], by simp [hx]⟩
  | string => intro q x hx; simp [slots] at hx; exact ⟨[], by simp [hx]⟩
  | tuple cs ih => intro q x hx; rw [slots] at hx; exact list cs ih q x hx
  | struct fs ih =>
    intro q x hx
    rw [slots, slotsF_eq] at hx
    exact list _ (by simpa using fun b a hb => ih (a, b) hb) q x hx
  | enum cs ih => intro q x hx; simp [slots] at hx; exact ⟨[], by simp [hx]⟩

/-- Neither path extends the other. -/
def Apart (a b : Path) : Prop := ¬ a <+: b ∧ ¬ b <+: a

theorem apart_of_index {q : Path} {i j : Nat} (h : i ≠ j) (r s : Path) :
    Apart (q ++ [i] ++ r) (q ++ [j] ++ s) := by
  constructor <;> intro hp <;> rw [List.append_assoc, List.append_assoc, List.prefix_append_right_inj] at hp <;>
    · simp at hp; omega

theorem slots_apart (t : Ty) : ∀ q : Path, (slots t q).Pairwise (fun x y => Apart x.1 y.1) := by
  have list : ∀ cs : List Ty, (∀ c ∈ cs, ∀ q : Path, (slots c q).Pairwise (fun x y => Apart x.1 y.1)) →
      ∀ (q : Path) (i : Nat), (slotsL cs q i).Pairwise (fun x y => Apart x.1 y.1) := by
    intro cs
    induction cs with
    | nil => intro _ q i; simp [slotsL]
    | cons c cs ih =>
      intro h q i
      rw [slotsL, List.pairwise_append]
      refine ⟨h c (by simp) _, ih (fun d hd => h d (by simp [hd])) _ _, ?_⟩
      intro x hx y hy
      obtain ⟨k, d, h1, h2⟩ := mem_slotsL hy
      obtain ⟨r, hr⟩ := slots_prefix _ _ _ hx
      obtain ⟨s, hs⟩ := slots_prefix _ _ _ h2
      rw [hr, hs]
      exact apart_of_index (by omega) _ _
  induction t using Ty.ind with
  | unit => simp [slots]
  | prim p => simp [slots]
  | string => simp [slots]
  | tuple cs ih => intro q; rw [slots]; exact list cs ih q 0
  | struct fs ih =>
    intro q
    rw [slots, slotsF_eq]
    exact list _ (by simpa using fun b a hb => ih (a, b) hb) q 0
  | enum cs ih => simp [slots]

theorem slots_nodup (t : Ty) (q : Path) : ((slots t q).map (·.1)).Nodup := by
  rw [List.Nodup, List.pairwise_map]
  refine (slots_apart t q).imp ?_
  intro x y h e
  exact h.1 (e ▸ List.prefix_refl _)

theorem slots_length (t : Ty) : ∀ q : Path, (slots t q).length ≤ nodes t := by
  have list : ∀ cs : List Ty, (∀ c ∈ cs, ∀ q : Path, (slots c q).length ≤ nodes c) →
      ∀ (q : Path) (i : Nat), (slotsL cs q i).length ≤ nodes.nodesL cs := by
    intro cs
    induction cs with
    | nil => intro _ q i; simp [slotsL]
    | cons c cs ih =>
      intro h q i
      rw [slotsL, List.length_append, nodes.nodesL]
      exact Nat.add_le_add (h c (by simp) _) (ih (fun d hd => h d (by simp [hd])) _ _)
  have conv : ∀ fs : List (Str × Ty), nodes.nodesF fs = nodes.nodesL (fs.map (·.2)) := by
    intro fs
    induction fs with
    | nil => rfl
    | cons f fs ih =>
      obtain ⟨a, b⟩ := f
      rw [nodes.nodesF, nodes.nodesP, ih]; rfl
  induction t using Ty.ind with
  | unit => simp [slots]
  | prim p => simp [slots, nodes]
  | string => simp [slots, nodes]
  | tuple cs ih => intro q; rw [slots, nodes]; have := list cs ih q 0; omega
  | struct fs ih =>
    intro q
    rw [slots, slotsF_eq, nodes, conv]
    have := list (fs.map (·.2)) (by simpa using fun b a hb => ih (a, b) hb) q 0
    omega
  | enum cs ih => intro q; simp [slots, nodes]

theorem nodes_mem_tuple {cs : List Ty} {c : Ty} (h : c ∈ cs) : nodes c < nodes (.tuple cs) := by
  rw [nodes]
  suffices nodes c ≤ nodes.nodesL cs by omega
  induction cs with
  | nil => simp at h
  | cons d cs ih =>
    rw [nodes.nodesL]
    rcases List.mem_cons.1 h with rfl | h
    · omega
    · have := ih h; omega

theorem nodes_pos (t : Ty) : 0 < nodes t := by cases t <;> simp [nodes] <;> omega

theorem nodesF_mem {fs : List (Str × Ty)} {f : Str × Ty} (h : f ∈ fs) : nodes f.2 ≤ nodes.nodesF fs := by
  induction fs with
  | nil => simp at h
  | cons d fs ih =>
    rw [nodes.nodesF]
    rcases List.mem_cons.1 h with rfl | h
    · obtain ⟨a, b⟩ := f; rw [nodes.nodesP]; exact Nat.le_add_right _ _
    · have := ih h; omega

theorem nodesF_length (fs : List (Str × Ty)) : fs.length ≤ nodes.nodesF fs := by
  induction fs with
  | nil => simp
  | cons d fs ih =>
    obtain ⟨a, b⟩ := d
    rw [nodes.nodesF, nodes.nodesP, List.length_cons]
    have := nodes_pos b; omega

/-! ## The unrolled type -/

def Slot.fixed : Path × Slot → Option FixedField
  | (q, .prim p) => some ⟨q, .prim p, 0⟩
  | (q, .str) => some ⟨q, .length, 0⟩
  | (_, .enum _) => none

def Slot.bits : Path × Slot → Option Bitfield
  | (q, .enum cs) => some ⟨q, 0, requiredBits (cs.length - 1), 0⟩
  | _ => none

/-- The layouts of the cases of an enum at path `q`. -/
def layouts (chk : Bool) (cs : List (Str × Ty)) (q : Path) : List Layout :=
  match caseLayouts chk cs q 0 with
  | .ok ls => ls
  | .error _ => []

def Slot.var (chk : Bool) : Path × Slot → Option VarField
  | (q, .str) => some (.string q 0)
  | (q, .enum cs) => some (.enum q 0 (layouts chk cs q))
  | (_, .prim _) => none

/-- The vectors `unroll_type` makes from slots. -/
def unrolled (chk : Bool) (xs : List (Path × Slot)) : Unrolled :=
  ⟨xs.filterMap Slot.fixed, xs.filterMap Slot.bits, xs.filterMap (Slot.var chk)⟩

theorem unrolled_append (chk : Bool) (xs ys : List (Path × Slot)) :
    unrolled chk (xs ++ ys) = (unrolled chk xs).append (unrolled chk ys) := by
  simp [unrolled, Unrolled.append]

theorem unrollField_eq (chk : Bool) (f : Str × Ty) (q : Path) :
    unrollField chk f q = unrollType chk f.2 q := by obtain ⟨a, b⟩ := f; rw [unrollField]

theorem caseLayout_eq (chk : Bool) (f : Str × Ty) (q : Path) :
    caseLayout chk f q = calculateLayout chk f.2 q := by
  obtain ⟨a, b⟩ := f; rw [caseLayout]; rfl

theorem unrollStruct_eq (chk : Bool) (fs : List (Str × Ty)) (q : Path) (i : Nat) :
    unrollStruct chk fs q i = unrollTuple chk (fs.map (·.2)) q i := by
  induction fs generalizing i with
  | nil => simp [unrollStruct, unrollTuple]
  | cons f fs ih => simp [unrollStruct, unrollTuple, unrollField_eq, ih]

theorem caseLayouts_ok {chk : Bool} {cs : List (Str × Ty)} {q : Path} {i : Nat} {P : Nat → Layout → Prop}
    (h : ∀ (k : Nat) (c : Str × Ty), cs[k]? = some c → ∃ l, calculateLayout chk c.2 (q ++ [i + k]) = .ok l ∧ P (i + k) l) :
    ∃ ls, caseLayouts chk cs q i = .ok ls ∧ ls.length = cs.length ∧
      ∀ (k : Nat) (c : Str × Ty), cs[k]? = some c → ∃ l, ls[k]? = some l ∧
        calculateLayout chk c.2 (q ++ [i + k]) = .ok l ∧ P (i + k) l := by
  induction cs generalizing i with
  | nil => exact ⟨[], by rw [caseLayouts], rfl, by simp⟩
  | cons c cs ih =>
    obtain ⟨l, h1, h2⟩ := h 0 c rfl
    obtain ⟨ls, h3, h4, h5⟩ := ih (i := i + 1) (by
      intro k d hd
      have := h (k + 1) d (by simpa using hd)
      rw [show i + 1 + k = i + (k + 1) by omega]; exact this)
    refine ⟨l :: ls, ?_, by simp [h4], ?_⟩
    · rw [caseLayouts, caseLayout_eq]
      simp only [Path.withComponent]
      rw [Nat.add_zero] at h1
      rw [h1, Res.bind_ok, h3]; rfl
    · intro k d hd
      cases k with
      | zero => simp at hd; subst hd; exact ⟨l, rfl, h1, h2⟩
      | succ k =>
        obtain ⟨l', a, b⟩ := h5 k d (by simpa using hd)
        rw [show i + 1 + k = i + (k + 1) by omega] at b
        exact ⟨l', by simpa using a, b⟩

theorem requiredBits_le (n : Nat) : requiredBits n ≤ 64 := by
  unfold requiredBits; split <;> omega

/-- The facts a layout of type `t` at path `q` satisfies. -/
def TyFacts (chk : Bool) (t : Ty) (q : Path) (l : Layout) : Prop :=
  LayoutFacts ((slots t q).filterMap Slot.fixed) ((slots t q).filterMap Slot.bits)
    ((slots t q).filterMap (Slot.var chk)) l

theorem paths_perm (xs : List (Path × Slot)) :
    ((xs.filterMap Slot.fixed).map (·.path) ++ (xs.filterMap Slot.bits).map (·.path)).Perm
      (xs.map (·.1)) := by
  induction xs with
  | nil => exact .refl _
  | cons x xs ih =>
    obtain ⟨q, s⟩ := x
    cases s with
    | prim p => 
      rw [List.filterMap_cons_none (f := Slot.bits) rfl, List.filterMap_cons_some (f := Slot.fixed) rfl]
      simpa using ih
    | str => 
      rw [List.filterMap_cons_none (f := Slot.bits) rfl, List.filterMap_cons_some (f := Slot.fixed) rfl]
      simpa using ih
    | enum cs =>
      simp only [List.filterMap_cons, Slot.fixed, Slot.bits, List.map_cons]
      exact List.perm_middle.trans (.cons _ ih)

theorem vars_sublist (chk : Bool) (xs : List (Path × Slot)) :
    ((xs.filterMap (Slot.var chk)).map (·.path)).Sublist (xs.map (·.1)) := by
  induction xs with
  | nil => exact .slnil
  | cons x xs ih =>
    obtain ⟨q, s⟩ := x
    cases s with
    | prim p => 
      rw [List.filterMap_cons_none (f := Slot.var chk) rfl]
      exact ih.cons q
    | str => simpa [Slot.var, VarField.path] using ih
    | enum cs => simpa [Slot.var, VarField.path] using ih

theorem foldl_max_pow (ls : List Layout) (a : Nat) (ha : SmallPow a)
    (h : ∀ l ∈ ls, SmallPow l.alignment) : SmallPow (ls.foldl (fun m l => max m l.alignment) a) := by
  induction ls generalizing a with
  | nil => exact ha
  | cons l ls ih =>
    rw [List.foldl_cons]
    exact ih _ (ha.max (h l (by simp))) (fun x hx => h x (by simp [hx]))

theorem foldl_max_le (ls : List Layout) (a : Nat) :
    a ≤ ls.foldl (fun m l => max m l.alignment) a ∧
    ∀ l ∈ ls, l.alignment ≤ ls.foldl (fun m l => max m l.alignment) a := by
  induction ls generalizing a with
  | nil => simp
  | cons l ls ih =>
    rw [List.foldl_cons]
    have h1 := (ih (max a l.alignment)).1
    refine ⟨by omega, ?_⟩
    intro x hx
    rcases List.mem_cons.1 hx with rfl | hx
    · omega
    · exact (ih _).2 x hx

theorem unroll_and_layout (chk : Bool) (t : Ty) : Inhab t → nodes t < 2 ^ 59 → ∀ q : Path,
    unrollType chk t q = .ok (unrolled chk (slots t q)) ∧
    (∀ r cs, (r, Slot.enum cs) ∈ slots t q → caseLayouts chk cs r 0 = .ok (layouts chk cs r) ∧
      (layouts chk cs r).length = cs.length ∧
      ∀ (k : Nat) (c : Str × Ty), cs[k]? = some c → ∃ l, (layouts chk cs r)[k]? = some l ∧
        calculateLayout chk c.2 (r ++ [k]) = .ok l ∧ TyFacts chk c.2 (r ++ [k]) l) ∧
    ∃ l, calculateLayout chk t q = .ok l ∧ TyFacts chk t q l := by
  -- a layout from the unrolled type
  have finish : ∀ (t : Ty) (q : Path), nodes t < 2 ^ 59 →
      unrollType chk t q = .ok (unrolled chk (slots t q)) →
      (∀ r cs, (r, Slot.enum cs) ∈ slots t q → caseLayouts chk cs r 0 = .ok (layouts chk cs r) ∧
        (layouts chk cs r).length = cs.length ∧
        ∀ (k : Nat) (c : Str × Ty), cs[k]? = some c → ∃ l, (layouts chk cs r)[k]? = some l ∧
          calculateLayout chk c.2 (r ++ [k]) = .ok l ∧ TyFacts chk c.2 (r ++ [k]) l) →
      ∃ l, calculateLayout chk t q = .ok l ∧ TyFacts chk t q l := by
    intro t q hn hu hc
    have hnd := slots_nodup t q
    have hlen := slots_length t q
    have hpp := paths_perm (slots t q)
    have hle : ((slots t q).filterMap Slot.fixed).length + ((slots t q).filterMap Slot.bits).length ≤
        (slots t q).length := by
      have := hpp.length_eq
      simp only [List.length_append, List.length_map] at this
      omega
    obtain ⟨l, h1, h2⟩ := finishLayout_ok chk ((slots t q).filterMap Slot.fixed)
      ((slots t q).filterMap Slot.bits) ((slots t q).filterMap (Slot.var chk))
      (by
        intro f hf
        obtain ⟨⟨r, s⟩, _, he⟩ := List.mem_filterMap.1 hf
        cases s with
        | prim p => simp [Slot.fixed] at he; exact Or.inl ⟨p, by rw [← he]⟩
        | str => simp [Slot.fixed] at he; exact Or.inr (by rw [← he])
        | enum cs => simp [Slot.fixed] at he)
      (by
        intro b hb
        obtain ⟨⟨r, s⟩, _, he⟩ := List.mem_filterMap.1 hb
        cases s with
        | prim p => simp [Slot.bits] at he
        | str => simp [Slot.bits] at he
        | enum cs => simp [Slot.bits] at he; rw [← he]; exact requiredBits_le _)
      (by
        intro v hv
        obtain ⟨⟨r, s⟩, hm, he⟩ := List.mem_filterMap.1 hv
        cases s with
        | prim p => simp [Slot.var] at he
        | str => simp [Slot.var] at he; rw [← he]; exact Or.inl rfl
        | enum cs =>
          simp [Slot.var] at he
          rw [← he]
          obtain ⟨_, hl, hcs⟩ := hc r cs hm
          have hall : ∀ x ∈ layouts chk cs r, SmallPow x.alignment := by
            intro x hx
            obtain ⟨k, hk⟩ := List.getElem?_of_mem hx
            have hkl := (List.getElem?_eq_some_iff.1 hk).1
            obtain ⟨y, hy, _, hf⟩ := hcs k _ (List.getElem?_eq_getElem (by omega))
            rw [hk] at hy; cases hy
            exact hf.al
          cases hls : layouts chk cs r with
          | nil => exact Or.inl rfl
          | cons x xs =>
            rw [hls] at hall
            exact foldl_max_pow xs _ (hall x (by simp)) (fun y hy => hall y (by simp [hy])))
      (hpp.nodup_iff.2 hnd)
      (by
        intro v hv
        apply hpp.mem_iff.2
        exact (vars_sublist chk _).subset (List.mem_map_of_mem hv))
      ((vars_sublist chk _).nodup hnd)
      (by omega)
    refine ⟨l, ?_, h2⟩
    rw [calculateLayout, hu]
    exact h1
  -- tuples and structs
  have list : ∀ cs : List Ty, (∀ c ∈ cs, Inhab c → nodes c < 2 ^ 59 → ∀ q : Path,
      unrollType chk c q = .ok (unrolled chk (slots c q))) → (∀ c ∈ cs, Inhab c) →
      (∀ c ∈ cs, nodes c < 2 ^ 59) →
      ∀ (q : Path) (i : Nat), unrollTuple chk cs q i = .ok (unrolled chk (slotsL cs q i)) := by
    intro cs
    induction cs with
    | nil => intro _ _ _ q i; rw [unrollTuple, slotsL]; rfl
    | cons c cs ih =>
      intro h hi hn q i
      rw [unrollTuple, slotsL, unrolled_append]
      simp only [Path.withComponent]
      rw [h c (by simp) (hi c (by simp)) (hn c (by simp)), Res.bind_ok,
        ih (fun d hd => h d (by simp [hd])) (fun d hd => hi d (by simp [hd])) (fun d hd => hn d (by simp [hd]))]
      rfl
  induction t using Ty.ind with
  | unit =>
    intro hi hn q
    have hu : unrollType chk .unit q = .ok (unrolled chk (slots .unit q)) := by rw [unrollType, slots]; rfl
    have hc : ∀ r cs, (r, Slot.enum cs) ∈ slots .unit q → caseLayouts chk cs r 0 = .ok (layouts chk cs r) ∧
        (layouts chk cs r).length = cs.length ∧
        ∀ (k : Nat) (c : Str × Ty), cs[k]? = some c → ∃ l, (layouts chk cs r)[k]? = some l ∧
          calculateLayout chk c.2 (r ++ [k]) = .ok l ∧ TyFacts chk c.2 (r ++ [k]) l := by
      intro r cs h; simp [slots] at h
    exact ⟨hu, hc, finish _ q hn hu hc⟩
  | prim p =>
    intro hi hn q
    have hu : unrollType chk (.prim p) q = .ok (unrolled chk (slots (.prim p) q)) := by
      rw [unrollType, slots]; rfl
    have hc : ∀ r cs, (r, Slot.enum cs) ∈ slots (.prim p) q → caseLayouts chk cs r 0 = .ok (layouts chk cs r) ∧
        (layouts chk cs r).length = cs.length ∧
        ∀ (k : Nat) (c : Str × Ty), cs[k]? = some c → ∃ l, (layouts chk cs r)[k]? = some l ∧
          calculateLayout chk c.2 (r ++ [k]) = .ok l ∧ TyFacts chk c.2 (r ++ [k]) l := by
      intro r cs h; simp [slots] at h
    exact ⟨hu, hc, finish _ q hn hu hc⟩
  | string =>
    intro hi hn q
    have hu : unrollType chk .string q = .ok (unrolled chk (slots .string q)) := by
      rw [unrollType, slots]; rfl
    have hc : ∀ r cs, (r, Slot.enum cs) ∈ slots .string q → caseLayouts chk cs r 0 = .ok (layouts chk cs r) ∧
        (layouts chk cs r).length = cs.length ∧
        ∀ (k : Nat) (c : Str × Ty), cs[k]? = some c → ∃ l, (layouts chk cs r)[k]? = some l ∧
          calculateLayout chk c.2 (r ++ [k]) = .ok l ∧ TyFacts chk c.2 (r ++ [k]) l := by
      intro r cs h; simp [slots] at h
    exact ⟨hu, hc, finish _ q hn hu hc⟩
  | tuple cs ih =>
    intro hi hn q
    cases hi with
    | tuple hne hall =>
    have hsub : ∀ c ∈ cs, nodes c < 2 ^ 59 := fun c hc => Nat.lt_trans (nodes_mem_tuple hc) hn
    have hu : unrollType chk (.tuple cs) q = .ok (unrolled chk (slots (.tuple cs) q)) := by
      rw [unrollType, slots, show decide (cs.length > 0) = true by
        simp [List.length_pos_iff, hne], assert_true, Res.bind_ok]
      exact list cs (fun c hc h1 h2 q => (ih c hc h1 h2 q).1) hall hsub q 0
    have hc : ∀ r es, (r, Slot.enum es) ∈ slots (.tuple cs) q → caseLayouts chk es r 0 = .ok (layouts chk es r) ∧
        (layouts chk es r).length = es.length ∧
        ∀ (k : Nat) (c : Str × Ty), es[k]? = some c → ∃ l, (layouts chk es r)[k]? = some l ∧
          calculateLayout chk c.2 (r ++ [k]) = .ok l ∧ TyFacts chk c.2 (r ++ [k]) l := by
      intro r es h
      rw [slots] at h
      obtain ⟨k, c, h1, h2⟩ := mem_slotsL h
      have hm := List.mem_of_getElem? h1
      exact (ih c hm (hall c hm) (hsub c hm) _).2.1 r es h2
    exact ⟨hu, hc, finish _ q hn hu hc⟩
  | struct fs ih =>
    intro hi hn q
    cases hi with
    | struct hne hall =>
    have hsub : ∀ f ∈ fs, nodes f.2 < 2 ^ 59 := fun f hf => by
      have := nodesF_mem hf
      rw [nodes] at hn; omega
    have hu : unrollType chk (.struct fs) q = .ok (unrolled chk (slots (.struct fs) q)) := by
      rw [unrollType, slots, show decide (fs.length > 0) = true by
        simp [List.length_pos_iff, hne], assert_true, Res.bind_ok, unrollStruct_eq, slotsF_eq]
      refine list (fs.map (·.2)) ?_ ?_ ?_ q 0
      · intro c hc h1 h2 q
        obtain ⟨f, hf, rfl⟩ := List.mem_map.1 hc
        exact (ih f hf h1 h2 q).1
      · intro c hc; obtain ⟨f, hf, rfl⟩ := List.mem_map.1 hc; exact hall f hf
      · intro c hc; obtain ⟨f, hf, rfl⟩ := List.mem_map.1 hc; exact hsub f hf
    have hc : ∀ r es, (r, Slot.enum es) ∈ slots (.struct fs) q → caseLayouts chk es r 0 = .ok (layouts chk es r) ∧
        (layouts chk es r).length = es.length ∧
        ∀ (k : Nat) (c : Str × Ty), es[k]? = some c → ∃ l, (layouts chk es r)[k]? = some l ∧
          calculateLayout chk c.2 (r ++ [k]) = .ok l ∧ TyFacts chk c.2 (r ++ [k]) l := by
      intro r es h
      rw [slots, slotsF_eq] at h
      obtain ⟨k, c, h1, h2⟩ := mem_slotsL h
      obtain ⟨f, hf, rfl⟩ := List.mem_map.1 (List.mem_of_getElem? h1)
      exact (ih f hf (hall f hf) (hsub f hf) _).2.1 r es h2
    exact ⟨hu, hc, finish _ q hn hu hc⟩
  | enum cs ih =>
    intro hi hn q
    cases hi with
    | enum hne hall =>
    have hsub : ∀ f ∈ cs, nodes f.2 < 2 ^ 59 := fun f hf => by
      have := nodesF_mem hf
      rw [nodes] at hn; omega
    obtain ⟨ls, h1, h2, h3⟩ := caseLayouts_ok (chk := chk) (cs := cs) (q := q) (i := 0)
      (P := fun k l => ∀ c, cs[k]? = some c → TyFacts chk c.2 (q ++ [k]) l) (by
        intro k c hk
        have hm := List.mem_of_getElem? hk
        obtain ⟨l, a, b⟩ := (ih c hm (hall c hm) (hsub c hm) (q ++ [0 + k])).2.2
        refine ⟨l, a, ?_⟩
        intro d hd
        rw [Nat.zero_add] at hd b ⊢
        rw [hk] at hd; cases hd
        exact b)
    have hls : layouts chk cs q = ls := by rw [layouts, h1]
    have hu : unrollType chk (.enum cs) q = .ok (unrolled chk (slots (.enum cs) q)) := by
      rw [unrollType, slots, show decide (cs.length > 0) = true by
        simp [List.length_pos_iff, hne], assert_true, Res.bind_ok, h1]
      simp [unrolled, Slot.fixed, Slot.bits, Slot.var, hls]
    have hc : ∀ r es, (r, Slot.enum es) ∈ slots (.enum cs) q → caseLayouts chk es r 0 = .ok (layouts chk es r) ∧
        (layouts chk es r).length = es.length ∧
        ∀ (k : Nat) (c : Str × Ty), es[k]? = some c → ∃ l, (layouts chk es r)[k]? = some l ∧
          calculateLayout chk c.2 (r ++ [k]) = .ok l ∧ TyFacts chk c.2 (r ++ [k]) l := by
      intro r es h
      simp [slots] at h
      obtain ⟨rfl, rfl⟩ := h
      rw [hls]
      refine ⟨h1, h2, ?_⟩
      intro k c hk
      obtain ⟨l, a, b, d⟩ := h3 k c hk
      rw [Nat.zero_add] at b d
      exact ⟨l, a, b, d c hk⟩
    exact ⟨hu, hc, finish _ q hn hu hc⟩

end Verif
