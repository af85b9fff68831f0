import Verif.Proof.Codec3
import Verif.Props.Util

/-! # Where the readers look: facts that hold for arbitrary data -/

namespace Verif

open Spec

theorem align_dvd {chk : Bool} {v a n : Nat} (ha : SmallPow a) (h : align chk v a = .ok n) : a ∣ n := by
  unfold align at h
  obtain ⟨_, _, h⟩ := Res.bind_eq_ok.1 h
  obtain ⟨s, _, h⟩ := Res.bind_eq_ok.1 h
  obtain ⟨t, _, h⟩ := Res.bind_eq_ok.1 h
  obtain ⟨m, hm, h⟩ := Res.bind_eq_ok.1 h
  cases h
  have hm' : m = a - 1 := by
    unfold subW at hm
    rw [if_pos (show 1 ≤ a from ha.pos)] at hm
    cases hm; rfl
  subst hm'
  obtain ⟨k, hk, rfl⟩ := ha.eq_pow
  have hk4 : k ≤ 4 := by
    have := ha.le
    rcases Nat.lt_or_ge 4 k with h | h
    · have := Nat.pow_le_pow_right (n := 2) (by decide) h
      simp at this; omega
    · exact h
  apply Nat.dvd_of_mod_eq_zero
  apply Nat.eq_of_testBit_eq
  intro i
  rw [Nat.testBit_mod_two_pow, Nat.testBit_and, Nat.zero_testBit]
  by_cases hi : i < k
  · have : (notW (2 ^ k - 1)).testBit i = false := by
      unfold notW
      rw [show (18446744073709551616 : Nat) = 2 ^ 64 from rfl, Nat.sub_sub, Nat.add_comm,
        Nat.testBit_two_pow_sub_succ (by
          have := Nat.pow_lt_pow_right (a := 2) (by decide) hk
          omega)]
      simp [Nat.testBit_two_pow_sub_one, hi]
    simp [this]
  · simp [hi]

theorem addW_dvd {chk : Bool} {a b n d : Nat} (hd : SmallPow d) (ha : d ∣ a) (hb : d ∣ b)
    (h : addW chk a b = .ok n) : d ∣ n := by
  have hs : d ∣ a + b := Nat.dvd_add ha hb
  have hW : d ∣ W64 := by rcases hd with rfl | rfl | rfl | rfl | rfl <;> decide
  unfold addW at h
  split at h
  · cases h; exact hs
  · split at h
    · cases h
    · cases h
      exact (Nat.dvd_mod_iff hW).2 hs

theorem encodingSize_dvd {chk : Bool} {l : Layout} {data : Bytes} {n : Nat} (hl : SmallPow l.alignment)
    (h : l.encodingSize chk data = .ok n) : l.alignment ∣ n := by
  obtain ⟨al, vo, idx, fixed, vars⟩ := l
  rw [Layout.encodingSize] at h
  obtain ⟨o, _, h⟩ := Res.bind_eq_ok.1 h
  exact align_dvd hl h

theorem caseSize_mem {chk : Bool} {cs : List Layout} {i : Nat} {data : Bytes} {n : Nat}
    (h : caseSize chk cs i data = .ok n) : ∃ c ∈ cs, c.encodingSize chk data = .ok n := by
  induction cs generalizing i with
  | nil => rw [caseSize] at h; cases h
  | cons c cs ih =>
    cases i with
    | zero => rw [caseSize] at h; exact ⟨c, by simp, h⟩
    | succ i =>
      rw [caseSize] at h
      obtain ⟨d, hd, he⟩ := ih h
      exact ⟨d, by simp [hd], he⟩

/-- All sizes of values with this layout are multiples of `a`. -/
def SizesBy (c : Layout) (a : Nat) : Prop :=
  (∀ chk data n, c.encodingSize chk data = .ok n → a ∣ n) ∧ (∀ chk src n, c.sizeWithSource chk src = .ok n → a ∣ n)

theorem varEnd_dvd {chk : Bool} {fixed : List FixedField} {data : Bytes} {v : VarField} {o o' d : Nat}
    (hd : SmallPow d) (hs : ∀ p fi, v = .string p fi → d = 1) (ho : d ∣ o)
    (hc : ∀ p fi cs, v = .enum p fi cs → ∀ c ∈ cs, SizesBy c d)
    (h : varEnd chk fixed data v o = .ok o') : d ∣ o' := by
  cases v with
  | string p fi =>
    rw [hs p fi rfl]
    exact Nat.one_dvd _
  | enum p fi cs =>
    rw [varEnd] at h
    obtain ⟨f, _, h⟩ := Res.bind_eq_ok.1 h
    obtain ⟨tag, _, h⟩ := Res.bind_eq_ok.1 h
    obtain ⟨_, _, h⟩ := Res.bind_eq_ok.1 h
    obtain ⟨n, hn, h⟩ := Res.bind_eq_ok.1 h
    obtain ⟨c, hcm, hce⟩ := caseSize_mem hn
    exact addW_dvd hd ho ((hc p fi cs rfl c hcm).1 _ _ _ hce) h

theorem varsEnd_dvd {chk : Bool} {fixed : List FixedField} {data : Bytes} {d : Nat}
    (hd : SmallPow d) (vs : List VarField) (o o' : Nat) (hs : ∀ v ∈ vs, ∀ p fi, v = .string p fi → d = 1)
    (ho : d ∣ o)
    (hc : ∀ v ∈ vs, ∀ p fi cs, v = .enum p fi cs → ∀ c ∈ cs, SizesBy c d)
    (h : varsEnd chk fixed data vs o = .ok o') : d ∣ o' := by
  induction vs generalizing o with
  | nil => rw [varsEnd] at h; cases h; exact ho
  | cons v vs ih =>
    rw [varsEnd] at h
    obtain ⟨o1, h1, h⟩ := Res.bind_eq_ok.1 h
    exact ih o1 (fun w hw => hs w (by simp [hw]))
      (varEnd_dvd hd (hs v (by simp)) ho (hc v (by simp)) h1) (fun w hw => hc w (by simp [hw])) h

theorem enum_alignment_le {p : Path} {fi : Nat} {cs : List Layout} :
    ∀ c ∈ cs, c.alignment ≤ (VarField.enum p fi cs).alignment := by
  intro c hc
  cases cs with
  | nil => simp at hc
  | cons x xs =>
    rw [VarField.alignment]
    have := foldl_max_le xs x.alignment
    rcases List.mem_cons.1 hc with rfl | h
    · exact this.1
    · exact this.2 c h

/-- Enums are stored after enums whose sizes keep their alignment. -/
def Keeps (l : Layout) : Prop :=
  ∀ m, Nested l m → m.vars.Pairwise fun v w => ∀ p fi cs q gi ds, v = .enum p fi cs → w = .enum q gi ds →
    ∀ c ∈ cs, ∀ d ∈ ds, SizesBy c d.alignment

theorem Keeps_sub {l c : Layout} {p : Path} {fi : Nat} {cs : List Layout} (h : Keeps l)
    (hv : VarField.enum p fi cs ∈ l.vars) (hc : c ∈ cs) : Keeps c :=
  fun m hm => h m (.case hv hc hm)

/-- What `locate` finds, for arbitrary data and path. -/
theorem locate_facts (chk : Bool) (n : Nat) : ∀ (t : Ty), nodes t ≤ n → n < 2 ^ 59 → Inhab t →
    ∀ (p : Path) (l : Layout), calculateLayout chk t p = .ok l →
    ∀ (q : Path) (data : Bytes) (w : Located), l.locate chk q data = .ok w →
      Nested l w.layout ∧ w.index ∈ w.layout.indices ∧ w.index.path = q ∧
      w.layout.alignment ∣ l.alignment ∧
      ∃ k, k ≤ data.length ∧ w.data = data.drop k ∧ (Keeps l → w.layout.alignment ∣ k) := by
  induction n with
  | zero => intro t h; have := nodes_pos t; omega
  | succ n ih =>
    intro t hn hn2 hi p l hl q data w hw
    obtain ⟨hu, hcases, l', hl', hfacts⟩ := unroll_and_layout chk t hi (by omega) p
    rw [hl] at hl'
    cases hl'
    -- facts about the cases of enum fields
    have hcase : ∀ r fi cs, VarField.enum r fi cs ∈ l.vars → ∀ c ∈ cs, SmallPow c.alignment ∧
        ∃ t' p', nodes t' ≤ n ∧ Inhab t' ∧ calculateLayout chk t' p' = .ok c := by
      intro r fi cs hv c hc
      have h1 := hfacts.vars.mem_iff.1 (List.mem_map_of_mem (f := (·.setFixedIdx 0)) hv)
      obtain ⟨w, hw, he⟩ := List.mem_map.1 h1
      obtain ⟨⟨xq, xs⟩, hx, hxw⟩ := List.mem_filterMap.1 hw
      cases xs with
      | prim pr => simp [Slot.var] at hxw
      | str => simp [Slot.var] at hxw; subst hxw; simp [VarField.setFixedIdx] at he
      | enum es =>
        simp [Slot.var] at hxw
        subst hxw
        simp [VarField.setFixedIdx] at he
        obtain ⟨rfl, rfl⟩ := he
        obtain ⟨_, e2, e3⟩ := hcases xq es hx
        obtain ⟨k, hk⟩ := List.getElem?_of_mem hc
        have hkl := (List.getElem?_eq_some_iff.1 hk).1
        obtain ⟨l', f1, f2, f3⟩ := e3 k _ (List.getElem?_eq_getElem (by omega))
        rw [hk] at f1
        cases f1
        have hem : es[k]'(by omega) ∈ es := List.getElem_mem _
        have hinh := slots_inherit (Q := Inhab) (fun cs h => by cases h with | tuple _ h => exact h)
          (fun fs h => by cases h with | struct _ h => exact h) t p hi _ hx
        have hno := slots_inherit (Q := fun u => nodes u ≤ nodes t)
          (fun cs h c hc => by have := nodes_mem_tuple hc; omega)
          (fun fs h f hf => by have := nodesF_mem hf; rw [nodes] at h; omega) t p (Nat.le_refl _) _ hx
        have hic : Inhab (es[k]'(by omega)).2 := by cases hinh with | enum _ h => exact h _ hem
        have hnc : nodes (es[k]'(by omega)).2 ≤ n := by
          have := nodesF_mem hem
          simp only [Slot.ty, nodes] at hno
          omega
        exact ⟨f3.al, _, _, hnc, hic, f2⟩
    obtain ⟨al, vo, idx, fixed, vars⟩ := l
    rw [Layout.locate] at hw
    cases hs : searchIndex q idx 0 with
    | «at» i =>
      rw [hs] at hw
      simp only at hw
      obtain ⟨x, hx, hw⟩ := Res.bind_eq_ok.1 hw
      cases hw
      have hxi : idx[i]? = some x := by
        unfold getAt at hx
        split at hx
        · cases hx; assumption
        · cases hx
      refine ⟨.self _, List.mem_of_getElem? hxi, ?_, Nat.dvd_refl _, 0, by omega, by simp, fun _ => Nat.dvd_zero _⟩
      -- the search returns an entry with the path
      have key : ∀ (xs : List Index) (i0 j : Nat), searchIndex q xs i0 = .at j →
          ∃ y, i0 ≤ j ∧ xs[j - i0]? = some y ∧ y.path = q := by
        intro xs
        induction xs with
        | nil => intro i0 j h; simp [searchIndex] at h
        | cons y ys ihx =>
          intro i0 j h
          rw [searchIndex] at h
          cases hc : Path.cmp y.path q with
          | lt => rw [hc] at h; simp at h
          | eq =>
            rw [hc] at h
            simp at h
            subst h
            exact ⟨y, Nat.le_refl _, by simp, (Path.cmp_eq_iff _ _).1 hc⟩
          | gt =>
            rw [hc] at h
            obtain ⟨z, h1, h2, h3⟩ := ihx (i0 + 1) j h
            refine ⟨z, by omega, ?_, h3⟩
            rw [show j - i0 = (j - (i0 + 1)) + 1 by omega, List.getElem?_cons_succ]
            exact h2
      obtain ⟨y, _, h2, h3⟩ := key idx 0 i hs
      rw [Nat.sub_zero, hxi] at h2
      cases h2
      exact h3
    | insertAt i =>
      rw [hs] at hw
      simp only at hw
      cases hx : idx[i]? with
      | none => rw [hx] at hw; cases hw
      | some x =>
        rw [hx] at hw
        simp only at hw
        split at hw
        · obtain ⟨tag, _, hw⟩ := Res.bind_eq_ok.1 hw
          obtain ⟨o, ho, hw⟩ := Res.bind_eq_ok.1 hw
          obtain ⟨_, hle, hw⟩ := Res.bind_eq_ok.1 hw
          have hole : o ≤ data.length := by
            unfold assert at hle
            split at hle
            · rename_i h; exact of_decide_eq_true h
            · cases hle
          -- the field
          have lv : ∀ (vs : List VarField) (j : Nat) (d : Bytes), locateVars chk q vs j tag d = .ok w →
              ∃ r fi cs c, vs[j]? = some (.enum r fi cs) ∧ c ∈ cs ∧ c.locate chk q d = .ok w := by
            intro vs
            induction vs with
            | nil => intro j d h; rw [locateVars] at h; cases h
            | cons v vs ihv =>
              intro j d h
              cases j with
              | succ j =>
                rw [locateVars] at h
                exact ihv j d h
              | zero =>
                rw [locateVars] at h
                cases v with
                | string r fi => rw [locateVar] at h; cases h
                | enum r fi cs =>
                  rw [locateVar] at h
                  have lc : ∀ (cs : List Layout) (j : Nat), locateCase chk q cs j d = .ok w →
                      ∃ c ∈ cs, c.locate chk q d = .ok w := by
                    intro cs
                    induction cs with
                    | nil => intro j h; rw [locateCase] at h; cases h
                    | cons c cs ihc =>
                      intro j h
                      cases j with
                      | zero => rw [locateCase] at h; exact ⟨c, by simp, h⟩
                      | succ j =>
                        rw [locateCase] at h
                        obtain ⟨d, hd, he⟩ := ihc j h
                        exact ⟨d, by simp [hd], he⟩
                  obtain ⟨c, hc, he⟩ := lc cs tag h
                  exact ⟨r, fi, cs, c, rfl, hc, he⟩
          obtain ⟨r, fi, cs, c, hv, hc, hcl⟩ := lv _ _ _ hw
          have hvm : VarField.enum r fi cs ∈ vars := List.mem_of_getElem? hv
          obtain ⟨hcal, t', p', hn', hi', hl'⟩ := hcase r fi cs hvm c hc
          obtain ⟨g1, g2, g3, g4, k, g5, g6, g7⟩ := ih t' hn' (by omega) hi' p' c hl' q _ w hcl
          have hval := hfacts.valigned _ hvm
          have hlal : SmallPow al := hfacts.al
          have hcl2 : c.alignment ∣ al := by
            have h1 := enum_alignment_le (p := r) (fi := fi) c hc
            have h2 : (VarField.enum r fi cs).alignment ≤ al := Nat.le_of_dvd hlal.pos hval.2
            exact SmallPow.dvd hcal hlal (by omega)
          refine ⟨.case hvm hc g1, g2, g3, Nat.dvd_trans g4 hcl2, o + k, ?_, ?_, ?_⟩
          · rw [List.length_drop] at g5; omega
          · rw [g6, List.drop_drop]
          · intro hev
            refine Nat.dvd_add ?_ (g7 (Keeps_sub hev hvm hc))
            refine Nat.dvd_trans g4 ?_
            have hcv := enum_alignment_le (p := r) (fi := fi) c hc
            change (do assert (decide (x.varIdx ≤ vars.length))
                       varsEnd chk fixed data (vars.take x.varIdx) vo) = _ at ho
            obtain ⟨_, _, ho⟩ := Res.bind_eq_ok.1 ho
            have hjl := (List.getElem?_eq_some_iff.1 hv).1
            have hsp : ∀ v ∈ vars, SmallPow v.alignment := by
              intro v hv
              cases v with
              | string a b => exact Or.inl rfl
              | enum a b ds =>
                cases ds with
                | nil => exact Or.inl rfl
                | cons e es =>
                  rw [VarField.alignment]
                  exact foldl_max_pow _ _ (hcase a b _ hv e (by simp)).1
                    (fun y hy => (hcase a b _ hv y (by simp [hy])).1)
            have hcd : c.alignment ∣ (VarField.enum r fi cs).alignment := SmallPow.dvd hcal (hsp _ hvm) hcv
            have hget : vars[x.varIdx]'hjl = .enum r fi cs := (List.getElem?_eq_some_iff.1 hv).2
            have hbefore : ∀ v ∈ vars.take x.varIdx, ∃ (j : Nat) (hj : j < vars.length), j < x.varIdx ∧ vars[j] = v := by
              intro v hvt
              obtain ⟨j, hj⟩ := List.getElem?_of_mem hvt
              rw [List.getElem?_take] at hj
              split at hj
              · rename_i hjlt
                obtain ⟨hj1, hj2⟩ := List.getElem?_eq_some_iff.1 hj
                exact ⟨j, hj1, hjlt, hj2⟩
              · cases hj
            refine varsEnd_dvd hcal (vars.take x.varIdx) vo o ?_ (Nat.dvd_trans hcd hval.1) ?_ ho
            · intro v hvt a b hvs
              obtain ⟨j, hj1, hjlt, hj2⟩ := hbefore v hvt
              have hso := hfacts.vsorted
              rw [List.pairwise_iff_getElem] at hso
              have h1 : (vars[x.varIdx]'hjl).alignment ≤ (vars[j]'hj1).alignment := hso j x.varIdx hj1 hjl hjlt
              rw [hget, hj2, hvs] at h1
              have h3 : (VarField.enum r fi cs).alignment ≤ 1 := h1
              have := hcal.pos
              omega
            · intro v hvt a b ds hvd d hd
              obtain ⟨j, hj1, hjlt, hj2⟩ := hbefore v hvt
              have hev' := hev _ (.self _)
              rw [List.pairwise_iff_getElem] at hev'
              have h1 := hev' j x.varIdx hj1 hjl hjlt a b ds r fi cs (by rw [← hvd]; exact hj2) hget d hd c hc
              exact h1
        · cases hw

/-! ## Types that can be laid out -/

theorem assert_eq_ok {b : Bool} {u : Unit} (h : assert b = .ok u) : b = true := by
  unfold assert at h
  split at h
  · assumption
  · cases h

theorem unrollTuple_each {chk : Bool} (cs : List Ty) (p : Path) (i : Nat) (u : Unrolled)
    (h : unrollTuple chk cs p i = .ok u) : ∀ c ∈ cs, ∃ p' u', unrollType chk c p' = .ok u' := by
  induction cs generalizing i u with
  | nil => simp
  | cons c cs ih =>
    rw [unrollTuple] at h
    obtain ⟨a, ha, h⟩ := Res.bind_eq_ok.1 h
    obtain ⟨b, hb, h⟩ := Res.bind_eq_ok.1 h
    intro d hd
    rcases List.mem_cons.1 hd with rfl | hd
    · exact ⟨_, a, ha⟩
    · exact ih _ b hb d hd

theorem caseLayouts_each {chk : Bool} (cs : List (Str × Ty)) (p : Path) (i : Nat) (ls : List Layout)
    (h : caseLayouts chk cs p i = .ok ls) : ∀ c ∈ cs, ∃ p' u', unrollType chk c.2 p' = .ok u' := by
  induction cs generalizing i ls with
  | nil => simp
  | cons c cs ih =>
    rw [caseLayouts, caseLayout_eq, calculateLayout] at h
    obtain ⟨a, ha, h⟩ := Res.bind_eq_ok.1 h
    obtain ⟨u, hu, _⟩ := Res.bind_eq_ok.1 ha
    obtain ⟨b, hb, h⟩ := Res.bind_eq_ok.1 h
    intro d hd
    rcases List.mem_cons.1 hd with rfl | hd
    · exact ⟨_, u, hu⟩
    · exact ih _ b hb d hd

theorem unroll_inhab (chk : Bool) (t : Ty) : ∀ (p : Path) (u : Unrolled),
    unrollType chk t p = .ok u → Inhab t := by
  induction t using Ty.ind with
  | unit => intros; exact .unit
  | prim q => intros; exact .prim q
  | string => intros; exact .string
  | tuple cs ih =>
    intro p u h
    rw [unrollType] at h
    obtain ⟨_, ha, h⟩ := Res.bind_eq_ok.1 h
    have := assert_eq_ok ha
    refine .tuple (by intro e; subst e; simp at this) (fun c hc => ?_)
    obtain ⟨p', u', h'⟩ := unrollTuple_each cs p 0 u h c hc
    exact ih c hc p' u' h'
  | struct fs ih =>
    intro p u h
    rw [unrollType] at h
    obtain ⟨_, ha, h⟩ := Res.bind_eq_ok.1 h
    have := assert_eq_ok ha
    refine .struct (by intro e; subst e; simp at this) (fun c hc => ?_)
    rw [unrollStruct_eq] at h
    obtain ⟨p', u', h'⟩ := unrollTuple_each _ p 0 u h c.2 (List.mem_map_of_mem hc)
    exact ih c hc p' u' h'
  | enum cs ih =>
    intro p u h
    rw [unrollType] at h
    obtain ⟨_, ha, h⟩ := Res.bind_eq_ok.1 h
    have := assert_eq_ok ha
    obtain ⟨ls, hl, h⟩ := Res.bind_eq_ok.1 h
    refine .enum (by intro e; subst e; simp at this) (fun c hc => ?_)
    obtain ⟨p', u', h'⟩ := caseLayouts_each cs p 0 ls hl c hc
    exact ih c hc p' u' h'

/-! ## The encoder on fitting values -/

theorem tagFits_ok {chk : Bool} {n : Nat} (h : TagFits chk n) : TagOk chk n := by
  obtain ⟨h, h2⟩ := h
  have hlt : n - 1 < 2 ^ 64 := by omega
  have hu : ∀ k, n - 1 < 2 ^ k → requiredBits (n - 1) ≤ k := (Props.C02_required_bits _ hlt).2
  have hlo : ∀ k, 2 ^ k ≤ n - 1 → k < requiredBits (n - 1) := by
    intro k hk
    have := (Props.C02_required_bits _ hlt).1 _ (Nat.le_refl _)
    rcases Nat.lt_or_ge k (requiredBits (n - 1)) with h | h
    · exact h
    · have := Nat.pow_le_pow_right (n := 2) (by decide) h
      omega
  refine ⟨?_, ?_, ?_, ?_, h2⟩
  all_goals rcases h with h | h | h | h
  all_goals first
    | (have := hu 7 (by omega); omega)
    | (have := hu 15 (by omega); have := hlo 8 (by omega); omega)
    | (have := hu 31 (by omega); have := hlo 16 (by omega); omega)
    | (have := hu 63 (by omega); have := hlo 32 (by omega); omega)

theorem AllEnums_imp {P Q : Nat → Prop} (h : ∀ n, P n → Q n) {t : Ty} (ht : AllEnums P t) :
    AllEnums Q t := by
  induction ht with
  | unit => exact .unit
  | prim p => exact .prim p
  | string => exact .string
  | tuple _ ih => exact .tuple ih
  | struct _ ih => exact .struct ih
  | enum h1 _ ih => exact .enum (h _ h1) ih

theorem _root_.Verif.Spec.Chosen.nested {ls : List (Path × Leaf)} {l m : Layout} (h : Chosen ls l m) :
    Nested l m := by
  induction h with
  | self l => exact .self l
  | case h1 _ h3 _ ih => exact .case h1 (List.mem_of_getElem? h3) ih

/-- Tags whose width is none of the machine word widths have room everywhere. -/
theorem tags_room (chk : Bool) (n : Nat) : ∀ (t : Ty), nodes t ≤ n → n < 2 ^ 59 → Inhab t →
    AllEnums (TagOk chk) t → ∀ (p : Path) (l m : Layout), calculateLayout chk t p = .ok l → Nested l m →
      ∀ f ∈ m.fixed, HasRoom chk f := by
  induction n with
  | zero => intro t h; have := nodes_pos t; omega
  | succ n ih =>
    intro t hn hn2 hi he p l m hl hm
    obtain ⟨hu, hcases, l', hl', hfacts⟩ := unroll_and_layout chk t hi (by omega) p
    rw [hl] at hl'
    cases hl'
    have hen := slots_inherit (Q := AllEnums (TagOk chk)) (fun cs h => by cases h with | tuple h => exact h)
      (fun fs h => by cases h with | struct h => exact h) t p he
    have hno := slots_inherit (Q := fun u => nodes u ≤ nodes t)
      (fun cs h c hc => by have := nodes_mem_tuple hc; omega)
      (fun fs h f hf => by have := nodesF_mem hf; rw [nodes] at h; omega) t p (Nat.le_refl _)
    cases hm with
    | self =>
      intro f hf pr' o' n' hk
      rcases hfacts.kinds f hf with ⟨g, hg, h1, h2⟩ | ⟨b, hb, pr, o, h1, h2, h3, h4⟩
      · obtain ⟨⟨q, s⟩, hx, hxg⟩ := List.mem_filterMap.1 hg
        rw [hk] at h2
        cases s with
        | prim pr => simp [Slot.fixed] at hxg; subst hxg; simp at h2
        | str => simp [Slot.fixed] at hxg; subst hxg; simp at h2
        | enum cs => simp [Slot.fixed] at hxg
      · obtain ⟨⟨q, s⟩, hx, hxb⟩ := List.mem_filterMap.1 hb
        have hex := hen _ hx
        have hnx := hno _ hx
        rw [hk] at h2
        injection h2 with e1 e2 e3
        subst e1 e2 e3
        cases s with
        | prim pr => simp [Slot.bits] at hxb
        | str => simp [Slot.bits] at hxb
        | enum cs =>
          simp [Slot.bits] at hxb
          subst hxb
          cases hex with
          | enum htag _ =>
          have hlen : cs.length < 2 ^ 59 := by
            have := nodesF_length cs
            simp only [Slot.ty, nodes] at hnx
            omega
          obtain ⟨t1, t2, t3, t4, t5⟩ := htag
          constructor
          · have hps := pr'.size_pow
            simp only at h4 ⊢
            rcases hps with hps | hps | hps | hps | hps <;> rw [hps] at h3 h4 ⊢ <;> omega
          · intro hc
            have := requiredBits_pos (t5 hc) (by omega)
            simp only at h4 ⊢
            omega
    | @case _ c _ q fi cs hv hc hm =>
      have h1 := hfacts.vars.mem_iff.1 (List.mem_map_of_mem (f := (·.setFixedIdx 0)) hv)
      obtain ⟨w, hw, he⟩ := List.mem_map.1 h1
      obtain ⟨⟨xq, xs⟩, hx, hxw⟩ := List.mem_filterMap.1 hw
      cases xs with
      | prim pr => simp [Slot.var] at hxw
      | str => simp [Slot.var] at hxw; subst hxw; simp [VarField.setFixedIdx] at he
      | enum es =>
        simp [Slot.var] at hxw
        subst hxw
        simp [VarField.setFixedIdx] at he
        obtain ⟨rfl, rfl⟩ := he
        obtain ⟨_, e2, e3⟩ := hcases xq es hx
        obtain ⟨k, hk⟩ := List.getElem?_of_mem hc
        have hkl := (List.getElem?_eq_some_iff.1 hk).1
        obtain ⟨l', f1, f2, f3⟩ := e3 k _ (List.getElem?_eq_getElem (by omega))
        rw [hk] at f1
        cases f1
        have hem : es[k]'(by omega) ∈ es := List.getElem_mem _
        have hinh := slots_inherit (Q := Inhab) (fun cs h => by cases h with | tuple _ h => exact h)
          (fun fs h => by cases h with | struct _ h => exact h) t p hi _ hx
        have hic : Inhab (es[k]'(by omega)).2 := by cases hinh with | enum _ h => exact h _ hem
        have hec : AllEnums (TagOk chk) (es[k]'(by omega)).2 := by
          have := hen _ hx
          cases this with | enum _ h => exact h _ hem
        have hnc : nodes (es[k]'(by omega)).2 ≤ n := by
          have := nodesF_mem hem
          have hno := hno _ hx
          simp only [Slot.ty, nodes] at hno
          omega
        exact ih _ hnc (by omega) hic hec _ c m f2 hm

/-- A type with only such enums has room for all tags of all values. -/
theorem tagFits_room {chk : Bool} {t : Ty} (hi : Inhab t) (hn : nodes t < 2 ^ 59)
    (h : AllEnums (TagFits chk) t) (ls : List (Path × Leaf)) (l : Layout) (hl : Layout.new chk t = .ok l) :
    TagsHaveRoom chk ls l :=
  fun _ hm => tags_room chk _ t (Nat.le_refl _) hn hi (AllEnums_imp (fun _ => tagFits_ok) h) [] l _ hl hm.nested

theorem fits_coded {chk : Bool} {t : Ty} {v : Val} (h : Fits chk t v) {l : Layout}
    (hl : Layout.new chk t = .ok l) : ∃ size place, CodedW chk v [] l size place [] := by
  have hw := h.total
  rw [weight_eq v []] at hw
  exact coded chk t h.nodes h.inhab v h.typed [] l hl (h.tags l hl) h.strings (by omega)

/-! ## Tags without room -/

/-- With overflow checks, writing a tag without room panics. -/
theorem writeFixed_no_room {src : DataSource} {f : FixedField} (h : ¬ HasRoom true f) (buf r : Bytes) :
    writeFixed true src f buf ≠ .ok r := by
  obtain ⟨q, k, off⟩ := f
  cases k with
  | prim p => exact absurd (fun p o n h => by simp at h) h
  | length => exact absurd (fun p o n h => by simp at h) h
  | container i p => exact absurd (fun p o n h => by simp at h) h
  | bitfield p o n =>
    have hm : ∀ m, tagMask true (8 * p.size) o n ≠ .ok m := by
      intro m hm
      unfold tagMask at hm
      obtain ⟨a, h1, hm⟩ := Res.bind_eq_ok.1 hm
      obtain ⟨b, _, h2⟩ := Res.bind_eq_ok.1 hm
      refine h fun p' o' n' e => ?_
      simp only at e
      injection e with e1 e2 e3
      subst e1 e2 e3
      constructor
      · refine Classical.byContradiction fun hc => ?_
        unfold shlW at h1
        rw [if_neg hc] at h1
        cases h1
      · refine fun _ => Classical.byContradiction fun hc => ?_
        unfold shlW at h2
        rw [if_neg hc] at h2
        cases h2
    intro hw
    simp only [writeFixed] at hw
    obtain ⟨_, _, hw⟩ := Res.bind_eq_ok.1 hw
    split at hw
    · obtain ⟨m, h1, _⟩ := Res.bind_eq_ok.1 hw
      exact hm m h1
    · cases hw

theorem writeFixeds_each {chk : Bool} {src : DataSource} : ∀ (fs : List FixedField) (buf r : Bytes),
    writeFixeds chk src fs buf = .ok r → ∀ f ∈ fs, ∃ b b', writeFixed chk src f b = .ok b' := by
  intro fs
  induction fs with
  | nil => simp
  | cons g fs ih =>
    intro buf r h f hf
    rw [writeFixeds] at h
    obtain ⟨b, h1, h2⟩ := Res.bind_eq_ok.1 h
    rcases List.mem_cons.1 hf with rfl | hf
    · exact ⟨_, _, h1⟩
    · exact ih _ _ h2 f hf

theorem encodeVars_each {chk : Bool} {src : DataSource} : ∀ (vs : List VarField) (buf : Bytes) (o : Nat)
    (r : Bytes × Nat), encodeVars chk src vs buf o = .ok r → ∀ v ∈ vs, ∃ b o' r', encodeVar chk src v b o' = .ok r' := by
  intro vs
  induction vs with
  | nil => simp
  | cons g vs ih =>
    intro buf o r h v hv
    rw [encodeVars] at h
    obtain ⟨⟨b, o'⟩, h1, h2⟩ := Res.bind_eq_ok.1 h
    rcases List.mem_cons.1 hv with rfl | hv
    · exact ⟨_, _, _, h1⟩
    · exact ih _ _ _ h2 v hv

/-- An encoding that succeeds with overflow checks has used only tags with room. -/
theorem encode_room {src : DataSource} {ls : List (Path × Leaf)} (hs : ∀ q i, (q, .tag i) ∈ ls → src.tag q = .ok i)
    {l m : Layout} (hm : Chosen ls l m) : ∀ (buf : Bytes) (r : Bytes × Nat), l.encode true src buf = .ok r →
    ∀ f ∈ m.fixed, HasRoom true f := by
  induction hm with
  | self l =>
    obtain ⟨al, vo, idx, fixed, vars⟩ := l
    intro buf r h f hf
    rw [Layout.encode] at h
    obtain ⟨_, _, h⟩ := Res.bind_eq_ok.1 h
    obtain ⟨b1, h1, h⟩ := Res.bind_eq_ok.1 h
    obtain ⟨b, b', h2⟩ := writeFixeds_each _ _ _ h1 f hf
    exact Classical.byContradiction fun hc => writeFixed_no_room hc b b' h2
  | @case l c m p fi i cs h1 h2 h3 _ ih =>
    obtain ⟨al, vo, idx, fixed, vars⟩ := l
    intro buf r h
    rw [Layout.encode] at h
    obtain ⟨_, _, h⟩ := Res.bind_eq_ok.1 h
    obtain ⟨b1, _, h⟩ := Res.bind_eq_ok.1 h
    obtain ⟨⟨b2, o⟩, h4, h⟩ := Res.bind_eq_ok.1 h
    obtain ⟨b, o', r', h5⟩ := encodeVars_each _ _ _ _ h4 _ h1
    rw [encodeVar, hs _ _ h2] at h5
    simp only [Res.bind_ok] at h5
    obtain ⟨_, _, h5⟩ := Res.bind_eq_ok.1 h5
    obtain ⟨⟨d, k⟩, h6, _⟩ := Res.bind_eq_ok.1 h5
    rw [encodeCase_eq h3] at h6
    exact ih _ _ h6

end Verif
