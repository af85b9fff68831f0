import Verif.Proof.Readable

/-! # Where the fields of the cases of an enum are read -/

namespace Verif

open Spec

/-- Below an enum, the place is found from the path alone; the tag is not looked at. -/
theorem locate_case {chk : Bool} {cs : List (Str × Ty)} (hi : Inhab (.enum cs)) (hn : nodes (.enum cs) < 2 ^ 59)
    {l : Layout} (hl : Layout.new chk (.enum cs) = .ok l) :
    (∀ (data : Bytes) (i : Nat) (s : Path), l.locate chk (i :: s) data = do
      assert (decide (l.varOffset ≤ data.length))
      locateCase chk (i :: s) (layouts chk cs []) i (data.drop l.varOffset)) ∧
    ∃ y f, l.fixed[y.fixedIdx]? = some f ∧ f.offset + f.size ≤ l.varOffset ∧
      ∀ data, l.locate chk [] data = .ok ⟨l, data, y⟩ := by
  obtain ⟨hu, hcases, l', hl', hf⟩ := unroll_and_layout chk (.enum cs) hi hn []
  rw [show calculateLayout chk (.enum cs) [] = .ok l from hl] at hl'
  cases hl'
  obtain ⟨al, vo, idx, fixed, vars⟩ := l
  have hin : ∀ f ∈ fixed, f.offset + f.size ≤ vo := hf.inside
  have hsorted : idx.Pairwise (fun a b => b.path < a.path) := hf.sorted
  have hidxF : ∀ x ∈ idx, ∃ f, fixed[x.fixedIdx]? = some f ∧ f.path = x.path := hf.idxFixed
  have hidxA : ∀ f ∈ fixed, ∃ x ∈ idx, x.path = f.path := hf.idxAll
  have hidxV : ∀ (i : Nat) (v : VarField), vars[i]? = some v → ∀ x ∈ idx, x.path = v.path → x.varIdx = i :=
    hf.idxVar
  have hvp : (vars.map (·.setFixedIdx 0)).Perm (((slots (.enum cs) []).filterMap (Slot.var chk)).map (·.setFixedIdx 0)) :=
    hf.vars
  have hfp : (fixed.map (·.path)).Perm ((slots (.enum cs) []).map (·.1)) := hf.paths.trans (paths_perm _)
  have hslots : slots (.enum cs) [] = [([], .enum cs)] := by simp [slots]
  rw [hslots] at hvp hfp
  have hfp : fixed.map (·.path) = [[]] := List.perm_singleton.1 hfp
  obtain ⟨f, hff, hfx⟩ : ∃ f ∈ fixed, f.path = [] := by
    have : ([] : Path) ∈ fixed.map (·.path) := by rw [hfp]; simp
    obtain ⟨f, h1, h2⟩ := List.mem_map.1 this
    exact ⟨f, h1, h2⟩
  have hvs : ∃ fi, vars = [.enum [] fi (layouts chk cs [])] := by
    obtain ⟨v, rfl, h⟩ : ∃ v, vars = [v] ∧
        VarField.setFixedIdx 0 v = VarField.setFixedIdx 0 (.enum [] 0 (layouts chk cs [])) := by
      simpa [Slot.var] using hvp
    exact ⟨v.fixedIdx, by rw [setFixedIdx_inj h]; rfl⟩
  obtain ⟨fi, rfl⟩ := hvs
  have hnil : ∀ z ∈ idx, z.path = [] := by
    intro z hz
    obtain ⟨g, h1, h2⟩ := hidxF z hz
    have : g.path ∈ fixed.map (·.path) := List.mem_map_of_mem (List.mem_of_getElem? h1)
    rw [hfp] at this
    rw [← h2]
    simpa using this
  obtain ⟨y, hy, hyp⟩ := hidxA f hff
  rw [hfx] at hyp
  obtain ⟨k, hk⟩ := List.getElem?_of_mem hy
  have honly : ∀ z ∈ idx, z = y := by
    intro z hz
    obtain ⟨m, hm⟩ := List.getElem?_of_mem hz
    have := getElem?_of_pairwise_lt hsorted hm hk ((hnil z hz).trans hyp.symm)
    subst this
    rw [hk] at hm
    simpa using hm.symm
  have hvj : y.varIdx = 0 := hidxV 0 _ rfl y hy (by rw [hyp]; rfl)
  obtain ⟨g, hg1, hg2⟩ := hidxF y hy
  refine ⟨?_, y, g, hg1, hin g (List.mem_of_getElem? hg1), ?_⟩
  · intro data i s
    obtain ⟨m', hm1, hm2⟩ := searchIndex_inside hsorted hy (s := i :: s) (by simp)
      (fun z hz hne => absurd (honly z hz) hne) (fun z hz e => by rw [hnil z hz, hyp] at e; simp at e)
    have hqq : i :: s = y.path ++ (i :: s) := by rw [hyp]; simp
    rw [Layout.locate]
    conv => lhs; rw [hqq, hm1]
    simp only [hm2]
    rw [if_pos ((Path.isPrefixOf_iff _ _).2 ⟨_, rfl⟩), getAt_ok (x := i) (by simp)]
    simp only [Res.bind_ok]
    rw [hvj]
    have : (Layout.mk al vo idx fixed [.enum [] fi (layouts chk cs [])]).variableFieldOffset chk 0 data = .ok vo := rfl
    rw [this]
    simp only [Res.bind_ok, Layout.varOffset, ← hqq]
    rfl
  · intro data
    rw [Layout.locate, searchIndex_at hsorted hk hyp 0]
    simp only [Nat.zero_add]
    rw [getAt_ok hk]; rfl

theorem readRaw_take {k : Nat} {a b : Bytes} {o n : Nat} (h : o + k ≤ n) (ha : n ≤ a.length) :
    readRaw k (a.take n ++ b) o = readRaw k a o := by
  have hs : slice (a.take n ++ b) o k = slice a o k := by
    unfold slice
    rw [List.drop_append_of_le_length (by simp; omega), List.take_append_of_le_length (by simp; omega),
      List.drop_take, List.take_take, Nat.min_eq_left (by omega)]
  unfold readRaw
  rw [hs, if_neg (by simp; omega), if_neg (by simp; omega), if_neg (by omega), if_neg (by omega)]

end Verif
