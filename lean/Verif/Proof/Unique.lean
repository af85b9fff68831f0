import Verif.Proof.JsonBase
import Verif.Proof.Locate

/-! # A data source presents at most one value of a type -/

namespace Verif

open Spec

theorem presents_part {src : DataSource} {vs : List Val} {p : Path} (h : Presents src (.seq vs) p) {i : Nat} {v : Val}
    (hi : vs[i]? = some v) : Presents src v (p ++ [i]) := fun q l hq =>
  h q l (by rw [leaves, leavesFrom_mem]; exact ⟨i, v, hi, by simpa using hq⟩)

theorem presents_tag {src : DataSource} {i : Nat} {v : Val} {p : Path} (h : Presents src (.case i v) p) :
    src.tag p = .ok i ∧ Presents src v (p ++ [i]) :=
  ⟨h p (.tag i) (by simp [leaves]), fun q l hq => h q l (by rw [leaves]; exact List.mem_cons_of_mem _ hq)⟩

theorem presents_unique {src : DataSource} {t : Ty} {v : Val} (ht : Typed t v) : ∀ {v' : Val}, Typed t v' →
    ∀ {p : Path}, Presents src v p → Presents src v' p → v = v' := by
  induction ht with
  | unit => intro v' h' p _ _; cases h'; rfl
  | prim v =>
    intro v' h' p hp hp'
    obtain ⟨k, x⟩ := v
    generalize hk : Ty.prim (PrimVal.kind ⟨k, x⟩) = t at h'
    cases h' with
    | prim v =>
      obtain ⟨k', x'⟩ := v
      cases hk
      have h1 : src.prim k p = .ok x := hp p (.prim ⟨k, x⟩) (by simp [leaves])
      have h2 : src.prim k p = .ok x' := hp' p (.prim ⟨k, x'⟩) (by simp [leaves])
      rw [h1] at h2
      cases h2
      rfl
    | _ => cases hk
  | str bs =>
    intro v' h' p hp hp'
    cases h' with
    | str bs' =>
      have h1 := (hp p (.str bs) (by simp [leaves])).2
      have h2 := (hp' p (.str bs') (by simp [leaves])).2
      rw [h1] at h2
      cases h2
      rfl
  | @tuple cs vs hlen hc ih =>
    intro v' h' p hp hp'
    cases h' with
    | @tuple _ vs' hlen' hc' =>
      congr 1
      refine List.ext_getElem (by omega) fun i h1 h2 => ?_
      have g1 := List.getElem?_eq_getElem h1
      have g2 := List.getElem?_eq_getElem h2
      have g3 := List.getElem?_eq_getElem (l := cs) (i := i) (by omega)
      exact ih i _ _ g3 g1 (hc' i _ _ g3 g2) (presents_part hp g1) (presents_part hp' g2)
  | @struct fs vs hlen hc ih =>
    intro v' h' p hp hp'
    cases h' with
    | @struct _ vs' hlen' hc' =>
      congr 1
      refine List.ext_getElem (by omega) fun i h1 h2 => ?_
      have g1 := List.getElem?_eq_getElem h1
      have g2 := List.getElem?_eq_getElem h2
      have g3 := List.getElem?_eq_getElem (l := fs) (i := i) (by omega)
      exact ih i _ _ g3 g1 (hc' i _ _ g3 g2) (presents_part hp g1) (presents_part hp' g2)
  | @enum cs i c v hi hv ih =>
    intro v' h' p hp hp'
    cases h' with
    | @enum _ i' c' w hi' hw =>
      obtain ⟨t1, p1⟩ := presents_tag hp
      obtain ⟨t2, p2⟩ := presents_tag hp'
      rw [t1] at t2
      cases t2
      rw [hi] at hi'
      cases hi'
      rw [ih hw p1 p2]

/-- Bytes that begin with an encoding present the encoded value. -/
theorem encoded_presents {chk : Bool} {t : Ty} {v : Val} (h : Fits chk t v) {l : Layout}
    (hl : Layout.new chk t = .ok l) {src : DataSource} (hs : Presents src v []) {buf data : Bytes} {n : Nat}
    (hn : n ≤ buf.length) (he : l.encode chk src buf = .ok (data, n)) (rest : Bytes) :
    Presents (l.source chk (data.take n ++ rest)) v [] ∧ (data.take n).length = n ∧
      ∀ src', Presents src' v [] → l.sizeWithSource chk src' = .ok n := by
  obtain ⟨size, place, hc⟩ := fits_coded h hl
  obtain rfl : size = n := Except.ok.inj ((hc.szs src hs).symm.trans (encode_size he))
  obtain ⟨b, b1, b2, _, b4⟩ := hc.enc buf hn
  have := b1 src hs
  rw [he] at this
  cases this
  have hlen : (data.take size).length = size := by simp; omega
  refine ⟨((b4 _ (by simp; omega) fun i hi => ?_).1.1 lucky_nil).2, hlen, hc.szs⟩
  rw [bit_append, hlen, if_pos hi, bit_take, if_pos hi]

end Verif
