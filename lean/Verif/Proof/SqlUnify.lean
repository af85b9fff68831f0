import Verif.Proof.SqlRows
import Verif.Spec.SqlUnify

/-! # Common types, and the lists of IN expressions -/

namespace Verif.Sql

mutual
theorem unify_iff : (l r t : ScalarType) → (l.unify r = .ok t ↔ Unifies l r t)
  | .scalar t1 a, .scalar t2 b, t => by
    unfold ScalarType.unify
    constructor
    · intro h
      split at h
      · rename_i e; cases e; cases h; exact .scalar _ _ _
      · cases h
    · intro h
      cases h
      rw [if_pos rfl]
  | .tuple ls, .tuple rs, t => by
    unfold ScalarType.unify
    constructor
    · intro h
      split at h
      · cases h
      · rename_i hl
        have hl : ls.length = rs.length := Classical.not_not.1 hl
        obtain ⟨ts, h1, h⟩ := Chk.bind_eq_ok.1 h
        cases h
        obtain ⟨h2, h3⟩ := (unifyList_iff ls rs ts hl).1 h1
        exact .tuple hl h2 h3
    · intro h
      cases h with
      | tuple hl h2 h3 =>
        rw [if_neg (by simp [hl]), (unifyList_iff ls rs _ hl).2 ⟨h2, h3⟩]
        rfl
  | .tuple _, .scalar _ _, t => by
    unfold ScalarType.unify
    exact ⟨fun h => (by cases h), fun h => (by cases h)⟩
  | .scalar _ _, .tuple _, t => by
    unfold ScalarType.unify
    exact ⟨fun h => (by cases h), fun h => (by cases h)⟩
theorem unifyList_iff : (ls rs ts : List ScalarType) → ls.length = rs.length →
    (ScalarType.unifyList ls rs = .ok ts ↔ ts.length = ls.length ∧ ∀ (i : Nat) (l r t : ScalarType),
      ls[i]? = some l → rs[i]? = some r → ts[i]? = some t → Unifies l r t)
  | [], [], ts, _ => by
    unfold ScalarType.unifyList
    constructor
    · intro h; cases h; exact ⟨rfl, by simp⟩
    · rintro ⟨h, _⟩
      cases ts with
      | nil => rfl
      | cons _ _ => cases h
  | [], _ :: _, _, h => by cases h
  | _ :: _, [], _, h => by cases h
  | l :: ls, r :: rs, ts, hl => by
    unfold ScalarType.unifyList
    constructor
    · intro h
      obtain ⟨t, h1, h⟩ := Chk.bind_eq_ok.1 h
      obtain ⟨ts', h2, h⟩ := Chk.bind_eq_ok.1 h
      cases h
      have h1 := (unify_iff l r t).1 h1
      obtain ⟨h3, h4⟩ := (unifyList_iff ls rs ts' (by simpa using hl)).1 h2
      refine ⟨by simp [h3], ?_⟩
      intro i a b c ha hb hc
      cases i with
      | zero => simp at ha hb hc; subst ha hb hc; exact h1
      | succ i => exact h4 i a b c (by simpa using ha) (by simpa using hb) (by simpa using hc)
    · rintro ⟨h1, h2⟩
      cases ts with
      | nil => cases h1
      | cons t ts =>
        rw [(unify_iff l r t).2 (h2 0 l r t rfl rfl rfl), Chk.bind_ok,
          (unifyList_iff ls rs ts (by simpa using hl)).2
            ⟨by simpa using h1, fun i a b c ha hb hc => h2 (i + 1) a b c (by simpa using ha) (by simpa using hb)
              (by simpa using hc)⟩]
        rfl
end

theorem foldList_error {N : Type} {ops : NameOps N} (sc : ScalarContext N) (es : List (Expr N)) :
    ∀ (x : Stop) (t : ScalarType), foldList ops sc (.error x) es ≠ .ok t := by
  induction es with
  | nil => intro x t h; unfold foldList at h; cases h
  | cons e es ih =>
    intro x t h
    unfold foldList at h
    cases x with
    | panic => cases h
    | err y =>
      simp only at h
      cases he : inferExpr ops sc e with
      | error z => rw [he] at h; exact ih _ _ h
      | ok u => rw [he] at h; exact ih _ _ h

theorem foldList_ok {N : Type} {ops : NameOps N} (sc : ScalarContext N) (es : List (Expr N)) :
    ∀ (typ : DataType) (a : Bool) (t : DataType) (n : Bool),
      foldList ops sc (.ok (.scalar typ a)) es = .ok (.scalar t n) ↔ typ = t ∧ ∃ ns : List Bool,
        ns.length = es.length ∧ n = (a || ns.any id) ∧ ∀ (i : Nat) (e : Expr N) (b : Bool), es[i]? = some e →
          ns[i]? = some b → inferExpr ops sc e = .ok (.scalar t b) := by
  induction es with
  | nil =>
    intro typ a t n
    unfold foldList
    constructor
    · intro h; cases h; exact ⟨rfl, [], rfl, by simp, by simp⟩
    · rintro ⟨rfl, ns, h1, h2, _⟩
      cases ns with
      | nil => simp at h2; rw [h2]
      | cons _ _ => cases h1
  | cons e es ih =>
    intro typ a t n
    unfold foldList
    simp only
    constructor
    · intro h
      cases he : inferExpr ops sc e with
      | error z => rw [he] at h; exact absurd h (foldList_error sc es _ _)
      | ok u =>
        rw [he, Chk.bind_ok] at h
        cases hu : (ScalarType.scalar typ a).unify u with
        | error z => rw [hu] at h; exact absurd h (foldList_error sc es _ _)
        | ok w =>
          rw [hu] at h
          cases (unify_iff _ _ _).1 hu with
          | scalar _ _ b =>
            obtain ⟨rfl, ns, h1, h2, h3⟩ := (ih typ (a || b) t n).1 h
            refine ⟨rfl, b :: ns, by simp [h1], by simp [h2, Bool.or_assoc], ?_⟩
            intro i d c hd hc
            cases i with
            | zero => simp at hd hc; subst hd hc; exact he
            | succ i => exact h3 i d c (by simpa using hd) (by simpa using hc)
    · rintro ⟨rfl, ns, h1, h2, h3⟩
      cases ns with
      | nil => cases h1
      | cons b ns =>
        rw [h3 0 e b rfl rfl, Chk.bind_ok, (unify_iff _ _ _).2 (.scalar typ a b)]
        exact (ih typ (a || b) typ n).2 ⟨rfl, ns, by simpa using h1, by simp [h2, Bool.or_assoc],
          fun i d c hd hc => h3 (i + 1) d c (by simpa using hd) (by simpa using hc)⟩

/-- Elements whose type is a tuple do not make a list. -/
theorem foldList_tuple {N : Type} {ops : NameOps N} (sc : ScalarContext N) (es : List (Expr N)) :
    ∀ (ts : List ScalarType) (t : DataType) (n : Bool), foldList ops sc (.ok (.tuple ts)) es ≠ .ok (.scalar t n) := by
  induction es with
  | nil => intro ts t n h; unfold foldList at h; cases h
  | cons e es ih =>
    intro ts t n h
    unfold foldList at h
    simp only at h
    cases he : inferExpr ops sc e with
    | error z => rw [he] at h; exact foldList_error sc es _ _ h
    | ok u =>
      rw [he, Chk.bind_ok] at h
      cases hu : (ScalarType.tuple ts).unify u with
      | error z => rw [hu] at h; exact foldList_error sc es _ _ h
      | ok w =>
        rw [hu] at h
        cases (unify_iff _ _ _).1 hu with
        | tuple _ _ _ => exact ih _ _ _ h

theorem inferList_iff {N : Type} {ops : NameOps N} (sc : ScalarContext N) (es : List (Expr N)) (t : DataType) (n : Bool) :
    inferList ops sc es = .ok (.scalar t n) ↔ es ≠ [] ∧ ∃ ns : List Bool, ns.length = es.length ∧
      n = ns.any id ∧ ∀ (i : Nat) (e : Expr N) (b : Bool), es[i]? = some e → ns[i]? = some b →
        inferExpr ops sc e = .ok (.scalar t b) := by
  cases es with
  | nil => unfold inferList; exact ⟨fun h => (by cases h), fun h => absurd rfl h.1⟩
  | cons e es =>
    unfold inferList
    constructor
    · intro h
      refine ⟨by simp, ?_⟩
      cases he : inferExpr ops sc e with
      | error z => rw [he] at h; exact absurd h (foldList_error sc es _ _)
      | ok u =>
        rw [he] at h
        cases u with
        | tuple ts => exact absurd h (foldList_tuple sc es _ _ _)
        | scalar typ b =>
          obtain ⟨rfl, ns, h1, h2, h3⟩ := (foldList_ok sc es typ b t n).1 h
          refine ⟨b :: ns, by simp [h1], by simp [h2], ?_⟩
          intro i d c hd hc
          cases i with
          | zero => simp at hd hc; subst hd hc; exact he
          | succ i => exact h3 i d c (by simpa using hd) (by simpa using hc)
    · rintro ⟨_, ns, h1, h2, h3⟩
      cases ns with
      | nil => cases h1
      | cons b ns =>
        rw [h3 0 e b rfl rfl]
        exact (foldList_ok sc es t b t n).2 ⟨rfl, ns, by simpa using h1, by simp [h2],
          fun i d c hd hc => h3 (i + 1) d c (by simpa using hd) (by simpa using hc)⟩

end Verif.Sql
