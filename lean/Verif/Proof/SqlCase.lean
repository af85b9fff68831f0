import Verif.Proof.SqlSafe
/-! # The guards of a CASE are not looked at -/

namespace Verif.Sql

variable {N : Type} {ops : NameOps N}

/-- The part after THEN. -/
def When.body : When N → Expr N
  | .mk _ body => body

/-- The part after WHEN. -/
def When.guard : When N → Expr N
  | .mk guard _ => guard

theorem foldBodies_congr {sc : ScalarContext N} (ws ws' : List (When N))
    (h : ws.map When.body = ws'.map When.body) (t : ScalarType) :
    foldBodies ops sc t ws = foldBodies ops sc t ws' := by
  induction ws generalizing ws' t with
  | nil =>
    cases ws' with
    | nil => rfl
    | cons w ws' => simp at h
  | cons w ws ih =>
    cases ws' with
    | nil => simp at h
    | cons w' ws' =>
      obtain ⟨g, b⟩ := w
      obtain ⟨g', b'⟩ := w'
      rw [List.map_cons, List.map_cons] at h
      obtain ⟨hb, hr⟩ := List.cons.inj h
      cases (show b = b' from hb)
      unfold foldBodies
      refine congrArg _ (funext fun t' => congrArg _ (funext fun t'' => ?_))
      exact ih ws' hr t''

theorem inferBodies_congr {sc : ScalarContext N} (ws ws' : List (When N))
    (h : ws.map When.body = ws'.map When.body) : inferBodies ops sc ws = inferBodies ops sc ws' := by
  cases ws with
  | nil =>
    cases ws' with
    | nil => rfl
    | cons w ws' => simp at h
  | cons w ws =>
    cases ws' with
    | nil => simp at h
    | cons w' ws' =>
      obtain ⟨g, b⟩ := w
      obtain ⟨g', b'⟩ := w'
      rw [List.map_cons, List.map_cons] at h
      obtain ⟨hb, hr⟩ := List.cons.inj h
      cases (show b = b' from hb)
      unfold inferBodies
      refine congrArg _ (funext fun t' => ?_)
      exact foldBodies_congr ws ws' hr t'

theorem ignored_ok {α : Type} {r : Chk α} (h : r ≠ .error .panic) : ignored r = .ok () := by
  match r, h with
  | .ok _, _ => rfl
  | .error (.err _), _ => rfl
  | .error .panic, h => exact absurd rfl h

theorem checkGuards_ne {sc : ScalarContext N} {check : ScalarType → Chk Unit}
    (hc : ∀ t, check t ≠ .error .panic) (ws : List (When N))
    (h : ∀ w ∈ ws, inferExpr ops sc w.guard ≠ .error .panic) :
    checkGuards ops sc check ws ≠ .error .panic := by
  induction ws with
  | nil => intro h; cases h
  | cons w ws ih =>
    obtain ⟨g, b⟩ := w
    unfold checkGuards
    have h1 : inferExpr ops sc g ≠ .error .panic := h _ List.mem_cons_self
    exact Chk.post_ne (Chk.post_bind (Chk.post_of_ne h1) fun t _ _ =>
      Chk.post_bind (Chk.post_of_ne (hc t)) fun _ _ _ =>
        Chk.post_of_ne (ih fun w hw => h w (List.mem_cons_of_mem _ hw)))

/-- A searched CASE has the type of its bodies, whatever the guards are. -/
theorem case_ignores_guards {sc : ScalarContext N} {ws ws' : List (When N)} (els : Option (Expr N))
    (hb : ws.map When.body = ws'.map When.body)
    (h : ∀ w ∈ ws, inferExpr ops sc w.guard ≠ .error .panic)
    (h' : ∀ w ∈ ws', inferExpr ops sc w.guard ≠ .error .panic) :
    inferExpr ops sc (.case none ws els) = inferExpr ops sc (.case none ws' els) := by
  have hc : ∀ t, guardLogical t ≠ .error .panic := fun t => Chk.post_ne (guardLogical_post t)
  rw [inferExpr, inferExpr, ignored_ok (checkGuards_ne hc ws h), ignored_ok (checkGuards_ne hc ws' h'),
    inferBodies_congr ws ws' hb]

/-- The same for a CASE with an operand. -/
theorem case_ignores_matches {sc : ScalarContext N} {ws ws' : List (When N)} (e : Expr N)
    (els : Option (Expr N)) (hb : ws.map When.body = ws'.map When.body)
    (h : ∀ w ∈ ws, inferExpr ops sc w.guard ≠ .error .panic)
    (h' : ∀ w ∈ ws', inferExpr ops sc w.guard ≠ .error .panic) :
    inferExpr ops sc (.case (some e) ws els) = inferExpr ops sc (.case (some e) ws' els) := by
  rw [inferExpr, inferExpr]
  refine congrArg _ (funext fun et => ?_)
  have hc : ∀ t, guardMatches et t ≠ .error .panic := fun t => Chk.post_ne (guardMatches_post et t)
  rw [ignored_ok (checkGuards_ne hc ws h), ignored_ok (checkGuards_ne hc ws' h'),
    inferBodies_congr ws ws' hb]

end Verif.Sql
