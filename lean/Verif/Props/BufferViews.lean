import Verif.Proof.BufferViews
import Verif.Props.BufferStop

/-! # The slices of buffers: C118

`Looks` are the executions in which the owners of handles are careful with their slices; the types allow others. -/

namespace Verif.Props

open Verif Verif.Storage Verif.Spec

/-- In every state of every execution in which owners of handles are careful, there are no two slices of a buffer of
which one is mutable, no task loads a buffer of which there is a slice, and a mutable slice belongs to the only handle
of the buffer.

Full statement: there are never two slices of a buffer of which one is mutable; `C118_two_slices_refuted` and
`C118_kept_slice_refuted` show that it is false. -/
theorem C118_slices_partial {chk : Bool} {fetch : Nat → Res Bytes} {size n tasks : Nat} {p : Pool}
    {memory : List Bytes} {left : List Nat} {v : Viewed} (hp : Pool.new chk size n true = .ok (some p))
    (ht : tasks + left.length < 2 ^ 32) (hr : Looks chk fetch (Sys.start p memory tasks) left v) :
    Unaliased v.views ∧
    (∀ w ∈ v.views, ∀ lock location kind, .loading w.index lock location kind ∉ v.sys.tasks) ∧
    ∀ w ∈ v.views, w.mutable = true → ∀ (u lock location : Nat) (kind : Kind),
      v.sys.tasks[u]? = some (.holding w.index lock location kind) → u = w.task := by
  have hg := (good_start (tasks := tasks) (memory := memory) hp (by omega)).1
  obtain ⟨_, gs, _, _, g⟩ := hr.goes.good hg (by simpa [Sys.start] using ht)
  have o := hr.owned
  refine ⟨o.unaliased g, ?_, ?_⟩
  · intro w hw lock location kind hl
    obtain ⟨l, loc, k, h1, _⟩ := o.held w hw
    obtain ⟨u, hu⟩ := List.getElem?_of_mem hl
    have := g.alone (l := lock) (more_get hu) (more_get h1) rfl rfl rfl rfl rfl rfl
    subst this
    rw [h1] at hu
    cases hu
  · intro w hw hm u lock location kind hu
    obtain ⟨l, loc, k, h1, h2⟩ := o.held w hw
    have := g.alone (l := l) (more_get h1) (more_get hu) rfl rfl (by simp [Task.guard, h2 hm]) rfl rfl rfl
    exact this.symm

/-- As long as everybody is careful, what is seen through a slice changes only when it is changed through this very
slice: not by loads, by writes of others, or by the end of tasks. -/
theorem C118_contents_partial {chk : Bool} {fetch : Nat → Res Bytes} {size n tasks : Nat} {p : Pool}
    {memory : List Bytes} {left : List Nat} {v v' : Viewed} (hp : Pool.new chk size n true = .ok (some p))
    (ht : tasks + left.length < 2 ^ 32) (hr : Looks chk fetch (Sys.start p memory tasks) left v) {d : Deed}
    (hc : Careful v.views d) (hs : perform chk fetch v d = some v') {m : Nat} {w : View} (hw : v.views[m]? = some w)
    (hd : ∀ c, d ≠ .put m c) : v'.sys.memory[w.index]? = v.sys.memory[w.index]? := by
  have hg := (good_start (tasks := tasks) (memory := memory) hp (by omega)).1
  obtain ⟨_, gs, _, _, g⟩ := hr.goes.good hg (by simpa [Sys.start] using ht)
  exact hr.owned.contents g hc hs hw hd

/-- A change through a slice is a write of the owner, so everything that holds for all executions of the pool holds
for those with slices. -/
theorem C118_executions {chk : Bool} {fetch : Nat → Res Bytes} {s : Sys} {left : List Nat} {v : Viewed}
    (hr : Looks chk fetch s left v) : Goes chk fetch s left v.sys := hr.goes

/-- A careful execution from a list of acts. -/
theorem looks_run {chk : Bool} {fetch : Nat → Res Bytes} {s s' : Sys} {left : List Nat} {v : Viewed} {as : List Act}
    (h : Looks chk fetch s left v) (hv : v.views = []) (hs : run chk fetch v.sys as = .ok (some s')) :
    Looks chk fetch s left ⟨s', []⟩ := by
  induction as generalizing v with
  | nil =>
    injection hs with hs
    injection hs with hs
    obtain ⟨s1, vs⟩ := v
    cases hv
    cases hs
    exact h
  | cons a as ih =>
    unfold run at hs
    split at hs
    · rename_i s1 hr
      refine ih (v := ⟨s1, []⟩) (Looks.event (l := none) h ?_ (.fine hr) ?_) rfl hs
      · rw [hv]; cases a <;> (try trivial) <;> (intro w hw; cases hw)
      · simp only [perform, go, hr, Option.map_some]; rw [hv]
    · cases hs
    · cases hs

/-- A task has a mutable slice of buffer 1 and changes it; two others wait. -/
example (fetch : Nat → Res Bytes) : ∃ v, Looks false fetch fourTasks [] v ∧ v.views = [⟨0, 1, true⟩] ∧
    v.sys.memory[1]? = some [8, 9] ∧ v.sys.tasks[1]? = some (.waiting 1 0 7 .readOnly) ∧
    Careful v.views (.event (.act (.access 3 8 .readOnly))) ∧
    (perform false fetch v (.event (.act (.access 3 8 .readOnly)))).isSome = true :=
  ⟨_, Looks.deed (d := .put 0 [8, 9]) (Looks.deed (d := .borrow 0 true)
    (looks_run (as := [.access 0 7 .initialize, .access 1 7 .readOnly, .access 2 7 .readWrite, .load 0]) .start rfl rfl)
    (by simp) (fun w hw => nomatch hw) rfl) (by simp) trivial rfl, rfl, rfl, rfl, trivial, rfl⟩

/-- The owner of a read-write handle can always get two mutable slices of the buffer. -/
theorem C118_two_slices_refuted {chk : Bool} {fetch : Nat → Res Bytes} {v : Viewed} {t i lock location : Nat} {kind : Kind}
    (ht : v.sys.tasks[t]? = some (.holding i lock location kind)) (hk : kind ≠ .readOnly) :
    ∃ v1 v2, perform chk fetch v (.borrow t true) = some v1 ∧ perform chk fetch v1 (.borrow t true) = some v2 ∧
      ¬ Unaliased v2.views := by
  have hw : kind.write = true := by cases kind <;> first | rfl | exact absurd rfl hk
  refine ⟨{ v with views := ⟨t, i, true⟩ :: v.views }, { v with views := ⟨t, i, true⟩ :: ⟨t, i, true⟩ :: v.views },
    by simp [perform, ht, hw], by simp [perform, ht, hw], ?_⟩
  intro h
  exact absurd (h 0 1 _ _ (by simp) rfl rfl rfl).1 (by simp)

example (fetch : Nat → Res Bytes) : ∃ v : Viewed, Looks false fetch fourTasks [] v ∧
    v.sys.tasks[0]? = some (.holding 1 0 7 .initialize) :=
  ⟨_, looks_run (as := [.access 0 7 .initialize, .load 0]) .start rfl rfl, rfl⟩

/-- The deeds one after the other; `none` if one of them is not possible. -/
def performAll (chk : Bool) (fetch : Nat → Res Bytes) (v : Viewed) : List Deed → Option Viewed
  | [] => some v
  | d :: ds => (perform chk fetch v d).bind fun v' => performAll chk fetch v' ds

/-- A task keeps its slice after the release.  Another task then holds a read-only handle and has a slice of the same
buffer, and what it sees is changed. -/
theorem C118_kept_slice_refuted (fetch : Nat → Res Bytes) :
    ∃ v v', performAll false fetch ⟨fourTasks, []⟩
        ([.access 0 7 .initialize, .access 1 7 .readOnly, .load 0].map (fun a => .event (.act a)) ++ [.borrow 0 true] ++
          [.release 0, .drop 0, .acquire 1].map (fun a => .event (.act a)) ++ [.borrow 1 false]) = some v ∧
      v.sys.tasks[0]? = some .idle ∧ v.sys.tasks[1]? = some (.holding 1 0 7 .readOnly) ∧ ¬ Unaliased v.views ∧
      v.sys.memory[1]? = some [0, 0] ∧ perform false fetch v (.put 1 [8, 9]) = some v' ∧
      v'.sys.memory[1]? = some [8, 9] := by
  refine ⟨_, _, rfl, rfl, rfl, ?_, rfl, rfl, rfl⟩
  intro h
  exact absurd (h 0 1 _ _ (by simp) rfl rfl rfl).2 (by simp)

end Verif.Props
