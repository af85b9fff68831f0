import Verif.Model.BufferViews
import Verif.Spec.BufferStop

/-! # Vocabulary for the slices of buffers -/

namespace Verif.Storage

open Verif

/-- No two slices of the same buffer of which one is mutable (the rule of Rust for references). -/
def Unaliased (views : List View) : Prop :=
  ∀ (m n : Nat) (a b : View), m ≠ n → views[m]? = some a → views[n]? = some b → a.index = b.index →
    a.mutable = false ∧ b.mutable = false

/-- What a careful owner of a handle does: release it, or write to the buffer in another way, only when none of its
slices is in use; have one mutable slice at a time, and no other slice beside it. -/
def Careful (views : List View) : Deed → Prop
  | .event (.act (.release t)) => ∀ w ∈ views, w.task ≠ t
  | .event (.act (.write t _)) => ∀ w ∈ views, w.task ≠ t
  | .event (.stop t _) => ∀ w ∈ views, w.task ≠ t
  | .borrow t true => ∀ w ∈ views, w.task ≠ t
  | .borrow t false => ∀ w ∈ views, w.task = t → w.mutable = false
  | _ => True

/-- An execution with slices; `left` as in `Goes`. -/
inductive Looks (chk : Bool) (fetch : Nat → Res Bytes) (s : Sys) : List Nat → Viewed → Prop where
  | start : Looks chk fetch s [] ⟨s, []⟩
  | event {left : List Nat} {l : Option Nat} {v v' : Viewed} {e : Event} (h : Looks chk fetch s left v)
      (hc : Careful v.views (.event e)) (hl : Leaves chk fetch v.sys e l)
      (hs : perform chk fetch v (.event e) = some v') : Looks chk fetch s (l.toList ++ left) v'
  | deed {left : List Nat} {v v' : Viewed} {d : Deed} (h : Looks chk fetch s left v) (hd : ∀ e, d ≠ .event e)
      (hc : Careful v.views d) (hs : perform chk fetch v d = some v') : Looks chk fetch s left v'

end Verif.Storage
