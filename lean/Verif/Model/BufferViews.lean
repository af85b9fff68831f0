import Verif.Model.BufferStop

/-!
# The slices of a buffer that the handles give out (`src/storage/mod.rs`)

`buffer_ref` (L1221-1223, L1258-1260) and `buffer_mut` (L1263-1265) return slices with the lifetime of the pool and not
with that of the handle.  So the owner may keep a slice after the release, and may have several of them at once.  A
slice got from a handle that has been released already is the same as one that was got before the release and kept.
-/

namespace Verif.Storage

open Verif

/-- A slice that is still used: the task that got it, the buffer, and whether it is `&mut [u8]`. -/
structure View where
  task : Nat
  index : Nat
  mutable : Bool
  deriving DecidableEq

/-- The pool with its tasks, and the slices in use. -/
structure Viewed where
  sys : Sys
  views : List View

/-- What can happen. -/
inductive Deed where
  | event (e : Event)
  /-- the owner of a handle calls `buffer_ref` or `buffer_mut` -/
  | borrow (task : Nat) (mutable : Bool)
  /-- a slice is not used any more -/
  | finish (view : Nat)
  /-- the bytes are changed through the slice -/
  | put (view : Nat) (content : Bytes)

/-- One step; `none` means that it is not possible.  `buffer_ref` is there for both kinds of handles
(src/storage/mod.rs L1221-1223, L1258-1260), `buffer_mut` only for `ReadWriteBufferHandle` (L1263-1265). -/
def perform (chk : Bool) (fetch : Nat → Res Bytes) (v : Viewed) : Deed → Option Viewed
  | .event e => (go chk fetch v.sys e).map fun s => { v with sys := s }
  | .borrow t mutable =>
    match v.sys.tasks[t]? with
    | some (.holding i _ _ kind) =>
      if mutable && !kind.write then none else some { v with views := ⟨t, i, mutable⟩ :: v.views }
    | _ => none
  | .finish n => if n < v.views.length then some { v with views := v.views.eraseIdx n } else none
  | .put n content =>
    match v.views[n]? with
    | some w =>
      if w.mutable then some { v with sys := { v.sys with memory := v.sys.memory.set w.index content } } else none
    | none => none

end Verif.Storage
