import Verif.Model.BufferPool

/-!
# Model of the buffer pool of `src/storage/mod.rs` when tasks end early

In `Verif/Model/BufferPool.lean` a panic ends everything.  Here it ends the task, and the others go on: the mutex of
`async_std` is not poisoned by a panic.  A task can also be dropped while it waits.
-/

namespace Verif.Storage

/-- The pool after a panic in `buffer_access`, src/storage/mod.rs L929-1002.  `try_write().unwrap()` (L963, L987) is the
last thing `buffer_access` does, so if it fails the pool is as if it had succeeded.  If the assertion that the buffer
has no access record (L950) fails, the buffer has been moved and the location mapped (L940-948).  If the addition to the
number of handles (L995) overflows, nothing has happened yet. -/
def Pool.afterPanic (chk : Bool) (p : Pool) (location : Nat) : Pool :=
  match p.access chk (fun _ => false) location with
  | .ok (some (p', _)) => p'
  | _ =>
    match p.find location with
    | some _ => p
    | none =>
      match listRemove p.available p.buffers p.available.tail with
      | .error _ => p
      | .ok (l, bs) =>
        match pushFront l bs p.available.tail with
        | .error _ => p
        | .ok (l, bs) => { p with available := l, buffers := bs, mapped := (location, p.available.tail) :: p.mapped }

/-- The system after a panic of a task that was doing `a`.  The task holds no guard any more and is ready for
something else.  In `access_read_only` and `access_read_write` the panic may come from `fetch(…).await.unwrap()`
(src/storage/mod.rs L870, L894).  The other actions do not panic. -/
def Sys.afterPanic (chk : Bool) (s : Sys) : Act → Sys
  | .access _ location _ => { s with pool := s.pool.afterPanic chk location }
  | .load t => { s with tasks := s.tasks.set t .idle }
  | _ => s

/-- What can happen. -/
inductive Event where
  /-- a task does something, perhaps with a panic -/
  | act (a : Act)
  /-- a task is dropped; if it is loading, `content` is what is in the buffer then.  A `fetch` that fails after it has
  changed the buffer is the same. -/
  | stop (task : Nat) (content : Bytes)

/-- One step; `none` means that it is not possible now.  A task that is dropped releases its guard and nothing else:
there is nothing in `access_read_only`, `access_read_write` and `access_initialize` (src/storage/mod.rs L860-927) that
would return the handle, and the `drop` of a handle (L1237-1243, L1279-1285) panics without returning it. -/
def go (chk : Bool) (fetch : Nat → Res Bytes) (s : Sys) : Event → Option Sys
  | .act a =>
    match step chk fetch s a with
    | .ok r => r
    | .error _ => some (s.afterPanic chk a)
  | .stop t content =>
    match s.tasks[t]? with
    | some (.waiting _ _ _ _) => some { s with tasks := s.tasks.set t .idle }
    | some (.loading i _ _ _) => some { s with memory := s.memory.set i content, tasks := s.tasks.set t .idle }
    | some (.holding _ _ _ _) => some { s with tasks := s.tasks.set t .idle }
    | _ => none

end Verif.Storage
