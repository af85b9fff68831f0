import Verif.Model.BufferStop
import Verif.Spec.BufferPool

/-!
# Vocabulary for tasks that end early
-/

namespace Verif.Storage

open Verif Verif.Spec

/-- The buffer whose handle is left behind in the event: a task is dropped that has been given the buffer, `fetch` fails
for it, or the lock that a task has been given for it is still held. -/
inductive Leaves (chk : Bool) (fetch : Nat → Res Bytes) (s : Sys) : Event → Option Nat → Prop where
  | stop {t i : Nat} {x : Task} {content : Bytes} (ht : s.tasks[t]? = some x) (hb : x.buffer = some i) :
      Leaves chk fetch s (.stop t content) (some i)
  | fetch {t i : Nat} {x : Task} {e : Fault} (hs : step chk fetch s (.load t) = .error e) (ht : s.tasks[t]? = some x)
      (hb : x.buffer = some i) : Leaves chk fetch s (.act (.load t)) (some i)
  | handover {t location i : Nat} {kind : Kind} {e : Fault} (hs : step chk fetch s (.access t location kind) = .error e)
      (hi : s.pool.find location = some i ∨ (s.pool.find location = none ∧ s.pool.available.tail = i))
      (ha : acc s.pool.buffers i = some none) : Leaves chk fetch s (.act (.access t location kind)) (some i)
  | exhausted {t location : Nat} {kind : Kind} {a : Access} {e : Fault}
      (hs : step chk fetch s (.access t location kind) = .error e) (hi : s.pool.find location = none)
      (ha : acc s.pool.buffers s.pool.available.tail = some (some a)) :
      Leaves chk fetch s (.act (.access t location kind)) none
  | fine {a : Act} {s' : Sys} (hs : step chk fetch s a = .ok (some s')) : Leaves chk fetch s (.act a) none

/-- An execution in which tasks end early; `left` are the buffers whose handles have been left behind, one entry for
each handle. -/
inductive Goes (chk : Bool) (fetch : Nat → Res Bytes) (s : Sys) : List Nat → Sys → Prop where
  | refl : Goes chk fetch s [] s
  | next {left : List Nat} {l : Option Nat} {s' s'' : Sys} {e : Event} (h : Goes chk fetch s left s')
      (hs : go chk fetch s' e = some s'') (hl : Leaves chk fetch s' e l) : Goes chk fetch s (l.toList ++ left) s''

/-- The events one after the other; `none` if one of them is not possible. -/
def goes (chk : Bool) (fetch : Nat → Res Bytes) (s : Sys) : List Event → Option Sys
  | [] => some s
  | e :: es => (go chk fetch s e).bind fun s' => goes chk fetch s' es

end Verif.Storage
