import Verif.Model.BufferPool
import Verif.Spec.BufferList

/-!
# What the properties of the buffer pool talk about

Executions, the tasks that use a buffer, the three lists of the pool, and what was written to a buffer.
-/

namespace Verif.Storage

open Verif Verif.Spec

/-- `s'` can be reached from `s` without a panic. -/
inductive Reach (chk : Bool) (fetch : Nat → Res Bytes) (s : Sys) : Sys → Prop where
  | refl : Reach chk fetch s s
  | next {s' s'' : Sys} {a : Act} (h : Reach chk fetch s s') (hs : step chk fetch s' a = .ok (some s'')) :
      Reach chk fetch s s''

/-- The actions are executed one after the other; `none` if one of them is not possible. -/
def run (chk : Bool) (fetch : Nat → Res Bytes) (s : Sys) : List Act → Res (Option Sys)
  | [] => .ok (some s)
  | a :: as =>
    match step chk fetch s a with
    | .ok (some s') => run chk fetch s' as
    | .ok none => .ok none
    | .error e => .error e

/-- The access record of buffer `i`: `none` if there is no such buffer. -/
def acc (bs : List Buffer) (i : Nat) : Option (Option Access) := (bs[i]?).map (·.access)

/-- The buffer that a task has been given. -/
def Task.buffer : Task → Option Nat
  | .waiting i _ _ _ => some i
  | .loading i _ _ _ => some i
  | .holding i _ _ _ => some i
  | _ => none

/-- The location that a task has asked for. -/
def Task.location : Task → Option Nat
  | .waiting _ _ l _ => some l
  | .loading _ _ l _ => some l
  | .holding _ _ l _ => some l
  | _ => none

/-- The lock of the buffer that a task has been given. -/
def Task.bufferLock : Task → Nat
  | .waiting _ l _ _ => l
  | .loading _ l _ _ => l
  | .holding _ l _ _ => l
  | _ => 0

/-- The number of tasks that have been given buffer `i` and have not released it. -/
def users (tasks : List Task) (i : Nat) : Nat := tasks.countP fun t => t.buffer == some i

/-- The previous and the next index stored in buffer `i`. -/
def linkOf (bs : List Buffer) (i : Nat) : Option (Nat × Nat) := (bs[i]?).map fun b => (b.prev, b.next)

/-- The three lists of the pool: available, in use and dirty. -/
def poolHeads (p : Pool) : Nat → Head
  | 0 => p.available
  | 1 => p.inUse
  | 2 => p.dirty
  | _ => {}

/-- The buffers hold the lists `L` that start and end at `heads`. -/
def Holds (heads : Nat → Head) (bs : List Buffer) (L : Nat → List Nat) : Prop :=
  HoldsLists nil bs.length (linkOf bs) (fun k => ((heads k).head, (heads k).tail)) L

/-- The available list, the in-use list and the dirty list partition the buffers. -/
def Partitioned (p : Pool) : Prop :=
  ∃ L, Holds (poolHeads p) p.buffers L ∧ ∀ i, i < p.buffers.length → ∃ k, k < 3 ∧ i ∈ L k

/-- An execution without releases. -/
inductive Quiet (chk : Bool) (fetch : Nat → Res Bytes) (s : Sys) : Sys → Prop where
  | refl : Quiet chk fetch s s
  | next {s' s'' : Sys} {a : Act} (h : Quiet chk fetch s s') (ha : ∀ t, a ≠ .release t)
      (hs : step chk fetch s' a = .ok (some s'')) : Quiet chk fetch s s''

/-- The buffer is neither the first nor the last of its list. -/
def Middle (bs : List Buffer) (i : Nat) : Prop := ∃ a b, linkOf bs i = some (a, b) ∧ a ≠ nil ∧ b ≠ nil

/-- The action is not the release of the last handle of a buffer at an end of its list. -/
def GentleAct (s : Sys) (a : Act) : Prop :=
  ∀ t i lock location kind, a = .release t → s.tasks[t]? = some (.holding i lock location kind) →
    users s.tasks i = 1 → Middle s.pool.buffers i

/-- An execution of such actions. -/
inductive Gentle (chk : Bool) (fetch : Nat → Res Bytes) (s : Sys) : Sys → Prop where
  | refl : Gentle chk fetch s s
  | next {s' s'' : Sys} {a : Act} (h : Gentle chk fetch s s') (ha : GentleAct s' a)
      (hs : step chk fetch s' a = .ok (some s'')) : Gentle chk fetch s s''

/-- `ls` are the locations used so far: those that are mapped to a buffer. -/
def Used (p : Pool) (ls : List Nat) : Prop := ls.Nodup ∧ ∀ l, l ∈ ls ↔ ∃ i, p.find l = some i

/-- An execution in which buffer `i` is used by some task all the time; `last` is what was written to it last. -/
inductive Kept (chk : Bool) (fetch : Nat → Res Bytes) (i : Nat) (s : Sys) : Option Bytes → Sys → Prop where
  | refl : Kept chk fetch i s none s
  | write {last : Option Bytes} {s' s'' : Sys} {t lock location : Nat} {kind : Kind} {content : Bytes}
      (h : Kept chk fetch i s last s') (ht : s'.tasks[t]? = some (.holding i lock location kind))
      (hs : step chk fetch s' (.write t content) = .ok (some s'')) (hu : 0 < users s''.tasks i) :
      Kept chk fetch i s (some content) s''
  | other {last : Option Bytes} {s' s'' : Sys} {a : Act} (h : Kept chk fetch i s last s')
      (ha : ∀ t content x, a = .write t content → s'.tasks[t]? = some x → x.buffer ≠ some i)
      (hs : step chk fetch s' a = .ok (some s'')) (hu : 0 < users s''.tasks i) : Kept chk fetch i s last s''

/-- The situations in which a step panics: a new location is wanted while the last buffer of the available list is
still in use; the free lock that would be taken is still held by a task that is about to drop it; `fetch` fails. -/
inductive Panics (fetch : Nat → Res Bytes) (s : Sys) : Act → Prop where
  | exhausted {t location : Nat} {kind : Kind} {a : Access} (ht : s.tasks[t]? = some .idle)
      (hf : s.pool.find location = none) (hn : s.pool.available.tail ≠ nil)
      (ha : acc s.pool.buffers s.pool.available.tail = some (some a)) : Panics fetch s (.access t location kind)
  | handover {t location i l : Nat} {ls : List Nat} {w : Bool} {kind : Kind} (ht : s.tasks[t]? = some .idle)
      (hi : s.pool.find location = some i ∨ (s.pool.find location = none ∧ s.pool.available.tail = i ∧ i ≠ nil))
      (ha : acc s.pool.buffers i = some none) (hl : s.pool.locks = l :: ls) (hg : .leaving l w ∈ s.tasks) :
      Panics fetch s (.access t location kind)
  | fetch {t i lock location : Nat} {kind : Kind} {e : Fault} (ht : s.tasks[t]? = some (.loading i lock location kind))
      (hk : kind ≠ .initialize) (h : fetch location = .error e) : Panics fetch s (.load t)

end Verif.Storage
