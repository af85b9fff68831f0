import Verif.Spec.BufferStop

/-!
# What it means that tasks get on with their work
-/

namespace Verif.Storage

/-- The task that does it, or that is dropped. -/
def Event.owner : Event → Nat
  | .act (.access t _ _) => t
  | .act (.acquire t) => t
  | .act (.load t) => t
  | .act (.write t _) => t
  | .act (.release t) => t
  | .act (.drop t) => t
  | .stop t _ => t

/-- What brings a task towards the end of its use of a buffer: it gets its guard, provides the content, or returns its
handle.  Nobody is dropped and nobody asks for a buffer. -/
inductive Finishing : Event → Prop where
  | acquire (t : Nat) : Finishing (.act (.acquire t))
  | load (t : Nat) : Finishing (.act (.load t))
  | release (t : Nat) : Finishing (.act (.release t))
  | drop (t : Nat) : Finishing (.act (.drop t))

/-- The number of events a task has before it until it has no handle any more. -/
def Task.ahead : Task → Nat
  | .idle => 0
  | .leaving _ _ => 1
  | .holding _ _ _ _ => 2
  | .loading _ _ _ _ => 3
  | .waiting _ _ _ _ => 3

/-- The events all tasks have before them. -/
def ahead (tasks : List Task) : Nat := (tasks.map Task.ahead).sum

end Verif.Storage
