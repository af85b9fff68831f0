import Verif.Model.Volume

/-!
# Model of the buffer pool of `src/storage/mod.rs`

Each of `buffer_access`, `release_read_only` and `release_read_write` runs with the mapping mutex locked and is
one step.  Condition variables are not modelled: a task whose `buffer_access` finds no buffer stays where it is
and may try again at any time.
-/

namespace Verif.Storage

/-- `NIL_BUFFER_INDEX`, src/storage/mod.rs L656. -/
def nil : Nat := 2 ^ 32 - 1

/-- `BufferAccess`, src/storage/mod.rs L690-697; a lock is represented by its identity. -/
structure Access where
  lock : Nat
  handles : Nat
  deriving DecidableEq

/-- `Buffer`, src/storage/mod.rs L700-739.  `location`, `mapped` and `pinned` are never read or written after
construction, `submitted` is never written and only decides about notifications. -/
structure Buffer where
  prev : Nat := nil
  next : Nat := nil
  access : Option Access := none
  dirty : Bool := false
  deriving DecidableEq

/-- `BufferListHead`, src/storage/mod.rs L673-686. -/
structure Head where
  head : Nat := nil
  tail : Nat := nil
  deriving DecidableEq

/-- `&buffers[index]`. -/
def buf (bs : List Buffer) (i : Nat) : Res Buffer :=
  match bs[i]? with
  | some b => .ok b
  | none => .error .panic

/-- `buffers[index].link.prev = v`. -/
def setPrev (bs : List Buffer) (i v : Nat) : Res (List Buffer) := do
  let b ← buf bs i
  pure (bs.set i { b with prev := v })

/-- `buffers[index].link.next = v`. -/
def setNext (bs : List Buffer) (i v : Nat) : Res (List Buffer) := do
  let b ← buf bs i
  pure (bs.set i { b with next := v })

/-- `BufferListHead::list_push_front`, src/storage/mod.rs L1155-1169. -/
def pushFront (l : Head) (bs : List Buffer) (i : Nat) : Res (Head × List Buffer) := do
  let b ← buf bs i
  assert (b.next == nil)
  assert (b.prev == nil)
  if l.head ≠ nil then do
    assert (l.tail != nil)
    let bs ← setNext bs i l.head
    let bs ← setPrev bs l.head i
    pure ({ l with head := i }, bs)
  else do
    assert (l.tail == nil)
    pure ({ head := i, tail := i }, bs)

/-- `BufferListHead::list_push_back`, src/storage/mod.rs L1171-1185. -/
def pushBack (l : Head) (bs : List Buffer) (i : Nat) : Res (Head × List Buffer) := do
  let b ← buf bs i
  assert (b.next == nil)
  assert (b.prev == nil)
  if l.tail ≠ nil then do
    assert (l.head != nil)
    let bs ← setPrev bs i l.tail
    let bs ← setNext bs l.tail i
    pure ({ l with tail := i }, bs)
  else do
    assert (l.tail == nil)
    pure ({ head := i, tail := i }, bs)

/-- The first `if` of `list_remove`, src/storage/mod.rs L1191-1195. -/
def unlinkNext (l : Head) (bs : List Buffer) (prev next : Nat) : Res (Head × List Buffer) :=
  if next ≠ nil then do
    let bs ← setPrev bs next prev
    pure (l, bs)
  else pure ({ l with tail := prev }, bs)

/-- The second `if` of `list_remove`, src/storage/mod.rs L1197-1201. -/
def unlinkPrev (l : Head) (bs : List Buffer) (prev next : Nat) : Res (Head × List Buffer) :=
  if prev ≠ nil then do
    let bs ← setNext bs prev next
    pure (l, bs)
  else pure ({ l with head := next }, bs)

/-- `BufferListHead::list_remove`, src/storage/mod.rs L1187-1205. -/
def listRemove (l : Head) (bs : List Buffer) (i : Nat) : Res (Head × List Buffer) := do
  let b ← buf bs i
  let (l, bs) ← unlinkNext l bs b.prev b.next
  let (l, bs) ← unlinkPrev l bs b.prev b.next
  let bs ← setNext bs i nil
  let bs ← setPrev bs i nil
  pure (l, bs)

/-- `BufferPoolMapping`, src/storage/mod.rs L743-763.  `mapped` is the `BTreeMap`; `locks` are the free locks with
the last one first; `nextLock` numbers the locks made so far. -/
structure Pool where
  buffers : List Buffer
  mapped : List (Nat × Nat) := []
  locks : List Nat := []
  nextLock : Nat := 0
  inUse : Head := {}
  dirty : Head := {}
  available : Head := {}
  deriving DecidableEq

/-- `mapped_locations.get`. -/
def Pool.find (p : Pool) (location : Nat) : Option Nat := p.mapped.lookup location

/-- The chain built by `BufferPool::new`, src/storage/mod.rs L814-817: `prev` and `next` of buffer `index`. -/
def chainLink (chk : Bool) (index : Nat) : Res Buffer := do
  let p ← subW chk index 1
  let n ← addW chk index 1
  pure { prev := p % 2 ^ 32, next := n % 2 ^ 32 }

/-- The loop of `BufferPool::new`, src/storage/mod.rs L814-817, from `index` on. -/
def chain (chk : Bool) : Nat → Nat → Res (List Buffer)
  | _, 0 => pure []
  | index, n + 1 => do
    let b ← chainLink chk index
    let bs ← chain chk (index + 1) n
    pure (b :: bs)

/-- `BufferPool::new`, src/storage/mod.rs L802-846; `mapOk` says whether the memory could be mapped, `none` is an
I/O error. -/
def Pool.new (chk : Bool) (bufferSize numBuffers : Nat) (mapOk : Bool) : Res (Option Pool) := do
  assert (bufferSize != 0)
  assert (numBuffers != 0)
  assert (isPow2 bufferSize)
  assert (decide (numBuffers < nil))
  let _ ← mulW chk bufferSize numBuffers
  if mapOk then do
    let bs ← chain chk 0 numBuffers
    let bs ← setPrev bs 0 nil
    let bs ← setNext bs (numBuffers - 1) nil
    pure (some { buffers := bs, available := { head := 0, tail := numBuffers - 1 } })
  else pure none

/-- `BufferPoolMapping::alloc_lock`, src/storage/mod.rs L766-771: the lock and the pool without it. -/
def Pool.allocLock (p : Pool) : Nat × Pool :=
  match p.locks with
  | l :: ls => (l, { p with locks := ls })
  | [] => (p.nextLock, { p with nextLock := p.nextLock + 1 })

/-- `buffers[index].access = Some(BufferAccess { lock, num_handles: 1 })` with a lock from `alloc_lock`, then
`try_write().unwrap()` on it: src/storage/mod.rs L951-964 and L976-989.  `held` says which locks are held by some
guard. -/
def Pool.open (p : Pool) (held : Nat → Bool) (i : Nat) : Res (Pool × Nat) := do
  let (lock, p) := p.allocLock
  let b ← buf p.buffers i
  assert (!held lock)
  pure ({ p with buffers := p.buffers.set i { b with access := some ⟨lock, 1⟩ } }, lock)

/-- What `buffer_access` returns: the index of the buffer, its lock, and whether the caller holds the write guard
and has to provide the content. -/
structure Grant where
  index : Nat
  lock : Nat
  init : Bool
  deriving DecidableEq

/-- The branch of `buffer_access` for a location that is not mapped, src/storage/mod.rs L939-970; `none` means that
the task waits. -/
def Pool.accessNew (p : Pool) (held : Nat → Bool) (location : Nat) : Res (Option (Pool × Grant)) :=
  if p.available.tail ≠ nil then do
    let i := p.available.tail
    let (l, bs) ← listRemove p.available p.buffers i
    let (l, bs) ← pushFront l bs i
    let p := { p with available := l, buffers := bs, mapped := (location, i) :: p.mapped }
    let b ← buf bs i
    assert b.access.isNone
    let (p, lock) ← p.open held i
    pure (some (p, ⟨i, lock, true⟩))
  else pure none

/-- The branch of `buffer_access` for a location that is mapped to buffer `i`, src/storage/mod.rs L972-998. -/
def Pool.accessMapped (chk : Bool) (p : Pool) (held : Nat → Bool) (i : Nat) : Res (Option (Pool × Grant)) := do
  let b ← buf p.buffers i
  match b.access with
  | none => do
    let (p, lock) ← p.open held i
    pure (some (p, ⟨i, lock, true⟩))
  | some a => do
    let n ← addN chk 32 a.handles 1
    pure (some ({ p with buffers := p.buffers.set i { b with access := some { a with handles := n } } },
      ⟨i, a.lock, false⟩))

/-- `BufferPool::buffer_access`, src/storage/mod.rs L929-1002. -/
def Pool.access (chk : Bool) (p : Pool) (held : Nat → Bool) (location : Nat) : Res (Option (Pool × Grant)) :=
  match p.find location with
  | none => p.accessNew held location
  | some i => p.accessMapped chk held i

/-- The end of `release_read_only` and `release_read_write` for the last handle, src/storage/mod.rs L1041-1062 and
L1102-1118. -/
def Pool.retire (p : Pool) (i lock : Nat) (dirty : Bool) : Res Pool := do
  let (u, bs) ← listRemove p.inUse p.buffers i
  if dirty then do
    let (d, bs) ← pushFront p.dirty bs i
    pure { p with locks := lock :: p.locks, inUse := u, dirty := d, buffers := bs }
  else do
    let (a, bs) ← pushFront p.available bs i
    pure { p with locks := lock :: p.locks, inUse := u, available := a, buffers := bs }

/-- The handle count part of both release functions, src/storage/mod.rs L1012-1039 and L1070-1100, for a buffer
`b` at index `i`. -/
def Pool.drop (p : Pool) (i : Nat) (b : Buffer) : Res Pool :=
  match b.access with
  | none => .error .panic
  | some a => do
    assert (decide (a.handles > 0))
    if a.handles > 1 then
      pure { p with buffers := p.buffers.set i { b with access := some { a with handles := a.handles - 1 } } }
    else
      Pool.retire { p with buffers := p.buffers.set i { b with access := none } } i a.lock b.dirty

/-- `BufferPool::release_read_only` (`write = false`), src/storage/mod.rs L1005-1062, and
`BufferPool::release_read_write` (`write = true`), L1065-1118. -/
def Pool.release (p : Pool) (i : Nat) (write : Bool) : Res Pool := do
  let b ← buf p.buffers i
  p.drop i { b with dirty := b.dirty || write }

/-! ## Tasks -/

/-- `access_read_only`, `access_read_write` and `access_initialize`. -/
inductive Kind where
  | readOnly
  | readWrite
  | initialize
  deriving DecidableEq

/-- Does the handle hold a write guard? -/
def Kind.write : Kind → Bool
  | .readOnly => false
  | _ => true

/-- Where a task is.  A task that uses several handles at once is represented by several tasks.  `index` and `lock`
are those of the buffer; `location` is what the task asked for (handles do not store it). -/
inductive Task where
  /-- no handle -/
  | idle
  /-- `(*lock_ptr).read().await` or `.write().await`, src/storage/mod.rs L865, L889, L913 -/
  | waiting (index lock location : Nat) (kind : Kind)
  /-- holds the write guard from `buffer_access` and provides the content, L867-872, L891-896, L915-919 -/
  | loading (index lock location : Nat) (kind : Kind)
  /-- has a handle -/
  | holding (index lock location : Nat) (kind : Kind)
  /-- in `release` after the call of the pool and before `self.guard.take()`, L1231-1232 and L1273-1274 -/
  | leaving (lock : Nat) (write : Bool)
  deriving DecidableEq

/-- The guard held by a task: the lock and whether it is a write guard. -/
def Task.guard : Task → Option (Nat × Bool)
  | .idle => none
  | .waiting _ _ _ _ => none
  | .loading _ lock _ _ => some (lock, true)
  | .holding _ lock _ kind => some (lock, kind.write)
  | .leaving lock write => some (lock, write)

/-- Is there any guard of the lock? -/
def held (tasks : List Task) (lock : Nat) : Bool :=
  tasks.any fun t => match t.guard with
    | some (l, _) => l == lock
    | none => false

/-- Is there a write guard of the lock? -/
def heldWrite (tasks : List Task) (lock : Nat) : Bool :=
  tasks.any fun t => match t.guard with
    | some (l, w) => l == lock && w
    | none => false

/-- The pool, the memory of its buffers and the tasks that use it. -/
structure Sys where
  pool : Pool
  memory : List Bytes
  tasks : List Task

/-- What can happen. -/
inductive Act where
  /-- an idle task calls an access function and runs `buffer_access` -/
  | access (task location : Nat) (kind : Kind)
  /-- a waiting task gets its guard -/
  | acquire (task : Nat)
  /-- a loading task has provided the content -/
  | load (task : Nat)
  /-- the owner of a read-write handle changes the buffer -/
  | write (task : Nat) (content : Bytes)
  /-- `release` up to the end of `release_read_only` or `release_read_write` -/
  | release (task : Nat)
  /-- the rest of `release`: the guard is dropped -/
  | drop (task : Nat)

/-- The content provided for a buffer of `n` bytes: `fetch` for read-only and read-write access, zeros for
`access_initialize`. -/
def provide (fetch : Nat → Res Bytes) (kind : Kind) (location n : Nat) : Res Bytes :=
  match kind with
  | .initialize => .ok (List.replicate n 0)
  | _ => fetch location

/-- A waiting task may get a read guard if there is no write guard, a write guard if there is no guard. -/
def mayAcquire (tasks : List Task) (lock : Nat) (kind : Kind) : Bool :=
  if kind.write then !held tasks lock else !heldWrite tasks lock

/-- One step.  `ok none` means that the action is not possible now; a fault is a panic.  `fetch` is
`VolumeManager::fetch`, which is `unimplemented!()` in the source (L636-638). -/
def step (chk : Bool) (fetch : Nat → Res Bytes) (s : Sys) : Act → Res (Option Sys)
  | .access t location kind =>
    match s.tasks[t]? with
    | some .idle => do
      let r ← s.pool.access chk (held s.tasks) location
      match r with
      | none => pure none
      | some (p, g) =>
        pure (some { s with
          pool := p
          tasks := s.tasks.set t
            (if g.init then .loading g.index g.lock location kind else .waiting g.index g.lock location kind) })
    | _ => pure none
  | .acquire t =>
    match s.tasks[t]? with
    | some (.waiting i lock location kind) =>
      if mayAcquire s.tasks lock kind then
        pure (some { s with tasks := s.tasks.set t (.holding i lock location kind) })
      else pure none
    | _ => pure none
  | .load t =>
    match s.tasks[t]? with
    | some (.loading i lock location kind) => do
      let content ← provide fetch kind location ((s.memory[i]?).getD []).length
      pure (some { s with memory := s.memory.set i content, tasks := s.tasks.set t (.holding i lock location kind) })
    | _ => pure none
  | .write t content =>
    match s.tasks[t]? with
    | some (.holding i _ _ kind) =>
      if kind.write then pure (some { s with memory := s.memory.set i content }) else pure none
    | _ => pure none
  | .release t =>
    match s.tasks[t]? with
    | some (.holding i lock _ kind) => do
      let p ← s.pool.release i kind.write
      pure (some { s with pool := p, tasks := s.tasks.set t (.leaving lock kind.write) })
    | _ => pure none
  | .drop t =>
    match s.tasks[t]? with
    | some (.leaving _ _) => pure (some { s with tasks := s.tasks.set t .idle })
    | _ => pure none

/-- A new system: the pool made by `BufferPool::new`, its memory, and idle tasks. -/
def Sys.start (p : Pool) (memory : List Bytes) (tasks : Nat) : Sys :=
  { pool := p, memory := memory, tasks := List.replicate tasks .idle }

end Verif.Storage
