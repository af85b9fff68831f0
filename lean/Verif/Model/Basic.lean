/-!
# Outcomes, machine arithmetic and byte buffers

Shared vocabulary of the model.  None of this is specific to the repository; the repository
functions are in the other files of this directory.
-/

namespace Verif

/-- The two ways a Rust function can fail to return: a panic (`assert!`, `unwrap`, slice index out of
range, arithmetic overflow with overflow checks), or undefined behaviour (a raw pointer access outside
the slice it was made from, an invalid `bool` or `char` bit pattern). -/
inductive Fault where
  | panic
  | ub
  deriving DecidableEq, Repr

/-- Result of a function that may fault.  Rust `Result::Err` values are *not* faults. -/
abbrev Res (α : Type) := Except Fault α

deriving instance DecidableEq for Except

/-- `assert!(b)` / `assert_eq!`. -/
def assert (b : Bool) : Res Unit := if b then .ok () else .error .panic

/-- Number of 64-bit words; `usize` and `u64` values are naturals below this. -/
notation "W64" => (18446744073709551616 : Nat)

/-- `a + b` on `usize`/`u64`. `chk` = overflow checks enabled (debug profile). -/
def addW (chk : Bool) (a b : Nat) : Res Nat :=
  if a + b < W64 then .ok (a + b) else if chk then .error .panic else .ok ((a + b) % W64)

/-- `a - b` on `usize`/`u64`. `chk` = overflow checks enabled (debug profile). -/
def subW (chk : Bool) (a b : Nat) : Res Nat :=
  if b ≤ a then .ok (a - b) else if chk then .error .panic else .ok (a + W64 - b)

/-- `!a` on `usize`/`u64`. -/
def notW (a : Nat) : Nat := W64 - 1 - a

/-- `a - b` where a negative result is a panic (overflow checks on). -/
def subP (a b : Nat) : Res Nat := if b ≤ a then .ok (a - b) else .error .panic

/-- `x.count_ones()` of a `w`-bit word. -/
def countOnes : Nat → Nat → Nat
  | 0, _ => 0
  | w + 1, x => (if x.testBit w then 1 else 0) + countOnes w x

/-- `x.leading_zeros()` of a `w`-bit word. -/
def leadingZeros : Nat → Nat → Nat
  | 0, _ => 0
  | w + 1, x => if x.testBit w then 0 else leadingZeros w x + 1

/-- `x.trailing_zeros()` of a `w`-bit word, counted from bit `i`. -/
def trailingZerosFrom (w x i : Nat) : Nat :=
  if i < w then (if x.testBit i then 0 else trailingZerosFrom w x (i + 1) + 1) else 0
termination_by w - i

/-- `x.trailing_zeros()` of a `w`-bit word. -/
def trailingZeros (w x : Nat) : Nat := trailingZerosFrom w x 0

/-- `x.is_power_of_two()` of a 64-bit word: exactly one bit is set. -/
def isPow2 (x : Nat) : Bool := countOnes 64 x == 1

/-- A byte buffer or slice. -/
abbrev Bytes := List UInt8

/-- The `n` bytes of a native (little endian) integer. -/
def leBytes : Nat → Nat → Bytes
  | 0, _ => []
  | n + 1, v => UInt8.ofNat (v % 256) :: leBytes n (v / 256)

/-- The integer read from native (little endian) bytes. -/
def leVal : Bytes → Nat
  | [] => 0
  | b :: bs => b.toNat + 256 * leVal bs

/-- `&buf[off .. off + n]`; callers check the range. -/
def slice (buf : Bytes) (off n : Nat) : Bytes := (buf.drop off).take n

/-- Overwrite `buf[off .. off + bs.len()]` by `bs`; callers check the range. -/
def splice (buf : Bytes) (off : Nat) (bs : Bytes) : Bytes :=
  buf.take off ++ bs ++ buf.drop (off + bs.length)

end Verif
