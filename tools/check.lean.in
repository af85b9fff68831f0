import Verif.Proof.SqlLrData
/-!
# Checking the tables of the SQL parser

Local conditions on the tables of `src/sql/parser.rs` and the annotations of `Verif/Proof/SqlLrData.lean`, evaluated by
the kernel.  The general theorems about the parser (`Verif/Proof/SqlLr*.lean`) use the tables only through the
consequences of these checks.
-/

namespace Verif.Sql.Parser

/-- A production. -/
def rule (p : Nat) : Nat × List Sym := (ruleTable[p / 16]?.getD [])[p % 16]?.getD (0, [])

/-- Left side of a production. -/
def lhs (p : Nat) : Nat := (rule p).1

/-- Right side of a production. -/
def rhs (p : Nat) : List Sym := (rule p).2

/-- The items of a state. -/
def itemRow (s : Nat) : List Nat := (itemTable[s / 12]?.getD [])[s % 12]?.getD []

/-- The item with this production and dot (`key`) and at least this lookahead is in the row. -/
def rowHas (key la : Nat) : List Nat → Bool
  | [] => false
  | x :: r => bif Nat.beq (x % 4096) key then Nat.beq (Nat.land (x / 4096) la) la else rowHas key la r

/-- An item with this production and dot is in the row. -/
def rowKey (key : Nat) : List Nat → Bool
  | [] => false
  | x :: r => bif Nat.beq (x % 4096) key then true else rowKey key r

/-- Terminals that can follow after the dot. -/
def firstMask : List Sym → Nat → Nat
  | [], la => la
  | .t k :: _, _ => 1 <<< k
  | .n A :: β, la =>
    bif nullMask.testBit A then (firstMasks[A]?.getD 0) ||| firstMask β la else firstMasks[A]?.getD 0

/-- The terminals for which a row of the action table has the given reduction. -/
def reduceMask (p : Nat) : List (Nat × Int) → Nat
  | [] => 0
  | (t, .negSucc q) :: r => bif Nat.beq p q then (1 <<< t) ||| reduceMask p r else reduceMask p r
  | (_, .ofNat _) :: r => reduceMask p r

/-- The state a row of the action table shifts to. -/
def shiftOf (t : Nat) : List (Nat × Int) → Option Nat
  | [] => none
  | (u, a) :: r => bif Nat.beq t u then (match a with | .ofNat (s + 1) => some s | _ => none) else shiftOf t r

/-- Everything an item demands of the tables. -/
def checkItem (s : Nat) (row : List (Nat × Int)) (eof : Int) (items : List Nat) (x : Nat) : Bool :=
  match (rhs (x % 256)).drop (x / 256 % 16) with
  | [] => match eof with
    | .negSucc q => bif Nat.beq (x % 256) q then
          Nat.beq (Nat.land ((1 <<< 83) ||| reduceMask (x % 256) row) (x / 4096)) (x / 4096)
        else Nat.beq (Nat.land (reduceMask (x % 256) row) (x / 4096)) (x / 4096)
    | .ofNat _ => Nat.beq (Nat.land (reduceMask (x % 256) row) (x / 4096)) (x / 4096)
  | .t k :: _ => match shiftOf k row with
    | some s' => rowHas (x % 4096 + 256) (x / 4096) (itemRow s')
    | none => false
  | .n A :: β => rowHas (x % 4096 + 256) (x / 4096) (itemRow (goto s A)) &&
      (rulesBy[A]?.getD []).all fun q => rowHas q (firstMask β (x / 4096)) items

/-- Equality of symbols. -/
def symEq : Sym → Sym → Bool
  | .t j, .t k => Nat.beq j k
  | .n j, .n k => Nat.beq j k
  | _, _ => false

/-- The symbol at a position of a list is the given one. -/
def symAt : List Sym → Nat → Sym → Bool
  | [], _, _ => false
  | x :: _, 0, y => symEq x y
  | _ :: r, d + 1, y => symAt r d y

/-- A transition: every item of the target that has something before the dot comes from an item of the source. -/
def checkEdge (items : List Nat) (x : Sym) (target : Nat) : Bool :=
  Nat.ble 1 target && Nat.ble (target + 1) 329 && (itemRow target).all fun y =>
    match y / 256 % 16 with
    | 0 => true
    | d + 1 => symAt (rhs (y % 256)) d x && rowKey (y % 4096 - 256) items

/-- A reduction: the complete item is in the state; empty productions only in the states annotated so. -/
def checkReduce (s : Nat) (items : List Nat) (p : Nat) : Bool :=
  match rhs p with
  | [] => rowKey p items && emptyStates.any (Nat.beq s) && Nat.beq (ntWeights[lhs p]?.getD 0) 1 &&
      !(emptyStates.any (Nat.beq (goto s (lhs p))))
  | r => rowKey (p + 256 * r.length) items

/-- The entries of a row of the action table, in increasing order of the terminals. -/
def checkRow (s : Nat) (items : List Nat) : Nat → List (Nat × Int) → Bool
  | _, [] => true
  | low, (t, a) :: r =>
    Nat.ble low t && Nat.ble (t + 1) 83 && (match a with
      | .ofNat 0 => false
      | .ofNat (s' + 1) => checkEdge items (.t t) s'
      | .negSucc p => Nat.ble (p + 1) 223 && checkReduce s items p) && checkRow s items (t + 1) r

/-- The entry for the end of the input. -/
def checkEof (s : Nat) (items : List Nat) : Int → Bool
  | .ofNat 0 => true
  | .ofNat (_ + 1) => false
  | .negSucc p => Nat.ble (p + 1) 224 && checkReduce s items p

/-- Items with the dot at the start stem from an earlier item of the state; `avail` are the nonterminals after the
dots of those. -/
def checkOrigin (s : Nat) (nts : Nat) : Nat → List Nat → Bool
  | _, [] => true
  | avail, x :: r =>
    (match x / 256 % 16 with
      | 0 => (Nat.beq (x % 256) 223 && Nat.beq s 0) || avail.testBit (lhs (x % 256))
      | _ + 1 => Nat.ble 1 s) && Nat.ble (x % 256 + 1) 224 && Nat.ble (x / 256 % 16) (rhs (x % 256)).length &&
    (match (rhs (x % 256)).drop (x / 256 % 16) with
      | .n A :: _ => nts.testBit A && checkOrigin s nts (avail ||| (1 <<< A)) r
      | _ => checkOrigin s nts avail r)

/-- The bits of a list of numbers. -/
def bitsOf : List Nat → Nat
  | [] => 0
  | k :: r => (1 <<< k) ||| bitsOf r

/-- Weight of reaching a state: two in the states that can reduce an empty production. -/
def bonus (s : Nat) : Nat := bif emptyStates.any (Nat.beq s) then 2 else 0

/-- All conditions on one state. -/
def checkState (s : Nat) (row : List (Nat × Int)) (eof : Int) (items nts : List Nat) : Bool :=
  items.all (checkItem s row eof items) && checkRow s items 0 row && checkEof s items eof &&
    checkOrigin s (bitsOf nts) 0 items &&
    nts.all fun A => checkEdge items (.n A) (goto s A) && Nat.ble (bonus (goto s A)) (ntBonus[A]?.getD 0)

/-- All conditions on consecutive states. -/
def checkStates : Nat → List (List (Nat × Int)) → List Int → List (List Nat) → List (List Nat) → Bool
  | _, _, _, [], _ => true
  | s, row :: rows, e :: es, items :: more, nts :: ntss =>
    checkState s row e items nts && checkStates (s + 1) rows es more ntss
  | _, _, _, _, _ => false

/-- All conditions on a block of twelve states. -/
def checkBlock (b : Nat) (items nts : List (List Nat)) : Bool :=
  checkStates (12 * b) (actionRows.drop (12 * b)) (eofActions.drop (12 * b)) items nts

/-- All conditions on consecutive blocks. -/
def checkBlocks : Nat → List (List (List Nat)) → List (List (List Nat)) → Bool
  | _, [], _ => true
  | b, items :: more, nts :: ntss => checkBlock b items nts && checkBlocks (b + 1) more ntss
  | _, _ :: _, [] => false

