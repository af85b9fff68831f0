/-!
# Doubly linked lists in an array

Written without reference to the model of the code: `link i` is the pair of the previous and the next index
stored in element `i`, `nil` stands for no element.
-/

namespace Verif.Spec

/-- The elements of the list point to each other in the order of the list; before the first comes `before`, after
the last comes `after`. -/
def Linked (link : Nat → Option (Nat × Nat)) : Nat → List Nat → Nat → Prop
  | _, [], _ => True
  | before, x :: xs, after => link x = some (before, xs.head?.getD after) ∧ Linked link x xs after

/-- An array of `n` elements holds the lists `lists k`, whose ends are `ends k`: every list is linked, no element is
in two lists or twice in a list, and elements outside all lists have no links. -/
structure HoldsLists (nil n : Nat) (link : Nat → Option (Nat × Nat)) (ends : Nat → Nat × Nat)
    (lists : Nat → List Nat) : Prop where
  small : n ≤ nil
  range : ∀ k, ∀ i ∈ lists k, i < n
  nodup : ∀ k, (lists k).Nodup
  apart : ∀ k k', k ≠ k' → ∀ i ∈ lists k, i ∉ lists k'
  ends_eq : ∀ k, ends k = ((lists k).head?.getD nil, (lists k).getLast?.getD nil)
  linked : ∀ k, Linked link nil (lists k) nil
  free : ∀ i, i < n → (∀ k, i ∉ lists k) → link i = some (nil, nil)

/-- Operations on the lists. -/
inductive ListOp where
  | front (k i : Nat)
  | back (k i : Nat)
  | remove (k i : Nat)

/-- List `k` replaced by `xs`. -/
def update (lists : Nat → List Nat) (k : Nat) (xs : List Nat) : Nat → List Nat :=
  fun j => if j = k then xs else lists j

/-- What the operations mean: an element that is in no list is put in front or at the back, an element of the list
is removed. -/
inductive ListStep (n : Nat) : (Nat → List Nat) → ListOp → (Nat → List Nat) → Prop where
  | front {L : Nat → List Nat} {k i : Nat} (hi : i < n) (hf : ∀ j, i ∉ L j) :
      ListStep n L (.front k i) (update L k (i :: L k))
  | back {L : Nat → List Nat} {k i : Nat} (hi : i < n) (hf : ∀ j, i ∉ L j) :
      ListStep n L (.back k i) (update L k (L k ++ [i]))
  | remove {L : Nat → List Nat} {k i : Nat} (hm : i ∈ L k) :
      ListStep n L (.remove k i) (update L k ((L k).erase i))

/-- A history of operations. -/
inductive ListRun (n : Nat) : (Nat → List Nat) → List ListOp → (Nat → List Nat) → Prop where
  | nil {L : Nat → List Nat} : ListRun n L [] L
  | cons {L L' L'' : Nat → List Nat} {op : ListOp} {ops : List ListOp}
      (h : ListStep n L op L') (t : ListRun n L' ops L'') : ListRun n L (op :: ops) L''

end Verif.Spec
