import Verif.Model.SqlTyping
/-!
# Typing rules of operators

For every operator the types its operands may have and the type of the result.  The types of names, subqueries, IN and
CASE are given (`known`).
-/

namespace Verif.Sql

/-- The types with an order. -/
def Orderable (t : DataType) : Prop := t ∈ [.varchar, .numeric, .date, .time, .timestamp]

/-- Types of the same shape and with the same scalars, whatever their nullability. -/
inductive Alike : ScalarType → ScalarType → Prop where
  | scalar {t n m} : Alike (.scalar t n) (.scalar t m)
  | unit : Alike (.tuple []) (.tuple [])
  | tuple {a b as bs} : Alike a b → Alike (.tuple as) (.tuple bs) → Alike (.tuple (a :: as)) (.tuple (b :: bs))

/-- The operators of arithmetic. -/
def BinaryOperator.Arithmetic (op : BinaryOperator) : Prop := op ∈ [.multiply, .divide, .add, .subtract]

/-- The comparisons by order. -/
def ComparisonOperator.Ordering (op : ComparisonOperator) : Prop :=
  op ∈ [.lessThan, .lessEqual, .greaterThan, .greaterEqual]

/-- Names, subqueries, IN and CASE. -/
def Expr.Given {N : Type} : Expr N → Prop
  | .ident _ => True
  | .select _ => True
  | .inSet _ _ => True
  | .case _ _ _ => True
  | _ => False

/-- The rules. -/
inductive Rule {N : Type} (known : Expr N → ScalarType → Prop) : Expr N → ScalarType → Prop where
  | given {e t} : e.Given → known e t → Rule known e t
  | string {s} : Rule known (.literal (.string s)) (.scalar .varchar false)
  | number {s} : Rule known (.literal (.numeric s)) (.scalar .numeric false)
  | null : Rule known (.literal .null) (.scalar .generic true)
  | currentDate : Rule known (.literal .currentDate) (.scalar .date false)
  | currentTime : Rule known (.literal .currentTime) (.scalar .time false)
  | currentTimestamp : Rule known (.literal .currentTimestamp) (.scalar .timestamp false)
  | date {s} : Rule known (.literal (.date s)) (.scalar .date false)
  | time {s} : Rule known (.literal (.time s)) (.scalar .time false)
  | timestamp {s} : Rule known (.literal (.timestamp s)) (.scalar .timestamp false)
  | empty : Rule known (.tuple []) (.tuple [])
  | tuple {e es t ts} : Rule known e t → Rule known (.tuple es) (.tuple ts) → Rule known (.tuple (e :: es)) (.tuple (t :: ts))
  | negate {e n} : Rule known e (.scalar .numeric n) → Rule known (.unary .negate e) (.scalar .numeric n)
  | not {e n} : Rule known e (.scalar .logical n) → Rule known (.unary .not e) (.scalar .logical n)
  /-- The type of `e IS NULL` is that of `e`. -/
  | isNull {e t n} : Rule known e (.scalar t n) → Rule known (.unary .isNull e) (.scalar t n)
  | arithmetic {op l r n m} : op.Arithmetic → Rule known l (.scalar .numeric n) → Rule known r (.scalar .numeric m) →
      Rule known (.binary op l r) (.scalar .numeric (n || m))
  | concat {l r n m} : Rule known l (.scalar .varchar n) → Rule known r (.scalar .varchar m) →
      Rule known (.binary .concat l r) (.scalar .varchar (n || m))
  | and {l r n m} : Rule known l (.scalar .logical n) → Rule known r (.scalar .logical m) →
      Rule known (.binary .and l r) (.scalar .logical (n || m))
  | or {l r n m} : Rule known l (.scalar .logical n) → Rule known r (.scalar .logical m) →
      Rule known (.binary .or l r) (.scalar .logical (n || m))
  | equal {op l r t n m} : op = .equal ∨ op = .notEqual → Rule known l (.scalar t n) → Rule known r (.scalar t m) →
      Rule known (.comparison op l r) (.scalar .logical (n || m))
  /-- The equality of tuples is never nullable. -/
  | equalTuples {op l r ts us} : op = .equal ∨ op = .notEqual → Rule known l (.tuple ts) → Rule known r (.tuple us) →
      Alike (.tuple ts) (.tuple us) → Rule known (.comparison op l r) (.scalar .logical false)
  | order {op l r t n m} : op.Ordering → Orderable t → Rule known l (.scalar t n) → Rule known r (.scalar t m) →
      Rule known (.comparison op l r) (.scalar .logical (n || m))
  | like {l r n m} : Rule known l (.scalar .varchar n) → Rule known r (.scalar .varchar m) →
      Rule known (.comparison .like l r) (.scalar .logical (n || m))
  | between {e l u t n m k} : Orderable t → Rule known e (.scalar t n) → Rule known l (.scalar t m) →
      Rule known u (.scalar t k) → Rule known (.between e l u) (.scalar .logical (n || m || k))

end Verif.Sql
