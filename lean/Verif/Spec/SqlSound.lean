import Verif.Spec.SqlEval
/-!
# Values of a type, and the expressions whose types can be relied on

`strict = true`: the type with its nullability.  `strict = false`: the type alone, NULL is a value of
every scalar type.
-/

namespace Verif.Sql

section
variable (E : Engine) (strict : Bool)

mutual
/-- The value is one of the type. -/
def HasType : Value E.Carrier → ScalarType → Prop
  | .null, .scalar _ isNull => isNull = true ∨ strict = false
  | .scalar t _, .scalar u _ => t = u
  | .tuple vs, .tuple ts => HasTypes vs ts
  | _, _ => False
/-- The values are, one by one, of the types. -/
def HasTypes : List (Value E.Carrier) → List ScalarType → Prop
  | [], [] => True
  | v :: vs, t :: ts => HasType v t ∧ HasTypes vs ts
  | _, _ => False
end

/-- The values of a row are those of the columns. -/
def RowHas (row : Row E) (columns : List (Attribute Name)) : Prop :=
  HasTypes E strict row (columns.map fun a => .scalar a.typ a.isNull)

/-- The table has these columns: as many, and each row has values of their types. -/
def Table.Has (t : Table E) (columns : List (Attribute Name)) : Prop :=
  t.columns.length = columns.length ∧ ∀ row ∈ t.rows, RowHas E strict row columns

/-- The tables are those of the catalogue: a name that resolves to a row type names a table with columns
of these names and types. -/
def Stored (up : Char → List Char) (ctx : SetContext Name) (st : Store E) : Prop :=
  ∀ q typ t, Resolves up ctx q typ → st q = some t →
    t.columns = typ.attributes.map (·.name) ∧ t.Has E strict typ.attributes

end

/-- No table of the catalogue has this name. -/
def Unlisted (up : Char → List Char) (ctx : SetContext Name) (name : Name) : Prop :=
  ∀ typ, ¬ Resolves up ctx [name] typ

/-- The name a common table expression defines. -/
def Cte.identifier {N : Type} : Cte N → N
  | .mk identifier _ _ => identifier

/-- Written as a tuple. -/
def Expr.IsTuple {N : Type} (e : Expr N) : Prop := ∃ es, e = .tuple es

/-- Written as a condition: NOT, AND, OR, a comparison, a range check, IN, or a NULL test of a condition. -/
inductive Expr.IsCondition {N : Type} : Expr N → Prop where
  | not (e : Expr N) : IsCondition (.unary .not e)
  | isNull {e : Expr N} (h : IsCondition e) : IsCondition (.unary .isNull e)
  | and (l r : Expr N) : IsCondition (.binary .and l r)
  | or (l r : Expr N) : IsCondition (.binary .or l r)
  | comparison (op : ComparisonOperator) (l r : Expr N) : IsCondition (.comparison op l r)
  | inSet (e : Expr N) (set : SetSpec N) : IsCondition (.inSet e set)
  | between (e l u : Expr N) : IsCondition (.between e l u)

/-- A join without NULL rows, or any join if nullability does not matter. -/
def JoinOperator.Clear (strict : Bool) : JoinOperator → Prop
  | .cross => True
  | .join .inner => True
  | .join _ => strict = false
  | .natural _ => False

/-- Written with ON, not with USING. -/
def JoinConstraint.IsOn {N : Type} : JoinConstraint N → Prop
  | .expr _ => True
  | .columns _ => False

mutual

/-- The expressions whose inferred type can be relied on.  Excluded is `IS NULL` of what is not a condition;
if nullability matters also IN, subqueries as values, and equality of tuples.  The operands of operators matter only
for nullability, those of `IS NULL` and the conditions of CASE not at all.  `free`: the names that WITH may define. -/
def Expr.Clear (strict : Bool) {N : Type} (free : N → Prop) : Expr N → Prop
  | .literal _ => True
  | .ident _ => True
  | .tuple es => Expr.AllClear strict free es
  | .select s => strict = false ∧ s.Clear strict free
  | .unary op e => (op = .isNull → e.IsCondition) ∧ (op ≠ .isNull → strict = true → e.Clear strict free)
  | .binary _ l r => strict = true → l.Clear strict free ∧ r.Clear strict free
  | .comparison op l r => strict = true → l.Clear strict free ∧ r.Clear strict free ∧
      (op = .equal ∨ op = .notEqual → ¬ l.IsTuple)
  | .inSet _ _ => strict = false
  | .between e l u => strict = true → e.Clear strict free ∧ l.Clear strict free ∧ u.Clear strict free
  | .case _ whens els => When.AllClear strict free whens ∧ Expr.OptionClear strict free els

def Expr.AllClear (strict : Bool) {N : Type} (free : N → Prop) : List (Expr N) → Prop
  | [] => True
  | e :: es => e.Clear strict free ∧ Expr.AllClear strict free es

def Expr.OptionClear (strict : Bool) {N : Type} (free : N → Prop) : Option (Expr N) → Prop
  | none => True
  | some e => e.Clear strict free

def When.AllClear (strict : Bool) {N : Type} (free : N → Prop) : List (When N) → Prop
  | [] => True
  | .mk _ body :: ws => body.Clear strict free ∧ When.AllClear strict free ws

/-- The names that WITH defines are free. -/
def Select.Clear (strict : Bool) {N : Type} (free : N → Prop) : Select N → Prop
  | .mk common expr _ _ => (∀ c ∈ common, free c.identifier) ∧ expr.Clear strict free

def SetExpr.Clear (strict : Bool) {N : Type} (free : N → Prop) : SetExpr N → Prop
  | .values rows => Expr.RowsClear strict free rows
  | .query _ columns froms _ _ => columns.Clear strict free ∧ TableExpr.AllClear strict free froms
  | .op _ l r => l.Clear strict free ∧ r.Clear strict free

def Expr.RowsClear (strict : Bool) {N : Type} (free : N → Prop) : List (List (Expr N)) → Prop
  | [] => True
  | row :: rows => Expr.AllClear strict free row ∧ Expr.RowsClear strict free rows

def TableExpr.Clear (strict : Bool) {N : Type} (free : N → Prop) : TableExpr N → Prop
  | .named _ _ => True
  | .select s _ => s.Clear strict free
  | .join l r op c => l.Clear strict free ∧ r.Clear strict free ∧ op.Clear strict ∧ c.IsOn

def TableExpr.AllClear (strict : Bool) {N : Type} (free : N → Prop) : List (TableExpr N) → Prop
  | [] => True
  | t :: ts => t.Clear strict free ∧ TableExpr.AllClear strict free ts

/-- Without `relation.*`. -/
def ResultColumns.Clear (strict : Bool) {N : Type} (free : N → Prop) : ResultColumns N → Prop
  | .all => True
  | .list cs => ResultColumn.AllClear strict free cs

def ResultColumn.AllClear (strict : Bool) {N : Type} (free : N → Prop) : List (ResultColumn N) → Prop
  | [] => True
  | .allFrom _ :: _ => False
  | .expr e _ :: cs => e.Clear strict free ∧ ResultColumn.AllClear strict free cs

end

end Verif.Sql
