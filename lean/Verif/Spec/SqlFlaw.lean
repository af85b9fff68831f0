import Verif.Spec.Sql
import Verif.Spec.SqlPanic
import Verif.Spec.SqlRules
/-!
# Why a statement is rejected

`Flaw`: for each error of type checking, the constructions it is about.  The conditions name the types of the operands
and the tables that names stand for; they do not say what else is wrong with the statement.
-/

namespace Verif.Sql

/-- Two types that do not agree, and the error for it.  Tuples are compared part by part. -/
inductive Mismatch : ScalarType → ScalarType → SqlError → Prop where
  | types {t u n m} (h : t ≠ u) : Mismatch (.scalar t n) (.scalar u m) .incompatible
  | tupleLeft {ts u n} : Mismatch (.tuple ts) (.scalar u n) .incompatible
  | tupleRight {t n us} : Mismatch (.scalar t n) (.tuple us) .incompatible
  | lengths {ts us} (h : ts.length ≠ us.length) : Mismatch (.tuple ts) (.tuple us) .tupleLengths
  | part {ts us t u x} {i : Nat} (hl : ts.length = us.length) (ht : ts[i]? = some t) (hu : us[i]? = some u)
    (h : Mismatch t u x) : Mismatch (.tuple ts) (.tuple us) x

/-- The type is a tuple. -/
def ScalarType.IsTuple (t : ScalarType) : Prop := ∃ ts, t = .tuple ts

/-- The type is this type, nullable or not. -/
def ScalarType.Of (t : ScalarType) (typ : DataType) : Prop := ∃ n, t = .scalar typ n

section
variable (up : Char → List Char)

/-- A name that is not that of a table, and the error for it. -/
inductive Unknown (ctx : SetContext Name) : List Name → SqlError → Prop where
  | notFound {t objects} (hc : ∀ r, ¬ Entry up ctx.tableExpression t r)
    (hn : Entry up ctx.namespaces ctx.defaultNamespace objects) (h : ∀ r, ¬ Entry up objects t r) :
    Unknown ctx [t] .tableNotFound
  | notFoundIn {s t objects} (hc : ∀ r, ¬ Entry up ctx.tableExpression s r)
    (hn : Entry up ctx.namespaces s objects) (h : ∀ r, ¬ Entry up objects t r) : Unknown ctx [s, t] .tableNotFound
  | hidden {s t r} (hc : Entry up ctx.tableExpression s r) : Unknown ctx [s, t] .schemaHidden
  | noSchema {s t} (hc : ∀ r, ¬ Entry up ctx.tableExpression s r)
    (hn : ∀ objects, ¬ Entry up ctx.namespaces s objects) : Unknown ctx [s, t] .namespaceNotPresent
  | parts {q} (h : q.length ≠ 1 ∧ q.length ≠ 2) : Unknown ctx q .tableParts

/-- A name that is not that of a column, and the error for it. -/
inductive NoColumn (sc : ScalarContext Name) : List Name → SqlError → Prop where
  | undefined {a} (h : ∀ s, ¬ Entry up sc.symbols a s) : NoColumn sc [a] .undefinedAttribute
  | ambiguous {a} (h : Entry up sc.symbols a .attributeConflict) : NoColumn sc [a] .ambiguousAttribute
  | table {a m} (h : Entry up sc.symbols a (.relation m)) : NoColumn sc [a] .nameIsRelation
  | notIn {r a m} (hr : Entry up sc.symbols r (.relation m)) (h : ∀ t, ¬ Entry up m a t) :
    NoColumn sc [r, a] .notAnAttributeOf
  | noTable {r a} (h : ∀ s, ¬ Entry up sc.symbols r s) : NoColumn sc [r, a] .notARelation
  | notTable {r a s} (hr : Entry up sc.symbols r s) (h : ∀ m, s ≠ .relation m) : NoColumn sc [r, a] .notARelation
  | parts {q} (h : q.length ≠ 1 ∧ q.length ≠ 2) : NoColumn sc q .qualifiedParts

/-- The expression has this type. -/
abbrev ItsType (sc : ScalarContext Name) (e : Expr Name) (t : ScalarType) : Prop := inferExpr (nameOps up) sc e = .ok t

/-- The rows on the right side of IN, if it is a query or a table. -/
inductive RowsOf (sc : ScalarContext Name) : SetSpec Name → RowType Name → Prop where
  | select {s r} (h : inferSelect (nameOps up) sc.setContext s = .ok r) : RowsOf sc (.select s) r
  | name {q r} (h : sc.setContext.resolveTableName (nameOps up) q = .ok r) : RowsOf sc (.name q) r

/-- The targets of an INSERT: the columns listed, or else the names of the columns of the source. -/
def targetsOf (columns : Option (List Name)) (values : List (Attribute Name)) : List Name :=
  columns.getD (values.map (·.name))

/-- The last of the columns that have this name. -/
def LastNamed (as : List (Attribute Name)) (c : Name) (a : Attribute Name) : Prop :=
  ∃ pre post, as = pre ++ a :: post ∧ SameName up a.name c ∧ ∀ b ∈ post, ¬ SameName up b.name c

/-- The errors, and the constructions they are about. -/
inductive Flaw : Work Name → SqlError → Prop where
  -- expressions
  | ident {sc q x} (h : NoColumn up sc q x) : Flaw (.expr sc (.ident q)) x
  | negate {sc e t} (he : ItsType up sc e t) (h : ¬ t.Of .numeric) : Flaw (.expr sc (.unary .negate e)) .negateNumeric
  | not {sc e t} (he : ItsType up sc e t) (h : ¬ t.Of .logical) : Flaw (.expr sc (.unary .not e)) .notLogical
  | isNull {sc e t} (he : ItsType up sc e t) (h : t.IsTuple) : Flaw (.expr sc (.unary .isNull e)) .nullTestScalar
  | arithmetic {sc op l r t u} (ho : op.Arithmetic) (hl : ItsType up sc l t) (hr : ItsType up sc r u)
    (h : ¬ t.Of .numeric ∨ ¬ u.Of .numeric) : Flaw (.expr sc (.binary op l r)) .arithmeticNumeric
  | concat {sc l r t u} (hl : ItsType up sc l t) (hr : ItsType up sc r u) (h : ¬ t.Of .varchar ∨ ¬ u.Of .varchar) :
    Flaw (.expr sc (.binary .concat l r)) .concatVarchar
  | logical {sc op l r t u} (ho : op = .and ∨ op = .or) (hl : ItsType up sc l t) (hr : ItsType up sc r u)
    (h : ¬ t.Of .logical ∨ ¬ u.Of .logical) : Flaw (.expr sc (.binary op l r)) .logicalLogical
  | equality {sc op l r t u x} (ho : op = .equal ∨ op = .notEqual) (hl : ItsType up sc l t) (hr : ItsType up sc r u)
    (h : Mismatch t u x) : Flaw (.expr sc (.comparison op l r)) x
  | ordered {sc op l r t n u m} (ho : op.Ordering) (hl : ItsType up sc l (.scalar t n))
    (hr : ItsType up sc r (.scalar u m)) (h : t ≠ u ∨ ¬ Orderable t) :
    Flaw (.expr sc (.comparison op l r)) .compareOrdered
  | orderedTuple {sc op l r t u} (ho : op.Ordering) (hl : ItsType up sc l t) (hr : ItsType up sc r u)
    (h : t.IsTuple ∨ u.IsTuple) : Flaw (.expr sc (.comparison op l r)) .compareScalar
  | like {sc l r t u} (hl : ItsType up sc l t) (hr : ItsType up sc r u) (h : ¬ t.Of .varchar ∨ ¬ u.Of .varchar) :
    Flaw (.expr sc (.comparison .like l r)) .likeVarchar
  | between {sc e l r t n u m v k} (he : ItsType up sc e (.scalar t n)) (hl : ItsType up sc l (.scalar u m))
    (hr : ItsType up sc r (.scalar v k)) (h : t ≠ u ∨ t ≠ v ∨ ¬ Orderable t) :
    Flaw (.expr sc (.between e l r)) .betweenOrdered
  | betweenTuple {sc e l r t u v} (he : ItsType up sc e t) (hl : ItsType up sc l u) (hr : ItsType up sc r v)
    (h : t.IsTuple ∨ u.IsTuple ∨ v.IsTuple) : Flaw (.expr sc (.between e l r)) .betweenScalar
  /-- A THEN part is not like the first. -/
  | thens {sc operand guard first rest guard' body els t u x} (hf : ItsType up sc first t)
    (hm : .mk guard' body ∈ rest) (hb : ItsType up sc body u) (h : Mismatch u t x) :
    Flaw (.expr sc (.case operand (.mk guard first :: rest) els)) x
  /-- The first two THEN parts are tuples, which do agree. -/
  | thenTuples {sc operand guard first guard' body rest els t u} (hf : ItsType up sc first t)
    (hb : ItsType up sc body u) (ht : u.IsTuple) (h : Alike u t) :
    Flaw (.expr sc (.case operand (.mk guard first :: .mk guard' body :: rest) els)) .thenScalar
  /-- ELSE is not like the first THEN part. -/
  | els {sc operand guard first rest body t u x} (hf : ItsType up sc first t) (hb : ItsType up sc body u)
    (h : Mismatch u t x) : Flaw (.expr sc (.case operand (.mk guard first :: rest) (some body))) x
  /-- An element of a list is not like the first. -/
  | elements {sc e first rest other t u x} (hf : ItsType up sc first t) (hm : other ∈ rest) (ho : ItsType up sc other u)
    (h : Mismatch t u x) : Flaw (.expr sc (.inSet e (.list (first :: rest)))) x
  | elementTuple {sc e first rest t} (hf : ItsType up sc first t) (h : t.IsTuple) :
    Flaw (.expr sc (.inSet e (.list (first :: rest)))) .setScalar
  | inColumns {sc e set r} (hs : RowsOf up sc set r) (h : r.attributes.length ≠ 1) :
    Flaw (.expr sc (.inSet e set)) .inOneColumn
  | inList {sc e first rest t u x} (he : ItsType up sc e t) (hf : ItsType up sc first u) (h : Mismatch t u x) :
    Flaw (.expr sc (.inSet e (.list (first :: rest)))) x
  | inRows {sc e set r a t x} (he : ItsType up sc e t) (hs : RowsOf up sc set r) (ha : r.attributes = [a])
    (h : Mismatch t (.scalar a.typ a.isNull) x) : Flaw (.expr sc (.inSet e set)) x
  /-- Nothing can be NULL, of which the message says that the types are not compatible. -/
  | inListNotNull {sc e es typ} (he : ItsType up sc e (.scalar typ false))
    (hs : ∀ x ∈ es, ItsType up sc x (.scalar typ false)) : Flaw (.expr sc (.inSet e (.list es))) .inIncompatible
  | inRowsNotNull {sc e set r a typ} (he : ItsType up sc e (.scalar typ false)) (hs : RowsOf up sc set r)
    (ha : r.attributes = [a]) (ht : a.typ = typ ∧ a.isNull = false) : Flaw (.expr sc (.inSet e set)) .inIncompatible
  | inTable {sc e q x} (h : Unknown up sc.setContext q x) : Flaw (.expr sc (.inSet e (.name q))) x
  | columns {sc s r} (hs : inferSelect (nameOps up) sc.setContext s = .ok r) (h : r.attributes.length ≠ 1) :
    Flaw (.expr sc (.select s)) .selectOneColumn
  -- tables
  | table {sc q alias x} (h : Unknown up sc.setContext q x) : Flaw (.table sc (.named q alias)) x
  /-- The name by which the table is known is that of another table before it. -/
  | again {sc q alias n m} (hn : (alias.or q.getLast?) = some n) (h : Entry up sc.symbols n (.relation m)) :
    Flaw (.table sc (.named q alias)) .duplicateRelation
  -- queries
  | common {ctx pre sc identifier names query post x orderBy limit m}
    (hp : addCommon (nameOps up) ctx (ScalarContext.new ctx) pre = .ok sc)
    (h : Entry up sc.symbols identifier (.relation m)) :
    Flaw (.query ctx (.mk (pre ++ .mk identifier names query :: post) x orderBy limit)) .duplicateRelation
  | commonColumn {ctx pre identifier names query post x orderBy limit r c}
    (hq : inferSelect (nameOps up) ctx query = .ok r) (hc : c ∈ names)
    (h : ∀ a ∈ r.attributes, ¬ SameName up a.name c) :
    Flaw (.query ctx (.mk (pre ++ .mk identifier (some names) query :: post) x orderBy limit)) .cteColumnNotFound
  | order {ctx common sc x pre e collation direction post limit t}
    (hc : addCommon (nameOps up) ctx (ScalarContext.new ctx) common = .ok sc) (he : ItsType up sc e t) (h : t.IsTuple) :
    Flaw (.query ctx (.mk common x (pre ++ .mk e collation direction :: post) limit)) .orderScalar
  | limit {ctx common x orderBy n offset t} (he : ItsType up (ScalarContext.new ctx) n t)
    (h : t ≠ .scalar .numeric false) : Flaw (.query ctx (.mk common x orderBy (some (.mk n offset)))) .limitNumeric
  | offset {ctx common x orderBy n e t} (he : ItsType up (ScalarContext.new ctx) e t) (h : t ≠ .scalar .numeric false) :
    Flaw (.query ctx (.mk common x orderBy (some (.mk n (some e))))) .offsetNumeric
  -- rows
  | value {ctx row rows e t} (hm : e ∈ row) (he : ItsType up (ScalarContext.new ctx) e t) (h : t.IsTuple) :
    Flaw (.rows ctx (.values (row :: rows))) .valuesScalar
  /-- A value is not like that of the first row in its column, a column that no row between them is too short for. -/
  | values {ctx row above row' below e e' t u x} {i : Nat} (h1 : row[i]? = some e) (h2 : row'[i]? = some e')
    (ha : ∀ r ∈ above, i < r.length) (he : ItsType up (ScalarContext.new ctx) e t)
    (he' : ItsType up (ScalarContext.new ctx) e' u) (h : Mismatch t u x) :
    Flaw (.rows ctx (.values (row :: (above ++ row' :: below)))) x
  | where {ctx mode columns froms sc as e groupBy t}
    (hf : inferFrom (nameOps up) (ScalarContext.new ctx) froms = .ok (sc, as)) (he : ItsType up sc e t)
    (h : ¬ t.Of .logical) : Flaw (.rows ctx (.query mode columns froms (some e) groupBy)) .whereBoolean
  | having {ctx mode columns froms sc as wher groupings e t}
    (hf : inferFrom (nameOps up) (ScalarContext.new ctx) froms = .ok (sc, as)) (he : ItsType up sc e t)
    (h : ¬ t.Of .logical) :
    Flaw (.rows ctx (.query mode columns froms wher (some (.mk groupings (some e))))) .havingBoolean
  | column {ctx mode cs froms sc as wher groupBy e rename t}
    (hf : inferFrom (nameOps up) (ScalarContext.new ctx) froms = .ok (sc, as)) (hm : .expr e rename ∈ cs)
    (he : ItsType up sc e t) (h : t.IsTuple) :
    Flaw (.rows ctx (.query mode (.list cs) froms wher groupBy)) .resultScalar
  | allOfNothing {ctx mode cs froms sc as wher groupBy n}
    (hf : inferFrom (nameOps up) (ScalarContext.new ctx) froms = .ok (sc, as)) (hm : .allFrom n ∈ cs)
    (h : ∀ s, ¬ Entry up sc.symbols n s) :
    Flaw (.rows ctx (.query mode (.list cs) froms wher groupBy)) .undefinedCollection
  | allOfColumn {ctx mode cs froms sc as wher groupBy n s}
    (hf : inferFrom (nameOps up) (ScalarContext.new ctx) froms = .ok (sc, as)) (hm : .allFrom n ∈ cs)
    (hs : Entry up sc.symbols n s) (h : ∀ m, s ≠ .relation m) :
    Flaw (.rows ctx (.query mode (.list cs) froms wher groupBy)) .notRangeVariable
  /-- Two columns that stand at the same place have different types. -/
  | operands {ctx op l r t u a b} {i : Nat} (hl : inferSetExpr (nameOps up) ctx l = .ok t)
    (hr : inferSetExpr (nameOps up) ctx r = .ok u) (ha : t.attributes[i]? = some a) (hb : u.attributes[i]? = some b)
    (h : a.typ ≠ b.typ) : Flaw (.rows ctx (.op op l r)) .incompatible
  -- statements
  | insertTable {ctx s x} (h : Unknown up ctx s.tableName x) : Flaw (.statement ctx (.insert s)) x
  | insertCount {ctx s cs v} (hs : inferSetExpr (nameOps up) ctx s.source = .ok v) (hc : s.columns = some cs)
    (h : cs.length ≠ v.attributes.length) : Flaw (.statement ctx (.insert s)) .insertLength
  /-- A target is not a column of the table, or was one before. -/
  | insertTarget {ctx s r v c} {i : Nat} (hr : ctx.resolveTableName (nameOps up) s.tableName = .ok r)
    (hs : inferSetExpr (nameOps up) ctx s.source = .ok v) (hc : (targetsOf s.columns v.attributes)[i]? = some c)
    (h : (∀ a ∈ r.attributes, ¬ SameName up a.name c) ∨
      ∃ (j : Nat) (d : Name), j < i ∧ (targetsOf s.columns v.attributes)[j]? = some d ∧ SameName up d c) :
    Flaw (.statement ctx (.insert s)) .insertUndefinedColumn
  | insertType {ctx s r v a b c} {i : Nat} (hr : ctx.resolveTableName (nameOps up) s.tableName = .ok r)
    (hs : inferSetExpr (nameOps up) ctx s.source = .ok v) (hc : (targetsOf s.columns v.attributes)[i]? = some c)
    (hv : v.attributes[i]? = some b) (ha : LastNamed up r.attributes c a)
    (h : a.typ ≠ b.typ ∨ a.isNull = false ∧ b.isNull = true) : Flaw (.statement ctx (.insert s)) .insertIncompatible
  | insertMissing {ctx s r v a} (hr : ctx.resolveTableName (nameOps up) s.tableName = .ok r)
    (hs : inferSetExpr (nameOps up) ctx s.source = .ok v) (ha : LastNamed up r.attributes a.name a)
    (hn : a.isNull = false) (h : ∀ c ∈ targetsOf s.columns v.attributes, ¬ SameName up a.name c) :
    Flaw (.statement ctx (.insert s)) .insertMissing
  | updateTable {ctx s x} (h : Unknown up ctx s.tableName x) : Flaw (.statement ctx (.update s)) x
  | assigned {ctx s r sc a t} (hr : ctx.resolveTableName (nameOps up) s.tableName = .ok r)
    (hc : tableContext (nameOps up) ctx s.tableName r = .ok sc) (ha : a ∈ s.assignments) (he : ItsType up sc a.expr t)
    (h : t.IsTuple) : Flaw (.statement ctx (.update s)) .updateScalar
  /-- A column is assigned twice. -/
  | twice {ctx s} (h : ¬ DistinctNames up (s.assignments.flatMap (·.columns))) :
    Flaw (.statement ctx (.update s)) .updateDuplicate
  | noColumn {ctx s r a c} (hr : ctx.resolveTableName (nameOps up) s.tableName = .ok r) (ha : a ∈ s.assignments)
    (hc : c ∈ a.columns) (h : ∀ b ∈ r.attributes, ¬ SameName up b.name c) :
    Flaw (.statement ctx (.update s)) .updateUndefined
  | assignedType {ctx s r sc a c b typ n} (hr : ctx.resolveTableName (nameOps up) s.tableName = .ok r)
    (hc : tableContext (nameOps up) ctx s.tableName r = .ok sc) (ha : a ∈ s.assignments)
    (he : ItsType up sc a.expr (.scalar typ n)) (hm : c ∈ a.columns) (hb : LastNamed up r.attributes c b)
    (h : b.typ ≠ typ ∨ n = true ∧ b.isNull = false) : Flaw (.statement ctx (.update s)) .updateIncompatible
  | updateWhere {ctx name as r sc e t} (hr : ctx.resolveTableName (nameOps up) name = .ok r)
    (hc : tableContext (nameOps up) ctx name r = .ok sc) (he : ItsType up sc e t) (h : ¬ t.Of .logical) :
    Flaw (.statement ctx (.update ⟨name, as, some e⟩)) .whereBoolean
  | deleteTable {ctx s x} (h : Unknown up ctx s.tableName x) : Flaw (.statement ctx (.delete s)) x
  | deleteWhere {ctx name r sc e t} (hr : ctx.resolveTableName (nameOps up) name = .ok r)
    (hc : tableContext (nameOps up) ctx name r = .ok sc) (he : ItsType up sc e t) (h : ¬ t.Of .logical) :
    Flaw (.statement ctx (.delete ⟨name, some e⟩)) .whereBoolean

end

/-- In a CASE, only the operand, the THEN parts and ELSE: errors in WHEN parts are not reported. -/
def Counts {N : Type} (w w' : Work N) : Prop :=
  ∀ sc operand whens els, w = .expr sc (.case operand whens els) →
    ∃ e, w' = .expr sc e ∧ (operand = some e ∨ els = some e ∨ ∃ guard, .mk guard e ∈ whens)

/-- The parts that are looked at, other than WHEN parts. -/
inductive Outside {N : Type} (ops : NameOps N) : Work N → Work N → Prop where
  | here (w : Work N) : Outside ops w w
  | step {a b c : Work N} (h : Next ops a b) (hc : Counts a b) (hr : Outside ops b c) : Outside ops a c

/-- The maps of the context are sorted, as in the contexts the code builds. -/
def ScalarContext.Tidy (up : Char → List Char) (sc : ScalarContext Name) : Prop :=
  sc.setContext.Ok up ∧ Sorted up sc.symbols

/-- The errors that validation never reports: those about WHEN parts, which are overwritten, that of two common table
expressions of one name, which is reported as that of two tables, and that of a tuple within a row. -/
def Unreported : List SqlError := [.guardLogical, .guardIncompatible, .duplicateCte, .embeddedTuple]

end Verif.Sql
