import Verif.Model.SqlTyping
/-!
# Where type inference panics

`Next`: which parts of a statement are looked at, and after the acceptance of which others.  `Dead`: the constructions
which panic when they are looked at.  A part is looked at if what stands before it, taken alone, is accepted; so the
conditions below ask for the acceptance of a beginning of the list, of the CASE, of the query or of the statement.
-/

namespace Verif.Sql

/-- A part of a statement, with what names mean there. -/
inductive Work (N : Type) where
  | expr (sc : ScalarContext N) (e : Expr N)
  | table (sc : ScalarContext N) (t : TableExpr N)
  | query (ctx : SetContext N) (s : Select N)
  | rows (ctx : SetContext N) (x : SetExpr N)
  | statement (ctx : SetContext N) (s : Statement N)

section
variable {N : Type} (ops : NameOps N)

/-- Inference or validation of the part panics. -/
def Work.Panics : Work N → Prop
  | .expr sc e => inferExpr ops sc e = .error .panic
  | .table sc t => inferTable ops sc t = .error .panic
  | .query ctx s => inferSelect ops ctx s = .error .panic
  | .rows ctx x => inferSetExpr ops ctx x = .error .panic
  | .statement ctx s => s.validateType ops ctx = .error .panic

/-- Inference or validation of the part succeeds. -/
def Work.Accepted : Work N → Prop
  | .expr sc e => ∃ t, inferExpr ops sc e = .ok t
  | .table sc t => ∃ r, inferTable ops sc t = .ok r
  | .query ctx s => ∃ r, inferSelect ops ctx s = .ok r
  | .rows ctx x => ∃ r, inferSetExpr ops ctx x = .ok r
  | .statement ctx s => s.validateType ops ctx = .ok ()

/-- Names in a context stand for scalars, as in the contexts the code builds. -/
def ScalarContext.Scalars (sc : ScalarContext N) : Prop :=
  (∀ e ∈ sc.symbols, ∀ ts, e.2 ≠ .attribute (.tuple ts)) ∧
  ∀ e ∈ sc.symbols, ∀ m, e.2 = .relation m → ∀ f ∈ m, ∀ ts, f.2 ≠ .tuple ts

/-- The context is one of scalars; other parts have only contexts of tables. -/
def Work.Scalars : Work N → Prop
  | .expr sc _ => sc.Scalars
  | .table sc _ => sc.Scalars
  | _ => True

/-- A name without schema, which is not defined by the statement, if there is no default schema. -/
def Nowhere (ctx : SetContext N) (q : List N) : Prop :=
  ∃ t, q = [t] ∧ ctx.tableExpression.get ops t = none ∧ ctx.namespaces.get ops ctx.defaultNamespace = none

/-- The constructions that panic: an empty list after IN, a CASE without branches, a CASE with one branch that is a
tuple, VALUES without rows, and a name `Nowhere`. -/
inductive Dead : Work N → Prop where
  | emptyList {sc e} (he : (Work.expr sc e).Accepted ops) : Dead (.expr sc (.inSet e (.list [])))
  | inTable {sc e q} (he : (Work.expr sc e).Accepted ops) (hq : Nowhere ops sc.setContext q) :
    Dead (.expr sc (.inSet e (.name q)))
  | noBranch {sc operand els} (ho : ∀ e, operand = some e → (Work.expr sc e).Accepted ops) :
    Dead (.expr sc (.case operand [] els))
  | tupleBranch {sc operand els guard es} (ho : ∀ e, operand = some e → (Work.expr sc e).Accepted ops)
    (ht : (Work.expr sc (.tuple es)).Accepted ops) : Dead (.expr sc (.case operand [.mk guard (.tuple es)] els))
  | noRows {ctx} : Dead (.rows ctx (.values []))
  | table {sc q alias} (hq : Nowhere ops sc.setContext q) : Dead (.table sc (.named q alias))
  | insert {ctx s} (hq : Nowhere ops ctx s.tableName) : Dead (.statement ctx (.insert s))
  | update {ctx s} (hq : Nowhere ops ctx s.tableName) : Dead (.statement ctx (.update s))
  | delete {ctx s} (hq : Nowhere ops ctx s.tableName) : Dead (.statement ctx (.delete s))

/-- A WHEN part that is found right: LOGICAL, or like the operand. -/
def Passes (sc : ScalarContext N) (operand : Option (Expr N)) : When N → Prop
  | .mk guard _ => match operand with
    | none => ∃ n, inferExpr ops sc guard = .ok (.scalar .logical n)
    | some e => ∃ t u, inferExpr ops sc e = .ok t ∧ inferExpr ops sc guard = .ok u ∧ u.isCompatible t = .ok true

/-- The parts that are looked at. -/
inductive Next : Work N → Work N → Prop where
  | tuple {sc pre e post} (hp : (Work.expr sc (.tuple pre)).Accepted ops) :
    Next (.expr sc (.tuple (pre ++ e :: post))) (.expr sc e)
  | select {sc s} : Next (.expr sc (.select s)) (.query sc.setContext s)
  | unary {sc op e} : Next (.expr sc (.unary op e)) (.expr sc e)
  | binaryLeft {sc op l r} : Next (.expr sc (.binary op l r)) (.expr sc l)
  | binaryRight {sc op l r} (hl : (Work.expr sc l).Accepted ops) : Next (.expr sc (.binary op l r)) (.expr sc r)
  | comparisonLeft {sc op l r} : Next (.expr sc (.comparison op l r)) (.expr sc l)
  | comparisonRight {sc op l r} (hl : (Work.expr sc l).Accepted ops) : Next (.expr sc (.comparison op l r)) (.expr sc r)
  | betweenOperand {sc e l u} : Next (.expr sc (.between e l u)) (.expr sc e)
  | betweenLower {sc e l u} (he : (Work.expr sc e).Accepted ops) : Next (.expr sc (.between e l u)) (.expr sc l)
  | betweenUpper {sc e l u} (he : (Work.expr sc e).Accepted ops) (hl : (Work.expr sc l).Accepted ops) :
    Next (.expr sc (.between e l u)) (.expr sc u)
  | inOperand {sc e set} : Next (.expr sc (.inSet e set)) (.expr sc e)
  | inElement {sc e es x} (he : (Work.expr sc e).Accepted ops) (hx : x ∈ es) :
    Next (.expr sc (.inSet e (.list es))) (.expr sc x)
  | inSelect {sc e s} (he : (Work.expr sc e).Accepted ops) :
    Next (.expr sc (.inSet e (.select s))) (.query sc.setContext s)
  | caseOperand {sc e whens els} : Next (.expr sc (.case (some e) whens els)) (.expr sc e)
  /-- A WHEN part, if those before it are right. -/
  | caseGuard {sc operand pre guard body post els} (ho : ∀ e, operand = some e → (Work.expr sc e).Accepted ops)
    (hp : ∀ w ∈ pre, Passes ops sc operand w) :
    Next (.expr sc (.case operand (pre ++ .mk guard body :: post) els)) (.expr sc guard)
  /-- The first THEN part, whatever its WHEN part is. -/
  | caseFirst {sc operand guard body post els} (ho : ∀ e, operand = some e → (Work.expr sc e).Accepted ops) :
    Next (.expr sc (.case operand (.mk guard body :: post) els)) (.expr sc body)
  | caseSecond {sc operand first guard body guard' post els}
    (ho : ∀ e, operand = some e → (Work.expr sc e).Accepted ops) (hf : (Work.expr sc first).Accepted ops) :
    Next (.expr sc (.case operand (.mk guard first :: .mk guard' body :: post) els)) (.expr sc body)
  /-- A later THEN part, if the CASE up to there is accepted. -/
  | caseLater {sc operand pre guard body post els} (hp : (Work.expr sc (.case operand pre none)).Accepted ops) :
    Next (.expr sc (.case operand (pre ++ .mk guard body :: post) els)) (.expr sc body)
  | caseElse {sc operand whens e} (hp : (Work.expr sc (.case operand whens none)).Accepted ops) :
    Next (.expr sc (.case operand whens (some e))) (.expr sc e)
  | joinLeft {sc l r op c} : Next (.table sc (.join l r op c)) (.table sc l)
  | joinRight {sc sc' l r op c as} (hl : inferTable ops sc l = .ok (sc', as)) :
    Next (.table sc (.join l r op c)) (.table sc' r)
  | tableSelect {sc s alias} : Next (.table sc (.select s alias)) (.query sc.setContext s)
  | common {ctx pre sc identifier names query post x orderBy limit}
    (hp : addCommon ops ctx (ScalarContext.new ctx) pre = .ok sc) :
    Next (.query ctx (.mk (pre ++ .mk identifier names query :: post) x orderBy limit)) (.query ctx query)
  | body {ctx common sc x orderBy limit} (hc : addCommon ops ctx (ScalarContext.new ctx) common = .ok sc) :
    Next (.query ctx (.mk common x orderBy limit)) (.rows ctx x)
  | order {ctx common sc x pre e collation direction post limit}
    (hc : addCommon ops ctx (ScalarContext.new ctx) common = .ok sc)
    (hp : (Work.query ctx (.mk common x pre none)).Accepted ops) :
    Next (.query ctx (.mk common x (pre ++ .mk e collation direction :: post) limit)) (.expr sc e)
  | limit {ctx common x orderBy n offset} (hp : (Work.query ctx (.mk common x orderBy none)).Accepted ops) :
    Next (.query ctx (.mk common x orderBy (some (.mk n offset)))) (.expr (ScalarContext.new ctx) n)
  | offset {ctx common x orderBy n e} (hp : (Work.query ctx (.mk common x orderBy (some (.mk n none)))).Accepted ops) :
    Next (.query ctx (.mk common x orderBy (some (.mk n (some e))))) (.expr (ScalarContext.new ctx) e)
  | firstRow {ctx pre e post rows} (hp : (Work.rows ctx (.values [pre])).Accepted ops) :
    Next (.rows ctx (.values ((pre ++ e :: post) :: rows))) (.expr (ScalarContext.new ctx) e)
  /-- A later row, as far as all rows before it go. -/
  | laterRow {ctx above r pre e post rows} (ha : inferSetExpr ops ctx (.values above) = .ok r)
    (hl : pre.length < r.attributes.length) (hp : (Work.rows ctx (.values (above ++ [pre]))).Accepted ops) :
    Next (.rows ctx (.values (above ++ (pre ++ e :: post) :: rows))) (.expr (ScalarContext.new ctx) e)
  | from {ctx mode columns pre sc as t post wher groupBy}
    (hp : inferFrom ops (ScalarContext.new ctx) pre = .ok (sc, as)) :
    Next (.rows ctx (.query mode columns (pre ++ t :: post) wher groupBy)) (.table sc t)
  | where {ctx mode columns froms sc as e groupBy} (hf : inferFrom ops (ScalarContext.new ctx) froms = .ok (sc, as)) :
    Next (.rows ctx (.query mode columns froms (some e) groupBy)) (.expr sc e)
  | group {ctx mode columns froms sc as wher pre e post having}
    (hf : inferFrom ops (ScalarContext.new ctx) froms = .ok (sc, as))
    (hp : (Work.rows ctx (.query mode .all froms wher (some (.mk pre none)))).Accepted ops) :
    Next (.rows ctx (.query mode columns froms wher (some (.mk (pre ++ e :: post) having)))) (.expr sc e)
  | having {ctx mode columns froms sc as wher groupings e}
    (hf : inferFrom ops (ScalarContext.new ctx) froms = .ok (sc, as))
    (hp : (Work.rows ctx (.query mode .all froms wher (some (.mk groupings none)))).Accepted ops) :
    Next (.rows ctx (.query mode columns froms wher (some (.mk groupings (some e))))) (.expr sc e)
  | column {ctx mode pre e rename post froms sc as wher groupBy}
    (hf : inferFrom ops (ScalarContext.new ctx) froms = .ok (sc, as))
    (hp : (Work.rows ctx (.query mode (.list pre) froms wher groupBy)).Accepted ops) :
    Next (.rows ctx (.query mode (.list (pre ++ .expr e rename :: post)) froms wher groupBy)) (.expr sc e)
  | opLeft {ctx op l r} : Next (.rows ctx (.op op l r)) (.rows ctx l)
  | opRight {ctx op l r} (hl : (Work.rows ctx l).Accepted ops) : Next (.rows ctx (.op op l r)) (.rows ctx r)
  | selectStatement {ctx s} : Next (.statement ctx (.select s)) (.query ctx s)
  | insertSource {ctx s r} (hn : ctx.resolveTableName ops s.tableName = .ok r) :
    Next (.statement ctx (.insert s)) (.rows ctx s.source)
  | assignment {ctx name r sc pre columns e post wher} (hn : ctx.resolveTableName ops name = .ok r)
    (hc : tableContext ops ctx name r = .ok sc) (hp : (Work.statement ctx (.update ⟨name, pre, none⟩)).Accepted ops) :
    Next (.statement ctx (.update ⟨name, pre ++ ⟨columns, e⟩ :: post, wher⟩)) (.expr sc e)
  | updateWhere {ctx name r sc assignments e} (hn : ctx.resolveTableName ops name = .ok r)
    (hc : tableContext ops ctx name r = .ok sc)
    (hp : (Work.statement ctx (.update ⟨name, assignments, none⟩)).Accepted ops) :
    Next (.statement ctx (.update ⟨name, assignments, some e⟩)) (.expr sc e)
  | deleteWhere {ctx name r sc e} (hn : ctx.resolveTableName ops name = .ok r)
    (hc : tableContext ops ctx name r = .ok sc) : Next (.statement ctx (.delete ⟨name, some e⟩)) (.expr sc e)

/-- The parts that are looked at, at any depth, beginning with the part itself. -/
inductive Reaches : Work N → Work N → Prop where
  | here (w : Work N) : Reaches w w
  | step {a b c : Work N} (h : Next ops a b) (hr : Reaches b c) : Reaches a c

end

end Verif.Sql
