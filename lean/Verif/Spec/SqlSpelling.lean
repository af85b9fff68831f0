import Verif.Model.SqlTyping
/-!
# Replacing the identifiers of a statement

`map f` replaces every identifier `n` by `f n` and leaves the rest alone.  Two statements differ only in the
case of identifiers if they become the same when every identifier is replaced by its upper-case form.
-/

namespace Verif.Sql

variable {N K : Type} (f : N → K)

mutual

def Expr.map : Expr N → Expr K
  | .literal l => .literal l
  | .ident q => .ident (q.map f)
  | .tuple es => .tuple (Expr.mapList es)
  | .select s => .select (s.map)
  | .unary op e => .unary op e.map
  | .binary op l r => .binary op l.map r.map
  | .comparison op l r => .comparison op l.map r.map
  | .inSet e set => .inSet e.map set.map
  | .between e l u => .between e.map l.map u.map
  | .case e whens els => .case (Expr.mapOption e) (When.mapList whens) (Expr.mapOption els)

def Expr.mapList : List (Expr N) → List (Expr K)
  | [] => []
  | e :: es => e.map :: Expr.mapList es

def Expr.mapOption : Option (Expr N) → Option (Expr K)
  | none => none
  | some e => some e.map

def When.mapList : List (When N) → List (When K)
  | [] => []
  | .mk guard body :: ws => .mk guard.map body.map :: When.mapList ws

def SetSpec.map : SetSpec N → SetSpec K
  | .select s => .select s.map
  | .list es => .list (Expr.mapList es)
  | .name q => .name (q.map f)

def Select.map : Select N → Select K
  | .mk common expr orderBy limit =>
    .mk (Cte.mapList common) expr.map (OrderTerm.mapList orderBy) (Limit.mapOption limit)

def Cte.map : Cte N → Cte K
  | .mk identifier names query => .mk (f identifier) (names.map fun cs => cs.map f) query.map

def Cte.mapList : List (Cte N) → List (Cte K)
  | [] => []
  | c :: cs => c.map :: Cte.mapList cs

def OrderTerm.mapList : List (OrderTerm N) → List (OrderTerm K)
  | [] => []
  | .mk e collation direction :: ts => .mk e.map (collation.map f) direction :: OrderTerm.mapList ts

def Limit.mapOption : Option (Limit N) → Option (Limit K)
  | none => none
  | some (.mk rows offset) => some (.mk rows.map (Expr.mapOption offset))

def SetExpr.map : SetExpr N → SetExpr K
  | .values rows => .values (Expr.mapRows rows)
  | .query mode columns froms wher groupBy =>
    .query mode columns.map (TableExpr.mapList froms) (Expr.mapOption wher) (GroupBy.mapOption groupBy)
  | .op o l r => .op o l.map r.map

def Expr.mapRows : List (List (Expr N)) → List (List (Expr K))
  | [] => []
  | row :: rows => Expr.mapList row :: Expr.mapRows rows

def TableExpr.map : TableExpr N → TableExpr K
  | .named name alias => .named (name.map f) (alias.map f)
  | .select s alias => .select s.map (alias.map f)
  | .join l r op constraint => .join l.map r.map op constraint.map

def JoinConstraint.map : JoinConstraint N → JoinConstraint K
  | .expr e => .expr e.map
  | .columns names => .columns (names.map f)

def TableExpr.mapList : List (TableExpr N) → List (TableExpr K)
  | [] => []
  | t :: ts => t.map :: TableExpr.mapList ts

def ResultColumns.map : ResultColumns N → ResultColumns K
  | .all => .all
  | .list cs => .list (ResultColumn.mapList cs)

def ResultColumn.mapList : List (ResultColumn N) → List (ResultColumn K)
  | [] => []
  | .allFrom name :: cs => .allFrom (f name) :: ResultColumn.mapList cs
  | .expr e rename :: cs => .expr e.map (rename.map f) :: ResultColumn.mapList cs

def GroupBy.mapOption : Option (GroupBy N) → Option (GroupBy K)
  | none => none
  | some (.mk groupings having) => some (.mk (Expr.mapList groupings) (Expr.mapOption having))

end

def Assignment.map (a : Assignment N) : Assignment K := ⟨a.columns.map f, a.expr.map f⟩

def InsertStatement.map (s : InsertStatement N) : InsertStatement K :=
  ⟨s.tableName.map f, s.columns.map fun cs => cs.map f, s.source.map f⟩

def DeleteStatement.map (s : DeleteStatement N) : DeleteStatement K :=
  ⟨s.tableName.map f, Expr.mapOption f s.wher⟩

def UpdateStatement.map (s : UpdateStatement N) : UpdateStatement K :=
  ⟨s.tableName.map f, s.assignments.map (Assignment.map f), Expr.mapOption f s.wher⟩

def Statement.map : Statement N → Statement K
  | .select s => .select (s.map f)
  | .insert s => .insert (s.map f)
  | .delete s => .delete (s.map f)
  | .update s => .update (s.map f)

def SqlStatement.map : SqlStatement N → SqlStatement K
  | .statement s => .statement (s.map f)
  | .explainQueryPlan s => .explainQueryPlan (s.map f)
  | .attach s => .attach ⟨s.qualifiedName.map f, s.path⟩
  | .describe s => .describe ⟨s.qualifiedName.map f⟩

def Attribute.map (a : Attribute N) : Attribute K := ⟨f a.name, a.typ, a.isNull⟩

def RowType.map (r : RowType N) : RowType K :=
  ⟨r.attributes.map (Attribute.map f), r.primaryKey.map f, r.orderBy.map fun e => (f e.1, e.2)⟩

/-- The keys of a map replaced, and its values. -/
def TMap.mapBoth {V W : Type} (g : V → W) (m : TMap N V) : TMap K W :=
  List.map (fun e => (f e.1, g e.2)) m

def SetContext.map (ctx : SetContext N) : SetContext K :=
  ⟨ctx.namespaces.mapBoth f (TMap.mapBoth f (RowType.map f)), f ctx.defaultNamespace,
    ctx.tableExpression.mapBoth f (RowType.map f)⟩

def Symbol.map : Symbol N → Symbol K
  | .attribute t => .attribute t
  | .attributeConflict => .attributeConflict
  | .relation m => .relation (m.mapBoth f id)

def ScalarContext.map (sc : ScalarContext N) : ScalarContext K :=
  ⟨sc.setContext.map f, sc.symbols.mapBoth f (Symbol.map f)⟩

def Column.map (c : Column N) : Column K := ⟨f c.name, c.notNull, c.primaryKey, c.dataType⟩

def RowSet.map (r : RowSet N) : RowSet K := ⟨r.columns.map (Column.map f)⟩

def SchemaObject.map : SchemaObject N → SchemaObject K
  | .table name rows key => .table (f name) (rows.map f) (key.map f)
  | .view name rows query => .view (f name) (rows.map f) query

def Schema.map (s : Schema N) : Schema K := ⟨f s.name, s.objects.mapBoth f (SchemaObject.map f)⟩

def Database.map (db : Database N) : Database K := ⟨db.schemata.mapBoth f (Schema.map f)⟩

end Verif.Sql
