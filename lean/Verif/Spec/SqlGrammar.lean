import Verif.Model.SqlAst
import Verif.Model.SqlNames
import Verif.Model.Text
/-!
# The grammar of SQL statements (`src/sql/parser.lalrpop`)

What the grammar file says, as an inductive relation: `Gr s w v` means that the sequence of words `w` is an `s` and
stands for `v`.  There is one rule for every alternative of `src/sql/parser.lalrpop`, with the value its action
gives; the rules say nothing about states, tables or stacks.  Where an alternative computes different values in an
`if`, there are two rules.
-/

namespace Verif.Sql.Grammar

/-- The kinds of words, called as in `src/sql/parser.lalrpop` L29-134. -/
inductive Kind where
  | ne | lpar | rpar | star | plus | comma | minus | dot | slash | lt | le | eq | gt | ge | ALL | AND | AS | ASC
  | ATTACH | BETWEEN | BY | CASE | COLLATE | CROSS | CURRENT_DATE | CURRENT_TIME | CURRENT_TIMESTAMP | DATE
  | DELETE | DESC | DESCRIBE | DISTINCT | ELSE | END | EXCEPT | EXPLAIN | FILE | FROM | FULL | GROUP | HAVING | IN
  | INNER | INSERT | INTERSECT | INTO | IS | ISNULL | JOIN | LEFT | LIKE | LIMIT | NATURAL | NOT | NOTNULL | NULL
  | OFFSET | ON | OR | ORDER | OUTER | PLAN | QUERY | RIGHT | SELECT | SET | TABLE | THEN | TIME | TIMESTAMP
  | UNION | UPDATE | USING | VALUES | WHEN | WHERE | WITH | bars | HEX_LIT | ID | NUMERIC_LIT_1 | NUMERIC_LIT_2
  | STRING_LIT
  deriving DecidableEq, Repr

/-- A word of the input: its kind and its text. -/
abbrev Lexeme := Kind × Str

/-- The syntactic categories: the nonterminals of `src/sql/parser.lalrpop`, single words, and optional parts. -/
inductive Nt where
  | sqlStatement | statement | insertStatement | columnNameList | deleteStatement | updateStatement | assignments
  | assignment | selectStatement | tableExpressions | commonTableExpressionList | commonTableExpression
  | selectCoreList | compoundOperator | selectCore | selectMode | tupleList | tuple | resultColumns
  | resultColumnList | resultColumn | qualifiedIdentifier | fromClause | tableExpressionList | tableExpression
  | tableOrSubQuery | tableAlias | joinOperator | joinType | joinConstraint | identifierList | whereClause
  | groupByClause | orderByClause | orderingTermList | orderingTerm | orderingCollation | orderingDirection
  | limitClause | attachStatement | describeStatement | schemaName | expressionList | primaryExpression
  | unaryExpression | multiplicativeExpression | additiveExpression | comparativeExpression | complexExpression
  | caseExpression | whenClauses | whenClause | elseClause | notExpression | andExpression | orExpression
  | expression | literalValue | identifier | numericLiteral | stringLiteral
  | tok (k : Kind)
  | opt (s : Nt)
  deriving DecidableEq, Repr

/-- The type of the values of a category. -/
@[reducible] def Ty : Nt → Type
  | .sqlStatement => SqlStatement Name
  | .statement => Statement Name
  | .insertStatement => InsertStatement Name
  | .columnNameList => List Name
  | .deleteStatement => DeleteStatement Name
  | .updateStatement => UpdateStatement Name
  | .assignments => List (Assignment Name)
  | .assignment => Assignment Name
  | .selectStatement => Select Name
  | .tableExpressions => List (Cte Name)
  | .commonTableExpressionList => List (Cte Name)
  | .commonTableExpression => Cte Name
  | .selectCoreList => SetExpr Name
  | .compoundOperator => SetOperator
  | .selectCore => SetExpr Name
  | .selectMode => SelectMode
  | .tupleList => List (List (Expr Name))
  | .tuple => List (Expr Name)
  | .resultColumns => ResultColumns Name
  | .resultColumnList => List (ResultColumn Name)
  | .resultColumn => ResultColumn Name
  | .qualifiedIdentifier => List Name
  | .fromClause => List (TableExpr Name)
  | .tableExpressionList => List (TableExpr Name)
  | .tableExpression => TableExpr Name
  | .tableOrSubQuery => TableExpr Name
  | .tableAlias => Name
  | .joinOperator => JoinOperator
  | .joinType => JoinType
  | .joinConstraint => JoinConstraint Name
  | .identifierList => List Name
  | .whereClause => Expr Name
  | .groupByClause => GroupBy Name
  | .orderByClause => List (OrderTerm Name)
  | .orderingTermList => List (OrderTerm Name)
  | .orderingTerm => OrderTerm Name
  | .orderingCollation => Name
  | .orderingDirection => OrderingDirection
  | .limitClause => Limit Name
  | .attachStatement => AttachStatement Name
  | .describeStatement => DescribeStatement Name
  | .schemaName => Name
  | .expressionList => List (Expr Name)
  | .primaryExpression => Expr Name
  | .unaryExpression => Expr Name
  | .multiplicativeExpression => Expr Name
  | .additiveExpression => Expr Name
  | .comparativeExpression => Expr Name
  | .complexExpression => Expr Name
  | .caseExpression => Expr Name
  | .whenClauses => List (When Name)
  | .whenClause => When Name
  | .elseClause => Expr Name
  | .notExpression => Expr Name
  | .andExpression => Expr Name
  | .orExpression => Expr Name
  | .expression => Expr Name
  | .literalValue => Literal
  | .identifier => Name
  | .numericLiteral => Str
  | .stringLiteral => Str
  | .tok _ => Str
  | .opt s => Option (Ty s)

/-- `Gr s w v`: the words `w` are an `s` with value `v`. -/
inductive Gr : (s : Nt) → List Lexeme → Ty s → Prop where
  /-- a single word -/
  | tok {k : Kind} {t : Str} : Gr (.tok k) [(k, t)] t
  /-- an optional part that is absent -/
  | optNone {s : Nt} : Gr (.opt s) [] none
  /-- an optional part that is present -/
  | optSome {s : Nt} {w : List Lexeme} {v : Ty s} : Gr s w v → Gr (.opt s) w (some v)
  /-- `SqlStatement = Statement:s` (`src/sql/parser.lalrpop` L137-142) -/
  | sqlStatement_1 {w0 : List Lexeme} {s : Statement Name} :
      Gr .statement w0 s → Gr .sqlStatement w0 (.statement s)
  /-- `SqlStatement = EXPLAIN Statement:s` (`src/sql/parser.lalrpop` L137-142) -/
  | sqlStatement_2 {w1 : List Lexeme} {t0 : Str} {s : Statement Name} :
      Gr .statement w1 s → Gr .sqlStatement ((.EXPLAIN, t0) :: w1) (.explainQueryPlan s)
  /-- `SqlStatement = EXPLAIN QUERY PLAN Statement:s` (`src/sql/parser.lalrpop` L137-142) -/
  | sqlStatement_3 {w3 : List Lexeme} {t0 t1 t2 : Str} {s : Statement Name} :
      Gr .statement w3 s →
      Gr .sqlStatement ((.EXPLAIN, t0) :: (.QUERY, t1) :: (.PLAN, t2) :: w3) (.explainQueryPlan s)
  /-- `SqlStatement = AttachStatement:s` (`src/sql/parser.lalrpop` L137-142) -/
  | sqlStatement_4 {w0 : List Lexeme} {s : AttachStatement Name} :
      Gr .attachStatement w0 s → Gr .sqlStatement w0 (.attach s)
  /-- `SqlStatement = DescribeStatement:s` (`src/sql/parser.lalrpop` L137-142) -/
  | sqlStatement_5 {w0 : List Lexeme} {s : DescribeStatement Name} :
      Gr .describeStatement w0 s → Gr .sqlStatement w0 (.describe s)
  /-- `Statement = SelectStatement:s` (`src/sql/parser.lalrpop` L144-149) -/
  | statement_1 {w0 : List Lexeme} {s : Select Name} :
      Gr .selectStatement w0 s → Gr .statement w0 (.select s)
  /-- `Statement = InsertStatement:s` (`src/sql/parser.lalrpop` L144-149) -/
  | statement_2 {w0 : List Lexeme} {s : InsertStatement Name} :
      Gr .insertStatement w0 s → Gr .statement w0 (.insert s)
  /-- `Statement = DeleteStatement:s` (`src/sql/parser.lalrpop` L144-149) -/
  | statement_3 {w0 : List Lexeme} {s : DeleteStatement Name} :
      Gr .deleteStatement w0 s → Gr .statement w0 (.delete s)
  /-- `Statement = UpdateStatement:s` (`src/sql/parser.lalrpop` L144-149) -/
  | statement_4 {w0 : List Lexeme} {s : UpdateStatement Name} :
      Gr .updateStatement w0 s → Gr .statement w0 (.update s)
  /-- `InsertStatement = TableExpressions?:c INSERT INTO QualifiedIdentifier:n ColumnNameList?:l SelectCore:q` (`src/sql/parser.lalrpop` L151-154) -/
  | insertStatement_1 {w0 w3 w4 w5 : List Lexeme} {t1 t2 : Str} {c : Option (List (Cte Name))} {n : List Name} {l : Option (List Name)} {q : SetExpr Name} :
      Gr (.opt .tableExpressions) w0 c → Gr .qualifiedIdentifier w3 n → Gr (.opt .columnNameList) w4 l →
      Gr .selectCore w5 q →
      Gr .insertStatement (w0 ++ ((.INSERT, t1) :: (.INTO, t2) :: (w3 ++ (w4 ++ w5)))) ⟨n, l, q⟩
  /-- `ColumnNameList = ( IdentifierList:l )` (`src/sql/parser.lalrpop` L156-158) -/
  | columnNameList_1 {w1 : List Lexeme} {t0 t2 : Str} {l : List Name} :
      Gr .identifierList w1 l → Gr .columnNameList ((.lpar, t0) :: (w1 ++ [(.rpar, t2)])) l
  /-- `DeleteStatement = TableExpressions?:c DELETE FROM QualifiedIdentifier:n WhereClause?:p` (`src/sql/parser.lalrpop` L160-163) -/
  | deleteStatement_1 {w0 w3 w4 : List Lexeme} {t1 t2 : Str} {c : Option (List (Cte Name))} {n : List Name} {p : Option (Expr Name)} :
      Gr (.opt .tableExpressions) w0 c → Gr .qualifiedIdentifier w3 n → Gr (.opt .whereClause) w4 p →
      Gr .deleteStatement (w0 ++ ((.DELETE, t1) :: (.FROM, t2) :: (w3 ++ w4))) ⟨n, p⟩
  /-- `UpdateStatement = TableExpressions?:c UPDATE QualifiedIdentifier:n SET Assignments:a WhereClause?:p` (`src/sql/parser.lalrpop` L165-169) -/
  | updateStatement_1 {w0 w2 w4 w5 : List Lexeme} {t1 t3 : Str} {c : Option (List (Cte Name))} {n : List Name} {a : List (Assignment Name)} {p : Option (Expr Name)} :
      Gr (.opt .tableExpressions) w0 c → Gr .qualifiedIdentifier w2 n → Gr .assignments w4 a →
      Gr (.opt .whereClause) w5 p →
      Gr .updateStatement (w0 ++ ((.UPDATE, t1) :: (w2 ++ ((.SET, t3) :: (w4 ++ w5))))) ⟨n, a, p⟩
  /-- `Assignments = Assignment:a` (`src/sql/parser.lalrpop` L171-174) -/
  | assignments_1 {w0 : List Lexeme} {a : Assignment Name} :
      Gr .assignment w0 a → Gr .assignments w0 [a]
  /-- `Assignments = Assignments:l , Assignment:a` (`src/sql/parser.lalrpop` L171-174) -/
  | assignments_2 {w0 w2 : List Lexeme} {t1 : Str} {l : List (Assignment Name)} {a : Assignment Name} :
      Gr .assignments w0 l → Gr .assignment w2 a → Gr .assignments (w0 ++ ((.comma, t1) :: w2)) (l ++ [a])
  /-- `Assignment = IdentifierList:l = Expression:e` (`src/sql/parser.lalrpop` L176-178) -/
  | assignment_1 {w0 w2 : List Lexeme} {t1 : Str} {l : List Name} {e : Expr Name} :
      Gr .identifierList w0 l → Gr .expression w2 e → Gr .assignment (w0 ++ ((.eq, t1) :: w2)) ⟨l, e⟩
  /-- `SelectStatement = TableExpressions:c SelectCoreList:q OrderByClause?:o LimitClause?:l` (`src/sql/parser.lalrpop` L180-195) -/
  | selectStatement_1 {w0 w1 w2 w3 : List Lexeme} {c : List (Cte Name)} {q : SetExpr Name} {o : Option (List (OrderTerm Name))} {l : Option (Limit Name)} :
      Gr .tableExpressions w0 c → Gr .selectCoreList w1 q → Gr (.opt .orderByClause) w2 o →
      Gr (.opt .limitClause) w3 l → Gr .selectStatement (w0 ++ (w1 ++ (w2 ++ w3))) (.mk c q (o.getD []) l)
  /-- `SelectStatement = SelectCoreList:q OrderByClause?:o LimitClause?:l` (`src/sql/parser.lalrpop` L180-195) -/
  | selectStatement_2 {w0 w1 w2 : List Lexeme} {q : SetExpr Name} {o : Option (List (OrderTerm Name))} {l : Option (Limit Name)} :
      Gr .selectCoreList w0 q → Gr (.opt .orderByClause) w1 o → Gr (.opt .limitClause) w2 l →
      Gr .selectStatement (w0 ++ (w1 ++ w2)) (.mk [] q (o.getD []) l)
  /-- `TableExpressions = WITH CommonTableExpressionList:l` (`src/sql/parser.lalrpop` L197-199) -/
  | tableExpressions_1 {w1 : List Lexeme} {t0 : Str} {l : List (Cte Name)} :
      Gr .commonTableExpressionList w1 l → Gr .tableExpressions ((.WITH, t0) :: w1) l
  /-- `CommonTableExpressionList = CommonTableExpression:c` (`src/sql/parser.lalrpop` L201-204) -/
  | commonTableExpressionList_1 {w0 : List Lexeme} {c : Cte Name} :
      Gr .commonTableExpression w0 c → Gr .commonTableExpressionList w0 [c]
  /-- `CommonTableExpressionList = CommonTableExpressionList:l , CommonTableExpression:c` (`src/sql/parser.lalrpop` L201-204) -/
  | commonTableExpressionList_2 {w0 w2 : List Lexeme} {t1 : Str} {l : List (Cte Name)} {c : Cte Name} :
      Gr .commonTableExpressionList w0 l → Gr .commonTableExpression w2 c →
      Gr .commonTableExpressionList (w0 ++ ((.comma, t1) :: w2)) (l ++ [c])
  /-- `CommonTableExpression = Identifier:n AS ( SelectStatement:q )` (`src/sql/parser.lalrpop` L206-217) -/
  | commonTableExpression_1 {w0 w3 : List Lexeme} {t1 t2 t4 : Str} {n : Name} {q : Select Name} :
      Gr .identifier w0 n → Gr .selectStatement w3 q →
      Gr .commonTableExpression (w0 ++ ((.AS, t1) :: (.lpar, t2) :: (w3 ++ [(.rpar, t4)]))) (.mk n none q)
  /-- `CommonTableExpression = Identifier:n ( IdentifierList:l ) AS ( SelectStatement:q )` (`src/sql/parser.lalrpop` L206-217) -/
  | commonTableExpression_2 {w0 w2 w6 : List Lexeme} {t1 t3 t4 t5 t7 : Str} {n : Name} {l : List Name} {q : Select Name} :
      Gr .identifier w0 n → Gr .identifierList w2 l → Gr .selectStatement w6 q →
      Gr .commonTableExpression (w0 ++ ((.lpar, t1) :: (w2 ++ ((.rpar, t3) :: (.AS, t4) :: (.lpar, t5) :: (w6 ++ [(.rpar, t7)]))))) (.mk n (some l) q)
  /-- `SelectCoreList = SelectCore:q` (`src/sql/parser.lalrpop` L219-223) -/
  | selectCoreList_1 {w0 : List Lexeme} {q : SetExpr Name} :
      Gr .selectCore w0 q → Gr .selectCoreList w0 q
  /-- `SelectCoreList = SelectCoreList:l CompoundOperator:o SelectCore:r` (`src/sql/parser.lalrpop` L219-223) -/
  | selectCoreList_2 {w0 w1 w2 : List Lexeme} {l r : SetExpr Name} {o : SetOperator} :
      Gr .selectCoreList w0 l → Gr .compoundOperator w1 o → Gr .selectCore w2 r →
      Gr .selectCoreList (w0 ++ (w1 ++ w2)) (.op o l r)
  /-- `CompoundOperator = UNION` (`src/sql/parser.lalrpop` L225-230) -/
  | compoundOperator_1 {t0 : Str} :
      Gr .compoundOperator [(.UNION, t0)] .union
  /-- `CompoundOperator = UNION ALL` (`src/sql/parser.lalrpop` L225-230) -/
  | compoundOperator_2 {t0 t1 : Str} :
      Gr .compoundOperator ((.UNION, t0) :: [(.ALL, t1)]) .unionAll
  /-- `CompoundOperator = INTERSECT` (`src/sql/parser.lalrpop` L225-230) -/
  | compoundOperator_3 {t0 : Str} :
      Gr .compoundOperator [(.INTERSECT, t0)] .intersect
  /-- `CompoundOperator = EXCEPT` (`src/sql/parser.lalrpop` L225-230) -/
  | compoundOperator_4 {t0 : Str} :
      Gr .compoundOperator [(.EXCEPT, t0)] .except
  /-- `SelectCore = SELECT SelectMode:m ResultColumns:c WhereClause?:p GroupByClause?:g` (`src/sql/parser.lalrpop` L232-238) -/
  | selectCore_1 {w1 w2 w3 w4 : List Lexeme} {t0 : Str} {m : SelectMode} {c : ResultColumns Name} {p : Option (Expr Name)} {g : Option (GroupBy Name)} :
      Gr .selectMode w1 m → Gr .resultColumns w2 c → Gr (.opt .whereClause) w3 p → Gr (.opt .groupByClause) w4 g →
      Gr .selectCore ((.SELECT, t0) :: (w1 ++ (w2 ++ (w3 ++ w4)))) (.query m c [] p g)
  /-- `SelectCore = SELECT SelectMode:m ResultColumns:c FromClause:f WhereClause?:p GroupByClause?:g` (`src/sql/parser.lalrpop` L232-238) -/
  | selectCore_2 {w1 w2 w3 w4 w5 : List Lexeme} {t0 : Str} {m : SelectMode} {c : ResultColumns Name} {f : List (TableExpr Name)} {p : Option (Expr Name)} {g : Option (GroupBy Name)} :
      Gr .selectMode w1 m → Gr .resultColumns w2 c → Gr .fromClause w3 f → Gr (.opt .whereClause) w4 p →
      Gr (.opt .groupByClause) w5 g →
      Gr .selectCore ((.SELECT, t0) :: (w1 ++ (w2 ++ (w3 ++ (w4 ++ w5))))) (.query m c f p g)
  /-- `SelectCore = VALUES TupleList:t` (`src/sql/parser.lalrpop` L232-238) -/
  | selectCore_3 {w1 : List Lexeme} {t0 : Str} {t : List (List (Expr Name))} :
      Gr .tupleList w1 t → Gr .selectCore ((.VALUES, t0) :: w1) (.values t)
  /-- `SelectMode = ALL?` (`src/sql/parser.lalrpop` L240-243) -/
  | selectMode_1 {w0 : List Lexeme} {o0 : Option Str} :
      Gr (.opt (.tok .ALL)) w0 o0 → Gr .selectMode w0 .all
  /-- `SelectMode = DISTINCT` (`src/sql/parser.lalrpop` L240-243) -/
  | selectMode_2 {t0 : Str} :
      Gr .selectMode [(.DISTINCT, t0)] .distinct
  /-- `TupleList = Tuple:t` (`src/sql/parser.lalrpop` L245-248) -/
  | tupleList_1 {w0 : List Lexeme} {t : List (Expr Name)} :
      Gr .tuple w0 t → Gr .tupleList w0 [t]
  /-- `TupleList = TupleList:l , Tuple:t` (`src/sql/parser.lalrpop` L245-248) -/
  | tupleList_2 {w0 w2 : List Lexeme} {t1 : Str} {l : List (List (Expr Name))} {t : List (Expr Name)} :
      Gr .tupleList w0 l → Gr .tuple w2 t → Gr .tupleList (w0 ++ ((.comma, t1) :: w2)) (l ++ [t])
  /-- `Tuple = ( ExpressionList:l )` (`src/sql/parser.lalrpop` L250-252) -/
  | tuple_1 {w1 : List Lexeme} {t0 t2 : Str} {l : List (Expr Name)} :
      Gr .expressionList w1 l → Gr .tuple ((.lpar, t0) :: (w1 ++ [(.rpar, t2)])) l
  /-- `ResultColumns = *` (`src/sql/parser.lalrpop` L254-257) -/
  | resultColumns_1 {t0 : Str} :
      Gr .resultColumns [(.star, t0)] .all
  /-- `ResultColumns = ResultColumnList:l` (`src/sql/parser.lalrpop` L254-257) -/
  | resultColumns_2 {w0 : List Lexeme} {l : List (ResultColumn Name)} :
      Gr .resultColumnList w0 l → Gr .resultColumns w0 (.list l)
  /-- `ResultColumnList = ResultColumn:c` (`src/sql/parser.lalrpop` L259-262) -/
  | resultColumnList_1 {w0 : List Lexeme} {c : ResultColumn Name} :
      Gr .resultColumn w0 c → Gr .resultColumnList w0 [c]
  /-- `ResultColumnList = ResultColumnList:l , ResultColumn:c` (`src/sql/parser.lalrpop` L259-262) -/
  | resultColumnList_2 {w0 w2 : List Lexeme} {t1 : Str} {l : List (ResultColumn Name)} {c : ResultColumn Name} :
      Gr .resultColumnList w0 l → Gr .resultColumn w2 c →
      Gr .resultColumnList (w0 ++ ((.comma, t1) :: w2)) (l ++ [c])
  /-- `ResultColumn = Expression:e` (`src/sql/parser.lalrpop` L264-270) -/
  | resultColumn_1 {w0 : List Lexeme} {e : Expr Name} :
      Gr .expression w0 e → Gr .resultColumn w0 (.expr e none)
  /-- `ResultColumn = Expression:e AS? Identifier:n` (`src/sql/parser.lalrpop` L264-270) -/
  | resultColumn_2 {w0 w1 w2 : List Lexeme} {e : Expr Name} {o1 : Option Str} {n : Name} :
      Gr .expression w0 e → Gr (.opt (.tok .AS)) w1 o1 → Gr .identifier w2 n →
      Gr .resultColumn (w0 ++ (w1 ++ w2)) (.expr e (some n))
  /-- `ResultColumn = Identifier:n . *` (`src/sql/parser.lalrpop` L264-270) -/
  | resultColumn_3 {w0 : List Lexeme} {t1 t2 : Str} {n : Name} :
      Gr .identifier w0 n → Gr .resultColumn (w0 ++ ((.dot, t1) :: [(.star, t2)])) (.allFrom n)
  /-- `QualifiedIdentifier = Identifier:a` (`src/sql/parser.lalrpop` L272-276) -/
  | qualifiedIdentifier_1 {w0 : List Lexeme} {a : Name} :
      Gr .identifier w0 a → Gr .qualifiedIdentifier w0 [a]
  /-- `QualifiedIdentifier = Identifier:a . Identifier:b` (`src/sql/parser.lalrpop` L272-276) -/
  | qualifiedIdentifier_2 {w0 w2 : List Lexeme} {t1 : Str} {a b : Name} :
      Gr .identifier w0 a → Gr .identifier w2 b → Gr .qualifiedIdentifier (w0 ++ ((.dot, t1) :: w2)) [a, b]
  /-- `QualifiedIdentifier = Identifier:a . Identifier:b . Identifier:c` (`src/sql/parser.lalrpop` L272-276) -/
  | qualifiedIdentifier_3 {w0 w2 w4 : List Lexeme} {t1 t3 : Str} {a b c : Name} :
      Gr .identifier w0 a → Gr .identifier w2 b → Gr .identifier w4 c →
      Gr .qualifiedIdentifier (w0 ++ ((.dot, t1) :: (w2 ++ ((.dot, t3) :: w4)))) [a, b, c]
  /-- `FromClause = FROM TableExpressionList:l` (`src/sql/parser.lalrpop` L278-280) -/
  | fromClause_1 {w1 : List Lexeme} {t0 : Str} {l : List (TableExpr Name)} :
      Gr .tableExpressionList w1 l → Gr .fromClause ((.FROM, t0) :: w1) l
  /-- `TableExpressionList = TableExpression:t` (`src/sql/parser.lalrpop` L282-285) -/
  | tableExpressionList_1 {w0 : List Lexeme} {t : TableExpr Name} :
      Gr .tableExpression w0 t → Gr .tableExpressionList w0 [t]
  /-- `TableExpressionList = TableExpressionList:l , TableExpression:t` (`src/sql/parser.lalrpop` L282-285) -/
  | tableExpressionList_2 {w0 w2 : List Lexeme} {t1 : Str} {l : List (TableExpr Name)} {t : TableExpr Name} :
      Gr .tableExpressionList w0 l → Gr .tableExpression w2 t →
      Gr .tableExpressionList (w0 ++ ((.comma, t1) :: w2)) (l ++ [t])
  /-- `TableExpression = TableOrSubQuery:t` (`src/sql/parser.lalrpop` L287-291) -/
  | tableExpression_1 {w0 : List Lexeme} {t : TableExpr Name} :
      Gr .tableOrSubQuery w0 t → Gr .tableExpression w0 t
  /-- `TableExpression = TableExpression:l JoinOperator:o TableOrSubQuery:r JoinConstraint:c` (`src/sql/parser.lalrpop` L287-291) -/
  | tableExpression_2 {w0 w1 w2 w3 : List Lexeme} {l r : TableExpr Name} {o : JoinOperator} {c : JoinConstraint Name} :
      Gr .tableExpression w0 l → Gr .joinOperator w1 o → Gr .tableOrSubQuery w2 r → Gr .joinConstraint w3 c →
      Gr .tableExpression (w0 ++ (w1 ++ (w2 ++ w3))) (.join l r o c)
  /-- `TableOrSubQuery = QualifiedIdentifier:n TableAlias?:a` (`src/sql/parser.lalrpop` L293-299) -/
  | tableOrSubQuery_1 {w0 w1 : List Lexeme} {n : List Name} {a : Option Name} :
      Gr .qualifiedIdentifier w0 n → Gr (.opt .tableAlias) w1 a → Gr .tableOrSubQuery (w0 ++ w1) (.named n a)
  /-- `TableOrSubQuery = ( SelectStatement:q ) TableAlias?:a` (`src/sql/parser.lalrpop` L293-299) -/
  | tableOrSubQuery_2 {w1 w3 : List Lexeme} {t0 t2 : Str} {q : Select Name} {a : Option Name} :
      Gr .selectStatement w1 q → Gr (.opt .tableAlias) w3 a →
      Gr .tableOrSubQuery ((.lpar, t0) :: (w1 ++ ((.rpar, t2) :: w3))) (.select q a)
  /-- `TableOrSubQuery = ( TableExpression:t )` (`src/sql/parser.lalrpop` L293-299) -/
  | tableOrSubQuery_3 {w1 : List Lexeme} {t0 t2 : Str} {t : TableExpr Name} :
      Gr .tableExpression w1 t → Gr .tableOrSubQuery ((.lpar, t0) :: (w1 ++ [(.rpar, t2)])) t
  /-- `TableAlias = AS? Identifier:n` (`src/sql/parser.lalrpop` L301-303) -/
  | tableAlias_1 {w0 w1 : List Lexeme} {o0 : Option Str} {n : Name} :
      Gr (.opt (.tok .AS)) w0 o0 → Gr .identifier w1 n → Gr .tableAlias (w0 ++ w1) n
  /-- `JoinOperator = JoinType?:j JOIN` (`src/sql/parser.lalrpop` L305-309) -/
  | joinOperator_1 {w0 : List Lexeme} {t1 : Str} {j : Option JoinType} :
      Gr (.opt .joinType) w0 j → Gr .joinOperator (w0 ++ [(.JOIN, t1)]) (.join (j.getD .inner))
  /-- `JoinOperator = NATURAL JoinType?:j JOIN` (`src/sql/parser.lalrpop` L305-309) -/
  | joinOperator_2 {w1 : List Lexeme} {t0 t2 : Str} {j : Option JoinType} :
      Gr (.opt .joinType) w1 j →
      Gr .joinOperator ((.NATURAL, t0) :: (w1 ++ [(.JOIN, t2)])) (.natural (j.getD .inner))
  /-- `JoinOperator = CROSS JOIN` (`src/sql/parser.lalrpop` L305-309) -/
  | joinOperator_3 {t0 t1 : Str} :
      Gr .joinOperator ((.CROSS, t0) :: [(.JOIN, t1)]) .cross
  /-- `JoinType = LEFT OUTER?` (`src/sql/parser.lalrpop` L311-316) -/
  | joinType_1 {w1 : List Lexeme} {t0 : Str} {o1 : Option Str} :
      Gr (.opt (.tok .OUTER)) w1 o1 → Gr .joinType ((.LEFT, t0) :: w1) .left
  /-- `JoinType = RIGHT OUTER?` (`src/sql/parser.lalrpop` L311-316) -/
  | joinType_2 {w1 : List Lexeme} {t0 : Str} {o1 : Option Str} :
      Gr (.opt (.tok .OUTER)) w1 o1 → Gr .joinType ((.RIGHT, t0) :: w1) .right
  /-- `JoinType = FULL OUTER?` (`src/sql/parser.lalrpop` L311-316) -/
  | joinType_3 {w1 : List Lexeme} {t0 : Str} {o1 : Option Str} :
      Gr (.opt (.tok .OUTER)) w1 o1 → Gr .joinType ((.FULL, t0) :: w1) .full
  /-- `JoinType = INNER` (`src/sql/parser.lalrpop` L311-316) -/
  | joinType_4 {t0 : Str} :
      Gr .joinType [(.INNER, t0)] .inner
  /-- `JoinConstraint = ON Expression:e` (`src/sql/parser.lalrpop` L318-321) -/
  | joinConstraint_1 {w1 : List Lexeme} {t0 : Str} {e : Expr Name} :
      Gr .expression w1 e → Gr .joinConstraint ((.ON, t0) :: w1) (.expr e)
  /-- `JoinConstraint = USING ( IdentifierList:l )` (`src/sql/parser.lalrpop` L318-321) -/
  | joinConstraint_2 {w2 : List Lexeme} {t0 t1 t3 : Str} {l : List Name} :
      Gr .identifierList w2 l →
      Gr .joinConstraint ((.USING, t0) :: (.lpar, t1) :: (w2 ++ [(.rpar, t3)])) (.columns l)
  /-- `IdentifierList = Identifier:n` (`src/sql/parser.lalrpop` L323-326) -/
  | identifierList_1 {w0 : List Lexeme} {n : Name} :
      Gr .identifier w0 n → Gr .identifierList w0 [n]
  /-- `IdentifierList = IdentifierList:l , Identifier:n` (`src/sql/parser.lalrpop` L323-326) -/
  | identifierList_2 {w0 w2 : List Lexeme} {t1 : Str} {l : List Name} {n : Name} :
      Gr .identifierList w0 l → Gr .identifier w2 n → Gr .identifierList (w0 ++ ((.comma, t1) :: w2)) (l ++ [n])
  /-- `WhereClause = WHERE Expression:e` (`src/sql/parser.lalrpop` L328-330) -/
  | whereClause_1 {w1 : List Lexeme} {t0 : Str} {e : Expr Name} :
      Gr .expression w1 e → Gr .whereClause ((.WHERE, t0) :: w1) e
  /-- `GroupByClause = GROUP BY ExpressionList:l` (`src/sql/parser.lalrpop` L332-336) -/
  | groupByClause_1 {w2 : List Lexeme} {t0 t1 : Str} {l : List (Expr Name)} :
      Gr .expressionList w2 l → Gr .groupByClause ((.GROUP, t0) :: (.BY, t1) :: w2) (.mk l none)
  /-- `GroupByClause = GROUP BY ExpressionList:l HAVING Expression:e` (`src/sql/parser.lalrpop` L332-336) -/
  | groupByClause_2 {w2 w4 : List Lexeme} {t0 t1 t3 : Str} {l : List (Expr Name)} {e : Expr Name} :
      Gr .expressionList w2 l → Gr .expression w4 e →
      Gr .groupByClause ((.GROUP, t0) :: (.BY, t1) :: (w2 ++ ((.HAVING, t3) :: w4))) (.mk l (some e))
  /-- `OrderByClause = ORDER BY OrderingTermList:l` (`src/sql/parser.lalrpop` L338-340) -/
  | orderByClause_1 {w2 : List Lexeme} {t0 t1 : Str} {l : List (OrderTerm Name)} :
      Gr .orderingTermList w2 l → Gr .orderByClause ((.ORDER, t0) :: (.BY, t1) :: w2) l
  /-- `OrderingTermList = OrderingTerm:t` (`src/sql/parser.lalrpop` L342-345) -/
  | orderingTermList_1 {w0 : List Lexeme} {t : OrderTerm Name} :
      Gr .orderingTerm w0 t → Gr .orderingTermList w0 [t]
  /-- `OrderingTermList = OrderingTermList:l , OrderingTerm:t` (`src/sql/parser.lalrpop` L342-345) -/
  | orderingTermList_2 {w0 w2 : List Lexeme} {t1 : Str} {l : List (OrderTerm Name)} {t : OrderTerm Name} :
      Gr .orderingTermList w0 l → Gr .orderingTerm w2 t →
      Gr .orderingTermList (w0 ++ ((.comma, t1) :: w2)) (l ++ [t])
  /-- `OrderingTerm = Expression:e OrderingCollation?:c OrderingDirection:d` (`src/sql/parser.lalrpop` L347-350) -/
  | orderingTerm_1 {w0 w1 w2 : List Lexeme} {e : Expr Name} {c : Option Name} {d : OrderingDirection} :
      Gr .expression w0 e → Gr (.opt .orderingCollation) w1 c → Gr .orderingDirection w2 d →
      Gr .orderingTerm (w0 ++ (w1 ++ w2)) (.mk e c d)
  /-- `OrderingCollation = COLLATE Identifier:n` (`src/sql/parser.lalrpop` L352-354) -/
  | orderingCollation_1 {w1 : List Lexeme} {t0 : Str} {n : Name} :
      Gr .identifier w1 n → Gr .orderingCollation ((.COLLATE, t0) :: w1) n
  /-- `OrderingDirection = ASC?` (`src/sql/parser.lalrpop` L356-359) -/
  | orderingDirection_1 {w0 : List Lexeme} {o0 : Option Str} :
      Gr (.opt (.tok .ASC)) w0 o0 → Gr .orderingDirection w0 .ascending
  /-- `OrderingDirection = DESC` (`src/sql/parser.lalrpop` L356-359) -/
  | orderingDirection_2 {t0 : Str} :
      Gr .orderingDirection [(.DESC, t0)] .descending
  /-- `LimitClause = LIMIT Expression:n` (`src/sql/parser.lalrpop` L361-367) -/
  | limitClause_1 {w1 : List Lexeme} {t0 : Str} {n : Expr Name} :
      Gr .expression w1 n → Gr .limitClause ((.LIMIT, t0) :: w1) (.mk n none)
  /-- `LimitClause = LIMIT Expression:n , Expression:o` (`src/sql/parser.lalrpop` L361-367) -/
  | limitClause_2 {w1 w3 : List Lexeme} {t0 t2 : Str} {n o : Expr Name} :
      Gr .expression w1 n → Gr .expression w3 o →
      Gr .limitClause ((.LIMIT, t0) :: (w1 ++ ((.comma, t2) :: w3))) (.mk n (some o))
  /-- `LimitClause = LIMIT Expression:n OFFSET Expression:o` (`src/sql/parser.lalrpop` L361-367) -/
  | limitClause_3 {w1 w3 : List Lexeme} {t0 t2 : Str} {n o : Expr Name} :
      Gr .expression w1 n → Gr .expression w3 o →
      Gr .limitClause ((.LIMIT, t0) :: (w1 ++ ((.OFFSET, t2) :: w3))) (.mk n (some o))
  /-- `AttachStatement = ATTACH FILE StringLiteral:p AS SchemaName?:s Identifier:n` (`src/sql/parser.lalrpop` L369-372) -/
  | attachStatement_1 {w2 w4 w5 : List Lexeme} {t0 t1 t3 : Str} {p : Str} {s : Option Name} {n : Name} :
      Gr .stringLiteral w2 p → Gr (.opt .schemaName) w4 s → Gr .identifier w5 n →
      Gr .attachStatement ((.ATTACH, t0) :: (.FILE, t1) :: (w2 ++ ((.AS, t3) :: (w4 ++ w5)))) ⟨s.toList ++ [n], p⟩
  /-- `DescribeStatement = DESCRIBE SchemaName?:s Identifier:n` (`src/sql/parser.lalrpop` L374-377) -/
  | describeStatement_1 {w1 w2 : List Lexeme} {t0 : Str} {s : Option Name} {n : Name} :
      Gr (.opt .schemaName) w1 s → Gr .identifier w2 n →
      Gr .describeStatement ((.DESCRIBE, t0) :: (w1 ++ w2)) ⟨s.toList ++ [n]⟩
  /-- `SchemaName = Identifier:n .` (`src/sql/parser.lalrpop` L379-381) -/
  | schemaName_1 {w0 : List Lexeme} {t1 : Str} {n : Name} :
      Gr .identifier w0 n → Gr .schemaName (w0 ++ [(.dot, t1)]) n
  /-- `ExpressionList = Expression:e` (`src/sql/parser.lalrpop` L387-390) -/
  | expressionList_1 {w0 : List Lexeme} {e : Expr Name} :
      Gr .expression w0 e → Gr .expressionList w0 [e]
  /-- `ExpressionList = ExpressionList:l , Expression:e` (`src/sql/parser.lalrpop` L387-390) -/
  | expressionList_2 {w0 w2 : List Lexeme} {t1 : Str} {l : List (Expr Name)} {e : Expr Name} :
      Gr .expressionList w0 l → Gr .expression w2 e → Gr .expressionList (w0 ++ ((.comma, t1) :: w2)) (l ++ [e])
  /-- `PrimaryExpression = ( ExpressionList:e )` (`src/sql/parser.lalrpop` L392-404) -/
  | primaryExpression_1 {w1 : List Lexeme} {t0 t2 : Str} {e : Expr Name} :
      Gr .expressionList w1 [e] → Gr .primaryExpression ((.lpar, t0) :: (w1 ++ [(.rpar, t2)])) e
  /-- `PrimaryExpression = ( ExpressionList:es )` (`src/sql/parser.lalrpop` L392-404) -/
  | primaryExpression_2 {w1 : List Lexeme} {t0 t2 : Str} {es : List (Expr Name)} :
      Gr .expressionList w1 es → es.length ≠ 1 →
      Gr .primaryExpression ((.lpar, t0) :: (w1 ++ [(.rpar, t2)])) (.tuple es)
  /-- `PrimaryExpression = ( SelectStatement:q )` (`src/sql/parser.lalrpop` L392-404) -/
  | primaryExpression_3 {w1 : List Lexeme} {t0 t2 : Str} {q : Select Name} :
      Gr .selectStatement w1 q → Gr .primaryExpression ((.lpar, t0) :: (w1 ++ [(.rpar, t2)])) (.select q)
  /-- `PrimaryExpression = LiteralValue:l` (`src/sql/parser.lalrpop` L392-404) -/
  | primaryExpression_4 {w0 : List Lexeme} {l : Literal} :
      Gr .literalValue w0 l → Gr .primaryExpression w0 (.literal l)
  /-- `PrimaryExpression = QualifiedIdentifier:n` (`src/sql/parser.lalrpop` L392-404) -/
  | primaryExpression_5 {w0 : List Lexeme} {n : List Name} :
      Gr .qualifiedIdentifier w0 n → Gr .primaryExpression w0 (.ident n)
  /-- `UnaryExpression = PrimaryExpression:e` (`src/sql/parser.lalrpop` L406-410) -/
  | unaryExpression_1 {w0 : List Lexeme} {e : Expr Name} :
      Gr .primaryExpression w0 e → Gr .unaryExpression w0 e
  /-- `UnaryExpression = + UnaryExpression:e` (`src/sql/parser.lalrpop` L406-410) -/
  | unaryExpression_2 {w1 : List Lexeme} {t0 : Str} {e : Expr Name} :
      Gr .unaryExpression w1 e → Gr .unaryExpression ((.plus, t0) :: w1) e
  /-- `UnaryExpression = - UnaryExpression:e` (`src/sql/parser.lalrpop` L406-410) -/
  | unaryExpression_3 {w1 : List Lexeme} {t0 : Str} {e : Expr Name} :
      Gr .unaryExpression w1 e → Gr .unaryExpression ((.minus, t0) :: w1) (.unary .negate e)
  /-- `MultiplicativeExpression = UnaryExpression:e` (`src/sql/parser.lalrpop` L412-418) -/
  | multiplicativeExpression_1 {w0 : List Lexeme} {e : Expr Name} :
      Gr .unaryExpression w0 e → Gr .multiplicativeExpression w0 e
  /-- `MultiplicativeExpression = MultiplicativeExpression:l * UnaryExpression:r` (`src/sql/parser.lalrpop` L412-418) -/
  | multiplicativeExpression_2 {w0 w2 : List Lexeme} {t1 : Str} {l r : Expr Name} :
      Gr .multiplicativeExpression w0 l → Gr .unaryExpression w2 r →
      Gr .multiplicativeExpression (w0 ++ ((.star, t1) :: w2)) (.binary .multiply l r)
  /-- `MultiplicativeExpression = MultiplicativeExpression:l / UnaryExpression:r` (`src/sql/parser.lalrpop` L412-418) -/
  | multiplicativeExpression_3 {w0 w2 : List Lexeme} {t1 : Str} {l r : Expr Name} :
      Gr .multiplicativeExpression w0 l → Gr .unaryExpression w2 r →
      Gr .multiplicativeExpression (w0 ++ ((.slash, t1) :: w2)) (.binary .divide l r)
  /-- `AdditiveExpression = MultiplicativeExpression:e` (`src/sql/parser.lalrpop` L420-428) -/
  | additiveExpression_1 {w0 : List Lexeme} {e : Expr Name} :
      Gr .multiplicativeExpression w0 e → Gr .additiveExpression w0 e
  /-- `AdditiveExpression = AdditiveExpression:l + MultiplicativeExpression:r` (`src/sql/parser.lalrpop` L420-428) -/
  | additiveExpression_2 {w0 w2 : List Lexeme} {t1 : Str} {l r : Expr Name} :
      Gr .additiveExpression w0 l → Gr .multiplicativeExpression w2 r →
      Gr .additiveExpression (w0 ++ ((.plus, t1) :: w2)) (.binary .add l r)
  /-- `AdditiveExpression = AdditiveExpression:l - MultiplicativeExpression:r` (`src/sql/parser.lalrpop` L420-428) -/
  | additiveExpression_3 {w0 w2 : List Lexeme} {t1 : Str} {l r : Expr Name} :
      Gr .additiveExpression w0 l → Gr .multiplicativeExpression w2 r →
      Gr .additiveExpression (w0 ++ ((.minus, t1) :: w2)) (.binary .subtract l r)
  /-- `AdditiveExpression = AdditiveExpression:l || MultiplicativeExpression:r` (`src/sql/parser.lalrpop` L420-428) -/
  | additiveExpression_4 {w0 w2 : List Lexeme} {t1 : Str} {l r : Expr Name} :
      Gr .additiveExpression w0 l → Gr .multiplicativeExpression w2 r →
      Gr .additiveExpression (w0 ++ ((.bars, t1) :: w2)) (.binary .concat l r)
  /-- `ComparativeExpression = AdditiveExpression:e` (`src/sql/parser.lalrpop` L430-491) -/
  | comparativeExpression_1 {w0 : List Lexeme} {e : Expr Name} :
      Gr .additiveExpression w0 e → Gr .comparativeExpression w0 e
  /-- `ComparativeExpression = ComparativeExpression:l = AdditiveExpression:r` (`src/sql/parser.lalrpop` L430-491) -/
  | comparativeExpression_2 {w0 w2 : List Lexeme} {t1 : Str} {l r : Expr Name} :
      Gr .comparativeExpression w0 l → Gr .additiveExpression w2 r →
      Gr .comparativeExpression (w0 ++ ((.eq, t1) :: w2)) (.comparison .equal l r)
  /-- `ComparativeExpression = ComparativeExpression:l != AdditiveExpression:r` (`src/sql/parser.lalrpop` L430-491) -/
  | comparativeExpression_3 {w0 w2 : List Lexeme} {t1 : Str} {l r : Expr Name} :
      Gr .comparativeExpression w0 l → Gr .additiveExpression w2 r →
      Gr .comparativeExpression (w0 ++ ((.ne, t1) :: w2)) (.comparison .notEqual l r)
  /-- `ComparativeExpression = ComparativeExpression:l < AdditiveExpression:r` (`src/sql/parser.lalrpop` L430-491) -/
  | comparativeExpression_4 {w0 w2 : List Lexeme} {t1 : Str} {l r : Expr Name} :
      Gr .comparativeExpression w0 l → Gr .additiveExpression w2 r →
      Gr .comparativeExpression (w0 ++ ((.lt, t1) :: w2)) (.comparison .lessThan l r)
  /-- `ComparativeExpression = ComparativeExpression:l > AdditiveExpression:r` (`src/sql/parser.lalrpop` L430-491) -/
  | comparativeExpression_5 {w0 w2 : List Lexeme} {t1 : Str} {l r : Expr Name} :
      Gr .comparativeExpression w0 l → Gr .additiveExpression w2 r →
      Gr .comparativeExpression (w0 ++ ((.gt, t1) :: w2)) (.comparison .greaterThan l r)
  /-- `ComparativeExpression = ComparativeExpression:l <= AdditiveExpression:r` (`src/sql/parser.lalrpop` L430-491) -/
  | comparativeExpression_6 {w0 w2 : List Lexeme} {t1 : Str} {l r : Expr Name} :
      Gr .comparativeExpression w0 l → Gr .additiveExpression w2 r →
      Gr .comparativeExpression (w0 ++ ((.le, t1) :: w2)) (.comparison .lessEqual l r)
  /-- `ComparativeExpression = ComparativeExpression:l >= AdditiveExpression:r` (`src/sql/parser.lalrpop` L430-491) -/
  | comparativeExpression_7 {w0 w2 : List Lexeme} {t1 : Str} {l r : Expr Name} :
      Gr .comparativeExpression w0 l → Gr .additiveExpression w2 r →
      Gr .comparativeExpression (w0 ++ ((.ge, t1) :: w2)) (.comparison .greaterEqual l r)
  /-- `ComparativeExpression = ComparativeExpression:e IS NULL` (`src/sql/parser.lalrpop` L430-491) -/
  | comparativeExpression_8 {w0 : List Lexeme} {t1 t2 : Str} {e : Expr Name} :
      Gr .comparativeExpression w0 e →
      Gr .comparativeExpression (w0 ++ ((.IS, t1) :: [(.NULL, t2)])) (.unary .isNull e)
  /-- `ComparativeExpression = ComparativeExpression:e IS NOT NULL` (`src/sql/parser.lalrpop` L430-491) -/
  | comparativeExpression_9 {w0 : List Lexeme} {t1 t2 t3 : Str} {e : Expr Name} :
      Gr .comparativeExpression w0 e →
      Gr .comparativeExpression (w0 ++ ((.IS, t1) :: (.NOT, t2) :: [(.NULL, t3)])) (.unary .not (.unary .isNull e))
  /-- `ComparativeExpression = ComparativeExpression:l LIKE AdditiveExpression:r` (`src/sql/parser.lalrpop` L430-491) -/
  | comparativeExpression_10 {w0 w2 : List Lexeme} {t1 : Str} {l r : Expr Name} :
      Gr .comparativeExpression w0 l → Gr .additiveExpression w2 r →
      Gr .comparativeExpression (w0 ++ ((.LIKE, t1) :: w2)) (.comparison .like l r)
  /-- `ComparativeExpression = ComparativeExpression:e ISNULL` (`src/sql/parser.lalrpop` L430-491) -/
  | comparativeExpression_11 {w0 : List Lexeme} {t1 : Str} {e : Expr Name} :
      Gr .comparativeExpression w0 e → Gr .comparativeExpression (w0 ++ [(.ISNULL, t1)]) (.unary .isNull e)
  /-- `ComparativeExpression = ComparativeExpression:e NOTNULL` (`src/sql/parser.lalrpop` L430-491) -/
  | comparativeExpression_12 {w0 : List Lexeme} {t1 : Str} {e : Expr Name} :
      Gr .comparativeExpression w0 e →
      Gr .comparativeExpression (w0 ++ [(.NOTNULL, t1)]) (.unary .not (.unary .isNull e))
  /-- `ComparativeExpression = ComparativeExpression:e NOT NULL` (`src/sql/parser.lalrpop` L430-491) -/
  | comparativeExpression_13 {w0 : List Lexeme} {t1 t2 : Str} {e : Expr Name} :
      Gr .comparativeExpression w0 e →
      Gr .comparativeExpression (w0 ++ ((.NOT, t1) :: [(.NULL, t2)])) (.unary .not (.unary .isNull e))
  /-- `ComparativeExpression = ComparativeExpression:e IN ( )` (`src/sql/parser.lalrpop` L430-491) -/
  | comparativeExpression_14 {w0 : List Lexeme} {t1 t2 t3 : Str} {e : Expr Name} :
      Gr .comparativeExpression w0 e →
      Gr .comparativeExpression (w0 ++ ((.IN, t1) :: (.lpar, t2) :: [(.rpar, t3)])) (.inSet e (.list []))
  /-- `ComparativeExpression = ComparativeExpression:e NOT IN ( )` (`src/sql/parser.lalrpop` L430-491) -/
  | comparativeExpression_15 {w0 : List Lexeme} {t1 t2 t3 t4 : Str} {e : Expr Name} :
      Gr .comparativeExpression w0 e →
      Gr .comparativeExpression (w0 ++ ((.NOT, t1) :: (.IN, t2) :: (.lpar, t3) :: [(.rpar, t4)])) (.unary .not (.inSet e (.list [])))
  /-- `ComparativeExpression = ComparativeExpression:e IN ( ExpressionList:l )` (`src/sql/parser.lalrpop` L430-491) -/
  | comparativeExpression_16 {w0 w3 : List Lexeme} {t1 t2 t4 : Str} {e : Expr Name} {l : List (Expr Name)} :
      Gr .comparativeExpression w0 e → Gr .expressionList w3 l →
      Gr .comparativeExpression (w0 ++ ((.IN, t1) :: (.lpar, t2) :: (w3 ++ [(.rpar, t4)]))) (.inSet e (.list l))
  /-- `ComparativeExpression = ComparativeExpression:e NOT IN ( ExpressionList:l )` (`src/sql/parser.lalrpop` L430-491) -/
  | comparativeExpression_17 {w0 w4 : List Lexeme} {t1 t2 t3 t5 : Str} {e : Expr Name} {l : List (Expr Name)} :
      Gr .comparativeExpression w0 e → Gr .expressionList w4 l →
      Gr .comparativeExpression (w0 ++ ((.NOT, t1) :: (.IN, t2) :: (.lpar, t3) :: (w4 ++ [(.rpar, t5)]))) (.unary .not (.inSet e (.list l)))
  /-- `ComparativeExpression = ComparativeExpression:e IN ( SelectStatement:q )` (`src/sql/parser.lalrpop` L430-491) -/
  | comparativeExpression_18 {w0 w3 : List Lexeme} {t1 t2 t4 : Str} {e : Expr Name} {q : Select Name} :
      Gr .comparativeExpression w0 e → Gr .selectStatement w3 q →
      Gr .comparativeExpression (w0 ++ ((.IN, t1) :: (.lpar, t2) :: (w3 ++ [(.rpar, t4)]))) (.inSet e (.select q))
  /-- `ComparativeExpression = ComparativeExpression:e NOT IN ( SelectStatement:q )` (`src/sql/parser.lalrpop` L430-491) -/
  | comparativeExpression_19 {w0 w4 : List Lexeme} {t1 t2 t3 t5 : Str} {e : Expr Name} {q : Select Name} :
      Gr .comparativeExpression w0 e → Gr .selectStatement w4 q →
      Gr .comparativeExpression (w0 ++ ((.NOT, t1) :: (.IN, t2) :: (.lpar, t3) :: (w4 ++ [(.rpar, t5)]))) (.unary .not (.inSet e (.select q)))
  /-- `ComparativeExpression = ComparativeExpression:e IN QualifiedIdentifier:n` (`src/sql/parser.lalrpop` L430-491) -/
  | comparativeExpression_20 {w0 w2 : List Lexeme} {t1 : Str} {e : Expr Name} {n : List Name} :
      Gr .comparativeExpression w0 e → Gr .qualifiedIdentifier w2 n →
      Gr .comparativeExpression (w0 ++ ((.IN, t1) :: w2)) (.inSet e (.name n))
  /-- `ComparativeExpression = ComparativeExpression:e NOT IN QualifiedIdentifier:n` (`src/sql/parser.lalrpop` L430-491) -/
  | comparativeExpression_21 {w0 w3 : List Lexeme} {t1 t2 : Str} {e : Expr Name} {n : List Name} :
      Gr .comparativeExpression w0 e → Gr .qualifiedIdentifier w3 n →
      Gr .comparativeExpression (w0 ++ ((.NOT, t1) :: (.IN, t2) :: w3)) (.unary .not (.inSet e (.name n)))
  /-- `ComparativeExpression = ComparativeExpression:e BETWEEN AdditiveExpression:l AND AdditiveExpression:u` (`src/sql/parser.lalrpop` L430-491) -/
  | comparativeExpression_22 {w0 w2 w4 : List Lexeme} {t1 t3 : Str} {e l u : Expr Name} :
      Gr .comparativeExpression w0 e → Gr .additiveExpression w2 l → Gr .additiveExpression w4 u →
      Gr .comparativeExpression (w0 ++ ((.BETWEEN, t1) :: (w2 ++ ((.AND, t3) :: w4)))) (.between e l u)
  /-- `ComparativeExpression = ComparativeExpression:e NOT BETWEEN AdditiveExpression:l AND AdditiveExpression:u` (`src/sql/parser.lalrpop` L430-491) -/
  | comparativeExpression_23 {w0 w3 w5 : List Lexeme} {t1 t2 t4 : Str} {e l u : Expr Name} :
      Gr .comparativeExpression w0 e → Gr .additiveExpression w3 l → Gr .additiveExpression w5 u →
      Gr .comparativeExpression (w0 ++ ((.NOT, t1) :: (.BETWEEN, t2) :: (w3 ++ ((.AND, t4) :: w5)))) (.unary .not (.between e l u))
  /-- `ComplexExpression = ComparativeExpression:e` (`src/sql/parser.lalrpop` L493-496) -/
  | complexExpression_1 {w0 : List Lexeme} {e : Expr Name} :
      Gr .comparativeExpression w0 e → Gr .complexExpression w0 e
  /-- `ComplexExpression = CaseExpression:e` (`src/sql/parser.lalrpop` L493-496) -/
  | complexExpression_2 {w0 : List Lexeme} {e : Expr Name} :
      Gr .caseExpression w0 e → Gr .complexExpression w0 e
  /-- `CaseExpression = CASE Expression?:e WhenClause+:l ElseClause?:o END` (`src/sql/parser.lalrpop` L498-501) -/
  | caseExpression_1 {w1 w2 w3 : List Lexeme} {t0 t4 : Str} {e o : Option (Expr Name)} {l : List (When Name)} :
      Gr (.opt .expression) w1 e → Gr .whenClauses w2 l → Gr (.opt .elseClause) w3 o →
      Gr .caseExpression ((.CASE, t0) :: (w1 ++ (w2 ++ (w3 ++ [(.END, t4)])))) (.case e l o)
  /-- `WhenClause+ = WhenClause:x` (`src/sql/parser.lalrpop` L498-501) -/
  | whenClauses_1 {w0 : List Lexeme} {x : When Name} :
      Gr .whenClause w0 x → Gr .whenClauses w0 [x]
  /-- `WhenClause+ = WhenClause+:l WhenClause:x` (`src/sql/parser.lalrpop` L498-501) -/
  | whenClauses_2 {w0 w1 : List Lexeme} {l : List (When Name)} {x : When Name} :
      Gr .whenClauses w0 l → Gr .whenClause w1 x → Gr .whenClauses (w0 ++ w1) (l ++ [x])
  /-- `WhenClause = WHEN Expression:g THEN Expression:b` (`src/sql/parser.lalrpop` L503-505) -/
  | whenClause_1 {w1 w3 : List Lexeme} {t0 t2 : Str} {g b : Expr Name} :
      Gr .expression w1 g → Gr .expression w3 b →
      Gr .whenClause ((.WHEN, t0) :: (w1 ++ ((.THEN, t2) :: w3))) (.mk g b)
  /-- `ElseClause = ELSE Expression:e` (`src/sql/parser.lalrpop` L507-509) -/
  | elseClause_1 {w1 : List Lexeme} {t0 : Str} {e : Expr Name} :
      Gr .expression w1 e → Gr .elseClause ((.ELSE, t0) :: w1) e
  /-- `NotExpression = ComplexExpression:e` (`src/sql/parser.lalrpop` L511-514) -/
  | notExpression_1 {w0 : List Lexeme} {e : Expr Name} :
      Gr .complexExpression w0 e → Gr .notExpression w0 e
  /-- `NotExpression = NOT ComplexExpression:e` (`src/sql/parser.lalrpop` L511-514) -/
  | notExpression_2 {w1 : List Lexeme} {t0 : Str} {e : Expr Name} :
      Gr .complexExpression w1 e → Gr .notExpression ((.NOT, t0) :: w1) (.unary .not e)
  /-- `AndExpression = NotExpression:e` (`src/sql/parser.lalrpop` L516-520) -/
  | andExpression_1 {w0 : List Lexeme} {e : Expr Name} :
      Gr .notExpression w0 e → Gr .andExpression w0 e
  /-- `AndExpression = AndExpression:l AND NotExpression:r` (`src/sql/parser.lalrpop` L516-520) -/
  | andExpression_2 {w0 w2 : List Lexeme} {t1 : Str} {l r : Expr Name} :
      Gr .andExpression w0 l → Gr .notExpression w2 r →
      Gr .andExpression (w0 ++ ((.AND, t1) :: w2)) (.binary .and l r)
  /-- `OrExpression = AndExpression:e` (`src/sql/parser.lalrpop` L522-526) -/
  | orExpression_1 {w0 : List Lexeme} {e : Expr Name} :
      Gr .andExpression w0 e → Gr .orExpression w0 e
  /-- `OrExpression = OrExpression:l OR AndExpression:r` (`src/sql/parser.lalrpop` L522-526) -/
  | orExpression_2 {w0 w2 : List Lexeme} {t1 : Str} {l r : Expr Name} :
      Gr .orExpression w0 l → Gr .andExpression w2 r → Gr .orExpression (w0 ++ ((.OR, t1) :: w2)) (.binary .or l r)
  /-- `Expression = OrExpression:e` (`src/sql/parser.lalrpop` L528-530) -/
  | expression_1 {w0 : List Lexeme} {e : Expr Name} :
      Gr .orExpression w0 e → Gr .expression w0 e
  /-- `LiteralValue = NumericLiteral:s` (`src/sql/parser.lalrpop` L536-546) -/
  | literalValue_1 {w0 : List Lexeme} {s : Str} :
      Gr .numericLiteral w0 s → Gr .literalValue w0 (.numeric s)
  /-- `LiteralValue = StringLiteral:s` (`src/sql/parser.lalrpop` L536-546) -/
  | literalValue_2 {w0 : List Lexeme} {s : Str} :
      Gr .stringLiteral w0 s → Gr .literalValue w0 (.string s)
  /-- `LiteralValue = NULL` (`src/sql/parser.lalrpop` L536-546) -/
  | literalValue_3 {t0 : Str} :
      Gr .literalValue [(.NULL, t0)] .null
  /-- `LiteralValue = CURRENT_TIME` (`src/sql/parser.lalrpop` L536-546) -/
  | literalValue_4 {t0 : Str} :
      Gr .literalValue [(.CURRENT_TIME, t0)] .currentTime
  /-- `LiteralValue = CURRENT_DATE` (`src/sql/parser.lalrpop` L536-546) -/
  | literalValue_5 {t0 : Str} :
      Gr .literalValue [(.CURRENT_DATE, t0)] .currentDate
  /-- `LiteralValue = CURRENT_TIMESTAMP` (`src/sql/parser.lalrpop` L536-546) -/
  | literalValue_6 {t0 : Str} :
      Gr .literalValue [(.CURRENT_TIMESTAMP, t0)] .currentTimestamp
  /-- `LiteralValue = DATE StringLiteral:s` (`src/sql/parser.lalrpop` L536-546) -/
  | literalValue_7 {w1 : List Lexeme} {t0 : Str} {s : Str} :
      Gr .stringLiteral w1 s → Gr .literalValue ((.DATE, t0) :: w1) (.date s)
  /-- `LiteralValue = TIME StringLiteral:s` (`src/sql/parser.lalrpop` L536-546) -/
  | literalValue_8 {w1 : List Lexeme} {t0 : Str} {s : Str} :
      Gr .stringLiteral w1 s → Gr .literalValue ((.TIME, t0) :: w1) (.time s)
  /-- `LiteralValue = TIMESTAMP StringLiteral:s` (`src/sql/parser.lalrpop` L536-546) -/
  | literalValue_9 {w1 : List Lexeme} {t0 : Str} {s : Str} :
      Gr .stringLiteral w1 s → Gr .literalValue ((.TIMESTAMP, t0) :: w1) (.timestamp s)
  /-- `Identifier = ID:t` (`src/sql/parser.lalrpop` L548) -/
  | identifier_1 {t : Str} :
      Gr .identifier [(.ID, t)] ⟨t⟩
  /-- `NumericLiteral = NUMERIC_LIT_1:t` (`src/sql/parser.lalrpop` L550-554) -/
  | numericLiteral_1 {t : Str} :
      Gr .numericLiteral [(.NUMERIC_LIT_1, t)] t
  /-- `NumericLiteral = NUMERIC_LIT_2:t` (`src/sql/parser.lalrpop` L550-554) -/
  | numericLiteral_2 {t : Str} :
      Gr .numericLiteral [(.NUMERIC_LIT_2, t)] t
  /-- `NumericLiteral = HEX_LIT:t` (`src/sql/parser.lalrpop` L550-554) -/
  | numericLiteral_3 {t : Str} :
      Gr .numericLiteral [(.HEX_LIT, t)] t
  /-- `StringLiteral = STRING_LIT` (`src/sql/parser.lalrpop` L556) -/
  | stringLiteral_1 {s : Str} :
      Gr .stringLiteral [(.STRING_LIT, '\'' :: (s ++ ['\'']))] s

end Verif.Sql.Grammar
