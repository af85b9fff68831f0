SqlStatement : SqlStatement Name
  Statement:s => .statement s
  EXPLAIN Statement:s => .explainQueryPlan s
  EXPLAIN QUERY PLAN Statement:s => .explainQueryPlan s
  AttachStatement:s => .attach s
  DescribeStatement:s => .describe s
Statement : Statement Name
  SelectStatement:s => .select s
  InsertStatement:s => .insert s
  DeleteStatement:s => .delete s
  UpdateStatement:s => .update s
InsertStatement : InsertStatement Name
  TableExpressions?:c INSERT INTO QualifiedIdentifier:n ColumnNameList?:l SelectCore:q => ⟨n, l, q⟩
ColumnNameList : List Name
  ( IdentifierList:l ) => l
DeleteStatement : DeleteStatement Name
  TableExpressions?:c DELETE FROM QualifiedIdentifier:n WhereClause?:p => ⟨n, p⟩
UpdateStatement : UpdateStatement Name
  TableExpressions?:c UPDATE QualifiedIdentifier:n SET Assignments:a WhereClause?:p => ⟨n, a, p⟩
Assignments : List (Assignment Name)
  Assignment:a => [a]
  Assignments:l , Assignment:a => (l ++ [a])
Assignment : Assignment Name
  IdentifierList:l = Expression:e => ⟨l, e⟩
SelectStatement : Select Name
  TableExpressions:c SelectCoreList:q OrderByClause?:o LimitClause?:l => (.mk c q (o.getD []) l)
  SelectCoreList:q OrderByClause?:o LimitClause?:l => (.mk [] q (o.getD []) l)
TableExpressions : List (Cte Name)
  WITH CommonTableExpressionList:l => l
CommonTableExpressionList : List (Cte Name)
  CommonTableExpression:c => [c]
  CommonTableExpressionList:l , CommonTableExpression:c => (l ++ [c])
CommonTableExpression : Cte Name
  Identifier:n AS ( SelectStatement:q ) => (.mk n none q)
  Identifier:n ( IdentifierList:l ) AS ( SelectStatement:q ) => (.mk n (some l) q)
SelectCoreList : SetExpr Name
  SelectCore:q => q
  SelectCoreList:l CompoundOperator:o SelectCore:r => (.op o l r)
CompoundOperator : SetOperator
  UNION => .union
  UNION ALL => .unionAll
  INTERSECT => .intersect
  EXCEPT => .except
SelectCore : SetExpr Name
  SELECT SelectMode:m ResultColumns:c WhereClause?:p GroupByClause?:g => (.query m c [] p g)
  SELECT SelectMode:m ResultColumns:c FromClause:f WhereClause?:p GroupByClause?:g => (.query m c f p g)
  VALUES TupleList:t => (.values t)
SelectMode : SelectMode
  ALL? => .all
  DISTINCT => .distinct
TupleList : List (List (Expr Name))
  Tuple:t => [t]
  TupleList:l , Tuple:t => (l ++ [t])
Tuple : List (Expr Name)
  ( ExpressionList:l ) => l
ResultColumns : ResultColumns Name
  * => .all
  ResultColumnList:l => (.list l)
ResultColumnList : List (ResultColumn Name)
  ResultColumn:c => [c]
  ResultColumnList:l , ResultColumn:c => (l ++ [c])
ResultColumn : ResultColumn Name
  Expression:e => (.expr e none)
  Expression:e AS? Identifier:n => (.expr e (some n))
  Identifier:n . * => (.allFrom n)
QualifiedIdentifier : List Name
  Identifier:a => [a]
  Identifier:a . Identifier:b => [a, b]
  Identifier:a . Identifier:b . Identifier:c => [a, b, c]
FromClause : List (TableExpr Name)
  FROM TableExpressionList:l => l
TableExpressionList : List (TableExpr Name)
  TableExpression:t => [t]
  TableExpressionList:l , TableExpression:t => (l ++ [t])
TableExpression : TableExpr Name
  TableOrSubQuery:t => t
  TableExpression:l JoinOperator:o TableOrSubQuery:r JoinConstraint:c => (.join l r o c)
TableOrSubQuery : TableExpr Name
  QualifiedIdentifier:n TableAlias?:a => (.named n a)
  ( SelectStatement:q ) TableAlias?:a => (.select q a)
  ( TableExpression:t ) => t
TableAlias : Name
  AS? Identifier:n => n
JoinOperator : JoinOperator
  JoinType?:j JOIN => (.join (j.getD .inner))
  NATURAL JoinType?:j JOIN => (.natural (j.getD .inner))
  CROSS JOIN => .cross
JoinType : JoinType
  LEFT OUTER? => .left
  RIGHT OUTER? => .right
  FULL OUTER? => .full
  INNER => .inner
JoinConstraint : JoinConstraint Name
  ON Expression:e => (.expr e)
  USING ( IdentifierList:l ) => (.columns l)
IdentifierList : List Name
  Identifier:n => [n]
  IdentifierList:l , Identifier:n => (l ++ [n])
WhereClause : Expr Name
  WHERE Expression:e => e
GroupByClause : GroupBy Name
  GROUP BY ExpressionList:l => (.mk l none)
  GROUP BY ExpressionList:l HAVING Expression:e => (.mk l (some e))
OrderByClause : List (OrderTerm Name)
  ORDER BY OrderingTermList:l => l
OrderingTermList : List (OrderTerm Name)
  OrderingTerm:t => [t]
  OrderingTermList:l , OrderingTerm:t => (l ++ [t])
OrderingTerm : OrderTerm Name
  Expression:e OrderingCollation?:c OrderingDirection:d => (.mk e c d)
OrderingCollation : Name
  COLLATE Identifier:n => n
OrderingDirection : OrderingDirection
  ASC? => .ascending
  DESC => .descending
LimitClause : Limit Name
  LIMIT Expression:n => (.mk n none)
  LIMIT Expression:n , Expression:o => (.mk n (some o))
  LIMIT Expression:n OFFSET Expression:o => (.mk n (some o))
AttachStatement : AttachStatement Name
  ATTACH FILE StringLiteral:p AS SchemaName?:s Identifier:n => ⟨s.toList ++ [n], p⟩
DescribeStatement : DescribeStatement Name
  DESCRIBE SchemaName?:s Identifier:n => ⟨s.toList ++ [n]⟩
SchemaName : Name
  Identifier:n . => n
ExpressionList : List (Expr Name)
  Expression:e => [e]
  ExpressionList:l , Expression:e => (l ++ [e])
PrimaryExpression : Expr Name
  ( ExpressionList:[e] ) => e
  ( ExpressionList:es ) => (.tuple es) if es.length ≠ 1
  ( SelectStatement:q ) => (.select q)
  LiteralValue:l => (.literal l)
  QualifiedIdentifier:n => (.ident n)
UnaryExpression : Expr Name
  PrimaryExpression:e => e
  + UnaryExpression:e => e
  - UnaryExpression:e => (.unary .negate e)
MultiplicativeExpression : Expr Name
  UnaryExpression:e => e
  MultiplicativeExpression:l * UnaryExpression:r => (.binary .multiply l r)
  MultiplicativeExpression:l / UnaryExpression:r => (.binary .divide l r)
AdditiveExpression : Expr Name
  MultiplicativeExpression:e => e
  AdditiveExpression:l + MultiplicativeExpression:r => (.binary .add l r)
  AdditiveExpression:l - MultiplicativeExpression:r => (.binary .subtract l r)
  AdditiveExpression:l || MultiplicativeExpression:r => (.binary .concat l r)
ComparativeExpression : Expr Name
  AdditiveExpression:e => e
  ComparativeExpression:l = AdditiveExpression:r => (.comparison .equal l r)
  ComparativeExpression:l != AdditiveExpression:r => (.comparison .notEqual l r)
  ComparativeExpression:l < AdditiveExpression:r => (.comparison .lessThan l r)
  ComparativeExpression:l > AdditiveExpression:r => (.comparison .greaterThan l r)
  ComparativeExpression:l <= AdditiveExpression:r => (.comparison .lessEqual l r)
  ComparativeExpression:l >= AdditiveExpression:r => (.comparison .greaterEqual l r)
  ComparativeExpression:e IS NULL => (.unary .isNull e)
  ComparativeExpression:e IS NOT NULL => (.unary .not (.unary .isNull e))
  ComparativeExpression:l LIKE AdditiveExpression:r => (.comparison .like l r)
  ComparativeExpression:e ISNULL => (.unary .isNull e)
  ComparativeExpression:e NOTNULL => (.unary .not (.unary .isNull e))
  ComparativeExpression:e NOT NULL => (.unary .not (.unary .isNull e))
  ComparativeExpression:e IN ( ) => (.inSet e (.list []))
  ComparativeExpression:e NOT IN ( ) => (.unary .not (.inSet e (.list [])))
  ComparativeExpression:e IN ( ExpressionList:l ) => (.inSet e (.list l))
  ComparativeExpression:e NOT IN ( ExpressionList:l ) => (.unary .not (.inSet e (.list l)))
  ComparativeExpression:e IN ( SelectStatement:q ) => (.inSet e (.select q))
  ComparativeExpression:e NOT IN ( SelectStatement:q ) => (.unary .not (.inSet e (.select q)))
  ComparativeExpression:e IN QualifiedIdentifier:n => (.inSet e (.name n))
  ComparativeExpression:e NOT IN QualifiedIdentifier:n => (.unary .not (.inSet e (.name n)))
  ComparativeExpression:e BETWEEN AdditiveExpression:l AND AdditiveExpression:u => (.between e l u)
  ComparativeExpression:e NOT BETWEEN AdditiveExpression:l AND AdditiveExpression:u => (.unary .not (.between e l u))
ComplexExpression : Expr Name
  ComparativeExpression:e => e
  CaseExpression:e => e
CaseExpression : Expr Name
  CASE Expression?:e WhenClause+:l ElseClause?:o END => (.case e l o)
WhenClause+ : List (When Name)
  WhenClause:x => [x]
  WhenClause+:l WhenClause:x => (l ++ [x])
WhenClause : When Name
  WHEN Expression:g THEN Expression:b => (.mk g b)
ElseClause : Expr Name
  ELSE Expression:e => e
NotExpression : Expr Name
  ComplexExpression:e => e
  NOT ComplexExpression:e => (.unary .not e)
AndExpression : Expr Name
  NotExpression:e => e
  AndExpression:l AND NotExpression:r => (.binary .and l r)
OrExpression : Expr Name
  AndExpression:e => e
  OrExpression:l OR AndExpression:r => (.binary .or l r)
Expression : Expr Name
  OrExpression:e => e
LiteralValue : Literal
  NumericLiteral:s => (.numeric s)
  StringLiteral:s => (.string s)
  NULL => .null
  CURRENT_TIME => .currentTime
  CURRENT_DATE => .currentDate
  CURRENT_TIMESTAMP => .currentTimestamp
  DATE StringLiteral:s => (.date s)
  TIME StringLiteral:s => (.time s)
  TIMESTAMP StringLiteral:s => (.timestamp s)
Identifier : Name
  ID:t => ⟨t⟩
NumericLiteral : Str
  NUMERIC_LIT_1:t => t
  NUMERIC_LIT_2:t => t
  HEX_LIT:t => t
StringLiteral : Str
  STRING_LIT:'\'' :: (s ++ ['\'']) => s
