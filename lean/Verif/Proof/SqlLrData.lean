import Verif.Model.SqlParser
/-!
# Annotations for the tables of the SQL parser

Data used in proofs only: the productions of the generated grammar (the comments in the `__reduce` functions of
`src/sql/parser.rs`), for every state its LR(1) items, nullable and first sets, and weights that bound the number of
reductions.  Nothing is assumed about this data; `Verif/Proof/SqlLrCheck.lean` checks it against the tables.
-/

namespace Verif.Sql.Parser

/-- A terminal or a nonterminal, by its number. -/
inductive Sym where
  | t (k : Nat)
  | n (k : Nat)
  deriving DecidableEq, Repr

/-- Productions 0 to 15. -/
def rules0 : List (Nat × List Sym) := [
  (0, [.t 14]),  -- 0: "ALL"? = "ALL"
  (0, []),  -- 1: "ALL"? = 
  (1, [.t 16]),  -- 2: "AS"? = "AS"
  (1, []),  -- 3: "AS"? = 
  (2, [.t 17]),  -- 4: "ASC"? = "ASC"
  (2, []),  -- 5: "ASC"? = 
  (3, [.t 60]),  -- 6: "OUTER"? = "OUTER"
  (3, []),  -- 7: "OUTER"? = 
  (4, [.t 62, .t 61]),  -- 8: ("QUERY" "PLAN") = "QUERY", "PLAN"
  (5, [.t 62, .t 61]),  -- 9: ("QUERY" "PLAN")? = "QUERY", "PLAN"
  (5, []),  -- 10: ("QUERY" "PLAN")? = 
  (6, [.n 39]),  -- 11: AdditiveExpression = MultiplicativeExpression
  (6, [.n 6, .t 4, .n 39]),  -- 12: AdditiveExpression = AdditiveExpression, "+", MultiplicativeExpression
  (6, [.n 6, .t 6, .n 39]),  -- 13: AdditiveExpression = AdditiveExpression, "-", MultiplicativeExpression
  (6, [.n 6, .t 77, .n 39]),  -- 14: AdditiveExpression = AdditiveExpression, "||", MultiplicativeExpression
  (7, [.n 40])  -- 15: AndExpression = NotExpression
]

/-- Productions 16 to 31. -/
def rules1 : List (Nat × List Sym) := [
  (7, [.n 7, .t 15, .n 40]),  -- 16: AndExpression = AndExpression, "AND", NotExpression
  (8, [.n 30, .t 11, .n 23]),  -- 17: Assignment = IdentifierList, "=", Expression
  (9, [.n 8]),  -- 18: Assignments = Assignment
  (9, [.n 9, .t 5, .n 8]),  -- 19: Assignments = Assignments, ",", Assignment
  (10, [.t 18, .t 36, .n 63, .t 16, .n 55, .n 29]),  -- 20: AttachStatement = "ATTACH", "FILE", StringLiteral, "AS", SchemaName, Identifier
  (10, [.t 18, .t 36, .n 63, .t 16, .n 29]),  -- 21: AttachStatement = "ATTACH", "FILE", StringLiteral, "AS", Identifier
  (11, [.t 21, .n 23, .n 76, .n 21, .t 33]),  -- 22: CaseExpression = "CASE", Expression, WhenClause+, ElseClause, "END"
  (11, [.t 21, .n 76, .n 21, .t 33]),  -- 23: CaseExpression = "CASE", WhenClause+, ElseClause, "END"
  (11, [.t 21, .n 23, .n 76, .t 33]),  -- 24: CaseExpression = "CASE", Expression, WhenClause+, "END"
  (11, [.t 21, .n 76, .t 33]),  -- 25: CaseExpression = "CASE", WhenClause+, "END"
  (12, [.t 1, .n 30, .t 2]),  -- 26: ColumnNameList = "(", IdentifierList, ")"
  (13, [.n 12]),  -- 27: ColumnNameList? = ColumnNameList
  (13, []),  -- 28: ColumnNameList? = 
  (14, [.n 29, .t 16, .t 1, .n 60, .t 2]),  -- 29: CommonTableExpression = Identifier, "AS", "(", SelectStatement, ")"
  (14, [.n 29, .t 1, .n 30, .t 2, .t 16, .t 1, .n 60, .t 2]),  -- 30: CommonTableExpression = Identifier, "(", IdentifierList, ")", "AS", "(", SelectStatement, ")"
  (15, [.n 14])  -- 31: CommonTableExpressionList = CommonTableExpression
]

/-- Productions 32 to 47. -/
def rules2 : List (Nat × List Sym) := [
  (15, [.n 15, .t 5, .n 14]),  -- 32: CommonTableExpressionList = CommonTableExpressionList, ",", CommonTableExpression
  (16, [.n 6]),  -- 33: ComparativeExpression = AdditiveExpression
  (16, [.n 16, .t 11, .n 6]),  -- 34: ComparativeExpression = ComparativeExpression, "=", AdditiveExpression
  (16, [.n 16, .t 0, .n 6]),  -- 35: ComparativeExpression = ComparativeExpression, "!=", AdditiveExpression
  (16, [.n 16, .t 9, .n 6]),  -- 36: ComparativeExpression = ComparativeExpression, "<", AdditiveExpression
  (16, [.n 16, .t 12, .n 6]),  -- 37: ComparativeExpression = ComparativeExpression, ">", AdditiveExpression
  (16, [.n 16, .t 10, .n 6]),  -- 38: ComparativeExpression = ComparativeExpression, "<=", AdditiveExpression
  (16, [.n 16, .t 13, .n 6]),  -- 39: ComparativeExpression = ComparativeExpression, ">=", AdditiveExpression
  (16, [.n 16, .t 46, .t 55]),  -- 40: ComparativeExpression = ComparativeExpression, "IS", "NULL"
  (16, [.n 16, .t 46, .t 53, .t 55]),  -- 41: ComparativeExpression = ComparativeExpression, "IS", "NOT", "NULL"
  (16, [.n 16, .t 50, .n 6]),  -- 42: ComparativeExpression = ComparativeExpression, "LIKE", AdditiveExpression
  (16, [.n 16, .t 47]),  -- 43: ComparativeExpression = ComparativeExpression, "ISNULL"
  (16, [.n 16, .t 54]),  -- 44: ComparativeExpression = ComparativeExpression, "NOTNULL"
  (16, [.n 16, .t 53, .t 55]),  -- 45: ComparativeExpression = ComparativeExpression, "NOT", "NULL"
  (16, [.n 16, .t 41, .t 1, .t 2]),  -- 46: ComparativeExpression = ComparativeExpression, "IN", "(", ")"
  (16, [.n 16, .t 53, .t 41, .t 1, .t 2])  -- 47: ComparativeExpression = ComparativeExpression, "NOT", "IN", "(", ")"
]

/-- Productions 48 to 63. -/
def rules3 : List (Nat × List Sym) := [
  (16, [.n 16, .t 41, .t 1, .n 25, .t 2]),  -- 48: ComparativeExpression = ComparativeExpression, "IN", "(", ExpressionList, ")"
  (16, [.n 16, .t 53, .t 41, .t 1, .n 25, .t 2]),  -- 49: ComparativeExpression = ComparativeExpression, "NOT", "IN", "(", ExpressionList, ")"
  (16, [.n 16, .t 41, .t 1, .n 60, .t 2]),  -- 50: ComparativeExpression = ComparativeExpression, "IN", "(", SelectStatement, ")"
  (16, [.n 16, .t 53, .t 41, .t 1, .n 60, .t 2]),  -- 51: ComparativeExpression = ComparativeExpression, "NOT", "IN", "(", SelectStatement, ")"
  (16, [.n 16, .t 41, .n 51]),  -- 52: ComparativeExpression = ComparativeExpression, "IN", QualifiedIdentifier
  (16, [.n 16, .t 53, .t 41, .n 51]),  -- 53: ComparativeExpression = ComparativeExpression, "NOT", "IN", QualifiedIdentifier
  (16, [.n 16, .t 19, .n 6, .t 15, .n 6]),  -- 54: ComparativeExpression = ComparativeExpression, "BETWEEN", AdditiveExpression, "AND", AdditiveExpression
  (16, [.n 16, .t 53, .t 19, .n 6, .t 15, .n 6]),  -- 55: ComparativeExpression = ComparativeExpression, "NOT", "BETWEEN", AdditiveExpression, "AND", AdditiveExpression
  (17, [.n 16]),  -- 56: ComplexExpression = ComparativeExpression
  (17, [.n 11]),  -- 57: ComplexExpression = CaseExpression
  (18, [.t 70]),  -- 58: CompoundOperator = "UNION"
  (18, [.t 70, .t 14]),  -- 59: CompoundOperator = "UNION", "ALL"
  (18, [.t 44]),  -- 60: CompoundOperator = "INTERSECT"
  (18, [.t 34]),  -- 61: CompoundOperator = "EXCEPT"
  (19, [.n 68, .t 28, .t 37, .n 51, .n 77]),  -- 62: DeleteStatement = TableExpressions, "DELETE", "FROM", QualifiedIdentifier, WhereClause
  (19, [.n 68, .t 28, .t 37, .n 51])  -- 63: DeleteStatement = TableExpressions, "DELETE", "FROM", QualifiedIdentifier
]

/-- Productions 64 to 79. -/
def rules4 : List (Nat × List Sym) := [
  (19, [.t 28, .t 37, .n 51, .n 77]),  -- 64: DeleteStatement = "DELETE", "FROM", QualifiedIdentifier, WhereClause
  (19, [.t 28, .t 37, .n 51]),  -- 65: DeleteStatement = "DELETE", "FROM", QualifiedIdentifier
  (20, [.t 30, .n 55, .n 29]),  -- 66: DescribeStatement = "DESCRIBE", SchemaName, Identifier
  (20, [.t 30, .n 29]),  -- 67: DescribeStatement = "DESCRIBE", Identifier
  (21, [.t 32, .n 23]),  -- 68: ElseClause = "ELSE", Expression
  (22, [.n 21]),  -- 69: ElseClause? = ElseClause
  (22, []),  -- 70: ElseClause? = 
  (23, [.n 42]),  -- 71: Expression = OrExpression
  (24, [.n 23]),  -- 72: Expression? = Expression
  (24, []),  -- 73: Expression? = 
  (25, [.n 23]),  -- 74: ExpressionList = Expression
  (25, [.n 25, .t 5, .n 23]),  -- 75: ExpressionList = ExpressionList, ",", Expression
  (26, [.t 37, .n 67]),  -- 76: FromClause = "FROM", TableExpressionList
  (27, [.t 39, .t 20, .n 25]),  -- 77: GroupByClause = "GROUP", "BY", ExpressionList
  (27, [.t 39, .t 20, .n 25, .t 40, .n 23]),  -- 78: GroupByClause = "GROUP", "BY", ExpressionList, "HAVING", Expression
  (28, [.n 27])  -- 79: GroupByClause? = GroupByClause
]

/-- Productions 80 to 95. -/
def rules5 : List (Nat × List Sym) := [
  (28, []),  -- 80: GroupByClause? = 
  (29, [.t 79]),  -- 81: Identifier = ID
  (30, [.n 29]),  -- 82: IdentifierList = Identifier
  (30, [.n 30, .t 5, .n 29]),  -- 83: IdentifierList = IdentifierList, ",", Identifier
  (31, [.n 68, .t 43, .t 45, .n 51, .n 12, .n 57]),  -- 84: InsertStatement = TableExpressions, "INSERT", "INTO", QualifiedIdentifier, ColumnNameList, SelectCore
  (31, [.t 43, .t 45, .n 51, .n 12, .n 57]),  -- 85: InsertStatement = "INSERT", "INTO", QualifiedIdentifier, ColumnNameList, SelectCore
  (31, [.n 68, .t 43, .t 45, .n 51, .n 57]),  -- 86: InsertStatement = TableExpressions, "INSERT", "INTO", QualifiedIdentifier, SelectCore
  (31, [.t 43, .t 45, .n 51, .n 57]),  -- 87: InsertStatement = "INSERT", "INTO", QualifiedIdentifier, SelectCore
  (32, [.t 57, .n 23]),  -- 88: JoinConstraint = "ON", Expression
  (32, [.t 72, .t 1, .n 30, .t 2]),  -- 89: JoinConstraint = "USING", "(", IdentifierList, ")"
  (33, [.n 34, .t 48]),  -- 90: JoinOperator = JoinType, "JOIN"
  (33, [.t 48]),  -- 91: JoinOperator = "JOIN"
  (33, [.t 52, .n 34, .t 48]),  -- 92: JoinOperator = "NATURAL", JoinType, "JOIN"
  (33, [.t 52, .t 48]),  -- 93: JoinOperator = "NATURAL", "JOIN"
  (33, [.t 23, .t 48]),  -- 94: JoinOperator = "CROSS", "JOIN"
  (34, [.t 49, .t 60])  -- 95: JoinType = "LEFT", "OUTER"
]

/-- Productions 96 to 111. -/
def rules6 : List (Nat × List Sym) := [
  (34, [.t 49]),  -- 96: JoinType = "LEFT"
  (34, [.t 63, .t 60]),  -- 97: JoinType = "RIGHT", "OUTER"
  (34, [.t 63]),  -- 98: JoinType = "RIGHT"
  (34, [.t 38, .t 60]),  -- 99: JoinType = "FULL", "OUTER"
  (34, [.t 38]),  -- 100: JoinType = "FULL"
  (34, [.t 42]),  -- 101: JoinType = "INNER"
  (35, [.n 34]),  -- 102: JoinType? = JoinType
  (35, []),  -- 103: JoinType? = 
  (36, [.t 51, .n 23]),  -- 104: LimitClause = "LIMIT", Expression
  (36, [.t 51, .n 23, .t 5, .n 23]),  -- 105: LimitClause = "LIMIT", Expression, ",", Expression
  (36, [.t 51, .n 23, .t 56, .n 23]),  -- 106: LimitClause = "LIMIT", Expression, "OFFSET", Expression
  (37, [.n 36]),  -- 107: LimitClause? = LimitClause
  (37, []),  -- 108: LimitClause? = 
  (38, [.n 41]),  -- 109: LiteralValue = NumericLiteral
  (38, [.n 63]),  -- 110: LiteralValue = StringLiteral
  (38, [.t 55])  -- 111: LiteralValue = "NULL"
]

/-- Productions 112 to 127. -/
def rules7 : List (Nat × List Sym) := [
  (38, [.t 25]),  -- 112: LiteralValue = "CURRENT_TIME"
  (38, [.t 24]),  -- 113: LiteralValue = "CURRENT_DATE"
  (38, [.t 26]),  -- 114: LiteralValue = "CURRENT_TIMESTAMP"
  (38, [.t 27, .n 63]),  -- 115: LiteralValue = "DATE", StringLiteral
  (38, [.t 68, .n 63]),  -- 116: LiteralValue = "TIME", StringLiteral
  (38, [.t 69, .n 63]),  -- 117: LiteralValue = "TIMESTAMP", StringLiteral
  (39, [.n 73]),  -- 118: MultiplicativeExpression = UnaryExpression
  (39, [.n 39, .t 3, .n 73]),  -- 119: MultiplicativeExpression = MultiplicativeExpression, "*", UnaryExpression
  (39, [.n 39, .t 8, .n 73]),  -- 120: MultiplicativeExpression = MultiplicativeExpression, "/", UnaryExpression
  (40, [.n 17]),  -- 121: NotExpression = ComplexExpression
  (40, [.t 53, .n 17]),  -- 122: NotExpression = "NOT", ComplexExpression
  (41, [.t 80]),  -- 123: NumericLiteral = NUMERIC_LIT_1
  (41, [.t 81]),  -- 124: NumericLiteral = NUMERIC_LIT_2
  (41, [.t 78]),  -- 125: NumericLiteral = HEX_LIT
  (42, [.n 7]),  -- 126: OrExpression = AndExpression
  (42, [.n 42, .t 58, .n 7])  -- 127: OrExpression = OrExpression, "OR", AndExpression
]

/-- Productions 128 to 143. -/
def rules8 : List (Nat × List Sym) := [
  (43, [.t 59, .t 20, .n 49]),  -- 128: OrderByClause = "ORDER", "BY", OrderingTermList
  (44, [.n 43]),  -- 129: OrderByClause? = OrderByClause
  (44, []),  -- 130: OrderByClause? = 
  (45, [.t 22, .n 29]),  -- 131: OrderingCollation = "COLLATE", Identifier
  (46, [.n 45]),  -- 132: OrderingCollation? = OrderingCollation
  (46, []),  -- 133: OrderingCollation? = 
  (47, [.t 17]),  -- 134: OrderingDirection = "ASC"
  (47, []),  -- 135: OrderingDirection = 
  (47, [.t 29]),  -- 136: OrderingDirection = "DESC"
  (48, [.n 23, .n 45, .n 47]),  -- 137: OrderingTerm = Expression, OrderingCollation, OrderingDirection
  (48, [.n 23, .n 47]),  -- 138: OrderingTerm = Expression, OrderingDirection
  (49, [.n 48]),  -- 139: OrderingTermList = OrderingTerm
  (49, [.n 49, .t 5, .n 48]),  -- 140: OrderingTermList = OrderingTermList, ",", OrderingTerm
  (50, [.t 1, .n 25, .t 2]),  -- 141: PrimaryExpression = "(", ExpressionList, ")"
  (50, [.t 1, .n 60, .t 2]),  -- 142: PrimaryExpression = "(", SelectStatement, ")"
  (50, [.n 38])  -- 143: PrimaryExpression = LiteralValue
]

/-- Productions 144 to 159. -/
def rules9 : List (Nat × List Sym) := [
  (50, [.n 51]),  -- 144: PrimaryExpression = QualifiedIdentifier
  (51, [.n 29]),  -- 145: QualifiedIdentifier = Identifier
  (51, [.n 29, .t 7, .n 29]),  -- 146: QualifiedIdentifier = Identifier, ".", Identifier
  (51, [.n 29, .t 7, .n 29, .t 7, .n 29]),  -- 147: QualifiedIdentifier = Identifier, ".", Identifier, ".", Identifier
  (52, [.n 23]),  -- 148: ResultColumn = Expression
  (52, [.n 23, .t 16, .n 29]),  -- 149: ResultColumn = Expression, "AS", Identifier
  (52, [.n 23, .n 29]),  -- 150: ResultColumn = Expression, Identifier
  (52, [.n 29, .t 7, .t 3]),  -- 151: ResultColumn = Identifier, ".", "*"
  (53, [.n 52]),  -- 152: ResultColumnList = ResultColumn
  (53, [.n 53, .t 5, .n 52]),  -- 153: ResultColumnList = ResultColumnList, ",", ResultColumn
  (54, [.t 3]),  -- 154: ResultColumns = "*"
  (54, [.n 53]),  -- 155: ResultColumns = ResultColumnList
  (55, [.n 29, .t 7]),  -- 156: SchemaName = Identifier, "."
  (56, [.n 55]),  -- 157: SchemaName? = SchemaName
  (56, []),  -- 158: SchemaName? = 
  (57, [.t 64, .n 59, .n 54, .n 77, .n 27])  -- 159: SelectCore = "SELECT", SelectMode, ResultColumns, WhereClause, GroupByClause
]

/-- Productions 160 to 175. -/
def rules10 : List (Nat × List Sym) := [
  (57, [.t 64, .n 59, .n 54, .n 27]),  -- 160: SelectCore = "SELECT", SelectMode, ResultColumns, GroupByClause
  (57, [.t 64, .n 59, .n 54, .n 77]),  -- 161: SelectCore = "SELECT", SelectMode, ResultColumns, WhereClause
  (57, [.t 64, .n 59, .n 54]),  -- 162: SelectCore = "SELECT", SelectMode, ResultColumns
  (57, [.t 64, .n 59, .n 54, .n 26, .n 77, .n 27]),  -- 163: SelectCore = "SELECT", SelectMode, ResultColumns, FromClause, WhereClause, GroupByClause
  (57, [.t 64, .n 59, .n 54, .n 26, .n 27]),  -- 164: SelectCore = "SELECT", SelectMode, ResultColumns, FromClause, GroupByClause
  (57, [.t 64, .n 59, .n 54, .n 26, .n 77]),  -- 165: SelectCore = "SELECT", SelectMode, ResultColumns, FromClause, WhereClause
  (57, [.t 64, .n 59, .n 54, .n 26]),  -- 166: SelectCore = "SELECT", SelectMode, ResultColumns, FromClause
  (57, [.t 73, .n 72]),  -- 167: SelectCore = "VALUES", TupleList
  (58, [.n 57]),  -- 168: SelectCoreList = SelectCore
  (58, [.n 58, .n 18, .n 57]),  -- 169: SelectCoreList = SelectCoreList, CompoundOperator, SelectCore
  (59, [.t 14]),  -- 170: SelectMode = "ALL"
  (59, []),  -- 171: SelectMode = 
  (59, [.t 31]),  -- 172: SelectMode = "DISTINCT"
  (60, [.n 68, .n 58, .n 43, .n 36]),  -- 173: SelectStatement = TableExpressions, SelectCoreList, OrderByClause, LimitClause
  (60, [.n 68, .n 58, .n 36]),  -- 174: SelectStatement = TableExpressions, SelectCoreList, LimitClause
  (60, [.n 68, .n 58, .n 43])  -- 175: SelectStatement = TableExpressions, SelectCoreList, OrderByClause
]

/-- Productions 176 to 191. -/
def rules11 : List (Nat × List Sym) := [
  (60, [.n 68, .n 58]),  -- 176: SelectStatement = TableExpressions, SelectCoreList
  (60, [.n 58, .n 43, .n 36]),  -- 177: SelectStatement = SelectCoreList, OrderByClause, LimitClause
  (60, [.n 58, .n 36]),  -- 178: SelectStatement = SelectCoreList, LimitClause
  (60, [.n 58, .n 43]),  -- 179: SelectStatement = SelectCoreList, OrderByClause
  (60, [.n 58]),  -- 180: SelectStatement = SelectCoreList
  (61, [.n 62]),  -- 181: SqlStatement = Statement
  (61, [.t 35, .t 62, .t 61, .n 62]),  -- 182: SqlStatement = "EXPLAIN", "QUERY", "PLAN", Statement
  (61, [.t 35, .n 62]),  -- 183: SqlStatement = "EXPLAIN", Statement
  (61, [.n 10]),  -- 184: SqlStatement = AttachStatement
  (61, [.n 20]),  -- 185: SqlStatement = DescribeStatement
  (62, [.n 60]),  -- 186: Statement = SelectStatement
  (62, [.n 31]),  -- 187: Statement = InsertStatement
  (62, [.n 19]),  -- 188: Statement = DeleteStatement
  (62, [.n 74]),  -- 189: Statement = UpdateStatement
  (63, [.t 82]),  -- 190: StringLiteral = STRING_LIT
  (64, [.t 16, .n 29])  -- 191: TableAlias = "AS", Identifier
]

/-- Productions 192 to 207. -/
def rules12 : List (Nat × List Sym) := [
  (64, [.n 29]),  -- 192: TableAlias = Identifier
  (65, [.n 64]),  -- 193: TableAlias? = TableAlias
  (65, []),  -- 194: TableAlias? = 
  (66, [.n 70]),  -- 195: TableExpression = TableOrSubQuery
  (66, [.n 66, .n 33, .n 70, .n 32]),  -- 196: TableExpression = TableExpression, JoinOperator, TableOrSubQuery, JoinConstraint
  (67, [.n 66]),  -- 197: TableExpressionList = TableExpression
  (67, [.n 67, .t 5, .n 66]),  -- 198: TableExpressionList = TableExpressionList, ",", TableExpression
  (68, [.t 76, .n 15]),  -- 199: TableExpressions = "WITH", CommonTableExpressionList
  (69, [.n 68]),  -- 200: TableExpressions? = TableExpressions
  (69, []),  -- 201: TableExpressions? = 
  (70, [.n 51, .n 64]),  -- 202: TableOrSubQuery = QualifiedIdentifier, TableAlias
  (70, [.n 51]),  -- 203: TableOrSubQuery = QualifiedIdentifier
  (70, [.t 1, .n 60, .t 2, .n 64]),  -- 204: TableOrSubQuery = "(", SelectStatement, ")", TableAlias
  (70, [.t 1, .n 60, .t 2]),  -- 205: TableOrSubQuery = "(", SelectStatement, ")"
  (70, [.t 1, .n 66, .t 2]),  -- 206: TableOrSubQuery = "(", TableExpression, ")"
  (71, [.t 1, .n 25, .t 2])  -- 207: Tuple = "(", ExpressionList, ")"
]

/-- Productions 208 to 223. -/
def rules13 : List (Nat × List Sym) := [
  (72, [.n 71]),  -- 208: TupleList = Tuple
  (72, [.n 72, .t 5, .n 71]),  -- 209: TupleList = TupleList, ",", Tuple
  (73, [.n 50]),  -- 210: UnaryExpression = PrimaryExpression
  (73, [.t 4, .n 73]),  -- 211: UnaryExpression = "+", UnaryExpression
  (73, [.t 6, .n 73]),  -- 212: UnaryExpression = "-", UnaryExpression
  (74, [.n 68, .t 71, .n 51, .t 65, .n 9, .n 77]),  -- 213: UpdateStatement = TableExpressions, "UPDATE", QualifiedIdentifier, "SET", Assignments, WhereClause
  (74, [.n 68, .t 71, .n 51, .t 65, .n 9]),  -- 214: UpdateStatement = TableExpressions, "UPDATE", QualifiedIdentifier, "SET", Assignments
  (74, [.t 71, .n 51, .t 65, .n 9, .n 77]),  -- 215: UpdateStatement = "UPDATE", QualifiedIdentifier, "SET", Assignments, WhereClause
  (74, [.t 71, .n 51, .t 65, .n 9]),  -- 216: UpdateStatement = "UPDATE", QualifiedIdentifier, "SET", Assignments
  (75, [.t 74, .n 23, .t 67, .n 23]),  -- 217: WhenClause = "WHEN", Expression, "THEN", Expression
  (76, [.n 75]),  -- 218: WhenClause+ = WhenClause
  (76, [.n 76, .n 75]),  -- 219: WhenClause+ = WhenClause+, WhenClause
  (77, [.t 75, .n 23]),  -- 220: WhereClause = "WHERE", Expression
  (78, [.n 77]),  -- 221: WhereClause? = WhereClause
  (78, []),  -- 222: WhereClause? = 
  (79, [.n 61])  -- 223: __SqlStatement = SqlStatement
]

/-- The productions, in the order of the `__reduce` functions, in blocks of 16; the last one is the start production. -/
def ruleTable : List (List (Nat × List Sym)) :=
  [rules0, rules1, rules2, rules3, rules4, rules5, rules6, rules7, rules8, rules9, rules10, rules11, rules12, rules13]

/-- The productions of every nonterminal. -/
def rulesBy : List (List Nat) := [
  [0, 1],
  [2, 3],
  [4, 5],
  [6, 7],
  [8],
  [9, 10],
  [11, 12, 13, 14],
  [15, 16],
  [17],
  [18, 19],
  [20, 21],
  [22, 23, 24, 25],
  [26],
  [27, 28],
  [29, 30],
  [31, 32],
  [33, 34, 35, 36, 37, 38, 39, 40, 41, 42, 43, 44, 45, 46, 47, 48, 49, 50, 51, 52, 53, 54, 55],
  [56, 57],
  [58, 59, 60, 61],
  [62, 63, 64, 65],
  [66, 67],
  [68],
  [69, 70],
  [71],
  [72, 73],
  [74, 75],
  [76],
  [77, 78],
  [79, 80],
  [81],
  [82, 83],
  [84, 85, 86, 87],
  [88, 89],
  [90, 91, 92, 93, 94],
  [95, 96, 97, 98, 99, 100, 101],
  [102, 103],
  [104, 105, 106],
  [107, 108],
  [109, 110, 111, 112, 113, 114, 115, 116, 117],
  [118, 119, 120],
  [121, 122],
  [123, 124, 125],
  [126, 127],
  [128],
  [129, 130],
  [131],
  [132, 133],
  [134, 135, 136],
  [137, 138],
  [139, 140],
  [141, 142, 143, 144],
  [145, 146, 147],
  [148, 149, 150, 151],
  [152, 153],
  [154, 155],
  [156],
  [157, 158],
  [159, 160, 161, 162, 163, 164, 165, 166, 167],
  [168, 169],
  [170, 171, 172],
  [173, 174, 175, 176, 177, 178, 179, 180],
  [181, 182, 183, 184, 185],
  [186, 187, 188, 189],
  [190],
  [191, 192],
  [193, 194],
  [195, 196],
  [197, 198],
  [199],
  [200, 201],
  [202, 203, 204, 205, 206],
  [207],
  [208, 209],
  [210, 211, 212],
  [213, 214, 215, 216],
  [217],
  [218, 219],
  [220],
  [221, 222],
  [223]
]

/-- Bit `A` is set when nonterminal `A` derives the empty sequence. -/
def nullMask : Nat := 302859292949380266467375

/-- For every nonterminal the terminals its derivations can start with, as bits. -/
def firstMasks : List Nat := [
  16384,
  65536,
  131072,
  1152921504606846976,
  4611686018427387904,
  4611686018427387904,
  9370060581757711433072722,
  9370060590764910689910866,
  604462909807314587353088,
  604462909807314587353088,
  262144,
  2097152,
  2,
  2,
  604462909807314587353088,
  604462909807314587353088,
  9370060581757711433072722,
  9370060581757711435169874,
  1180591638326777217024,
  75557863725914591854592,
  1073741824,
  4294967296,
  4294967296,
  9370060590764910689910866,
  9370060590764910689910866,
  9370060590764910689910866,
  137438953472,
  549755813888,
  549755813888,
  604462909807314587353088,
  604462909807314587353088,
  75557863734710416441344,
  4722510598057721069568,
  9228724734345084928,
  9223939659732615168,
  9223939659732615168,
  2251799813685248,
  2251799813685248,
  8765597671950396845719552,
  9370060581757711433072722,
  9370060590764910689910866,
  3929008913747544817795072,
  9370060590764910689910866,
  576460752303423488,
  576460752303423488,
  4194304,
  4194304,
  537001984,
  9370060590764910689910866,
  9370060590764910689910866,
  9370060581757711433072642,
  604462909807314587353088,
  9370060590764910689910866,
  9370060590764910689910866,
  9370060590764910689910874,
  604462909807314587353088,
  604462909807314587353088,
  9463179709812999979008,
  9463179709812999979008,
  2147500032,
  85021043435727323398144,
  87382226685993941204992,
  87382226685958507462656,
  4835703278458516698824704,
  604462909807314587418624,
  604462909807314587418624,
  604462909807314587353090,
  604462909807314587353090,
  75557863725914323419136,
  75557863725914323419136,
  604462909807314587353090,
  2,
  2,
  9370060581757711433072722,
  77919046967349146025984,
  18889465931478580854784,
  18889465931478580854784,
  37778931862957161709568,
  37778931862957161709568,
  87382226685993941204992
]

/-- Items of states 0 to 11. -/
def itemRows0 : List (List Nat) := [
  [0x8000000000000000000000df, 0x8000000000000000000000b5, 0x8000000000000000000000b6,
   0x8000000000000000000000b7, 0x8000000000000000000000b8, 0x8000000000000000000000b9,
   0x8000000000000000000000ba, 0x8000000000000000000000bb, 0x8000000000000000000000bc,
   0x8000000000000000000000bd, 0x800000000000000000000014, 0x800000000000000000000015,
   0x800000000000000000000042, 0x800000000000000000000043, 0x8000000000000000000000ad,
   0x8000000000000000000000ae, 0x8000000000000000000000af, 0x8000000000000000000000b0,
   0x8000000000000000000000b1, 0x8000000000000000000000b2, 0x8000000000000000000000b3,
   0x8000000000000000000000b4, 0x800000000000000000000054, 0x800000000000000000000055,
   0x800000000000000000000056, 0x800000000000000000000057, 0x80000000000000000000003e,
   0x80000000000000000000003f, 0x800000000000000000000040, 0x800000000000000000000041,
   0x8000000000000000000000d5, 0x8000000000000000000000d6, 0x8000000000000000000000d7,
   0x8000000000000000000000d8, 0x28100000800100000000c7, 0x8004008081004000000000a8,
   0x8004008081004000000000a9, 0x80040080810040000000009f, 0x8004008081004000000000a0,
   0x8004008081004000000000a1, 0x8004008081004000000000a2, 0x8004008081004000000000a3,
   0x8004008081004000000000a4, 0x8004008081004000000000a5, 0x8004008081004000000000a6,
   0x8004008081004000000000a7],
  [0x8004008081004000000041a9, 0x8000000000000000000041b1, 0x8000000000000000000041b2,
   0x8000000000000000000041b3, 0x8000000000000000000041b4, 0x201000000000000000003a,
   0x201000000000000000003b, 0x201000000000000000003c, 0x201000000000000000003d,
   0x800000008000000000004080, 0x800000000000000000004068, 0x800000000000000000004069,
   0x80000000000000000000406a],
  [0x80000000000000000000013e, 0x80000000000000000000013f, 0x800000000000000000000154,
   0x800000000000000000000156, 0x8000000000000000000001ad, 0x8000000000000000000001ae,
   0x8000000000000000000001af, 0x8000000000000000000001b0, 0x8000000000000000000001d5,
   0x8000000000000000000001d6, 0x8004008081004000000000a8, 0x8004008081004000000000a9,
   0x80040080810040000000009f, 0x8004008081004000000000a0, 0x8004008081004000000000a1,
   0x8004008081004000000000a2, 0x8004008081004000000000a3, 0x8004008081004000000000a4,
   0x8004008081004000000000a5, 0x8004008081004000000000a6, 0x8004008081004000000000a7],
  [0x800000000000000000000142, 0x800000000000000000000143, 0x8000000000000000000009c,
   0x800000000000000000080051],
  [0x8000000000000000000001b6, 0x8000000000000000000001b7, 0x8000000000000000000000ba,
   0x8000000000000000000000bb, 0x8000000000000000000000bc, 0x8000000000000000000000bd,
   0x8000000000000000000000ad, 0x8000000000000000000000ae, 0x8000000000000000000000af,
   0x8000000000000000000000b0, 0x8000000000000000000000b1, 0x8000000000000000000000b2,
   0x8000000000000000000000b3, 0x8000000000000000000000b4, 0x800000000000000000000054,
   0x800000000000000000000055, 0x800000000000000000000056, 0x800000000000000000000057,
   0x80000000000000000000003e, 0x80000000000000000000003f, 0x800000000000000000000040,
   0x800000000000000000000041, 0x8000000000000000000000d5, 0x8000000000000000000000d6,
   0x8000000000000000000000d7, 0x8000000000000000000000d8, 0x28100000800100000000c7,
   0x8004008081004000000000a8, 0x8004008081004000000000a9, 0x80040080810040000000009f,
   0x8004008081004000000000a0, 0x8004008081004000000000a1, 0x8004008081004000000000a2,
   0x8004008081004000000000a3, 0x8004008081004000000000a4, 0x8004008081004000000000a5,
   0x8004008081004000000000a6, 0x8004008081004000000000a7],
  [0x80040080810040000000419f, 0x8004008081004000000041a0, 0x8004008081004000000041a1,
   0x8004008081004000000041a2, 0x8004008081004000000041a3, 0x8004008081004000000041a4,
   0x8004008081004000000041a5, 0x8004008081004000000041a6, 0x7c03000a000000f20005a0aa,
   0x7c03000a000000f20005a0ab, 0x7c03000a000000f20005a0ac],
  [0x8000000000000000000001d7, 0x8000000000000000000001d8, 0x20000000000000000091, 0x20000000000000000092,
   0x20000000000000000093, 0x20000000000000080051],
  [0x8004008081004000000041a7, 0x8004008081004000000240d0, 0x8004008081004000000240d1,
   0x8004008081004000000240cf],
  [0x28100000800100000001c7, 0x281000008001000002001f, 0x2810000080010000020020, 0x281000008001000002001d,
   0x281000008001000002001e, 0x10002051],
  [0x8004008081004000000042a9, 0x80040080810040000000409f, 0x8004008081004000000040a0,
   0x8004008081004000000040a1, 0x8004008081004000000040a2, 0x8004008081004000000040a3,
   0x8004008081004000000040a4, 0x8004008081004000000040a5, 0x8004008081004000000040a6,
   0x8004008081004000000040a7],
  [0x8000000000000000000042b1, 0x8000000000000000000042b3, 0x800000000000000000004068,
   0x800000000000000000004069, 0x80000000000000000000406a],
  [0x800000000000000000004168, 0x800000000000000000004169, 0x80000000000000000000416a,
   0x800000100000000000024047, 0x80000050000000000002407e, 0x80000050000000000002407f,
   0x80000050000000000802400f, 0x800000500000000008024010, 0x800000500000000008024079,
   0x80000050000000000802407a, 0x800000500000000008024038, 0x800000500000000008024039,
   0x800000564c2000008be25021, 0x800000564c2000008be25022, 0x800000564c2000008be25023,
   0x800000564c2000008be25024, 0x800000564c2000008be25025, 0x800000564c2000008be25026,
   0x800000564c2000008be25027, 0x800000564c2000008be25028, 0x800000564c2000008be25029,
   0x800000564c2000008be2502a, 0x800000564c2000008be2502b, 0x800000564c2000008be2502c,
   0x800000564c2000008be2502d, 0x800000564c2000008be2502e, 0x800000564c2000008be2502f,
   0x800000564c2000008be25030, 0x800000564c2000008be25031, 0x800000564c2000008be25032,
   0x800000564c2000008be25033, 0x800000564c2000008be25034, 0x800000564c2000008be25035,
   0x800000564c2000008be25036, 0x800000564c2000008be25037, 0x800000500000000008024016,
   0x800000500000000008024017, 0x800000500000000008024018, 0x800000500000000008024019,
   0x820000564c2000008be7500b, 0x820000564c2000008be7500c, 0x820000564c2000008be7500d,
   0x820000564c2000008be7500e, 0x820000564c2000008bf7d076, 0x820000564c2000008bf7d077,
   0x820000564c2000008bf7d078, 0x820000564c2000008bf7d0d2, 0x820000564c2000008bf7d0d3,
   0x820000564c2000008bf7d0d4, 0x820000564c2000008bf7d08d, 0x820000564c2000008bf7d08e,
   0x820000564c2000008bf7d08f, 0x820000564c2000008bf7d090, 0x820000564c2000008bf7d06d,
   0x820000564c2000008bf7d06e, 0x820000564c2000008bf7d06f, 0x820000564c2000008bf7d070,
   0x820000564c2000008bf7d071, 0x820000564c2000008bf7d072, 0x820000564c2000008bf7d073,
   0x820000564c2000008bf7d074, 0x820000564c2000008bf7d075, 0x820000564c2000008bf7d091,
   0x820000564c2000008bf7d092, 0x820000564c2000008bf7d093, 0x820000564c2000008bf7d07b,
   0x820000564c2000008bf7d07c, 0x820000564c2000008bf7d07d, 0x820000564c2000008bf7d0be,
   0x820000564c2000008bffd051]
]

/-- Items of states 12 to 23. -/
def itemRows1 : List (List Nat) := [
  [0x8004008081004000000041a9, 0x8000000000000000000042ad, 0x8000000000000000000042ae,
   0x8000000000000000000042af, 0x8000000000000000000042b0, 0x201000000000000000003a,
   0x201000000000000000003b, 0x201000000000000000003c, 0x201000000000000000003d,
   0x800000008000000000004080, 0x800000000000000000004068, 0x800000000000000000004069,
   0x80000000000000000000406a],
  [0x8000000000000000000002d5, 0x8000000000000000000002d6, 0x20000000000000000091, 0x20000000000000000092,
   0x20000000000000000093, 0x20000000000000080051],
  [0x800000000000000000000214, 0x800000000000000000000215, 0x100000be],
  [0x800000000000000000000240, 0x800000000000000000000241, 0x808000000000000000000091,
   0x808000000000000000000092, 0x808000000000000000000093, 0x808000000000000000080051],
  [0x800000000000000000000242, 0x800000000000000000000051],
  [0x800000000000000000000255, 0x800000000000000000000257, 0x2010000000000000002091,
   0x2010000000000000002092, 0x2010000000000000002093, 0x2010000000000000082051],
  [0x80040080810040000000429f, 0x8004008081004000000042a0, 0x8004008081004000000042a1,
   0x8004008081004000000042a2, 0x8004008081004000000042a3, 0x8004008081004000000042a4,
   0x8004008081004000000042a5, 0x8004008081004000000042a6, 0x80840080810a40000000409a,
   0x80840080810a40000000409b, 0x80840080810a400000024098, 0x80840080810a400000024099,
   0x80840080810a400000024094, 0x80840080810a400000024095, 0x80840080810a400000024096,
   0x80840080810a400000024097, 0x88840080810a400010024047, 0x8a8400c6cd2a40009bffd051,
   0x888400c0810a40001002407e, 0x888400c0810a40001002407f, 0x888400c0810a40001802400f,
   0x888400c0810a400018024010, 0x888400c0810a400018024079, 0x888400c0810a40001802407a,
   0x888400c0810a400018024038, 0x888400c0810a400018024039, 0x888400c6cd2a40009be25021,
   0x888400c6cd2a40009be25022, 0x888400c6cd2a40009be25023, 0x888400c6cd2a40009be25024,
   0x888400c6cd2a40009be25025, 0x888400c6cd2a40009be25026, 0x888400c6cd2a40009be25027,
   0x888400c6cd2a40009be25028, 0x888400c6cd2a40009be25029, 0x888400c6cd2a40009be2502a,
   0x888400c6cd2a40009be2502b, 0x888400c6cd2a40009be2502c, 0x888400c6cd2a40009be2502d,
   0x888400c6cd2a40009be2502e, 0x888400c6cd2a40009be2502f, 0x888400c6cd2a40009be25030,
   0x888400c6cd2a40009be25031, 0x888400c6cd2a40009be25032, 0x888400c6cd2a40009be25033,
   0x888400c6cd2a40009be25034, 0x888400c6cd2a40009be25035, 0x888400c6cd2a40009be25036,
   0x888400c6cd2a40009be25037, 0x888400c0810a400018024016, 0x888400c0810a400018024017,
   0x888400c0810a400018024018, 0x888400c0810a400018024019, 0x8a8400c6cd2a40009be7500b,
   0x8a8400c6cd2a40009be7500c, 0x8a8400c6cd2a40009be7500d, 0x8a8400c6cd2a40009be7500e,
   0x8a8400c6cd2a40009bf7d076, 0x8a8400c6cd2a40009bf7d077, 0x8a8400c6cd2a40009bf7d078,
   0x8a8400c6cd2a40009bf7d0d2, 0x8a8400c6cd2a40009bf7d0d3, 0x8a8400c6cd2a40009bf7d0d4,
   0x8a8400c6cd2a40009bf7d08d, 0x8a8400c6cd2a40009bf7d08e, 0x8a8400c6cd2a40009bf7d08f,
   0x8a8400c6cd2a40009bf7d090, 0x8a8400c6cd2a40009bf7d06d, 0x8a8400c6cd2a40009bf7d06e,
   0x8a8400c6cd2a40009bf7d06f, 0x8a8400c6cd2a40009bf7d070, 0x8a8400c6cd2a40009bf7d071,
   0x8a8400c6cd2a40009bf7d072, 0x8a8400c6cd2a40009bf7d073, 0x8a8400c6cd2a40009bf7d074,
   0x8a8400c6cd2a40009bf7d075, 0x8a8400c6cd2a40009bf7d091, 0x8a8400c6cd2a40009bf7d092,
   0x8a8400c6cd2a40009bf7d093, 0x8a8400c6cd2a40009bf7d07b, 0x8a8400c6cd2a40009bf7d07c,
   0x8a8400c6cd2a40009bf7d07d, 0x8a8400c6cd2a40009bf7d0be],
  [0x8004008081004000000241cf, 0x2404a, 0x2404b, 0x24047, 0x40000000000002407e, 0x40000000000002407f,
   0x40000000000802400f, 0x400000000008024010, 0x400000000008024079, 0x40000000000802407a,
   0x400000000008024038, 0x400000000008024039, 0x464c2000008be25021, 0x464c2000008be25022,
   0x464c2000008be25023, 0x464c2000008be25024, 0x464c2000008be25025, 0x464c2000008be25026,
   0x464c2000008be25027, 0x464c2000008be25028, 0x464c2000008be25029, 0x464c2000008be2502a,
   0x464c2000008be2502b, 0x464c2000008be2502c, 0x464c2000008be2502d, 0x464c2000008be2502e,
   0x464c2000008be2502f, 0x464c2000008be25030, 0x464c2000008be25031, 0x464c2000008be25032,
   0x464c2000008be25033, 0x464c2000008be25034, 0x464c2000008be25035, 0x464c2000008be25036,
   0x464c2000008be25037, 0x400000000008024016, 0x400000000008024017, 0x400000000008024018,
   0x400000000008024019, 0x20000464c2000008be7500b, 0x20000464c2000008be7500c, 0x20000464c2000008be7500d,
   0x20000464c2000008be7500e, 0x20000464c2000008bf7d076, 0x20000464c2000008bf7d077,
   0x20000464c2000008bf7d078, 0x20000464c2000008bf7d0d2, 0x20000464c2000008bf7d0d3,
   0x20000464c2000008bf7d0d4, 0x20000464c2000008bf7d08d, 0x20000464c2000008bf7d08e,
   0x20000464c2000008bf7d08f, 0x20000464c2000008bf7d090, 0x20000464c2000008bf7d06d,
   0x20000464c2000008bf7d06e, 0x20000464c2000008bf7d06f, 0x20000464c2000008bf7d070,
   0x20000464c2000008bf7d071, 0x20000464c2000008bf7d072, 0x20000464c2000008bf7d073,
   0x20000464c2000008bf7d074, 0x20000464c2000008bf7d075, 0x20000464c2000008bf7d091,
   0x20000464c2000008bf7d092, 0x20000464c2000008bf7d093, 0x20000464c2000008bf7d07b,
   0x20000464c2000008bf7d07c, 0x20000464c2000008bf7d07d, 0x20000464c2000008bf7d0be,
   0x20000464c2000008bffd051],
  [0x8ac488d7fd7e720cbbf7d18d, 0x8ac488d7fd7e720cbbf7d18e, 0x2404a, 0x2404b, 0x40ad, 0x40ae, 0x40af,
   0x40b0, 0x40b1, 0x40b2, 0x40b3, 0x40b4, 0x24047, 0x20100000000000000000c7, 0x4008081004000000040a8,
   0x4008081004000000040a9, 0x40000000000002407e, 0x40000000000002407f, 0x40080810040000000409f,
   0x4008081004000000040a0, 0x4008081004000000040a1, 0x4008081004000000040a2, 0x4008081004000000040a3,
   0x4008081004000000040a4, 0x4008081004000000040a5, 0x4008081004000000040a6, 0x4008081004000000040a7,
   0x40000000000802400f, 0x400000000008024010, 0x400000000008024079, 0x40000000000802407a,
   0x400000000008024038, 0x400000000008024039, 0x464c2000008be25021, 0x464c2000008be25022,
   0x464c2000008be25023, 0x464c2000008be25024, 0x464c2000008be25025, 0x464c2000008be25026,
   0x464c2000008be25027, 0x464c2000008be25028, 0x464c2000008be25029, 0x464c2000008be2502a,
   0x464c2000008be2502b, 0x464c2000008be2502c, 0x464c2000008be2502d, 0x464c2000008be2502e,
   0x464c2000008be2502f, 0x464c2000008be25030, 0x464c2000008be25031, 0x464c2000008be25032,
   0x464c2000008be25033, 0x464c2000008be25034, 0x464c2000008be25035, 0x464c2000008be25036,
   0x464c2000008be25037, 0x400000000008024016, 0x400000000008024017, 0x400000000008024018,
   0x400000000008024019, 0x20000464c2000008be7500b, 0x20000464c2000008be7500c, 0x20000464c2000008be7500d,
   0x20000464c2000008be7500e, 0x20000464c2000008bf7d076, 0x20000464c2000008bf7d077,
   0x20000464c2000008bf7d078, 0x20000464c2000008bf7d0d2, 0x20000464c2000008bf7d0d3,
   0x20000464c2000008bf7d0d4, 0x20000464c2000008bf7d08d, 0x20000464c2000008bf7d08e,
   0x20000464c2000008bf7d08f, 0x20000464c2000008bf7d090, 0x20000464c2000008bf7d06d,
   0x20000464c2000008bf7d06e, 0x20000464c2000008bf7d06f, 0x20000464c2000008bf7d070,
   0x20000464c2000008bf7d071, 0x20000464c2000008bf7d072, 0x20000464c2000008bf7d073,
   0x20000464c2000008bf7d074, 0x20000464c2000008bf7d075, 0x20000464c2000008bf7d091,
   0x20000464c2000008bf7d092, 0x20000464c2000008bf7d093, 0x20000464c2000008bf7d07b,
   0x20000464c2000008bf7d07c, 0x20000464c2000008bf7d07d, 0x20000464c2000008bf7d0be,
   0x20000464c2000008bffd051],
  [0x8ac488d7fd7e720cbbf7d1d3, 0x8ac488d7fd7e720cbbf7d0d2, 0x8ac488d7fd7e720cbbf7d0d3,
   0x8ac488d7fd7e720cbbf7d0d4, 0x8ac488d7fd7e720cbbf7d08d, 0x8ac488d7fd7e720cbbf7d08e,
   0x8ac488d7fd7e720cbbf7d08f, 0x8ac488d7fd7e720cbbf7d090, 0x8ac488d7fd7e720cbbf7d06d,
   0x8ac488d7fd7e720cbbf7d06e, 0x8ac488d7fd7e720cbbf7d06f, 0x8ac488d7fd7e720cbbf7d070,
   0x8ac488d7fd7e720cbbf7d071, 0x8ac488d7fd7e720cbbf7d072, 0x8ac488d7fd7e720cbbf7d073,
   0x8ac488d7fd7e720cbbf7d074, 0x8ac488d7fd7e720cbbf7d075, 0x8ac488d7fd7e720cbbf7d091,
   0x8ac488d7fd7e720cbbf7d092, 0x8ac488d7fd7e720cbbf7d093, 0x8ac488d7fd7e720cbbf7d07b,
   0x8ac488d7fd7e720cbbf7d07c, 0x8ac488d7fd7e720cbbf7d07d, 0x8ac488d7fd7e720cbbf7d0be,
   0x8ac488d7fd7e720cbbffd051],
  [0x8ac488d7fd7e720cbbf7d1d4, 0x8ac488d7fd7e720cbbf7d0d2, 0x8ac488d7fd7e720cbbf7d0d3,
   0x8ac488d7fd7e720cbbf7d0d4, 0x8ac488d7fd7e720cbbf7d08d, 0x8ac488d7fd7e720cbbf7d08e,
   0x8ac488d7fd7e720cbbf7d08f, 0x8ac488d7fd7e720cbbf7d090, 0x8ac488d7fd7e720cbbf7d06d,
   0x8ac488d7fd7e720cbbf7d06e, 0x8ac488d7fd7e720cbbf7d06f, 0x8ac488d7fd7e720cbbf7d070,
   0x8ac488d7fd7e720cbbf7d071, 0x8ac488d7fd7e720cbbf7d072, 0x8ac488d7fd7e720cbbf7d073,
   0x8ac488d7fd7e720cbbf7d074, 0x8ac488d7fd7e720cbbf7d075, 0x8ac488d7fd7e720cbbf7d091,
   0x8ac488d7fd7e720cbbf7d092, 0x8ac488d7fd7e720cbbf7d093, 0x8ac488d7fd7e720cbbf7d07b,
   0x8ac488d7fd7e720cbbf7d07c, 0x8ac488d7fd7e720cbbf7d07d, 0x8ac488d7fd7e720cbbf7d0be,
   0x8ac488d7fd7e720cbbffd051],
  [0x88c488d1b15e720c38024116, 0x88c488d1b15e720c38024117, 0x88c488d1b15e720c38024118,
   0x88c488d1b15e720c38024119, 0x4000000000000000000047, 0x40000000003000000000da,
   0x40000000003000000000db, 0x400040000000000000007e, 0x400040000000000000007f, 0x40000000003000000000d9,
   0x400040000000000800000f, 0x4000400000000008000010, 0x4000400000000008000079, 0x400040000000000800007a,
   0x4000400000000008000038, 0x4000400000000008000039, 0x4000464c2000008be01021, 0x4000464c2000008be01022,
   0x4000464c2000008be01023, 0x4000464c2000008be01024, 0x4000464c2000008be01025, 0x4000464c2000008be01026,
   0x4000464c2000008be01027, 0x4000464c2000008be01028, 0x4000464c2000008be01029, 0x4000464c2000008be0102a,
   0x4000464c2000008be0102b, 0x4000464c2000008be0102c, 0x4000464c2000008be0102d, 0x4000464c2000008be0102e,
   0x4000464c2000008be0102f, 0x4000464c2000008be01030, 0x4000464c2000008be01031, 0x4000464c2000008be01032,
   0x4000464c2000008be01033, 0x4000464c2000008be01034, 0x4000464c2000008be01035, 0x4000464c2000008be01036,
   0x4000464c2000008be01037, 0x4000400000000008000016, 0x4000400000000008000017, 0x4000400000000008000018,
   0x4000400000000008000019, 0x24000464c2000008be5100b, 0x24000464c2000008be5100c,
   0x24000464c2000008be5100d, 0x24000464c2000008be5100e, 0x24000464c2000008bf59076,
   0x24000464c2000008bf59077, 0x24000464c2000008bf59078, 0x24000464c2000008bf590d2,
   0x24000464c2000008bf590d3, 0x24000464c2000008bf590d4, 0x24000464c2000008bf5908d,
   0x24000464c2000008bf5908e, 0x24000464c2000008bf5908f, 0x24000464c2000008bf59090,
   0x24000464c2000008bf5906d, 0x24000464c2000008bf5906e, 0x24000464c2000008bf5906f,
   0x24000464c2000008bf59070, 0x24000464c2000008bf59071, 0x24000464c2000008bf59072,
   0x24000464c2000008bf59073, 0x24000464c2000008bf59074, 0x24000464c2000008bf59075,
   0x24000464c2000008bf59091, 0x24000464c2000008bf59092, 0x24000464c2000008bf59093,
   0x24000464c2000008bf5907b, 0x24000464c2000008bf5907c, 0x24000464c2000008bf5907d,
   0x24000464c2000008bf590be, 0x24000464c2000008bfd9051]
]

/-- Items of states 24 to 35. -/
def itemRows2 : List (List Nat) := [
  [0x8ac488d7fd7e720cbbf7d173, 0x8ac488d7fd7e720cbbf7d0be],
  [0x88c488d1b15e720c3802417a, 0x88c488d1b15e720c38024038, 0x88c488d1b15e720c38024039,
   0x88c488d7fd7e720cbbe25021, 0x88c488d7fd7e720cbbe25022, 0x88c488d7fd7e720cbbe25023,
   0x88c488d7fd7e720cbbe25024, 0x88c488d7fd7e720cbbe25025, 0x88c488d7fd7e720cbbe25026,
   0x88c488d7fd7e720cbbe25027, 0x88c488d7fd7e720cbbe25028, 0x88c488d7fd7e720cbbe25029,
   0x88c488d7fd7e720cbbe2502a, 0x88c488d7fd7e720cbbe2502b, 0x88c488d7fd7e720cbbe2502c,
   0x88c488d7fd7e720cbbe2502d, 0x88c488d7fd7e720cbbe2502e, 0x88c488d7fd7e720cbbe2502f,
   0x88c488d7fd7e720cbbe25030, 0x88c488d7fd7e720cbbe25031, 0x88c488d7fd7e720cbbe25032,
   0x88c488d7fd7e720cbbe25033, 0x88c488d7fd7e720cbbe25034, 0x88c488d7fd7e720cbbe25035,
   0x88c488d7fd7e720cbbe25036, 0x88c488d7fd7e720cbbe25037, 0x88c488d1b15e720c38024016,
   0x88c488d1b15e720c38024017, 0x88c488d1b15e720c38024018, 0x88c488d1b15e720c38024019,
   0x8ac488d7fd7e720cbbe7500b, 0x8ac488d7fd7e720cbbe7500c, 0x8ac488d7fd7e720cbbe7500d,
   0x8ac488d7fd7e720cbbe7500e, 0x8ac488d7fd7e720cbbf7d076, 0x8ac488d7fd7e720cbbf7d077,
   0x8ac488d7fd7e720cbbf7d078, 0x8ac488d7fd7e720cbbf7d0d2, 0x8ac488d7fd7e720cbbf7d0d3,
   0x8ac488d7fd7e720cbbf7d0d4, 0x8ac488d7fd7e720cbbf7d08d, 0x8ac488d7fd7e720cbbf7d08e,
   0x8ac488d7fd7e720cbbf7d08f, 0x8ac488d7fd7e720cbbf7d090, 0x8ac488d7fd7e720cbbf7d06d,
   0x8ac488d7fd7e720cbbf7d06e, 0x8ac488d7fd7e720cbbf7d06f, 0x8ac488d7fd7e720cbbf7d070,
   0x8ac488d7fd7e720cbbf7d071, 0x8ac488d7fd7e720cbbf7d072, 0x8ac488d7fd7e720cbbf7d073,
   0x8ac488d7fd7e720cbbf7d074, 0x8ac488d7fd7e720cbbf7d075, 0x8ac488d7fd7e720cbbf7d091,
   0x8ac488d7fd7e720cbbf7d092, 0x8ac488d7fd7e720cbbf7d093, 0x8ac488d7fd7e720cbbf7d07b,
   0x8ac488d7fd7e720cbbf7d07c, 0x8ac488d7fd7e720cbbf7d07d, 0x8ac488d7fd7e720cbbf7d0be,
   0x8ac488d7fd7e720cbbffd051],
  [0x8ac488d7fd7e720cbbf7d174, 0x8ac488d7fd7e720cbbf7d0be],
  [0x8ac488d7fd7e720cbbf7d175, 0x8ac488d7fd7e720cbbf7d0be],
  [0x800000008000000000004280, 0x80000000800000000002408b, 0x80000000800000000002408c,
   0x800000008000000000024089, 0x80000000800000000002408a, 0x800000008000020420024047,
   0x80000040800002042002407e, 0x80000040800002042002407f, 0x80000040800002042802400f,
   0x800000408000020428024010, 0x800000408000020428024079, 0x80000040800002042802407a,
   0x800000408000020428024038, 0x800000408000020428024039, 0x80000046cc200204abe25021,
   0x80000046cc200204abe25022, 0x80000046cc200204abe25023, 0x80000046cc200204abe25024,
   0x80000046cc200204abe25025, 0x80000046cc200204abe25026, 0x80000046cc200204abe25027,
   0x80000046cc200204abe25028, 0x80000046cc200204abe25029, 0x80000046cc200204abe2502a,
   0x80000046cc200204abe2502b, 0x80000046cc200204abe2502c, 0x80000046cc200204abe2502d,
   0x80000046cc200204abe2502e, 0x80000046cc200204abe2502f, 0x80000046cc200204abe25030,
   0x80000046cc200204abe25031, 0x80000046cc200204abe25032, 0x80000046cc200204abe25033,
   0x80000046cc200204abe25034, 0x80000046cc200204abe25035, 0x80000046cc200204abe25036,
   0x80000046cc200204abe25037, 0x800000408000020428024016, 0x800000408000020428024017,
   0x800000408000020428024018, 0x800000408000020428024019, 0x82000046cc200204abe7500b,
   0x82000046cc200204abe7500c, 0x82000046cc200204abe7500d, 0x82000046cc200204abe7500e,
   0x82000046cc200204abf7d076, 0x82000046cc200204abf7d077, 0x82000046cc200204abf7d078,
   0x82000046cc200204abf7d0d2, 0x82000046cc200204abf7d0d3, 0x82000046cc200204abf7d0d4,
   0x82000046cc200204abf7d08d, 0x82000046cc200204abf7d08e, 0x82000046cc200204abf7d08f,
   0x82000046cc200204abf7d090, 0x82000046cc200204abf7d06d, 0x82000046cc200204abf7d06e,
   0x82000046cc200204abf7d06f, 0x82000046cc200204abf7d070, 0x82000046cc200204abf7d071,
   0x82000046cc200204abf7d072, 0x82000046cc200204abf7d073, 0x82000046cc200204abf7d074,
   0x82000046cc200204abf7d075, 0x82000046cc200204abf7d091, 0x82000046cc200204abf7d092,
   0x82000046cc200204abf7d093, 0x82000046cc200204abf7d07b, 0x82000046cc200204abf7d07c,
   0x82000046cc200204abf7d07d, 0x82000046cc200204abf7d0be, 0x82000046cc200204abffd051],
  [0x8000000000000000000043ad, 0x8000000000000000000043af, 0x800000000000000000004068,
   0x800000000000000000004069, 0x80000000000000000000406a],
  [0x80000000000000000000033e, 0x80000000000000000000033f, 0x808000000000000000000091,
   0x808000000000000000000092, 0x808000000000000000000093, 0x808000000000000000080051],
  [0x800000000000000000000354, 0x800000000000000000000356, 0x2010000000000000002091,
   0x2010000000000000002092, 0x2010000000000000002093, 0x2010000000000000082051],
  [0x800000000000000000000340, 0x800000000000000000000341, 0x8000000000000000000000dc],
  [0x8000000000000000000003b6, 0x8000000000000000000000ba, 0x8000000000000000000000bb,
   0x8000000000000000000000bc, 0x8000000000000000000000bd, 0x8000000000000000000000ad,
   0x8000000000000000000000ae, 0x8000000000000000000000af, 0x8000000000000000000000b0,
   0x8000000000000000000000b1, 0x8000000000000000000000b2, 0x8000000000000000000000b3,
   0x8000000000000000000000b4, 0x800000000000000000000054, 0x800000000000000000000055,
   0x800000000000000000000056, 0x800000000000000000000057, 0x80000000000000000000003e,
   0x80000000000000000000003f, 0x800000000000000000000040, 0x800000000000000000000041,
   0x8000000000000000000000d5, 0x8000000000000000000000d6, 0x8000000000000000000000d7,
   0x8000000000000000000000d8, 0x28100000800100000000c7, 0x8004008081004000000000a8,
   0x8004008081004000000000a9, 0x80040080810040000000009f, 0x8004008081004000000000a0,
   0x8004008081004000000000a1, 0x8004008081004000000000a2, 0x8004008081004000000000a3,
   0x8004008081004000000000a4, 0x8004008081004000000000a5, 0x8004008081004000000000a6,
   0x8004008081004000000000a7],
  [0x800000000000000000000355, 0x800000000000000000000357, 0x201000000000000000001a,
   0x80000000000000000000009f, 0x8000000000000000000000a0, 0x8000000000000000000000a1,
   0x8000000000000000000000a2, 0x8000000000000000000000a3, 0x8000000000000000000000a4,
   0x8000000000000000000000a5, 0x8000000000000000000000a6, 0x8000000000000000000000a7],
  [0x80840080810a400000024194, 0x80840080810a400000024195, 0x80840080810a400000024196,
   0x80840080810a400000024051]
]

/-- Items of states 36 to 47. -/
def itemRows3 : List (List Nat) := [
  [0x80040080810040000000439f, 0x8004008081004000000043a0, 0x8004008081004000000043a1,
   0x8004008081004000000043a2, 0x8004008081004000000043a3, 0x8004008081004000000043a4,
   0x8004008081004000000043a5, 0x8004008081004000000043a6, 0x8004008081084000000040dc,
   0x80040080810040000000404d, 0x80040080810040000000404e, 0x80840080810840000000404c],
  [0x8af4b8f7fd7e720cbbf7f292, 0x8af4b8f7fd7e720cbbf7f293, 0x8af4b8f7fd7e720cbbfff051],
  [0x8000000000000000000003d7, 0x8000000000000000000003d8, 0x808000000000000000020012,
   0x808000000000000000020013, 0x808000000000000000020011, 0x820052, 0x820053, 0x820051],
  [0x8004008081004000000242d1, 0x8004008081004000000240cf],
  [0x2810000080010000020220, 0x281000008001000002001d, 0x281000008001000002001e, 0x10002051],
  [0x281000008001000002021e, 0x24052, 0x24053, 0x24051],
  [0x8ac488d7fd7e720cbbe7520c, 0x8ac488d7fd7e720cbbf7d076, 0x8ac488d7fd7e720cbbf7d077,
   0x8ac488d7fd7e720cbbf7d078, 0x8ac488d7fd7e720cbbf7d0d2, 0x8ac488d7fd7e720cbbf7d0d3,
   0x8ac488d7fd7e720cbbf7d0d4, 0x8ac488d7fd7e720cbbf7d08d, 0x8ac488d7fd7e720cbbf7d08e,
   0x8ac488d7fd7e720cbbf7d08f, 0x8ac488d7fd7e720cbbf7d090, 0x8ac488d7fd7e720cbbf7d06d,
   0x8ac488d7fd7e720cbbf7d06e, 0x8ac488d7fd7e720cbbf7d06f, 0x8ac488d7fd7e720cbbf7d070,
   0x8ac488d7fd7e720cbbf7d071, 0x8ac488d7fd7e720cbbf7d072, 0x8ac488d7fd7e720cbbf7d073,
   0x8ac488d7fd7e720cbbf7d074, 0x8ac488d7fd7e720cbbf7d075, 0x8ac488d7fd7e720cbbf7d091,
   0x8ac488d7fd7e720cbbf7d092, 0x8ac488d7fd7e720cbbf7d093, 0x8ac488d7fd7e720cbbf7d07b,
   0x8ac488d7fd7e720cbbf7d07c, 0x8ac488d7fd7e720cbbf7d07d, 0x8ac488d7fd7e720cbbf7d0be,
   0x8ac488d7fd7e720cbbffd051],
  [0x8ac488d7fd7e720cbbe7520d, 0x8ac488d7fd7e720cbbf7d076, 0x8ac488d7fd7e720cbbf7d077,
   0x8ac488d7fd7e720cbbf7d078, 0x8ac488d7fd7e720cbbf7d0d2, 0x8ac488d7fd7e720cbbf7d0d3,
   0x8ac488d7fd7e720cbbf7d0d4, 0x8ac488d7fd7e720cbbf7d08d, 0x8ac488d7fd7e720cbbf7d08e,
   0x8ac488d7fd7e720cbbf7d08f, 0x8ac488d7fd7e720cbbf7d090, 0x8ac488d7fd7e720cbbf7d06d,
   0x8ac488d7fd7e720cbbf7d06e, 0x8ac488d7fd7e720cbbf7d06f, 0x8ac488d7fd7e720cbbf7d070,
   0x8ac488d7fd7e720cbbf7d071, 0x8ac488d7fd7e720cbbf7d072, 0x8ac488d7fd7e720cbbf7d073,
   0x8ac488d7fd7e720cbbf7d074, 0x8ac488d7fd7e720cbbf7d075, 0x8ac488d7fd7e720cbbf7d091,
   0x8ac488d7fd7e720cbbf7d092, 0x8ac488d7fd7e720cbbf7d093, 0x8ac488d7fd7e720cbbf7d07b,
   0x8ac488d7fd7e720cbbf7d07c, 0x8ac488d7fd7e720cbbf7d07d, 0x8ac488d7fd7e720cbbf7d0be,
   0x8ac488d7fd7e720cbbffd051],
  [0x8ac488d7fd7e720cbbe7520e, 0x8ac488d7fd7e720cbbf7d076, 0x8ac488d7fd7e720cbbf7d077,
   0x8ac488d7fd7e720cbbf7d078, 0x8ac488d7fd7e720cbbf7d0d2, 0x8ac488d7fd7e720cbbf7d0d3,
   0x8ac488d7fd7e720cbbf7d0d4, 0x8ac488d7fd7e720cbbf7d08d, 0x8ac488d7fd7e720cbbf7d08e,
   0x8ac488d7fd7e720cbbf7d08f, 0x8ac488d7fd7e720cbbf7d090, 0x8ac488d7fd7e720cbbf7d06d,
   0x8ac488d7fd7e720cbbf7d06e, 0x8ac488d7fd7e720cbbf7d06f, 0x8ac488d7fd7e720cbbf7d070,
   0x8ac488d7fd7e720cbbf7d071, 0x8ac488d7fd7e720cbbf7d072, 0x8ac488d7fd7e720cbbf7d073,
   0x8ac488d7fd7e720cbbf7d074, 0x8ac488d7fd7e720cbbf7d075, 0x8ac488d7fd7e720cbbf7d091,
   0x8ac488d7fd7e720cbbf7d092, 0x8ac488d7fd7e720cbbf7d093, 0x8ac488d7fd7e720cbbf7d07b,
   0x8ac488d7fd7e720cbbf7d07c, 0x8ac488d7fd7e720cbbf7d07d, 0x8ac488d7fd7e720cbbf7d0be,
   0x8ac488d7fd7e720cbbffd051],
  [0x88c488d1b15e720c38024210, 0x88c488d1b15e720c38024079, 0x88c488d1b15e720c3802407a,
   0x88c488d1b15e720c38024038, 0x88c488d1b15e720c38024039, 0x88c488d7fd7e720cbbe25021,
   0x88c488d7fd7e720cbbe25022, 0x88c488d7fd7e720cbbe25023, 0x88c488d7fd7e720cbbe25024,
   0x88c488d7fd7e720cbbe25025, 0x88c488d7fd7e720cbbe25026, 0x88c488d7fd7e720cbbe25027,
   0x88c488d7fd7e720cbbe25028, 0x88c488d7fd7e720cbbe25029, 0x88c488d7fd7e720cbbe2502a,
   0x88c488d7fd7e720cbbe2502b, 0x88c488d7fd7e720cbbe2502c, 0x88c488d7fd7e720cbbe2502d,
   0x88c488d7fd7e720cbbe2502e, 0x88c488d7fd7e720cbbe2502f, 0x88c488d7fd7e720cbbe25030,
   0x88c488d7fd7e720cbbe25031, 0x88c488d7fd7e720cbbe25032, 0x88c488d7fd7e720cbbe25033,
   0x88c488d7fd7e720cbbe25034, 0x88c488d7fd7e720cbbe25035, 0x88c488d7fd7e720cbbe25036,
   0x88c488d7fd7e720cbbe25037, 0x88c488d1b15e720c38024016, 0x88c488d1b15e720c38024017,
   0x88c488d1b15e720c38024018, 0x88c488d1b15e720c38024019, 0x8ac488d7fd7e720cbbe7500b,
   0x8ac488d7fd7e720cbbe7500c, 0x8ac488d7fd7e720cbbe7500d, 0x8ac488d7fd7e720cbbe7500e,
   0x8ac488d7fd7e720cbbf7d076, 0x8ac488d7fd7e720cbbf7d077, 0x8ac488d7fd7e720cbbf7d078,
   0x8ac488d7fd7e720cbbf7d0d2, 0x8ac488d7fd7e720cbbf7d0d3, 0x8ac488d7fd7e720cbbf7d0d4,
   0x8ac488d7fd7e720cbbf7d08d, 0x8ac488d7fd7e720cbbf7d08e, 0x8ac488d7fd7e720cbbf7d08f,
   0x8ac488d7fd7e720cbbf7d090, 0x8ac488d7fd7e720cbbf7d06d, 0x8ac488d7fd7e720cbbf7d06e,
   0x8ac488d7fd7e720cbbf7d06f, 0x8ac488d7fd7e720cbbf7d070, 0x8ac488d7fd7e720cbbf7d071,
   0x8ac488d7fd7e720cbbf7d072, 0x8ac488d7fd7e720cbbf7d073, 0x8ac488d7fd7e720cbbf7d074,
   0x8ac488d7fd7e720cbbf7d075, 0x8ac488d7fd7e720cbbf7d091, 0x8ac488d7fd7e720cbbf7d092,
   0x8ac488d7fd7e720cbbf7d093, 0x8ac488d7fd7e720cbbf7d07b, 0x8ac488d7fd7e720cbbf7d07c,
   0x8ac488d7fd7e720cbbf7d07d, 0x8ac488d7fd7e720cbbf7d0be, 0x8ac488d7fd7e720cbbffd051],
  [0x88c488d7fd7e720cbbe25223, 0x8ac488d7fd7e720cbbe7500b, 0x8ac488d7fd7e720cbbe7500c,
   0x8ac488d7fd7e720cbbe7500d, 0x8ac488d7fd7e720cbbe7500e, 0x8ac488d7fd7e720cbbf7d076,
   0x8ac488d7fd7e720cbbf7d077, 0x8ac488d7fd7e720cbbf7d078, 0x8ac488d7fd7e720cbbf7d0d2,
   0x8ac488d7fd7e720cbbf7d0d3, 0x8ac488d7fd7e720cbbf7d0d4, 0x8ac488d7fd7e720cbbf7d08d,
   0x8ac488d7fd7e720cbbf7d08e, 0x8ac488d7fd7e720cbbf7d08f, 0x8ac488d7fd7e720cbbf7d090,
   0x8ac488d7fd7e720cbbf7d06d, 0x8ac488d7fd7e720cbbf7d06e, 0x8ac488d7fd7e720cbbf7d06f,
   0x8ac488d7fd7e720cbbf7d070, 0x8ac488d7fd7e720cbbf7d071, 0x8ac488d7fd7e720cbbf7d072,
   0x8ac488d7fd7e720cbbf7d073, 0x8ac488d7fd7e720cbbf7d074, 0x8ac488d7fd7e720cbbf7d075,
   0x8ac488d7fd7e720cbbf7d091, 0x8ac488d7fd7e720cbbf7d092, 0x8ac488d7fd7e720cbbf7d093,
   0x8ac488d7fd7e720cbbf7d07b, 0x8ac488d7fd7e720cbbf7d07c, 0x8ac488d7fd7e720cbbf7d07d,
   0x8ac488d7fd7e720cbbf7d0be, 0x8ac488d7fd7e720cbbffd051],
  [0x88c488d7fd7e720cbbe25224, 0x8ac488d7fd7e720cbbe7500b, 0x8ac488d7fd7e720cbbe7500c,
   0x8ac488d7fd7e720cbbe7500d, 0x8ac488d7fd7e720cbbe7500e, 0x8ac488d7fd7e720cbbf7d076,
   0x8ac488d7fd7e720cbbf7d077, 0x8ac488d7fd7e720cbbf7d078, 0x8ac488d7fd7e720cbbf7d0d2,
   0x8ac488d7fd7e720cbbf7d0d3, 0x8ac488d7fd7e720cbbf7d0d4, 0x8ac488d7fd7e720cbbf7d08d,
   0x8ac488d7fd7e720cbbf7d08e, 0x8ac488d7fd7e720cbbf7d08f, 0x8ac488d7fd7e720cbbf7d090,
   0x8ac488d7fd7e720cbbf7d06d, 0x8ac488d7fd7e720cbbf7d06e, 0x8ac488d7fd7e720cbbf7d06f,
   0x8ac488d7fd7e720cbbf7d070, 0x8ac488d7fd7e720cbbf7d071, 0x8ac488d7fd7e720cbbf7d072,
   0x8ac488d7fd7e720cbbf7d073, 0x8ac488d7fd7e720cbbf7d074, 0x8ac488d7fd7e720cbbf7d075,
   0x8ac488d7fd7e720cbbf7d091, 0x8ac488d7fd7e720cbbf7d092, 0x8ac488d7fd7e720cbbf7d093,
   0x8ac488d7fd7e720cbbf7d07b, 0x8ac488d7fd7e720cbbf7d07c, 0x8ac488d7fd7e720cbbf7d07d,
   0x8ac488d7fd7e720cbbf7d0be, 0x8ac488d7fd7e720cbbffd051]
]

/-- Items of states 48 to 59. -/
def itemRows4 : List (List Nat) := [
  [0x88c488d7fd7e720cbbe25226, 0x8ac488d7fd7e720cbbe7500b, 0x8ac488d7fd7e720cbbe7500c,
   0x8ac488d7fd7e720cbbe7500d, 0x8ac488d7fd7e720cbbe7500e, 0x8ac488d7fd7e720cbbf7d076,
   0x8ac488d7fd7e720cbbf7d077, 0x8ac488d7fd7e720cbbf7d078, 0x8ac488d7fd7e720cbbf7d0d2,
   0x8ac488d7fd7e720cbbf7d0d3, 0x8ac488d7fd7e720cbbf7d0d4, 0x8ac488d7fd7e720cbbf7d08d,
   0x8ac488d7fd7e720cbbf7d08e, 0x8ac488d7fd7e720cbbf7d08f, 0x8ac488d7fd7e720cbbf7d090,
   0x8ac488d7fd7e720cbbf7d06d, 0x8ac488d7fd7e720cbbf7d06e, 0x8ac488d7fd7e720cbbf7d06f,
   0x8ac488d7fd7e720cbbf7d070, 0x8ac488d7fd7e720cbbf7d071, 0x8ac488d7fd7e720cbbf7d072,
   0x8ac488d7fd7e720cbbf7d073, 0x8ac488d7fd7e720cbbf7d074, 0x8ac488d7fd7e720cbbf7d075,
   0x8ac488d7fd7e720cbbf7d091, 0x8ac488d7fd7e720cbbf7d092, 0x8ac488d7fd7e720cbbf7d093,
   0x8ac488d7fd7e720cbbf7d07b, 0x8ac488d7fd7e720cbbf7d07c, 0x8ac488d7fd7e720cbbf7d07d,
   0x8ac488d7fd7e720cbbf7d0be, 0x8ac488d7fd7e720cbbffd051],
  [0x88c488d7fd7e720cbbe25222, 0x8ac488d7fd7e720cbbe7500b, 0x8ac488d7fd7e720cbbe7500c,
   0x8ac488d7fd7e720cbbe7500d, 0x8ac488d7fd7e720cbbe7500e, 0x8ac488d7fd7e720cbbf7d076,
   0x8ac488d7fd7e720cbbf7d077, 0x8ac488d7fd7e720cbbf7d078, 0x8ac488d7fd7e720cbbf7d0d2,
   0x8ac488d7fd7e720cbbf7d0d3, 0x8ac488d7fd7e720cbbf7d0d4, 0x8ac488d7fd7e720cbbf7d08d,
   0x8ac488d7fd7e720cbbf7d08e, 0x8ac488d7fd7e720cbbf7d08f, 0x8ac488d7fd7e720cbbf7d090,
   0x8ac488d7fd7e720cbbf7d06d, 0x8ac488d7fd7e720cbbf7d06e, 0x8ac488d7fd7e720cbbf7d06f,
   0x8ac488d7fd7e720cbbf7d070, 0x8ac488d7fd7e720cbbf7d071, 0x8ac488d7fd7e720cbbf7d072,
   0x8ac488d7fd7e720cbbf7d073, 0x8ac488d7fd7e720cbbf7d074, 0x8ac488d7fd7e720cbbf7d075,
   0x8ac488d7fd7e720cbbf7d091, 0x8ac488d7fd7e720cbbf7d092, 0x8ac488d7fd7e720cbbf7d093,
   0x8ac488d7fd7e720cbbf7d07b, 0x8ac488d7fd7e720cbbf7d07c, 0x8ac488d7fd7e720cbbf7d07d,
   0x8ac488d7fd7e720cbbf7d0be, 0x8ac488d7fd7e720cbbffd051],
  [0x88c488d7fd7e720cbbe25225, 0x8ac488d7fd7e720cbbe7500b, 0x8ac488d7fd7e720cbbe7500c,
   0x8ac488d7fd7e720cbbe7500d, 0x8ac488d7fd7e720cbbe7500e, 0x8ac488d7fd7e720cbbf7d076,
   0x8ac488d7fd7e720cbbf7d077, 0x8ac488d7fd7e720cbbf7d078, 0x8ac488d7fd7e720cbbf7d0d2,
   0x8ac488d7fd7e720cbbf7d0d3, 0x8ac488d7fd7e720cbbf7d0d4, 0x8ac488d7fd7e720cbbf7d08d,
   0x8ac488d7fd7e720cbbf7d08e, 0x8ac488d7fd7e720cbbf7d08f, 0x8ac488d7fd7e720cbbf7d090,
   0x8ac488d7fd7e720cbbf7d06d, 0x8ac488d7fd7e720cbbf7d06e, 0x8ac488d7fd7e720cbbf7d06f,
   0x8ac488d7fd7e720cbbf7d070, 0x8ac488d7fd7e720cbbf7d071, 0x8ac488d7fd7e720cbbf7d072,
   0x8ac488d7fd7e720cbbf7d073, 0x8ac488d7fd7e720cbbf7d074, 0x8ac488d7fd7e720cbbf7d075,
   0x8ac488d7fd7e720cbbf7d091, 0x8ac488d7fd7e720cbbf7d092, 0x8ac488d7fd7e720cbbf7d093,
   0x8ac488d7fd7e720cbbf7d07b, 0x8ac488d7fd7e720cbbf7d07c, 0x8ac488d7fd7e720cbbf7d07d,
   0x8ac488d7fd7e720cbbf7d0be, 0x8ac488d7fd7e720cbbffd051],
  [0x88c488d7fd7e720cbbe25227, 0x8ac488d7fd7e720cbbe7500b, 0x8ac488d7fd7e720cbbe7500c,
   0x8ac488d7fd7e720cbbe7500d, 0x8ac488d7fd7e720cbbe7500e, 0x8ac488d7fd7e720cbbf7d076,
   0x8ac488d7fd7e720cbbf7d077, 0x8ac488d7fd7e720cbbf7d078, 0x8ac488d7fd7e720cbbf7d0d2,
   0x8ac488d7fd7e720cbbf7d0d3, 0x8ac488d7fd7e720cbbf7d0d4, 0x8ac488d7fd7e720cbbf7d08d,
   0x8ac488d7fd7e720cbbf7d08e, 0x8ac488d7fd7e720cbbf7d08f, 0x8ac488d7fd7e720cbbf7d090,
   0x8ac488d7fd7e720cbbf7d06d, 0x8ac488d7fd7e720cbbf7d06e, 0x8ac488d7fd7e720cbbf7d06f,
   0x8ac488d7fd7e720cbbf7d070, 0x8ac488d7fd7e720cbbf7d071, 0x8ac488d7fd7e720cbbf7d072,
   0x8ac488d7fd7e720cbbf7d073, 0x8ac488d7fd7e720cbbf7d074, 0x8ac488d7fd7e720cbbf7d075,
   0x8ac488d7fd7e720cbbf7d091, 0x8ac488d7fd7e720cbbf7d092, 0x8ac488d7fd7e720cbbf7d093,
   0x8ac488d7fd7e720cbbf7d07b, 0x8ac488d7fd7e720cbbf7d07c, 0x8ac488d7fd7e720cbbf7d07d,
   0x8ac488d7fd7e720cbbf7d0be, 0x8ac488d7fd7e720cbbffd051],
  [0x88c488d7fd7e720cbbe25236, 0x2000000000000000805000b, 0x2000000000000000805000c,
   0x2000000000000000805000d, 0x2000000000000000805000e, 0x20000000000000008158076,
   0x20000000000000008158077, 0x20000000000000008158078, 0x200000000000000081580d2,
   0x200000000000000081580d3, 0x200000000000000081580d4, 0x2000000000000000815808d,
   0x2000000000000000815808e, 0x2000000000000000815808f, 0x20000000000000008158090,
   0x2000000000000000815806d, 0x2000000000000000815806e, 0x2000000000000000815806f,
   0x20000000000000008158070, 0x20000000000000008158071, 0x20000000000000008158072,
   0x20000000000000008158073, 0x20000000000000008158074, 0x20000000000000008158075,
   0x20000000000000008158091, 0x20000000000000008158092, 0x20000000000000008158093,
   0x2000000000000000815807b, 0x2000000000000000815807c, 0x2000000000000000815807d,
   0x200000000000000081580be, 0x200000000000000081d8051],
  [0x88c488d7fd7e720cbbe2522e, 0x88c488d7fd7e720cbbe25230, 0x88c488d7fd7e720cbbe25232,
   0x88c488d7fd7e720cbbe25234, 0x88c488d7fd7e720cbbe25091, 0x88c488d7fd7e720cbbe25092,
   0x88c488d7fd7e720cbbe25093, 0x88c488d7fd7e720cbbea5051],
  [0x88c488d7fd7e720cbbe2522a, 0x8ac488d7fd7e720cbbe7500b, 0x8ac488d7fd7e720cbbe7500c,
   0x8ac488d7fd7e720cbbe7500d, 0x8ac488d7fd7e720cbbe7500e, 0x8ac488d7fd7e720cbbf7d076,
   0x8ac488d7fd7e720cbbf7d077, 0x8ac488d7fd7e720cbbf7d078, 0x8ac488d7fd7e720cbbf7d0d2,
   0x8ac488d7fd7e720cbbf7d0d3, 0x8ac488d7fd7e720cbbf7d0d4, 0x8ac488d7fd7e720cbbf7d08d,
   0x8ac488d7fd7e720cbbf7d08e, 0x8ac488d7fd7e720cbbf7d08f, 0x8ac488d7fd7e720cbbf7d090,
   0x8ac488d7fd7e720cbbf7d06d, 0x8ac488d7fd7e720cbbf7d06e, 0x8ac488d7fd7e720cbbf7d06f,
   0x8ac488d7fd7e720cbbf7d070, 0x8ac488d7fd7e720cbbf7d071, 0x8ac488d7fd7e720cbbf7d072,
   0x8ac488d7fd7e720cbbf7d073, 0x8ac488d7fd7e720cbbf7d074, 0x8ac488d7fd7e720cbbf7d075,
   0x8ac488d7fd7e720cbbf7d091, 0x8ac488d7fd7e720cbbf7d092, 0x8ac488d7fd7e720cbbf7d093,
   0x8ac488d7fd7e720cbbf7d07b, 0x8ac488d7fd7e720cbbf7d07c, 0x8ac488d7fd7e720cbbf7d07d,
   0x8ac488d7fd7e720cbbf7d0be, 0x8ac488d7fd7e720cbbffd051],
  [0x800000000000000000004369, 0x800000000000000000004047, 0x80000040000000000000407e,
   0x80000040000000000000407f, 0x80000040000000000800400f, 0x800000400000000008004010,
   0x800000400000000008004079, 0x80000040000000000800407a, 0x800000400000000008004038,
   0x800000400000000008004039, 0x800000464c2000008be05021, 0x800000464c2000008be05022,
   0x800000464c2000008be05023, 0x800000464c2000008be05024, 0x800000464c2000008be05025,
   0x800000464c2000008be05026, 0x800000464c2000008be05027, 0x800000464c2000008be05028,
   0x800000464c2000008be05029, 0x800000464c2000008be0502a, 0x800000464c2000008be0502b,
   0x800000464c2000008be0502c, 0x800000464c2000008be0502d, 0x800000464c2000008be0502e,
   0x800000464c2000008be0502f, 0x800000464c2000008be05030, 0x800000464c2000008be05031,
   0x800000464c2000008be05032, 0x800000464c2000008be05033, 0x800000464c2000008be05034,
   0x800000464c2000008be05035, 0x800000464c2000008be05036, 0x800000464c2000008be05037,
   0x800000400000000008004016, 0x800000400000000008004017, 0x800000400000000008004018,
   0x800000400000000008004019, 0x820000464c2000008be5500b, 0x820000464c2000008be5500c,
   0x820000464c2000008be5500d, 0x820000464c2000008be5500e, 0x820000464c2000008bf5d076,
   0x820000464c2000008bf5d077, 0x820000464c2000008bf5d078, 0x820000464c2000008bf5d0d2,
   0x820000464c2000008bf5d0d3, 0x820000464c2000008bf5d0d4, 0x820000464c2000008bf5d08d,
   0x820000464c2000008bf5d08e, 0x820000464c2000008bf5d08f, 0x820000464c2000008bf5d090,
   0x820000464c2000008bf5d06d, 0x820000464c2000008bf5d06e, 0x820000464c2000008bf5d06f,
   0x820000464c2000008bf5d070, 0x820000464c2000008bf5d071, 0x820000464c2000008bf5d072,
   0x820000464c2000008bf5d073, 0x820000464c2000008bf5d074, 0x820000464c2000008bf5d075,
   0x820000464c2000008bf5d091, 0x820000464c2000008bf5d092, 0x820000464c2000008bf5d093,
   0x820000464c2000008bf5d07b, 0x820000464c2000008bf5d07c, 0x820000464c2000008bf5d07d,
   0x820000464c2000008bf5d0be, 0x820000464c2000008bfdd051],
  [0x80000000000000000000436a, 0x800000000000000000004047, 0x80000040000000000000407e,
   0x80000040000000000000407f, 0x80000040000000000800400f, 0x800000400000000008004010,
   0x800000400000000008004079, 0x80000040000000000800407a, 0x800000400000000008004038,
   0x800000400000000008004039, 0x800000464c2000008be05021, 0x800000464c2000008be05022,
   0x800000464c2000008be05023, 0x800000464c2000008be05024, 0x800000464c2000008be05025,
   0x800000464c2000008be05026, 0x800000464c2000008be05027, 0x800000464c2000008be05028,
   0x800000464c2000008be05029, 0x800000464c2000008be0502a, 0x800000464c2000008be0502b,
   0x800000464c2000008be0502c, 0x800000464c2000008be0502d, 0x800000464c2000008be0502e,
   0x800000464c2000008be0502f, 0x800000464c2000008be05030, 0x800000464c2000008be05031,
   0x800000464c2000008be05032, 0x800000464c2000008be05033, 0x800000464c2000008be05034,
   0x800000464c2000008be05035, 0x800000464c2000008be05036, 0x800000464c2000008be05037,
   0x800000400000000008004016, 0x800000400000000008004017, 0x800000400000000008004018,
   0x800000400000000008004019, 0x820000464c2000008be5500b, 0x820000464c2000008be5500c,
   0x820000464c2000008be5500d, 0x820000464c2000008be5500e, 0x820000464c2000008bf5d076,
   0x820000464c2000008bf5d077, 0x820000464c2000008bf5d078, 0x820000464c2000008bf5d0d2,
   0x820000464c2000008bf5d0d3, 0x820000464c2000008bf5d0d4, 0x820000464c2000008bf5d08d,
   0x820000464c2000008bf5d08e, 0x820000464c2000008bf5d08f, 0x820000464c2000008bf5d090,
   0x820000464c2000008bf5d06d, 0x820000464c2000008bf5d06e, 0x820000464c2000008bf5d06f,
   0x820000464c2000008bf5d070, 0x820000464c2000008bf5d071, 0x820000464c2000008bf5d072,
   0x820000464c2000008bf5d073, 0x820000464c2000008bf5d074, 0x820000464c2000008bf5d075,
   0x820000464c2000008bf5d091, 0x820000464c2000008bf5d092, 0x820000464c2000008bf5d093,
   0x820000464c2000008bf5d07b, 0x820000464c2000008bf5d07c, 0x820000464c2000008bf5d07d,
   0x820000464c2000008bf5d0be, 0x820000464c2000008bfdd051],
  [0x8ac488d7fd7e720cbbf7d277, 0x8ac488d7fd7e720cbbf7d0d2, 0x8ac488d7fd7e720cbbf7d0d3,
   0x8ac488d7fd7e720cbbf7d0d4, 0x8ac488d7fd7e720cbbf7d08d, 0x8ac488d7fd7e720cbbf7d08e,
   0x8ac488d7fd7e720cbbf7d08f, 0x8ac488d7fd7e720cbbf7d090, 0x8ac488d7fd7e720cbbf7d06d,
   0x8ac488d7fd7e720cbbf7d06e, 0x8ac488d7fd7e720cbbf7d06f, 0x8ac488d7fd7e720cbbf7d070,
   0x8ac488d7fd7e720cbbf7d071, 0x8ac488d7fd7e720cbbf7d072, 0x8ac488d7fd7e720cbbf7d073,
   0x8ac488d7fd7e720cbbf7d074, 0x8ac488d7fd7e720cbbf7d075, 0x8ac488d7fd7e720cbbf7d091,
   0x8ac488d7fd7e720cbbf7d092, 0x8ac488d7fd7e720cbbf7d093, 0x8ac488d7fd7e720cbbf7d07b,
   0x8ac488d7fd7e720cbbf7d07c, 0x8ac488d7fd7e720cbbf7d07d, 0x8ac488d7fd7e720cbbf7d0be,
   0x8ac488d7fd7e720cbbffd051],
  [0x8ac488d7fd7e720cbbf7d278, 0x8ac488d7fd7e720cbbf7d0d2, 0x8ac488d7fd7e720cbbf7d0d3,
   0x8ac488d7fd7e720cbbf7d0d4, 0x8ac488d7fd7e720cbbf7d08d, 0x8ac488d7fd7e720cbbf7d08e,
   0x8ac488d7fd7e720cbbf7d08f, 0x8ac488d7fd7e720cbbf7d090, 0x8ac488d7fd7e720cbbf7d06d,
   0x8ac488d7fd7e720cbbf7d06e, 0x8ac488d7fd7e720cbbf7d06f, 0x8ac488d7fd7e720cbbf7d070,
   0x8ac488d7fd7e720cbbf7d071, 0x8ac488d7fd7e720cbbf7d072, 0x8ac488d7fd7e720cbbf7d073,
   0x8ac488d7fd7e720cbbf7d074, 0x8ac488d7fd7e720cbbf7d075, 0x8ac488d7fd7e720cbbf7d091,
   0x8ac488d7fd7e720cbbf7d092, 0x8ac488d7fd7e720cbbf7d093, 0x8ac488d7fd7e720cbbf7d07b,
   0x8ac488d7fd7e720cbbf7d07c, 0x8ac488d7fd7e720cbbf7d07d, 0x8ac488d7fd7e720cbbf7d0be,
   0x8ac488d7fd7e720cbbffd051],
  [0x88c488d1b15e720c3002427f, 0x88c488d1b15e720c3802400f, 0x88c488d1b15e720c38024010,
   0x88c488d1b15e720c38024079, 0x88c488d1b15e720c3802407a, 0x88c488d1b15e720c38024038,
   0x88c488d1b15e720c38024039, 0x88c488d7fd7e720cbbe25021, 0x88c488d7fd7e720cbbe25022,
   0x88c488d7fd7e720cbbe25023, 0x88c488d7fd7e720cbbe25024, 0x88c488d7fd7e720cbbe25025,
   0x88c488d7fd7e720cbbe25026, 0x88c488d7fd7e720cbbe25027, 0x88c488d7fd7e720cbbe25028,
   0x88c488d7fd7e720cbbe25029, 0x88c488d7fd7e720cbbe2502a, 0x88c488d7fd7e720cbbe2502b,
   0x88c488d7fd7e720cbbe2502c, 0x88c488d7fd7e720cbbe2502d, 0x88c488d7fd7e720cbbe2502e,
   0x88c488d7fd7e720cbbe2502f, 0x88c488d7fd7e720cbbe25030, 0x88c488d7fd7e720cbbe25031,
   0x88c488d7fd7e720cbbe25032, 0x88c488d7fd7e720cbbe25033, 0x88c488d7fd7e720cbbe25034,
   0x88c488d7fd7e720cbbe25035, 0x88c488d7fd7e720cbbe25036, 0x88c488d7fd7e720cbbe25037,
   0x88c488d1b15e720c38024016, 0x88c488d1b15e720c38024017, 0x88c488d1b15e720c38024018,
   0x88c488d1b15e720c38024019, 0x8ac488d7fd7e720cbbe7500b, 0x8ac488d7fd7e720cbbe7500c,
   0x8ac488d7fd7e720cbbe7500d, 0x8ac488d7fd7e720cbbe7500e, 0x8ac488d7fd7e720cbbf7d076,
   0x8ac488d7fd7e720cbbf7d077, 0x8ac488d7fd7e720cbbf7d078, 0x8ac488d7fd7e720cbbf7d0d2,
   0x8ac488d7fd7e720cbbf7d0d3, 0x8ac488d7fd7e720cbbf7d0d4, 0x8ac488d7fd7e720cbbf7d08d,
   0x8ac488d7fd7e720cbbf7d08e, 0x8ac488d7fd7e720cbbf7d08f, 0x8ac488d7fd7e720cbbf7d090,
   0x8ac488d7fd7e720cbbf7d06d, 0x8ac488d7fd7e720cbbf7d06e, 0x8ac488d7fd7e720cbbf7d06f,
   0x8ac488d7fd7e720cbbf7d070, 0x8ac488d7fd7e720cbbf7d071, 0x8ac488d7fd7e720cbbf7d072,
   0x8ac488d7fd7e720cbbf7d073, 0x8ac488d7fd7e720cbbf7d074, 0x8ac488d7fd7e720cbbf7d075,
   0x8ac488d7fd7e720cbbf7d091, 0x8ac488d7fd7e720cbbf7d092, 0x8ac488d7fd7e720cbbf7d093,
   0x8ac488d7fd7e720cbbf7d07b, 0x8ac488d7fd7e720cbbf7d07c, 0x8ac488d7fd7e720cbbf7d07d,
   0x8ac488d7fd7e720cbbf7d0be, 0x8ac488d7fd7e720cbbffd051]
]

/-- Items of states 60 to 71. -/
def itemRows5 : List (List Nat) := [
  [0x41ad, 0x41ae, 0x41af, 0x41b0, 0x4008081004000000040a8, 0x4008081004000000040a9,
   0x40080810040000000409f, 0x4008081004000000040a0, 0x4008081004000000040a1, 0x4008081004000000040a2,
   0x4008081004000000040a3, 0x4008081004000000040a4, 0x4008081004000000040a5, 0x4008081004000000040a6,
   0x4008081004000000040a7],
  [0x88c488d1b15e720c38024216, 0x88c488d1b15e720c38024218, 0x40000000003000000000da,
   0x40000000003000000000db, 0x40000000003000000000d9],
  [0x88c488d1b15e720c38024217, 0x88c488d1b15e720c38024219, 0x40000000003000000001db, 0x200000000044,
   0x40000000003000000000d9],
  [0x40000000003000000001d9, 0x80000000000000000047, 0x8040000000000000007e, 0x8040000000000000007f,
   0x8040000000000800000f, 0x80400000000008000010, 0x80400000000008000079, 0x8040000000000800007a,
   0x80400000000008000038, 0x80400000000008000039, 0x80464c2000008be01021, 0x80464c2000008be01022,
   0x80464c2000008be01023, 0x80464c2000008be01024, 0x80464c2000008be01025, 0x80464c2000008be01026,
   0x80464c2000008be01027, 0x80464c2000008be01028, 0x80464c2000008be01029, 0x80464c2000008be0102a,
   0x80464c2000008be0102b, 0x80464c2000008be0102c, 0x80464c2000008be0102d, 0x80464c2000008be0102e,
   0x80464c2000008be0102f, 0x80464c2000008be01030, 0x80464c2000008be01031, 0x80464c2000008be01032,
   0x80464c2000008be01033, 0x80464c2000008be01034, 0x80464c2000008be01035, 0x80464c2000008be01036,
   0x80464c2000008be01037, 0x80400000000008000016, 0x80400000000008000017, 0x80400000000008000018,
   0x80400000000008000019, 0x20080464c2000008be5100b, 0x20080464c2000008be5100c, 0x20080464c2000008be5100d,
   0x20080464c2000008be5100e, 0x20080464c2000008bf59076, 0x20080464c2000008bf59077,
   0x20080464c2000008bf59078, 0x20080464c2000008bf590d2, 0x20080464c2000008bf590d3,
   0x20080464c2000008bf590d4, 0x20080464c2000008bf5908d, 0x20080464c2000008bf5908e,
   0x20080464c2000008bf5908f, 0x20080464c2000008bf59090, 0x20080464c2000008bf5906d,
   0x20080464c2000008bf5906e, 0x20080464c2000008bf5906f, 0x20080464c2000008bf59070,
   0x20080464c2000008bf59071, 0x20080464c2000008bf59072, 0x20080464c2000008bf59073,
   0x20080464c2000008bf59074, 0x20080464c2000008bf59075, 0x20080464c2000008bf59091,
   0x20080464c2000008bf59092, 0x20080464c2000008bf59093, 0x20080464c2000008bf5907b,
   0x20080464c2000008bf5907c, 0x20080464c2000008bf5907d, 0x20080464c2000008bf590be,
   0x20080464c2000008bfd9051],
  [0x800000008000000000024189, 0x80000000800000000002418a, 0x800000008000020020024083,
   0x800000008000000000024086, 0x800000008000000000024087, 0x800000008000000000024088],
  [0x80000000000000000000043e, 0x80000000000000000000043f, 0x8000000000000000000000dc],
  [0x800000000000000000000454, 0x800000000000000000000456, 0x201000000000000000001a,
   0x80000000000000000000009f, 0x8000000000000000000000a0, 0x8000000000000000000000a1,
   0x8000000000000000000000a2, 0x8000000000000000000000a3, 0x8000000000000000000000a4,
   0x8000000000000000000000a5, 0x8000000000000000000000a6, 0x8000000000000000000000a7],
  [0x8000000000000000000004d5, 0x8000000000000000000004d6, 0x808000000000000000020012,
   0x808000000000000000020013, 0x808000000000000000020011, 0x820052, 0x820053, 0x820051],
  [0x800000000000000000000414, 0x800000000000000000000415, 0x8000000000000000000009c,
   0x800000000000000000080051],
  [0x8004008081084000000041dc, 0x800400808108400000004047, 0x800400c0810840000000407e,
   0x800400c0810840000000407f, 0x800400c0810840000800400f, 0x800400c08108400008004010,
   0x800400c08108400008004079, 0x800400c0810840000800407a, 0x800400c08108400008004038,
   0x800400c08108400008004039, 0x800400c6cd2840008be05021, 0x800400c6cd2840008be05022,
   0x800400c6cd2840008be05023, 0x800400c6cd2840008be05024, 0x800400c6cd2840008be05025,
   0x800400c6cd2840008be05026, 0x800400c6cd2840008be05027, 0x800400c6cd2840008be05028,
   0x800400c6cd2840008be05029, 0x800400c6cd2840008be0502a, 0x800400c6cd2840008be0502b,
   0x800400c6cd2840008be0502c, 0x800400c6cd2840008be0502d, 0x800400c6cd2840008be0502e,
   0x800400c6cd2840008be0502f, 0x800400c6cd2840008be05030, 0x800400c6cd2840008be05031,
   0x800400c6cd2840008be05032, 0x800400c6cd2840008be05033, 0x800400c6cd2840008be05034,
   0x800400c6cd2840008be05035, 0x800400c6cd2840008be05036, 0x800400c6cd2840008be05037,
   0x800400c08108400008004016, 0x800400c08108400008004017, 0x800400c08108400008004018,
   0x800400c08108400008004019, 0x820400c6cd2840008be5500b, 0x820400c6cd2840008be5500c,
   0x820400c6cd2840008be5500d, 0x820400c6cd2840008be5500e, 0x820400c6cd2840008bf5d076,
   0x820400c6cd2840008bf5d077, 0x820400c6cd2840008bf5d078, 0x820400c6cd2840008bf5d0d2,
   0x820400c6cd2840008bf5d0d3, 0x820400c6cd2840008bf5d0d4, 0x820400c6cd2840008bf5d08d,
   0x820400c6cd2840008bf5d08e, 0x820400c6cd2840008bf5d08f, 0x820400c6cd2840008bf5d090,
   0x820400c6cd2840008bf5d06d, 0x820400c6cd2840008bf5d06e, 0x820400c6cd2840008bf5d06f,
   0x820400c6cd2840008bf5d070, 0x820400c6cd2840008bf5d071, 0x820400c6cd2840008bf5d072,
   0x820400c6cd2840008bf5d073, 0x820400c6cd2840008bf5d074, 0x820400c6cd2840008bf5d075,
   0x820400c6cd2840008bf5d091, 0x820400c6cd2840008bf5d092, 0x820400c6cd2840008bf5d093,
   0x820400c6cd2840008bf5d07b, 0x820400c6cd2840008bf5d07c, 0x820400c6cd2840008bf5d07d,
   0x820400c6cd2840008bf5d0be, 0x820400c6cd2840008bfdd051],
  [0x800000000000000000000455, 0x80000000000000000000009f, 0x8000000000000000000000a0,
   0x8000000000000000000000a1, 0x8000000000000000000000a2, 0x8000000000000000000000a3,
   0x8000000000000000000000a4, 0x8000000000000000000000a5, 0x8000000000000000000000a6,
   0x8000000000000000000000a7],
  [0x201000000000000000011a, 0x24052, 0x24053, 0x24051]
]

/-- Items of states 72 to 83. -/
def itemRows6 : List (List Nat) := [
  [0x80840080810a400000024295, 0x80840080810a400000024051],
  [0x8a8400c6cd2a40009bf7d292, 0x8a8400c6cd2a40009bf7d293, 0x80840080810a400000024297,
   0x8a8400c6cd2a40009bffd051],
  [0x80840080810a400000024299, 0x80840080810a400000024094, 0x80840080810a400000024095,
   0x80840080810a400000024096, 0x80840080810a400000024097, 0x88840080810a400010024047,
   0x8a8400c6cd2a40009bffd051, 0x888400c0810a40001002407e, 0x888400c0810a40001002407f,
   0x888400c0810a40001802400f, 0x888400c0810a400018024010, 0x888400c0810a400018024079,
   0x888400c0810a40001802407a, 0x888400c0810a400018024038, 0x888400c0810a400018024039,
   0x888400c6cd2a40009be25021, 0x888400c6cd2a40009be25022, 0x888400c6cd2a40009be25023,
   0x888400c6cd2a40009be25024, 0x888400c6cd2a40009be25025, 0x888400c6cd2a40009be25026,
   0x888400c6cd2a40009be25027, 0x888400c6cd2a40009be25028, 0x888400c6cd2a40009be25029,
   0x888400c6cd2a40009be2502a, 0x888400c6cd2a40009be2502b, 0x888400c6cd2a40009be2502c,
   0x888400c6cd2a40009be2502d, 0x888400c6cd2a40009be2502e, 0x888400c6cd2a40009be2502f,
   0x888400c6cd2a40009be25030, 0x888400c6cd2a40009be25031, 0x888400c6cd2a40009be25032,
   0x888400c6cd2a40009be25033, 0x888400c6cd2a40009be25034, 0x888400c6cd2a40009be25035,
   0x888400c6cd2a40009be25036, 0x888400c6cd2a40009be25037, 0x888400c0810a400018024016,
   0x888400c0810a400018024017, 0x888400c0810a400018024018, 0x888400c0810a400018024019,
   0x8a8400c6cd2a40009be7500b, 0x8a8400c6cd2a40009be7500c, 0x8a8400c6cd2a40009be7500d,
   0x8a8400c6cd2a40009be7500e, 0x8a8400c6cd2a40009bf7d076, 0x8a8400c6cd2a40009bf7d077,
   0x8a8400c6cd2a40009bf7d078, 0x8a8400c6cd2a40009bf7d0d2, 0x8a8400c6cd2a40009bf7d0d3,
   0x8a8400c6cd2a40009bf7d0d4, 0x8a8400c6cd2a40009bf7d08d, 0x8a8400c6cd2a40009bf7d08e,
   0x8a8400c6cd2a40009bf7d08f, 0x8a8400c6cd2a40009bf7d090, 0x8a8400c6cd2a40009bf7d06d,
   0x8a8400c6cd2a40009bf7d06e, 0x8a8400c6cd2a40009bf7d06f, 0x8a8400c6cd2a40009bf7d070,
   0x8a8400c6cd2a40009bf7d071, 0x8a8400c6cd2a40009bf7d072, 0x8a8400c6cd2a40009bf7d073,
   0x8a8400c6cd2a40009bf7d074, 0x8a8400c6cd2a40009bf7d075, 0x8a8400c6cd2a40009bf7d091,
   0x8a8400c6cd2a40009bf7d092, 0x8a8400c6cd2a40009bf7d093, 0x8a8400c6cd2a40009bf7d07b,
   0x8a8400c6cd2a40009bf7d07c, 0x8a8400c6cd2a40009bf7d07d, 0x8a8400c6cd2a40009bf7d0be],
  [0x8004008081004000000044a3, 0x8004008081004000000044a4, 0x8004008081004000000044a5,
   0x8004008081004000000044a6, 0x8004008081084000000040dc, 0x80040080810040000000404d,
   0x80040080810040000000404e],
  [0x80040080810040000000449f, 0x8004008081004000000044a1, 0x80040080810040000000404d,
   0x80040080810040000000404e],
  [0x80840080810840000000414c, 0x8084008081084000000240c5, 0x8084008081084000000240c6,
   0x80840881b14c4008000240c3, 0x80840881b14c4008000240c4, 0x80840881b14c4008000240ca,
   0x80840881b14c4008000240cb, 0x80840881b14c4008000240cc, 0x80840881b14c4008000240cd,
   0x80840881b14c4008000240ce, 0x88840881b14c400810024091, 0x88840881b14c400810024092,
   0x88840881b14c400810024093, 0x88840881b14c4008100a4051],
  [0x808000000000000000020113, 0x8000000000000000000004d7, 0x8000000000000000000004d8,
   0x8000000000000000000000dc],
  [0x80040080811040000002424b, 0x800400808110400000024047, 0x800400c0811040000002407e,
   0x800400c0811040000002407f, 0x800400c0811040000802400f, 0x800400c08110400008024010,
   0x800400c08110400008024079, 0x800400c0811040000802407a, 0x800400c08110400008024038,
   0x800400c08110400008024039, 0x800400c6cd3040008be25021, 0x800400c6cd3040008be25022,
   0x800400c6cd3040008be25023, 0x800400c6cd3040008be25024, 0x800400c6cd3040008be25025,
   0x800400c6cd3040008be25026, 0x800400c6cd3040008be25027, 0x800400c6cd3040008be25028,
   0x800400c6cd3040008be25029, 0x800400c6cd3040008be2502a, 0x800400c6cd3040008be2502b,
   0x800400c6cd3040008be2502c, 0x800400c6cd3040008be2502d, 0x800400c6cd3040008be2502e,
   0x800400c6cd3040008be2502f, 0x800400c6cd3040008be25030, 0x800400c6cd3040008be25031,
   0x800400c6cd3040008be25032, 0x800400c6cd3040008be25033, 0x800400c6cd3040008be25034,
   0x800400c6cd3040008be25035, 0x800400c6cd3040008be25036, 0x800400c6cd3040008be25037,
   0x800400c08110400008024016, 0x800400c08110400008024017, 0x800400c08110400008024018,
   0x800400c08110400008024019, 0x820400c6cd3040008be7500b, 0x820400c6cd3040008be7500c,
   0x820400c6cd3040008be7500d, 0x820400c6cd3040008be7500e, 0x820400c6cd3040008bf7d076,
   0x820400c6cd3040008bf7d077, 0x820400c6cd3040008bf7d078, 0x820400c6cd3040008bf7d0d2,
   0x820400c6cd3040008bf7d0d3, 0x820400c6cd3040008bf7d0d4, 0x820400c6cd3040008bf7d08d,
   0x820400c6cd3040008bf7d08e, 0x820400c6cd3040008bf7d08f, 0x820400c6cd3040008bf7d090,
   0x820400c6cd3040008bf7d06d, 0x820400c6cd3040008bf7d06e, 0x820400c6cd3040008bf7d06f,
   0x820400c6cd3040008bf7d070, 0x820400c6cd3040008bf7d071, 0x820400c6cd3040008bf7d072,
   0x820400c6cd3040008bf7d073, 0x820400c6cd3040008bf7d074, 0x820400c6cd3040008bf7d075,
   0x820400c6cd3040008bf7d091, 0x820400c6cd3040008bf7d092, 0x820400c6cd3040008bf7d093,
   0x820400c6cd3040008bf7d07b, 0x820400c6cd3040008bf7d07c, 0x820400c6cd3040008bf7d07d,
   0x820400c6cd3040008bf7d0be, 0x820400c6cd3040008bffd051],
  [0x281000008001000002031d, 0x40ad, 0x40ae, 0x40af, 0x40b0, 0x40b1, 0x40b2, 0x40b3, 0x40b4,
   0x20100000000000000000c7, 0x4008081004000000040a8, 0x4008081004000000040a9, 0x40080810040000000409f,
   0x4008081004000000040a0, 0x4008081004000000040a1, 0x4008081004000000040a2, 0x4008081004000000040a3,
   0x4008081004000000040a4, 0x4008081004000000040a5, 0x4008081004000000040a6, 0x4008081004000000040a7],
  [0x88c488d7fd7e720cbbe2532e, 0x88c488d7fd7e720cbbe25330, 0x88c488d7fd7e720cbbe25332, 0x2404a, 0x2404b,
   0x40ad, 0x40ae, 0x40af, 0x40b0, 0x40b1, 0x40b2, 0x40b3, 0x40b4, 0x24047, 0x20100000000000000000c7,
   0x4008081004000000040a8, 0x4008081004000000040a9, 0x40000000000002407e, 0x40000000000002407f,
   0x40080810040000000409f, 0x4008081004000000040a0, 0x4008081004000000040a1, 0x4008081004000000040a2,
   0x4008081004000000040a3, 0x4008081004000000040a4, 0x4008081004000000040a5, 0x4008081004000000040a6,
   0x4008081004000000040a7, 0x40000000000802400f, 0x400000000008024010, 0x400000000008024079,
   0x40000000000802407a, 0x400000000008024038, 0x400000000008024039, 0x464c2000008be25021,
   0x464c2000008be25022, 0x464c2000008be25023, 0x464c2000008be25024, 0x464c2000008be25025,
   0x464c2000008be25026, 0x464c2000008be25027, 0x464c2000008be25028, 0x464c2000008be25029,
   0x464c2000008be2502a, 0x464c2000008be2502b, 0x464c2000008be2502c, 0x464c2000008be2502d,
   0x464c2000008be2502e, 0x464c2000008be2502f, 0x464c2000008be25030, 0x464c2000008be25031,
   0x464c2000008be25032, 0x464c2000008be25033, 0x464c2000008be25034, 0x464c2000008be25035,
   0x464c2000008be25036, 0x464c2000008be25037, 0x400000000008024016, 0x400000000008024017,
   0x400000000008024018, 0x400000000008024019, 0x20000464c2000008be7500b, 0x20000464c2000008be7500c,
   0x20000464c2000008be7500d, 0x20000464c2000008be7500e, 0x20000464c2000008bf7d076,
   0x20000464c2000008bf7d077, 0x20000464c2000008bf7d078, 0x20000464c2000008bf7d0d2,
   0x20000464c2000008bf7d0d3, 0x20000464c2000008bf7d0d4, 0x20000464c2000008bf7d08d,
   0x20000464c2000008bf7d08e, 0x20000464c2000008bf7d08f, 0x20000464c2000008bf7d090,
   0x20000464c2000008bf7d06d, 0x20000464c2000008bf7d06e, 0x20000464c2000008bf7d06f,
   0x20000464c2000008bf7d070, 0x20000464c2000008bf7d071, 0x20000464c2000008bf7d072,
   0x20000464c2000008bf7d073, 0x20000464c2000008bf7d074, 0x20000464c2000008bf7d075,
   0x20000464c2000008bf7d091, 0x20000464c2000008bf7d092, 0x20000464c2000008bf7d093,
   0x20000464c2000008bf7d07b, 0x20000464c2000008bf7d07c, 0x20000464c2000008bf7d07d,
   0x20000464c2000008bf7d0be, 0x20000464c2000008bffd051],
  [0x88c488d7fd7e720cbbe25337, 0x2000000000000000805000b, 0x2000000000000000805000c,
   0x2000000000000000805000d, 0x2000000000000000805000e, 0x20000000000000008158076,
   0x20000000000000008158077, 0x20000000000000008158078, 0x200000000000000081580d2,
   0x200000000000000081580d3, 0x200000000000000081580d4, 0x2000000000000000815808d,
   0x2000000000000000815808e, 0x2000000000000000815808f, 0x20000000000000008158090,
   0x2000000000000000815806d, 0x2000000000000000815806e, 0x2000000000000000815806f,
   0x20000000000000008158070, 0x20000000000000008158071, 0x20000000000000008158072,
   0x20000000000000008158073, 0x20000000000000008158074, 0x20000000000000008158075,
   0x20000000000000008158091, 0x20000000000000008158092, 0x20000000000000008158093,
   0x2000000000000000815807b, 0x2000000000000000815807c, 0x2000000000000000815807d,
   0x200000000000000081580be, 0x200000000000000081d8051],
  [0x88c488d7fd7e720cbbe2532f, 0x88c488d7fd7e720cbbe25331, 0x88c488d7fd7e720cbbe25333,
   0x88c488d7fd7e720cbbe25335, 0x88c488d7fd7e720cbbe25091, 0x88c488d7fd7e720cbbe25092,
   0x88c488d7fd7e720cbbe25093, 0x88c488d7fd7e720cbbea5051]
]

/-- Items of states 84 to 95. -/
def itemRows7 : List (List Nat) := [
  [0x88c488d1b15e720c38024316, 0x88c488d1b15e720c38024318, 0x40000000003000000001db, 0x200000000044,
   0x40000000003000000000d9],
  [0x200000000144, 0x200000000047, 0x40000020000000007e, 0x40000020000000007f, 0x40000020000800000f,
   0x400000200008000010, 0x400000200008000079, 0x40000020000800007a, 0x400000200008000038,
   0x400000200008000039, 0x464c2020008be01021, 0x464c2020008be01022, 0x464c2020008be01023,
   0x464c2020008be01024, 0x464c2020008be01025, 0x464c2020008be01026, 0x464c2020008be01027,
   0x464c2020008be01028, 0x464c2020008be01029, 0x464c2020008be0102a, 0x464c2020008be0102b,
   0x464c2020008be0102c, 0x464c2020008be0102d, 0x464c2020008be0102e, 0x464c2020008be0102f,
   0x464c2020008be01030, 0x464c2020008be01031, 0x464c2020008be01032, 0x464c2020008be01033,
   0x464c2020008be01034, 0x464c2020008be01035, 0x464c2020008be01036, 0x464c2020008be01037,
   0x400000200008000016, 0x400000200008000017, 0x400000200008000018, 0x400000200008000019,
   0x20000464c2020008be5100b, 0x20000464c2020008be5100c, 0x20000464c2020008be5100d,
   0x20000464c2020008be5100e, 0x20000464c2020008bf59076, 0x20000464c2020008bf59077,
   0x20000464c2020008bf59078, 0x20000464c2020008bf590d2, 0x20000464c2020008bf590d3,
   0x20000464c2020008bf590d4, 0x20000464c2020008bf5908d, 0x20000464c2020008bf5908e,
   0x20000464c2020008bf5908f, 0x20000464c2020008bf59090, 0x20000464c2020008bf5906d,
   0x20000464c2020008bf5906e, 0x20000464c2020008bf5906f, 0x20000464c2020008bf59070,
   0x20000464c2020008bf59071, 0x20000464c2020008bf59072, 0x20000464c2020008bf59073,
   0x20000464c2020008bf59074, 0x20000464c2020008bf59075, 0x20000464c2020008bf59091,
   0x20000464c2020008bf59092, 0x20000464c2020008bf59093, 0x20000464c2020008bf5907b,
   0x20000464c2020008bf5907c, 0x20000464c2020008bf5907d, 0x20000464c2020008bf590be,
   0x20000464c2020008bfd9051],
  [0x800000008000000000024289, 0x800000008000000000024086, 0x800000008000000000024087,
   0x800000008000000000024088],
  [0x800000008000020020024183, 0x800000008000020020024051],
  [0x80000000800000000002428c, 0x800000008000000000024089, 0x80000000800000000002408a,
   0x800000008000020420024047, 0x80000040800002042002407e, 0x80000040800002042002407f,
   0x80000040800002042802400f, 0x800000408000020428024010, 0x800000408000020428024079,
   0x80000040800002042802407a, 0x800000408000020428024038, 0x800000408000020428024039,
   0x80000046cc200204abe25021, 0x80000046cc200204abe25022, 0x80000046cc200204abe25023,
   0x80000046cc200204abe25024, 0x80000046cc200204abe25025, 0x80000046cc200204abe25026,
   0x80000046cc200204abe25027, 0x80000046cc200204abe25028, 0x80000046cc200204abe25029,
   0x80000046cc200204abe2502a, 0x80000046cc200204abe2502b, 0x80000046cc200204abe2502c,
   0x80000046cc200204abe2502d, 0x80000046cc200204abe2502e, 0x80000046cc200204abe2502f,
   0x80000046cc200204abe25030, 0x80000046cc200204abe25031, 0x80000046cc200204abe25032,
   0x80000046cc200204abe25033, 0x80000046cc200204abe25034, 0x80000046cc200204abe25035,
   0x80000046cc200204abe25036, 0x80000046cc200204abe25037, 0x800000408000020428024016,
   0x800000408000020428024017, 0x800000408000020428024018, 0x800000408000020428024019,
   0x82000046cc200204abe7500b, 0x82000046cc200204abe7500c, 0x82000046cc200204abe7500d,
   0x82000046cc200204abe7500e, 0x82000046cc200204abf7d076, 0x82000046cc200204abf7d077,
   0x82000046cc200204abf7d078, 0x82000046cc200204abf7d0d2, 0x82000046cc200204abf7d0d3,
   0x82000046cc200204abf7d0d4, 0x82000046cc200204abf7d08d, 0x82000046cc200204abf7d08e,
   0x82000046cc200204abf7d08f, 0x82000046cc200204abf7d090, 0x82000046cc200204abf7d06d,
   0x82000046cc200204abf7d06e, 0x82000046cc200204abf7d06f, 0x82000046cc200204abf7d070,
   0x82000046cc200204abf7d071, 0x82000046cc200204abf7d072, 0x82000046cc200204abf7d073,
   0x82000046cc200204abf7d074, 0x82000046cc200204abf7d075, 0x82000046cc200204abf7d091,
   0x82000046cc200204abf7d092, 0x82000046cc200204abf7d093, 0x82000046cc200204abf7d07b,
   0x82000046cc200204abf7d07c, 0x82000046cc200204abf7d07d, 0x82000046cc200204abf7d0be,
   0x82000046cc200204abffd051],
  [0x800000000000000000000554, 0x80000000000000000000009f, 0x8000000000000000000000a0,
   0x8000000000000000000000a1, 0x8000000000000000000000a2, 0x8000000000000000000000a3,
   0x8000000000000000000000a4, 0x8000000000000000000000a5, 0x8000000000000000000000a6,
   0x8000000000000000000000a7],
  [0x808000000000000000020113, 0x8000000000000000000005d5, 0x8000000000000000000005d6,
   0x8000000000000000000000dc],
  [0x800000000000000000000514, 0x800000000000000000000051],
  [0x8004008081004000000045a3, 0x8004008081004000000045a5, 0x80040080810040000000404d,
   0x80040080810040000000404e],
  [0x809408a1b14c4008000241ca, 0x809408a1b14c4008000241cb, 0x809408a1b14c4008000240bf,
   0x809408a1b14c4008000240c0, 0x809408a1b14c400800024051],
  [0x80840881b14c4008000241c4, 0x8084008081084000000241c5, 0x8000000000000000000205a,
   0x8000000000000000000205b, 0x8000000000000000000205c, 0x8000000000000000000205d,
   0x8000000000000000000205e, 0x100000000000005f, 0x1000000000000060, 0x1000000000000061,
   0x1000000000000062, 0x1000000000000063, 0x1000000000000064, 0x1000000000000065],
  [0x809408a1b14c4008000241cc, 0x809408a1b14c4008000241cd, 0x809408a1b14c4008000241ce, 0x40ad, 0x40ae,
   0x40af, 0x40b0, 0x40b1, 0x40b2, 0x40b3, 0x40b4, 0x80130440008000040c3, 0x80130440008000040c4,
   0x20100000000000000000c7, 0x4008081004000000040a8, 0x4008081004000000040a9, 0x80130440008000040ca,
   0x80130440008000040cb, 0x80130440008000040cc, 0x80130440008000040cd, 0x80130440008000040ce,
   0x40080810040000000409f, 0x4008081004000000040a0, 0x4008081004000000040a1, 0x4008081004000000040a2,
   0x4008081004000000040a3, 0x4008081004000000040a4, 0x4008081004000000040a5, 0x4008081004000000040a6,
   0x4008081004000000040a7, 0x80008013044000810004091, 0x80008013044000810004092,
   0x80008013044000810004093, 0x80008013044000810084051]
]

/-- Items of states 96 to 107. -/
def itemRows8 : List (List Nat) := [
  [0x80040080810040000000424d, 0x80040080810040000000424e, 0x80040080811040000002404a,
   0x80040080811040000002404b, 0x800400808110400000024047, 0x800400c0811040000002407e,
   0x800400c0811040000002407f, 0x800400c0811040000802400f, 0x800400c08110400008024010,
   0x800400c08110400008024079, 0x800400c0811040000802407a, 0x800400c08110400008024038,
   0x800400c08110400008024039, 0x800400c6cd3040008be25021, 0x800400c6cd3040008be25022,
   0x800400c6cd3040008be25023, 0x800400c6cd3040008be25024, 0x800400c6cd3040008be25025,
   0x800400c6cd3040008be25026, 0x800400c6cd3040008be25027, 0x800400c6cd3040008be25028,
   0x800400c6cd3040008be25029, 0x800400c6cd3040008be2502a, 0x800400c6cd3040008be2502b,
   0x800400c6cd3040008be2502c, 0x800400c6cd3040008be2502d, 0x800400c6cd3040008be2502e,
   0x800400c6cd3040008be2502f, 0x800400c6cd3040008be25030, 0x800400c6cd3040008be25031,
   0x800400c6cd3040008be25032, 0x800400c6cd3040008be25033, 0x800400c6cd3040008be25034,
   0x800400c6cd3040008be25035, 0x800400c6cd3040008be25036, 0x800400c6cd3040008be25037,
   0x800400c08110400008024016, 0x800400c08110400008024017, 0x800400c08110400008024018,
   0x800400c08110400008024019, 0x820400c6cd3040008be7500b, 0x820400c6cd3040008be7500c,
   0x820400c6cd3040008be7500d, 0x820400c6cd3040008be7500e, 0x820400c6cd3040008bf7d076,
   0x820400c6cd3040008bf7d077, 0x820400c6cd3040008bf7d078, 0x820400c6cd3040008bf7d0d2,
   0x820400c6cd3040008bf7d0d3, 0x820400c6cd3040008bf7d0d4, 0x820400c6cd3040008bf7d08d,
   0x820400c6cd3040008bf7d08e, 0x820400c6cd3040008bf7d08f, 0x820400c6cd3040008bf7d090,
   0x820400c6cd3040008bf7d06d, 0x820400c6cd3040008bf7d06e, 0x820400c6cd3040008bf7d06f,
   0x820400c6cd3040008bf7d070, 0x820400c6cd3040008bf7d071, 0x820400c6cd3040008bf7d072,
   0x820400c6cd3040008bf7d073, 0x820400c6cd3040008bf7d074, 0x820400c6cd3040008bf7d075,
   0x820400c6cd3040008bf7d091, 0x820400c6cd3040008bf7d092, 0x820400c6cd3040008bf7d093,
   0x820400c6cd3040008bf7d07b, 0x820400c6cd3040008bf7d07c, 0x820400c6cd3040008bf7d07d,
   0x820400c6cd3040008bf7d0be, 0x820400c6cd3040008bffd051],
  [0x8af4b8f7fd7e720cbbf7f493, 0x8af4b8f7fd7e720cbbf7f051],
  [0x808000000000000000020213, 0x808000000000000000020011, 0x820052, 0x820053, 0x820051],
  [0x824253, 0x824051],
  [0x808000000000000000020211, 0x808000000000000000020047, 0x80800040000000000002007e,
   0x80800040000000000002007f, 0x80800040000000000802000f, 0x808000400000000008020010,
   0x808000400000000008020079, 0x80800040000000000802007a, 0x808000400000000008020038,
   0x808000400000000008020039, 0x808000464c2000008be21021, 0x808000464c2000008be21022,
   0x808000464c2000008be21023, 0x808000464c2000008be21024, 0x808000464c2000008be21025,
   0x808000464c2000008be21026, 0x808000464c2000008be21027, 0x808000464c2000008be21028,
   0x808000464c2000008be21029, 0x808000464c2000008be2102a, 0x808000464c2000008be2102b,
   0x808000464c2000008be2102c, 0x808000464c2000008be2102d, 0x808000464c2000008be2102e,
   0x808000464c2000008be2102f, 0x808000464c2000008be21030, 0x808000464c2000008be21031,
   0x808000464c2000008be21032, 0x808000464c2000008be21033, 0x808000464c2000008be21034,
   0x808000464c2000008be21035, 0x808000464c2000008be21036, 0x808000464c2000008be21037,
   0x808000400000000008020016, 0x808000400000000008020017, 0x808000400000000008020018,
   0x808000400000000008020019, 0x828000464c2000008be7100b, 0x828000464c2000008be7100c,
   0x828000464c2000008be7100d, 0x828000464c2000008be7100e, 0x828000464c2000008bf79076,
   0x828000464c2000008bf79077, 0x828000464c2000008bf79078, 0x828000464c2000008bf790d2,
   0x828000464c2000008bf790d3, 0x828000464c2000008bf790d4, 0x828000464c2000008bf7908d,
   0x828000464c2000008bf7908e, 0x828000464c2000008bf7908f, 0x828000464c2000008bf79090,
   0x828000464c2000008bf7906d, 0x828000464c2000008bf7906e, 0x828000464c2000008bf7906f,
   0x828000464c2000008bf79070, 0x828000464c2000008bf79071, 0x828000464c2000008bf79072,
   0x828000464c2000008bf79073, 0x828000464c2000008bf79074, 0x828000464c2000008bf79075,
   0x828000464c2000008bf79091, 0x828000464c2000008bf79092, 0x828000464c2000008bf79093,
   0x828000464c2000008bf7907b, 0x828000464c2000008bf7907c, 0x828000464c2000008bf7907d,
   0x828000464c2000008bf790be, 0x828000464c2000008bff9051],
  [0x88c488d7fd7e720cbbe25436, 0x8ac488d7fd7e720cbbe7500b, 0x8ac488d7fd7e720cbbe7500c,
   0x8ac488d7fd7e720cbbe7500d, 0x8ac488d7fd7e720cbbe7500e, 0x8ac488d7fd7e720cbbf7d076,
   0x8ac488d7fd7e720cbbf7d077, 0x8ac488d7fd7e720cbbf7d078, 0x8ac488d7fd7e720cbbf7d0d2,
   0x8ac488d7fd7e720cbbf7d0d3, 0x8ac488d7fd7e720cbbf7d0d4, 0x8ac488d7fd7e720cbbf7d08d,
   0x8ac488d7fd7e720cbbf7d08e, 0x8ac488d7fd7e720cbbf7d08f, 0x8ac488d7fd7e720cbbf7d090,
   0x8ac488d7fd7e720cbbf7d06d, 0x8ac488d7fd7e720cbbf7d06e, 0x8ac488d7fd7e720cbbf7d06f,
   0x8ac488d7fd7e720cbbf7d070, 0x8ac488d7fd7e720cbbf7d071, 0x8ac488d7fd7e720cbbf7d072,
   0x8ac488d7fd7e720cbbf7d073, 0x8ac488d7fd7e720cbbf7d074, 0x8ac488d7fd7e720cbbf7d075,
   0x8ac488d7fd7e720cbbf7d091, 0x8ac488d7fd7e720cbbf7d092, 0x8ac488d7fd7e720cbbf7d093,
   0x8ac488d7fd7e720cbbf7d07b, 0x8ac488d7fd7e720cbbf7d07c, 0x8ac488d7fd7e720cbbf7d07d,
   0x8ac488d7fd7e720cbbf7d0be, 0x8ac488d7fd7e720cbbffd051],
  [0x88c488d7fd7e720cbbe2542f, 0x88c488d7fd7e720cbbe25431, 0x88c488d7fd7e720cbbe25433, 0x2404a, 0x2404b,
   0x40ad, 0x40ae, 0x40af, 0x40b0, 0x40b1, 0x40b2, 0x40b3, 0x40b4, 0x24047, 0x20100000000000000000c7,
   0x4008081004000000040a8, 0x4008081004000000040a9, 0x40000000000002407e, 0x40000000000002407f,
   0x40080810040000000409f, 0x4008081004000000040a0, 0x4008081004000000040a1, 0x4008081004000000040a2,
   0x4008081004000000040a3, 0x4008081004000000040a4, 0x4008081004000000040a5, 0x4008081004000000040a6,
   0x4008081004000000040a7, 0x40000000000802400f, 0x400000000008024010, 0x400000000008024079,
   0x40000000000802407a, 0x400000000008024038, 0x400000000008024039, 0x464c2000008be25021,
   0x464c2000008be25022, 0x464c2000008be25023, 0x464c2000008be25024, 0x464c2000008be25025,
   0x464c2000008be25026, 0x464c2000008be25027, 0x464c2000008be25028, 0x464c2000008be25029,
   0x464c2000008be2502a, 0x464c2000008be2502b, 0x464c2000008be2502c, 0x464c2000008be2502d,
   0x464c2000008be2502e, 0x464c2000008be2502f, 0x464c2000008be25030, 0x464c2000008be25031,
   0x464c2000008be25032, 0x464c2000008be25033, 0x464c2000008be25034, 0x464c2000008be25035,
   0x464c2000008be25036, 0x464c2000008be25037, 0x400000000008024016, 0x400000000008024017,
   0x400000000008024018, 0x400000000008024019, 0x20000464c2000008be7500b, 0x20000464c2000008be7500c,
   0x20000464c2000008be7500d, 0x20000464c2000008be7500e, 0x20000464c2000008bf7d076,
   0x20000464c2000008bf7d077, 0x20000464c2000008bf7d078, 0x20000464c2000008bf7d0d2,
   0x20000464c2000008bf7d0d3, 0x20000464c2000008bf7d0d4, 0x20000464c2000008bf7d08d,
   0x20000464c2000008bf7d08e, 0x20000464c2000008bf7d08f, 0x20000464c2000008bf7d090,
   0x20000464c2000008bf7d06d, 0x20000464c2000008bf7d06e, 0x20000464c2000008bf7d06f,
   0x20000464c2000008bf7d070, 0x20000464c2000008bf7d071, 0x20000464c2000008bf7d072,
   0x20000464c2000008bf7d073, 0x20000464c2000008bf7d074, 0x20000464c2000008bf7d075,
   0x20000464c2000008bf7d091, 0x20000464c2000008bf7d092, 0x20000464c2000008bf7d093,
   0x20000464c2000008bf7d07b, 0x20000464c2000008bf7d07c, 0x20000464c2000008bf7d07d,
   0x20000464c2000008bf7d0be, 0x20000464c2000008bffd051],
  [0x40000000003000000003d9, 0x4000000000300000000047, 0x400040000030000000007e, 0x400040000030000000007f,
   0x400040000030000800000f, 0x4000400000300008000010, 0x4000400000300008000079, 0x400040000030000800007a,
   0x4000400000300008000038, 0x4000400000300008000039, 0x4000464c2030008be01021, 0x4000464c2030008be01022,
   0x4000464c2030008be01023, 0x4000464c2030008be01024, 0x4000464c2030008be01025, 0x4000464c2030008be01026,
   0x4000464c2030008be01027, 0x4000464c2030008be01028, 0x4000464c2030008be01029, 0x4000464c2030008be0102a,
   0x4000464c2030008be0102b, 0x4000464c2030008be0102c, 0x4000464c2030008be0102d, 0x4000464c2030008be0102e,
   0x4000464c2030008be0102f, 0x4000464c2030008be01030, 0x4000464c2030008be01031, 0x4000464c2030008be01032,
   0x4000464c2030008be01033, 0x4000464c2030008be01034, 0x4000464c2030008be01035, 0x4000464c2030008be01036,
   0x4000464c2030008be01037, 0x4000400000300008000016, 0x4000400000300008000017, 0x4000400000300008000018,
   0x4000400000300008000019, 0x24000464c2030008be5100b, 0x24000464c2030008be5100c,
   0x24000464c2030008be5100d, 0x24000464c2030008be5100e, 0x24000464c2030008bf59076,
   0x24000464c2030008bf59077, 0x24000464c2030008bf59078, 0x24000464c2030008bf590d2,
   0x24000464c2030008bf590d3, 0x24000464c2030008bf590d4, 0x24000464c2030008bf5908d,
   0x24000464c2030008bf5908e, 0x24000464c2030008bf5908f, 0x24000464c2030008bf59090,
   0x24000464c2030008bf5906d, 0x24000464c2030008bf5906e, 0x24000464c2030008bf5906f,
   0x24000464c2030008bf59070, 0x24000464c2030008bf59071, 0x24000464c2030008bf59072,
   0x24000464c2030008bf59073, 0x24000464c2030008bf59074, 0x24000464c2030008bf59075,
   0x24000464c2030008bf59091, 0x24000464c2030008bf59092, 0x24000464c2030008bf59093,
   0x24000464c2030008bf5907b, 0x24000464c2030008bf5907c, 0x24000464c2030008bf5907d,
   0x24000464c2030008bf590be, 0x24000464c2030008bfd9051],
  [0x809408a1b14c4008000241bf, 0x809408a1b14c400800024051],
  [0x80840881b14c4008000242c4, 0x10002000000000000000ca, 0x10002000000000000000cb,
   0x10002000000000000000cc, 0x10002000000000000000cd, 0x10002000000000000000ce, 0x81000200000000010000091,
   0x81000200000000010000092, 0x81000200000000010000093, 0x81000200000000010080051],
  [0x8000000000000000000215c, 0x8000000000000000000215d, 0x100000000000005f, 0x1000000000000060,
   0x1000000000000061, 0x1000000000000062, 0x1000000000000063, 0x1000000000000064, 0x1000000000000065],
  [0x8084008081084000000242c6, 0x80840881b14c4008000240c3, 0x80840881b14c4008000240c4,
   0x80840881b14c4008000240ca, 0x80840881b14c4008000240cb, 0x80840881b14c4008000240cc,
   0x80840881b14c4008000240cd, 0x80840881b14c4008000240ce, 0x88840881b14c400810024091,
   0x88840881b14c400810024092, 0x88840881b14c400810024093, 0x88840881b14c4008100a4051]
]

/-- Items of states 108 to 119. -/
def itemRows9 : List (List Nat) := [
  [0x80130440008000041c4, 0x809408a1b14c4008000242ce, 0x8000000000000000000205a, 0x8000000000000000000205b,
   0x8000000000000000000205c, 0x8000000000000000000205d, 0x8000000000000000000205e, 0x100000000000005f,
   0x1000000000000060, 0x1000000000000061, 0x1000000000000062, 0x1000000000000063, 0x1000000000000064,
   0x1000000000000065],
  [0x88c488d7fd7e720cbbe25537, 0x8ac488d7fd7e720cbbe7500b, 0x8ac488d7fd7e720cbbe7500c,
   0x8ac488d7fd7e720cbbe7500d, 0x8ac488d7fd7e720cbbe7500e, 0x8ac488d7fd7e720cbbf7d076,
   0x8ac488d7fd7e720cbbf7d077, 0x8ac488d7fd7e720cbbf7d078, 0x8ac488d7fd7e720cbbf7d0d2,
   0x8ac488d7fd7e720cbbf7d0d3, 0x8ac488d7fd7e720cbbf7d0d4, 0x8ac488d7fd7e720cbbf7d08d,
   0x8ac488d7fd7e720cbbf7d08e, 0x8ac488d7fd7e720cbbf7d08f, 0x8ac488d7fd7e720cbbf7d090,
   0x8ac488d7fd7e720cbbf7d06d, 0x8ac488d7fd7e720cbbf7d06e, 0x8ac488d7fd7e720cbbf7d06f,
   0x8ac488d7fd7e720cbbf7d070, 0x8ac488d7fd7e720cbbf7d071, 0x8ac488d7fd7e720cbbf7d072,
   0x8ac488d7fd7e720cbbf7d073, 0x8ac488d7fd7e720cbbf7d074, 0x8ac488d7fd7e720cbbf7d075,
   0x8ac488d7fd7e720cbbf7d091, 0x8ac488d7fd7e720cbbf7d092, 0x8ac488d7fd7e720cbbf7d093,
   0x8ac488d7fd7e720cbbf7d07b, 0x8ac488d7fd7e720cbbf7d07c, 0x8ac488d7fd7e720cbbf7d07d,
   0x8ac488d7fd7e720cbbf7d0be, 0x8ac488d7fd7e720cbbffd051],
  [0x80840881b14c4008000243c4, 0x80840881b14c400800024058, 0x80840881b14c400800024059],
  [0x80840881b14c4008000241c4, 0x8084008081084000000243c6, 0x8000000000000000000205a,
   0x8000000000000000000205b, 0x8000000000000000000205c, 0x8000000000000000000205d,
   0x8000000000000000000205e, 0x100000000000005f, 0x1000000000000060, 0x1000000000000061,
   0x1000000000000062, 0x1000000000000063, 0x1000000000000064, 0x1000000000000065],
  [0x809408a1b14c4008000243cc, 0x809408a1b14c4008000243cd, 0x809408a1b14c4008000240bf,
   0x809408a1b14c4008000240c0, 0x809408a1b14c400800024051],
  [0x80040080810040000000444e, 0x800400808100400000004047, 0x800400c0810040000000407e,
   0x800400c0810040000000407f, 0x800400c0810040000800400f, 0x800400c08100400008004010,
   0x800400c08100400008004079, 0x800400c0810040000800407a, 0x800400c08100400008004038,
   0x800400c08100400008004039, 0x800400c6cd2040008be05021, 0x800400c6cd2040008be05022,
   0x800400c6cd2040008be05023, 0x800400c6cd2040008be05024, 0x800400c6cd2040008be05025,
   0x800400c6cd2040008be05026, 0x800400c6cd2040008be05027, 0x800400c6cd2040008be05028,
   0x800400c6cd2040008be05029, 0x800400c6cd2040008be0502a, 0x800400c6cd2040008be0502b,
   0x800400c6cd2040008be0502c, 0x800400c6cd2040008be0502d, 0x800400c6cd2040008be0502e,
   0x800400c6cd2040008be0502f, 0x800400c6cd2040008be05030, 0x800400c6cd2040008be05031,
   0x800400c6cd2040008be05032, 0x800400c6cd2040008be05033, 0x800400c6cd2040008be05034,
   0x800400c6cd2040008be05035, 0x800400c6cd2040008be05036, 0x800400c6cd2040008be05037,
   0x800400c08100400008004016, 0x800400c08100400008004017, 0x800400c08100400008004018,
   0x800400c08100400008004019, 0x820400c6cd2040008be5500b, 0x820400c6cd2040008be5500c,
   0x820400c6cd2040008be5500d, 0x820400c6cd2040008be5500e, 0x820400c6cd2040008bf5d076,
   0x820400c6cd2040008bf5d077, 0x820400c6cd2040008bf5d078, 0x820400c6cd2040008bf5d0d2,
   0x820400c6cd2040008bf5d0d3, 0x820400c6cd2040008bf5d0d4, 0x820400c6cd2040008bf5d08d,
   0x820400c6cd2040008bf5d08e, 0x820400c6cd2040008bf5d08f, 0x820400c6cd2040008bf5d090,
   0x820400c6cd2040008bf5d06d, 0x820400c6cd2040008bf5d06e, 0x820400c6cd2040008bf5d06f,
   0x820400c6cd2040008bf5d070, 0x820400c6cd2040008bf5d071, 0x820400c6cd2040008bf5d072,
   0x820400c6cd2040008bf5d073, 0x820400c6cd2040008bf5d074, 0x820400c6cd2040008bf5d075,
   0x820400c6cd2040008bf5d091, 0x820400c6cd2040008bf5d092, 0x820400c6cd2040008bf5d093,
   0x820400c6cd2040008bf5d07b, 0x820400c6cd2040008bf5d07c, 0x820400c6cd2040008bf5d07d,
   0x820400c6cd2040008bf5d0be, 0x820400c6cd2040008bfdd051],
  [0x281000008001000002061e, 0x40ad, 0x40ae, 0x40af, 0x40b0, 0x40b1, 0x40b2, 0x40b3, 0x40b4,
   0x20100000000000000000c7, 0x4008081004000000040a8, 0x4008081004000000040a9, 0x40080810040000000409f,
   0x4008081004000000040a0, 0x4008081004000000040a1, 0x4008081004000000040a2, 0x4008081004000000040a3,
   0x4008081004000000040a4, 0x4008081004000000040a5, 0x4008081004000000040a6, 0x4008081004000000040a7],
  [0x80840881b14c400800024158, 0x80840881b14c400800024047, 0x808408c1b14c40080002407e,
   0x808408c1b14c40080002407f, 0x808408c1b14c40080802400f, 0x808408c1b14c400808024010,
   0x808408c1b14c400808024079, 0x808408c1b14c40080802407a, 0x808408c1b14c400808024038,
   0x808408c1b14c400808024039, 0x808408c7fd6c40088be25021, 0x808408c7fd6c40088be25022,
   0x808408c7fd6c40088be25023, 0x808408c7fd6c40088be25024, 0x808408c7fd6c40088be25025,
   0x808408c7fd6c40088be25026, 0x808408c7fd6c40088be25027, 0x808408c7fd6c40088be25028,
   0x808408c7fd6c40088be25029, 0x808408c7fd6c40088be2502a, 0x808408c7fd6c40088be2502b,
   0x808408c7fd6c40088be2502c, 0x808408c7fd6c40088be2502d, 0x808408c7fd6c40088be2502e,
   0x808408c7fd6c40088be2502f, 0x808408c7fd6c40088be25030, 0x808408c7fd6c40088be25031,
   0x808408c7fd6c40088be25032, 0x808408c7fd6c40088be25033, 0x808408c7fd6c40088be25034,
   0x808408c7fd6c40088be25035, 0x808408c7fd6c40088be25036, 0x808408c7fd6c40088be25037,
   0x808408c1b14c400808024016, 0x808408c1b14c400808024017, 0x808408c1b14c400808024018,
   0x808408c1b14c400808024019, 0x828408c7fd6c40088be7500b, 0x828408c7fd6c40088be7500c,
   0x828408c7fd6c40088be7500d, 0x828408c7fd6c40088be7500e, 0x828408c7fd6c40088bf7d076,
   0x828408c7fd6c40088bf7d077, 0x828408c7fd6c40088bf7d078, 0x828408c7fd6c40088bf7d0d2,
   0x828408c7fd6c40088bf7d0d3, 0x828408c7fd6c40088bf7d0d4, 0x828408c7fd6c40088bf7d08d,
   0x828408c7fd6c40088bf7d08e, 0x828408c7fd6c40088bf7d08f, 0x828408c7fd6c40088bf7d090,
   0x828408c7fd6c40088bf7d06d, 0x828408c7fd6c40088bf7d06e, 0x828408c7fd6c40088bf7d06f,
   0x828408c7fd6c40088bf7d070, 0x828408c7fd6c40088bf7d071, 0x828408c7fd6c40088bf7d072,
   0x828408c7fd6c40088bf7d073, 0x828408c7fd6c40088bf7d074, 0x828408c7fd6c40088bf7d075,
   0x828408c7fd6c40088bf7d091, 0x828408c7fd6c40088bf7d092, 0x828408c7fd6c40088bf7d093,
   0x828408c7fd6c40088bf7d07b, 0x828408c7fd6c40088bf7d07c, 0x828408c7fd6c40088bf7d07d,
   0x828408c7fd6c40088bf7d0be, 0x828408c7fd6c40088bffd051],
  [0x80840881b14c400800024259, 0x24052, 0x24053, 0x24051],
  [0x8000000000000000000001b8],
  [0x8000000000000000000001bc],
  [0x8000000000000000000001b9]
]

/-- Items of states 120 to 131. -/
def itemRows10 : List (List Nat) := [
  [0x8000000000000000000001bb],
  [0x8004008081004000000041a8],
  [0x8000000000000000000001ba],
  [0x8000000000000000000001df],
  [0x8000000000000000000001b5],
  [0x8000000000000000000001bd],
  [0x800000000000000000000114, 0x800000000000000000000115],
  [0x800000000000000000000140, 0x800000000000000000000141],
  [0x800000000000000000000155, 0x800000000000000000000157],
  [0x8000000000000000000042b2],
  [0x201000000000000000013d],
  [0x201000000000000000013c]
]

/-- Items of states 132 to 143. -/
def itemRows11 : List (List Nat) := [
  [0x800000008000000000004180],
  [0x201000000000000000013a, 0x201000000000000000013b],
  [0x80000000000000000000023e, 0x80000000000000000000023f],
  [0x800000000000000000000254, 0x800000000000000000000256],
  [0x800000000000000000000243, 0x8000000000000000000019c],
  [0x8af4b8f7fd7e720cbbfff151],
  [0x8000000000000000000002b7],
  [0x8000000000000000000002b6],
  [0x7c03000a000000f20005a1aa],
  [0x7c03000a000000f20005a1ac],
  [0x8af4b8f7fd7e720cbbf7f191, 0x8af4b8f7fd7e720cbbf7f192, 0x8af4b8f7fd7e720cbbf7f193],
  [0x8000000000000000000002d7, 0x8000000000000000000002d8]
]

/-- Items of states 144 to 155. -/
def itemRows12 : List (List Nat) := [
  [0x8004008081004000000241d0],
  [0x8004008081004000000042a7, 0x8004008081004000000241d1],
  [0x281000008001000002011f],
  [0x2810000080010000020120, 0x28100000800100000002c7],
  [0x281000008001000002011d, 0x281000008001000002011e],
  [0x8004008081004000000043a9],
  [0x8000000000000000000043b1],
  [0x8ac488d7fd7e720cbbe7510c, 0x8ac488d7fd7e720cbbe7510d, 0x8ac488d7fd7e720cbbe7510e,
   0x88c488d7fd7e720cbbe25121],
  [0x88c488d1b15e720c38024110, 0x88c488d1b15e720c3002417e],
  [0x88c488d1b15e720c38024139],
  [0x88c488d7fd7e720cbbe25122, 0x88c488d7fd7e720cbbe25123, 0x88c488d7fd7e720cbbe25124,
   0x88c488d7fd7e720cbbe25125, 0x88c488d7fd7e720cbbe25126, 0x88c488d7fd7e720cbbe25127,
   0x88c488d7fd7e720cbbe25128, 0x88c488d7fd7e720cbbe25129, 0x88c488d7fd7e720cbbe2512a,
   0x88c488d7fd7e720cbbe2512b, 0x88c488d7fd7e720cbbe2512c, 0x88c488d7fd7e720cbbe2512d,
   0x88c488d7fd7e720cbbe2512e, 0x88c488d7fd7e720cbbe2512f, 0x88c488d7fd7e720cbbe25130,
   0x88c488d7fd7e720cbbe25131, 0x88c488d7fd7e720cbbe25132, 0x88c488d7fd7e720cbbe25133,
   0x88c488d7fd7e720cbbe25134, 0x88c488d7fd7e720cbbe25135, 0x88c488d7fd7e720cbbe25136,
   0x88c488d7fd7e720cbbe25137, 0x88c488d1b15e720c38024138],
  [0x88c488d1b15e720c38024179]
]

/-- Items of states 156 to 167. -/
def itemRows13 : List (List Nat) := [
  [0x800000000000000000004268, 0x800000000000000000004269, 0x80000000000000000000426a],
  [0x8ac488d7fd7e720cbbf7d18f],
  [0x8ac488d7fd7e720cbbe7510b, 0x8ac488d7fd7e720cbbf7d177, 0x8ac488d7fd7e720cbbf7d178],
  [0x88c488d1b15e720c3802410f],
  [0x8ac488d7fd7e720cbbf7d16d],
  [0x88c48891b15e720c30024147, 0x88c488d1b15e720c3002417f],
  [0x8ac488d7fd7e720cbbf7d1d2],
  [0x8ac488d7fd7e720cbbf7d190],
  [0x8ac488d7fd7e720cbbf7d16e],
  [0x8ac488d7fd7e720cbbf7d176],
  [0x8ac488d7fd7e720cbbf7d171],
  [0x8ac488d7fd7e720cbbf7d170]
]

/-- Items of states 168 to 179. -/
def itemRows14 : List (List Nat) := [
  [0x8ac488d7fd7e720cbbf7d172],
  [0x8ac488d7fd7e720cbbf7d16f],
  [0x8ac488d7fd7e720cbbf7d17d],
  [0x8ac488d7fd7e720cbbf7d17b],
  [0x8ac488d7fd7e720cbbf7d17c],
  [0x8ac488d7fd7e720cbbf7d1be],
  [0x201000000000000000023b],
  [0x8000000000000000000043ae],
  [0x8000000000000000000003d5, 0x8000000000000000000003d6],
  [0x800000000000000000000314, 0x800000000000000000000315],
  [0x8000000000000000000029c],
  [0x800000000000000000000342]
]

/-- Items of states 180 to 191. -/
def itemRows15 : List (List Nat) := [
  [0x8a8400c6cd2a40009bf7d191, 0x8a8400c6cd2a40009bf7d192, 0x8a8400c6cd2a40009bf7d193,
   0x80840080810a400000024197],
  [0x80840080810a400000024198],
  [0x80840080810a400000024199, 0x80840080810a40000000419b],
  [0x80840080810a40000000419a],
  [0x80040080811040000002414a],
  [0x2414b, 0x8004008081004000000242cf],
  [0x281000008001000002021d],
  [0x88c488d7fd7e720cbbe25228, 0x88c488d7fd7e720cbbe25229],
  [0x88c488d7fd7e720cbbe2522b],
  [0x88c488d7fd7e720cbbe2522d, 0x88c488d7fd7e720cbbe2522f, 0x88c488d7fd7e720cbbe25231,
   0x88c488d7fd7e720cbbe25233, 0x88c488d7fd7e720cbbe25235, 0x88c488d7fd7e720cbbe25237],
  [0x88c488d7fd7e720cbbe2522c],
  [0x2414b, 0x8ac488d7fd7e720cbbf7d28d]
]

/-- Items of states 192 to 203. -/
def itemRows16 : List (List Nat) := [
  [0x8ac488d7fd7e720cbbf7d28e],
  [0x8ac488d7fd7e720cbbf7d2d3],
  [0x8ac488d7fd7e720cbbf7d2d4],
  [0x40000000003000000001da],
  [0x8ac488d7fd7e720cbbf7d273],
  [0x88c488d1b15e720c3802427a],
  [0x8ac488d7fd7e720cbbf7d274],
  [0x8ac488d7fd7e720cbbf7d275],
  [0x80000000800000000002418b],
  [0x800000008000000000004380, 0x80000000800000000002418c],
  [0x8000000000000000000044ad],
  [0x800000000000000000000440]
]

/-- Items of states 204 to 215. -/
def itemRows17 : List (List Nat) := [
  [0x8000000000000000000004b6],
  [0x800000000000000000000457],
  [0x80840080810a400000024296],
  [0x8004008081004000000044a0],
  [0x80040080810040000000414d, 0x80040080810040000000414e],
  [0x8af4b8f7fd7e720cbbf7f392, 0x8af4b8f7fd7e720cbbf7f393],
  [0x808000000000000000020112],
  [0x824152],
  [0x808000000000000000020111, 0x820153],
  [0x8004008081004000000243d1],
  [0x8004008081004000000243cf],
  [0x2810000080010000020320]
]

/-- Items of states 216 to 227. -/
def itemRows18 : List (List Nat) := [
  [0x281000008001000002031e, 0x24153],
  [0x8ac488d7fd7e720cbbe7530c, 0x8ac488d7fd7e720cbbf7d177, 0x8ac488d7fd7e720cbbf7d178],
  [0x8ac488d7fd7e720cbbe7530d, 0x8ac488d7fd7e720cbbf7d177, 0x8ac488d7fd7e720cbbf7d178],
  [0x8ac488d7fd7e720cbbe7530e, 0x8ac488d7fd7e720cbbf7d177, 0x8ac488d7fd7e720cbbf7d178],
  [0x88c488d1b15e720c38024310],
  [0x8ac488d7fd7e720cbbe7510c, 0x8ac488d7fd7e720cbbe7510d, 0x8ac488d7fd7e720cbbe7510e,
   0x88c488d7fd7e720cbbe25323],
  [0x8ac488d7fd7e720cbbe7510c, 0x8ac488d7fd7e720cbbe7510d, 0x8ac488d7fd7e720cbbe7510e,
   0x88c488d7fd7e720cbbe25324],
  [0x8ac488d7fd7e720cbbe7510c, 0x8ac488d7fd7e720cbbe7510d, 0x8ac488d7fd7e720cbbe7510e,
   0x88c488d7fd7e720cbbe25326],
  [0x8ac488d7fd7e720cbbe7510c, 0x8ac488d7fd7e720cbbe7510d, 0x8ac488d7fd7e720cbbe7510e,
   0x88c488d7fd7e720cbbe25322],
  [0x8ac488d7fd7e720cbbe7510c, 0x8ac488d7fd7e720cbbe7510d, 0x8ac488d7fd7e720cbbe7510e,
   0x88c488d7fd7e720cbbe25325],
  [0x8ac488d7fd7e720cbbe7510c, 0x8ac488d7fd7e720cbbe7510d, 0x8ac488d7fd7e720cbbe7510e,
   0x88c488d7fd7e720cbbe25327],
  [0x2000000000000000805010c, 0x2000000000000000805010d, 0x2000000000000000805010e,
   0x88c488d7fd7e720cbbe25336]
]

/-- Items of states 228 to 239. -/
def itemRows19 : List (List Nat) := [
  [0x88c488d7fd7e720cbbe25334],
  [0x88c488d7fd7e720cbbe25329],
  [0x88c488d7fd7e720cbbe25328],
  [0x8ac488d7fd7e720cbbe7510c, 0x8ac488d7fd7e720cbbe7510d, 0x8ac488d7fd7e720cbbe7510e,
   0x88c488d7fd7e720cbbe2532a],
  [0x88c488d7fd7e720cbbe2532d],
  [0x800000000000000000004469],
  [0x80000000000000000000446a],
  [0x8ac488d7fd7e720cbbf7d377],
  [0x8ac488d7fd7e720cbbf7d378],
  [0x88c488d1b15e720c38024110, 0x88c488d1b15e720c3002437f],
  [0x8ac488d7fd7e720cbbf7d38d],
  [0x8ac488d7fd7e720cbbf7d38e]
]

/-- Items of states 240 to 251. -/
def itemRows20 : List (List Nat) := [
  [0x88c488d1b15e720c38024317],
  [0x40000000003000000002db],
  [0x88c488d1b15e720c38024319],
  [0x40000000003000000002d9],
  [0x80000000800000000002428a],
  [0x800000008000000000024186],
  [0x800000008000000000024188],
  [0x80000000000000000000053e],
  [0x800000000000000000000556],
  [0x800000000000000000000515, 0x8000000000000000000019c],
  [0x8004008081084000000042dc],
  [0x800000000000000000000555]
]

/-- Items of states 252 to 263. -/
def itemRows21 : List (List Nat) := [
  [0x201000000000000000021a, 0x24153],
  [0x80840080810a400000024395],
  [0x80840080810a400000024397],
  [0x80840080810a400000024399],
  [0x8004008081004000000045a4],
  [0x80040080810040000000459f],
  [0x80840080810840000000424c, 0x8084008081084000000241c6],
  [0x80840881b14c4008000241c3],
  [0x8000000000000000000005d7],
  [0x80040080811040000002434b],
  [0x281000008001000002041e],
  [0x281000008001000002041d]
]

/-- Items of states 264 to 275. -/
def itemRows22 : List (List Nat) := [
  [0x88c488d7fd7e720cbbe25430, 0x2414b],
  [0x88c488d7fd7e720cbbe25432],
  [0x88c488d7fd7e720cbbe2542e],
  [0x88c488d7fd7e720cbbe25429],
  [0x2000000000000000805010c, 0x2000000000000000805010d, 0x2000000000000000805010e,
   0x88c488d7fd7e720cbbe25437],
  [0x88c488d7fd7e720cbbe25435],
  [0x88c488d1b15e720c38024416],
  [0x88c488d1b15e720c38024418],
  [0x88c488d1b15e720c38024417],
  [0x200000000244],
  [0x800000008000000000024389],
  [0x800000008000020020024283]
]

/-- Items of states 276 to 287. -/
def itemRows23 : List (List Nat) := [
  [0x80000000800000000002438c],
  [0x800000000000000000000654],
  [0x8000000000000000000006d5],
  [0x800000000000000000000614],
  [0x201000000000000000031a],
  [0x8004008081004000000046a3],
  [0x809408a1b14c4008000241c0],
  [0x809408a1b14c4008000242ca],
  [0x8000000000000000000215a],
  [0x8000000000000000000215e],
  [0x1000000000000163, 0x1000000000000164],
  [0x1000000000000165]
]

/-- Items of states 288 to 299. -/
def itemRows24 : List (List Nat) := [
  [0x8000000000000000000215b],
  [0x100000000000015f, 0x1000000000000160],
  [0x1000000000000161, 0x1000000000000162],
  [0x809408a1b14c4008000242cc, 0x809408a1b14c4008000242cd],
  [0x80040080811040000002414b, 0x80040080810040000000434d, 0x80040080810040000000434e],
  [0x8af4b8f7fd7e720cbbf7f593],
  [0x808000000000000000020313],
  [0x824353],
  [0x808000000000000000020311],
  [0x281000008001000002051e],
  [0x281000008001000002051d],
  [0x8ac488d7fd7e720cbbe7510c, 0x8ac488d7fd7e720cbbe7510d, 0x8ac488d7fd7e720cbbe7510e,
   0x88c488d7fd7e720cbbe25536]
]

/-- Items of states 300 to 311. -/
def itemRows25 : List (List Nat) := [
  [0x88c488d7fd7e720cbbe25530],
  [0x88c488d7fd7e720cbbe25532],
  [0x88c488d7fd7e720cbbe25531, 0x2414b],
  [0x88c488d7fd7e720cbbe25533],
  [0x88c488d7fd7e720cbbe2552f],
  [0x88c488d1b15e720c38024516],
  [0x40000000003000000004d9],
  [0x809408a1b14c4008000242bf],
  [0x8000000000000000000225a],
  [0x8000000000000000000225e],
  [0x1000000000000263],
  [0x100000000000025f]
]

/-- Items of states 312 to 323. -/
def itemRows26 : List (List Nat) := [
  [0x8000000000000000000225c],
  [0x8000000000000000000225d],
  [0x1000000000000261],
  [0x809408a1b14c4008000243ce],
  [0x8ac488d7fd7e720cbbe7510c, 0x8ac488d7fd7e720cbbe7510d, 0x8ac488d7fd7e720cbbe7510e,
   0x88c488d7fd7e720cbbe25637],
  [0x88c488d7fd7e720cbbe25631],
  [0x88c488d7fd7e720cbbe25633],
  [0x80840881b14c4008000244c4],
  [0x80840881b14c400800024159],
  [0x8000000000000000000235c],
  [0x809408a1b14c4008000244cc],
  [0x80040080810040000000454e]
]

/-- Items of states 324 to 328. -/
def itemRows27 : List (List Nat) := [
  [0x281000008001000002071e],
  [0x80840881b14c400800024258],
  [0x281000008001000002081e],
  [0x24153, 0x80840881b14c400800024359],
  [0x80840881b14c400800024459]
]

/-- Items of every state, in blocks of 12 states: the production in the lowest 8 bits, the position of the dot in the
next 4, then the lookahead terminals as bits (bit 83 is the end of the input). -/
def itemTable : List (List (List Nat)) :=
  [itemRows0, itemRows1, itemRows2, itemRows3, itemRows4, itemRows5, itemRows6, itemRows7, itemRows8,
   itemRows9, itemRows10, itemRows11, itemRows12, itemRows13, itemRows14, itemRows15, itemRows16,
   itemRows17, itemRows18, itemRows19, itemRows20, itemRows21, itemRows22, itemRows23, itemRows24,
   itemRows25, itemRows26, itemRows27]

/-- For every state the nonterminals that follow a dot in its items, in blocks of 12 states. -/
def ntTable : List (List (List Nat)) := [
  [[10, 19, 20, 31, 57, 58, 60, 61, 62, 68, 74], [18, 36, 43], [57, 58], [29, 55], [19, 31, 57, 58, 60, 62, 68, 74], [59], [29, 51], [71, 72], [14, 15, 29], [57], [36], [6, 7, 11, 16, 17, 23, 29, 38, 39, 40, 41, 42, 50, 51, 63, 73]],
  [[18, 36, 43], [29, 51], [63], [29, 51], [29], [29, 51], [6, 7, 11, 16, 17, 23, 29, 38, 39, 40, 41, 42, 50, 51, 52, 53, 54, 63, 73], [6, 7, 11, 16, 17, 23, 25, 29, 38, 39, 40, 41, 42, 50, 51, 63, 73], [6, 7, 11, 16, 17, 23, 25, 29, 38, 39, 40, 41, 42, 50, 51, 57, 58, 60, 63, 68, 73], [29, 38, 41, 50, 51, 63, 73], [29, 38, 41, 50, 51, 63, 73], [6, 7, 11, 16, 17, 23, 29, 38, 39, 40, 41, 42, 50, 51, 63, 73, 75, 76]],
  [[63], [6, 11, 16, 17, 29, 38, 39, 41, 50, 51, 63, 73], [63], [63], [6, 7, 11, 16, 17, 23, 29, 38, 39, 40, 41, 42, 48, 49, 50, 51, 63, 73], [36], [29, 51], [29, 51], [77], [19, 31, 57, 58, 60, 62, 68, 74], [12, 57], [29]],
  [[26, 27, 77], [29], [8, 9, 29, 30], [71], [14, 29], [29, 30], [29, 38, 39, 41, 50, 51, 63, 73], [29, 38, 39, 41, 50, 51, 63, 73], [29, 38, 39, 41, 50, 51, 63, 73], [6, 11, 16, 17, 29, 38, 39, 40, 41, 50, 51, 63, 73], [6, 29, 38, 39, 41, 50, 51, 63, 73], [6, 29, 38, 39, 41, 50, 51, 63, 73]],
  [[6, 29, 38, 39, 41, 50, 51, 63, 73], [6, 29, 38, 39, 41, 50, 51, 63, 73], [6, 29, 38, 39, 41, 50, 51, 63, 73], [6, 29, 38, 39, 41, 50, 51, 63, 73], [6, 29, 38, 39, 41, 50, 51, 63, 73], [29, 51], [6, 29, 38, 39, 41, 50, 51, 63, 73], [6, 7, 11, 16, 17, 23, 29, 38, 39, 40, 41, 42, 50, 51, 63, 73], [6, 7, 11, 16, 17, 23, 29, 38, 39, 40, 41, 42, 50, 51, 63, 73], [29, 38, 41, 50, 51, 63, 73], [29, 38, 41, 50, 51, 63, 73], [6, 7, 11, 16, 17, 29, 38, 39, 40, 41, 50, 51, 63, 73]],
  [[57, 58], [75, 76], [21, 75], [6, 7, 11, 16, 17, 23, 29, 38, 39, 40, 41, 42, 50, 51, 63, 73], [45, 47], [77], [12, 57], [8, 9, 29, 30], [29, 55], [6, 7, 11, 16, 17, 23, 29, 38, 39, 40, 41, 42, 50, 51, 63, 73], [57], [29, 30]],
  [[29], [29], [6, 7, 11, 16, 17, 23, 29, 38, 39, 40, 41, 42, 50, 51, 52, 63, 73], [27, 77], [27], [29, 51, 66, 67, 70], [77], [6, 7, 11, 16, 17, 23, 29, 38, 39, 40, 41, 42, 50, 51, 63, 73], [57, 58, 60, 68], [6, 7, 11, 16, 17, 23, 25, 29, 38, 39, 40, 41, 42, 50, 51, 57, 58, 60, 63, 68, 73], [6, 29, 38, 39, 41, 50, 51, 63, 73], [29, 51]],
  [[21, 75], [6, 7, 11, 16, 17, 23, 29, 38, 39, 40, 41, 42, 50, 51, 63, 73], [47], [29], [6, 7, 11, 16, 17, 23, 29, 38, 39, 40, 41, 42, 48, 50, 51, 63, 73], [57], [77], [29], [27], [29, 64], [33, 34], [29, 51, 57, 58, 60, 66, 68, 70]],
  [[6, 7, 11, 16, 17, 23, 25, 29, 38, 39, 40, 41, 42, 50, 51, 63, 73], [29], [8, 29, 30], [29], [6, 7, 11, 16, 17, 23, 29, 38, 39, 40, 41, 42, 50, 51, 63, 73], [6, 29, 38, 39, 41, 50, 51, 63, 73], [6, 7, 11, 16, 17, 23, 25, 29, 38, 39, 40, 41, 42, 50, 51, 57, 58, 60, 63, 68, 73], [6, 7, 11, 16, 17, 23, 29, 38, 39, 40, 41, 42, 50, 51, 63, 73], [29], [29, 51, 70], [34], [29, 51, 66, 70]],
  [[33, 34], [6, 29, 38, 39, 41, 50, 51, 63, 73], [32], [33, 34], [29, 64], [6, 7, 11, 16, 17, 23, 29, 38, 39, 40, 41, 42, 50, 51, 63, 73], [57, 58, 60, 68], [6, 7, 11, 16, 17, 23, 29, 38, 39, 40, 41, 42, 50, 51, 63, 73], [29, 30], [], [], []],
  [[], [], [], [], [], [], [], [], [], [], [], []],
  [[], [], [], [], [], [], [], [], [], [], [], []],
  [[], [], [], [], [], [], [], [], [], [], [], []],
  [[], [], [], [], [], [], [], [], [], [], [], []],
  [[], [], [], [], [], [], [], [], [], [], [], []],
  [[], [], [], [], [], [], [], [], [], [], [], []],
  [[], [], [], [], [], [], [], [], [], [], [], []],
  [[], [], [], [], [], [], [], [], [], [], [], []],
  [[], [], [], [], [], [], [], [], [], [], [], []],
  [[], [], [], [], [], [], [], [], [], [], [], []],
  [[], [], [], [], [], [], [], [], [], [], [], []],
  [[], [], [], [], [], [], [], [], [], [], [], []],
  [[], [], [], [], [], [], [], [], [], [], [], []],
  [[], [], [], [], [], [], [], [], [], [], [], []],
  [[], [], [], [], [], [], [], [], [], [], [], []],
  [[], [], [], [], [], [], [], [], [], [], [], []],
  [[], [], [], [], [], [], [], [], [], [], [], []],
  [[], [], [], [], []]]

/-- Two for the nonterminals after which an empty production can be reduced. -/
def ntBonus : List Nat := [0, 0, 0, 0, 0, 0, 0, 0, 0, 0, 0, 0, 0, 0, 0, 0, 0, 0, 0, 0, 0, 0, 0, 2, 0, 0, 0, 0, 0, 0, 0, 0, 0, 0, 0, 0, 0, 0, 0, 0, 0, 0, 0, 0, 0, 2, 0, 0, 0, 0, 0, 0, 0, 0, 0, 0, 0, 0, 0, 0, 0, 0, 0, 0, 0, 0, 0, 0, 0, 0, 0, 0, 0, 0, 0, 0, 0, 0, 0, 0]

/-- Weights of the terminals. -/
def termWeights : List Nat := [1, 14, 1, 2, 1, 1, 1, 1, 1, 1, 1, 1, 1, 1, 2, 1, 1, 2, 1, 1, 1, 10, 2, 1, 17, 17, 17, 1, 1, 2, 1, 2, 1, 1, 2, 1, 1, 1, 2, 1, 1, 1, 2, 1, 2, 1, 1, 1, 2, 2, 1, 1, 1, 1, 1, 17, 1, 1, 1, 1, 1, 1, 1, 2, 4, 1, 1, 1, 1, 1, 2, 1, 1, 5, 1, 1, 2, 1, 18, 18, 18, 18, 18]

/-- Weights of the nonterminals. -/
def ntWeights : List Nat := [1, 1, 1, 1, 1, 1, 12, 8, 2, 1, 2, 11, 1, 1, 2, 1, 11, 10, 1, 3, 2, 1, 1, 4, 1, 1, 1, 1, 1, 17, 1, 3, 1, 1, 1, 1, 1, 1, 16, 13, 9, 17, 7, 1, 1, 1, 1, 1, 2, 1, 15, 16, 3, 2, 1, 1, 1, 5, 4, 1, 3, 1, 2, 17, 1, 1, 2, 1, 2, 1, 3, 2, 1, 14, 3, 2, 1, 1, 1, 1]

/-- The states that can reduce an empty production. -/
def emptyStates : List Nat := [5, 64, 86]

end Verif.Sql.Parser
