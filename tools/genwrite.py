import re
src=open('/verif/lean/Verif/Spec/SqlWords.lean').read()
sp=[]
for m in re.finditer(r'\(some \.(\w+), word \[(.*?)\]\)',src):
    parts=re.findall(r'"(.*?)"',m.group(2))
    sp.append((m.group(1),''.join(p[0] for p in parts)))
o=['''import Verif.Spec.SqlWords
/-!
# Writing statements as texts

Every statement that has a text is written as one: keywords in capitals, a space between two words, and parentheses
only where the priority of an operator asks for them.  `Writable` are the statements that have a text.
-/

namespace Verif.Sql.Writing
open Grammar Lexing

/-- How a keyword or a sign is written. -/
def spelling : Kind → String
''']
line=''
for k,s in sp: o.append(f'  | .{k} => "{s}"\n')
o.append('''  | _ => ""

/-- A keyword or a sign. -/
def kw (k : Kind) : Lexeme := (k, (spelling k).toList)

/-- Words with a space between two of them. -/
def spaced : List Lexeme → Str
  | [] => []
  | [w] => w.2
  | w :: v :: ws => w.2 ++ ' ' :: spaced (v :: ws)

/-! ## The parts that are no expressions -/

/-- A name can be written if it is a word and no keyword. -/
def NameOk (n : Name) : Prop := IsWord (.ID, n.string)

/-- The text of a string literal has no quotation mark and no control character. -/
def StringOk (s : Str) : Prop := IsWord (.STRING_LIT, '\\'' :: (s ++ ['\\'']))

/-- Numbers are kept as written. -/
def NumberOk (s : Str) : Prop := IsWord (.NUMERIC_LIT_1, s) ∨ IsWord (.NUMERIC_LIT_2, s) ∨ IsWord (.HEX_LIT, s)

/-- A name of one, two or three parts. -/
def QualifiedOk (q : List Name) : Prop := (q.length = 1 ∨ q.length = 2 ∨ q.length = 3) ∧ ∀ n ∈ q, NameOk n

/-- A list of names in parentheses. -/
def NamesOk (ns : List Name) : Prop := ns ≠ [] ∧ ∀ n ∈ ns, NameOk n

def OptionOk (o : Option Name) : Prop := ∀ n, o = some n → NameOk n

def name (n : Name) : Lexeme := (.ID, n.string)

def string (s : Str) : Lexeme := (.STRING_LIT, '\\'' :: (s ++ ['\\'']))

/-- The kind of word that a number is: the one with a point in front, the hexadecimal, or the other. -/
def number (s : Str) : Lexeme :=
  match s with
  | '.' :: _ => (.NUMERIC_LIT_2, s)
  | '0' :: 'x' :: _ => (.HEX_LIT, s)
  | _ => (.NUMERIC_LIT_1, s)

def qualified : List Name → List Lexeme
  | [] => []
  | [n] => [name n]
  | n :: m :: q => name n :: kw .dot :: qualified (m :: q)

def names : List Name → List Lexeme
  | [] => []
  | [n] => [name n]
  | n :: m :: ns => name n :: kw .comma :: names (m :: ns)

def LiteralOk : Literal → Prop
  | .string s | .date s | .time s | .timestamp s => StringOk s
  | .numeric s => NumberOk s
  | .null | .currentTime | .currentDate | .currentTimestamp => True

def literal : Literal → List Lexeme
  | .string s => [string s]
  | .numeric s => [number s]
  | .null => [kw .NULL]
  | .currentTime => [kw .CURRENT_TIME]
  | .currentDate => [kw .CURRENT_DATE]
  | .currentTimestamp => [kw .CURRENT_TIMESTAMP]
  | .date s => [kw .DATE, string s]
  | .time s => [kw .TIME, string s]
  | .timestamp s => [kw .TIMESTAMP, string s]

def mode : SelectMode → List Lexeme
  | .all => []
  | .distinct => [kw .DISTINCT]

def setOperator : SetOperator → List Lexeme
  | .union => [kw .UNION]
  | .unionAll => [kw .UNION, kw .ALL]
  | .intersect => [kw .INTERSECT]
  | .except => [kw .EXCEPT]

def joinType : JoinType → List Lexeme
  | .inner => []
  | .left => [kw .LEFT]
  | .right => [kw .RIGHT]
  | .full => [kw .FULL]

def joinOperator : JoinOperator → List Lexeme
  | .join t => joinType t ++ [kw .JOIN]
  | .natural t => kw .NATURAL :: (joinType t ++ [kw .JOIN])
  | .cross => [kw .CROSS, kw .JOIN]

def direction : OrderingDirection → List Lexeme
  | .ascending => []
  | .descending => [kw .DESC]

def collation : Option Name → List Lexeme
  | none => []
  | some n => [kw .COLLATE, name n]

/-- The name after AS. -/
def alias : Option Name → List Lexeme
  | none => []
  | some n => [kw .AS, name n]

def columnNames : Option (List Name) → List Lexeme
  | none => []
  | some ns => kw .lpar :: (names ns ++ [kw .rpar])

def comparisonOperator : ComparisonOperator → Kind
  | .equal => .eq
  | .notEqual => .ne
  | .lessThan => .lt
  | .lessEqual => .le
  | .greaterThan => .gt
  | .greaterEqual => .ge
  | .like => .LIKE

def binaryOperator : BinaryOperator → Kind
  | .multiply => .star
  | .divide => .slash
  | .add => .plus
  | .subtract => .minus
  | .concat => .bars
  | .and => .AND
  | .or => .OR

/-! ## Priorities

The higher the number the tighter it binds. -/

def binaryLevel : BinaryOperator → Nat
  | .or => 0
  | .and => 1
  | .add | .subtract | .concat => 5
  | .multiply | .divide => 6

/-- OR, AND, NOT, CASE, comparisons with IN, BETWEEN and IS NULL, sums, products, signs, the rest. -/
def level : Expr Name → Nat
  | .binary op _ _ => binaryLevel op
  | .unary .not _ => 2
  | .case _ _ _ => 3
  | .comparison _ _ _ | .inSet _ _ | .between _ _ _ | .unary .isNull _ => 4
  | .unary .negate _ => 7
  | .literal _ | .ident _ | .tuple _ | .select _ => 8

/-- The words of an expression where one of at least level `p` can stand: in parentheses if it is of a lower one. -/
def atLevel (p : Nat) (e : Expr Name) (w : List Lexeme) : List Lexeme :=
  if level e < p then kw .lpar :: (w ++ [kw .rpar]) else w

/-- SELECT and VALUES, without UNION, INTERSECT, EXCEPT. -/
def Simple : SetExpr Name → Prop
  | .op _ _ _ => False
  | _ => True

/-- A table that is no join, or else a join in parentheses. -/
def tableOperand (t : TableExpr Name) (w : List Lexeme) : List Lexeme :=
  match t with
  | .join _ _ _ _ => kw .lpar :: (w ++ [kw .rpar])
  | _ => w

/-! ## The words of expressions and queries -/

mutual

def expr : Expr Name → List Lexeme
  | .literal l => literal l
  | .ident q => qualified q
  | .tuple es => kw .lpar :: (exprs es ++ [kw .rpar])
  | .select s => kw .lpar :: (select s ++ [kw .rpar])
  | .unary .negate e => kw .minus :: atLevel 7 e (expr e)
  | .unary .not e => kw .NOT :: atLevel 3 e (expr e)
  | .unary .isNull e => atLevel 4 e (expr e) ++ [kw .IS, kw .NULL]
  | .binary op l r =>
    atLevel (binaryLevel op) l (expr l) ++ (kw (binaryOperator op) :: atLevel (binaryLevel op + 1) r (expr r))
  | .comparison op l r => atLevel 4 l (expr l) ++ (kw (comparisonOperator op) :: atLevel 5 r (expr r))
  | .inSet e set => atLevel 4 e (expr e) ++ (kw .IN :: setSpec set)
  | .between e l u =>
    atLevel 4 e (expr e) ++ (kw .BETWEEN :: (atLevel 5 l (expr l) ++ (kw .AND :: atLevel 5 u (expr u))))
  | .case e whens els =>
    kw .CASE :: (exprOption e ++ (whenClauses whens ++ (clause .ELSE els ++ [kw .END])))

/-- With commas. -/
def exprs : List (Expr Name) → List Lexeme
  | [] => []
  | e :: es => expr e ++ exprsTail es

def exprsTail : List (Expr Name) → List Lexeme
  | [] => []
  | e :: es => kw .comma :: (expr e ++ exprsTail es)

def exprOption : Option (Expr Name) → List Lexeme
  | none => []
  | some e => expr e

/-- A clause of a keyword and an expression. -/
def clause (k : Kind) : Option (Expr Name) → List Lexeme
  | none => []
  | some e => kw k :: expr e

def whenClauses : List (When Name) → List Lexeme
  | [] => []
  | .mk guard body :: ws => kw .WHEN :: (expr guard ++ (kw .THEN :: (expr body ++ whenClauses ws)))

def setSpec : SetSpec Name → List Lexeme
  | .select s => kw .lpar :: (select s ++ [kw .rpar])
  | .list es => kw .lpar :: (exprs es ++ [kw .rpar])
  | .name q => qualified q

def select : Select Name → List Lexeme
  | .mk common e orderBy l => withClause common ++ (setExpr e ++ (orderClause orderBy ++ limit l))

def withClause : List (Cte Name) → List Lexeme
  | [] => []
  | .mk n cs q :: cts =>
    kw .WITH :: name n :: (columnNames cs ++ (kw .AS :: kw .lpar :: (select q ++ (kw .rpar :: ctesTail cts))))

def ctesTail : List (Cte Name) → List Lexeme
  | [] => []
  | .mk n cs q :: cts =>
    kw .comma :: name n :: (columnNames cs ++ (kw .AS :: kw .lpar :: (select q ++ (kw .rpar :: ctesTail cts))))

def orderClause : List (OrderTerm Name) → List Lexeme
  | [] => []
  | .mk e c d :: ts => kw .ORDER :: kw .BY :: (expr e ++ (collation c ++ (direction d ++ termsTail ts)))

def termsTail : List (OrderTerm Name) → List Lexeme
  | [] => []
  | .mk e c d :: ts => kw .comma :: (expr e ++ (collation c ++ (direction d ++ termsTail ts)))

def limit : Option (Limit Name) → List Lexeme
  | none => []
  | some (.mk rows offset) => kw .LIMIT :: (expr rows ++ clause .OFFSET offset)

def setExpr : SetExpr Name → List Lexeme
  | .values rows => kw .VALUES :: tuples rows
  | .query m columns froms wher group =>
    kw .SELECT :: (mode m ++ (resultColumns columns ++ (fromClause froms ++ (clause .WHERE wher ++ groupClause group))))
  | .op o l r => setExpr l ++ (setOperator o ++ setExpr r)

def tuples : List (List (Expr Name)) → List Lexeme
  | [] => []
  | row :: rows => kw .lpar :: (exprs row ++ (kw .rpar :: tuplesTail rows))

def tuplesTail : List (List (Expr Name)) → List Lexeme
  | [] => []
  | row :: rows => kw .comma :: kw .lpar :: (exprs row ++ (kw .rpar :: tuplesTail rows))

def fromClause : List (TableExpr Name) → List Lexeme
  | [] => []
  | t :: ts => kw .FROM :: (table t ++ tablesTail ts)

def tablesTail : List (TableExpr Name) → List Lexeme
  | [] => []
  | t :: ts => kw .comma :: (table t ++ tablesTail ts)

def table : TableExpr Name → List Lexeme
  | .named q a => qualified q ++ alias a
  | .select s a => kw .lpar :: (select s ++ (kw .rpar :: alias a))
  | .join l r o c => table l ++ (joinOperator o ++ (tableOperand r (table r) ++ constraint c))

def constraint : JoinConstraint Name → List Lexeme
  | .expr e => kw .ON :: expr e
  | .columns ns => kw .USING :: kw .lpar :: (names ns ++ [kw .rpar])

def resultColumns : ResultColumns Name → List Lexeme
  | .all => [kw .star]
  | .list cs => columns cs

def columns : List (ResultColumn Name) → List Lexeme
  | [] => []
  | .allFrom n :: cs => name n :: kw .dot :: kw .star :: columnsTail cs
  | .expr e r :: cs => expr e ++ (alias r ++ columnsTail cs)

def columnsTail : List (ResultColumn Name) → List Lexeme
  | [] => []
  | .allFrom n :: cs => kw .comma :: name n :: kw .dot :: kw .star :: columnsTail cs
  | .expr e r :: cs => kw .comma :: (expr e ++ (alias r ++ columnsTail cs))

def groupClause : Option (GroupBy Name) → List Lexeme
  | none => []
  | some (.mk es having) => kw .GROUP :: kw .BY :: (exprs es ++ clause .HAVING having)

end

/-! ## What can be written -/

mutual

def ExprOk : Expr Name → Prop
  | .literal l => LiteralOk l
  | .ident q => QualifiedOk q
  | .tuple es => 2 ≤ es.length ∧ ExprsOk es
  | .select s => SelectOk s
  | .unary _ e => ExprOk e
  | .binary _ l r => ExprOk l ∧ ExprOk r
  | .comparison _ l r => ExprOk l ∧ ExprOk r
  | .inSet e set => ExprOk e ∧ SetSpecOk set
  | .between e l u => ExprOk e ∧ ExprOk l ∧ ExprOk u
  | .case e whens els => ExprOptionOk e ∧ whens ≠ [] ∧ WhensOk whens ∧ ExprOptionOk els

def ExprsOk : List (Expr Name) → Prop
  | [] => True
  | e :: es => ExprOk e ∧ ExprsOk es

def ExprOptionOk : Option (Expr Name) → Prop
  | none => True
  | some e => ExprOk e

def WhensOk : List (When Name) → Prop
  | [] => True
  | .mk guard body :: ws => ExprOk guard ∧ ExprOk body ∧ WhensOk ws

def SetSpecOk : SetSpec Name → Prop
  | .select s => SelectOk s
  | .list es => ExprsOk es
  | .name q => QualifiedOk q

def SelectOk : Select Name → Prop
  | .mk common e orderBy l => CtesOk common ∧ SetExprOk e ∧ TermsOk orderBy ∧ LimitOk l

def CtesOk : List (Cte Name) → Prop
  | [] => True
  | .mk n cs q :: cts => NameOk n ∧ (∀ ns, cs = some ns → NamesOk ns) ∧ SelectOk q ∧ CtesOk cts

def TermsOk : List (OrderTerm Name) → Prop
  | [] => True
  | .mk e c _ :: ts => ExprOk e ∧ OptionOk c ∧ TermsOk ts

def LimitOk : Option (Limit Name) → Prop
  | none => True
  | some (.mk rows offset) => ExprOk rows ∧ ExprOptionOk offset

/-- There are no parentheses in unions: the right side is always a single query. -/
def SetExprOk : SetExpr Name → Prop
  | .values rows => rows ≠ [] ∧ RowsOk rows
  | .query _ columns froms wher group =>
    ResultColumnsOk columns ∧ TablesOk froms ∧ ExprOptionOk wher ∧ GroupOk group
  | .op _ l r => SetExprOk l ∧ Simple r ∧ SetExprOk r

def RowsOk : List (List (Expr Name)) → Prop
  | [] => True
  | row :: rows => (row ≠ [] ∧ ExprsOk row) ∧ RowsOk rows

def TablesOk : List (TableExpr Name) → Prop
  | [] => True
  | t :: ts => TableOk t ∧ TablesOk ts

def TableOk : TableExpr Name → Prop
  | .named q a => QualifiedOk q ∧ OptionOk a
  | .select s a => SelectOk s ∧ OptionOk a
  | .join l r _ c => TableOk l ∧ TableOk r ∧ ConstraintOk c

def ConstraintOk : JoinConstraint Name → Prop
  | .expr e => ExprOk e
  | .columns ns => NamesOk ns

def ResultColumnsOk : ResultColumns Name → Prop
  | .all => True
  | .list cs => cs ≠ [] ∧ ColumnsOk cs

def ColumnsOk : List (ResultColumn Name) → Prop
  | [] => True
  | .allFrom n :: cs => NameOk n ∧ ColumnsOk cs
  | .expr e r :: cs => ExprOk e ∧ OptionOk r ∧ ColumnsOk cs

def GroupOk : Option (GroupBy Name) → Prop
  | none => True
  | some (.mk es having) => (es ≠ [] ∧ ExprsOk es) ∧ ExprOptionOk having

end

/-! ## Statements -/

def assignment (a : Assignment Name) : List Lexeme := names a.columns ++ (kw .eq :: expr a.expr)

def AssignmentOk (a : Assignment Name) : Prop := NamesOk a.columns ∧ ExprOk a.expr

def assignments : List (Assignment Name) → List Lexeme
  | [] => []
  | [a] => assignment a
  | a :: b :: as => assignment a ++ (kw .comma :: assignments (b :: as))

def statement : Statement Name → List Lexeme
  | .select s => select s
  | .insert s => kw .INSERT :: kw .INTO :: (qualified s.tableName ++ (columnNames s.columns ++ setExpr s.source))
  | .delete s => kw .DELETE :: kw .FROM :: (qualified s.tableName ++ clause .WHERE s.wher)
  | .update s =>
    kw .UPDATE :: (qualified s.tableName ++ (kw .SET :: (assignments s.assignments ++ clause .WHERE s.wher)))

def StatementOk : Statement Name → Prop
  | .select s => SelectOk s
  | .insert s => QualifiedOk s.tableName ∧ (∀ ns, s.columns = some ns → NamesOk ns) ∧ Simple s.source ∧
    SetExprOk s.source
  | .delete s => QualifiedOk s.tableName ∧ ExprOptionOk s.wher
  | .update s => QualifiedOk s.tableName ∧ s.assignments ≠ [] ∧ (∀ a ∈ s.assignments, AssignmentOk a) ∧
    ExprOptionOk s.wher

/-- The words of a statement. -/
def words : SqlStatement Name → List Lexeme
  | .statement s => statement s
  | .explainQueryPlan s => kw .EXPLAIN :: kw .QUERY :: kw .PLAN :: statement s
  | .attach s => kw .ATTACH :: kw .FILE :: string s.path :: kw .AS :: qualified s.qualifiedName
  | .describe s => kw .DESCRIBE :: qualified s.qualifiedName

/-- The statements that can be written. -/
def Writable : SqlStatement Name → Prop
  | .statement s => StatementOk s
  | .explainQueryPlan s => StatementOk s
  | .attach s => StringOk s.path ∧ s.qualifiedName.length ≤ 2 ∧ QualifiedOk s.qualifiedName
  | .describe s => s.qualifiedName.length ≤ 2 ∧ QualifiedOk s.qualifiedName

/-- The text of a statement. -/
def text (x : SqlStatement Name) : Str := spaced (words x)

end Verif.Sql.Writing
''')
open('/verif/lean/Verif/Spec/SqlWriting.lean','w').write(''.join(o))
