import Verif.Model.SqlAst
import Verif.Model.SqlNames
import Verif.Model.Text
/-!
# Semantic actions and reductions of the SQL parser (`src/sql/parser.rs`)

The functions `__action0` to `__action263` and `__reduce0` to `__reduce222` of the generated parser, in the
order of the source.  Positions in the input, which every symbol of the generated code carries along, are
left out: no action of this grammar looks at them.  A name is a `Name`; boxes are dropped.
-/

namespace Verif.Sql.Parser

/-- `append` (`src/sql/ast/mod.rs` L550-554). -/
def append {α : Type} (list : List α) (item : α) : List α := list ++ [item]

/-- The UTF-8 length of a character is one. -/
def oneByte (c : Char) : Bool := c.toNat < 128

/-- `s[1..s.len() - 1]` (`src/sql/parser.lalrpop` L554): slicing panics when the range is not in order or cuts a
character. -/
def stringBody (s : Str) : Res Str :=
  match s with
  | c :: d :: r => if oneByte c && oneByte ((d :: r).getLast (by simp)) then .ok (d :: r).dropLast else .error .panic
  | _ => .error .panic

/-- `__Symbol` (`src/sql/parser.rs` L26-77). -/
inductive Symbol where
  | variant0 (v : Str)
  | variant1 (v : Option Str)
  | variant2 (v : Str × Str)
  | variant3 (v : Option (Str × Str))
  | variant4 (v : Expr Name)
  | variant5 (v : Assignment Name)
  | variant6 (v : List (Assignment Name))
  | variant7 (v : AttachStatement Name)
  | variant8 (v : List Name)
  | variant9 (v : Option (List Name))
  | variant10 (v : Cte Name)
  | variant11 (v : List (Cte Name))
  | variant12 (v : SetOperator)
  | variant13 (v : DeleteStatement Name)
  | variant14 (v : DescribeStatement Name)
  | variant15 (v : Option (Expr Name))
  | variant16 (v : List (Expr Name))
  | variant17 (v : List (TableExpr Name))
  | variant18 (v : GroupBy Name)
  | variant19 (v : Option (GroupBy Name))
  | variant20 (v : Name)
  | variant21 (v : InsertStatement Name)
  | variant22 (v : JoinConstraint Name)
  | variant23 (v : JoinOperator)
  | variant24 (v : JoinType)
  | variant25 (v : Option JoinType)
  | variant26 (v : Limit Name)
  | variant27 (v : Option (Limit Name))
  | variant28 (v : Literal)
  | variant29 (v : Str)
  | variant30 (v : List (OrderTerm Name))
  | variant31 (v : Option (List (OrderTerm Name)))
  | variant32 (v : Option Name)
  | variant33 (v : OrderingDirection)
  | variant34 (v : OrderTerm Name)
  | variant35 (v : ResultColumn Name)
  | variant36 (v : List (ResultColumn Name))
  | variant37 (v : ResultColumns Name)
  | variant38 (v : SetExpr Name)
  | variant39 (v : SelectMode)
  | variant40 (v : Select Name)
  | variant41 (v : SqlStatement Name)
  | variant42 (v : Statement Name)
  | variant43 (v : TableExpr Name)
  | variant44 (v : Option (List (Cte Name)))
  | variant45 (v : List (List (Expr Name)))
  | variant46 (v : UpdateStatement Name)
  | variant47 (v : When Name)
  | variant48 (v : List (When Name))

/-! ## Semantic actions -/

/-- `__action0` (`src/sql/parser.rs` L7536-7544). -/
def action0 (x0 : SqlStatement Name) : SqlStatement Name := x0

/-- `__action1` (`src/sql/parser.rs` L7547-7555). -/
def action1 (x0 : Statement Name) : SqlStatement Name := .statement x0

/-- `__action2` (`src/sql/parser.rs` L7558-7568). -/
def action2 (_x0 : Str) (_x1 : Option (Str × Str)) (x2 : Statement Name) : SqlStatement Name :=
  .explainQueryPlan x2

/-- `__action3` (`src/sql/parser.rs` L7571-7579). -/
def action3 (x0 : AttachStatement Name) : SqlStatement Name := .attach x0

/-- `__action4` (`src/sql/parser.rs` L7582-7590). -/
def action4 (x0 : DescribeStatement Name) : SqlStatement Name := .describe x0

/-- `__action5` (`src/sql/parser.rs` L7593-7601). -/
def action5 (x0 : Select Name) : Statement Name := .select x0

/-- `__action6` (`src/sql/parser.rs` L7604-7612). -/
def action6 (x0 : InsertStatement Name) : Statement Name := .insert x0

/-- `__action7` (`src/sql/parser.rs` L7615-7623). -/
def action7 (x0 : DeleteStatement Name) : Statement Name := .delete x0

/-- `__action8` (`src/sql/parser.rs` L7626-7634). -/
def action8 (x0 : UpdateStatement Name) : Statement Name := .update x0

/-- `__action9` (`src/sql/parser.rs` L7637-7650). -/
def action9 (_x0 : Option (List (Cte Name))) (_x1 : Str) (_x2 : Str) (x3 : List Name) (x4 : Option
    (List Name)) (x5 : SetExpr Name) : InsertStatement Name :=
  ⟨x3, x4, x5⟩

/-- `__action10` (`src/sql/parser.rs` L7653-7663). -/
def action10 (_x0 : Str) (x1 : List Name) (_x2 : Str) : List Name := x1

/-- `__action11` (`src/sql/parser.rs` L7666-7678). -/
def action11 (_x0 : Option (List (Cte Name))) (_x1 : Str) (_x2 : Str) (x3 : List Name) (x4 : Option
    (Expr Name)) : DeleteStatement Name :=
  ⟨x3, x4⟩

/-- `__action12` (`src/sql/parser.rs` L7681-7694). -/
def action12 (_x0 : Option (List (Cte Name))) (_x1 : Str) (x2 : List Name) (_x3 : Str) (x4 : List
    (Assignment Name)) (x5 : Option (Expr Name)) : UpdateStatement Name :=
  ⟨x2, x4, x5⟩

/-- `__action13` (`src/sql/parser.rs` L7697-7705). -/
def action13 (x0 : Assignment Name) : List (Assignment Name) := [x0]

/-- `__action14` (`src/sql/parser.rs` L7708-7718). -/
def action14 (x0 : List (Assignment Name)) (_x1 : Str) (x2 : Assignment Name) : List
    (Assignment Name) :=
  append x0 x2

/-- `__action15` (`src/sql/parser.rs` L7721-7731). -/
def action15 (x0 : List Name) (_x1 : Str) (x2 : Expr Name) : Assignment Name := ⟨x0, x2⟩

/-- `__action16` (`src/sql/parser.rs` L7734-7750). -/
def action16 (x0 : List (Cte Name)) (x1 : SetExpr Name) (x2 : Option (List (OrderTerm Name)))
    (x3 : Option (Limit Name)) : Select Name :=
  .mk x0 x1 (x2.getD []) x3

/-- `__action17` (`src/sql/parser.rs` L7753-7768). -/
def action17 (x0 : SetExpr Name) (x1 : Option (List (OrderTerm Name))) (x2 : Option
    (Limit Name)) : Select Name :=
  .mk [] x0 (x1.getD []) x2

/-- `__action18` (`src/sql/parser.rs` L7771-7780). -/
def action18 (_x0 : Str) (x1 : List (Cte Name)) : List (Cte Name) := x1

/-- `__action19` (`src/sql/parser.rs` L7783-7791). -/
def action19 (x0 : Cte Name) : List (Cte Name) := [x0]

/-- `__action20` (`src/sql/parser.rs` L7794-7804). -/
def action20 (x0 : List (Cte Name)) (_x1 : Str) (x2 : Cte Name) : List (Cte Name) := append x0 x2

/-- `__action21` (`src/sql/parser.rs` L7807-7823). -/
def action21 (x0 : Name) (_x1 : Str) (_x2 : Str) (x3 : Select Name) (_x4 : Str) : Cte Name :=
  .mk x0 none x3

/-- `__action22` (`src/sql/parser.rs` L7826-7845). -/
def action22 (x0 : Name) (_x1 : Str) (x2 : List Name) (_x3 : Str) (_x4 : Str) (_x5 : Str)
    (x6 : Select Name) (_x7 : Str) : Cte Name :=
  .mk x0 (some x2) x6

/-- `__action23` (`src/sql/parser.rs` L7848-7856). -/
def action23 (x0 : SetExpr Name) : SetExpr Name := x0

/-- `__action24` (`src/sql/parser.rs` L7859-7869). -/
def action24 (x0 : SetExpr Name) (x1 : SetOperator) (x2 : SetExpr Name) : SetExpr Name := .op x1 x0 x2

/-- `__action25` (`src/sql/parser.rs` L7872-7880). -/
def action25 (_x0 : Str) : SetOperator := .union

/-- `__action26` (`src/sql/parser.rs` L7883-7892). -/
def action26 (_x0 : Str) (_x1 : Str) : SetOperator := .unionAll

/-- `__action27` (`src/sql/parser.rs` L7895-7903). -/
def action27 (_x0 : Str) : SetOperator := .intersect

/-- `__action28` (`src/sql/parser.rs` L7906-7914). -/
def action28 (_x0 : Str) : SetOperator := .except

/-- `__action29` (`src/sql/parser.rs` L7917-7929). -/
def action29 (_x0 : Str) (x1 : SelectMode) (x2 : ResultColumns Name) (x3 : Option (Expr Name))
    (x4 : Option (GroupBy Name)) : SetExpr Name :=
  .query x1 x2 [] x3 x4

/-- `__action30` (`src/sql/parser.rs` L7932-7945). -/
def action30 (_x0 : Str) (x1 : SelectMode) (x2 : ResultColumns Name) (x3 : List (TableExpr Name))
    (x4 : Option (Expr Name)) (x5 : Option (GroupBy Name)) : SetExpr Name :=
  .query x1 x2 x3 x4 x5

/-- `__action31` (`src/sql/parser.rs` L7948-7957). -/
def action31 (_x0 : Str) (x1 : List (List (Expr Name))) : SetExpr Name := .values x1

/-- `__action32` (`src/sql/parser.rs` L7960-7968). -/
def action32 (_x0 : Option Str) : SelectMode := .all

/-- `__action33` (`src/sql/parser.rs` L7971-7979). -/
def action33 (_x0 : Str) : SelectMode := .distinct

/-- `__action34` (`src/sql/parser.rs` L7982-7990). -/
def action34 (x0 : List (Expr Name)) : List (List (Expr Name)) := [x0]

/-- `__action35` (`src/sql/parser.rs` L7993-8003). -/
def action35 (x0 : List (List (Expr Name))) (_x1 : Str) (x2 : List (Expr Name)) : List (List
    (Expr Name)) :=
  append x0 x2

/-- `__action36` (`src/sql/parser.rs` L8006-8016). -/
def action36 (_x0 : Str) (x1 : List (Expr Name)) (_x2 : Str) : List (Expr Name) := x1

/-- `__action37` (`src/sql/parser.rs` L8019-8027). -/
def action37 (_x0 : Str) : ResultColumns Name := .all

/-- `__action38` (`src/sql/parser.rs` L8030-8038). -/
def action38 (x0 : List (ResultColumn Name)) : ResultColumns Name := .list x0

/-- `__action39` (`src/sql/parser.rs` L8041-8049). -/
def action39 (x0 : ResultColumn Name) : List (ResultColumn Name) := [x0]

/-- `__action40` (`src/sql/parser.rs` L8052-8062). -/
def action40 (x0 : List (ResultColumn Name)) (_x1 : Str) (x2 : ResultColumn Name) : List
    (ResultColumn Name) :=
  append x0 x2

/-- `__action41` (`src/sql/parser.rs` L8065-8073). -/
def action41 (x0 : Expr Name) : ResultColumn Name := .expr x0 none

/-- `__action42` (`src/sql/parser.rs` L8076-8086). -/
def action42 (x0 : Expr Name) (_x1 : Option Str) (x2 : Name) : ResultColumn Name := .expr x0 (some x2)

/-- `__action43` (`src/sql/parser.rs` L8089-8099). -/
def action43 (x0 : Name) (_x1 : Str) (_x2 : Str) : ResultColumn Name := .allFrom x0

/-- `__action44` (`src/sql/parser.rs` L8102-8110). -/
def action44 (x0 : Name) : List Name := [x0]

/-- `__action45` (`src/sql/parser.rs` L8113-8123). -/
def action45 (x0 : Name) (_x1 : Str) (x2 : Name) : List Name := [x0, x2]

/-- `__action46` (`src/sql/parser.rs` L8126-8138). -/
def action46 (x0 : Name) (_x1 : Str) (x2 : Name) (_x3 : Str) (x4 : Name) : List Name := [x0, x2, x4]

/-- `__action47` (`src/sql/parser.rs` L8141-8150). -/
def action47 (_x0 : Str) (x1 : List (TableExpr Name)) : List (TableExpr Name) := x1

/-- `__action48` (`src/sql/parser.rs` L8153-8161). -/
def action48 (x0 : TableExpr Name) : List (TableExpr Name) := [x0]

/-- `__action49` (`src/sql/parser.rs` L8164-8174). -/
def action49 (x0 : List (TableExpr Name)) (_x1 : Str) (x2 : TableExpr Name) : List (TableExpr Name) :=
  append x0 x2

/-- `__action50` (`src/sql/parser.rs` L8177-8185). -/
def action50 (x0 : TableExpr Name) : TableExpr Name := x0

/-- `__action51` (`src/sql/parser.rs` L8188-8199). -/
def action51 (x0 : TableExpr Name) (x1 : JoinOperator) (x2 : TableExpr Name)
    (x3 : JoinConstraint Name) : TableExpr Name :=
  .join x0 x2 x1 x3

/-- `__action52` (`src/sql/parser.rs` L8202-8211). -/
def action52 (x0 : List Name) (x1 : Option Name) : TableExpr Name := .named x0 x1

/-- `__action53` (`src/sql/parser.rs` L8214-8225). -/
def action53 (_x0 : Str) (x1 : Select Name) (_x2 : Str) (x3 : Option Name) : TableExpr Name :=
  .select x1 x3

/-- `__action54` (`src/sql/parser.rs` L8228-8238). -/
def action54 (_x0 : Str) (x1 : TableExpr Name) (_x2 : Str) : TableExpr Name := x1

/-- `__action55` (`src/sql/parser.rs` L8241-8250). -/
def action55 (_x0 : Option Str) (x1 : Name) : Name := x1

/-- `__action56` (`src/sql/parser.rs` L8253-8262). -/
def action56 (x0 : Option JoinType) (_x1 : Str) : JoinOperator := .join (x0.getD .inner)

/-- `__action57` (`src/sql/parser.rs` L8265-8275). -/
def action57 (_x0 : Str) (x1 : Option JoinType) (_x2 : Str) : JoinOperator := .natural (x1.getD .inner)

/-- `__action58` (`src/sql/parser.rs` L8278-8287). -/
def action58 (_x0 : Str) (_x1 : Str) : JoinOperator := .cross

/-- `__action59` (`src/sql/parser.rs` L8290-8299). -/
def action59 (_x0 : Str) (_x1 : Option Str) : JoinType := .left

/-- `__action60` (`src/sql/parser.rs` L8302-8311). -/
def action60 (_x0 : Str) (_x1 : Option Str) : JoinType := .right

/-- `__action61` (`src/sql/parser.rs` L8314-8323). -/
def action61 (_x0 : Str) (_x1 : Option Str) : JoinType := .full

/-- `__action62` (`src/sql/parser.rs` L8326-8334). -/
def action62 (_x0 : Str) : JoinType := .inner

/-- `__action63` (`src/sql/parser.rs` L8337-8346). -/
def action63 (_x0 : Str) (x1 : Expr Name) : JoinConstraint Name := .expr x1

/-- `__action64` (`src/sql/parser.rs` L8349-8360). -/
def action64 (_x0 : Str) (_x1 : Str) (x2 : List Name) (_x3 : Str) : JoinConstraint Name := .columns x2

/-- `__action65` (`src/sql/parser.rs` L8363-8371). -/
def action65 (x0 : Name) : List Name := [x0]

/-- `__action66` (`src/sql/parser.rs` L8374-8384). -/
def action66 (x0 : List Name) (_x1 : Str) (x2 : Name) : List Name := append x0 x2

/-- `__action67` (`src/sql/parser.rs` L8387-8396). -/
def action67 (_x0 : Str) (x1 : Expr Name) : Expr Name := x1

/-- `__action68` (`src/sql/parser.rs` L8399-8409). -/
def action68 (_x0 : Str) (_x1 : Str) (x2 : List (Expr Name)) : GroupBy Name := .mk x2 none

/-- `__action69` (`src/sql/parser.rs` L8412-8424). -/
def action69 (_x0 : Str) (_x1 : Str) (x2 : List (Expr Name)) (_x3 : Str)
    (x4 : Expr Name) : GroupBy Name :=
  .mk x2 (some x4)

/-- `__action70` (`src/sql/parser.rs` L8427-8437). -/
def action70 (_x0 : Str) (_x1 : Str) (x2 : List (OrderTerm Name)) : List (OrderTerm Name) := x2

/-- `__action71` (`src/sql/parser.rs` L8440-8448). -/
def action71 (x0 : OrderTerm Name) : List (OrderTerm Name) := [x0]

/-- `__action72` (`src/sql/parser.rs` L8451-8461). -/
def action72 (x0 : List (OrderTerm Name)) (_x1 : Str) (x2 : OrderTerm Name) : List (OrderTerm Name) :=
  append x0 x2

/-- `__action73` (`src/sql/parser.rs` L8464-8474). -/
def action73 (x0 : Expr Name) (x1 : Option Name) (x2 : OrderingDirection) : OrderTerm Name := .mk x0 x1 x2

/-- `__action74` (`src/sql/parser.rs` L8477-8486). -/
def action74 (_x0 : Str) (x1 : Name) : Name := x1

/-- `__action75` (`src/sql/parser.rs` L8489-8497). -/
def action75 (_x0 : Option Str) : OrderingDirection := .ascending

/-- `__action76` (`src/sql/parser.rs` L8500-8508). -/
def action76 (_x0 : Str) : OrderingDirection := .descending

/-- `__action77` (`src/sql/parser.rs` L8511-8520). -/
def action77 (_x0 : Str) (x1 : Expr Name) : Limit Name := .mk x1 none

/-- `__action78` (`src/sql/parser.rs` L8523-8534). -/
def action78 (_x0 : Str) (x1 : Expr Name) (_x2 : Str) (x3 : Expr Name) : Limit Name := .mk x1 (some x3)

/-- `__action79` (`src/sql/parser.rs` L8537-8548). -/
def action79 (_x0 : Str) (x1 : Expr Name) (_x2 : Str) (x3 : Expr Name) : Limit Name := .mk x1 (some x3)

/-- `__action80` (`src/sql/parser.rs` L8551-8564). -/
def action80 (_x0 : Str) (_x1 : Str) (x2 : Str) (_x3 : Str) (x4 : Option Name)
    (x5 : Name) : AttachStatement Name :=
  .new x4 x5 x2

/-- `__action81` (`src/sql/parser.rs` L8567-8577). -/
def action81 (_x0 : Str) (x1 : Option Name) (x2 : Name) : DescribeStatement Name := .new x1 x2

/-- `__action82` (`src/sql/parser.rs` L8580-8589). -/
def action82 (x0 : Name) (_x1 : Str) : Name := x0

/-- `__action83` (`src/sql/parser.rs` L8592-8600). -/
def action83 (x0 : Expr Name) : List (Expr Name) := [x0]

/-- `__action84` (`src/sql/parser.rs` L8603-8613). -/
def action84 (x0 : List (Expr Name)) (_x1 : Str) (x2 : Expr Name) : List (Expr Name) := append x0 x2

/-- `__action85` (`src/sql/parser.rs` L8616-8633). -/
def action85 (_x0 : Str) (x1 : List (Expr Name)) (_x2 : Str) : Expr Name :=
  match x1 with
  | [e] => e
  | es => .tuple es

/-- `__action86` (`src/sql/parser.rs` L8636-8646). -/
def action86 (_x0 : Str) (x1 : Select Name) (_x2 : Str) : Expr Name := .select x1

/-- `__action87` (`src/sql/parser.rs` L8649-8657). -/
def action87 (x0 : Literal) : Expr Name := .literal x0

/-- `__action88` (`src/sql/parser.rs` L8660-8668). -/
def action88 (x0 : List Name) : Expr Name := .ident x0

/-- `__action89` (`src/sql/parser.rs` L8671-8679). -/
def action89 (x0 : Expr Name) : Expr Name := x0

/-- `__action90` (`src/sql/parser.rs` L8682-8691). -/
def action90 (_x0 : Str) (x1 : Expr Name) : Expr Name := x1

/-- `__action91` (`src/sql/parser.rs` L8694-8703). -/
def action91 (_x0 : Str) (x1 : Expr Name) : Expr Name := .unary .negate x1

/-- `__action92` (`src/sql/parser.rs` L8706-8714). -/
def action92 (x0 : Expr Name) : Expr Name := x0

/-- `__action93` (`src/sql/parser.rs` L8717-8727). -/
def action93 (x0 : Expr Name) (_x1 : Str) (x2 : Expr Name) : Expr Name := .binary .multiply x0 x2

/-- `__action94` (`src/sql/parser.rs` L8730-8740). -/
def action94 (x0 : Expr Name) (_x1 : Str) (x2 : Expr Name) : Expr Name := .binary .divide x0 x2

/-- `__action95` (`src/sql/parser.rs` L8743-8751). -/
def action95 (x0 : Expr Name) : Expr Name := x0

/-- `__action96` (`src/sql/parser.rs` L8754-8764). -/
def action96 (x0 : Expr Name) (_x1 : Str) (x2 : Expr Name) : Expr Name := .binary .add x0 x2

/-- `__action97` (`src/sql/parser.rs` L8767-8777). -/
def action97 (x0 : Expr Name) (_x1 : Str) (x2 : Expr Name) : Expr Name := .binary .subtract x0 x2

/-- `__action98` (`src/sql/parser.rs` L8780-8790). -/
def action98 (x0 : Expr Name) (_x1 : Str) (x2 : Expr Name) : Expr Name := .binary .concat x0 x2

/-- `__action99` (`src/sql/parser.rs` L8793-8801). -/
def action99 (x0 : Expr Name) : Expr Name := x0

/-- `__action100` (`src/sql/parser.rs` L8804-8814). -/
def action100 (x0 : Expr Name) (_x1 : Str) (x2 : Expr Name) : Expr Name := .comparison .equal x0 x2

/-- `__action101` (`src/sql/parser.rs` L8817-8827). -/
def action101 (x0 : Expr Name) (_x1 : Str) (x2 : Expr Name) : Expr Name := .comparison .notEqual x0 x2

/-- `__action102` (`src/sql/parser.rs` L8830-8840). -/
def action102 (x0 : Expr Name) (_x1 : Str) (x2 : Expr Name) : Expr Name := .comparison .lessThan x0 x2

/-- `__action103` (`src/sql/parser.rs` L8843-8853). -/
def action103 (x0 : Expr Name) (_x1 : Str) (x2 : Expr Name) : Expr Name := .comparison .greaterThan x0 x2

/-- `__action104` (`src/sql/parser.rs` L8856-8866). -/
def action104 (x0 : Expr Name) (_x1 : Str) (x2 : Expr Name) : Expr Name := .comparison .lessEqual x0 x2

/-- `__action105` (`src/sql/parser.rs` L8869-8879). -/
def action105 (x0 : Expr Name) (_x1 : Str) (x2 : Expr Name) : Expr Name := .comparison .greaterEqual x0 x2

/-- `__action106` (`src/sql/parser.rs` L8882-8892). -/
def action106 (x0 : Expr Name) (_x1 : Str) (_x2 : Str) : Expr Name := .unary .isNull x0

/-- `__action107` (`src/sql/parser.rs` L8895-8909). -/
def action107 (x0 : Expr Name) (_x1 : Str) (_x2 : Str) (_x3 : Str) : Expr Name :=
  .unary .not (.unary .isNull x0)

/-- `__action108` (`src/sql/parser.rs` L8912-8922). -/
def action108 (x0 : Expr Name) (_x1 : Str) (x2 : Expr Name) : Expr Name := .comparison .like x0 x2

/-- `__action109` (`src/sql/parser.rs` L8925-8934). -/
def action109 (x0 : Expr Name) (_x1 : Str) : Expr Name := .unary .isNull x0

/-- `__action110` (`src/sql/parser.rs` L8937-8947). -/
def action110 (x0 : Expr Name) (_x1 : Str) : Expr Name := .unary .not (.unary .isNull x0)

/-- `__action111` (`src/sql/parser.rs` L8950-8961). -/
def action111 (x0 : Expr Name) (_x1 : Str) (_x2 : Str) : Expr Name := .unary .not (.unary .isNull x0)

/-- `__action112` (`src/sql/parser.rs` L8964-8975). -/
def action112 (x0 : Expr Name) (_x1 : Str) (_x2 : Str) (_x3 : Str) : Expr Name := .inSet x0 (.list [])

/-- `__action113` (`src/sql/parser.rs` L8978-8991). -/
def action113 (x0 : Expr Name) (_x1 : Str) (_x2 : Str) (_x3 : Str) (_x4 : Str) : Expr Name :=
  .unary .not (.inSet x0 (.list []))

/-- `__action114` (`src/sql/parser.rs` L8994-9006). -/
def action114 (x0 : Expr Name) (_x1 : Str) (_x2 : Str) (x3 : List (Expr Name))
    (_x4 : Str) : Expr Name :=
  .inSet x0 (.list x3)

/-- `__action115` (`src/sql/parser.rs` L9009-9023). -/
def action115 (x0 : Expr Name) (_x1 : Str) (_x2 : Str) (_x3 : Str) (x4 : List (Expr Name))
    (_x5 : Str) : Expr Name :=
  .unary .not (.inSet x0 (.list x4))

/-- `__action116` (`src/sql/parser.rs` L9026-9038). -/
def action116 (x0 : Expr Name) (_x1 : Str) (_x2 : Str) (x3 : Select Name) (_x4 : Str) : Expr Name :=
  .inSet x0 (.select x3)

/-- `__action117` (`src/sql/parser.rs` L9041-9055). -/
def action117 (x0 : Expr Name) (_x1 : Str) (_x2 : Str) (_x3 : Str) (x4 : Select Name)
    (_x5 : Str) : Expr Name :=
  .unary .not (.inSet x0 (.select x4))

/-- `__action118` (`src/sql/parser.rs` L9058-9068). -/
def action118 (x0 : Expr Name) (_x1 : Str) (x2 : List Name) : Expr Name := .inSet x0 (.name x2)

/-- `__action119` (`src/sql/parser.rs` L9071-9083). -/
def action119 (x0 : Expr Name) (_x1 : Str) (_x2 : Str) (x3 : List Name) : Expr Name :=
  .unary .not (.inSet x0 (.name x3))

/-- `__action120` (`src/sql/parser.rs` L9086-9098). -/
def action120 (x0 : Expr Name) (_x1 : Str) (x2 : Expr Name) (_x3 : Str) (x4 : Expr Name) : Expr Name :=
  .between x0 x2 x4

/-- `__action121` (`src/sql/parser.rs` L9101-9115). -/
def action121 (x0 : Expr Name) (_x1 : Str) (_x2 : Str) (x3 : Expr Name) (_x4 : Str)
    (x5 : Expr Name) : Expr Name :=
  .unary .not (.between x0 x3 x5)

/-- `__action122` (`src/sql/parser.rs` L9118-9126). -/
def action122 (x0 : Expr Name) : Expr Name := x0

/-- `__action123` (`src/sql/parser.rs` L9129-9137). -/
def action123 (x0 : Expr Name) : Expr Name := x0

/-- `__action124` (`src/sql/parser.rs` L9140-9152). -/
def action124 (_x0 : Str) (x1 : Option (Expr Name)) (x2 : List (When Name)) (x3 : Option (Expr Name))
    (_x4 : Str) : Expr Name :=
  .case x1 x2 x3

/-- `__action125` (`src/sql/parser.rs` L9155-9166). -/
def action125 (_x0 : Str) (x1 : Expr Name) (_x2 : Str) (x3 : Expr Name) : When Name := .mk x1 x3

/-- `__action126` (`src/sql/parser.rs` L9169-9178). -/
def action126 (_x0 : Str) (x1 : Expr Name) : Expr Name := x1

/-- `__action127` (`src/sql/parser.rs` L9181-9189). -/
def action127 (x0 : Expr Name) : Expr Name := x0

/-- `__action128` (`src/sql/parser.rs` L9192-9201). -/
def action128 (_x0 : Str) (x1 : Expr Name) : Expr Name := .unary .not x1

/-- `__action129` (`src/sql/parser.rs` L9204-9212). -/
def action129 (x0 : Expr Name) : Expr Name := x0

/-- `__action130` (`src/sql/parser.rs` L9215-9225). -/
def action130 (x0 : Expr Name) (_x1 : Str) (x2 : Expr Name) : Expr Name := .binary .and x0 x2

/-- `__action131` (`src/sql/parser.rs` L9228-9236). -/
def action131 (x0 : Expr Name) : Expr Name := x0

/-- `__action132` (`src/sql/parser.rs` L9239-9249). -/
def action132 (x0 : Expr Name) (_x1 : Str) (x2 : Expr Name) : Expr Name := .binary .or x0 x2

/-- `__action133` (`src/sql/parser.rs` L9252-9260). -/
def action133 (x0 : Expr Name) : Expr Name := x0

/-- `__action134` (`src/sql/parser.rs` L9263-9271). -/
def action134 (x0 : Str) : Literal := .numeric x0

/-- `__action135` (`src/sql/parser.rs` L9274-9282). -/
def action135 (x0 : Str) : Literal := .string x0

/-- `__action136` (`src/sql/parser.rs` L9285-9293). -/
def action136 (_x0 : Str) : Literal := .null

/-- `__action137` (`src/sql/parser.rs` L9296-9304). -/
def action137 (_x0 : Str) : Literal := .currentTime

/-- `__action138` (`src/sql/parser.rs` L9307-9315). -/
def action138 (_x0 : Str) : Literal := .currentDate

/-- `__action139` (`src/sql/parser.rs` L9318-9326). -/
def action139 (_x0 : Str) : Literal := .currentTimestamp

/-- `__action140` (`src/sql/parser.rs` L9329-9338). -/
def action140 (_x0 : Str) (x1 : Str) : Literal := .date x1

/-- `__action141` (`src/sql/parser.rs` L9341-9350). -/
def action141 (_x0 : Str) (x1 : Str) : Literal := .time x1

/-- `__action142` (`src/sql/parser.rs` L9353-9362). -/
def action142 (_x0 : Str) (x1 : Str) : Literal := .timestamp x1

/-- `__action143` (`src/sql/parser.rs` L9365-9373). -/
def action143 (x0 : Str) : Name := ⟨x0⟩

/-- `__action144` (`src/sql/parser.rs` L9376-9384). -/
def action144 (x0 : Str) : Str := x0

/-- `__action145` (`src/sql/parser.rs` L9387-9395). -/
def action145 (x0 : Str) : Str := x0

/-- `__action146` (`src/sql/parser.rs` L9398-9406). -/
def action146 (x0 : Str) : Str := x0

/-- `__action147` (`src/sql/parser.rs` L9409-9417). -/
def action147 (x0 : Str) : Res Str := stringBody x0

/-- `__action148` (`src/sql/parser.rs` L9420-9428). -/
def action148 (x0 : Expr Name) : Option (Expr Name) := some x0

/-- `__action149` (`src/sql/parser.rs` L9431-9440). -/
def action149 : Option (Expr Name) := none

/-- `__action150` (`src/sql/parser.rs` L9443-9451). -/
def action150 (x0 : When Name) : List (When Name) := [x0]

/-- `__action151` (`src/sql/parser.rs` L9454-9463). -/
def action151 (x0 : List (When Name)) (x1 : When Name) : List (When Name) := append x0 x1

/-- `__action152` (`src/sql/parser.rs` L9466-9474). -/
def action152 (x0 : Expr Name) : Option (Expr Name) := some x0

/-- `__action153` (`src/sql/parser.rs` L9477-9486). -/
def action153 : Option (Expr Name) := none

/-- `__action154` (`src/sql/parser.rs` L9489-9497). -/
def action154 (x0 : Name) : Option Name := some x0

/-- `__action155` (`src/sql/parser.rs` L9500-9509). -/
def action155 : Option Name := none

/-- `__action156` (`src/sql/parser.rs` L9512-9520). -/
def action156 (x0 : Str) : Option Str := some x0

/-- `__action157` (`src/sql/parser.rs` L9523-9532). -/
def action157 : Option Str := none

/-- `__action158` (`src/sql/parser.rs` L9535-9543). -/
def action158 (x0 : Name) : Option Name := some x0

/-- `__action159` (`src/sql/parser.rs` L9546-9555). -/
def action159 : Option Name := none

/-- `__action160` (`src/sql/parser.rs` L9558-9566). -/
def action160 (x0 : Str) : Option Str := some x0

/-- `__action161` (`src/sql/parser.rs` L9569-9578). -/
def action161 : Option Str := none

/-- `__action162` (`src/sql/parser.rs` L9581-9589). -/
def action162 (x0 : JoinType) : Option JoinType := some x0

/-- `__action163` (`src/sql/parser.rs` L9592-9601). -/
def action163 : Option JoinType := none

/-- `__action164` (`src/sql/parser.rs` L9604-9612). -/
def action164 (x0 : Name) : Option Name := some x0

/-- `__action165` (`src/sql/parser.rs` L9615-9624). -/
def action165 : Option Name := none

/-- `__action166` (`src/sql/parser.rs` L9627-9635). -/
def action166 (x0 : Str) : Option Str := some x0

/-- `__action167` (`src/sql/parser.rs` L9638-9647). -/
def action167 : Option Str := none

/-- `__action168` (`src/sql/parser.rs` L9650-9658). -/
def action168 (x0 : Str) : Option Str := some x0

/-- `__action169` (`src/sql/parser.rs` L9661-9670). -/
def action169 : Option Str := none

/-- `__action170` (`src/sql/parser.rs` L9673-9681). -/
def action170 (x0 : GroupBy Name) : Option (GroupBy Name) := some x0

/-- `__action171` (`src/sql/parser.rs` L9684-9693). -/
def action171 : Option (GroupBy Name) := none

/-- `__action172` (`src/sql/parser.rs` L9696-9704). -/
def action172 (x0 : Limit Name) : Option (Limit Name) := some x0

/-- `__action173` (`src/sql/parser.rs` L9707-9716). -/
def action173 : Option (Limit Name) := none

/-- `__action174` (`src/sql/parser.rs` L9719-9727). -/
def action174 (x0 : List (OrderTerm Name)) : Option (List (OrderTerm Name)) := some x0

/-- `__action175` (`src/sql/parser.rs` L9730-9739). -/
def action175 : Option (List (OrderTerm Name)) := none

/-- `__action176` (`src/sql/parser.rs` L9742-9750). -/
def action176 (x0 : Expr Name) : Option (Expr Name) := some x0

/-- `__action177` (`src/sql/parser.rs` L9753-9762). -/
def action177 : Option (Expr Name) := none

/-- `__action178` (`src/sql/parser.rs` L9765-9773). -/
def action178 (x0 : List Name) : Option (List Name) := some x0

/-- `__action179` (`src/sql/parser.rs` L9776-9785). -/
def action179 : Option (List Name) := none

/-- `__action180` (`src/sql/parser.rs` L9788-9796). -/
def action180 (x0 : List (Cte Name)) : Option (List (Cte Name)) := some x0

/-- `__action181` (`src/sql/parser.rs` L9799-9808). -/
def action181 : Option (List (Cte Name)) := none

/-- `__action182` (`src/sql/parser.rs` L9811-9819). -/
def action182 (x0 : Str × Str) : Option (Str × Str) := some x0

/-- `__action183` (`src/sql/parser.rs` L9822-9831). -/
def action183 : Option (Str × Str) := none

/-- `__action184` (`src/sql/parser.rs` L9834-9843). -/
def action184 (x0 : Str) (x1 : Str) : Str × Str := (x0, x1)

/-- `__action185` (`src/sql/parser.rs` L9846-9864). -/
def action185 (x0 : Str) : SelectMode := action32 (action168 x0)

/-- `__action186` (`src/sql/parser.rs` L9867-9887). -/
def action186 : SelectMode := action32 action169

/-- `__action187` (`src/sql/parser.rs` L9890-9912). -/
def action187 (x0 : Expr Name) (x1 : Str) (x2 : Name) : ResultColumn Name := action42 x0 (action166 x1) x2

/-- `__action188` (`src/sql/parser.rs` L9915-9937). -/
def action188 (x0 : Expr Name) (x1 : Name) : ResultColumn Name := action42 x0 action167 x1

/-- `__action189` (`src/sql/parser.rs` L9940-9960). -/
def action189 (x0 : Str) (x1 : Name) : Name := action55 (action166 x0) x1

/-- `__action190` (`src/sql/parser.rs` L9963-9983). -/
def action190 (x0 : Name) : Name := action55 action167 x0

/-- `__action191` (`src/sql/parser.rs` L9986-10004). -/
def action191 (x0 : Str) : OrderingDirection := action75 (action156 x0)

/-- `__action192` (`src/sql/parser.rs` L10007-10027). -/
def action192 : OrderingDirection := action75 action157

/-- `__action193` (`src/sql/parser.rs` L10030-10050). -/
def action193 (x0 : Str) (x1 : Str) : JoinType := action59 x0 (action160 x1)

/-- `__action194` (`src/sql/parser.rs` L10053-10073). -/
def action194 (x0 : Str) : JoinType := action59 x0 action161

/-- `__action195` (`src/sql/parser.rs` L10076-10096). -/
def action195 (x0 : Str) (x1 : Str) : JoinType := action60 x0 (action160 x1)

/-- `__action196` (`src/sql/parser.rs` L10099-10119). -/
def action196 (x0 : Str) : JoinType := action60 x0 action161

/-- `__action197` (`src/sql/parser.rs` L10122-10142). -/
def action197 (x0 : Str) (x1 : Str) : JoinType := action61 x0 (action160 x1)

/-- `__action198` (`src/sql/parser.rs` L10145-10165). -/
def action198 (x0 : Str) : JoinType := action61 x0 action161

/-- `__action199` (`src/sql/parser.rs` L10168-10188). -/
def action199 (x0 : Str) (x1 : Str) : Option (Str × Str) := action182 (action184 x0 x1)

/-- `__action200` (`src/sql/parser.rs` L10191-10215). -/
def action200 (x0 : Str) (x1 : Str) (x2 : Str) (x3 : Statement Name) : SqlStatement Name :=
  action2 x0 (action199 x1 x2) x3

/-- `__action201` (`src/sql/parser.rs` L10218-10240). -/
def action201 (x0 : Str) (x1 : Statement Name) : SqlStatement Name := action2 x0 action183 x1

/-- `__action202` (`src/sql/parser.rs` L10243-10271). -/
def action202 (x0 : Option (List (Cte Name))) (x1 : Str) (x2 : Str) (x3 : List Name) (x4 : List Name)
    (x5 : SetExpr Name) : InsertStatement Name :=
  action9 x0 x1 x2 x3 (action178 x4) x5

/-- `__action203` (`src/sql/parser.rs` L10274-10302). -/
def action203 (x0 : Option (List (Cte Name))) (x1 : Str) (x2 : Str) (x3 : List Name)
    (x4 : SetExpr Name) : InsertStatement Name :=
  action9 x0 x1 x2 x3 action179 x4

/-- `__action204` (`src/sql/parser.rs` L10305-10331). -/
def action204 (x0 : Str) (x1 : Option (Expr Name)) (x2 : List (When Name)) (x3 : Expr Name)
    (x4 : Str) : Expr Name :=
  action124 x0 x1 x2 (action148 x3) x4

/-- `__action205` (`src/sql/parser.rs` L10334-10360). -/
def action205 (x0 : Str) (x1 : Option (Expr Name)) (x2 : List (When Name)) (x3 : Str) : Expr Name :=
  action124 x0 x1 x2 action149 x3

/-- `__action206` (`src/sql/parser.rs` L10363-10389). -/
def action206 (x0 : Str) (x1 : Expr Name) (x2 : List (When Name)) (x3 : Expr Name)
    (x4 : Str) : Expr Name :=
  action204 x0 (action152 x1) x2 x3 x4

/-- `__action207` (`src/sql/parser.rs` L10392-10418). -/
def action207 (x0 : Str) (x1 : List (When Name)) (x2 : Expr Name) (x3 : Str) : Expr Name :=
  action204 x0 action153 x1 x2 x3

/-- `__action208` (`src/sql/parser.rs` L10421-10445). -/
def action208 (x0 : Str) (x1 : Expr Name) (x2 : List (When Name)) (x3 : Str) : Expr Name :=
  action205 x0 (action152 x1) x2 x3

/-- `__action209` (`src/sql/parser.rs` L10448-10472). -/
def action209 (x0 : Str) (x1 : List (When Name)) (x2 : Str) : Expr Name := action205 x0 action153 x1 x2

/-- `__action210` (`src/sql/parser.rs` L10475-10501). -/
def action210 (x0 : Str) (x1 : SelectMode) (x2 : ResultColumns Name) (x3 : Option (Expr Name))
    (x4 : GroupBy Name) : SetExpr Name :=
  action29 x0 x1 x2 x3 (action170 x4)

/-- `__action211` (`src/sql/parser.rs` L10504-10530). -/
def action211 (x0 : Str) (x1 : SelectMode) (x2 : ResultColumns Name) (x3 : Option
    (Expr Name)) : SetExpr Name :=
  action29 x0 x1 x2 x3 action171

/-- `__action212` (`src/sql/parser.rs` L10533-10561). -/
def action212 (x0 : Str) (x1 : SelectMode) (x2 : ResultColumns Name) (x3 : List (TableExpr Name))
    (x4 : Option (Expr Name)) (x5 : GroupBy Name) : SetExpr Name :=
  action30 x0 x1 x2 x3 x4 (action170 x5)

/-- `__action213` (`src/sql/parser.rs` L10564-10592). -/
def action213 (x0 : Str) (x1 : SelectMode) (x2 : ResultColumns Name) (x3 : List (TableExpr Name))
    (x4 : Option (Expr Name)) : SetExpr Name :=
  action30 x0 x1 x2 x3 x4 action171

/-- `__action214` (`src/sql/parser.rs` L10595-10615). -/
def action214 (x0 : JoinType) (x1 : Str) : JoinOperator := action56 (action162 x0) x1

/-- `__action215` (`src/sql/parser.rs` L10618-10638). -/
def action215 (x0 : Str) : JoinOperator := action56 action163 x0

/-- `__action216` (`src/sql/parser.rs` L10641-10663). -/
def action216 (x0 : Str) (x1 : JoinType) (x2 : Str) : JoinOperator := action57 x0 (action162 x1) x2

/-- `__action217` (`src/sql/parser.rs` L10666-10688). -/
def action217 (x0 : Str) (x1 : Str) : JoinOperator := action57 x0 action163 x1

/-- `__action218` (`src/sql/parser.rs` L10691-10715). -/
def action218 (x0 : List (Cte Name)) (x1 : SetExpr Name) (x2 : Option (List (OrderTerm Name)))
    (x3 : Limit Name) : Select Name :=
  action16 x0 x1 x2 (action172 x3)

/-- `__action219` (`src/sql/parser.rs` L10718-10742). -/
def action219 (x0 : List (Cte Name)) (x1 : SetExpr Name) (x2 : Option (List
    (OrderTerm Name))) : Select Name :=
  action16 x0 x1 x2 action173

/-- `__action220` (`src/sql/parser.rs` L10745-10767). -/
def action220 (x0 : SetExpr Name) (x1 : Option (List (OrderTerm Name)))
    (x2 : Limit Name) : Select Name :=
  action17 x0 x1 (action172 x2)

/-- `__action221` (`src/sql/parser.rs` L10770-10792). -/
def action221 (x0 : SetExpr Name) (x1 : Option (List (OrderTerm Name))) : Select Name :=
  action17 x0 x1 action173

/-- `__action222` (`src/sql/parser.rs` L10795-10819). -/
def action222 (x0 : List (Cte Name)) (x1 : SetExpr Name) (x2 : List (OrderTerm Name))
    (x3 : Limit Name) : Select Name :=
  action218 x0 x1 (action174 x2) x3

/-- `__action223` (`src/sql/parser.rs` L10822-10846). -/
def action223 (x0 : List (Cte Name)) (x1 : SetExpr Name) (x2 : Limit Name) : Select Name :=
  action218 x0 x1 action175 x2

/-- `__action224` (`src/sql/parser.rs` L10849-10871). -/
def action224 (x0 : List (Cte Name)) (x1 : SetExpr Name) (x2 : List (OrderTerm Name)) : Select Name :=
  action219 x0 x1 (action174 x2)

/-- `__action225` (`src/sql/parser.rs` L10874-10896). -/
def action225 (x0 : List (Cte Name)) (x1 : SetExpr Name) : Select Name := action219 x0 x1 action175

/-- `__action226` (`src/sql/parser.rs` L10899-10921). -/
def action226 (x0 : SetExpr Name) (x1 : List (OrderTerm Name)) (x2 : Limit Name) : Select Name :=
  action220 x0 (action174 x1) x2

/-- `__action227` (`src/sql/parser.rs` L10924-10946). -/
def action227 (x0 : SetExpr Name) (x1 : Limit Name) : Select Name := action220 x0 action175 x1

/-- `__action228` (`src/sql/parser.rs` L10949-10969). -/
def action228 (x0 : SetExpr Name) (x1 : List (OrderTerm Name)) : Select Name :=
  action221 x0 (action174 x1)

/-- `__action229` (`src/sql/parser.rs` L10972-10992). -/
def action229 (x0 : SetExpr Name) : Select Name := action221 x0 action175

/-- `__action230` (`src/sql/parser.rs` L10995-11017). -/
def action230 (x0 : Expr Name) (x1 : Name) (x2 : OrderingDirection) : OrderTerm Name :=
  action73 x0 (action158 x1) x2

/-- `__action231` (`src/sql/parser.rs` L11020-11042). -/
def action231 (x0 : Expr Name) (x1 : OrderingDirection) : OrderTerm Name := action73 x0 action159 x1

/-- `__action232` (`src/sql/parser.rs` L11045-11073). -/
def action232 (x0 : Str) (x1 : Str) (x2 : Str) (x3 : Str) (x4 : Name)
    (x5 : Name) : AttachStatement Name :=
  action80 x0 x1 x2 x3 (action154 x4) x5

/-- `__action233` (`src/sql/parser.rs` L11076-11104). -/
def action233 (x0 : Str) (x1 : Str) (x2 : Str) (x3 : Str) (x4 : Name) : AttachStatement Name :=
  action80 x0 x1 x2 x3 action155 x4

/-- `__action234` (`src/sql/parser.rs` L11107-11129). -/
def action234 (x0 : Str) (x1 : Name) (x2 : Name) : DescribeStatement Name := action81 x0 (action154 x1) x2

/-- `__action235` (`src/sql/parser.rs` L11132-11154). -/
def action235 (x0 : Str) (x1 : Name) : DescribeStatement Name := action81 x0 action155 x1

/-- `__action236` (`src/sql/parser.rs` L11157-11177). -/
def action236 (x0 : List Name) (x1 : Name) : TableExpr Name := action52 x0 (action164 x1)

/-- `__action237` (`src/sql/parser.rs` L11180-11200). -/
def action237 (x0 : List Name) : TableExpr Name := action52 x0 action165

/-- `__action238` (`src/sql/parser.rs` L11203-11227). -/
def action238 (x0 : Str) (x1 : Select Name) (x2 : Str) (x3 : Name) : TableExpr Name :=
  action53 x0 x1 x2 (action164 x3)

/-- `__action239` (`src/sql/parser.rs` L11230-11254). -/
def action239 (x0 : Str) (x1 : Select Name) (x2 : Str) : TableExpr Name := action53 x0 x1 x2 action165

/-- `__action240` (`src/sql/parser.rs` L11257-11283). -/
def action240 (x0 : List (Cte Name)) (x1 : Str) (x2 : Str) (x3 : List Name) (x4 : Option
    (Expr Name)) : DeleteStatement Name :=
  action11 (action180 x0) x1 x2 x3 x4

/-- `__action241` (`src/sql/parser.rs` L11286-11312). -/
def action241 (x0 : Str) (x1 : Str) (x2 : List Name) (x3 : Option (Expr Name)) : DeleteStatement Name :=
  action11 action181 x0 x1 x2 x3

/-- `__action242` (`src/sql/parser.rs` L11315-11343). -/
def action242 (x0 : List (Cte Name)) (x1 : Str) (x2 : Str) (x3 : List Name) (x4 : List Name)
    (x5 : SetExpr Name) : InsertStatement Name :=
  action202 (action180 x0) x1 x2 x3 x4 x5

/-- `__action243` (`src/sql/parser.rs` L11346-11374). -/
def action243 (x0 : Str) (x1 : Str) (x2 : List Name) (x3 : List Name)
    (x4 : SetExpr Name) : InsertStatement Name :=
  action202 action181 x0 x1 x2 x3 x4

/-- `__action244` (`src/sql/parser.rs` L11377-11403). -/
def action244 (x0 : List (Cte Name)) (x1 : Str) (x2 : Str) (x3 : List Name)
    (x4 : SetExpr Name) : InsertStatement Name :=
  action203 (action180 x0) x1 x2 x3 x4

/-- `__action245` (`src/sql/parser.rs` L11406-11432). -/
def action245 (x0 : Str) (x1 : Str) (x2 : List Name) (x3 : SetExpr Name) : InsertStatement Name :=
  action203 action181 x0 x1 x2 x3

/-- `__action246` (`src/sql/parser.rs` L11435-11463). -/
def action246 (x0 : List (Cte Name)) (x1 : Str) (x2 : List Name) (x3 : Str) (x4 : List
    (Assignment Name)) (x5 : Option (Expr Name)) : UpdateStatement Name :=
  action12 (action180 x0) x1 x2 x3 x4 x5

/-- `__action247` (`src/sql/parser.rs` L11466-11494). -/
def action247 (x0 : Str) (x1 : List Name) (x2 : Str) (x3 : List (Assignment Name)) (x4 : Option
    (Expr Name)) : UpdateStatement Name :=
  action12 action181 x0 x1 x2 x3 x4

/-- `__action248` (`src/sql/parser.rs` L11497-11523). -/
def action248 (x0 : List (Cte Name)) (x1 : Str) (x2 : Str) (x3 : List Name)
    (x4 : Expr Name) : DeleteStatement Name :=
  action240 x0 x1 x2 x3 (action176 x4)

/-- `__action249` (`src/sql/parser.rs` L11526-11552). -/
def action249 (x0 : List (Cte Name)) (x1 : Str) (x2 : Str) (x3 : List Name) : DeleteStatement Name :=
  action240 x0 x1 x2 x3 action177

/-- `__action250` (`src/sql/parser.rs` L11555-11579). -/
def action250 (x0 : Str) (x1 : Str) (x2 : List Name) (x3 : Expr Name) : DeleteStatement Name :=
  action241 x0 x1 x2 (action176 x3)

/-- `__action251` (`src/sql/parser.rs` L11582-11606). -/
def action251 (x0 : Str) (x1 : Str) (x2 : List Name) : DeleteStatement Name :=
  action241 x0 x1 x2 action177

/-- `__action252` (`src/sql/parser.rs` L11609-11635). -/
def action252 (x0 : Str) (x1 : SelectMode) (x2 : ResultColumns Name) (x3 : Expr Name)
    (x4 : GroupBy Name) : SetExpr Name :=
  action210 x0 x1 x2 (action176 x3) x4

/-- `__action253` (`src/sql/parser.rs` L11638-11664). -/
def action253 (x0 : Str) (x1 : SelectMode) (x2 : ResultColumns Name)
    (x3 : GroupBy Name) : SetExpr Name :=
  action210 x0 x1 x2 action177 x3

/-- `__action254` (`src/sql/parser.rs` L11667-11691). -/
def action254 (x0 : Str) (x1 : SelectMode) (x2 : ResultColumns Name) (x3 : Expr Name) : SetExpr Name :=
  action211 x0 x1 x2 (action176 x3)

/-- `__action255` (`src/sql/parser.rs` L11694-11718). -/
def action255 (x0 : Str) (x1 : SelectMode) (x2 : ResultColumns Name) : SetExpr Name :=
  action211 x0 x1 x2 action177

/-- `__action256` (`src/sql/parser.rs` L11721-11749). -/
def action256 (x0 : Str) (x1 : SelectMode) (x2 : ResultColumns Name) (x3 : List (TableExpr Name))
    (x4 : Expr Name) (x5 : GroupBy Name) : SetExpr Name :=
  action212 x0 x1 x2 x3 (action176 x4) x5

/-- `__action257` (`src/sql/parser.rs` L11752-11780). -/
def action257 (x0 : Str) (x1 : SelectMode) (x2 : ResultColumns Name) (x3 : List (TableExpr Name))
    (x4 : GroupBy Name) : SetExpr Name :=
  action212 x0 x1 x2 x3 action177 x4

/-- `__action258` (`src/sql/parser.rs` L11783-11809). -/
def action258 (x0 : Str) (x1 : SelectMode) (x2 : ResultColumns Name) (x3 : List (TableExpr Name))
    (x4 : Expr Name) : SetExpr Name :=
  action213 x0 x1 x2 x3 (action176 x4)

/-- `__action259` (`src/sql/parser.rs` L11812-11838). -/
def action259 (x0 : Str) (x1 : SelectMode) (x2 : ResultColumns Name) (x3 : List
    (TableExpr Name)) : SetExpr Name :=
  action213 x0 x1 x2 x3 action177

/-- `__action260` (`src/sql/parser.rs` L11841-11869). -/
def action260 (x0 : List (Cte Name)) (x1 : Str) (x2 : List Name) (x3 : Str) (x4 : List
    (Assignment Name)) (x5 : Expr Name) : UpdateStatement Name :=
  action246 x0 x1 x2 x3 x4 (action176 x5)

/-- `__action261` (`src/sql/parser.rs` L11872-11900). -/
def action261 (x0 : List (Cte Name)) (x1 : Str) (x2 : List Name) (x3 : Str) (x4 : List
    (Assignment Name)) : UpdateStatement Name :=
  action246 x0 x1 x2 x3 x4 action177

/-- `__action262` (`src/sql/parser.rs` L11903-11929). -/
def action262 (x0 : Str) (x1 : List Name) (x2 : Str) (x3 : List (Assignment Name))
    (x4 : Expr Name) : UpdateStatement Name :=
  action247 x0 x1 x2 x3 (action176 x4)

/-- `__action263` (`src/sql/parser.rs` L11932-11958). -/
def action263 (x0 : Str) (x1 : List Name) (x2 : Str) (x3 : List
    (Assignment Name)) : UpdateStatement Name :=
  action247 x0 x1 x2 x3 action177

/-! ## Reductions -/

/-- `__symbol_type_mismatch` (`src/sql/parser.rs` L2687-2690). -/
def mismatch {α : Type} : Res α := .error .panic

/-- `__pop_Variant0` (`src/sql/parser.rs` L3219-3229). -/
def pop0 : List Symbol → Res (Str × List Symbol)
  | .variant0 v :: r => .ok (v, r)
  | _ => mismatch

/-- `__pop_Variant1` (`src/sql/parser.rs` L3197-3207). -/
def pop1 : List Symbol → Res (Option Str × List Symbol)
  | .variant1 v :: r => .ok (v, r)
  | _ => mismatch

/-- `__pop_Variant2` (`src/sql/parser.rs` L2691-2701). -/
def pop2 : List Symbol → Res ((Str × Str) × List Symbol)
  | .variant2 v :: r => .ok (v, r)
  | _ => mismatch

/-- `__pop_Variant3` (`src/sql/parser.rs` L3098-3108). -/
def pop3 : List Symbol → Res ((Option (Str × Str)) × List Symbol)
  | .variant3 v :: r => .ok (v, r)
  | _ => mismatch

/-- `__pop_Variant4` (`src/sql/parser.rs` L2702-2712). -/
def pop4 : List Symbol → Res (Expr Name × List Symbol)
  | .variant4 v :: r => .ok (v, r)
  | _ => mismatch

/-- `__pop_Variant5` (`src/sql/parser.rs` L2856-2866). -/
def pop5 : List Symbol → Res (Assignment Name × List Symbol)
  | .variant5 v :: r => .ok (v, r)
  | _ => mismatch

/-- `__pop_Variant6` (`src/sql/parser.rs` L2801-2811). -/
def pop6 : List Symbol → Res (List (Assignment Name) × List Symbol)
  | .variant6 v :: r => .ok (v, r)
  | _ => mismatch

/-- `__pop_Variant7` (`src/sql/parser.rs` L2867-2877). -/
def pop7 : List Symbol → Res (AttachStatement Name × List Symbol)
  | .variant7 v :: r => .ok (v, r)
  | _ => mismatch

/-- `__pop_Variant8` (`src/sql/parser.rs` L2834-2844). -/
def pop8 : List Symbol → Res (List Name × List Symbol)
  | .variant8 v :: r => .ok (v, r)
  | _ => mismatch

/-- `__pop_Variant9` (`src/sql/parser.rs` L3142-3152). -/
def pop9 : List Symbol → Res (Option (List Name) × List Symbol)
  | .variant9 v :: r => .ok (v, r)
  | _ => mismatch

/-- `__pop_Variant10` (`src/sql/parser.rs` L2878-2888). -/
def pop10 : List Symbol → Res (Cte Name × List Symbol)
  | .variant10 v :: r => .ok (v, r)
  | _ => mismatch

/-- `__pop_Variant11` (`src/sql/parser.rs` L2812-2822). -/
def pop11 : List Symbol → Res (List (Cte Name) × List Symbol)
  | .variant11 v :: r => .ok (v, r)
  | _ => mismatch

/-- `__pop_Variant12` (`src/sql/parser.rs` L3043-3053). -/
def pop12 : List Symbol → Res (SetOperator × List Symbol)
  | .variant12 v :: r => .ok (v, r)
  | _ => mismatch

/-- `__pop_Variant13` (`src/sql/parser.rs` L2889-2899). -/
def pop13 : List Symbol → Res (DeleteStatement Name × List Symbol)
  | .variant13 v :: r => .ok (v, r)
  | _ => mismatch

/-- `__pop_Variant14` (`src/sql/parser.rs` L2900-2910). -/
def pop14 : List Symbol → Res (DescribeStatement Name × List Symbol)
  | .variant14 v :: r => .ok (v, r)
  | _ => mismatch

/-- `__pop_Variant15` (`src/sql/parser.rs` L3109-3119). -/
def pop15 : List Symbol → Res (Option (Expr Name) × List Symbol)
  | .variant15 v :: r => .ok (v, r)
  | _ => mismatch

/-- `__pop_Variant16` (`src/sql/parser.rs` L2757-2767). -/
def pop16 : List Symbol → Res (List (Expr Name) × List Symbol)
  | .variant16 v :: r => .ok (v, r)
  | _ => mismatch

/-- `__pop_Variant17` (`src/sql/parser.rs` L2779-2789). -/
def pop17 : List Symbol → Res (List (TableExpr Name) × List Symbol)
  | .variant17 v :: r => .ok (v, r)
  | _ => mismatch

/-- `__pop_Variant18` (`src/sql/parser.rs` L2911-2921). -/
def pop18 : List Symbol → Res (GroupBy Name × List Symbol)
  | .variant18 v :: r => .ok (v, r)
  | _ => mismatch

/-- `__pop_Variant19` (`src/sql/parser.rs` L3153-3163). -/
def pop19 : List Symbol → Res (Option (GroupBy Name) × List Symbol)
  | .variant19 v :: r => .ok (v, r)
  | _ => mismatch

/-- `__pop_Variant20` (`src/sql/parser.rs` L3208-3218). -/
def pop20 : List Symbol → Res (Name × List Symbol)
  | .variant20 v :: r => .ok (v, r)
  | _ => mismatch

/-- `__pop_Variant21` (`src/sql/parser.rs` L2922-2932). -/
def pop21 : List Symbol → Res (InsertStatement Name × List Symbol)
  | .variant21 v :: r => .ok (v, r)
  | _ => mismatch

/-- `__pop_Variant22` (`src/sql/parser.rs` L2933-2943). -/
def pop22 : List Symbol → Res (JoinConstraint Name × List Symbol)
  | .variant22 v :: r => .ok (v, r)
  | _ => mismatch

/-- `__pop_Variant23` (`src/sql/parser.rs` L2944-2954). -/
def pop23 : List Symbol → Res (JoinOperator × List Symbol)
  | .variant23 v :: r => .ok (v, r)
  | _ => mismatch

/-- `__pop_Variant24` (`src/sql/parser.rs` L2955-2965). -/
def pop24 : List Symbol → Res (JoinType × List Symbol)
  | .variant24 v :: r => .ok (v, r)
  | _ => mismatch

/-- `__pop_Variant25` (`src/sql/parser.rs` L3164-3174). -/
def pop25 : List Symbol → Res (Option JoinType × List Symbol)
  | .variant25 v :: r => .ok (v, r)
  | _ => mismatch

/-- `__pop_Variant26` (`src/sql/parser.rs` L2966-2976). -/
def pop26 : List Symbol → Res (Limit Name × List Symbol)
  | .variant26 v :: r => .ok (v, r)
  | _ => mismatch

/-- `__pop_Variant27` (`src/sql/parser.rs` L3175-3185). -/
def pop27 : List Symbol → Res (Option (Limit Name) × List Symbol)
  | .variant27 v :: r => .ok (v, r)
  | _ => mismatch

/-- `__pop_Variant28` (`src/sql/parser.rs` L2977-2987). -/
def pop28 : List Symbol → Res (Literal × List Symbol)
  | .variant28 v :: r => .ok (v, r)
  | _ => mismatch

/-- `__pop_Variant29` (`src/sql/parser.rs` L2746-2756). -/
def pop29 : List Symbol → Res (Str × List Symbol)
  | .variant29 v :: r => .ok (v, r)
  | _ => mismatch

/-- `__pop_Variant30` (`src/sql/parser.rs` L2823-2833). -/
def pop30 : List Symbol → Res (List (OrderTerm Name) × List Symbol)
  | .variant30 v :: r => .ok (v, r)
  | _ => mismatch

/-- `__pop_Variant31` (`src/sql/parser.rs` L3131-3141). -/
def pop31 : List Symbol → Res (Option (List (OrderTerm Name)) × List Symbol)
  | .variant31 v :: r => .ok (v, r)
  | _ => mismatch

/-- `__pop_Variant32` (`src/sql/parser.rs` L3186-3196). -/
def pop32 : List Symbol → Res (Option Name × List Symbol)
  | .variant32 v :: r => .ok (v, r)
  | _ => mismatch

/-- `__pop_Variant33` (`src/sql/parser.rs` L2999-3009). -/
def pop33 : List Symbol → Res (OrderingDirection × List Symbol)
  | .variant33 v :: r => .ok (v, r)
  | _ => mismatch

/-- `__pop_Variant34` (`src/sql/parser.rs` L2988-2998). -/
def pop34 : List Symbol → Res (OrderTerm Name × List Symbol)
  | .variant34 v :: r => .ok (v, r)
  | _ => mismatch

/-- `__pop_Variant35` (`src/sql/parser.rs` L2713-2723). -/
def pop35 : List Symbol → Res (ResultColumn Name × List Symbol)
  | .variant35 v :: r => .ok (v, r)
  | _ => mismatch

/-- `__pop_Variant36` (`src/sql/parser.rs` L2768-2778). -/
def pop36 : List Symbol → Res (List (ResultColumn Name) × List Symbol)
  | .variant36 v :: r => .ok (v, r)
  | _ => mismatch

/-- `__pop_Variant37` (`src/sql/parser.rs` L3010-3020). -/
def pop37 : List Symbol → Res (ResultColumns Name × List Symbol)
  | .variant37 v :: r => .ok (v, r)
  | _ => mismatch

/-- `__pop_Variant38` (`src/sql/parser.rs` L2724-2734). -/
def pop38 : List Symbol → Res (SetExpr Name × List Symbol)
  | .variant38 v :: r => .ok (v, r)
  | _ => mismatch

/-- `__pop_Variant39` (`src/sql/parser.rs` L3021-3031). -/
def pop39 : List Symbol → Res (SelectMode × List Symbol)
  | .variant39 v :: r => .ok (v, r)
  | _ => mismatch

/-- `__pop_Variant40` (`src/sql/parser.rs` L3032-3042). -/
def pop40 : List Symbol → Res (Select Name × List Symbol)
  | .variant40 v :: r => .ok (v, r)
  | _ => mismatch

/-- `__pop_Variant41` (`src/sql/parser.rs` L3054-3064). -/
def pop41 : List Symbol → Res (SqlStatement Name × List Symbol)
  | .variant41 v :: r => .ok (v, r)
  | _ => mismatch

/-- `__pop_Variant42` (`src/sql/parser.rs` L3065-3075). -/
def pop42 : List Symbol → Res (Statement Name × List Symbol)
  | .variant42 v :: r => .ok (v, r)
  | _ => mismatch

/-- `__pop_Variant43` (`src/sql/parser.rs` L2735-2745). -/
def pop43 : List Symbol → Res (TableExpr Name × List Symbol)
  | .variant43 v :: r => .ok (v, r)
  | _ => mismatch

/-- `__pop_Variant44` (`src/sql/parser.rs` L3120-3130). -/
def pop44 : List Symbol → Res (Option (List (Cte Name)) × List Symbol)
  | .variant44 v :: r => .ok (v, r)
  | _ => mismatch

/-- `__pop_Variant45` (`src/sql/parser.rs` L2790-2800). -/
def pop45 : List Symbol → Res (List (List (Expr Name)) × List Symbol)
  | .variant45 v :: r => .ok (v, r)
  | _ => mismatch

/-- `__pop_Variant46` (`src/sql/parser.rs` L3076-3086). -/
def pop46 : List Symbol → Res (UpdateStatement Name × List Symbol)
  | .variant46 v :: r => .ok (v, r)
  | _ => mismatch

/-- `__pop_Variant47` (`src/sql/parser.rs` L3087-3097). -/
def pop47 : List Symbol → Res (When Name × List Symbol)
  | .variant47 v :: r => .ok (v, r)
  | _ => mismatch

/-- `__pop_Variant48` (`src/sql/parser.rs` L2845-2855). -/
def pop48 : List Symbol → Res (List (When Name) × List Symbol)
  | .variant48 v :: r => .ok (v, r)
  | _ => mismatch

/-- `__reduce0` (`src/sql/parser.rs` L3230-3246): `"ALL"? = "ALL"`. -/
def reduce0 (st : List Symbol) : Res (List Symbol) := do
  let (s0, st) ← pop0 st
  .ok (.variant1 (action168 s0) :: st)

/-- `__reduce1` (`src/sql/parser.rs` L3247-3262): `"ALL"? = `. -/
def reduce1 (st : List Symbol) : Res (List Symbol) := .ok (.variant1 action169 :: st)

/-- `__reduce2` (`src/sql/parser.rs` L3263-3279): `"AS"? = "AS"`. -/
def reduce2 (st : List Symbol) : Res (List Symbol) := do
  let (s0, st) ← pop0 st
  .ok (.variant1 (action166 s0) :: st)

/-- `__reduce3` (`src/sql/parser.rs` L3280-3295): `"AS"? = `. -/
def reduce3 (st : List Symbol) : Res (List Symbol) := .ok (.variant1 action167 :: st)

/-- `__reduce4` (`src/sql/parser.rs` L3296-3312): `"ASC"? = "ASC"`. -/
def reduce4 (st : List Symbol) : Res (List Symbol) := do
  let (s0, st) ← pop0 st
  .ok (.variant1 (action156 s0) :: st)

/-- `__reduce5` (`src/sql/parser.rs` L3313-3328): `"ASC"? = `. -/
def reduce5 (st : List Symbol) : Res (List Symbol) := .ok (.variant1 action157 :: st)

/-- `__reduce6` (`src/sql/parser.rs` L3329-3345): `"OUTER"? = "OUTER"`. -/
def reduce6 (st : List Symbol) : Res (List Symbol) := do
  let (s0, st) ← pop0 st
  .ok (.variant1 (action160 s0) :: st)

/-- `__reduce7` (`src/sql/parser.rs` L3346-3361): `"OUTER"? = `. -/
def reduce7 (st : List Symbol) : Res (List Symbol) := .ok (.variant1 action161 :: st)

/-- `__reduce8` (`src/sql/parser.rs` L3362-3380): `("QUERY" "PLAN") = "QUERY", "PLAN"`. -/
def reduce8 (st : List Symbol) : Res (List Symbol) := do
  let (s1, st) ← pop0 st
  let (s0, st) ← pop0 st
  .ok (.variant2 (action184 s0 s1) :: st)

/-- `__reduce9` (`src/sql/parser.rs` L3381-3399): `("QUERY" "PLAN")? = "QUERY", "PLAN"`. -/
def reduce9 (st : List Symbol) : Res (List Symbol) := do
  let (s1, st) ← pop0 st
  let (s0, st) ← pop0 st
  .ok (.variant3 (action199 s0 s1) :: st)

/-- `__reduce10` (`src/sql/parser.rs` L3400-3415): `("QUERY" "PLAN")? = `. -/
def reduce10 (st : List Symbol) : Res (List Symbol) := .ok (.variant3 action183 :: st)

/-- `__reduce11` (`src/sql/parser.rs` L3416-3432): `AdditiveExpression = MultiplicativeExpression`. -/
def reduce11 (st : List Symbol) : Res (List Symbol) := do
  let (s0, st) ← pop4 st
  .ok (.variant4 (action95 s0) :: st)

/-- `__reduce12` (`src/sql/parser.rs` L3433-3452): `AdditiveExpression = AdditiveExpression, "+", MultiplicativeExpression`. -/
def reduce12 (st : List Symbol) : Res (List Symbol) := do
  let (s2, st) ← pop4 st
  let (s1, st) ← pop0 st
  let (s0, st) ← pop4 st
  .ok (.variant4 (action96 s0 s1 s2) :: st)

/-- `__reduce13` (`src/sql/parser.rs` L3453-3472): `AdditiveExpression = AdditiveExpression, "-", MultiplicativeExpression`. -/
def reduce13 (st : List Symbol) : Res (List Symbol) := do
  let (s2, st) ← pop4 st
  let (s1, st) ← pop0 st
  let (s0, st) ← pop4 st
  .ok (.variant4 (action97 s0 s1 s2) :: st)

/-- `__reduce14` (`src/sql/parser.rs` L3473-3492): `AdditiveExpression = AdditiveExpression, "||", MultiplicativeExpression`. -/
def reduce14 (st : List Symbol) : Res (List Symbol) := do
  let (s2, st) ← pop4 st
  let (s1, st) ← pop0 st
  let (s0, st) ← pop4 st
  .ok (.variant4 (action98 s0 s1 s2) :: st)

/-- `__reduce15` (`src/sql/parser.rs` L3493-3509): `AndExpression = NotExpression`. -/
def reduce15 (st : List Symbol) : Res (List Symbol) := do
  let (s0, st) ← pop4 st
  .ok (.variant4 (action129 s0) :: st)

/-- `__reduce16` (`src/sql/parser.rs` L3510-3529): `AndExpression = AndExpression, "AND", NotExpression`. -/
def reduce16 (st : List Symbol) : Res (List Symbol) := do
  let (s2, st) ← pop4 st
  let (s1, st) ← pop0 st
  let (s0, st) ← pop4 st
  .ok (.variant4 (action130 s0 s1 s2) :: st)

/-- `__reduce17` (`src/sql/parser.rs` L3530-3549): `Assignment = IdentifierList, "=", Expression`. -/
def reduce17 (st : List Symbol) : Res (List Symbol) := do
  let (s2, st) ← pop4 st
  let (s1, st) ← pop0 st
  let (s0, st) ← pop8 st
  .ok (.variant5 (action15 s0 s1 s2) :: st)

/-- `__reduce18` (`src/sql/parser.rs` L3550-3566): `Assignments = Assignment`. -/
def reduce18 (st : List Symbol) : Res (List Symbol) := do
  let (s0, st) ← pop5 st
  .ok (.variant6 (action13 s0) :: st)

/-- `__reduce19` (`src/sql/parser.rs` L3567-3586): `Assignments = Assignments, ",", Assignment`. -/
def reduce19 (st : List Symbol) : Res (List Symbol) := do
  let (s2, st) ← pop5 st
  let (s1, st) ← pop0 st
  let (s0, st) ← pop6 st
  .ok (.variant6 (action14 s0 s1 s2) :: st)

/-- `__reduce20` (`src/sql/parser.rs` L3587-3609): `AttachStatement = "ATTACH", "FILE", StringLiteral, "AS", SchemaName, Identifier`. -/
def reduce20 (st : List Symbol) : Res (List Symbol) := do
  let (s5, st) ← pop20 st
  let (s4, st) ← pop20 st
  let (s3, st) ← pop0 st
  let (s2, st) ← pop29 st
  let (s1, st) ← pop0 st
  let (s0, st) ← pop0 st
  .ok (.variant7 (action232 s0 s1 s2 s3 s4 s5) :: st)

/-- `__reduce21` (`src/sql/parser.rs` L3610-3631): `AttachStatement = "ATTACH", "FILE", StringLiteral, "AS", Identifier`. -/
def reduce21 (st : List Symbol) : Res (List Symbol) := do
  let (s4, st) ← pop20 st
  let (s3, st) ← pop0 st
  let (s2, st) ← pop29 st
  let (s1, st) ← pop0 st
  let (s0, st) ← pop0 st
  .ok (.variant7 (action233 s0 s1 s2 s3 s4) :: st)

/-- `__reduce22` (`src/sql/parser.rs` L3632-3653): `CaseExpression = "CASE", Expression, WhenClause+, ElseClause, "END"`. -/
def reduce22 (st : List Symbol) : Res (List Symbol) := do
  let (s4, st) ← pop0 st
  let (s3, st) ← pop4 st
  let (s2, st) ← pop48 st
  let (s1, st) ← pop4 st
  let (s0, st) ← pop0 st
  .ok (.variant4 (action206 s0 s1 s2 s3 s4) :: st)

/-- `__reduce23` (`src/sql/parser.rs` L3654-3674): `CaseExpression = "CASE", WhenClause+, ElseClause, "END"`. -/
def reduce23 (st : List Symbol) : Res (List Symbol) := do
  let (s3, st) ← pop0 st
  let (s2, st) ← pop4 st
  let (s1, st) ← pop48 st
  let (s0, st) ← pop0 st
  .ok (.variant4 (action207 s0 s1 s2 s3) :: st)

/-- `__reduce24` (`src/sql/parser.rs` L3675-3695): `CaseExpression = "CASE", Expression, WhenClause+, "END"`. -/
def reduce24 (st : List Symbol) : Res (List Symbol) := do
  let (s3, st) ← pop0 st
  let (s2, st) ← pop48 st
  let (s1, st) ← pop4 st
  let (s0, st) ← pop0 st
  .ok (.variant4 (action208 s0 s1 s2 s3) :: st)

/-- `__reduce25` (`src/sql/parser.rs` L3696-3715): `CaseExpression = "CASE", WhenClause+, "END"`. -/
def reduce25 (st : List Symbol) : Res (List Symbol) := do
  let (s2, st) ← pop0 st
  let (s1, st) ← pop48 st
  let (s0, st) ← pop0 st
  .ok (.variant4 (action209 s0 s1 s2) :: st)

/-- `__reduce26` (`src/sql/parser.rs` L3716-3735): `ColumnNameList = "(", IdentifierList, ")"`. -/
def reduce26 (st : List Symbol) : Res (List Symbol) := do
  let (s2, st) ← pop0 st
  let (s1, st) ← pop8 st
  let (s0, st) ← pop0 st
  .ok (.variant8 (action10 s0 s1 s2) :: st)

/-- `__reduce27` (`src/sql/parser.rs` L3736-3752): `ColumnNameList? = ColumnNameList`. -/
def reduce27 (st : List Symbol) : Res (List Symbol) := do
  let (s0, st) ← pop8 st
  .ok (.variant9 (action178 s0) :: st)

/-- `__reduce28` (`src/sql/parser.rs` L3753-3768): `ColumnNameList? = `. -/
def reduce28 (st : List Symbol) : Res (List Symbol) := .ok (.variant9 action179 :: st)

/-- `__reduce29` (`src/sql/parser.rs` L3769-3790): `CommonTableExpression = Identifier, "AS", "(", SelectStatement, ")"`. -/
def reduce29 (st : List Symbol) : Res (List Symbol) := do
  let (s4, st) ← pop0 st
  let (s3, st) ← pop40 st
  let (s2, st) ← pop0 st
  let (s1, st) ← pop0 st
  let (s0, st) ← pop20 st
  .ok (.variant10 (action21 s0 s1 s2 s3 s4) :: st)

/-- `__reduce30` (`src/sql/parser.rs` L3791-3815): `CommonTableExpression = Identifier, "(", IdentifierList, ")", "AS", "(", SelectStatement, ")"`. -/
def reduce30 (st : List Symbol) : Res (List Symbol) := do
  let (s7, st) ← pop0 st
  let (s6, st) ← pop40 st
  let (s5, st) ← pop0 st
  let (s4, st) ← pop0 st
  let (s3, st) ← pop0 st
  let (s2, st) ← pop8 st
  let (s1, st) ← pop0 st
  let (s0, st) ← pop20 st
  .ok (.variant10 (action22 s0 s1 s2 s3 s4 s5 s6 s7) :: st)

/-- `__reduce31` (`src/sql/parser.rs` L3816-3832): `CommonTableExpressionList = CommonTableExpression`. -/
def reduce31 (st : List Symbol) : Res (List Symbol) := do
  let (s0, st) ← pop10 st
  .ok (.variant11 (action19 s0) :: st)

/-- `__reduce32` (`src/sql/parser.rs` L3833-3852): `CommonTableExpressionList = CommonTableExpressionList, ",", CommonTableExpression`. -/
def reduce32 (st : List Symbol) : Res (List Symbol) := do
  let (s2, st) ← pop10 st
  let (s1, st) ← pop0 st
  let (s0, st) ← pop11 st
  .ok (.variant11 (action20 s0 s1 s2) :: st)

/-- `__reduce33` (`src/sql/parser.rs` L3853-3869): `ComparativeExpression = AdditiveExpression`. -/
def reduce33 (st : List Symbol) : Res (List Symbol) := do
  let (s0, st) ← pop4 st
  .ok (.variant4 (action99 s0) :: st)

/-- `__reduce34` (`src/sql/parser.rs` L3870-3889): `ComparativeExpression = ComparativeExpression, "=", AdditiveExpression`. -/
def reduce34 (st : List Symbol) : Res (List Symbol) := do
  let (s2, st) ← pop4 st
  let (s1, st) ← pop0 st
  let (s0, st) ← pop4 st
  .ok (.variant4 (action100 s0 s1 s2) :: st)

/-- `__reduce35` (`src/sql/parser.rs` L3890-3909): `ComparativeExpression = ComparativeExpression, "!=", AdditiveExpression`. -/
def reduce35 (st : List Symbol) : Res (List Symbol) := do
  let (s2, st) ← pop4 st
  let (s1, st) ← pop0 st
  let (s0, st) ← pop4 st
  .ok (.variant4 (action101 s0 s1 s2) :: st)

/-- `__reduce36` (`src/sql/parser.rs` L3910-3929): `ComparativeExpression = ComparativeExpression, "<", AdditiveExpression`. -/
def reduce36 (st : List Symbol) : Res (List Symbol) := do
  let (s2, st) ← pop4 st
  let (s1, st) ← pop0 st
  let (s0, st) ← pop4 st
  .ok (.variant4 (action102 s0 s1 s2) :: st)

/-- `__reduce37` (`src/sql/parser.rs` L3930-3949): `ComparativeExpression = ComparativeExpression, ">", AdditiveExpression`. -/
def reduce37 (st : List Symbol) : Res (List Symbol) := do
  let (s2, st) ← pop4 st
  let (s1, st) ← pop0 st
  let (s0, st) ← pop4 st
  .ok (.variant4 (action103 s0 s1 s2) :: st)

/-- `__reduce38` (`src/sql/parser.rs` L3950-3969): `ComparativeExpression = ComparativeExpression, "<=", AdditiveExpression`. -/
def reduce38 (st : List Symbol) : Res (List Symbol) := do
  let (s2, st) ← pop4 st
  let (s1, st) ← pop0 st
  let (s0, st) ← pop4 st
  .ok (.variant4 (action104 s0 s1 s2) :: st)

/-- `__reduce39` (`src/sql/parser.rs` L3970-3989): `ComparativeExpression = ComparativeExpression, ">=", AdditiveExpression`. -/
def reduce39 (st : List Symbol) : Res (List Symbol) := do
  let (s2, st) ← pop4 st
  let (s1, st) ← pop0 st
  let (s0, st) ← pop4 st
  .ok (.variant4 (action105 s0 s1 s2) :: st)

/-- `__reduce40` (`src/sql/parser.rs` L3990-4009): `ComparativeExpression = ComparativeExpression, "IS", "NULL"`. -/
def reduce40 (st : List Symbol) : Res (List Symbol) := do
  let (s2, st) ← pop0 st
  let (s1, st) ← pop0 st
  let (s0, st) ← pop4 st
  .ok (.variant4 (action106 s0 s1 s2) :: st)

/-- `__reduce41` (`src/sql/parser.rs` L4010-4030): `ComparativeExpression = ComparativeExpression, "IS", "NOT", "NULL"`. -/
def reduce41 (st : List Symbol) : Res (List Symbol) := do
  let (s3, st) ← pop0 st
  let (s2, st) ← pop0 st
  let (s1, st) ← pop0 st
  let (s0, st) ← pop4 st
  .ok (.variant4 (action107 s0 s1 s2 s3) :: st)

/-- `__reduce42` (`src/sql/parser.rs` L4031-4050): `ComparativeExpression = ComparativeExpression, "LIKE", AdditiveExpression`. -/
def reduce42 (st : List Symbol) : Res (List Symbol) := do
  let (s2, st) ← pop4 st
  let (s1, st) ← pop0 st
  let (s0, st) ← pop4 st
  .ok (.variant4 (action108 s0 s1 s2) :: st)

/-- `__reduce43` (`src/sql/parser.rs` L4051-4069): `ComparativeExpression = ComparativeExpression, "ISNULL"`. -/
def reduce43 (st : List Symbol) : Res (List Symbol) := do
  let (s1, st) ← pop0 st
  let (s0, st) ← pop4 st
  .ok (.variant4 (action109 s0 s1) :: st)

/-- `__reduce44` (`src/sql/parser.rs` L4070-4088): `ComparativeExpression = ComparativeExpression, "NOTNULL"`. -/
def reduce44 (st : List Symbol) : Res (List Symbol) := do
  let (s1, st) ← pop0 st
  let (s0, st) ← pop4 st
  .ok (.variant4 (action110 s0 s1) :: st)

/-- `__reduce45` (`src/sql/parser.rs` L4089-4108): `ComparativeExpression = ComparativeExpression, "NOT", "NULL"`. -/
def reduce45 (st : List Symbol) : Res (List Symbol) := do
  let (s2, st) ← pop0 st
  let (s1, st) ← pop0 st
  let (s0, st) ← pop4 st
  .ok (.variant4 (action111 s0 s1 s2) :: st)

/-- `__reduce46` (`src/sql/parser.rs` L4109-4129): `ComparativeExpression = ComparativeExpression, "IN", "(", ")"`. -/
def reduce46 (st : List Symbol) : Res (List Symbol) := do
  let (s3, st) ← pop0 st
  let (s2, st) ← pop0 st
  let (s1, st) ← pop0 st
  let (s0, st) ← pop4 st
  .ok (.variant4 (action112 s0 s1 s2 s3) :: st)

/-- `__reduce47` (`src/sql/parser.rs` L4130-4151): `ComparativeExpression = ComparativeExpression, "NOT", "IN", "(", ")"`. -/
def reduce47 (st : List Symbol) : Res (List Symbol) := do
  let (s4, st) ← pop0 st
  let (s3, st) ← pop0 st
  let (s2, st) ← pop0 st
  let (s1, st) ← pop0 st
  let (s0, st) ← pop4 st
  .ok (.variant4 (action113 s0 s1 s2 s3 s4) :: st)

/-- `__reduce48` (`src/sql/parser.rs` L4152-4173): `ComparativeExpression = ComparativeExpression, "IN", "(", ExpressionList, ")"`. -/
def reduce48 (st : List Symbol) : Res (List Symbol) := do
  let (s4, st) ← pop0 st
  let (s3, st) ← pop16 st
  let (s2, st) ← pop0 st
  let (s1, st) ← pop0 st
  let (s0, st) ← pop4 st
  .ok (.variant4 (action114 s0 s1 s2 s3 s4) :: st)

/-- `__reduce49` (`src/sql/parser.rs` L4174-4196): `ComparativeExpression = ComparativeExpression, "NOT", "IN", "(", ExpressionList, ")"`. -/
def reduce49 (st : List Symbol) : Res (List Symbol) := do
  let (s5, st) ← pop0 st
  let (s4, st) ← pop16 st
  let (s3, st) ← pop0 st
  let (s2, st) ← pop0 st
  let (s1, st) ← pop0 st
  let (s0, st) ← pop4 st
  .ok (.variant4 (action115 s0 s1 s2 s3 s4 s5) :: st)

/-- `__reduce50` (`src/sql/parser.rs` L4197-4218): `ComparativeExpression = ComparativeExpression, "IN", "(", SelectStatement, ")"`. -/
def reduce50 (st : List Symbol) : Res (List Symbol) := do
  let (s4, st) ← pop0 st
  let (s3, st) ← pop40 st
  let (s2, st) ← pop0 st
  let (s1, st) ← pop0 st
  let (s0, st) ← pop4 st
  .ok (.variant4 (action116 s0 s1 s2 s3 s4) :: st)

/-- `__reduce51` (`src/sql/parser.rs` L4219-4241): `ComparativeExpression = ComparativeExpression, "NOT", "IN", "(", SelectStatement, ")"`. -/
def reduce51 (st : List Symbol) : Res (List Symbol) := do
  let (s5, st) ← pop0 st
  let (s4, st) ← pop40 st
  let (s3, st) ← pop0 st
  let (s2, st) ← pop0 st
  let (s1, st) ← pop0 st
  let (s0, st) ← pop4 st
  .ok (.variant4 (action117 s0 s1 s2 s3 s4 s5) :: st)

/-- `__reduce52` (`src/sql/parser.rs` L4242-4261): `ComparativeExpression = ComparativeExpression, "IN", QualifiedIdentifier`. -/
def reduce52 (st : List Symbol) : Res (List Symbol) := do
  let (s2, st) ← pop8 st
  let (s1, st) ← pop0 st
  let (s0, st) ← pop4 st
  .ok (.variant4 (action118 s0 s1 s2) :: st)

/-- `__reduce53` (`src/sql/parser.rs` L4262-4282): `ComparativeExpression = ComparativeExpression, "NOT", "IN", QualifiedIdentifier`. -/
def reduce53 (st : List Symbol) : Res (List Symbol) := do
  let (s3, st) ← pop8 st
  let (s2, st) ← pop0 st
  let (s1, st) ← pop0 st
  let (s0, st) ← pop4 st
  .ok (.variant4 (action119 s0 s1 s2 s3) :: st)

/-- `__reduce54` (`src/sql/parser.rs` L4283-4304): `ComparativeExpression = ComparativeExpression, "BETWEEN", AdditiveExpression, "AND", AdditiveExpression`. -/
def reduce54 (st : List Symbol) : Res (List Symbol) := do
  let (s4, st) ← pop4 st
  let (s3, st) ← pop0 st
  let (s2, st) ← pop4 st
  let (s1, st) ← pop0 st
  let (s0, st) ← pop4 st
  .ok (.variant4 (action120 s0 s1 s2 s3 s4) :: st)

/-- `__reduce55` (`src/sql/parser.rs` L4305-4327): `ComparativeExpression = ComparativeExpression, "NOT", "BETWEEN", AdditiveExpression, "AND", AdditiveExpression`. -/
def reduce55 (st : List Symbol) : Res (List Symbol) := do
  let (s5, st) ← pop4 st
  let (s4, st) ← pop0 st
  let (s3, st) ← pop4 st
  let (s2, st) ← pop0 st
  let (s1, st) ← pop0 st
  let (s0, st) ← pop4 st
  .ok (.variant4 (action121 s0 s1 s2 s3 s4 s5) :: st)

/-- `__reduce56` (`src/sql/parser.rs` L4328-4344): `ComplexExpression = ComparativeExpression`. -/
def reduce56 (st : List Symbol) : Res (List Symbol) := do
  let (s0, st) ← pop4 st
  .ok (.variant4 (action122 s0) :: st)

/-- `__reduce57` (`src/sql/parser.rs` L4345-4361): `ComplexExpression = CaseExpression`. -/
def reduce57 (st : List Symbol) : Res (List Symbol) := do
  let (s0, st) ← pop4 st
  .ok (.variant4 (action123 s0) :: st)

/-- `__reduce58` (`src/sql/parser.rs` L4362-4378): `CompoundOperator = "UNION"`. -/
def reduce58 (st : List Symbol) : Res (List Symbol) := do
  let (s0, st) ← pop0 st
  .ok (.variant12 (action25 s0) :: st)

/-- `__reduce59` (`src/sql/parser.rs` L4379-4397): `CompoundOperator = "UNION", "ALL"`. -/
def reduce59 (st : List Symbol) : Res (List Symbol) := do
  let (s1, st) ← pop0 st
  let (s0, st) ← pop0 st
  .ok (.variant12 (action26 s0 s1) :: st)

/-- `__reduce60` (`src/sql/parser.rs` L4398-4414): `CompoundOperator = "INTERSECT"`. -/
def reduce60 (st : List Symbol) : Res (List Symbol) := do
  let (s0, st) ← pop0 st
  .ok (.variant12 (action27 s0) :: st)

/-- `__reduce61` (`src/sql/parser.rs` L4415-4431): `CompoundOperator = "EXCEPT"`. -/
def reduce61 (st : List Symbol) : Res (List Symbol) := do
  let (s0, st) ← pop0 st
  .ok (.variant12 (action28 s0) :: st)

/-- `__reduce62` (`src/sql/parser.rs` L4432-4453): `DeleteStatement = TableExpressions, "DELETE", "FROM", QualifiedIdentifier, WhereClause`. -/
def reduce62 (st : List Symbol) : Res (List Symbol) := do
  let (s4, st) ← pop4 st
  let (s3, st) ← pop8 st
  let (s2, st) ← pop0 st
  let (s1, st) ← pop0 st
  let (s0, st) ← pop11 st
  .ok (.variant13 (action248 s0 s1 s2 s3 s4) :: st)

/-- `__reduce63` (`src/sql/parser.rs` L4454-4474): `DeleteStatement = TableExpressions, "DELETE", "FROM", QualifiedIdentifier`. -/
def reduce63 (st : List Symbol) : Res (List Symbol) := do
  let (s3, st) ← pop8 st
  let (s2, st) ← pop0 st
  let (s1, st) ← pop0 st
  let (s0, st) ← pop11 st
  .ok (.variant13 (action249 s0 s1 s2 s3) :: st)

/-- `__reduce64` (`src/sql/parser.rs` L4475-4495): `DeleteStatement = "DELETE", "FROM", QualifiedIdentifier, WhereClause`. -/
def reduce64 (st : List Symbol) : Res (List Symbol) := do
  let (s3, st) ← pop4 st
  let (s2, st) ← pop8 st
  let (s1, st) ← pop0 st
  let (s0, st) ← pop0 st
  .ok (.variant13 (action250 s0 s1 s2 s3) :: st)

/-- `__reduce65` (`src/sql/parser.rs` L4496-4515): `DeleteStatement = "DELETE", "FROM", QualifiedIdentifier`. -/
def reduce65 (st : List Symbol) : Res (List Symbol) := do
  let (s2, st) ← pop8 st
  let (s1, st) ← pop0 st
  let (s0, st) ← pop0 st
  .ok (.variant13 (action251 s0 s1 s2) :: st)

/-- `__reduce66` (`src/sql/parser.rs` L4516-4535): `DescribeStatement = "DESCRIBE", SchemaName, Identifier`. -/
def reduce66 (st : List Symbol) : Res (List Symbol) := do
  let (s2, st) ← pop20 st
  let (s1, st) ← pop20 st
  let (s0, st) ← pop0 st
  .ok (.variant14 (action234 s0 s1 s2) :: st)

/-- `__reduce67` (`src/sql/parser.rs` L4536-4554): `DescribeStatement = "DESCRIBE", Identifier`. -/
def reduce67 (st : List Symbol) : Res (List Symbol) := do
  let (s1, st) ← pop20 st
  let (s0, st) ← pop0 st
  .ok (.variant14 (action235 s0 s1) :: st)

/-- `__reduce68` (`src/sql/parser.rs` L4555-4573): `ElseClause = "ELSE", Expression`. -/
def reduce68 (st : List Symbol) : Res (List Symbol) := do
  let (s1, st) ← pop4 st
  let (s0, st) ← pop0 st
  .ok (.variant4 (action126 s0 s1) :: st)

/-- `__reduce69` (`src/sql/parser.rs` L4574-4590): `ElseClause? = ElseClause`. -/
def reduce69 (st : List Symbol) : Res (List Symbol) := do
  let (s0, st) ← pop4 st
  .ok (.variant15 (action148 s0) :: st)

/-- `__reduce70` (`src/sql/parser.rs` L4591-4606): `ElseClause? = `. -/
def reduce70 (st : List Symbol) : Res (List Symbol) := .ok (.variant15 action149 :: st)

/-- `__reduce71` (`src/sql/parser.rs` L4607-4623): `Expression = OrExpression`. -/
def reduce71 (st : List Symbol) : Res (List Symbol) := do
  let (s0, st) ← pop4 st
  .ok (.variant4 (action133 s0) :: st)

/-- `__reduce72` (`src/sql/parser.rs` L4624-4640): `Expression? = Expression`. -/
def reduce72 (st : List Symbol) : Res (List Symbol) := do
  let (s0, st) ← pop4 st
  .ok (.variant15 (action152 s0) :: st)

/-- `__reduce73` (`src/sql/parser.rs` L4641-4656): `Expression? = `. -/
def reduce73 (st : List Symbol) : Res (List Symbol) := .ok (.variant15 action153 :: st)

/-- `__reduce74` (`src/sql/parser.rs` L4657-4673): `ExpressionList = Expression`. -/
def reduce74 (st : List Symbol) : Res (List Symbol) := do
  let (s0, st) ← pop4 st
  .ok (.variant16 (action83 s0) :: st)

/-- `__reduce75` (`src/sql/parser.rs` L4674-4693): `ExpressionList = ExpressionList, ",", Expression`. -/
def reduce75 (st : List Symbol) : Res (List Symbol) := do
  let (s2, st) ← pop4 st
  let (s1, st) ← pop0 st
  let (s0, st) ← pop16 st
  .ok (.variant16 (action84 s0 s1 s2) :: st)

/-- `__reduce76` (`src/sql/parser.rs` L4694-4712): `FromClause = "FROM", TableExpressionList`. -/
def reduce76 (st : List Symbol) : Res (List Symbol) := do
  let (s1, st) ← pop17 st
  let (s0, st) ← pop0 st
  .ok (.variant17 (action47 s0 s1) :: st)

/-- `__reduce77` (`src/sql/parser.rs` L4713-4732): `GroupByClause = "GROUP", "BY", ExpressionList`. -/
def reduce77 (st : List Symbol) : Res (List Symbol) := do
  let (s2, st) ← pop16 st
  let (s1, st) ← pop0 st
  let (s0, st) ← pop0 st
  .ok (.variant18 (action68 s0 s1 s2) :: st)

/-- `__reduce78` (`src/sql/parser.rs` L4733-4754): `GroupByClause = "GROUP", "BY", ExpressionList, "HAVING", Expression`. -/
def reduce78 (st : List Symbol) : Res (List Symbol) := do
  let (s4, st) ← pop4 st
  let (s3, st) ← pop0 st
  let (s2, st) ← pop16 st
  let (s1, st) ← pop0 st
  let (s0, st) ← pop0 st
  .ok (.variant18 (action69 s0 s1 s2 s3 s4) :: st)

/-- `__reduce79` (`src/sql/parser.rs` L4755-4771): `GroupByClause? = GroupByClause`. -/
def reduce79 (st : List Symbol) : Res (List Symbol) := do
  let (s0, st) ← pop18 st
  .ok (.variant19 (action170 s0) :: st)

/-- `__reduce80` (`src/sql/parser.rs` L4772-4787): `GroupByClause? = `. -/
def reduce80 (st : List Symbol) : Res (List Symbol) := .ok (.variant19 action171 :: st)

/-- `__reduce81` (`src/sql/parser.rs` L4788-4804): `Identifier = ID`. -/
def reduce81 (st : List Symbol) : Res (List Symbol) := do
  let (s0, st) ← pop0 st
  .ok (.variant20 (action143 s0) :: st)

/-- `__reduce82` (`src/sql/parser.rs` L4805-4821): `IdentifierList = Identifier`. -/
def reduce82 (st : List Symbol) : Res (List Symbol) := do
  let (s0, st) ← pop20 st
  .ok (.variant8 (action65 s0) :: st)

/-- `__reduce83` (`src/sql/parser.rs` L4822-4841): `IdentifierList = IdentifierList, ",", Identifier`. -/
def reduce83 (st : List Symbol) : Res (List Symbol) := do
  let (s2, st) ← pop20 st
  let (s1, st) ← pop0 st
  let (s0, st) ← pop8 st
  .ok (.variant8 (action66 s0 s1 s2) :: st)

/-- `__reduce84` (`src/sql/parser.rs` L4842-4864): `InsertStatement = TableExpressions, "INSERT", "INTO", QualifiedIdentifier, ColumnNameList, SelectCore`. -/
def reduce84 (st : List Symbol) : Res (List Symbol) := do
  let (s5, st) ← pop38 st
  let (s4, st) ← pop8 st
  let (s3, st) ← pop8 st
  let (s2, st) ← pop0 st
  let (s1, st) ← pop0 st
  let (s0, st) ← pop11 st
  .ok (.variant21 (action242 s0 s1 s2 s3 s4 s5) :: st)

/-- `__reduce85` (`src/sql/parser.rs` L4865-4886): `InsertStatement = "INSERT", "INTO", QualifiedIdentifier, ColumnNameList, SelectCore`. -/
def reduce85 (st : List Symbol) : Res (List Symbol) := do
  let (s4, st) ← pop38 st
  let (s3, st) ← pop8 st
  let (s2, st) ← pop8 st
  let (s1, st) ← pop0 st
  let (s0, st) ← pop0 st
  .ok (.variant21 (action243 s0 s1 s2 s3 s4) :: st)

/-- `__reduce86` (`src/sql/parser.rs` L4887-4908): `InsertStatement = TableExpressions, "INSERT", "INTO", QualifiedIdentifier, SelectCore`. -/
def reduce86 (st : List Symbol) : Res (List Symbol) := do
  let (s4, st) ← pop38 st
  let (s3, st) ← pop8 st
  let (s2, st) ← pop0 st
  let (s1, st) ← pop0 st
  let (s0, st) ← pop11 st
  .ok (.variant21 (action244 s0 s1 s2 s3 s4) :: st)

/-- `__reduce87` (`src/sql/parser.rs` L4909-4929): `InsertStatement = "INSERT", "INTO", QualifiedIdentifier, SelectCore`. -/
def reduce87 (st : List Symbol) : Res (List Symbol) := do
  let (s3, st) ← pop38 st
  let (s2, st) ← pop8 st
  let (s1, st) ← pop0 st
  let (s0, st) ← pop0 st
  .ok (.variant21 (action245 s0 s1 s2 s3) :: st)

/-- `__reduce88` (`src/sql/parser.rs` L4930-4948): `JoinConstraint = "ON", Expression`. -/
def reduce88 (st : List Symbol) : Res (List Symbol) := do
  let (s1, st) ← pop4 st
  let (s0, st) ← pop0 st
  .ok (.variant22 (action63 s0 s1) :: st)

/-- `__reduce89` (`src/sql/parser.rs` L4949-4969): `JoinConstraint = "USING", "(", IdentifierList, ")"`. -/
def reduce89 (st : List Symbol) : Res (List Symbol) := do
  let (s3, st) ← pop0 st
  let (s2, st) ← pop8 st
  let (s1, st) ← pop0 st
  let (s0, st) ← pop0 st
  .ok (.variant22 (action64 s0 s1 s2 s3) :: st)

/-- `__reduce90` (`src/sql/parser.rs` L4970-4988): `JoinOperator = JoinType, "JOIN"`. -/
def reduce90 (st : List Symbol) : Res (List Symbol) := do
  let (s1, st) ← pop0 st
  let (s0, st) ← pop24 st
  .ok (.variant23 (action214 s0 s1) :: st)

/-- `__reduce91` (`src/sql/parser.rs` L4989-5005): `JoinOperator = "JOIN"`. -/
def reduce91 (st : List Symbol) : Res (List Symbol) := do
  let (s0, st) ← pop0 st
  .ok (.variant23 (action215 s0) :: st)

/-- `__reduce92` (`src/sql/parser.rs` L5006-5025): `JoinOperator = "NATURAL", JoinType, "JOIN"`. -/
def reduce92 (st : List Symbol) : Res (List Symbol) := do
  let (s2, st) ← pop0 st
  let (s1, st) ← pop24 st
  let (s0, st) ← pop0 st
  .ok (.variant23 (action216 s0 s1 s2) :: st)

/-- `__reduce93` (`src/sql/parser.rs` L5026-5044): `JoinOperator = "NATURAL", "JOIN"`. -/
def reduce93 (st : List Symbol) : Res (List Symbol) := do
  let (s1, st) ← pop0 st
  let (s0, st) ← pop0 st
  .ok (.variant23 (action217 s0 s1) :: st)

/-- `__reduce94` (`src/sql/parser.rs` L5045-5063): `JoinOperator = "CROSS", "JOIN"`. -/
def reduce94 (st : List Symbol) : Res (List Symbol) := do
  let (s1, st) ← pop0 st
  let (s0, st) ← pop0 st
  .ok (.variant23 (action58 s0 s1) :: st)

/-- `__reduce95` (`src/sql/parser.rs` L5064-5082): `JoinType = "LEFT", "OUTER"`. -/
def reduce95 (st : List Symbol) : Res (List Symbol) := do
  let (s1, st) ← pop0 st
  let (s0, st) ← pop0 st
  .ok (.variant24 (action193 s0 s1) :: st)

/-- `__reduce96` (`src/sql/parser.rs` L5083-5099): `JoinType = "LEFT"`. -/
def reduce96 (st : List Symbol) : Res (List Symbol) := do
  let (s0, st) ← pop0 st
  .ok (.variant24 (action194 s0) :: st)

/-- `__reduce97` (`src/sql/parser.rs` L5100-5118): `JoinType = "RIGHT", "OUTER"`. -/
def reduce97 (st : List Symbol) : Res (List Symbol) := do
  let (s1, st) ← pop0 st
  let (s0, st) ← pop0 st
  .ok (.variant24 (action195 s0 s1) :: st)

/-- `__reduce98` (`src/sql/parser.rs` L5119-5135): `JoinType = "RIGHT"`. -/
def reduce98 (st : List Symbol) : Res (List Symbol) := do
  let (s0, st) ← pop0 st
  .ok (.variant24 (action196 s0) :: st)

/-- `__reduce99` (`src/sql/parser.rs` L5136-5154): `JoinType = "FULL", "OUTER"`. -/
def reduce99 (st : List Symbol) : Res (List Symbol) := do
  let (s1, st) ← pop0 st
  let (s0, st) ← pop0 st
  .ok (.variant24 (action197 s0 s1) :: st)

/-- `__reduce100` (`src/sql/parser.rs` L5155-5171): `JoinType = "FULL"`. -/
def reduce100 (st : List Symbol) : Res (List Symbol) := do
  let (s0, st) ← pop0 st
  .ok (.variant24 (action198 s0) :: st)

/-- `__reduce101` (`src/sql/parser.rs` L5172-5188): `JoinType = "INNER"`. -/
def reduce101 (st : List Symbol) : Res (List Symbol) := do
  let (s0, st) ← pop0 st
  .ok (.variant24 (action62 s0) :: st)

/-- `__reduce102` (`src/sql/parser.rs` L5189-5205): `JoinType? = JoinType`. -/
def reduce102 (st : List Symbol) : Res (List Symbol) := do
  let (s0, st) ← pop24 st
  .ok (.variant25 (action162 s0) :: st)

/-- `__reduce103` (`src/sql/parser.rs` L5206-5221): `JoinType? = `. -/
def reduce103 (st : List Symbol) : Res (List Symbol) := .ok (.variant25 action163 :: st)

/-- `__reduce104` (`src/sql/parser.rs` L5222-5240): `LimitClause = "LIMIT", Expression`. -/
def reduce104 (st : List Symbol) : Res (List Symbol) := do
  let (s1, st) ← pop4 st
  let (s0, st) ← pop0 st
  .ok (.variant26 (action77 s0 s1) :: st)

/-- `__reduce105` (`src/sql/parser.rs` L5241-5261): `LimitClause = "LIMIT", Expression, ",", Expression`. -/
def reduce105 (st : List Symbol) : Res (List Symbol) := do
  let (s3, st) ← pop4 st
  let (s2, st) ← pop0 st
  let (s1, st) ← pop4 st
  let (s0, st) ← pop0 st
  .ok (.variant26 (action78 s0 s1 s2 s3) :: st)

/-- `__reduce106` (`src/sql/parser.rs` L5262-5282): `LimitClause = "LIMIT", Expression, "OFFSET", Expression`. -/
def reduce106 (st : List Symbol) : Res (List Symbol) := do
  let (s3, st) ← pop4 st
  let (s2, st) ← pop0 st
  let (s1, st) ← pop4 st
  let (s0, st) ← pop0 st
  .ok (.variant26 (action79 s0 s1 s2 s3) :: st)

/-- `__reduce107` (`src/sql/parser.rs` L5283-5299): `LimitClause? = LimitClause`. -/
def reduce107 (st : List Symbol) : Res (List Symbol) := do
  let (s0, st) ← pop26 st
  .ok (.variant27 (action172 s0) :: st)

/-- `__reduce108` (`src/sql/parser.rs` L5300-5315): `LimitClause? = `. -/
def reduce108 (st : List Symbol) : Res (List Symbol) := .ok (.variant27 action173 :: st)

/-- `__reduce109` (`src/sql/parser.rs` L5316-5332): `LiteralValue = NumericLiteral`. -/
def reduce109 (st : List Symbol) : Res (List Symbol) := do
  let (s0, st) ← pop29 st
  .ok (.variant28 (action134 s0) :: st)

/-- `__reduce110` (`src/sql/parser.rs` L5333-5349): `LiteralValue = StringLiteral`. -/
def reduce110 (st : List Symbol) : Res (List Symbol) := do
  let (s0, st) ← pop29 st
  .ok (.variant28 (action135 s0) :: st)

/-- `__reduce111` (`src/sql/parser.rs` L5350-5366): `LiteralValue = "NULL"`. -/
def reduce111 (st : List Symbol) : Res (List Symbol) := do
  let (s0, st) ← pop0 st
  .ok (.variant28 (action136 s0) :: st)

/-- `__reduce112` (`src/sql/parser.rs` L5367-5383): `LiteralValue = "CURRENT_TIME"`. -/
def reduce112 (st : List Symbol) : Res (List Symbol) := do
  let (s0, st) ← pop0 st
  .ok (.variant28 (action137 s0) :: st)

/-- `__reduce113` (`src/sql/parser.rs` L5384-5400): `LiteralValue = "CURRENT_DATE"`. -/
def reduce113 (st : List Symbol) : Res (List Symbol) := do
  let (s0, st) ← pop0 st
  .ok (.variant28 (action138 s0) :: st)

/-- `__reduce114` (`src/sql/parser.rs` L5401-5417): `LiteralValue = "CURRENT_TIMESTAMP"`. -/
def reduce114 (st : List Symbol) : Res (List Symbol) := do
  let (s0, st) ← pop0 st
  .ok (.variant28 (action139 s0) :: st)

/-- `__reduce115` (`src/sql/parser.rs` L5418-5436): `LiteralValue = "DATE", StringLiteral`. -/
def reduce115 (st : List Symbol) : Res (List Symbol) := do
  let (s1, st) ← pop29 st
  let (s0, st) ← pop0 st
  .ok (.variant28 (action140 s0 s1) :: st)

/-- `__reduce116` (`src/sql/parser.rs` L5437-5455): `LiteralValue = "TIME", StringLiteral`. -/
def reduce116 (st : List Symbol) : Res (List Symbol) := do
  let (s1, st) ← pop29 st
  let (s0, st) ← pop0 st
  .ok (.variant28 (action141 s0 s1) :: st)

/-- `__reduce117` (`src/sql/parser.rs` L5456-5474): `LiteralValue = "TIMESTAMP", StringLiteral`. -/
def reduce117 (st : List Symbol) : Res (List Symbol) := do
  let (s1, st) ← pop29 st
  let (s0, st) ← pop0 st
  .ok (.variant28 (action142 s0 s1) :: st)

/-- `__reduce118` (`src/sql/parser.rs` L5475-5491): `MultiplicativeExpression = UnaryExpression`. -/
def reduce118 (st : List Symbol) : Res (List Symbol) := do
  let (s0, st) ← pop4 st
  .ok (.variant4 (action92 s0) :: st)

/-- `__reduce119` (`src/sql/parser.rs` L5492-5511): `MultiplicativeExpression = MultiplicativeExpression, "*", UnaryExpression`. -/
def reduce119 (st : List Symbol) : Res (List Symbol) := do
  let (s2, st) ← pop4 st
  let (s1, st) ← pop0 st
  let (s0, st) ← pop4 st
  .ok (.variant4 (action93 s0 s1 s2) :: st)

/-- `__reduce120` (`src/sql/parser.rs` L5512-5531): `MultiplicativeExpression = MultiplicativeExpression, "/", UnaryExpression`. -/
def reduce120 (st : List Symbol) : Res (List Symbol) := do
  let (s2, st) ← pop4 st
  let (s1, st) ← pop0 st
  let (s0, st) ← pop4 st
  .ok (.variant4 (action94 s0 s1 s2) :: st)

/-- `__reduce121` (`src/sql/parser.rs` L5532-5548): `NotExpression = ComplexExpression`. -/
def reduce121 (st : List Symbol) : Res (List Symbol) := do
  let (s0, st) ← pop4 st
  .ok (.variant4 (action127 s0) :: st)

/-- `__reduce122` (`src/sql/parser.rs` L5549-5567): `NotExpression = "NOT", ComplexExpression`. -/
def reduce122 (st : List Symbol) : Res (List Symbol) := do
  let (s1, st) ← pop4 st
  let (s0, st) ← pop0 st
  .ok (.variant4 (action128 s0 s1) :: st)

/-- `__reduce123` (`src/sql/parser.rs` L5568-5584): `NumericLiteral = NUMERIC_LIT_1`. -/
def reduce123 (st : List Symbol) : Res (List Symbol) := do
  let (s0, st) ← pop0 st
  .ok (.variant29 (action144 s0) :: st)

/-- `__reduce124` (`src/sql/parser.rs` L5585-5601): `NumericLiteral = NUMERIC_LIT_2`. -/
def reduce124 (st : List Symbol) : Res (List Symbol) := do
  let (s0, st) ← pop0 st
  .ok (.variant29 (action145 s0) :: st)

/-- `__reduce125` (`src/sql/parser.rs` L5602-5618): `NumericLiteral = HEX_LIT`. -/
def reduce125 (st : List Symbol) : Res (List Symbol) := do
  let (s0, st) ← pop0 st
  .ok (.variant29 (action146 s0) :: st)

/-- `__reduce126` (`src/sql/parser.rs` L5619-5635): `OrExpression = AndExpression`. -/
def reduce126 (st : List Symbol) : Res (List Symbol) := do
  let (s0, st) ← pop4 st
  .ok (.variant4 (action131 s0) :: st)

/-- `__reduce127` (`src/sql/parser.rs` L5636-5655): `OrExpression = OrExpression, "OR", AndExpression`. -/
def reduce127 (st : List Symbol) : Res (List Symbol) := do
  let (s2, st) ← pop4 st
  let (s1, st) ← pop0 st
  let (s0, st) ← pop4 st
  .ok (.variant4 (action132 s0 s1 s2) :: st)

/-- `__reduce128` (`src/sql/parser.rs` L5656-5675): `OrderByClause = "ORDER", "BY", OrderingTermList`. -/
def reduce128 (st : List Symbol) : Res (List Symbol) := do
  let (s2, st) ← pop30 st
  let (s1, st) ← pop0 st
  let (s0, st) ← pop0 st
  .ok (.variant30 (action70 s0 s1 s2) :: st)

/-- `__reduce129` (`src/sql/parser.rs` L5676-5692): `OrderByClause? = OrderByClause`. -/
def reduce129 (st : List Symbol) : Res (List Symbol) := do
  let (s0, st) ← pop30 st
  .ok (.variant31 (action174 s0) :: st)

/-- `__reduce130` (`src/sql/parser.rs` L5693-5708): `OrderByClause? = `. -/
def reduce130 (st : List Symbol) : Res (List Symbol) := .ok (.variant31 action175 :: st)

/-- `__reduce131` (`src/sql/parser.rs` L5709-5727): `OrderingCollation = "COLLATE", Identifier`. -/
def reduce131 (st : List Symbol) : Res (List Symbol) := do
  let (s1, st) ← pop20 st
  let (s0, st) ← pop0 st
  .ok (.variant20 (action74 s0 s1) :: st)

/-- `__reduce132` (`src/sql/parser.rs` L5728-5744): `OrderingCollation? = OrderingCollation`. -/
def reduce132 (st : List Symbol) : Res (List Symbol) := do
  let (s0, st) ← pop20 st
  .ok (.variant32 (action158 s0) :: st)

/-- `__reduce133` (`src/sql/parser.rs` L5745-5760): `OrderingCollation? = `. -/
def reduce133 (st : List Symbol) : Res (List Symbol) := .ok (.variant32 action159 :: st)

/-- `__reduce134` (`src/sql/parser.rs` L5761-5777): `OrderingDirection = "ASC"`. -/
def reduce134 (st : List Symbol) : Res (List Symbol) := do
  let (s0, st) ← pop0 st
  .ok (.variant33 (action191 s0) :: st)

/-- `__reduce135` (`src/sql/parser.rs` L5778-5793): `OrderingDirection = `. -/
def reduce135 (st : List Symbol) : Res (List Symbol) := .ok (.variant33 action192 :: st)

/-- `__reduce136` (`src/sql/parser.rs` L5794-5810): `OrderingDirection = "DESC"`. -/
def reduce136 (st : List Symbol) : Res (List Symbol) := do
  let (s0, st) ← pop0 st
  .ok (.variant33 (action76 s0) :: st)

/-- `__reduce137` (`src/sql/parser.rs` L5811-5830): `OrderingTerm = Expression, OrderingCollation, OrderingDirection`. -/
def reduce137 (st : List Symbol) : Res (List Symbol) := do
  let (s2, st) ← pop33 st
  let (s1, st) ← pop20 st
  let (s0, st) ← pop4 st
  .ok (.variant34 (action230 s0 s1 s2) :: st)

/-- `__reduce138` (`src/sql/parser.rs` L5831-5849): `OrderingTerm = Expression, OrderingDirection`. -/
def reduce138 (st : List Symbol) : Res (List Symbol) := do
  let (s1, st) ← pop33 st
  let (s0, st) ← pop4 st
  .ok (.variant34 (action231 s0 s1) :: st)

/-- `__reduce139` (`src/sql/parser.rs` L5850-5866): `OrderingTermList = OrderingTerm`. -/
def reduce139 (st : List Symbol) : Res (List Symbol) := do
  let (s0, st) ← pop34 st
  .ok (.variant30 (action71 s0) :: st)

/-- `__reduce140` (`src/sql/parser.rs` L5867-5886): `OrderingTermList = OrderingTermList, ",", OrderingTerm`. -/
def reduce140 (st : List Symbol) : Res (List Symbol) := do
  let (s2, st) ← pop34 st
  let (s1, st) ← pop0 st
  let (s0, st) ← pop30 st
  .ok (.variant30 (action72 s0 s1 s2) :: st)

/-- `__reduce141` (`src/sql/parser.rs` L5887-5906): `PrimaryExpression = "(", ExpressionList, ")"`. -/
def reduce141 (st : List Symbol) : Res (List Symbol) := do
  let (s2, st) ← pop0 st
  let (s1, st) ← pop16 st
  let (s0, st) ← pop0 st
  .ok (.variant4 (action85 s0 s1 s2) :: st)

/-- `__reduce142` (`src/sql/parser.rs` L5907-5926): `PrimaryExpression = "(", SelectStatement, ")"`. -/
def reduce142 (st : List Symbol) : Res (List Symbol) := do
  let (s2, st) ← pop0 st
  let (s1, st) ← pop40 st
  let (s0, st) ← pop0 st
  .ok (.variant4 (action86 s0 s1 s2) :: st)

/-- `__reduce143` (`src/sql/parser.rs` L5927-5943): `PrimaryExpression = LiteralValue`. -/
def reduce143 (st : List Symbol) : Res (List Symbol) := do
  let (s0, st) ← pop28 st
  .ok (.variant4 (action87 s0) :: st)

/-- `__reduce144` (`src/sql/parser.rs` L5944-5960): `PrimaryExpression = QualifiedIdentifier`. -/
def reduce144 (st : List Symbol) : Res (List Symbol) := do
  let (s0, st) ← pop8 st
  .ok (.variant4 (action88 s0) :: st)

/-- `__reduce145` (`src/sql/parser.rs` L5961-5977): `QualifiedIdentifier = Identifier`. -/
def reduce145 (st : List Symbol) : Res (List Symbol) := do
  let (s0, st) ← pop20 st
  .ok (.variant8 (action44 s0) :: st)

/-- `__reduce146` (`src/sql/parser.rs` L5978-5997): `QualifiedIdentifier = Identifier, ".", Identifier`. -/
def reduce146 (st : List Symbol) : Res (List Symbol) := do
  let (s2, st) ← pop20 st
  let (s1, st) ← pop0 st
  let (s0, st) ← pop20 st
  .ok (.variant8 (action45 s0 s1 s2) :: st)

/-- `__reduce147` (`src/sql/parser.rs` L5998-6019): `QualifiedIdentifier = Identifier, ".", Identifier, ".", Identifier`. -/
def reduce147 (st : List Symbol) : Res (List Symbol) := do
  let (s4, st) ← pop20 st
  let (s3, st) ← pop0 st
  let (s2, st) ← pop20 st
  let (s1, st) ← pop0 st
  let (s0, st) ← pop20 st
  .ok (.variant8 (action46 s0 s1 s2 s3 s4) :: st)

/-- `__reduce148` (`src/sql/parser.rs` L6020-6036): `ResultColumn = Expression`. -/
def reduce148 (st : List Symbol) : Res (List Symbol) := do
  let (s0, st) ← pop4 st
  .ok (.variant35 (action41 s0) :: st)

/-- `__reduce149` (`src/sql/parser.rs` L6037-6056): `ResultColumn = Expression, "AS", Identifier`. -/
def reduce149 (st : List Symbol) : Res (List Symbol) := do
  let (s2, st) ← pop20 st
  let (s1, st) ← pop0 st
  let (s0, st) ← pop4 st
  .ok (.variant35 (action187 s0 s1 s2) :: st)

/-- `__reduce150` (`src/sql/parser.rs` L6057-6075): `ResultColumn = Expression, Identifier`. -/
def reduce150 (st : List Symbol) : Res (List Symbol) := do
  let (s1, st) ← pop20 st
  let (s0, st) ← pop4 st
  .ok (.variant35 (action188 s0 s1) :: st)

/-- `__reduce151` (`src/sql/parser.rs` L6076-6095): `ResultColumn = Identifier, ".", "*"`. -/
def reduce151 (st : List Symbol) : Res (List Symbol) := do
  let (s2, st) ← pop0 st
  let (s1, st) ← pop0 st
  let (s0, st) ← pop20 st
  .ok (.variant35 (action43 s0 s1 s2) :: st)

/-- `__reduce152` (`src/sql/parser.rs` L6096-6112): `ResultColumnList = ResultColumn`. -/
def reduce152 (st : List Symbol) : Res (List Symbol) := do
  let (s0, st) ← pop35 st
  .ok (.variant36 (action39 s0) :: st)

/-- `__reduce153` (`src/sql/parser.rs` L6113-6132): `ResultColumnList = ResultColumnList, ",", ResultColumn`. -/
def reduce153 (st : List Symbol) : Res (List Symbol) := do
  let (s2, st) ← pop35 st
  let (s1, st) ← pop0 st
  let (s0, st) ← pop36 st
  .ok (.variant36 (action40 s0 s1 s2) :: st)

/-- `__reduce154` (`src/sql/parser.rs` L6133-6149): `ResultColumns = "*"`. -/
def reduce154 (st : List Symbol) : Res (List Symbol) := do
  let (s0, st) ← pop0 st
  .ok (.variant37 (action37 s0) :: st)

/-- `__reduce155` (`src/sql/parser.rs` L6150-6166): `ResultColumns = ResultColumnList`. -/
def reduce155 (st : List Symbol) : Res (List Symbol) := do
  let (s0, st) ← pop36 st
  .ok (.variant37 (action38 s0) :: st)

/-- `__reduce156` (`src/sql/parser.rs` L6167-6185): `SchemaName = Identifier, "."`. -/
def reduce156 (st : List Symbol) : Res (List Symbol) := do
  let (s1, st) ← pop0 st
  let (s0, st) ← pop20 st
  .ok (.variant20 (action82 s0 s1) :: st)

/-- `__reduce157` (`src/sql/parser.rs` L6186-6202): `SchemaName? = SchemaName`. -/
def reduce157 (st : List Symbol) : Res (List Symbol) := do
  let (s0, st) ← pop20 st
  .ok (.variant32 (action154 s0) :: st)

/-- `__reduce158` (`src/sql/parser.rs` L6203-6218): `SchemaName? = `. -/
def reduce158 (st : List Symbol) : Res (List Symbol) := .ok (.variant32 action155 :: st)

/-- `__reduce159` (`src/sql/parser.rs` L6219-6240): `SelectCore = "SELECT", SelectMode, ResultColumns, WhereClause, GroupByClause`. -/
def reduce159 (st : List Symbol) : Res (List Symbol) := do
  let (s4, st) ← pop18 st
  let (s3, st) ← pop4 st
  let (s2, st) ← pop37 st
  let (s1, st) ← pop39 st
  let (s0, st) ← pop0 st
  .ok (.variant38 (action252 s0 s1 s2 s3 s4) :: st)

/-- `__reduce160` (`src/sql/parser.rs` L6241-6261): `SelectCore = "SELECT", SelectMode, ResultColumns, GroupByClause`. -/
def reduce160 (st : List Symbol) : Res (List Symbol) := do
  let (s3, st) ← pop18 st
  let (s2, st) ← pop37 st
  let (s1, st) ← pop39 st
  let (s0, st) ← pop0 st
  .ok (.variant38 (action253 s0 s1 s2 s3) :: st)

/-- `__reduce161` (`src/sql/parser.rs` L6262-6282): `SelectCore = "SELECT", SelectMode, ResultColumns, WhereClause`. -/
def reduce161 (st : List Symbol) : Res (List Symbol) := do
  let (s3, st) ← pop4 st
  let (s2, st) ← pop37 st
  let (s1, st) ← pop39 st
  let (s0, st) ← pop0 st
  .ok (.variant38 (action254 s0 s1 s2 s3) :: st)

/-- `__reduce162` (`src/sql/parser.rs` L6283-6302): `SelectCore = "SELECT", SelectMode, ResultColumns`. -/
def reduce162 (st : List Symbol) : Res (List Symbol) := do
  let (s2, st) ← pop37 st
  let (s1, st) ← pop39 st
  let (s0, st) ← pop0 st
  .ok (.variant38 (action255 s0 s1 s2) :: st)

/-- `__reduce163` (`src/sql/parser.rs` L6303-6325): `SelectCore = "SELECT", SelectMode, ResultColumns, FromClause, WhereClause, GroupByClause`. -/
def reduce163 (st : List Symbol) : Res (List Symbol) := do
  let (s5, st) ← pop18 st
  let (s4, st) ← pop4 st
  let (s3, st) ← pop17 st
  let (s2, st) ← pop37 st
  let (s1, st) ← pop39 st
  let (s0, st) ← pop0 st
  .ok (.variant38 (action256 s0 s1 s2 s3 s4 s5) :: st)

/-- `__reduce164` (`src/sql/parser.rs` L6326-6347): `SelectCore = "SELECT", SelectMode, ResultColumns, FromClause, GroupByClause`. -/
def reduce164 (st : List Symbol) : Res (List Symbol) := do
  let (s4, st) ← pop18 st
  let (s3, st) ← pop17 st
  let (s2, st) ← pop37 st
  let (s1, st) ← pop39 st
  let (s0, st) ← pop0 st
  .ok (.variant38 (action257 s0 s1 s2 s3 s4) :: st)

/-- `__reduce165` (`src/sql/parser.rs` L6348-6369): `SelectCore = "SELECT", SelectMode, ResultColumns, FromClause, WhereClause`. -/
def reduce165 (st : List Symbol) : Res (List Symbol) := do
  let (s4, st) ← pop4 st
  let (s3, st) ← pop17 st
  let (s2, st) ← pop37 st
  let (s1, st) ← pop39 st
  let (s0, st) ← pop0 st
  .ok (.variant38 (action258 s0 s1 s2 s3 s4) :: st)

/-- `__reduce166` (`src/sql/parser.rs` L6370-6390): `SelectCore = "SELECT", SelectMode, ResultColumns, FromClause`. -/
def reduce166 (st : List Symbol) : Res (List Symbol) := do
  let (s3, st) ← pop17 st
  let (s2, st) ← pop37 st
  let (s1, st) ← pop39 st
  let (s0, st) ← pop0 st
  .ok (.variant38 (action259 s0 s1 s2 s3) :: st)

/-- `__reduce167` (`src/sql/parser.rs` L6391-6409): `SelectCore = "VALUES", TupleList`. -/
def reduce167 (st : List Symbol) : Res (List Symbol) := do
  let (s1, st) ← pop45 st
  let (s0, st) ← pop0 st
  .ok (.variant38 (action31 s0 s1) :: st)

/-- `__reduce168` (`src/sql/parser.rs` L6410-6426): `SelectCoreList = SelectCore`. -/
def reduce168 (st : List Symbol) : Res (List Symbol) := do
  let (s0, st) ← pop38 st
  .ok (.variant38 (action23 s0) :: st)

/-- `__reduce169` (`src/sql/parser.rs` L6427-6446): `SelectCoreList = SelectCoreList, CompoundOperator, SelectCore`. -/
def reduce169 (st : List Symbol) : Res (List Symbol) := do
  let (s2, st) ← pop38 st
  let (s1, st) ← pop12 st
  let (s0, st) ← pop38 st
  .ok (.variant38 (action24 s0 s1 s2) :: st)

/-- `__reduce170` (`src/sql/parser.rs` L6447-6463): `SelectMode = "ALL"`. -/
def reduce170 (st : List Symbol) : Res (List Symbol) := do
  let (s0, st) ← pop0 st
  .ok (.variant39 (action185 s0) :: st)

/-- `__reduce171` (`src/sql/parser.rs` L6464-6479): `SelectMode = `. -/
def reduce171 (st : List Symbol) : Res (List Symbol) := .ok (.variant39 action186 :: st)

/-- `__reduce172` (`src/sql/parser.rs` L6480-6496): `SelectMode = "DISTINCT"`. -/
def reduce172 (st : List Symbol) : Res (List Symbol) := do
  let (s0, st) ← pop0 st
  .ok (.variant39 (action33 s0) :: st)

/-- `__reduce173` (`src/sql/parser.rs` L6497-6517): `SelectStatement = TableExpressions, SelectCoreList, OrderByClause, LimitClause`. -/
def reduce173 (st : List Symbol) : Res (List Symbol) := do
  let (s3, st) ← pop26 st
  let (s2, st) ← pop30 st
  let (s1, st) ← pop38 st
  let (s0, st) ← pop11 st
  .ok (.variant40 (action222 s0 s1 s2 s3) :: st)

/-- `__reduce174` (`src/sql/parser.rs` L6518-6537): `SelectStatement = TableExpressions, SelectCoreList, LimitClause`. -/
def reduce174 (st : List Symbol) : Res (List Symbol) := do
  let (s2, st) ← pop26 st
  let (s1, st) ← pop38 st
  let (s0, st) ← pop11 st
  .ok (.variant40 (action223 s0 s1 s2) :: st)

/-- `__reduce175` (`src/sql/parser.rs` L6538-6557): `SelectStatement = TableExpressions, SelectCoreList, OrderByClause`. -/
def reduce175 (st : List Symbol) : Res (List Symbol) := do
  let (s2, st) ← pop30 st
  let (s1, st) ← pop38 st
  let (s0, st) ← pop11 st
  .ok (.variant40 (action224 s0 s1 s2) :: st)

/-- `__reduce176` (`src/sql/parser.rs` L6558-6576): `SelectStatement = TableExpressions, SelectCoreList`. -/
def reduce176 (st : List Symbol) : Res (List Symbol) := do
  let (s1, st) ← pop38 st
  let (s0, st) ← pop11 st
  .ok (.variant40 (action225 s0 s1) :: st)

/-- `__reduce177` (`src/sql/parser.rs` L6577-6596): `SelectStatement = SelectCoreList, OrderByClause, LimitClause`. -/
def reduce177 (st : List Symbol) : Res (List Symbol) := do
  let (s2, st) ← pop26 st
  let (s1, st) ← pop30 st
  let (s0, st) ← pop38 st
  .ok (.variant40 (action226 s0 s1 s2) :: st)

/-- `__reduce178` (`src/sql/parser.rs` L6597-6615): `SelectStatement = SelectCoreList, LimitClause`. -/
def reduce178 (st : List Symbol) : Res (List Symbol) := do
  let (s1, st) ← pop26 st
  let (s0, st) ← pop38 st
  .ok (.variant40 (action227 s0 s1) :: st)

/-- `__reduce179` (`src/sql/parser.rs` L6616-6634): `SelectStatement = SelectCoreList, OrderByClause`. -/
def reduce179 (st : List Symbol) : Res (List Symbol) := do
  let (s1, st) ← pop30 st
  let (s0, st) ← pop38 st
  .ok (.variant40 (action228 s0 s1) :: st)

/-- `__reduce180` (`src/sql/parser.rs` L6635-6651): `SelectStatement = SelectCoreList`. -/
def reduce180 (st : List Symbol) : Res (List Symbol) := do
  let (s0, st) ← pop38 st
  .ok (.variant40 (action229 s0) :: st)

/-- `__reduce181` (`src/sql/parser.rs` L6652-6668): `SqlStatement = Statement`. -/
def reduce181 (st : List Symbol) : Res (List Symbol) := do
  let (s0, st) ← pop42 st
  .ok (.variant41 (action1 s0) :: st)

/-- `__reduce182` (`src/sql/parser.rs` L6669-6689): `SqlStatement = "EXPLAIN", "QUERY", "PLAN", Statement`. -/
def reduce182 (st : List Symbol) : Res (List Symbol) := do
  let (s3, st) ← pop42 st
  let (s2, st) ← pop0 st
  let (s1, st) ← pop0 st
  let (s0, st) ← pop0 st
  .ok (.variant41 (action200 s0 s1 s2 s3) :: st)

/-- `__reduce183` (`src/sql/parser.rs` L6690-6708): `SqlStatement = "EXPLAIN", Statement`. -/
def reduce183 (st : List Symbol) : Res (List Symbol) := do
  let (s1, st) ← pop42 st
  let (s0, st) ← pop0 st
  .ok (.variant41 (action201 s0 s1) :: st)

/-- `__reduce184` (`src/sql/parser.rs` L6709-6725): `SqlStatement = AttachStatement`. -/
def reduce184 (st : List Symbol) : Res (List Symbol) := do
  let (s0, st) ← pop7 st
  .ok (.variant41 (action3 s0) :: st)

/-- `__reduce185` (`src/sql/parser.rs` L6726-6742): `SqlStatement = DescribeStatement`. -/
def reduce185 (st : List Symbol) : Res (List Symbol) := do
  let (s0, st) ← pop14 st
  .ok (.variant41 (action4 s0) :: st)

/-- `__reduce186` (`src/sql/parser.rs` L6743-6759): `Statement = SelectStatement`. -/
def reduce186 (st : List Symbol) : Res (List Symbol) := do
  let (s0, st) ← pop40 st
  .ok (.variant42 (action5 s0) :: st)

/-- `__reduce187` (`src/sql/parser.rs` L6760-6776): `Statement = InsertStatement`. -/
def reduce187 (st : List Symbol) : Res (List Symbol) := do
  let (s0, st) ← pop21 st
  .ok (.variant42 (action6 s0) :: st)

/-- `__reduce188` (`src/sql/parser.rs` L6777-6793): `Statement = DeleteStatement`. -/
def reduce188 (st : List Symbol) : Res (List Symbol) := do
  let (s0, st) ← pop13 st
  .ok (.variant42 (action7 s0) :: st)

/-- `__reduce189` (`src/sql/parser.rs` L6794-6810): `Statement = UpdateStatement`. -/
def reduce189 (st : List Symbol) : Res (List Symbol) := do
  let (s0, st) ← pop46 st
  .ok (.variant42 (action8 s0) :: st)

/-- `__reduce190` (`src/sql/parser.rs` L6811-6827): `StringLiteral = STRING_LIT`. -/
def reduce190 (st : List Symbol) : Res (List Symbol) := do
  let (s0, st) ← pop0 st
  let v ← action147 s0
  .ok (.variant29 v :: st)

/-- `__reduce191` (`src/sql/parser.rs` L6828-6846): `TableAlias = "AS", Identifier`. -/
def reduce191 (st : List Symbol) : Res (List Symbol) := do
  let (s1, st) ← pop20 st
  let (s0, st) ← pop0 st
  .ok (.variant20 (action189 s0 s1) :: st)

/-- `__reduce192` (`src/sql/parser.rs` L6847-6863): `TableAlias = Identifier`. -/
def reduce192 (st : List Symbol) : Res (List Symbol) := do
  let (s0, st) ← pop20 st
  .ok (.variant20 (action190 s0) :: st)

/-- `__reduce193` (`src/sql/parser.rs` L6864-6880): `TableAlias? = TableAlias`. -/
def reduce193 (st : List Symbol) : Res (List Symbol) := do
  let (s0, st) ← pop20 st
  .ok (.variant32 (action164 s0) :: st)

/-- `__reduce194` (`src/sql/parser.rs` L6881-6896): `TableAlias? = `. -/
def reduce194 (st : List Symbol) : Res (List Symbol) := .ok (.variant32 action165 :: st)

/-- `__reduce195` (`src/sql/parser.rs` L6897-6913): `TableExpression = TableOrSubQuery`. -/
def reduce195 (st : List Symbol) : Res (List Symbol) := do
  let (s0, st) ← pop43 st
  .ok (.variant43 (action50 s0) :: st)

/-- `__reduce196` (`src/sql/parser.rs` L6914-6934): `TableExpression = TableExpression, JoinOperator, TableOrSubQuery, JoinConstraint`. -/
def reduce196 (st : List Symbol) : Res (List Symbol) := do
  let (s3, st) ← pop22 st
  let (s2, st) ← pop43 st
  let (s1, st) ← pop23 st
  let (s0, st) ← pop43 st
  .ok (.variant43 (action51 s0 s1 s2 s3) :: st)

/-- `__reduce197` (`src/sql/parser.rs` L6935-6951): `TableExpressionList = TableExpression`. -/
def reduce197 (st : List Symbol) : Res (List Symbol) := do
  let (s0, st) ← pop43 st
  .ok (.variant17 (action48 s0) :: st)

/-- `__reduce198` (`src/sql/parser.rs` L6952-6971): `TableExpressionList = TableExpressionList, ",", TableExpression`. -/
def reduce198 (st : List Symbol) : Res (List Symbol) := do
  let (s2, st) ← pop43 st
  let (s1, st) ← pop0 st
  let (s0, st) ← pop17 st
  .ok (.variant17 (action49 s0 s1 s2) :: st)

/-- `__reduce199` (`src/sql/parser.rs` L6972-6990): `TableExpressions = "WITH", CommonTableExpressionList`. -/
def reduce199 (st : List Symbol) : Res (List Symbol) := do
  let (s1, st) ← pop11 st
  let (s0, st) ← pop0 st
  .ok (.variant11 (action18 s0 s1) :: st)

/-- `__reduce200` (`src/sql/parser.rs` L6991-7007): `TableExpressions? = TableExpressions`. -/
def reduce200 (st : List Symbol) : Res (List Symbol) := do
  let (s0, st) ← pop11 st
  .ok (.variant44 (action180 s0) :: st)

/-- `__reduce201` (`src/sql/parser.rs` L7008-7023): `TableExpressions? = `. -/
def reduce201 (st : List Symbol) : Res (List Symbol) := .ok (.variant44 action181 :: st)

/-- `__reduce202` (`src/sql/parser.rs` L7024-7042): `TableOrSubQuery = QualifiedIdentifier, TableAlias`. -/
def reduce202 (st : List Symbol) : Res (List Symbol) := do
  let (s1, st) ← pop20 st
  let (s0, st) ← pop8 st
  .ok (.variant43 (action236 s0 s1) :: st)

/-- `__reduce203` (`src/sql/parser.rs` L7043-7059): `TableOrSubQuery = QualifiedIdentifier`. -/
def reduce203 (st : List Symbol) : Res (List Symbol) := do
  let (s0, st) ← pop8 st
  .ok (.variant43 (action237 s0) :: st)

/-- `__reduce204` (`src/sql/parser.rs` L7060-7080): `TableOrSubQuery = "(", SelectStatement, ")", TableAlias`. -/
def reduce204 (st : List Symbol) : Res (List Symbol) := do
  let (s3, st) ← pop20 st
  let (s2, st) ← pop0 st
  let (s1, st) ← pop40 st
  let (s0, st) ← pop0 st
  .ok (.variant43 (action238 s0 s1 s2 s3) :: st)

/-- `__reduce205` (`src/sql/parser.rs` L7081-7100): `TableOrSubQuery = "(", SelectStatement, ")"`. -/
def reduce205 (st : List Symbol) : Res (List Symbol) := do
  let (s2, st) ← pop0 st
  let (s1, st) ← pop40 st
  let (s0, st) ← pop0 st
  .ok (.variant43 (action239 s0 s1 s2) :: st)

/-- `__reduce206` (`src/sql/parser.rs` L7101-7120): `TableOrSubQuery = "(", TableExpression, ")"`. -/
def reduce206 (st : List Symbol) : Res (List Symbol) := do
  let (s2, st) ← pop0 st
  let (s1, st) ← pop43 st
  let (s0, st) ← pop0 st
  .ok (.variant43 (action54 s0 s1 s2) :: st)

/-- `__reduce207` (`src/sql/parser.rs` L7121-7140): `Tuple = "(", ExpressionList, ")"`. -/
def reduce207 (st : List Symbol) : Res (List Symbol) := do
  let (s2, st) ← pop0 st
  let (s1, st) ← pop16 st
  let (s0, st) ← pop0 st
  .ok (.variant16 (action36 s0 s1 s2) :: st)

/-- `__reduce208` (`src/sql/parser.rs` L7141-7157): `TupleList = Tuple`. -/
def reduce208 (st : List Symbol) : Res (List Symbol) := do
  let (s0, st) ← pop16 st
  .ok (.variant45 (action34 s0) :: st)

/-- `__reduce209` (`src/sql/parser.rs` L7158-7177): `TupleList = TupleList, ",", Tuple`. -/
def reduce209 (st : List Symbol) : Res (List Symbol) := do
  let (s2, st) ← pop16 st
  let (s1, st) ← pop0 st
  let (s0, st) ← pop45 st
  .ok (.variant45 (action35 s0 s1 s2) :: st)

/-- `__reduce210` (`src/sql/parser.rs` L7178-7194): `UnaryExpression = PrimaryExpression`. -/
def reduce210 (st : List Symbol) : Res (List Symbol) := do
  let (s0, st) ← pop4 st
  .ok (.variant4 (action89 s0) :: st)

/-- `__reduce211` (`src/sql/parser.rs` L7195-7213): `UnaryExpression = "+", UnaryExpression`. -/
def reduce211 (st : List Symbol) : Res (List Symbol) := do
  let (s1, st) ← pop4 st
  let (s0, st) ← pop0 st
  .ok (.variant4 (action90 s0 s1) :: st)

/-- `__reduce212` (`src/sql/parser.rs` L7214-7232): `UnaryExpression = "-", UnaryExpression`. -/
def reduce212 (st : List Symbol) : Res (List Symbol) := do
  let (s1, st) ← pop4 st
  let (s0, st) ← pop0 st
  .ok (.variant4 (action91 s0 s1) :: st)

/-- `__reduce213` (`src/sql/parser.rs` L7233-7255): `UpdateStatement = TableExpressions, "UPDATE", QualifiedIdentifier, "SET", Assignments, WhereClause`. -/
def reduce213 (st : List Symbol) : Res (List Symbol) := do
  let (s5, st) ← pop4 st
  let (s4, st) ← pop6 st
  let (s3, st) ← pop0 st
  let (s2, st) ← pop8 st
  let (s1, st) ← pop0 st
  let (s0, st) ← pop11 st
  .ok (.variant46 (action260 s0 s1 s2 s3 s4 s5) :: st)

/-- `__reduce214` (`src/sql/parser.rs` L7256-7277): `UpdateStatement = TableExpressions, "UPDATE", QualifiedIdentifier, "SET", Assignments`. -/
def reduce214 (st : List Symbol) : Res (List Symbol) := do
  let (s4, st) ← pop6 st
  let (s3, st) ← pop0 st
  let (s2, st) ← pop8 st
  let (s1, st) ← pop0 st
  let (s0, st) ← pop11 st
  .ok (.variant46 (action261 s0 s1 s2 s3 s4) :: st)

/-- `__reduce215` (`src/sql/parser.rs` L7278-7299): `UpdateStatement = "UPDATE", QualifiedIdentifier, "SET", Assignments, WhereClause`. -/
def reduce215 (st : List Symbol) : Res (List Symbol) := do
  let (s4, st) ← pop4 st
  let (s3, st) ← pop6 st
  let (s2, st) ← pop0 st
  let (s1, st) ← pop8 st
  let (s0, st) ← pop0 st
  .ok (.variant46 (action262 s0 s1 s2 s3 s4) :: st)

/-- `__reduce216` (`src/sql/parser.rs` L7300-7320): `UpdateStatement = "UPDATE", QualifiedIdentifier, "SET", Assignments`. -/
def reduce216 (st : List Symbol) : Res (List Symbol) := do
  let (s3, st) ← pop6 st
  let (s2, st) ← pop0 st
  let (s1, st) ← pop8 st
  let (s0, st) ← pop0 st
  .ok (.variant46 (action263 s0 s1 s2 s3) :: st)

/-- `__reduce217` (`src/sql/parser.rs` L7321-7341): `WhenClause = "WHEN", Expression, "THEN", Expression`. -/
def reduce217 (st : List Symbol) : Res (List Symbol) := do
  let (s3, st) ← pop4 st
  let (s2, st) ← pop0 st
  let (s1, st) ← pop4 st
  let (s0, st) ← pop0 st
  .ok (.variant47 (action125 s0 s1 s2 s3) :: st)

/-- `__reduce218` (`src/sql/parser.rs` L7342-7358): `WhenClause+ = WhenClause`. -/
def reduce218 (st : List Symbol) : Res (List Symbol) := do
  let (s0, st) ← pop47 st
  .ok (.variant48 (action150 s0) :: st)

/-- `__reduce219` (`src/sql/parser.rs` L7359-7377): `WhenClause+ = WhenClause+, WhenClause`. -/
def reduce219 (st : List Symbol) : Res (List Symbol) := do
  let (s1, st) ← pop47 st
  let (s0, st) ← pop48 st
  .ok (.variant48 (action151 s0 s1) :: st)

/-- `__reduce220` (`src/sql/parser.rs` L7378-7396): `WhereClause = "WHERE", Expression`. -/
def reduce220 (st : List Symbol) : Res (List Symbol) := do
  let (s1, st) ← pop4 st
  let (s0, st) ← pop0 st
  .ok (.variant4 (action67 s0 s1) :: st)

/-- `__reduce221` (`src/sql/parser.rs` L7397-7413): `WhereClause? = WhereClause`. -/
def reduce221 (st : List Symbol) : Res (List Symbol) := do
  let (s0, st) ← pop4 st
  .ok (.variant15 (action176 s0) :: st)

/-- `__reduce222` (`src/sql/parser.rs` L7414-7429): `WhereClause? = `. -/
def reduce222 (st : List Symbol) : Res (List Symbol) := .ok (.variant15 action177 :: st)

/-- The `match` on the action in `__reduce` (`src/sql/parser.rs` L1989-2686): the function to call, the number of states it
makes the parser pop, and the nonterminal. -/
def reductions : List ((List Symbol → Res (List Symbol)) × Nat × Nat) := [
  (reduce0, 1, 0), (reduce1, 0, 0), (reduce2, 1, 1), (reduce3, 0, 1), (reduce4, 1, 2), (reduce5, 0, 2),
  (reduce6, 1, 3), (reduce7, 0, 3), (reduce8, 2, 4), (reduce9, 2, 5), (reduce10, 0, 5),
  (reduce11, 1, 6), (reduce12, 3, 6), (reduce13, 3, 6), (reduce14, 3, 6), (reduce15, 1, 7),
  (reduce16, 3, 7), (reduce17, 3, 8), (reduce18, 1, 9), (reduce19, 3, 9), (reduce20, 6, 10),
  (reduce21, 5, 10), (reduce22, 5, 11), (reduce23, 4, 11), (reduce24, 4, 11), (reduce25, 3, 11),
  (reduce26, 3, 12), (reduce27, 1, 13), (reduce28, 0, 13), (reduce29, 5, 14), (reduce30, 8, 14),
  (reduce31, 1, 15), (reduce32, 3, 15), (reduce33, 1, 16), (reduce34, 3, 16), (reduce35, 3, 16),
  (reduce36, 3, 16), (reduce37, 3, 16), (reduce38, 3, 16), (reduce39, 3, 16), (reduce40, 3, 16),
  (reduce41, 4, 16), (reduce42, 3, 16), (reduce43, 2, 16), (reduce44, 2, 16), (reduce45, 3, 16),
  (reduce46, 4, 16), (reduce47, 5, 16), (reduce48, 5, 16), (reduce49, 6, 16), (reduce50, 5, 16),
  (reduce51, 6, 16), (reduce52, 3, 16), (reduce53, 4, 16), (reduce54, 5, 16), (reduce55, 6, 16),
  (reduce56, 1, 17), (reduce57, 1, 17), (reduce58, 1, 18), (reduce59, 2, 18), (reduce60, 1, 18),
  (reduce61, 1, 18), (reduce62, 5, 19), (reduce63, 4, 19), (reduce64, 4, 19), (reduce65, 3, 19),
  (reduce66, 3, 20), (reduce67, 2, 20), (reduce68, 2, 21), (reduce69, 1, 22), (reduce70, 0, 22),
  (reduce71, 1, 23), (reduce72, 1, 24), (reduce73, 0, 24), (reduce74, 1, 25), (reduce75, 3, 25),
  (reduce76, 2, 26), (reduce77, 3, 27), (reduce78, 5, 27), (reduce79, 1, 28), (reduce80, 0, 28),
  (reduce81, 1, 29), (reduce82, 1, 30), (reduce83, 3, 30), (reduce84, 6, 31), (reduce85, 5, 31),
  (reduce86, 5, 31), (reduce87, 4, 31), (reduce88, 2, 32), (reduce89, 4, 32), (reduce90, 2, 33),
  (reduce91, 1, 33), (reduce92, 3, 33), (reduce93, 2, 33), (reduce94, 2, 33), (reduce95, 2, 34),
  (reduce96, 1, 34), (reduce97, 2, 34), (reduce98, 1, 34), (reduce99, 2, 34), (reduce100, 1, 34),
  (reduce101, 1, 34), (reduce102, 1, 35), (reduce103, 0, 35), (reduce104, 2, 36), (reduce105, 4, 36),
  (reduce106, 4, 36), (reduce107, 1, 37), (reduce108, 0, 37), (reduce109, 1, 38), (reduce110, 1, 38),
  (reduce111, 1, 38), (reduce112, 1, 38), (reduce113, 1, 38), (reduce114, 1, 38), (reduce115, 2, 38),
  (reduce116, 2, 38), (reduce117, 2, 38), (reduce118, 1, 39), (reduce119, 3, 39), (reduce120, 3, 39),
  (reduce121, 1, 40), (reduce122, 2, 40), (reduce123, 1, 41), (reduce124, 1, 41), (reduce125, 1, 41),
  (reduce126, 1, 42), (reduce127, 3, 42), (reduce128, 3, 43), (reduce129, 1, 44), (reduce130, 0, 44),
  (reduce131, 2, 45), (reduce132, 1, 46), (reduce133, 0, 46), (reduce134, 1, 47), (reduce135, 0, 47),
  (reduce136, 1, 47), (reduce137, 3, 48), (reduce138, 2, 48), (reduce139, 1, 49), (reduce140, 3, 49),
  (reduce141, 3, 50), (reduce142, 3, 50), (reduce143, 1, 50), (reduce144, 1, 50), (reduce145, 1, 51),
  (reduce146, 3, 51), (reduce147, 5, 51), (reduce148, 1, 52), (reduce149, 3, 52), (reduce150, 2, 52),
  (reduce151, 3, 52), (reduce152, 1, 53), (reduce153, 3, 53), (reduce154, 1, 54), (reduce155, 1, 54),
  (reduce156, 2, 55), (reduce157, 1, 56), (reduce158, 0, 56), (reduce159, 5, 57), (reduce160, 4, 57),
  (reduce161, 4, 57), (reduce162, 3, 57), (reduce163, 6, 57), (reduce164, 5, 57), (reduce165, 5, 57),
  (reduce166, 4, 57), (reduce167, 2, 57), (reduce168, 1, 58), (reduce169, 3, 58), (reduce170, 1, 59),
  (reduce171, 0, 59), (reduce172, 1, 59), (reduce173, 4, 60), (reduce174, 3, 60), (reduce175, 3, 60),
  (reduce176, 2, 60), (reduce177, 3, 60), (reduce178, 2, 60), (reduce179, 2, 60), (reduce180, 1, 60),
  (reduce181, 1, 61), (reduce182, 4, 61), (reduce183, 2, 61), (reduce184, 1, 61), (reduce185, 1, 61),
  (reduce186, 1, 62), (reduce187, 1, 62), (reduce188, 1, 62), (reduce189, 1, 62), (reduce190, 1, 63),
  (reduce191, 2, 64), (reduce192, 1, 64), (reduce193, 1, 65), (reduce194, 0, 65), (reduce195, 1, 66),
  (reduce196, 4, 66), (reduce197, 1, 67), (reduce198, 3, 67), (reduce199, 2, 68), (reduce200, 1, 69),
  (reduce201, 0, 69), (reduce202, 2, 70), (reduce203, 1, 70), (reduce204, 4, 70), (reduce205, 3, 70),
  (reduce206, 3, 70), (reduce207, 3, 71), (reduce208, 1, 72), (reduce209, 3, 72), (reduce210, 1, 73),
  (reduce211, 2, 73), (reduce212, 2, 73), (reduce213, 6, 74), (reduce214, 5, 74), (reduce215, 5, 74),
  (reduce216, 4, 74), (reduce217, 4, 75), (reduce218, 1, 76), (reduce219, 2, 76), (reduce220, 2, 77),
  (reduce221, 1, 78), (reduce222, 0, 78)
]

end Verif.Sql.Parser
