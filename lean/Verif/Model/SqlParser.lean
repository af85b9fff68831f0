import Verif.Model.SqlLexer
import Verif.Model.SqlParserTables
import Verif.Model.SqlParserActions
/-!
# The SQL parser (`src/sql/parser.rs` L1655-2686)

`SqlStatementParser::parse` runs the state machine of `lalrpop_util` 0.19 (`state_machine.rs`, a dependency) on the
tables and reductions of `src/sql/parser.rs`.  The functions `next`, `shift`, `reduce` and `run` follow that state
machine: the outer loop takes a token, the inner loop reduces until the token is shifted or refused, and after the
last token `parse_eof` reduces until the statement is complete or the end of the input is refused.

States and symbols are stacks, the top first.  A token is taken from the input when it is shifted, so the first
token of `input` is the lookahead.  Error recovery is switched off for this grammar (`uses_error_recovery`,
L1814-1816) and not modelled.
-/

namespace Verif.Sql.Parser

/-- `__action` (`src/sql/parser.rs` L738-740). -/
def action (state terminal : Nat) : Res Int :=
  match actionRows[state]? with
  | none => .error .panic
  | some row => .ok ((row.lookup terminal).getD 0)

/-- `__EOF_ACTION[state as usize]` (`src/sql/parser.rs` L1796-1798). -/
def eofAction (state : Nat) : Res Int :=
  match eofActions[state]? with
  | none => .error .panic
  | some a => .ok a

/-- `__goto` (`src/sql/parser.rs` L1401-1654). -/
def goto (state nt : Nat) : Nat :=
  match gotoRows.lookup nt with
  | some (cases, other) => (cases.lookup state).getD other
  | none => 0

/-- `__token_to_integer` (`src/sql/parser.rs` L1847-1940). -/
def tokenToInteger (t : Token) : Option Nat := tokenTerminals[t.index]?

/-- `__expected_tokens` (`src/sql/parser.rs` L1655-1749): the names of the terminals for which the state has an
action. -/
def expectedTokens (state : Nat) : List String :=
  ((List.range terminalNames.length).filter fun i =>
      match action state i with | .ok a => a ≠ 0 | .error _ => false).filterMap fun i => terminalNames[i]?

/-- `ParseError` of `lalrpop_util`. -/
inductive ParseError where
  | invalidToken (location : Nat)
  | unrecognizedEof (location : Nat) (expected : List String)
  | unrecognizedToken (token : Token) (expected : List String)
  | extraToken (token : Token)
  deriving DecidableEq, Repr

/-- How a run ends: with the value of the start symbol, or with an error. -/
abbrev Outcome := Except ParseError (SqlStatement Name)

/-- The parser between two rounds of its loops. -/
structure Config where
  states : List Nat
  symbols : List Symbol
  input : List Token
  /-- where the lexer stops with an error after `input`, if it does -/
  invalid : Option Nat
  /-- `last_location`: the end of the last token taken from the lexer -/
  last : Nat

/-- `__reduce` (`src/sql/parser.rs` L1989-2686): the stacks afterwards, or the statement when the start symbol was
reduced. -/
def reduce (p : Nat) (states : List Nat) (symbols : List Symbol) :
    Res ((List Nat × List Symbol) ⊕ SqlStatement Name) :=
  if p = 223 then do
    let (s, _) ← pop41 symbols
    .ok (.inr (action0 s))
  else match reductions[p]? with
    | none => .error .panic
    | some (f, n, nt) => do
      let symbols ← f symbols
      if states.length < n then .error .panic
      else match states.drop n with
        | [] => .error .panic
        | s :: r => .ok (.inl (goto s nt :: s :: r, symbols))

/-- What one round of a loop does. -/
inductive Round where
  | more (c : Config)
  | done (o : Outcome)

/-- The inner loop of `Parser::parse`, one round, with lookahead `t`. -/
def roundToken (c : Config) (t : Token) (rest : List Token) : Res Round :=
  match c.states with
  | [] => .error .panic
  | s :: _ => match tokenToInteger t with
    | none => .ok (.done (.error (.unrecognizedToken t (expectedTokens s))))
    | some i => do
      let a ← action s i
      if 0 < a then
        .ok (.more ⟨(a - 1).toNat :: c.states, .variant0 t.text :: c.symbols, rest, c.invalid, t.stop⟩)
      else if a < 0 then do
        let r ← reduce (-a - 1).toNat c.states c.symbols
        match r with
        | .inl (states, symbols) => .ok (.more { c with states := states, symbols := symbols })
        | .inr _ => .ok (.done (.error (.extraToken t)))
      else .ok (.done (.error (.unrecognizedToken t (expectedTokens s))))

/-- `Parser::parse_eof`, one round. -/
def roundEof (c : Config) : Res Round :=
  match c.states with
  | [] => .error .panic
  | s :: _ => do
    let a ← eofAction s
    if a < 0 then do
      let r ← reduce (-a - 1).toNat c.states c.symbols
      match r with
      | .inl (states, symbols) => .ok (.more { c with states := states, symbols := symbols })
      | .inr v => .ok (.done (.ok v))
    else .ok (.done (.error (.unrecognizedEof c.last (expectedTokens s))))

/-- One round of the loops of `Parser::parse` and `Parser::parse_eof`. -/
def round (c : Config) : Res Round :=
  match c.input, c.invalid with
  | t :: rest, _ => roundToken c t rest
  | [], some l => .ok (.done (.error (.invalidToken l)))
  | [], none => roundEof c

/-- At most `n` rounds; `none` when the parser has not returned by then. -/
def run : Nat → Config → Option (Res Outcome)
  | 0, _ => none
  | n + 1, c => match round c with
    | .error f => some (.error f)
    | .ok (.done o) => some (.ok o)
    | .ok (.more c') => run n c'

/-- The parser before the first round (`Parser::drive`, `start_state`, `src/sql/parser.rs` L1776-1778). -/
def start (input : List Token × Option Nat) : Config := ⟨[0], [], input.1, input.2, 0⟩

/-- The parser on the output of the lexer.  The number of rounds is bounded; that the bound is large enough for
every input is theorem C87. -/
def parseTokens (input : List Token × Option Nat) : Option (Res Outcome) :=
  run (19 * input.1.length + 1) (start input)

/-- `SqlStatementParser::parse` (`src/sql/parser.rs` L1972-1987). -/
def parse (s : Str) : Option (Res Outcome) := parseTokens (lex s)

end Verif.Sql.Parser
