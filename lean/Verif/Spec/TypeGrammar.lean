import Verif.Model.TypeParser
import Verif.Spec.Value

/-! # Specification: the grammar of `src/core/types/parser.lalrpop` as a relation -/

namespace Verif.Spec

open Verif TypeParser

mutual
/-- `Type` derives the tokens, with this result (parser.lalrpop L29-66, L73-75, L86-88). -/
inductive DerivesTy : Ty → List Tok → Prop
  | unit : DerivesTy .unit [.lparen, .rparen]
  | prim (p : Prim) : DerivesTy (.prim p) [.prim p]
  | string : DerivesTy .string [.string]
  | tuple {cs : List Ty} {ts : List Tok} : DerivesList cs ts →
      DerivesTy (.tuple cs) ([.lparen] ++ ts ++ [.rparen])
  | struct {fs : List (Str × Ty)} {ts : List Tok} : DerivesFields fs ts →
      DerivesTy (.struct fs) ([.struct, .lbrace] ++ ts ++ [.rbrace])
  | structComma {fs : List (Str × Ty)} {ts : List Tok} : DerivesFields fs ts →
      DerivesTy (.struct fs) ([.struct, .lbrace] ++ ts ++ [.comma, .rbrace])
  | enum {fs : List (Str × Ty)} {ts : List Tok} : DerivesFields fs ts →
      DerivesTy (.enum fs) ([.enum, .lbrace] ++ ts ++ [.rbrace])
  | enumComma {fs : List (Str × Ty)} {ts : List Tok} : DerivesFields fs ts →
      DerivesTy (.enum fs) ([.enum, .lbrace] ++ ts ++ [.comma, .rbrace])
/-- `TypeList` (L68-71). -/
inductive DerivesList : List Ty → List Tok → Prop
  | one {t : Ty} {ts : List Tok} : DerivesTy t ts → DerivesList [t] ts
  | snoc {cs : List Ty} {t : Ty} {us ts : List Tok} : DerivesList cs us → DerivesTy t ts →
      DerivesList (cs ++ [t]) (us ++ [.comma] ++ ts)
/-- `FieldList` and `CaseList` (L77-84, L90-97), with `Field` and `Case`. -/
inductive DerivesFields : List (Str × Ty) → List Tok → Prop
  | one {l : Str} {t : Ty} {ts : List Tok} : DerivesTy t ts →
      DerivesFields [(l, t)] ([.ident l, .colon] ++ ts)
  | snoc {fs : List (Str × Ty)} {l : Str} {t : Ty} {us ts : List Tok} : DerivesFields fs us →
      DerivesTy t ts → DerivesFields (fs ++ [(l, t)]) (us ++ [.comma] ++ ([.ident l, .colon] ++ ts))
end

/-- `[A-Za-z_][A-Za-z0-9_]*` (L104). -/
def IsWord (s : Str) : Prop :=
  ∃ c cs, s = c :: cs ∧ identStart c = true ∧ ∀ d ∈ cs, identChar d = true

/-- How a terminal is written. -/
def spell : Tok → Str
  | .lparen => "(".toList
  | .rparen => ")".toList
  | .lbrace => "{".toList
  | .rbrace => "}".toList
  | .comma => ",".toList
  | .colon => ":".toList
  | .prim .bool => "bool".toList
  | .prim .char => "char".toList
  | .prim .u8 => "u8".toList
  | .prim .u16 => "u16".toList
  | .prim .u32 => "u32".toList
  | .prim .u64 => "u64".toList
  | .prim .u128 => "u128".toList
  | .prim .i8 => "i8".toList
  | .prim .i16 => "i16".toList
  | .prim .i32 => "i32".toList
  | .prim .i64 => "i64".toList
  | .prim .i128 => "i128".toList
  | .prim .f32 => "f32".toList
  | .prim .f64 => "f64".toList
  | .string => "string".toList
  | .struct => "struct".toList
  | .enum => "enum".toList
  | .ident s => s
  | .int s => s

/-- A label the grammar can produce: a word that is not the spelling of another terminal. -/
def IsLabel (s : Str) : Prop :=
  IsWord s ∧ s ∉ (["bool", "char", "u8", "u16", "u32", "u64", "u128", "i8", "i16", "i32", "i64", "i128",
    "f32", "f64", "string", "struct", "enum"].map String.toList)

/-- The payload of a terminal matches its regular expression (L99-105). -/
def TokOk : Tok → Prop
  | .ident s => IsLabel s
  | .int s => s ≠ [] ∧ ∀ c ∈ s, isDigit c = true
  | _ => True

/-- `s` does not begin with a character that would prolong the terminal. -/
def Boundary : Tok → Str → Prop
  | _, [] => True
  | .lparen, _ | .rparen, _ | .lbrace, _ | .rbrace, _ | .comma, _ | .colon, _ => True
  | .int _, c :: _ => isDigit c = false
  | _, c :: _ => identChar c = false

/-- The text is the spelling of the terminals, with white space between them, and no terminal could be
prolonged. -/
inductive Spelled : List Tok → Str → Prop
  | nil : Spelled [] []
  | space {c : Char} {ts : List Tok} {s : Str} : isSpace c = true → Spelled ts s → Spelled ts (c :: s)
  | tok {k : Tok} {ts : List Tok} {s : Str} : TokOk k → Boundary k s → Spelled ts s →
      Spelled (k :: ts) (spell k ++ s)

/-- Non-empty tuples, structs and enums, and labels that are identifiers. -/
inductive WellFormed : Ty → Prop
  | unit : WellFormed .unit
  | prim (p : Prim) : WellFormed (.prim p)
  | string : WellFormed .string
  | tuple {cs : List Ty} : cs ≠ [] → (∀ c ∈ cs, WellFormed c) → WellFormed (.tuple cs)
  | struct {fs : List (Str × Ty)} : fs ≠ [] → (∀ f ∈ fs, IsLabel f.1) → (∀ f ∈ fs, WellFormed f.2) →
      WellFormed (.struct fs)
  | enum {cs : List (Str × Ty)} : cs ≠ [] → (∀ c ∈ cs, IsLabel c.1) → (∀ c ∈ cs, WellFormed c.2) →
      WellFormed (.enum cs)

end Verif.Spec
