import Verif.Proof.TypeText
import Verif.Props.Marshaller

/-! # C15–C17, C71: the type parser -/

namespace Verif.Props

open Verif Spec TypeParser

/-- A text with most of the grammar in it. -/
def typeText : Str :=
  "struct {id: u64,  tags :(string,bool), kind:enum{ none:(), some_1: struct{x:f32}, },}".toList

def typeParsed : Ty :=
  .struct [("id".toList, .prim .u64), ("tags".toList, .tuple [.string, .prim .bool]),
    ("kind".toList, .enum [("none".toList, .unit), ("some_1".toList, .struct [("x".toList, .prim .f32)])])]

def typeToks : List Tok := [.struct, .lbrace, .ident "id".toList, .colon, .prim .u64, .comma,
  .ident "tags".toList, .colon, .lparen, .string, .comma, .prim .bool, .rparen, .comma,
  .ident "kind".toList, .colon, .enum, .lbrace, .ident "none".toList, .colon, .lparen, .rparen, .comma,
  .ident "some_1".toList, .colon, .struct, .lbrace, .ident "x".toList, .colon, .prim .f32, .rbrace, .comma,
  .rbrace, .comma, .rbrace]

theorem typeText_parse : parse typeText = some typeParsed := by
  rw [parse, show lex typeText = some typeToks by decide]
  exact (rfl : parseToks typeToks = some typeParsed)

/-- C15. Whatever the parser returns is well formed, and a layout can be built for it: a text of less than
`2^59` characters (longer ones do not exist in memory) gives a type with a layout, no panic. -/
theorem C15_parsed_well_formed (s : Str) (t : Ty) (h : parse s = some t) :
    WellFormed t ∧ ∀ chk, s.length < 2 ^ 59 → ∃ l, Layout.new chk t = .ok l := by
  obtain ⟨ts, h1, h2⟩ := (parse_iff s t).1 h
  have hw := derives_wf h2 h1.ok
  refine ⟨hw, fun chk hs => (C18_layout_new chk t ?_).2 hw.inhab⟩
  have := derives_nodes h2
  have := h1.length
  omega

example : WellFormed typeParsed ∧ ∃ l, Layout.new true typeParsed = .ok l := by
  obtain ⟨h1, h2⟩ := C15_parsed_well_formed typeText typeParsed typeText_parse
  exact ⟨h1, h2 true (by decide)⟩

/-- C16. The types that can be written down are exactly the well-formed ones. -/
theorem C16_writable (t : Ty) : (∃ s, parse s = some t) ↔ WellFormed t := by
  constructor
  · rintro ⟨s, h⟩
    exact (C15_parsed_well_formed s t h).1
  · intro h
    obtain ⟨ts, h1, h2⟩ := h.writable
    exact ⟨_, (parse_iff _ _).2 ⟨ts, spelled_spaces ts h2, h1⟩⟩

/-- A label that is a keyword, and an empty struct, cannot be written. -/
example : ¬ (∃ s, parse s = some (.struct [("bool".toList, .unit)])) ∧
    ¬ (∃ s, parse s = some (.struct [])) := by
  refine ⟨fun h => ?_, fun h => ?_⟩
  · cases (C16_writable _).1 h with
    | struct _ h2 _ => exact (h2 _ (.head _)).2 (by decide)
  · cases (C16_writable _).1 h with
    | struct h1 _ _ => exact h1 rfl

example : ∃ s, parse s = some typeParsed :=
  (C16_writable _).2 ((C15_parsed_well_formed typeText typeParsed typeText_parse).1)

/-- C17. The parser returns a type exactly when the grammar derives the tokens with it, and the grammar
derives no two types from one token sequence. -/
theorem C17_unambiguous (ts : List Tok) :
    (∀ t, parseToks ts = some t ↔ DerivesTy t ts) ∧
    ∀ t t', DerivesTy t ts → DerivesTy t' ts → t = t' := by
  refine ⟨fun t => parseToks_iff t ts, fun t t' h h' => ?_⟩
  have h1 := (parseToks_iff t ts).2 h
  rw [(parseToks_iff t' ts).2 h'] at h1
  exact (Option.some.inj h1).symm

/-- The two ways to end a struct give the same type. -/
example : DerivesTy (.struct [("a".toList, .unit)])
      [.struct, .lbrace, .ident "a".toList, .colon, .lparen, .rparen, .comma, .rbrace] ∧
    DerivesTy (.struct [("a".toList, .unit)])
      [.struct, .lbrace, .ident "a".toList, .colon, .lparen, .rparen, .rbrace] :=
  ⟨((C17_unambiguous _).1 _).1 rfl, ((C17_unambiguous _).1 _).1 rfl⟩

/-- C71. The lexer returns terminals exactly when the text is their spelling, each as long as possible,
with white space between them; so a text has at most one reading, and the parser returns a type exactly when
the text spells terminals from which the grammar derives the type. -/
theorem C71_texts (s : Str) :
    (∀ ts, lex s = some ts ↔ Spelled ts s) ∧
    (∀ ts ts', Spelled ts s → Spelled ts' s → ts = ts') ∧
    (∀ t, parse s = some t ↔ ∃ ts, Spelled ts s ∧ DerivesTy t ts) := by
  refine ⟨fun ts => lex_iff ts s, fun ts ts' h h' => ?_, fun t => parse_iff s t⟩
  have h1 := (lex_iff ts s).2 h
  rw [(lex_iff ts' s).2 h'] at h1
  exact (Option.some.inj h1).symm

/-- `u88` is a label, not `u8` followed by a number; `8u` is a number and a label. -/
example : Spelled [.ident "u88".toList] "u88".toList ∧
    Spelled [.int "8".toList, .ident "u".toList] "8u".toList ∧
    ¬ Spelled [.prim .u8, .int "8".toList] "u88".toList := by
  refine ⟨((C71_texts _).1 _).1 (by decide), ((C71_texts _).1 _).1 (by decide), fun h => ?_⟩
  exact absurd (((C71_texts _).1 _).2 h) (by decide)

end Verif.Props
