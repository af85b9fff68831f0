import Verif.Proof.JsonCalls
import Verif.Props.Json

/-! # C127: the decoder nests its calls no deeper than the type -/

namespace Verif.Props

open Spec Json

/-- C127. The functions with the counts have the outcome of the decoder. -/
theorem C127_outcome (env : Env) (t : Ty) (input : Str) : (decodeC env t input).result = decode env t input :=
  (decode_within env t input).result

/-- C127. Whatever the text is: the calls of `parse` are nested no deeper than the type, there is at most one for each
value that a document of the type has, and at most as many tokens are read as a document of the type has, and one
more. -/
theorem C127_bounds (env : Env) (t : Ty) (input : Str) :
    (decodeC env t input).depth ≤ typeDepth t ∧ (decodeC env t input).calls ≤ typeValues t ∧
      (decodeC env t input).reads ≤ typeToks t + 1 :=
  ⟨(decode_within env t input).depth, (decode_within env t input).calls, (decode_within env t input).reads⟩

/-- C127. A text that begins with a document of the type takes one call for each value in it, nested as these are, and
one token more than it has is read. -/
theorem C127_exactly (env : Env) (t : Ty) (input : Str) (tr : Tree) (v : Val) (k : Json.Tok) (s : Str)
    (h : StartsWith env.alnum input tr.toks k s) (ht : Takes env.floats (env.chk = false) t tr v) :
    (∃ d, decode env t input = .ok d) ∧ (decodeC env t input).calls = valSize v ∧
      (decodeC env t input).depth = valDepth v ∧ (decodeC env t input).reads = tr.toks.length + 1 := by
  obtain ⟨k0, s0, h0, h1⟩ := h
  obtain ⟨d, e⟩ := exactly env t [] ⟨k0, s0, []⟩ tr v k s h1 ht
  have hd : decodeC env t input = ⟨.ok d, valSize v, valDepth v, tr.toks.length + 1⟩ := by
    unfold decodeC
    rw [h0, seq _ rfl]
    simp only
    rw [seq _ e]
    simp [after, Pure.pure, Costed.free]
    omega
  rw [← C127_outcome, hd]
  exact ⟨⟨d, rfl⟩, rfl, rfl, rfl⟩

/-- `struct { a: (bool, ()), b: enum { x: (), y: (()) } }`. -/
def nestedTy : Ty :=
  .struct [(['a'], .tuple [.prim .bool, .unit]), (['b'], .enum [(['x'], .unit), (['y'], .tuple [.unit])])]

/-- A document of this type, in which the fields are not in order, with text after it. -/
def nestedText : Str := "{\"b\":{\"kind\":\"y\",\"value\":[null]},\"a\":[true,null]}[[[[[[[[[[".toList

/-- The bounds of this type, and that the document reaches them. -/
example : (typeDepth nestedTy = 4 ∧ typeValues nestedTy = 7 ∧ typeToks nestedTy = 23) ∧
    (decodeC (plainEnv true) nestedTy nestedText).depth = 4 ∧
    (decodeC (plainEnv true) nestedTy nestedText).calls = 7 ∧
    (decodeC (plainEnv true) nestedTy nestedText).reads = 24 := by decide +kernel

/-- Many brackets, where the type has a list of two. -/
def bracketText : Str := "{\"a\":[[[[[[[[[[[[[[[[[[[[[[[[[[[[[[".toList

/-- Brackets do not nest calls: the text is refused at the second one. -/
example : (decodeC (plainEnv true) nestedTy bracketText).depth = 3 ∧
    (decodeC (plainEnv true) nestedTy bracketText).calls = 3 ∧
    (decodeC (plainEnv true) nestedTy bracketText).reads = 5 := by decide +kernel

/-- The hypotheses of `C127_exactly` for a smaller document. -/
example : StartsWith (plainEnv true).alnum "[null]".toList (Tree.arr [.null]).toks .eof [] ∧
    Takes (plainEnv true).floats ((plainEnv true).chk = false) (.tuple [.unit]) (.arr [.null]) (.seq [.unit]) := by
  refine ⟨⟨.beginArray, "null]".toList, rfl, ?_⟩, .tuple rfl rfl ?_⟩
  · simp only [Tree.toks, toksL, sepBy, List.nil_append, List.cons_append]
    exact .cons rfl (.cons rfl (.cons rfl .nil))
  · intro i c t v hc ht hv
    cases i with
    | zero => cases hc; cases ht; cases hv; exact .unit
    | succ i => cases hc

end Verif.Props
