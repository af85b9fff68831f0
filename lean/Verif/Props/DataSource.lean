import Verif.Proof.DataSource

/-! # Property C31: the intermediate data source is a map (`src/core/data_source.rs`) -/

namespace Verif.Props

open Verif

/-- Calls of the public interface that change an `IntermediateDataSource`. -/
inductive DsOp where
  | clear
  | addPrimitive (p : Path) (v : PrimVal)
  | addString (p : Path) (s : Str)
  | addCaseTag (p : Path) (n : Nat)

/-- The modelled call. -/
def DsOp.run (d : IntermediateDataSource) : DsOp → IntermediateDataSource
  | .clear => d.clear
  | .addPrimitive p v => d.addPrimitive p v
  | .addString p s => d.addString p s
  | .addCaseTag p n => d.addCaseTag p n

/-- Specification: what the last relevant call in a history (latest call first) stored at `q`. -/
def lastStored (q : Path) : List DsOp → Option Value
  | [] => none
  | .clear :: _ => none
  | .addPrimitive p v :: h => if p = q then some (.prim v) else lastStored q h
  | .addString p s :: h => if p = q then some (.string s) else lastStored q h
  | .addCaseTag p n :: h => if p = q then some (.tag n) else lastStored q h

theorem mapGet_run (ops : List DsOp) (q : Path) :
    mapGet Path.cmp q (ops.foldr (fun o d => DsOp.run d o) IntermediateDataSource.new) =
      lastStored q ops := by
  induction ops with
  | nil => rfl
  | cons o ops ih =>
    rw [List.foldr_cons]
    cases o with
    | clear => rfl
    | addPrimitive p v =>
      refine (mapGet_path_insert _ _ _ _).trans ?_
      rw [ih, lastStored]; simp only [eq_comm]
    | addString p s =>
      refine (mapGet_path_insert _ _ _ _).trans ?_
      rw [ih, lastStored]; simp only [eq_comm]
    | addCaseTag p n =>
      refine (mapGet_path_insert _ _ _ _).trans ?_
      rw [ih, lastStored]; simp only [eq_comm]

/-- C31. After any sequence of calls (given latest first), each getter returns the last value stored at
the path since the last `clear` if its kind matches, and panics otherwise. -/
theorem C31_map (ops : List DsOp) (q : Path) :
    let src := (ops.foldr (fun o d => DsOp.run d o) IntermediateDataSource.new).source
    (∀ v : PrimVal, lastStored q ops = some (.prim v) →
      src.prim v.kind q = .ok v.val ∧ (∀ p, p ≠ v.kind → src.prim p q = .error .panic) ∧
      src.tag q = .error .panic ∧ src.length q = .error .panic ∧ src.bytes q = .error .panic) ∧
    (∀ s : Str, lastStored q ops = some (.string s) →
      src.length q = .ok s.utf8.length ∧ src.bytes q = .ok s.utf8 ∧
      (∀ p, src.prim p q = .error .panic) ∧ src.tag q = .error .panic) ∧
    (∀ n : Nat, lastStored q ops = some (.tag n) →
      src.tag q = .ok n ∧ (∀ p, src.prim p q = .error .panic) ∧
      src.length q = .error .panic ∧ src.bytes q = .error .panic) ∧
    (lastStored q ops = none →
      (∀ p, src.prim p q = .error .panic) ∧ src.tag q = .error .panic ∧
      src.length q = .error .panic ∧ src.bytes q = .error .panic) := by
  simp only [IntermediateDataSource.source, mapGet_run]
  refine ⟨?_, ?_, ?_, ?_⟩
  · intro v h
    simp only [h]
    refine ⟨by simp, fun p hp => ?_, by simp⟩
    simp [Ne.symm hp]
  · intro s h; simp [h]
  · intro s h; simp [h]
  · intro h; simp [h]

example :
    let ops : List DsOp := [.addString [0] ['b'], .addCaseTag [1] 3, .addString [0] ['a'], .clear,
      .addCaseTag [2] 0]
    lastStored [0] ops = some (.string ['b']) ∧ lastStored [1] ops = some (.tag 3) ∧
      lastStored [2] ops = none := by decide

end Verif.Props
