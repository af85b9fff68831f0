import Verif.Spec.JsonFill
import Verif.Proof.JsonDecoder
import Verif.Proof.DataSource

/-!
# The data source after a failed parse
-/

namespace Verif.Json

open Spec

/-! ## Agreement with the decoder that forgets the data source on errors -/

/-- A function that fills a data source as a parser. -/
def run (f : Filler) : Parser := fun st =>
  match f (st.tok, st.rest) st.out with
  | (.ok (tok, rest), out) => .ok ⟨tok, rest, out⟩
  | (.error e, _) => .error e

/-- The same for a computation that has begun. -/
def finish (x : Parse Pos × IntermediateDataSource) : Parse St :=
  match x with
  | (.ok (tok, rest), out) => .ok ⟨tok, rest, out⟩
  | (.error e, _) => .error e

theorem run_eq (f : Filler) (st : St) : run f st = finish (f (st.tok, st.rest) st.out) := rfl

theorem bind_eq {α β : Type} (f : Fill α) (g : α → Fill β) (d : IntermediateDataSource) :
    (f >>= g) d = match f d with
      | (.ok a, d') => g a d'
      | (.error e, d') => (.error e, d') := rfl

/-- A step that is a parser by itself. -/
theorem finish_bind {f : Filler} {q : Parser} (h : q = run f) (g : Filler) (st : St) :
    finish ((f (st.tok, st.rest) >>= g) st.out) = (q st >>= fun st => finish (g (st.tok, st.rest) st.out)) := by
  subst h
  rw [bind_eq, run]
  cases f (st.tok, st.rest) st.out with
  | mk r d => cases r <;> rfl

/-- A step that does not use the data source. -/
theorem finish_lift {α : Type} (r : Parse α) (g : α → Fill Pos) (d : IntermediateDataSource) :
    finish ((Fill.lift r >>= g) d) = (r >>= fun a => finish (g a d)) := by
  rw [bind_eq]
  cases r <;> rfl

theorem advance_run (env : Env) : advance env = run (fillAdvance env) := by
  funext st
  simp only [advance, run, fillAdvance, Fill.lift]
  cases next env.alnum st.rest <;> rfl

theorem mustBe_run (env : Env) (tok : Tok) : mustBe env tok = run (fillMustBe env tok) := by
  funext st
  simp only [mustBe, run_eq, fillMustBe]
  split
  · rfl
  · rw [advance_run]; rfl

theorem separator_run (env : Env) (first : Bool) : separator env first = run (fillSeparator env first) := by
  funext st
  cases first
  · exact congrFun (mustBe_run env .comma) st
  · rfl

theorem change_run (env : Env) (f : IntermediateDataSource → IntermediateDataSource) (st : St) :
    finish ((Fill.change f >>= fun _ => fillAdvance env (st.tok, st.rest)) st.out) =
      advance env { st with out := f st.out } := by
  rw [advance_run]
  rfl

theorem fieldParser_run (fields : List Filler) (i : Nat) :
    fieldParser (fields.map run) i = run (fillField fields i) := by
  unfold fieldParser fillField
  rw [List.getElem?_map]
  cases fields[i]? <;> rfl

theorem structLoop_run (env : Env) (indices : List (Str × Nat)) (fields : List Filler) :
    ∀ (n visited : Nat) (first : Bool), structLoop env indices (fields.map run) n visited first =
      run (fillStructLoop env indices fields n visited first)
  | 0, visited, first => by
    funext st
    simp only [structLoop, run_eq, fillStructLoop]
    split <;> rfl
  | n + 1, visited, first => by
    funext st
    simp only [structLoop, run_eq, fillStructLoop]
    split
    · rfl
    · rw [finish_bind (separator_run env first) (fun p => do
        let index ← Fill.lift (fieldIndex indices p.1)
        if hasElement visited index then do
          let p ← fillAdvance env p
          let p ← fillMustBe env .colon p
          let p ← fillField fields index p
          fillStructLoop env indices fields n (clearElement visited index) false p
        else Fill.lift fail)]
      congr 1
      funext st
      rw [finish_lift]
      congr 1
      funext index
      split
      · rw [finish_bind (advance_run env) (fun p => do
          let p ← fillMustBe env .colon p
          let p ← fillField fields index p
          fillStructLoop env indices fields n (clearElement visited index) false p)]
        congr 1
        funext st
        rw [finish_bind (mustBe_run env .colon) (fun p => do
          let p ← fillField fields index p
          fillStructLoop env indices fields n (clearElement visited index) false p)]
        congr 1
        funext st
        rw [finish_bind (fieldParser_run fields index) (fun p =>
          fillStructLoop env indices fields n (clearElement visited index) false p)]
        congr 1
        funext st
        rw [structLoop_run env indices fields n]
        rfl
      · rfl

theorem structParser_run (env : Env) (indices : List (Str × Nat)) (fields : List Filler) :
    structParser env indices (fields.map run) = run (fillStruct env indices fields) := by
  funext st
  simp only [structParser, run_eq, fillStruct, List.length_map]
  rw [finish_bind (mustBe_run env .beginObject) (fun p => do
    let visited ← Fill.lift (newWithElements env.chk fields.length)
    let p ← fillStructLoop env indices fields 64 visited true p
    fillMustBe env .endObject p)]
  congr 1
  funext st
  rw [finish_lift]
  congr 1
  funext visited
  rw [finish_bind (structLoop_run env indices fields 64 visited true) (fun p => fillMustBe env .endObject p)]
  congr 1
  funext st
  rw [mustBe_run]
  rfl

theorem lastEntry_map {α β : Type} (f : α → β) (label : Str) : ∀ es : List (Str × α),
    lastEntry label (es.map fun e => (e.1, f e.2)) = (lastEntry label es).map f
  | [] => rfl
  | e :: es => by
    rw [List.map_cons, lastEntry, lastEntry, lastEntry_map f label es]
    cases lastEntry label es with
    | some x => rfl
    | none =>
      simp only [Option.map_none]
      split <;> rfl

theorem findCase_run (cases' : List (Str × (Nat × Filler))) (tok : Tok) :
    findCase (cases'.map fun e => (e.1, (e.2.1, run e.2.2))) tok =
      (fillCase cases' tok >>= fun c => .ok (c.1, run c.2)) := by
  cases tok <;> try rfl
  next s =>
    simp only [findCase, fillCase]
    rw [lastEntry_map (fun e : Nat × Filler => (e.1, run e.2))]
    cases lastEntry s cases' <;> rfl

theorem enumParser_run (env : Env) (path : Path) (cases' : List (Str × (Nat × Filler))) :
    enumParser env path (cases'.map fun e => (e.1, (e.2.1, run e.2.2))) = run (fillEnum env path cases') := by
  funext st
  simp only [enumParser, run_eq, fillEnum]
  rw [finish_bind (mustBe_run env .beginObject) (fun p => do
    let p ← fillMustBe env (.string ['k', 'i', 'n', 'd']) p
    let p ← fillMustBe env .colon p
    let c ← Fill.lift (fillCase cases' p.1)
    Fill.change fun d => d.addCaseTag path c.1
    let p ← fillAdvance env p
    let p ← fillMustBe env .comma p
    let p ← fillMustBe env (.string ['v', 'a', 'l', 'u', 'e']) p
    let p ← fillMustBe env .colon p
    let p ← c.2 p
    fillMustBe env .endObject p)]
  congr 1
  funext st
  rw [finish_bind (mustBe_run env (.string ['k', 'i', 'n', 'd'])) (fun p => do
    let p ← fillMustBe env .colon p
    let c ← Fill.lift (fillCase cases' p.1)
    Fill.change fun d => d.addCaseTag path c.1
    let p ← fillAdvance env p
    let p ← fillMustBe env .comma p
    let p ← fillMustBe env (.string ['v', 'a', 'l', 'u', 'e']) p
    let p ← fillMustBe env .colon p
    let p ← c.2 p
    fillMustBe env .endObject p)]
  congr 1
  funext st
  rw [finish_bind (mustBe_run env .colon) (fun p => do
    let c ← Fill.lift (fillCase cases' p.1)
    Fill.change fun d => d.addCaseTag path c.1
    let p ← fillAdvance env p
    let p ← fillMustBe env .comma p
    let p ← fillMustBe env (.string ['v', 'a', 'l', 'u', 'e']) p
    let p ← fillMustBe env .colon p
    let p ← c.2 p
    fillMustBe env .endObject p)]
  congr 1
  funext st
  rw [findCase_run, finish_lift]
  cases fillCase cases' st.tok with
  | error e => rfl
  | ok c =>
    simp only [Parse.bind_ok]
    have e : ∀ (g : Filler), finish ((Fill.change (fun d => d.addCaseTag path c.1) >>= fun _ =>
        fillAdvance env (st.tok, st.rest) >>= g) st.out) =
        (advance env { st with out := st.out.addCaseTag path c.1 } >>= fun st => finish (g (st.tok, st.rest) st.out)) := by
      intro g
      rw [← finish_bind (advance_run env) g]
      rfl
    rw [e (fun p => do
      let p ← fillMustBe env .comma p
      let p ← fillMustBe env (.string ['v', 'a', 'l', 'u', 'e']) p
      let p ← fillMustBe env .colon p
      let p ← c.2 p
      fillMustBe env .endObject p)]
    congr 1
    funext st
    rw [finish_bind (mustBe_run env .comma) (fun p => do
      let p ← fillMustBe env (.string ['v', 'a', 'l', 'u', 'e']) p
      let p ← fillMustBe env .colon p
      let p ← c.2 p
      fillMustBe env .endObject p)]
    congr 1
    funext st
    rw [finish_bind (mustBe_run env (.string ['v', 'a', 'l', 'u', 'e'])) (fun p => do
      let p ← fillMustBe env .colon p
      let p ← c.2 p
      fillMustBe env .endObject p)]
    congr 1
    funext st
    rw [finish_bind (mustBe_run env .colon) (fun p => do
      let p ← c.2 p
      fillMustBe env .endObject p)]
    congr 1
    funext st
    rw [finish_bind (q := run c.2) rfl (fun p => fillMustBe env .endObject p)]
    congr 1
    funext st
    rw [mustBe_run]
    rfl

theorem tupleLoop_run (env : Env) : ∀ (es : List Filler) (first : Bool),
    tupleLoop env (es.map run) first = run (fillTupleLoop env es first)
  | [], first => rfl
  | e :: es, first => by
    funext st
    simp only [tupleLoop, List.map_cons, run_eq, fillTupleLoop]
    rw [finish_bind (separator_run env first) (fun p => do
      let p ← e p
      fillTupleLoop env es false p)]
    congr 1
    funext st
    rw [finish_bind (q := run e) rfl (fun p => fillTupleLoop env es false p)]
    congr 1
    funext st
    rw [tupleLoop_run env es false]
    rfl

theorem tupleParser_run (env : Env) (es : List Filler) : tupleParser env (es.map run) = run (fillTuple env es) := by
  funext st
  simp only [tupleParser, run_eq, fillTuple]
  rw [finish_bind (mustBe_run env .beginArray) (fun p => do
    let p ← fillTupleLoop env es true p
    fillMustBe env .endArray p)]
  congr 1
  funext st
  rw [finish_bind (tupleLoop_run env es true) (fun p => fillMustBe env .endArray p)]
  congr 1
  funext st
  rw [mustBe_run]
  rfl

theorem stringParser_run (env : Env) (path : Path) : stringParser env path = run (fillString env path) := by
  funext st
  obtain ⟨tok, rest, out⟩ := st
  cases tok <;> first | rfl | exact (change_run env _ ⟨_, rest, out⟩).symm

theorem number_run (env : Env) (q : Prim) (path : Path) :
    parsePrimitiveNumber env q path = run (fillNumber env q path) := by
  funext st
  simp only [parsePrimitiveNumber, run_eq, fillNumber]
  cases st.tok <;> try rfl
  all_goals
    next s =>
      simp only
      cases fromStr env.floats q s with
      | none => rfl
      | some v => exact (change_run env _ ⟨_, st.rest, st.out⟩).symm

theorem primitiveParser_run (env : Env) (q : Prim) (path : Path) :
    primitiveParser env q path = run (fillPrimitive env q path) := by
  cases q <;> try exact number_run env _ path
  · funext st
    obtain ⟨tok, rest, out⟩ := st
    cases tok <;> first | rfl | exact (change_run env _ ⟨_, rest, out⟩).symm
  · funext st
    obtain ⟨tok, rest, out⟩ := st
    cases tok <;> try rfl
    next s =>
      simp only [primitiveParser, run_eq, fillPrimitive]
      cases extractChar s with
      | none =>
        simp only
        rw [advance_run]
        exact (finish_bind (f := fillAdvance env) rfl (fun _ => Fill.lift fail) ⟨.string s, rest, out⟩).symm
      | some c => exact (change_run env _ ⟨_, rest, out⟩).symm

theorem nullParser_run (env : Env) : nullParser env = run (fillNull env) := by
  funext st
  obtain ⟨tok, rest, out⟩ := st
  cases tok <;> try rfl
  exact congrFun (advance_run env) _

mutual
theorem parserFor_run (env : Env) : ∀ (p : Path) (t : Ty), parserFor env p t = run (fillFor env p t)
  | _, .unit => by rw [parserFor, fillFor, nullParser_run]
  | p, .prim q => by rw [parserFor, fillFor, primitiveParser_run]
  | p, .string => by rw [parserFor, fillFor, stringParser_run]
  | p, .tuple cs => by rw [parserFor, fillFor, ← tupleParser_run, parsersL_run env p cs 0]
  | p, .struct fs => by rw [parserFor, fillFor, ← structParser_run, parsersF_run env p fs 0]
  | p, .enum cs => by rw [parserFor, fillFor, ← enumParser_run, parsersE_run env p cs 0]
theorem parsersL_run (env : Env) : ∀ (p : Path) (cs : List Ty) (i : Nat),
    parsersL env p cs i = (fillersL env p cs i).map run
  | _, [], _ => by rw [parsersL, fillersL]; rfl
  | p, c :: cs, i => by
    rw [parsersL, fillersL, List.map_cons, parserFor_run env (p ++ [i]) c, parsersL_run env p cs (i + 1)]
theorem parsersF_run (env : Env) : ∀ (p : Path) (fs : List (Str × Ty)) (i : Nat),
    parsersF env p fs i = (fillersF env p fs i).map run
  | _, [], _ => by rw [parsersF, fillersF]; rfl
  | p, f :: fs, i => by
    rw [parsersF, fillersF, List.map_cons, parserP_run env (p ++ [i]) f, parsersF_run env p fs (i + 1)]
theorem parsersE_run (env : Env) : ∀ (p : Path) (cs : List (Str × Ty)) (i : Nat),
    parsersE env p cs i = (fillersE env p cs i).map fun e => (e.1, (e.2.1, run e.2.2))
  | _, [], _ => by rw [parsersE, fillersE]; rfl
  | p, c :: cs, i => by
    rw [parsersE, fillersE, List.map_cons, parserP_run env (p ++ [i]) c, parsersE_run env p cs (i + 1)]
theorem parserP_run (env : Env) : ∀ (p : Path) (f : Str × Ty), parserP env p f = run (fillerP env p f)
  | p, (_, t) => by rw [parserP, fillerP, parserFor_run env p t]
end

/-! ## What the data source contains after the call -/

/-- A call that leaves the data source as it is. -/
def Quiet {α : Type} (f : Fill α) : Prop := ∀ d, (f d).2 = d

theorem fill_bind {α β : Type} {Q : IntermediateDataSource → Prop} {f : Fill α} {g : α → Fill β}
    {d : IntermediateDataSource} (h1 : Q (f d).2) (h2 : ∀ a, (f d).1 = .ok a → Q (g a (f d).2).2) :
    Q ((f >>= g) d).2 := by
  rw [bind_eq]
  rcases h : f d with ⟨r, d'⟩
  rw [h] at h1 h2
  cases r with
  | ok a => exact h2 a rfl
  | error e => exact h1

theorem quiet_bind {α β : Type} {Q : IntermediateDataSource → Prop} {f : Fill α} {g : α → Fill β}
    {d : IntermediateDataSource} (hf : Quiet f) (h1 : Q d) (h2 : ∀ a, (f d).1 = .ok a → Q (g a d).2) :
    Q ((f >>= g) d).2 :=
  fill_bind (by rw [hf]; exact h1) (fun a h => by rw [hf]; exact h2 a h)

theorem lift_quiet {α : Type} (r : Parse α) : Quiet (Fill.lift r) := fun _ => rfl

theorem pure_quiet {α : Type} (a : α) : Quiet (pure a) := fun _ => rfl

theorem fillAdvance_quiet (env : Env) (p : Pos) : Quiet (fillAdvance env p) := fun _ => rfl

theorem fillMustBe_quiet (env : Env) (tok : Tok) (p : Pos) : Quiet (fillMustBe env tok p) := by
  intro d
  unfold fillMustBe
  split <;> rfl

theorem fillSeparator_quiet (env : Env) (first : Bool) (p : Pos) : Quiet (fillSeparator env first p) := by
  cases first
  · exact fillMustBe_quiet env _ p
  · exact pure_quiet p

/-- There is nothing at or under the path. -/
def Clean (p : Path) (d : IntermediateDataSource) : Prop := ∀ r, entries d (p ++ r) = none

/-- Only the entries at or under the path differ. -/
def Frame (p : Path) (d d' : IntermediateDataSource) : Prop := ∀ q, ¬ p <+: q → entries d' q = entries d q

/-- What is at and under the path. -/
def under (p : Path) (d : IntermediateDataSource) : Path → Option Value := fun r => entries d (p ++ r)

/-- The call changes nothing outside the path, and leaves part of a value there. -/
def Within (p : Path) (t : Ty) (d d' : IntermediateDataSource) : Prop := Frame p d d' ∧ PartOf t (under p d')

/-- The same for every call that begins with nothing at the path. -/
def GoodAt (p : Path) (t : Ty) (f : Filler) : Prop := ∀ pos d, Clean p d → Within p t d (f pos d).2

theorem Frame.refl (p : Path) (d : IntermediateDataSource) : Frame p d d := fun _ _ => rfl

theorem Frame.trans {p : Path} {a b c : IntermediateDataSource} (h1 : Frame p a b) (h2 : Frame p b c) :
    Frame p a c := fun q hq => (h2 q hq).trans (h1 q hq)

/-- A change under a component is a change under the whole. -/
theorem Frame.up {p : Path} {i : Nat} {a b : IntermediateDataSource} (h : Frame (p ++ [i]) a b) : Frame p a b :=
  fun q hq => h q fun hp => hq ((List.prefix_append p [i]).trans hp)

theorem prefix_index {p r : Path} {i : Nat} : p ++ [i] <+: p ++ r → r.head? = some i := by
  rw [List.prefix_append_right_inj]
  rintro ⟨s, rfl⟩
  rfl

/-- A change under one component does not change what is at the whole, or at the other components. -/
theorem Frame.other {p : Path} {i : Nat} {a b : IntermediateDataSource} (h : Frame (p ++ [i]) a b) (r : Path)
    (hr : r.head? ≠ some i) : entries b (p ++ r) = entries a (p ++ r) :=
  h _ fun hp => hr (prefix_index hp)

theorem entries_insert (d : IntermediateDataSource) (p q : Path) (v : Value) :
    entries (mapInsert Path.cmp p v d) q = if q = p then some v else entries d q :=
  mapGet_path_insert p q v d

theorem insert_frame (p : Path) (v : Value) (d : IntermediateDataSource) : Frame p d (mapInsert Path.cmp p v d) := by
  intro q hq
  rw [entries_insert, if_neg]
  rintro rfl
  exact hq (List.prefix_refl _)

theorem insert_root (p : Path) (v : Value) (d : IntermediateDataSource) :
    under p (mapInsert Path.cmp p v d) [] = some v := by
  rw [under, entries_insert, if_pos (by simp)]

theorem insert_below {p : Path} {d : IntermediateDataSource} (h : Clean p d) (v : Value) (i : Nat) (r : Path) :
    under p (mapInsert Path.cmp p v d) (i :: r) = none := by
  rw [under, entries_insert, if_neg, h]
  intro e
  have := congrArg List.length e
  simp at this

theorem Within.same {p : Path} {d : IntermediateDataSource} (t : Ty) (h : Clean p d) : Within p t d d :=
  ⟨Frame.refl p d, .nothing h⟩

theorem Within.prim {p : Path} {d : IntermediateDataSource} (v : PrimVal) (h : Clean p d) :
    Within p (.prim v.kind) d (d.addPrimitive p v) :=
  ⟨insert_frame p _ d, .prim (insert_root p _ d) (insert_below h _)⟩

theorem Within.string {p : Path} {d : IntermediateDataSource} (s : Str) (h : Clean p d) :
    Within p .string d (d.addString p s) :=
  ⟨insert_frame p _ d, .string (insert_root p _ d) (insert_below h _)⟩

theorem fillNull_good (env : Env) (p : Path) : GoodAt p .unit (fillNull env) := by
  rintro ⟨tok, rest⟩ d h
  cases tok <;> exact Within.same _ h

theorem fillString_good (env : Env) (p : Path) : GoodAt p .string (fillString env p) := by
  rintro ⟨tok, rest⟩ d h
  cases tok <;> try exact Within.same _ h
  next s =>
    simp only [fillString]
    exact fill_bind (Within.string s h) (fun a _ => by rw [fillAdvance_quiet]; exact Within.string s h)

theorem change_prim (env : Env) (p : Path) (v : PrimVal) (pos : Pos) {d : IntermediateDataSource} (h : Clean p d) :
    Within p (.prim v.kind) d ((Fill.change (fun d => d.addPrimitive p v) >>= fun _ => fillAdvance env pos) d).2 :=
  fill_bind (Within.prim v h) (fun a _ => by rw [fillAdvance_quiet]; exact Within.prim v h)

theorem fillNumber_good (env : Env) (q : Prim) (p : Path) : GoodAt p (.prim q) (fillNumber env q p) := by
  rintro ⟨tok, rest⟩ d h
  cases tok <;> try exact Within.same _ h
  all_goals
    next s =>
      simp only [fillNumber]
      cases hv : fromStr env.floats q s with
      | none => exact Within.same _ h
      | some v =>
        obtain ⟨rfl, _⟩ := fromStr_iff.1 hv
        exact change_prim env p v _ h

theorem fillPrimitive_good (env : Env) (q : Prim) (p : Path) : GoodAt p (.prim q) (fillPrimitive env q p) := by
  cases q <;> try exact fillNumber_good env _ p
  · rintro ⟨tok, rest⟩ d h
    cases tok <;> try exact Within.same _ h
    · exact change_prim env p ⟨.bool, Bool.true⟩ _ h
    · exact change_prim env p ⟨.bool, Bool.false⟩ _ h
  · rintro ⟨tok, rest⟩ d h
    cases tok <;> try exact Within.same _ h
    next s =>
      simp only [fillPrimitive]
      cases extractChar s with
      | none =>
        exact quiet_bind (fillAdvance_quiet env _) (Within.same _ h) (fun a _ => Within.same _ h)
      | some c => exact change_prim env p ⟨.char, c⟩ _ h

/-- Between two components: nothing at the path itself, part of a value at every component, and nothing at the
components in `todo`. -/
structure Between (p : Path) (n : Nat) (ty : Nat → Option Ty) (todo : Nat → Prop) (d₀ d : IntermediateDataSource) :
    Prop where
  frame : Frame p d₀ d
  root : under p d [] = none
  beyond : ∀ i r, n ≤ i → under p d (i :: r) = none
  part : ∀ i c, ty i = some c → PartOf c (fun r => under p d (i :: r))
  clean : ∀ i, todo i → Clean (p ++ [i]) d

theorem under_index (p : Path) (i : Nat) (d : IntermediateDataSource) (r : Path) :
    under (p ++ [i]) d r = under p d (i :: r) := by
  simp [under]

theorem Between.start {p : Path} {n : Nat} {ty : Nat → Option Ty} {todo : Nat → Prop} {d : IntermediateDataSource}
    (h : Clean p d) : Between p n ty todo d d :=
  ⟨Frame.refl p d, h [], fun _ _ _ => h _, fun _ _ _ => .nothing fun _ => h _,
    fun i _ r => by rw [List.append_assoc]; exact h _⟩

/-- One component more. -/
theorem Between.step {p : Path} {n : Nat} {ty : Nat → Option Ty} {todo todo' : Nat → Prop}
    {d₀ d d' : IntermediateDataSource} {i : Nat} {c : Ty} (h : Between p n ty todo d₀ d) (hi : i < n)
    (hc : ty i = some c) (hw : Within (p ++ [i]) c d d') (ht : ∀ j, todo' j → todo j ∧ j ≠ i) :
    Between p n ty todo' d₀ d' := by
  refine ⟨h.frame.trans hw.1.up, ?_, ?_, ?_, ?_⟩
  · exact (hw.1.other [] (by simp)).trans h.root
  · intro j r hj
    exact (hw.1.other (j :: r) (by simp; omega)).trans (h.beyond j r hj)
  · intro j c' hj
    by_cases e : j = i
    · subst e
      rw [hc] at hj
      cases hj
      have := hw.2
      rw [show under (p ++ [j]) d' = fun r => under p d' (j :: r) from funext (under_index p j d')] at this
      exact this
    · have := h.part j c' hj
      rw [show (fun r => under p d (j :: r)) = fun r => under p d' (j :: r) from
        funext fun r => (hw.1.other (j :: r) (by simpa using e)).symm] at this
      exact this
  · intro j hj r
    obtain ⟨h1, h2⟩ := ht j hj
    have e1 := h.clean j h1 r
    rw [List.append_assoc] at e1 ⊢
    exact (hw.1.other ([j] ++ r) (by simpa using h2)).trans e1

theorem Between.weaken {p : Path} {n : Nat} {ty : Nat → Option Ty} {todo : Nat → Prop}
    {d₀ d : IntermediateDataSource} (h : Between p n ty todo d₀ d) : Between p n ty (fun _ => False) d₀ d :=
  ⟨h.frame, h.root, h.beyond, h.part, fun _ hf => hf.elim⟩

theorem fillersL_get (env : Env) (p : Path) : ∀ (cs : List Ty) (k i : Nat),
    (fillersL env p cs k)[i]? = (cs[i]?).map fun c => fillFor env (p ++ [k + i]) c
  | [], k, i => by rw [fillersL]; rfl
  | c :: cs, k, 0 => by rw [fillersL]; rfl
  | c :: cs, k, i + 1 => by
    rw [fillersL, List.getElem?_cons_succ, List.getElem?_cons_succ, fillersL_get env p cs (k + 1) i,
      show k + 1 + i = k + (i + 1) from by omega]

theorem fillersF_get (env : Env) (p : Path) : ∀ (fs : List (Str × Ty)) (k i : Nat),
    (fillersF env p fs k)[i]? = (fs[i]?).map fun f => fillFor env (p ++ [k + i]) f.2
  | [], k, i => by rw [fillersF]; rfl
  | f :: fs, k, 0 => by rw [fillersF]; cases f; rfl
  | f :: fs, k, i + 1 => by
    rw [fillersF, List.getElem?_cons_succ, List.getElem?_cons_succ, fillersF_get env p fs (k + 1) i,
      show k + 1 + i = k + (i + 1) from by omega]

theorem fillersE_get (env : Env) (p : Path) : ∀ (cs : List (Str × Ty)) (k i : Nat),
    (fillersE env p cs k)[i]? = (cs[i]?).map fun c => (c.1, (k + i, fillFor env (p ++ [k + i]) c.2))
  | [], k, i => by rw [fillersE]; rfl
  | c :: cs, k, 0 => by rw [fillersE]; cases c; rfl
  | c :: cs, k, i + 1 => by
    rw [fillersE, List.getElem?_cons_succ, List.getElem?_cons_succ, fillersE_get env p cs (k + 1) i,
      show k + 1 + i = k + (i + 1) from by omega]

theorem fillersF_length (env : Env) (p : Path) : ∀ (fs : List (Str × Ty)) (k : Nat),
    (fillersF env p fs k).length = fs.length
  | [], k => by rw [fillersF]; rfl
  | f :: fs, k => by rw [fillersF, List.length_cons, List.length_cons, fillersF_length env p fs (k + 1)]

/-- The loop over the components of a tuple. -/
theorem fillTupleLoop_good (env : Env) {p : Path} {n : Nat} {ty : Nat → Option Ty} {d₀ : IntermediateDataSource} :
    ∀ (es : List Filler) (k : Nat) (first : Bool) (pos : Pos) (d : IntermediateDataSource), k + es.length = n →
      (∀ (i : Nat) (f : Filler), es[i]? = some f → ∃ c, ty (k + i) = some c ∧ GoodAt (p ++ [k + i]) c f) →
      Between p n ty (fun i => k ≤ i) d₀ d → Between p n ty (fun _ => False) d₀ (fillTupleLoop env es first pos d).2
  | [], k, first, pos, d, hn, hes, h => h.weaken
  | e :: es, k, first, pos, d, hn, hes, h => by
    obtain ⟨c, hc, hg⟩ := hes 0 e rfl
    rw [List.length_cons] at hn
    simp only [fillTupleLoop]
    refine quiet_bind (fillSeparator_quiet env first pos) h.weaken fun pos _ => ?_
    have h' : Between p n ty (fun i => k + 1 ≤ i) d₀ (e pos d).2 :=
      h.step (by omega) hc (hg pos d (h.clean _ (by simp))) (fun j hj => by
        simp only [Nat.add_zero] at *
        omega)
    refine fill_bind h'.weaken fun pos' _ => ?_
    refine fillTupleLoop_good env es (k + 1) false pos' _ (by omega) (fun i f hf => ?_) h'
    have := hes (i + 1) f hf
    rwa [show k + (i + 1) = k + 1 + i from by omega] at this

/-- The loop over the fields of a struct. -/
theorem fillStructLoop_good (env : Env) {p : Path} {fs : List (Str × Ty)} {d₀ : IntermediateDataSource}
    (hn : fs.length ≤ 64) (hfs : ∀ (i : Nat) (f : Str × Ty), fs[i]? = some f → ∀ p, GoodAt p f.2 (fillFor env p f.2)) :
    ∀ (n visited : Nat) (first : Bool) (pos : Pos) (d : IntermediateDataSource),
      Between p fs.length (fun i => (fs[i]?).map Prod.snd) (fun i => visited.testBit i = true) d₀ d →
      Between p fs.length (fun i => (fs[i]?).map Prod.snd) (fun _ => False) d₀
        (fillStructLoop env (numbered fs 0) (fillersF env p fs 0) n visited first pos d).2
  | 0, visited, first, pos, d, h => by
    simp only [fillStructLoop]
    split <;> exact h.weaken
  | n + 1, visited, first, pos, d, h => by
    simp only [fillStructLoop]
    split
    · exact h.weaken
    · refine quiet_bind (fillSeparator_quiet env first pos) h.weaken fun pos _ => ?_
      refine quiet_bind (lift_quiet _) h.weaken fun index hx => ?_
      split
      · next hb =>
        rw [hasElement_eq] at hb
        refine quiet_bind (fillAdvance_quiet env pos) h.weaken fun pos _ => ?_
        refine quiet_bind (fillMustBe_quiet env _ pos) h.weaken fun pos _ => ?_
        obtain ⟨l, _, hi⟩ := fieldIndex_ok.1 hx
        obtain ⟨f, hf, _, _⟩ := fieldIndex_iff.1 hi
        have hlt : index < fs.length := (List.getElem?_eq_some_iff.1 hf).1
        have e : fillField (fillersF env p fs 0) index = fillFor env (p ++ [index]) f.2 := by
          rw [fillField, fillersF_get, hf]
          simp
        rw [e]
        have h' : Between p fs.length (fun i => (fs[i]?).map Prod.snd)
            (fun i => (clearElement visited index).testBit i = true) d₀ (fillFor env (p ++ [index]) f.2 pos d).2 := by
          refine h.step hlt (c := f.2) (by simp [hf]) (hfs index f hf _ pos d (h.clean _ hb)) fun j hj => ?_
          have h1 : visited.testBit j = true := by
            cases hv : visited.testBit j with
            | true => rfl
            | false => rw [clearElement_high hv] at hj; cases hj
          refine ⟨h1, ?_⟩
          rintro rfl
          rw [clearElement_testBit (by omega) _ (by omega)] at hj
          simp at hj
        exact fill_bind h'.weaken fun pos' _ => fillStructLoop_good env hn hfs n _ false pos' _ h'
      · exact h.weaken

theorem fillTuple_good (env : Env) (p : Path) (cs : List Ty)
    (hcs : ∀ (i : Nat) (c : Ty), cs[i]? = some c → ∀ p, GoodAt p c (fillFor env p c)) :
    GoodAt p (.tuple cs) (fillTuple env (fillersL env p cs 0)) := by
  intro pos d h
  simp only [fillTuple]
  refine quiet_bind (fillMustBe_quiet env _ pos) (Within.same _ h) fun pos _ => ?_
  have hlen : (fillersL env p cs 0).length = cs.length := by
    apply Nat.le_antisymm
    · apply Nat.le_of_not_lt
      intro hlt
      have := fillersL_get env p cs 0 cs.length
      rw [List.getElem?_eq_getElem hlt] at this
      simp at this
    · apply Nat.le_of_not_lt
      intro hlt
      have := fillersL_get env p cs 0 (fillersL env p cs 0).length
      rw [List.getElem?_eq_getElem hlt] at this
      simp at this
  have hb := fillTupleLoop_good env (p := p) (n := cs.length) (ty := fun i => cs[i]?) (d₀ := d)
    (fillersL env p cs 0) 0 true pos d (by omega) (fun i f hf => by
      rw [fillersL_get] at hf
      cases hc : cs[i]? with
      | none => rw [hc] at hf; cases hf
      | some c =>
        rw [hc] at hf
        cases hf
        exact ⟨c, by simpa using hc, hcs i c hc _⟩) (Between.start h)
  have hw : Within p (.tuple cs) d (fillTupleLoop env (fillersL env p cs 0) true pos d).2 :=
    ⟨hb.frame, .tuple hb.root hb.beyond hb.part⟩
  exact fill_bind hw fun pos' _ => by rw [fillMustBe_quiet]; exact hw

theorem fillStruct_good (env : Env) (p : Path) (fs : List (Str × Ty))
    (hfs : ∀ (i : Nat) (f : Str × Ty), fs[i]? = some f → ∀ p, GoodAt p f.2 (fillFor env p f.2)) :
    GoodAt p (.struct fs) (fillStruct env (numbered fs 0) (fillersF env p fs 0)) := by
  intro pos d h
  simp only [fillStruct]
  refine quiet_bind (fillMustBe_quiet env _ pos) (Within.same _ h) fun pos _ => ?_
  refine quiet_bind (lift_quiet _) (Within.same _ h) fun visited hv => ?_
  rw [fillersF_length] at hv
  have hn : fs.length ≤ 64 := by
    apply Nat.le_of_not_lt
    intro hlt
    simp only [Fill.lift, newWithElements] at hv
    rw [if_pos (by omega)] at hv
    cases hv
  have hb := fillStructLoop_good env (p := p) (d₀ := d) hn hfs 64 visited true pos d (Between.start h)
  have hw : Within p (.struct fs) d
      (fillStructLoop env (numbered fs 0) (fillersF env p fs 0) 64 visited true pos d).2 :=
    ⟨hb.frame, .struct hb.root hb.beyond fun i l c hc => hb.part i c (by simp [hc])⟩
  exact fill_bind hw fun pos' _ => by rw [fillMustBe_quiet]; exact hw

theorem fillEnum_good (env : Env) (p : Path) (cs : List (Str × Ty))
    (hcs : ∀ (i : Nat) (c : Str × Ty), cs[i]? = some c → ∀ p, GoodAt p c.2 (fillFor env p c.2)) :
    GoodAt p (.enum cs) (fillEnum env p (fillersE env p cs 0)) := by
  intro pos d h
  simp only [fillEnum]
  refine quiet_bind (fillMustBe_quiet env _ pos) (Within.same _ h) fun pos _ => ?_
  refine quiet_bind (fillMustBe_quiet env _ pos) (Within.same _ h) fun pos _ => ?_
  refine quiet_bind (fillMustBe_quiet env _ pos) (Within.same _ h) fun pos _ => ?_
  refine quiet_bind (lift_quiet _) (Within.same _ h) fun c hc => ?_
  obtain ⟨i, l, t, hi, rfl⟩ : ∃ (i : Nat) (l : Str) (t : Ty), cs[i]? = some (l, t) ∧
      c = (i, fillFor env (p ++ [i]) t) := by
    simp only [Fill.lift] at hc
    unfold fillCase at hc
    split at hc
    · split at hc
      · cases hc
      · next c' he =>
        cases hc
        obtain ⟨i, h1, _⟩ := lastEntry_some.1 he
        rw [fillersE_get] at h1
        cases hcs' : cs[i]? with
        | none => rw [hcs'] at h1; cases h1
        | some lt =>
          rw [hcs'] at h1
          obtain ⟨l, t⟩ := lt
          cases h1
          exact ⟨i, l, t, hcs', by simp⟩
    · cases hc
  -- the data source after the tag
  have hd : ∀ d', Clean (p ++ [i]) (d.addCaseTag p i) → Within (p ++ [i]) t (d.addCaseTag p i) d' →
      Within p (.enum cs) d d' := by
    intro d' _ hw
    refine ⟨(insert_frame p _ d).trans hw.1.up, .enum (i := i) (l := l) (c := t) ?_ hi ?_ ?_⟩
    · exact (hw.1.other [] (by simp)).trans (insert_root p _ d)
    · have := hw.2
      rw [show under (p ++ [i]) d' = fun r => under p d' (i :: r) from funext (under_index p i d')] at this
      exact this
    · intro j r hj
      exact (hw.1.other (j :: r) (by simpa using hj)).trans (insert_below h _ j r)
  have hclean : Clean (p ++ [i]) (d.addCaseTag p i) := fun r => by
    have := insert_below h (.tag i) i r
    rwa [← under_index] at this
  have h1 : Within p (.enum cs) d (d.addCaseTag p i) := hd _ hclean (Within.same t hclean)
  refine fill_bind h1 fun _ _ => ?_
  refine quiet_bind (fillAdvance_quiet env pos) h1 fun pos _ => ?_
  refine quiet_bind (fillMustBe_quiet env _ pos) h1 fun pos _ => ?_
  refine quiet_bind (fillMustBe_quiet env _ pos) h1 fun pos _ => ?_
  refine quiet_bind (fillMustBe_quiet env _ pos) h1 fun pos _ => ?_
  have h2 := hd _ hclean (hcs i (l, t) hi (p ++ [i]) pos _ hclean)
  exact fill_bind h2 fun pos' _ => by rw [fillMustBe_quiet]; exact h2

mutual
theorem fillFor_good (env : Env) : ∀ (t : Ty) (p : Path), GoodAt p t (fillFor env p t)
  | .unit, p => by rw [fillFor]; exact fillNull_good env p
  | .prim q, p => by rw [fillFor]; exact fillPrimitive_good env q p
  | .string, p => by rw [fillFor]; exact fillString_good env p
  | .tuple cs, p => by rw [fillFor]; exact fillTuple_good env p cs (fillersL_good env cs)
  | .struct fs, p => by rw [fillFor]; exact fillStruct_good env p fs (fillersF_good env fs)
  | .enum cs, p => by rw [fillFor]; exact fillEnum_good env p cs (fillersF_good env cs)
theorem fillersL_good (env : Env) : ∀ (cs : List Ty) (i : Nat) (c : Ty), cs[i]? = some c →
    ∀ p, GoodAt p c (fillFor env p c)
  | [], _, _, h => by cases h
  | c :: cs, 0, _, h => by cases h; exact fillFor_good env c
  | c :: cs, i + 1, c', h => fillersL_good env cs i c' h
theorem fillersF_good (env : Env) : ∀ (fs : List (Str × Ty)) (i : Nat) (f : Str × Ty), fs[i]? = some f →
    ∀ p, GoodAt p f.2 (fillFor env p f.2)
  | [], _, _, h => by cases h
  | f :: fs, 0, _, h => by cases h; exact fillerP_good env f
  | f :: fs, i + 1, f', h => fillersF_good env fs i f' h
theorem fillerP_good (env : Env) : ∀ (f : Str × Ty) (p : Path), GoodAt p f.2 (fillFor env p f.2)
  | (_, t), p => fillFor_good env t p
end

end Verif.Json
