import Verif.Proof.MarshallerCalls
import Verif.Proof.SmoothExact
import Verif.Props.Marshaller

/-!
# C128: what the encoder asks the data source for, and how often

Encoding asks only for what the value has; each layer is written once, and measured once for each enum around it.
-/

namespace Verif.Props

open Verif.Spec

/-- The outcome of the functions with their calls is the outcome of the functions. -/
theorem C128_outcome (chk : Bool) (l : Layout) (src : DataSource) (buf : Bytes) :
    (l.sizeT chk src).result = l.sizeWithSource chk src ∧ (l.encodeT chk src buf).result = l.encode chk src buf :=
  ⟨sizeT_result chk src l, encodeT_result chk src l buf⟩

/-- Of a source that presents a value, `encoding_size_with_source` and `encode_with_source` ask what the value says,
the former the length of each string and the tag of each enum once, the latter each as often as there are enums around
it, and two times more; if they end early, on whatever buffer, then some of this. -/
theorem C128_asks (chk : Bool) (t : Ty) (hi : Inhab t) (hn : nodes t < 2 ^ 59) (v : Val) (hv : Typed t v) (l : Layout)
    (hl : Layout.new chk t = .ok l) (src : DataSource) (hs : Presents src v []) (buf : Bytes) :
    AsksFor (l.sizeT chk src) (.measure :: measuring v []) ∧
    AsksFor (l.encodeT chk src buf) (.encode :: encoding 0 v []) :=
  ⟨(makes chk (nodes t) t (Nat.le_refl _) hn hi v hv [] l hl src hs).1,
    (makes chk (nodes t) t (Nat.le_refl _) hn hi v hv [] l hl src hs).2 buf⟩

/-- The encoder asks for nothing that the value does not have, and for everything that it has in the way that its type
says; the measurement never asks for numbers or for the bytes of a string. -/
theorem C128_nothing_else (chk : Bool) (t : Ty) (hi : Inhab t) (hn : nodes t < 2 ^ 59) (v : Val) (hv : Typed t v)
    (l : Layout) (hl : Layout.new chk t = .ok l) (src : DataSource) (hs : Presents src v []) (buf : Bytes) (q : Path)
    (a : Ask) :
    (.ask q a ∈ (l.encodeT chk src buf).visits → ∃ leaf, (q, leaf) ∈ leaves v [] ∧ Concerns a leaf) ∧
    (.ask q a ∈ (l.sizeT chk src).visits →
      ∃ leaf, (q, leaf) ∈ leaves v [] ∧ Concerns a leaf ∧ (a = .length ∨ a = .tag)) := by
  obtain ⟨h1, h2⟩ := C128_asks chk t hi hn v hv l hl src hs buf
  constructor
  · intro h
    have := h2.mem h
    simp only [List.mem_cons, reduceCtorEq, false_or] at this
    exact encoding_mem v [] this
  · intro h
    have := h1.mem h
    simp only [List.mem_cons, reduceCtorEq, false_or] at this
    obtain ⟨leaf, h3, h4⟩ := measuring_mem v [] this
    rcases h4 with ⟨rfl, h4⟩ | ⟨rfl, h4⟩
    · exact ⟨leaf, h3, h4, .inl rfl⟩
    · exact ⟨leaf, h3, h4, .inr rfl⟩

/-- The other case of the sample record is not asked for, although the source has a value for it. -/
example (chk : Bool) (l : Layout) (hl : Layout.new chk recTy = .ok l) (buf : Bytes) (a : Ask) :
    .ask [2, 0] a ∉ (l.encodeT chk recSrc buf).visits := by
  intro h
  obtain ⟨leaf, h1, _⟩ := (C128_nothing_else chk recTy rec_inhab (by decide) recVal rec_typed l hl recSrc rec_presents
    buf [2, 0] a).1 h
  simp [rec_leaves] at h1

/-- A successful encoding calls `encode_with_source` once for each enum of the value, and once for the whole; and it
calls `encoding_size_with_source` once for each pair of an enum and an enum around it, which is at most the number of
enums times their nesting.  The measurement alone looks at each enum once. -/
theorem C128_counts (chk : Bool) (t : Ty) (hi : Inhab t) (hn : nodes t < 2 ^ 59) (v : Val) (hv : Typed t v)
    (l : Layout) (hl : Layout.new chk t = .ok l) (src : DataSource) (hs : Presents src v []) :
    (∀ buf r, l.encode chk src buf = .ok r →
      (l.encodeT chk src buf).visits.count .encode = 1 + caseCount v ∧
      (l.encodeT chk src buf).visits.count .measure = casePairs 0 v ∧
      casePairs 0 v ≤ caseCount v * caseDepth v ∧ caseCount v ≤ casePairs 0 v) ∧
    (∀ n, l.sizeWithSource chk src = .ok n →
      (l.sizeT chk src).visits.count .encode = 0 ∧ (l.sizeT chk src).visits.count .measure = 1 + caseCount v) := by
  constructor
  · intro buf r hr
    rw [← encodeT_result] at hr
    have h := (C128_asks chk t hi hn v hv l hl src hs buf).2.all hr
    obtain ⟨h1, h2⟩ := encoding_count 0 v []
    obtain ⟨h3, h4⟩ := casePairs_le 0 v
    rw [h.count_eq, h.count_eq]
    simp only [List.count_cons, h1, h2, Nat.zero_add] at h3 ⊢
    exact ⟨by simp; omega, by simp, h3, h4⟩
  · intro n hr
    rw [← sizeT_result] at hr
    have h := (C128_asks chk t hi hn v hv l hl src hs []).1.all hr
    obtain ⟨h1, h2⟩ := measuring_count v []
    rw [h.count_eq, h.count_eq]
    simp only [List.count_cons, h1, h2]
    exact ⟨by simp, by simp; omega⟩

/-- `{ a: u16, b: string, c: { x: u64 | y: (string, bool) | z: () } }`, of which `c` is a `y`: the length of the inner
string is asked for three times, that of the outer one twice, nothing of the case `x`, which the source has as well. -/
example (chk : Bool) : ∃ l data, Layout.new chk recTy = .ok l ∧
    (l.encodeT chk recSrc (List.replicate 24 0)).result = .ok (data, 24) ∧
    (l.encodeT chk recSrc (List.replicate 24 0)).visits.count (.ask [2, 1, 0] .length) = 3 ∧
    (l.encodeT chk recSrc (List.replicate 24 0)).visits.count (.ask [1] .length) = 2 ∧
    (l.encodeT chk recSrc (List.replicate 24 0)).visits.count (.ask [2] .tag) = 2 ∧
    (l.encodeT chk recSrc (List.replicate 24 0)).visits.count (.ask [2, 0] (.prim .u64)) = 0 ∧
    (l.encodeT chk recSrc (List.replicate 24 0)).visits.count .measure = 1 := by
  obtain ⟨l, hl⟩ := (C18_layout_new chk recTy (by decide)).2 rec_inhab
  have hsz : l.sizeWithSource chk recSrc = .ok 24 := by
    have : (Layout.new chk recTy >>= fun l => l.sizeWithSource chk recSrc) = .ok 24 := by
      cases chk <;> decide +kernel
    rw [hl] at this; exact this
  obtain ⟨data, h1, _, _⟩ := C23_inside chk recTy recVal (rec_fits chk) l hl recSrc rec_presents 24 hsz
    (List.replicate 24 0) (by decide)
  rw [← encodeT_result] at h1
  have h := (C128_asks chk recTy rec_inhab (by decide) recVal rec_typed l hl recSrc rec_presents
    (List.replicate 24 0)).2.all h1
  refine ⟨l, data, hl, h1, ?_⟩
  simp only [h.count_eq]
  decide +kernel

/-- `n` enums one inside the other, the innermost holding nothing. -/
def chainTy : Nat → Ty
  | 0 => .unit
  | n + 1 => .enum [(['a'], chainTy n), (['b'], .unit)]

/-- Its value with all `n` enums. -/
def chainVal : Nat → Val
  | 0 => .unit
  | n + 1 => .case 0 (chainVal n)

theorem chain_inhab : ∀ n, Inhab (chainTy n)
  | 0 => .unit
  | n + 1 => by
    rw [chainTy]
    refine .enum (by simp) ?_
    simp only [List.forall_mem_cons, List.not_mem_nil, false_imp_iff, implies_true, and_true]
    exact ⟨chain_inhab n, .unit⟩

theorem chain_enums (chk : Bool) : ∀ n, AllEnums (TagFits chk) (chainTy n)
  | 0 => .unit
  | n + 1 => by
    rw [chainTy]
    refine .enum ⟨Or.inl (by simp), fun _ => by simp⟩ ?_
    simp only [List.forall_mem_cons, List.not_mem_nil, false_imp_iff, implies_true, and_true]
    exact ⟨chain_enums chk n, .unit⟩

theorem chain_typed : ∀ n, Typed (chainTy n) (chainVal n)
  | 0 => .unit
  | n + 1 => by
    rw [chainTy, chainVal]
    exact .enum (c := (['a'], chainTy n)) rfl (chain_typed n)

theorem chain_nodes : ∀ n, nodes (chainTy n) = 1 + 2 * n
  | 0 => rfl
  | n + 1 => by
    rw [chainTy, nodes, nodes.nodesF, nodes.nodesP, chain_nodes n, nodes.nodesF, nodes.nodesF, nodes.nodesP, nodes]
    omega

theorem chain_leaves : ∀ (n : Nat) (p : Path), (leaves (chainVal n) p).length = n ∧
    (∀ q bs, (q, Leaf.str bs) ∉ leaves (chainVal n) p) ∧ leafSum (leaves (chainVal n) p) = 64 * n
  | 0, p => by simp [chainVal, leaves, leafSum]
  | n + 1, p => by
    obtain ⟨h1, h2, h3⟩ := chain_leaves n (p ++ [0])
    rw [chainVal, leaves]
    refine ⟨by simp [h1], ?_, ?_⟩
    · intro q bs h
      rcases List.mem_cons.1 h with h | h
      · cases h
      · exact h2 q bs h
    · rw [leafSum_cons, h3]
      simp only [leafWeight]
      omega

theorem chain_fits (chk : Bool) (n : Nat) (hn : n < 2 ^ 50) : Fits chk (chainTy n) (chainVal n) where
  inhab := chain_inhab n
  nodes := by rw [chain_nodes]; omega
  tags := tagFits_room (chain_inhab n) (by rw [chain_nodes]; omega) (chain_enums chk n) _
  typed := chain_typed n
  strings := fun q bs h => absurd h ((chain_leaves n []).2.1 q bs)
  total := by rw [weight_eq _ [], (chain_leaves n []).2.2]; omega

theorem chain_count : ∀ n, caseCount (chainVal n) = n
  | 0 => rfl
  | n + 1 => by rw [chainVal, caseCount, chain_count n]; omega

theorem chain_pairs : ∀ n k, 2 * casePairs k (chainVal n) = n * (n + 1) + 2 * (k * n)
  | 0, k => by simp [chainVal, casePairs]
  | n + 1, k => by
    rw [chainVal, casePairs, Nat.mul_add, chain_pairs n (k + 1)]
    simp only [Nat.add_mul, Nat.mul_add, Nat.mul_one, Nat.one_mul]
    omega

/-- The number of calls is not linear in the value: for `n` nested enums, however large, a successful encoding makes
`(n + 1)(n + 2) / 2` calls of the two functions, where `n + 1` of them write. -/
theorem C128_chain (chk : Bool) (n : Nat) (hn : n < 2 ^ 50) : ∃ l size, Layout.new chk (chainTy n) = .ok l ∧
    (leaves (chainVal n) []).length = n ∧
    ∀ src, Presents src (chainVal n) [] → ∀ buf : Bytes, size ≤ buf.length →
      (∃ data, (l.encodeT chk src buf).result = .ok (data, size)) ∧
      (l.encodeT chk src buf).visits.count .encode = n + 1 ∧
      2 * ((l.encodeT chk src buf).visits.count .encode + (l.encodeT chk src buf).visits.count .measure) =
        (n + 1) * (n + 2) := by
  have hf := chain_fits chk n hn
  obtain ⟨l, hl⟩ := (C18_layout_new chk (chainTy n) hf.nodes).2 hf.inhab
  obtain ⟨size, hsz, _, _⟩ := C22_size chk _ _ hf l hl _ (valSource_presents _)
  refine ⟨l, size, hl, (chain_leaves n []).1, ?_⟩
  intro src hs buf hb
  obtain ⟨size', hsz', _, he⟩ := C22_size chk _ _ hf l hl src hs
  have : size' = size := by
    have := (encode_congr chk (nodes (chainTy n)) _ (Nat.le_refl _) hf.nodes hf.inhab _ hf.typed [] l hl src
      (valSource (chainVal n)) hs (valSource_presents _)).1
    rw [hsz, hsz'] at this
    exact Except.ok.inj this
  subst this
  obtain ⟨data, hd, _⟩ := he buf hb
  obtain ⟨h1, h2, _⟩ := (C128_counts chk _ hf.inhab hf.nodes _ hf.typed l hl src hs).1 buf _ hd
  refine ⟨⟨data, by rw [encodeT_result]; exact hd⟩, ?_, ?_⟩
  · rw [h1, chain_count]; omega
  · rw [h1, h2, Nat.mul_add, chain_pairs, chain_count]
    simp only [Nat.add_mul, Nat.mul_add, Nat.mul_one, Nat.one_mul]
    omega

/-- 1000 nested enums take 501501 calls. -/
example : (∃ l size, Layout.new true (chainTy 1000) = .ok l ∧ (leaves (chainVal 1000) []).length = 1000 ∧
    ∀ src, Presents src (chainVal 1000) [] → ∀ buf : Bytes, size ≤ buf.length →
      (l.encodeT true src buf).visits.count .encode + (l.encodeT true src buf).visits.count .measure = 501501) := by
  obtain ⟨l, size, h1, h2, h3⟩ := C128_chain true 1000 (by decide)
  refine ⟨l, size, h1, h2, fun src hs buf hb => ?_⟩
  have := (h3 src hs buf hb).2.2
  omega

end Verif.Props
