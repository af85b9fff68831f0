import Verif.Proof.JsonDocument

/-! # The memory needed for a decoded value is bounded by the length of the text -/

namespace Verif

open Spec Json

/-- The memory for one leaf. -/
def leafW : Path × Leaf → Nat
  | (_, .str bs) => 64 + bs.length
  | (_, _) => 64

def sizeW (ls : List (Path × Leaf)) : Nat := (ls.map leafW).sum

theorem weight_sizeW (v : Val) : weight v = 64 + sizeW (leaves v []) := by
  unfold weight sizeW
  congr 2
  apply List.map_congr_left
  rintro ⟨p, l⟩ _
  cases l <;> rfl

theorem sizeW_append (a b : List (Path × Leaf)) : sizeW (a ++ b) = sizeW a + sizeW b := by
  simp [sizeW]

/-- The number of characters a token needs at least. -/
def tokW : Json.Tok → Nat
  | .string s => 1 + s.length
  | _ => 1

def toksW (ks : List Json.Tok) : Nat := (ks.map tokW).sum

theorem toksW_append (a b : List Json.Tok) : toksW (a ++ b) = toksW a + toksW b := by
  simp [toksW]

theorem toksW_cons (a : Json.Tok) (b : List Json.Tok) : toksW (a :: b) = tokW a + toksW b := by
  simp [toksW]

theorem charUtf8_length (c : Char) : (Str.utf8 [c]).length ≤ 4 := by
  rw [utf8_cons, utf8_nil, List.append_nil, String.length_utf8EncodeChar]
  exact Char.utf8Size_le_four c

theorem utf8_length : ∀ (s : Str), s.utf8.length ≤ 4 * s.length
  | [] => by rw [utf8_nil]; exact Nat.zero_le _
  | c :: s => by
    have h1 := utf8_length s
    have h2 := charUtf8_length c
    have h3 : Str.utf8 (c :: s) = Str.utf8 [c] ++ Str.utf8 s := by
      rw [utf8_cons, utf8_cons, utf8_nil, List.append_nil]
    rw [h3, List.length_append, List.length_cons]
    omega

theorem body_length {n : Nat → Prop} {raw s : Str} (h : Body n raw s) : s.length ≤ raw.length := by
  induction h with
  | nil => simp
  | plain _ _ _ _ ih => simp; exact ih
  | escape _ _ ih => simp; omega
  | code _ _ _ _ ih => simp; omega

theorem spelling_length {n m : Nat → Prop} {k : Json.Tok} {p : Str} (h : SpellingWith n m k p) :
    tokW k ≤ p.length := by
  cases h with
  | string h =>
    have := body_length h
    simp only [tokW, List.cons_append, List.length_cons, List.length_append]
    omega
  | number h =>
    obtain ⟨sg, i, f, e, rfl, _, hi, _⟩ := h
    have : 1 ≤ i.length := by
      rcases hi with rfl | ⟨d, ds, rfl, _⟩ <;> simp
    simp only [tokW, List.length_append]
    omega
  | _ => simp [tokW]

theorem begins_length {n m : Nat → Prop} {ks : List Json.Tok} {s r : Str} (h : Begins n m ks s r) :
    toksW ks + r.length ≤ s.length := by
  induction h with
  | nil => simp [toksW]
  | cons _ hp _ ih =>
    have := spelling_length hp
    rw [toksW_cons]
    simp only [List.length_append]
    omega

/-- The size of the member with a label. -/
def memW (ms : List (Str × Tree)) (l : Str) : Nat :=
  match ms.find? (fun m => m.1 = l) with
  | some m => toksW m.2.toks
  | none => 0

theorem memW_mem {ms : List (Str × Tree)} (hn : (ms.map (·.1)).Nodup) {m : Str × Tree} (hm : m ∈ ms) :
    memW ms m.1 = toksW m.2.toks := by
  unfold memW
  have : ms.find? (fun x => x.1 = m.1) = some m := by
    rw [List.find?_eq_some_iff_append]
    obtain ⟨a, b, rfl⟩ := List.append_of_mem hm
    refine ⟨by simp, a, b, rfl, ?_⟩
    intro x hx
    simp only [List.map_append, List.map_cons, List.nodup_append, List.mem_map, List.mem_cons] at hn
    have := hn.2.2 x.1 ⟨x, hx, rfl⟩ m.1 (.inl rfl)
    simpa using this
  rw [this]

theorem members_length : ∀ (ms : List (Str × Tree)) (first : Bool),
    (ms.map fun m => toksW m.2.toks).sum ≤ toksW (sepToks .comma first (toksM ms))
  | [], first => by simp
  | (l, t) :: ms, first => by
    have := members_length ms false
    rw [toksM, sepToks_cons, memberToks, toksW_append, toksW_append, toksW_cons, toksW_cons]
    simp only [List.map_cons, List.sum_cons]
    omega

theorem tuple_length (ts : List Tree) : ∀ (vs : List Val) (p : Path) (j : Nat) (first : Bool),
    ts.length = vs.length →
    (∀ (i : Nat) (t : Tree) (v : Val), ts[i]? = some t → vs[i]? = some v → ∀ p, sizeW (leaves v p) ≤ 64 * toksW t.toks) →
    sizeW (leavesFrom vs p j) ≤ 64 * toksW (sepToks .comma first (toksL ts)) := by
  induction ts with
  | nil =>
    intro vs p j first hl _
    cases vs with
    | nil => simp [leavesFrom, sizeW]
    | cons v vs => cases hl
  | cons t ts ih =>
    intro vs p j first hl h
    cases vs with
    | nil => cases hl
    | cons v vs =>
      have h1 := h 0 t v rfl rfl (p ++ [j])
      have h2 := ih vs p (j + 1) false (by simpa using hl) (fun i t v a b => h (i + 1) t v a b)
      rw [leavesFrom, sizeW_append, toksL, sepToks_cons, toksW_append, toksW_append]
      omega

theorem fields_length (fs : List (Str × Ty)) (g : Str → Nat) : ∀ (vs : List Val) (p : Path) (j : Nat),
    vs.length = fs.length →
    (∀ (i : Nat) (f : Str × Ty) (v : Val), fs[i]? = some f → vs[i]? = some v → ∀ p, sizeW (leaves v p) ≤ 64 * g f.1) →
    sizeW (leavesFrom vs p j) ≤ 64 * ((fs.map (·.1)).map g).sum := by
  induction fs with
  | nil =>
    intro vs p j hl _
    cases vs with
    | nil => simp [leavesFrom, sizeW]
    | cons v vs => cases hl
  | cons f fs ih =>
    intro vs p j hl h
    cases vs with
    | nil => cases hl
    | cons v vs =>
      have h1 := h 0 f v rfl rfl (p ++ [j])
      have h2 := ih vs p (j + 1) (by simpa using hl) (fun i f v a b => h (i + 1) f v a b)
      rw [leavesFrom, sizeW_append]
      simp only [List.map_cons, List.sum_cons]
      omega

theorem takes_length {F : FloatText} {lax : Prop} {t : Ty} {tr : Tree} {v : Val} (h : Takes F lax t tr v) :
    ∀ p, sizeW (leaves v p) ≤ 64 * toksW tr.toks := by
  induction h with
  | unit => intro p; simp [leaves, sizeW]
  | bool b => intro p; simp [leaves, sizeW, leafW, Tree.toks, toksW]; cases b <;> decide
  | char c => intro p; simp [leaves, sizeW, leafW, Tree.toks, toksW, tokW]
  | num => intro p; simp [leaves, sizeW, leafW, Tree.toks, toksW, tokW]
  | numStr => intro p; simp [leaves, sizeW, leafW, Tree.toks, toksW, tokW]; omega
  | string s =>
    intro p
    have := utf8_length s
    simp only [leaves, sizeW, leafW, Tree.toks, toksW, tokW, List.map_cons, List.map_nil, List.sum_cons, List.sum_nil]
    omega
  | @tuple cs ts vs h1 h2 _ ih =>
    intro p
    rw [leaves]
    have := tuple_length ts vs p 0 true (by omega) (fun i t v ht hv => by
      have hi := (List.getElem?_eq_some_iff.1 ht).1
      exact ih i (cs[i]'(by omega)) t v (List.getElem?_eq_getElem _) ht hv)
    have e := arr_toks ts []
    rw [List.append_nil] at e
    rw [e, toksW_cons, toksW_append]
    omega
  | @struct fs ms vs _ h2 h3 h4 _ ih =>
    intro p
    rw [leaves]
    have hn : (ms.map (·.1)).Nodup := h3.nodup_iff.2 h2
    have k1 := fields_length fs (memW ms) vs p 0 h4 (fun i f v hf hv => by
      have : f.1 ∈ ms.map (·.1) := h3.mem_iff.2 (List.mem_map.2 ⟨f, List.mem_of_getElem? hf, rfl⟩)
      obtain ⟨m, hm, e⟩ := List.mem_map.1 this
      rw [← e, memW_mem hn hm]
      exact ih i f m.2 v hf (by rw [← e]; exact hm) hv)
    have k2 : ((fs.map (·.1)).map (memW ms)).sum = (ms.map fun m => toksW m.2.toks).sum := by
      rw [← (h3.map (memW ms)).sum_nat, List.map_map]
      congr 1
      apply List.map_congr_left
      intro m hm
      exact memW_mem hn hm
    have k3 := members_length ms true
    have e := obj_toks ms []
    rw [List.append_nil] at e
    rw [e, toksW_cons, toksW_append]
    omega
  | gap => intro p; simp [leaves, sizeW]
  | @enum cs i l c t v _ _ _ ih =>
    intro p
    have h1 := ih (p ++ [i])
    rw [leaves]
    have e := obj_toks [("kind".toList, .str l), ("value".toList, t)] []
    rw [List.append_nil] at e
    have k3 := members_length [("kind".toList, .str l), ("value".toList, t)] true
    rw [e, toksW_cons, toksW_append]
    simp only [sizeW, List.map_cons, List.sum_cons, leafW] at h1 ⊢
    simp only [List.map_cons, List.sum_cons, List.map_nil, List.sum_nil, Tree.toks] at k3
    have k4 : 1 ≤ toksW [Json.Tok.string l] := by simp [toksW, tokW]
    omega

theorem leafW_mem {ls : List (Path × Leaf)} {l : Path × Leaf} (h : l ∈ ls) : leafW l ≤ sizeW ls := by
  obtain ⟨a, b, rfl⟩ := List.append_of_mem h
  simp only [sizeW, List.map_append, List.map_cons, List.sum_append, List.sum_cons]
  omega

/-- The memory for the value and the lengths of its strings, by the length of the text. -/
theorem decoded_weight {env : Env} {t : Ty} {input s : Str} {tr : Tree} {v : Val} {k : Json.Tok} {lax : Prop}
    {F : FloatText} (h : StartsWith env.alnum input tr.toks k s) (hd : Takes F lax t tr v) :
    weight v ≤ 64 + 64 * input.length ∧
      ∀ q bs, (q, Leaf.str bs) ∈ leaves v [] → bs.length ≤ 64 * input.length := by
  obtain ⟨r, h1, _⟩ := startsWith_iff.1 h
  have h2 := begins_length (toks_begins h1 (toks_ne_eof tr))
  have h3 := takes_length hd []
  rw [weight_sizeW]
  refine ⟨by omega, fun q bs hm => ?_⟩
  have := leafW_mem hm
  simp only [leafW] at this
  omega

/-! ## Emitting a decoded value succeeds -/

theorem emitAll_ok (F : FloatText) (src : DataSource) (cs : List Ty) : ∀ (vs : List Val) (p : Path) (j : Nat) (first : Bool),
    vs.length = cs.length →
    (∀ (i : Nat) (c : Ty) (v : Val), cs[i]? = some c → vs[i]? = some v →
      ∀ p, Presents src v p → ∃ b, emitterFor F p c src = .ok b) →
    (∀ q l, (q, l) ∈ leavesFrom vs p j → Answers src q l) →
    ∃ b, emitAll (emittersL F p cs j) first src = .ok b := by
  induction cs with
  | nil => intro vs p j first _ _ _; exact ⟨[], by rw [emittersL]; rfl⟩
  | cons c cs ih =>
    intro vs p j first hl h hs
    cases vs with
    | nil => cases hl
    | cons v vs =>
      obtain ⟨b, hb⟩ := h 0 c v rfl rfl (p ++ [j]) (fun q l hm => hs q l (by
        rw [leavesFrom]; exact List.mem_append_left _ hm))
      obtain ⟨bs, hbs⟩ := ih vs p (j + 1) false (by simpa using hl) (fun i c v a b => h (i + 1) c v a b)
        (fun q l hm => hs q l (by rw [leavesFrom]; exact List.mem_append_right _ hm))
      refine ⟨comma first ++ b ++ bs, ?_⟩
      rw [emittersL, emitAll]
      simp only [hb, hbs, Res.bind_ok]
      rfl

theorem emitFields_ok (F : FloatText) (src : DataSource) (fs : List (Str × Ty)) :
    ∀ (vs : List Val) (p : Path) (j : Nat) (first : Bool), vs.length = fs.length →
    (∀ (i : Nat) (f : Str × Ty) (v : Val), fs[i]? = some f → vs[i]? = some v →
      ∀ p, Presents src v p → ∃ b, emitterFor F p f.2 src = .ok b) →
    (∀ q l, (q, l) ∈ leavesFrom vs p j → Answers src q l) →
    ∃ b, emitFields (emittersF F p fs j) first src = .ok b := by
  induction fs with
  | nil => intro vs p j first _ _ _; exact ⟨[], by rw [emittersF]; rfl⟩
  | cons f fs ih =>
    intro vs p j first hl h hs
    cases vs with
    | nil => cases hl
    | cons v vs =>
      obtain ⟨b, hb⟩ := h 0 f v rfl rfl (p ++ [j]) (fun q l hm => hs q l (by
        rw [leavesFrom]; exact List.mem_append_left _ hm))
      obtain ⟨bs, hbs⟩ := ih vs p (j + 1) false (by simpa using hl) (fun i c v a b => h (i + 1) c v a b)
        (fun q l hm => hs q l (by rw [leavesFrom]; exact List.mem_append_right _ hm))
      rcases f with ⟨n, c⟩
      refine ⟨comma first ++ emitString n ++ Str.utf8 [':'] ++ b ++ bs, ?_⟩
      rw [emittersF, emitterP, emitFields]
      simp only [hb, hbs, Res.bind_ok]
      rfl

/-- A value some document denotes can be emitted. -/
theorem emits_ok {F F' : FloatText} {t : Ty} {tr : Tree} {v : Val} (h : Denotes F t tr v) {src : DataSource} :
    ∀ p, Presents src v p → ∃ b, emitterFor F' p t src = .ok b := by
  have hprim : ∀ (v : PrimVal) p, Presents src (.prim v) p → ∃ b, emitterFor F' p (.prim v.kind) src = .ok b := by
    intro v p hs
    have hp : src.prim v.kind p = .ok v.val := hs p (.prim v) (by rw [leaves]; exact .head _)
    rcases v with ⟨vk, v⟩
    simp only at hp
    rw [emitterFor]
    cases vk <;> (simp only [emitPrim, hp, Res.bind_ok]; exact ⟨_, rfl⟩)
  induction h with
  | unit => intro p _; exact ⟨_, rfl⟩
  | bool b => exact hprim _
  | char c => exact hprim _
  | num h1 _ => subst h1; exact hprim _
  | numStr h1 _ => subst h1; exact hprim _
  | string s =>
    intro p hs
    have hp : src.bytes p = .ok s.utf8 := (hs p (.str s.utf8) (by rw [leaves]; exact .head _)).2
    refine ⟨emitString s, ?_⟩
    rw [emitterFor, emitStr, hp]
    simp only [Res.bind_ok]
    rw [(fromUtf8_iff _ _).2 rfl]
    rfl
  | @tuple cs ts vs h1 h2 _ ih =>
    intro p hs
    obtain ⟨b, hb⟩ := emitAll_ok F' src cs vs p 0 true h2 (fun i c v hc hv => by
      have hi := (List.getElem?_eq_some_iff.1 hc).1
      exact ih i c (ts[i]'(by omega)) v hc (List.getElem?_eq_getElem _) hv)
      (fun q l hm => hs q l (by rw [leaves]; exact hm))
    refine ⟨Str.utf8 ['['] ++ b ++ Str.utf8 [']'], ?_⟩
    rw [emitterFor, emitTuple, hb, Res.bind_ok]
    rfl
  | @struct fs ms vs h1 h2 h3 _ ih =>
    intro p hs
    obtain ⟨b, hb⟩ := emitFields_ok F' src fs vs p 0 true h3 (fun i f v hf hv => by
      have : f.1 ∈ ms.map (·.1) := h2.mem_iff.2 (List.mem_map.2 ⟨f, List.mem_of_getElem? hf, rfl⟩)
      obtain ⟨m, hm, e⟩ := List.mem_map.1 this
      exact ih i f m.2 v hf (by rw [← e]; exact hm) hv)
      (fun q l hm => hs q l (by rw [leaves]; exact hm))
    refine ⟨Str.utf8 ['{'] ++ b ++ Str.utf8 ['}'], ?_⟩
    rw [emitterFor, emitStruct, hb, Res.bind_ok]
    rfl
  | @enum cs i l c t v hc _ _ ih =>
    intro p hs
    obtain ⟨h1, h2⟩ := presents_case hs
    obtain ⟨b, hb⟩ := ih _ h2
    have hg : (emittersF F' p cs 0)[i]? = some (l, emitterFor F' (p ++ [i]) c) := by
      rw [emittersF_get, hc]; simp
    refine ⟨Str.utf8 ['{', '"', 'k', 'i', 'n', 'd', '"', ':'] ++ emitString l ++
      Str.utf8 [',', '"', 'v', 'a', 'l', 'u', 'e', '"', ':'] ++ b ++ Str.utf8 ['}'], ?_⟩
    rw [emitterFor, emitEnum, h1]
    simp only [Res.bind_ok, hg, hb]
    rfl

end Verif
