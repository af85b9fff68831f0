import Verif.Proof.TypeLexer

/-! # Proofs about texts of types -/

namespace Verif

open TypeParser Spec Spec.nodes

theorem nodesL_append (cs ds : List Ty) : nodesL (cs ++ ds) = nodesL cs + nodesL ds := by
  induction cs with
  | nil => simp [nodesL]
  | cons c cs ih => simp [nodesL, ih]; omega

theorem nodesF_append (cs ds : List (Str × Ty)) : nodesF (cs ++ ds) = nodesF cs + nodesF ds := by
  induction cs with
  | nil => simp [nodesF]
  | cons c cs ih => simp [nodesF, ih]; omega

mutual
theorem derives_nodes : ∀ {t : Ty} {us : List Tok}, DerivesTy t us → nodes t ≤ us.length
  | _, _, .unit => by decide
  | _, _, .prim p => by simp [nodes]
  | _, _, .string => by simp [nodes]
  | _, _, .tuple h => by have := derivesL_nodes h; simp [nodes]; omega
  | _, _, .struct h => by have := derivesF_nodes h; simp [nodes]; omega
  | _, _, .structComma h => by have := derivesF_nodes h; simp [nodes]; omega
  | _, _, .enum h => by have := derivesF_nodes h; simp [nodes]; omega
  | _, _, .enumComma h => by have := derivesF_nodes h; simp [nodes]; omega
theorem derivesL_nodes : ∀ {cs : List Ty} {us : List Tok}, DerivesList cs us → nodesL cs ≤ us.length
  | _, _, .one h => by have := derives_nodes h; simp [nodesL]; omega
  | _, _, .snoc h1 h2 => by
    have := derivesL_nodes h1; have := derives_nodes h2; simp [nodesL, nodesL_append]; omega
theorem derivesF_nodes : ∀ {fs : List (Str × Ty)} {us : List Tok}, DerivesFields fs us →
    nodesF fs ≤ us.length
  | _, _, .one h => by have := derives_nodes h; simp [nodesF, nodesP]; omega
  | _, _, .snoc h1 h2 => by
    have := derivesF_nodes h1; have := derives_nodes h2; simp [nodesF, nodesP, nodesF_append]; omega
end

mutual
theorem derives_wf : ∀ {t : Ty} {us : List Tok}, DerivesTy t us → (∀ k ∈ us, TokOk k) → WellFormed t
  | _, _, .unit, _ => .unit
  | _, _, .prim p, _ => .prim p
  | _, _, .string, _ => .string
  | _, _, .tuple h, hk => by
    obtain ⟨h1, h2⟩ := derivesL_wf h (fun k hm => hk k (by simp [hm]))
    exact .tuple h1 h2
  | _, _, .struct h, hk => by
    obtain ⟨h1, h2, h3⟩ := derivesF_wf h (fun k hm => hk k (by simp [hm]))
    exact .struct h1 h2 h3
  | _, _, .structComma h, hk => by
    obtain ⟨h1, h2, h3⟩ := derivesF_wf h (fun k hm => hk k (by simp [hm]))
    exact .struct h1 h2 h3
  | _, _, .enum h, hk => by
    obtain ⟨h1, h2, h3⟩ := derivesF_wf h (fun k hm => hk k (by simp [hm]))
    exact .enum h1 h2 h3
  | _, _, .enumComma h, hk => by
    obtain ⟨h1, h2, h3⟩ := derivesF_wf h (fun k hm => hk k (by simp [hm]))
    exact .enum h1 h2 h3
theorem derivesL_wf : ∀ {cs : List Ty} {us : List Tok}, DerivesList cs us → (∀ k ∈ us, TokOk k) →
    cs ≠ [] ∧ ∀ c ∈ cs, WellFormed c
  | _, _, .one h, hk => ⟨by simp, by simpa using derives_wf h hk⟩
  | _, _, .snoc h1 h2, hk => by
    obtain ⟨_, a⟩ := derivesL_wf h1 (fun k hm => hk k (by simp [hm]))
    have b := derives_wf h2 (fun k hm => hk k (by simp [hm]))
    refine ⟨by simp, ?_⟩
    intro c hc
    rcases List.mem_append.1 hc with hc | hc
    · exact a c hc
    · rw [List.mem_singleton.1 hc]; exact b
theorem derivesF_wf : ∀ {fs : List (Str × Ty)} {us : List Tok}, DerivesFields fs us →
    (∀ k ∈ us, TokOk k) → fs ≠ [] ∧ (∀ f ∈ fs, IsLabel f.1) ∧ ∀ f ∈ fs, WellFormed f.2
  | _, _, .one (l := l) h, hk => by
    have a := derives_wf h (fun k hm => hk k (by simp [hm]))
    have b : IsLabel l := hk (.ident l) (by simp)
    exact ⟨by simp, by simpa using b, by simpa using a⟩
  | _, _, .snoc (l := l) h1 h2, hk => by
    obtain ⟨_, a, a'⟩ := derivesF_wf h1 (fun k hm => hk k (by simp [hm]))
    have b := derives_wf h2 (fun k hm => hk k (by simp [hm]))
    have c : IsLabel l := hk (.ident l) (by simp)
    refine ⟨by simp, ?_, ?_⟩
    · intro f hf
      rcases List.mem_append.1 hf with hf | hf
      · exact a f hf
      · rw [List.mem_singleton.1 hf]; exact c
    · intro f hf
      rcases List.mem_append.1 hf with hf | hf
      · exact a' f hf
      · rw [List.mem_singleton.1 hf]; exact b
end

theorem Spec.WellFormed.inhab {t : Ty} (h : WellFormed t) : Inhab t := by
  induction h with
  | unit => exact .unit
  | prim p => exact .prim p
  | string => exact .string
  | tuple h _ ih => exact .tuple h ih
  | struct h _ _ ih => exact .struct h ih
  | enum h _ _ ih => exact .enum h ih

/-- Some token sequence is derived from the type. -/
def Writable (t : Ty) : Prop := ∃ ts, DerivesTy t ts ∧ ∀ k ∈ ts, TokOk k

theorem writable_list : ∀ (cs : List Ty), cs ≠ [] → (∀ c ∈ cs, Writable c) →
    ∃ ts, DerivesList cs ts ∧ ∀ k ∈ ts, TokOk k
  | [], h, _ => absurd rfl h
  | [c], _, h => by
    obtain ⟨ts, h1, h2⟩ := h c (.head _)
    exact ⟨ts, .one h1, h2⟩
  | c :: d :: cs, _, h => by
    obtain ⟨ts, h1, h2⟩ := h c (.head _)
    obtain ⟨us, h3, h4⟩ := writable_list (d :: cs) (by simp) (fun e he => h e (.tail _ he))
    refine ⟨_, DerivesList.cons h1 h3, ?_⟩
    intro k hk
    simp only [List.mem_append, List.mem_singleton] at hk
    rcases hk with (hk | rfl) | hk
    · exact h2 k hk
    · trivial
    · exact h4 k hk

theorem writable_fields : ∀ (fs : List (Str × Ty)), fs ≠ [] → (∀ f ∈ fs, IsLabel f.1) →
    (∀ f ∈ fs, Writable f.2) → ∃ ts, DerivesFields fs ts ∧ ∀ k ∈ ts, TokOk k
  | [], h, _, _ => absurd rfl h
  | [(l, t)], _, hl, h => by
    obtain ⟨ts, h1, h2⟩ := h (l, t) (.head _)
    refine ⟨_, .one (l := l) h1, ?_⟩
    intro k hk
    simp only [List.cons_append, List.nil_append, List.mem_cons] at hk
    rcases hk with rfl | rfl | hk
    · exact hl (l, t) (.head _)
    · trivial
    · exact h2 k hk
  | (l, t) :: g :: fs, _, hl, h => by
    obtain ⟨ts, h1, h2⟩ := h (l, t) (.head _)
    obtain ⟨us, h3, h4⟩ := writable_fields (g :: fs) (by simp) (fun e he => hl e (.tail _ he))
      (fun e he => h e (.tail _ he))
    refine ⟨_, DerivesFields.cons (l := l) h1 h3, ?_⟩
    intro k hk
    simp only [List.mem_append, List.mem_cons, List.not_mem_nil, or_false] at hk
    rcases hk with (((rfl | rfl) | hk) | rfl) | hk
    · exact hl (l, t) (.head _)
    · trivial
    · exact h2 k hk
    · trivial
    · exact h4 k hk

theorem Spec.WellFormed.writable {t : Ty} (h : WellFormed t) : Writable t := by
  have wrap : ∀ {ts pre post : List Tok}, (∀ k ∈ ts, TokOk k) → (∀ k ∈ pre, TokOk k) →
      (∀ k ∈ post, TokOk k) → ∀ k ∈ pre ++ ts ++ post, TokOk k := by
    intro ts pre post a b c k hk
    simp only [List.mem_append] at hk
    rcases hk with (hk | hk) | hk
    · exact b k hk
    · exact a k hk
    · exact c k hk
  have ok : ∀ k, (∀ s, k ≠ Tok.ident s) → (∀ s, k ≠ Tok.int s) → TokOk k := by
    intro k h1 h2
    cases k <;> first | trivial | (exact absurd rfl (h1 _)) | (exact absurd rfl (h2 _))
  induction h with
  | unit => exact ⟨_, .unit, by intro k hk; simp at hk; rcases hk with rfl | rfl <;> trivial⟩
  | prim p => exact ⟨_, .prim p, by intro k hk; simp at hk; subst hk; trivial⟩
  | string => exact ⟨_, .string, by intro k hk; simp at hk; subst hk; trivial⟩
  | tuple h _ ih =>
    obtain ⟨ts, h1, h2⟩ := writable_list _ h ih
    refine ⟨_, .tuple h1, wrap h2 ?_ ?_⟩ <;> intro k hk <;> simp at hk <;> subst hk <;> trivial
  | struct h hl _ ih =>
    obtain ⟨ts, h1, h2⟩ := writable_fields _ h hl ih
    refine ⟨_, .struct h1, wrap h2 ?_ ?_⟩ <;> intro k hk <;> apply ok <;> simp at hk <;>
      intro s he <;> simp [he] at hk
  | enum h hl _ ih =>
    obtain ⟨ts, h1, h2⟩ := writable_fields _ h hl ih
    refine ⟨_, .enum h1, wrap h2 ?_ ?_⟩ <;> intro k hk <;> apply ok <;> simp at hk <;>
      intro s he <;> simp [he] at hk

/-- Terminals separated by single spaces. -/
theorem spelled_spaces : ∀ (ts : List Tok), (∀ k ∈ ts, TokOk k) →
    Spelled ts (ts.flatMap fun k => spell k ++ [' '])
  | [], _ => .nil
  | k :: ts, h => by
    have h1 := spelled_spaces ts (fun e he => h e (.tail _ he))
    have h2 : Spelled (k :: ts) (spell k ++ (' ' :: ts.flatMap fun k => spell k ++ [' '])) :=
      .tok (h k (.head _)) (by cases k <;> trivial) (.space (by decide) h1)
    simpa using h2

end Verif
