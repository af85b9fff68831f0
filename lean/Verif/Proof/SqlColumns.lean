import Verif.Proof.SqlStatements
/-! # Names of result columns -/

namespace Verif.Sql

variable {up : Char → List Char}

theorem toDigits_isDigit (k : Nat) : ∀ c ∈ Nat.toDigits 10 k, c.isDigit = true :=
  fun _ h => Nat.isDigit_of_mem_toDigits (by decide) (by decide) h

theorem flatMap_digits (hup : FixesDigits up) {d : List Char} (hd : ∀ c ∈ d, c.isDigit = true) :
    d.flatMap up = d := by
  induction d with
  | nil => rfl
  | cons c d ih =>
    rw [List.flatMap_cons, hup c (hd c List.mem_cons_self), ih fun c hc => hd c (List.mem_cons_of_mem _ hc)]
    rfl

theorem upper_numbered (hup : FixesDigits up) (n : Name) (k : Nat) :
    (n.numbered k).upper up = n.upper up ++ Nat.toDigits 10 k := by
  unfold Name.upper Name.numbered
  rw [List.flatMap_append, flatMap_digits hup (toDigits_isDigit k)]

theorem toDigits_inj {j k : Nat} (h : Nat.toDigits 10 j = Nat.toDigits 10 k) : j = k := by
  have := congrArg (fun d => Nat.ofDigitChars 10 d 0) h
  simpa using this

/-- The first digits of a number are a smaller number. -/
theorem digits_prefix (n : Nat) {a b : List Char} (h0 : 1 ≤ n) (h : Nat.toDigits 10 n = a ++ b) (ha : a ≠ []) :
    ∃ k, 1 ≤ k ∧ k ≤ n ∧ a = Nat.toDigits 10 k := by
  induction n using Nat.strongRecOn generalizing a b with
  | _ n ih =>
    rcases List.eq_nil_or_concat b with rfl | ⟨b', c, rfl⟩
    · exact ⟨n, h0, Nat.le_refl _, by simpa using h.symm⟩
    · by_cases hn : n < 10
      · rw [Nat.toDigits_of_lt_base hn] at h
        have := congrArg List.length h
        have ha' := List.length_pos_iff.2 ha
        simp at this
        omega
      · rw [Nat.toDigits_of_base_le (by decide) (by omega), List.concat_eq_append,
          ← List.append_assoc] at h
        obtain ⟨k, h1, h2, h3⟩ := ih (n / 10) (by omega) (by omega) (List.append_inj_left' h rfl) ha
        exact ⟨k, h1, by omega, h3⟩

/-- Names with numbers can only be the same if one name is the other one with a number. -/
theorem numbered_cases {u v : List Char} {j k : Nat} (hj : 1 ≤ j) (hk : 1 ≤ k)
    (h : u ++ Nat.toDigits 10 j = v ++ Nat.toDigits 10 k) :
    (u = v ∧ j = k) ∨ (∃ i, 1 ≤ i ∧ i ≤ k ∧ u = v ++ Nat.toDigits 10 i) ∨
      ∃ i, 1 ≤ i ∧ i ≤ j ∧ v = u ++ Nat.toDigits 10 i := by
  rcases List.append_eq_append_iff.1 h with ⟨a, h1, h2⟩ | ⟨a, h1, h2⟩
  · by_cases ha : a = []
    · subst ha
      exact .inl ⟨by simpa using h1.symm, toDigits_inj (by simpa using h2)⟩
    · obtain ⟨i, h3, h4, h5⟩ := digits_prefix j hj h2 ha
      exact .inr (.inr ⟨i, h3, h4, by rw [h1, h5]⟩)
  · by_cases ha : a = []
    · subst ha
      exact .inl ⟨by simpa using h1, (toDigits_inj (by simpa using h2)).symm⟩
    · obtain ⟨i, h3, h4, h5⟩ := digits_prefix k hk h2 ha
      exact .inr (.inl ⟨i, h3, h4, by rw [h1, h5]⟩)

/-- The map of generated names after `seen` was asked for and the columns `produced` were named, where all names
asked for are among `all`.  The names of `base` are never made by numbering another name. -/
structure Generated (up : Char → List Char) (all : List (List Char)) (base : List Char → Prop)
    (seen : List (List Char)) (generated : TMap Name Nat) (produced : List Name) : Prop where
  keys : ∀ k, generated.get (nameOps up) k ≠ none ↔ ∃ p ∈ produced, SameName up p k
  among : ∀ u, seen.count u ≤ all.count u
  made : ∀ u ∈ seen, ∃ p ∈ produced, p.upper up = u
  counts : ∀ n : Name, n.upper up ∈ seen → base (n.upper up) →
    generated.get (nameOps up) n = some (seen.count (n.upper up) - 1)
  shape : ∀ p ∈ produced, p.upper up ∈ seen ∨ ∃ m ∈ seen, ∃ j, 1 ≤ j ∧ (base m → j < seen.count m) ∧
    p.upper up = m ++ Nat.toDigits 10 j

theorem generated_nil (all : List (List Char)) (base : List Char → Prop) : Generated up all base [] [] [] :=
  ⟨fun k => by simp [TMap.get], (fun _ => Nat.zero_le _), (fun _ h => nomatch h), (fun _ h => nomatch h),
    fun _ h => nomatch h⟩

variable {all seen : List (List Char)} {base : List Char → Prop}

/-- No name of `base` is another name of the list with one of its numbers. -/
def Apart (all : List (List Char)) (base : List Char → Prop) : Prop :=
  ∀ n, n ∈ all → base n → ∀ m ∈ all, ∀ j, 1 ≤ j → (base m → j < all.count m) → n ≠ m ++ Nat.toDigits 10 j

theorem Generated.step (hup : FixesDigits up) {generated : TMap Name Nat} {produced : List Name}
    (hg : Generated up all base seen generated produced) (hb : Apart all base) {n : Name}
    (hamong : ∀ u, (n.upper up :: seen).count u ≤ all.count u) :
    Generated up all base (n.upper up :: seen) (generateColumnName (nameOps up) n generated).2
      ((generateColumnName (nameOps up) n generated).1 :: produced) := by
  have hall : ∀ u ∈ n.upper up :: seen, u ∈ all := fun u hu =>
    List.count_pos_iff.1 (Nat.lt_of_lt_of_le (List.count_pos_iff.2 hu) (hamong u))
  have hn := hall _ List.mem_cons_self
  have hle : ∀ m, seen.count m ≤ (n.upper up :: seen).count m := fun m => List.count_le_count_cons
  unfold generateColumnName
  cases hget : generated.get (nameOps up) n with
  | none =>
    simp only
    refine ⟨?_, hamong, ?_, ?_, ?_⟩
    · intro k
      rw [TMap.get_insert (keyed_nameOps up)]
      by_cases h : k.upper up = n.upper up
      · rw [if_pos h]
        constructor
        · intro _
          exact ⟨n, List.mem_cons_self, h.symm⟩
        · intro _ h'; cases h'
      · rw [if_neg h, hg.keys k]
        constructor
        · rintro ⟨p, hp, hs⟩
          exact ⟨p, List.mem_cons_of_mem _ hp, hs⟩
        · rintro ⟨p, hp, hs⟩
          rcases List.mem_cons.1 hp with rfl | hp
          · exact absurd (Eq.symm hs) h
          · exact ⟨p, hp, hs⟩
    · intro u hu
      rcases List.mem_cons.1 hu with rfl | hu
      · exact ⟨n, List.mem_cons_self, rfl⟩
      · obtain ⟨p, hp, h⟩ := hg.made u hu
        exact ⟨p, List.mem_cons_of_mem _ hp, h⟩
    · intro k hk hbk
      rw [TMap.get_insert (keyed_nameOps up)]
      by_cases h : k.upper up = n.upper up
      · rw [if_pos h, h, List.count_cons_self, List.count_eq_zero.2]
        intro hm
        obtain ⟨p, hp, h'⟩ := hg.made _ hm
        exact (hg.keys n).2 ⟨p, hp, h'⟩ hget
      · rw [if_neg h, List.count_cons_of_ne (Ne.symm h)]
        exact hg.counts k ((List.mem_cons.1 hk).resolve_left h) hbk
    · intro p hp
      rcases List.mem_cons.1 hp with rfl | hp
      · exact .inl List.mem_cons_self
      · rcases hg.shape p hp with h | ⟨m, hm, j, h1, h2, h3⟩
        · exact .inl (List.mem_cons_of_mem _ h)
        · exact .inr ⟨m, List.mem_cons_of_mem _ hm, j, h1, fun hb => Nat.lt_of_lt_of_le (h2 hb) (hle m), h3⟩
  | some c =>
    simp only
    have hru : ∀ k : Nat, ((nameOps up).numbered n k).upper up = n.upper up ++ Nat.toDigits 10 k :=
      upper_numbered hup n
    have hin : base (n.upper up) → n.upper up ∈ seen := by
      intro hbn
      obtain ⟨p, hp, hs⟩ := (hg.keys n).1 (by rw [hget]; exact fun h => nomatch h)
      have hs : p.upper up = n.upper up := hs
      rcases hg.shape p hp with h | ⟨m, hm, j, h1, h2, h3⟩
      · rwa [hs] at h
      · exact absurd (hs.symm.trans h3) (hb _ hn hbn m (hall m (List.mem_cons_of_mem _ hm)) j h1
          fun hbm => Nat.lt_of_lt_of_le (h2 hbm) (hg.among m))
    refine ⟨?_, hamong, ?_, ?_, ?_⟩
    · intro k
      rw [TMap.get_insert (keyed_nameOps up), TMap.get_insert (keyed_nameOps up)]
      by_cases h : k.upper up = ((nameOps up).numbered n (c + 1)).upper up
      · rw [if_pos h]
        constructor
        · intro _
          exact ⟨_, List.mem_cons_self, h.symm⟩
        · intro _ h'; cases h'
      · rw [if_neg h]
        by_cases h' : k.upper up = n.upper up
        · rw [if_pos h']
          constructor
          · intro _
            obtain ⟨p, hp, hs⟩ := (hg.keys n).1 (by rw [hget]; intro h; cases h)
            exact ⟨p, List.mem_cons_of_mem _ hp, Eq.trans hs h'.symm⟩
          · intro _ hx; cases hx
        · rw [if_neg h', hg.keys k]
          constructor
          · rintro ⟨p, hp, hs⟩
            exact ⟨p, List.mem_cons_of_mem _ hp, hs⟩
          · rintro ⟨p, hp, hs⟩
            rcases List.mem_cons.1 hp with rfl | hp
            · exact absurd (Eq.symm hs) h
            · exact ⟨p, hp, hs⟩
    · intro u hu
      rcases List.mem_cons.1 hu with rfl | hu
      · obtain ⟨p, hp, hs⟩ := (hg.keys n).1 (by rw [hget]; exact fun h => nomatch h)
        exact ⟨p, List.mem_cons_of_mem _ hp, hs⟩
      · obtain ⟨p, hp, h⟩ := hg.made u hu
        exact ⟨p, List.mem_cons_of_mem _ hp, h⟩
    · intro k hk hbk
      rw [TMap.get_insert (keyed_nameOps up), if_neg, TMap.get_insert (keyed_nameOps up)]
      · by_cases h : k.upper up = n.upper up
        · rw [if_pos h, h, List.count_cons_self]
          have hm := hin (h ▸ hbk)
          have := hg.counts n hm (h ▸ hbk)
          rw [hget] at this
          have hp := List.count_pos_iff.2 hm
          simp only [Option.some.injEq] at this ⊢
          omega
        · rw [if_neg h, List.count_cons_of_ne (Ne.symm h)]
          exact hg.counts k ((List.mem_cons.1 hk).resolve_left h) hbk
      · rw [hru]
        refine hb _ (hall _ hk) hbk _ hn _ (by omega) fun hbn => ?_
        have hm := hin hbn
        have := hg.counts n hm hbn
        rw [hget] at this
        have hp := List.count_pos_iff.2 hm
        have ha := hamong (n.upper up)
        rw [List.count_cons_self] at ha
        simp only [Option.some.injEq] at this
        omega
    · intro p hp
      rcases List.mem_cons.1 hp with rfl | hp
      · refine .inr ⟨_, List.mem_cons_self, c + 1, by omega, ?_, hru _⟩
        intro hbn
        have hm := hin hbn
        have := hg.counts n hm hbn
        rw [hget] at this
        have hp := List.count_pos_iff.2 hm
        rw [List.count_cons_self]
        simp only [Option.some.injEq] at this
        omega
      · rcases hg.shape p hp with h | ⟨m, hm, j, h1, h2, h3⟩
        · exact .inl (List.mem_cons_of_mem _ h)
        · exact .inr ⟨m, List.mem_cons_of_mem _ hm, j, h1, fun hb => Nat.lt_of_lt_of_le (h2 hb) (hle m), h3⟩

theorem Generated.fresh (hup : FixesDigits up) {generated : TMap Name Nat} {produced : List Name}
    (hg : Generated up all base seen generated produced) (hb : Apart all base) (hall : ∀ u ∈ all, base u) {n : Name}
    (hamong : ∀ u, (n.upper up :: seen).count u ≤ all.count u) :
    ∀ p ∈ produced, ¬ SameName up p (generateColumnName (nameOps up) n generated).1 := by
  have hin : ∀ u ∈ n.upper up :: seen, u ∈ all := fun u hu =>
    List.count_pos_iff.1 (Nat.lt_of_lt_of_le (List.count_pos_iff.2 hu) (hamong u))
  have hn := hin _ List.mem_cons_self
  unfold generateColumnName
  cases hget : generated.get (nameOps up) n with
  | none =>
    intro p hp hs
    exact (hg.keys n).2 ⟨p, hp, hs⟩ hget
  | some c =>
    have hseen : n.upper up ∈ seen := by
      obtain ⟨p, hp, hs⟩ := (hg.keys n).1 (by rw [hget]; exact fun h => nomatch h)
      have hs : p.upper up = n.upper up := hs
      rcases hg.shape p hp with h | ⟨m, hm, j, h1, h2, h3⟩
      · rwa [hs] at h
      · exact absurd (hs.symm.trans h3) (hb _ hn (hall _ hn) m (hin m (List.mem_cons_of_mem _ hm)) j h1
          fun hbm => Nat.lt_of_lt_of_le (h2 hbm) (hg.among m))
    have hc : c + 1 < all.count (n.upper up) := by
      have := hg.counts n hseen (hall _ hn)
      rw [hget] at this
      have hp := List.count_pos_iff.2 hseen
      have ha := hamong (n.upper up)
      rw [List.count_cons_self] at ha
      simp only [Option.some.injEq] at this
      omega
    intro p hp hs
    have hs : p.upper up = n.upper up ++ Nat.toDigits 10 (c + 1) := Eq.trans hs (upper_numbered hup n (c + 1))
    rcases hg.shape p hp with h | ⟨m, hm, j, h1, h2, h3⟩
    · have hp' := hin _ (List.mem_cons_of_mem _ h)
      exact hb _ hp' (hall _ hp') _ hn (c + 1) (by omega) (fun _ => hc) hs
    · have hm' := hin _ (List.mem_cons_of_mem _ hm)
      have h2 := h2 (hall _ hm')
      have h4 := Nat.lt_of_lt_of_le h2 (hg.among m)
      rcases numbered_cases h1 (by omega) (h3.symm.trans hs) with ⟨rfl, rfl⟩ | ⟨i, hi, hle, he⟩ | ⟨i, hi, hle, he⟩
      · have := hg.counts n hseen (hall _ hn)
        rw [hget] at this
        simp only [Option.some.injEq] at this
        omega
      · exact hb _ hm' (hall _ hm') _ hn i hi (fun _ => by omega) he
      · exact hb _ hn (hall _ hn) _ hm' i hi (fun _ => by omega) he

/-- The names asked for, in upper case. -/
def uppers (up : Char → List Char) (as : List (Attribute Name)) : List (List Char) := as.map fun a => a.name.upper up

theorem generateColumns_generated (hup : FixesDigits up) (hb : Apart all base) (as : List (Attribute Name))
    {generated : TMap Name Nat} {produced : List Name} (hg : Generated up all base seen generated produced)
    (hc : ∀ u, (uppers up as).count u + seen.count u ≤ all.count u) :
    ∃ seen', (∀ u, seen'.count u = (uppers up as).count u + seen.count u) ∧
      Generated up all base seen' (generateColumns (nameOps up) generated as).2
        (((generateColumns (nameOps up) generated as).1.map Attribute.name).reverse ++ produced) := by
  induction as generalizing generated produced seen with
  | nil => exact ⟨seen, (fun u => by simp [uppers]), hg⟩
  | cons a as ih =>
    have hc' : ∀ u, (uppers up as).count u + (a.name.upper up :: seen).count u ≤ all.count u := by
      intro u
      have := hc u
      simp only [uppers, List.map_cons, List.count_cons] at this ⊢
      omega
    obtain ⟨seen', h1, h2⟩ := ih (hg.step hup hb fun u => Nat.le_trans (Nat.le_add_left _ _) (hc' u)) hc'
    refine ⟨seen', ?_, ?_⟩
    · intro u
      rw [h1 u]
      simp only [uppers, List.map_cons, List.count_cons]
      omega
    · have he : ((generateColumns (nameOps up) generated (a :: as)).1.map Attribute.name).reverse ++ produced =
          ((generateColumns (nameOps up) (generateColumnName (nameOps up) a.name generated).2 as).1.map
            Attribute.name).reverse ++ (generateColumnName (nameOps up) a.name generated).1 :: produced := by
        simp [generateColumns]
      rw [he]
      exact h2

theorem generateColumns_distinct (hup : FixesDigits up) (hb : Apart all base) (hall : ∀ u ∈ all, base u)
    (as : List (Attribute Name)) {generated : TMap Name Nat} {produced : List Name}
    (hg : Generated up all base seen generated produced)
    (hc : ∀ u, (uppers up as).count u + seen.count u ≤ all.count u) :
    DistinctColumns up (generateColumns (nameOps up) generated as).1 ∧
    (∀ a ∈ (generateColumns (nameOps up) generated as).1, ∀ p ∈ produced, ¬ SameName up p a.name) := by
  induction as generalizing generated produced seen with
  | nil => exact ⟨List.Pairwise.nil, (fun _ h => by cases h)⟩
  | cons a as ih =>
    have hc' : ∀ u, (uppers up as).count u + (a.name.upper up :: seen).count u ≤ all.count u := by
      intro u
      have := hc u
      simp only [uppers, List.map_cons, List.count_cons] at this ⊢
      omega
    have ha : ∀ u, (a.name.upper up :: seen).count u ≤ all.count u :=
      fun u => Nat.le_trans (Nat.le_add_left _ _) (hc' u)
    have h1 := hg.fresh hup hb hall ha
    obtain ⟨h3, h4⟩ := ih (hg.step hup hb ha) hc'
    unfold generateColumns
    refine ⟨?_, ?_⟩
    · refine List.pairwise_cons.2 ⟨?_, h3⟩
      intro b hb
      exact h4 b hb _ List.mem_cons_self
    · intro b hb p hp
      rcases List.mem_cons.1 hb with rfl | hb
      · exact h1 p hp
      · exact h4 b hb p (List.mem_cons_of_mem _ hp)

theorem generateColumns_append {N : Type} (ops : NameOps N) (as bs : List (Attribute N))
    (generated : TMap N Nat) :
    generateColumns ops generated (as ++ bs) =
      ((generateColumns ops generated as).1 ++
        (generateColumns ops (generateColumns ops generated as).2 bs).1,
       (generateColumns ops (generateColumns ops generated as).2 bs).2) := by
  induction as generalizing generated with
  | nil => rfl
  | cons a as ih =>
    show (_ :: (generateColumns ops _ (as ++ bs)).1, (generateColumns ops _ (as ++ bs)).2) = _
    rw [ih]
    rfl

/-- Without clashes the names are made different. -/
theorem distinct_of_no_clash (hup : FixesDigits up) (as : List (Attribute Name))
    (hn : ¬ Clash up (as.map Attribute.name)) : DistinctColumns up (generateColumns (nameOps up) [] as).1 := by
  have hu : uppers up as = (as.map Attribute.name).map (Name.upper up) := by simp [uppers]
  refine (generateColumns_distinct (all := uppers up as) (base := fun u => u ∈ uppers up as) (seen := []) hup ?_
    (fun _ h => h) as (generated_nil _ _) (fun u => by simp)).1
  rw [hu]
  intro u hu _ v hv j hj hc he
  obtain ⟨m, hm, rfl⟩ := List.mem_map.1 hu
  obtain ⟨n, hn', rfl⟩ := List.mem_map.1 hv
  exact hn ⟨n, hn', m, hm, j, hj, hc hv, he⟩

/-- The names of the columns asked for before and the next column. -/
theorem collide (hup : FixesDigits up) (pre post : List (Attribute Name)) (a : Attribute Name)
    (hb : ∀ m ∈ (pre ++ a :: post).map Attribute.name, ∀ j, 1 ≤ j → a.name.upper up ≠ m.upper up ++ Nat.toDigits 10 j)
    (h1 : 1 ≤ times up (pre.map Attribute.name) a.name)
    (hm : ∃ m ∈ pre.map Attribute.name,
      m.upper up = a.name.upper up ++ Nat.toDigits 10 (times up (pre.map Attribute.name) a.name)) :
    ¬ DistinctColumns up (generateColumns (nameOps up) [] (pre ++ a :: post)).1 := by
  have hu : ∀ bs, uppers up bs = (bs.map Attribute.name).map (Name.upper up) := by simp [uppers]
  have hap : Apart (uppers up (pre ++ a :: post)) (fun u => u = a.name.upper up) := by
    rw [hu]
    intro u _ h v hv j hj _ he
    obtain ⟨m, hm, rfl⟩ := List.mem_map.1 hv
    exact hb m hm j hj (h ▸ he)
  obtain ⟨seen, hs, hg⟩ := generateColumns_generated hup hap pre (generated_nil _ _) (fun u => by
    simp only [uppers, List.map_append, List.count_append, List.count_nil]
    omega)
  rw [generateColumns_append]
  rw [List.append_nil] at hg
  have hcount : seen.count (a.name.upper up) = times up (pre.map Attribute.name) a.name := by
    rw [hs, hu]
    simp [times]
  have hin : a.name.upper up ∈ seen := List.count_pos_iff.1 (by omega)
  have hget := hg.counts a.name hin rfl
  obtain ⟨m, hm1, hm2⟩ := hm
  have hms : m.upper up ∈ seen := by
    apply List.count_pos_iff.1
    rw [hs, hu, List.count_nil, Nat.add_zero]
    exact List.count_pos_iff.2 (List.mem_map.2 ⟨m, hm1, rfl⟩)
  obtain ⟨p, hp1, hp2⟩ := hg.made _ hms
  obtain ⟨b, hb1, rfl⟩ := List.mem_map.1 (List.mem_reverse.1 hp1)
  intro hd
  refine (List.pairwise_append.1 hd).2.2 b hb1 { a with name := (generateColumnName (nameOps up) a.name
      (generateColumns (nameOps up) [] pre).2).1 } (by rw [generateColumns.eq_2]; exact List.mem_cons_self) ?_
  show b.name.upper up = Name.upper up (generateColumnName (nameOps up) a.name _).1
  unfold generateColumnName
  rw [hget]
  show _ = Name.upper up ((nameOps up).numbered a.name _)
  rw [hp2, hm2]
  refine Eq.trans ?_ (upper_numbered hup _ _).symm
  rw [hcount, Nat.sub_add_cancel h1]

theorem relationAttributes_names {fields : TMap Name ScalarType} {as : List (Attribute Name)}
    (h : relationAttributes fields = .ok as) : as.map (·.name) = fields.map (·.1) := by
  induction fields generalizing as with
  | nil => cases h; rfl
  | cons f fs ih =>
    obtain ⟨n, t⟩ := f
    cases t with
    | tuple ts => cases h
    | scalar typ isNull =>
      unfold relationAttributes at h
      obtain ⟨r, h1, h2⟩ := Chk.bind_eq_ok.1 h
      cases h2
      rw [List.map_cons, List.map_cons, ih h1]

/-- The columns of a result are the requested ones, renamed. -/
theorem inferColumnList_eq {sc : ScalarContext Name} {cs : List (ResultColumn Name)}
    {generated : TMap Name Nat} {as : List (Attribute Name)}
    (h : inferColumnList (nameOps up) sc generated cs = .ok as) :
    ∃ reqs : List (Attribute Name), reqs.map (·.name) = requestedNames up sc cs ∧
      as = (generateColumns (nameOps up) generated reqs).1 := by
  induction cs generalizing generated as with
  | nil =>
    cases h
    exact ⟨[], rfl, rfl⟩
  | cons c cs ih =>
    cases c with
    | allFrom name =>
      unfold inferColumnList at h
      unfold requestedNames
      cases hs : sc.symbols.get (nameOps up) name with
      | none => simp only [hs] at h; cases h
      | some sym =>
        cases sym with
        | «attribute» t => simp only [hs] at h; cases h
        | attributeConflict => simp only [hs] at h; cases h
        | relation fields =>
          simp only [hs] at h
          obtain ⟨fs, h1, h⟩ := Chk.bind_eq_ok.1 h
          obtain ⟨rest, h2, h⟩ := Chk.bind_eq_ok.1 h
          cases h
          obtain ⟨reqs, h3, h4⟩ := ih h2
          refine ⟨fs ++ reqs, ?_, ?_⟩
          · rw [List.map_append, h3, relationAttributes_names h1]
          · rw [generateColumns_append, h4]
    | expr e rename =>
      unfold inferColumnList at h
      obtain ⟨t, h1, h⟩ := Chk.bind_eq_ok.1 h
      cases t with
      | tuple ts => cases h
      | scalar typ isNull =>
        obtain ⟨rest, h2, h⟩ := Chk.bind_eq_ok.1 h
        cases h
        obtain ⟨reqs, h3, h4⟩ := ih h2
        refine ⟨⟨rename.getD (Name.ofString "col"), typ, isNull⟩ :: reqs, ?_, ?_⟩
        · rw [List.map_cons, h3]
          rfl
        · rw [h4]
          rfl

theorem since_none_iff {before : List (Name × Name)} {n : Name} :
    since up before n = none ↔ ∀ e ∈ before, ¬ SameName up e.2 n := by
  induction before with
  | nil => simp [since]
  | cons e before ih =>
    unfold since SameName
    split
    · next h => simp [h]
    · next h => simp [h, ih, SameName]

theorem since_congr {before : List (Name × Name)} {n m : Name} (h : n.upper up = m.upper up) :
    since up before n = since up before m := by
  induction before with
  | nil => rfl
  | cons e before ih => simp only [since, h, ih]

theorem generateColumnName_given {generated : TMap Name Nat} {before : List (Name × Name)}
    (hg : ∀ m, generated.get (nameOps up) m = since up before m) (n : Name) :
    (generateColumnName (nameOps up) n generated).1 = nameGiven up before n ∧
    ∀ m, (generateColumnName (nameOps up) n generated).2.get (nameOps up) m =
      since up ((n, nameGiven up before n) :: before) m := by
  unfold generateColumnName nameGiven
  rw [hg n]
  cases hs : since up before n with
  | none =>
    refine ⟨rfl, fun m => ?_⟩
    simp only [since]
    rw [TMap.get_insert (keyed_nameOps up), hg]
    by_cases h : m.upper up = n.upper up
    · rw [if_pos h, if_pos h.symm]
    · rw [if_neg h, if_neg (Ne.symm h)]
      simp [Ne.symm h]
  | some k =>
    refine ⟨rfl, fun m => ?_⟩
    simp only [since]
    rw [TMap.get_insert (keyed_nameOps up), TMap.get_insert (keyed_nameOps up), hg]
    show (if m.upper up = (n.numbered (k + 1)).upper up then _ else _) =
      if (n.numbered (k + 1)).upper up = m.upper up then _ else _
    by_cases h1 : m.upper up = (n.numbered (k + 1)).upper up
    · rw [if_pos h1, if_pos h1.symm]
    · rw [if_neg h1, if_neg (Ne.symm h1)]
      by_cases h2 : m.upper up = n.upper up
      · rw [if_pos h2, since_congr h2, hs]
        simp [h2]
      · rw [if_neg h2]
        simp [Ne.symm h2]

theorem generateColumns_cons (b : Attribute Name) (as : List (Attribute Name)) (generated : TMap Name Nat) :
    (generateColumns (nameOps up) generated (b :: as)).1 =
      { b with name := (generateColumnName (nameOps up) b.name generated).1 } ::
        (generateColumns (nameOps up) (generateColumnName (nameOps up) b.name generated).2 as).1 := rfl

theorem generateColumns_given (as : List (Attribute Name)) {generated : TMap Name Nat}
    {before : List (Name × Name)} (hg : ∀ m, generated.get (nameOps up) m = since up before m) :
    ∀ (i : Nat) (a : Attribute Name), as[i]? = some a → (generateColumns (nameOps up) generated as).1[i]? =
      some { a with name := nameGiven up (columnsBefore (as.map Attribute.name)
        ((generateColumns (nameOps up) generated as).1.map Attribute.name) i ++ before) a.name } := by
  induction as generalizing generated before with
  | nil => intro i a h; simp at h
  | cons b as ih =>
    obtain ⟨h1, h2⟩ := generateColumnName_given hg b.name
    intro i a h
    rw [generateColumns_cons, h1]
    cases i with
    | zero => cases h; rfl
    | succ i =>
      have := ih h2 i a h
      simp only [List.map_cons, List.getElem?_cons_succ]
      rw [this]
      simp [columnsBefore]

theorem generateColumns_length {N : Type} (ops : NameOps N) (as : List (Attribute N)) (generated : TMap N Nat) :
    (generateColumns ops generated as).1.length = as.length := by
  induction as generalizing generated with
  | nil => rfl
  | cons a as ih => simp [generateColumns, ih]

theorem generateColumns_names (as : List (Attribute Name)) :
    let given := (generateColumns (nameOps up) [] as).1.map Attribute.name
    ∀ (i : Nat) (n : Name), (as.map Attribute.name)[i]? = some n →
      given[i]? = some (nameGiven up (columnsBefore (as.map Attribute.name) given i) n) := by
  intro given i n hn
  rw [List.getElem?_map] at hn
  obtain ⟨a, ha, rfl⟩ := Option.map_eq_some_iff.1 hn
  have := generateColumns_given (up := up) as (before := []) (generated := []) (fun _ => rfl) i a ha
  show (List.map _ _)[i]? = _
  rw [List.getElem?_map, this, List.append_nil]
  rfl

/-- Two columns get the same name exactly if a name with its number was given before. -/
theorem generateColumns_distinct_iff (as : List (Attribute Name)) :
    let given := (generateColumns (nameOps up) [] as).1.map Attribute.name
    DistinctColumns up (generateColumns (nameOps up) [] as).1 ↔
      ∀ (i : Nat) (n : Name) (k : Nat), (as.map Attribute.name)[i]? = some n →
        since up (columnsBefore (as.map Attribute.name) given i) n = some k →
        ∀ p ∈ given.take i, ¬ SameName up p ⟨n.string ++ Nat.toDigits 10 (k + 1)⟩ := by
  intro given
  have hl : given.length = as.length := by simp [given, generateColumns_length]
  have hget := generateColumns_names (up := up) as
  have hd : DistinctColumns up (generateColumns (nameOps up) [] as).1 ↔
      given.Pairwise fun a b => ¬ SameName up a b :=
    (List.pairwise_map (R := fun a b => ¬ SameName up a b)).symm
  rw [hd]
  constructor
  · intro h i n k hn hs p hp
    have hi := hget i n hn
    unfold nameGiven at hi
    rw [hs] at hi
    obtain ⟨j, hj, rfl⟩ := List.mem_iff_getElem.1 hp
    simp only [List.length_take] at hj
    obtain ⟨hi1, hi2⟩ := List.getElem?_eq_some_iff.1 hi
    rw [List.getElem_take]
    have := List.pairwise_iff_getElem.1 h j i (by omega) hi1 (by omega)
    rwa [hi2] at this
  · intro h
    rw [List.pairwise_iff_getElem]
    intro j i hj hi hji
    obtain ⟨n, hn⟩ : ∃ n, (as.map Attribute.name)[i]? = some n := ⟨_, List.getElem?_eq_getElem (by simp; omega)⟩
    have he := hget i n hn
    rw [List.getElem?_eq_getElem hi, Option.some.injEq] at he
    have hmem : given[j] ∈ given.take i := List.mem_iff_getElem.2 ⟨j, by simp; omega, by rw [List.getElem_take]⟩
    rw [he]
    unfold nameGiven
    cases hs : since up (columnsBefore (as.map Attribute.name) given i) n with
    | none =>
      simp only
      rw [since_none_iff] at hs
      refine hs ((as.map Attribute.name)[j]'(by simp; omega), given[j]) ?_
      unfold columnsBefore
      rw [List.mem_reverse]
      exact List.mem_iff_getElem.2 ⟨j, by simp; omega, by simp⟩
    | some k => exact h i n k hn hs _ hmem

end Verif.Sql
