import Verif.Lemmas.Excitations

/-! C12 (active triples lists), C13 (P and Q spaces), C14 (placeholder row), C15 (3p2h, 3h2p and
4p2h lists). -/

namespace Ccpy.Excitations
open Ccpy.Spec

/-- A triple with at least `num` active holes and at least `num` active particles. -/
def Enough (s : Sys) (num : ℕ) (c : Case) (ps hs : List ℕ) : Prop :=
  num ≤ activeHoles s.space c.spins hs ∧ num ≤ activeParticles s.space c.spins ps

/-- An open-shell system with 3 alpha and 2 beta electrons in 6 orbitals, 2 active orbitals in
every class, two irreps. -/
def sample : Sys where
  noa := 3
  nob := 2
  norb := 6
  actOA := 2
  actOB := 2
  actUA := 2
  actUB := 2
  irrep := fun p => p % 2
  ref := 1

/-- C12: the list stands for exactly the ordered triples of its spin case with enough active holes
and particles and the target symmetry, each once; it has at least one row, and only the
placeholder if there is no such triple. -/
theorem C12_active_triples (s : Sys) (num : ℕ) (target : Option ℕ) (c : Case) :
    (∀ r, r ∈ realRows 6 (activePspace s num target c) ↔
      Allowed s target c.spins c.spins (Enough s num c) r) ∧
    (realRows 6 (activePspace s num target c)).Nodup ∧
    ((¬ ∃ r, Allowed s target c.spins c.spins (Enough s num c) r) →
      activePspace s num target c = [[1, 1, 1, 1, 1, 1]]) := by
  have hm := mem_activePraw s num target c
  have hr := list_result 6 _ _ hm (nodup_activePraw s num target c)
    (fun h => ones_not_excitation _ _ _ (Or.inl (spins_length c).ge) 6 h.isRow)
  refine ⟨hr.1, hr.2.1, fun hne => ?_⟩
  have : activePraw s num target c = [] := by
    rw [List.eq_nil_iff_forall_not_mem]
    intro r h
    exact hne ⟨r, (hm r).mp h⟩
  simp [activePspace, finalize, this]

example : activePspace sample 3 (some 0) .aab =
    [[1, 2, 2, 2, 3, 1], [1, 2, 1, 2, 3, 2]] ∧
    activePspace sample 3 (some 0) .bbb = [[1, 1, 1, 1, 1, 1]] := by
  decide +kernel

/-- A list of which every row (apart from the placeholder) is an ordered triple. -/
def WellFormed (s : Sys) (c : Case) (p : List (List ℕ)) : Prop :=
  ∀ r ∈ realRows 6 p, IsExcitationRow s.space c.spins c.spins r

/-- C13: for any well-formed P list the Q list stands for exactly the ordered triples of the target
symmetry that are not in the P list, each once. -/
theorem C13_qspace (s : Sys) (p : List (List ℕ)) (target : Option ℕ) (c : Case)
    (hp : WellFormed s c p) :
    ∃ q, generalQspace s p target c = some q ∧ q ≠ [] ∧
      (∀ r, r ∈ realRows 6 q ↔
        Allowed s target c.spins c.spins (fun _ _ => True) r ∧ r ∉ realRows 6 p) ∧
      (realRows 6 q).Nodup := by
  set ex := (realRows 6 p).map (List.map (· - 1)) with hex
  refine ⟨finalize 6 (generalQraw s (fun x => !ex.contains x) target c), ?_, ?_⟩
  · rw [generalQspace, excludedCells_spec s c p hp]
    rfl
  · have hm := mem_generalQraw s (fun x => !ex.contains x) target c
    have hr := list_result 6 _ _ hm (nodup_generalQraw s _ target c)
      (fun h => ones_not_excitation _ _ _ (Or.inl (spins_length c).ge) 6 h.isRow)
    refine ⟨hr.2.2.1, fun r => ?_, hr.2.1⟩
    rw [hr.1 r]
    constructor
    · rintro ⟨ps, hs, rfl, h1, h2, h3, h4⟩
      refine ⟨⟨ps, hs, rfl, h1, h2, trivial, h4⟩, ?_⟩
      rw [← mem_cells s c _ ps hs hp, ← hex]
      simpa using h3
    · rintro ⟨⟨ps, hs, rfl, h1, h2, -, h4⟩, h3⟩
      refine ⟨ps, hs, rfl, h1, h2, ?_, h4⟩
      rw [← mem_cells s c _ ps hs hp, ← hex] at h3
      simpa using h3

/-- A P list containing two triples of the sample system. -/
example : WellFormed sample .aab [[1, 2, 1, 2, 3, 2], [2, 3, 4, 1, 2, 2]] ∧
    (generalQspace sample [[1, 2, 1, 2, 3, 2], [2, 3, 4, 1, 2, 2]] (some 0) .aab).isSome := by
  refine ⟨?_, by decide +kernel⟩
  intro r hr
  simp [realRows] at hr
  rcases hr with rfl | rfl
  · exact ⟨[0, 1, 0], [1, 2, 1], rfl, ⟨rfl, by decide, by decide⟩, ⟨rfl, by decide, by decide⟩⟩
  · exact ⟨[1, 2, 3], [0, 1, 1], rfl, ⟨rfl, by decide, by decide⟩, ⟨rfl, by decide, by decide⟩⟩

/-- C13: the P list of the active-space generator is well-formed, so the two generators chain, and
the Q list computed from it is a rearrangement of the active-space Q list. -/
theorem C13_active_chain (s : Sys) (num : ℕ) (target : Option ℕ) (c : Case) :
    WellFormed s c (activePspace s num target c) ∧
    ∃ q, generalQspace s (activePspace s num target c) target c = some q ∧
      (realRows 6 q).Perm (realRows 6 (activeQspace s num target c)) := by
  have hP := C12_active_triples s num target c
  have hw : WellFormed s c (activePspace s num target c) :=
    fun r hr => ((hP.1 r).mp hr).isRow
  refine ⟨hw, ?_⟩
  obtain ⟨q, hq, -, hmem, hnd⟩ := C13_qspace s _ target c hw
  refine ⟨q, hq, ?_⟩
  have hm := mem_activeQraw s num target c
  have hr := list_result 6 _ _ hm (nodup_activeQraw s num target c)
    (fun h => ones_not_excitation _ _ _ (Or.inl (spins_length c).ge) 6 h.isRow)
  rw [activeQspace, List.perm_ext_iff_of_nodup hnd hr.2.1]
  intro r
  rw [hmem, hP.1, hr.1]
  constructor
  · rintro ⟨⟨ps, hs, rfl, h1, h2, -, h4⟩, h3⟩
    exact ⟨ps, hs, rfl, h1, h2, fun h => h3 ⟨ps, hs, rfl, h1, h2, h, h4⟩, h4⟩
  · rintro ⟨ps, hs, rfl, h1, h2, h3, h4⟩
    refine ⟨⟨ps, hs, rfl, h1, h2, trivial, h4⟩, ?_⟩
    rintro ⟨ps', hs', he, h1', h2', h3', -⟩
    have hlen : ps.length = ps'.length := by rw [h1.length_eq, h1'.length_eq]
    obtain ⟨rfl, rfl⟩ := List.append_inj (row_injective he) hlen
    exact h3 h3'

/-- C13: active-space P and Q lists together are a rearrangement of the list of all triples of the
target symmetry (the list generated with no activity requirement): disjoint and exhaustive, every
triple exactly once. -/
theorem C13_active_partition (s : Sys) (num : ℕ) (target : Option ℕ) (c : Case) :
    (realRows 6 (activePspace s num target c) ++ realRows 6 (activeQspace s num target c)).Perm
      (realRows 6 (activePspace s 0 target c)) := by
  have hP := C12_active_triples s num target c
  have hA := C12_active_triples s 0 target c
  have hm := mem_activeQraw s num target c
  have hr := list_result 6 _ _ hm (nodup_activeQraw s num target c)
    (fun h => ones_not_excitation _ _ _ (Or.inl (spins_length c).ge) 6 h.isRow)
  rw [activeQspace]
  rw [List.perm_ext_iff_of_nodup]
  · intro r
    rw [List.mem_append, hP.1, hA.1, hr.1]
    constructor
    · rintro (⟨ps, hs, rfl, h1, h2, -, h4⟩ | ⟨ps, hs, rfl, h1, h2, -, h4⟩) <;>
        exact ⟨ps, hs, rfl, h1, h2, ⟨Nat.zero_le _, Nat.zero_le _⟩, h4⟩
    · rintro ⟨ps, hs, rfl, h1, h2, -, h4⟩
      by_cases h : Enough s num c ps hs
      · exact Or.inl ⟨ps, hs, rfl, h1, h2, h, h4⟩
      · exact Or.inr ⟨ps, hs, rfl, h1, h2, h, h4⟩
  · rw [List.nodup_append]
    refine ⟨hP.2.1, hr.2.1, ?_⟩
    rintro r hp r' hq rfl
    rw [hP.1] at hp
    rw [hr.1] at hq
    obtain ⟨ps, hs, rfl, h1, h2, h3, -⟩ := hp
    obtain ⟨ps', hs', he, h1', h2', h3', -⟩ := hq
    have hlen : ps.length = ps'.length := by rw [h1.length_eq, h1'.length_eq]
    obtain ⟨rfl, rfl⟩ := List.append_inj (row_injective he) hlen
    exact h3' h3
  · exact hA.2.1

example : (realRows 6 (activePspace sample 3 (some 0) .aab)).length = 2 ∧
    (realRows 6 (activeQspace sample 3 (some 0) .aab)).length = 34 ∧
    (realRows 6 (activePspace sample 0 (some 0) .aab)).length = 36 := by
  decide +kernel

/-- C13: a P row with an index beyond its orbital range raises instead of being ignored. -/
theorem C13_out_of_range_error (s : Sys) (c : Case) (p : List (List ℕ)) (target : Option ℕ)
    (r : List ℕ) (x n : ℕ) (hne : realRows 6 p ≠ []) (hr : r ∈ p) (hx : (n, x) ∈ (shape s c).zip r)
    (hbad : n < x) : generalQspace s p target c = none := by
  have h1 : p.head? ≠ some (List.replicate 6 1) := by
    intro h
    simp [realRows, h] at hne
  have hrow : rowIndex (shape s c) r = none := by
    unfold rowIndex
    split
    · have hw : wrapIndex n x = none := by
        simp only [wrapIndex]
        rw [if_neg (by omega), if_neg (by omega)]
      generalize hl : (shape s c).zip r = l at hx
      clear hl
      induction l with
      | nil => simp at hx
      | cons q l ih =>
        rw [List.mapM_cons]
        rcases List.mem_cons.mp hx with h | h
        · subst h
          rw [hw]
          rfl
        · cases hq : wrapIndex q.1 q.2 with
          | none => rfl
          | some v => simp [ih h]
    · rfl
  have : p.mapM (rowIndex (shape s c)) = none := by
    clear hne h1
    induction p with
    | nil => simp at hr
    | cons q p ih =>
      rw [List.mapM_cons]
      rcases List.mem_cons.mp hr with h | h
      · rw [← h, hrow]
        rfl
      · cases hq : rowIndex (shape s c) q with
        | none => rfl
        | some v => simp [ih h]
  rw [generalQspace, excludedCells, if_neg h1, this]
  rfl

example : generalQspace sample [[1, 2, 1, 2, 3, 2], [2, 5, 4, 1, 2, 2]] none .aab = none :=
  C13_out_of_range_error sample .aab _ none [2, 5, 4, 1, 2, 2] 5 3 (by decide) (by decide)
    (by decide) (by decide)

/-- C13 fails for P lists written with indices counted from 0: no error is raised, the 0 silently
addresses the last orbital, and a triple that is not in the P list goes missing from Q. -/
theorem C13_zero_index_fails :
    ∃ q, generalQspace sample [[1, 2, 0, 1, 2, 1]] none .aab = some q ∧
      [1, 2, 4, 1, 2, 1] ∉ q ∧ [1, 2, 4, 1, 2, 1] ∉ [[1, 2, 0, 1, 2, 1]] ∧
      Allowed sample none [.α, .α, .β] [.α, .α, .β] (fun _ _ => True) [1, 2, 4, 1, 2, 1] := by
  refine ⟨((generalQspace sample [[1, 2, 0, 1, 2, 1]] none .aab).getD []), by decide +kernel,
    by decide +kernel, by decide, ?_⟩
  exact ⟨[0, 1, 3], [0, 1, 0], rfl, ⟨rfl, by decide, by decide⟩, ⟨rfl, by decide, by decide⟩,
    trivial, by simp [HasSymmetry]⟩

/-- C14: with at least three particles or at least three holes (triples, 3p2h, 3h2p, 4p2h) the row
of ones is not an ordered excitation. -/
theorem C14_placeholder_not_excitation (S : Space) (pSpins hSpins : List Spin)
    (h : 3 ≤ pSpins.length ∨ 3 ≤ hSpins.length) (width : ℕ) :
    ¬ IsExcitationRow S pSpins hSpins (List.replicate width 1) :=
  ones_not_excitation S pSpins hSpins h width

example : IsExcitationRow sample.space [.α, .α, .β] [.α, .β] [1, 2, 1, 1, 1] :=
  ⟨[0, 1, 0], [0, 0], rfl, ⟨rfl, by decide, by decide⟩, ⟨rfl, by decide, by decide⟩⟩

/-- For doubles the row of ones would be a real excitation, so the number of indices matters. -/
example : IsExcitationRow sample.space [.α, .β] [.α, .β] [1, 1, 1, 1] :=
  ⟨[0, 0], [0, 0], rfl, ⟨rfl, by decide, by decide⟩, ⟨rfl, by decide, by decide⟩⟩

/-- C14: testing the first row of a generated triples list for the placeholder decides whether
there is any triple of the wanted kind. -/
theorem C14_first_row_test (s : Sys) (num : ℕ) (target : Option ℕ) (c : Case) :
    ((activePspace s num target c).head? = some [1, 1, 1, 1, 1, 1] ↔
      ¬ ∃ r, Allowed s target c.spins c.spins (Enough s num c) r) ∧
    ((activeQspace s num target c).head? = some [1, 1, 1, 1, 1, 1] ↔
      ¬ ∃ r, Allowed s target c.spins c.spins (fun ps hs => ¬ Enough s num c ps hs) r) ∧
    (∀ p q, WellFormed s c p → generalQspace s p target c = some q →
      (q.head? = some [1, 1, 1, 1, 1, 1] ↔
        ¬ ∃ r, Allowed s target c.spins c.spins (fun _ _ => True) r ∧ r ∉ realRows 6 p)) := by
  refine ⟨?_, ?_, ?_⟩
  · exact (list_result 6 _ _ (mem_activePraw s num target c) (nodup_activePraw s num target c)
      (fun h => ones_not_excitation _ _ _ (Or.inl (spins_length c).ge) 6 h.isRow)).2.2.2
  · exact (list_result 6 _ _ (mem_activeQraw s num target c) (nodup_activeQraw s num target c)
      (fun h => ones_not_excitation _ _ _ (Or.inl (spins_length c).ge) 6 h.isRow)).2.2.2
  · intro p q hp hq
    obtain ⟨q', hq', hne, hmem, -⟩ := C13_qspace s p target c hp
    rw [hq] at hq'
    obtain rfl : q = q' := Option.some.inj hq'
    constructor
    · rintro hh ⟨r, hr⟩
      have := (hmem r).mpr hr
      rw [realRows, if_pos (by exact hh)] at this
      exact absurd this (by simp)
    · intro hno
      by_contra hh
      obtain ⟨x, q'', rfl⟩ := List.exists_cons_of_ne_nil hne
      refine hno ⟨x, (hmem x).mp ?_⟩
      rw [realRows, if_neg (by exact hh)]
      exact List.mem_cons_self

/-- Spins of the particles and of the holes for the three lists of each kind. -/
def spins3p2h : List (List Spin × List Spin) :=
  [([.α, .α, .α], [.α, .α]), ([.α, .α, .β], [.α, .β]), ([.α, .β, .β], [.β, .β])]
def spins3h2p : List (List Spin × List Spin) :=
  [([.α, .α], [.α, .α, .α]), ([.α, .β], [.α, .α, .β]), ([.β, .β], [.α, .β, .β])]
def spins4p2h : List (List Spin × List Spin) :=
  [([.α, .β, .α, .α], [.α, .α]), ([.α, .β, .α, .β], [.α, .β]), ([.α, .β, .β, .β], [.β, .β])]

/-- A generated list is exact: it stands for the allowed excitations, each once, and its first row
tells whether there is any. -/
def Exact (s : Sys) (target : Option ℕ) (width : ℕ) (pSpins hSpins : List Spin)
    (cond : List ℕ → List ℕ → Prop) (l : List (List ℕ)) : Prop :=
  (∀ r, r ∈ realRows width l ↔ Allowed s target pSpins hSpins cond r) ∧
  (realRows width l).Nodup ∧ l ≠ [] ∧
  (l.head? = some (List.replicate width 1) ↔ ¬ ∃ r, Allowed s target pSpins hSpins cond r)

/-- C15: with the same active spaces for both spins, the 3p2h lists are exact: ordered excitations
of the target symmetry with at least `num` active particles. -/
theorem C15_3p2h (s : Sys) (num : ℕ) (target : Option ℕ) (ho : s.actOA = s.actOB)
    (hu : s.actUA = s.actUB) :
    ∃ ls, active3p2h s num target = some ls ∧
      List.Forall₂ (fun sp l => Exact s target 5 sp.1 sp.2
        (fun ps _ => num ≤ activeParticles s.space sp.1 ps) l) spins3p2h ls := by
  refine ⟨_, by rw [active3p2h, if_pos (by simp [evenActive, ho, hu])], ?_⟩
  simp only [spins3p2h, List.map_cons, List.map_nil]
  refine .cons ?_ (.cons ?_ (.cons ?_ .nil))
  · exact list_result 5 _ _ (mem_active3p2hAaa s num target) (nodup_active3p2hAaa s num target)
      (fun h => ones_not_excitation _ _ _ (Or.inl (by decide)) 5 h.isRow)
  · exact list_result 5 _ _ (mem_active3p2hAab s num target) (nodup_active3p2hAab s num target)
      (fun h => ones_not_excitation _ _ _ (Or.inl (by decide)) 5 h.isRow)
  · exact list_result 5 _ _ (mem_active3p2hAbb s num target) (nodup_active3p2hAbb s num target)
      (fun h => ones_not_excitation _ _ _ (Or.inl (by decide)) 5 h.isRow)

/-- C15: the same for 3h2p lists, with at least `num` active holes. -/
theorem C15_3h2p (s : Sys) (num : ℕ) (target : Option ℕ) (ho : s.actOA = s.actOB)
    (hu : s.actUA = s.actUB) :
    ∃ ls, active3h2p s num target = some ls ∧
      List.Forall₂ (fun sp l => Exact s target 5 sp.1 sp.2
        (fun _ hs => num ≤ activeHoles s.space sp.2 hs) l) spins3h2p ls := by
  refine ⟨_, by rw [active3h2p, if_pos (by simp [evenActive, ho, hu])], ?_⟩
  simp only [spins3h2p, List.map_cons, List.map_nil]
  refine .cons ?_ (.cons ?_ (.cons ?_ .nil))
  · exact list_result 5 _ _ (mem_active3h2pAaa s num target) (nodup_active3h2pAaa s num target)
      (fun h => ones_not_excitation _ _ _ (Or.inr (by decide)) 5 h.isRow)
  · exact list_result 5 _ _ (mem_active3h2pAab s num target) (nodup_active3h2pAab s num target)
      (fun h => ones_not_excitation _ _ _ (Or.inr (by decide)) 5 h.isRow)
  · exact list_result 5 _ _ (mem_active3h2pAbb s num target) (nodup_active3h2pAbb s num target)
      (fun h => ones_not_excitation _ _ _ (Or.inr (by decide)) 5 h.isRow)

/-- C15: the same for 4p2h lists, with at least `num` active particles. -/
theorem C15_4p2h (s : Sys) (num : ℕ) (target : Option ℕ) (ho : s.actOA = s.actOB)
    (hu : s.actUA = s.actUB) :
    ∃ ls, active4p2h s num target = some ls ∧
      List.Forall₂ (fun sp l => Exact s target 6 sp.1 sp.2
        (fun ps _ => num ≤ activeParticles s.space sp.1 ps) l) spins4p2h ls := by
  refine ⟨_, by rw [active4p2h, if_pos (by simp [evenActive, ho, hu])], ?_⟩
  simp only [spins4p2h, List.map_cons, List.map_nil]
  refine .cons ?_ (.cons ?_ (.cons ?_ .nil))
  · exact list_result 6 _ _ (mem_active4p2hAbaa s num target) (nodup_active4p2hAbaa s num target)
      (fun h => ones_not_excitation _ _ _ (Or.inl (by decide)) 6 h.isRow)
  · exact list_result 6 _ _ (mem_active4p2hAbab s num target) (nodup_active4p2hAbab s num target)
      (fun h => ones_not_excitation _ _ _ (Or.inl (by decide)) 6 h.isRow)
  · exact list_result 6 _ _ (mem_active4p2hAbbb s num target) (nodup_active4p2hAbbb s num target)
      (fun h => ones_not_excitation _ _ _ (Or.inl (by decide)) 6 h.isRow)

example : sample.actOA = sample.actOB ∧ sample.actUA = sample.actUB ∧
    (active3p2h sample 2 (some 0)).map (List.map List.length) = some [2, 24, 6] ∧
    (active3h2p sample 2 (some 0)).map (List.map List.length) = some [1, 36, 8] ∧
    (active4p2h sample 2 (some 0)).map (List.map List.length) = some [6, 48, 5] := by
  decide +kernel

/-- C15: with different active spaces for the two spins the three functions stop with an assertion
error. -/
theorem C15_uneven_error (s : Sys) (num : ℕ) (target : Option ℕ)
    (h : s.actOA ≠ s.actOB ∨ s.actUA ≠ s.actUB) :
    active3p2h s num target = none ∧ active3h2p s num target = none ∧
    active4p2h s num target = none := by
  have : evenActive s = false := by
    rw [Bool.eq_false_iff]
    simp only [evenActive, ne_eq, Bool.and_eq_true, beq_iff_eq, not_and_or]
    exact h
  simp [active3p2h, active3h2p, active4p2h, this]

example : ({ sample with actOB := 1 } : Sys).actOA ≠ ({ sample with actOB := 1 } : Sys).actOB := by
  decide

end Ccpy.Excitations
