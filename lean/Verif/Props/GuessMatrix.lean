import Verif.Lemmas.GuessElements

/-! **C87** The matrices diagonalised for initial guesses (CIS, spin-flip CIS, one particle, one hole, two particles, two holes) hold the
matrix elements of the commutator with the similarity-transformed Hamiltonian between the determinants of the guess space, each pair
of determinants at its running numbers; rows and columns of determinants of another symmetry are zero; and the eigenvectors of the active-space
problems are spread over the full space so that each coefficient goes to its own determinant (proved for singlet references, refuted
for others). -/

namespace Ccpy.GuessMatrix
open Ccpy.Fock Ccpy.SpinMatrix

variable {ι : Type*} [LinearOrder ι]

/-- The numbers of orbitals. -/
def countsOf (S : Orbitals ι) : Counts := ⟨S.na, S.nb, S.ua, S.ub⟩

section
variable {S : Orbitals ι} {Z : Fock.Integrals} {T : Cluster} {sym1 : ℕ → ℕ → Bool} {a i b j : ℕ}

/-! ### Single excitations -/

section
variable (h : S.Proper) (hZ : Z.Antisym) (hT : T.Antisym)
include h hZ hT

theorem C87_cis_aa (ha : a < S.ua) (hi : i < S.na) (hb : b < S.ua) (hj : j < S.na) (h₁ : sym1 (a + S.na) i = true)
    (h₂ : sym1 (b + S.na) j = true) :
    buildCis (countsOf S) sym1 (elementsOf S Z T) (a * S.na + i) (b * S.na + j)
      = energyElement S Z T (S.singleA a i) (cre (S.virA b) * ann (S.occA j)) := by
  rw [element_aa h hZ hT ha hi hb hj]
  have e₁ : idxA (countsOf S) sym1 a i = a * S.na + i + 1 := if_pos h₁
  have e₂ : idxA (countsOf S) sym1 b j = b * S.na + j + 1 := if_pos h₂
  have := like_apply (oo := (elementsOf S Z T).a_oo) (vv := (elementsOf S Z T).a_vv) (v := (elementsOf S Z T).aa_voov)
    (numbering_A (countsOf S) sym1) ha hi hb hj (by omega) (by omega)
  rw [e₁, e₂, Nat.add_sub_cancel, Nat.add_sub_cancel] at this
  exact (if_pos (pair_bound ha hi)).trans ((if_pos (pair_bound hb hj)).trans this)

theorem C87_cis_ab (ha : a < S.ua) (hi : i < S.na) (hb : b < S.ub) (hj : j < S.nb) (h₁ : sym1 (a + S.na) i = true)
    (h₂ : sym1 (b + S.nb) j = true) :
    buildCis (countsOf S) sym1 (elementsOf S Z T) (a * S.na + i) (S.na * S.ua + (b * S.nb + j))
      = energyElement S Z T (S.singleA a i) (cre (S.virB b) * ann (S.occB j)) := by
  rw [element_ab h hZ hT ha hi hb hj]
  have e₁ : idxA (countsOf S) sym1 a i = a * S.na + i + 1 := if_pos h₁
  have e₂ : idxB (countsOf S) sym1 b j = b * S.nb + j + 1 := if_pos h₂
  have := unlike_apply (v := fun a m i e => (elementsOf S Z T).ab_voov a m i e)
    (numbering_A (countsOf S) sym1) (numbering_B (countsOf S) sym1) ha hi hb hj (by omega) (by omega)
  rw [e₁, e₂, Nat.add_sub_cancel, Nat.add_sub_cancel] at this
  refine (if_pos (pair_bound ha hi)).trans ((if_neg (by exact Nat.not_lt.2 (Nat.le_add_right _ _))).trans (Eq.trans ?_ this))
  exact congrArg (unlike _ _ _ _ _ _ _ _) (Nat.add_sub_cancel_left ..)

theorem C87_cis_ba (ha : a < S.ub) (hi : i < S.nb) (hb : b < S.ua) (hj : j < S.na) (h₁ : sym1 (a + S.nb) i = true)
    (h₂ : sym1 (b + S.na) j = true) :
    buildCis (countsOf S) sym1 (elementsOf S Z T) (S.na * S.ua + (a * S.nb + i)) (b * S.na + j)
      = energyElement S Z T (S.singleB a i) (cre (S.virA b) * ann (S.occA j)) := by
  rw [element_ba h hZ hT ha hi hb hj]
  have e₁ : idxB (countsOf S) sym1 a i = a * S.nb + i + 1 := if_pos h₁
  have e₂ : idxA (countsOf S) sym1 b j = b * S.na + j + 1 := if_pos h₂
  have := unlike_apply (v := fun a m i e => (elementsOf S Z T).ab_ovvo m a e i)
    (numbering_B (countsOf S) sym1) (numbering_A (countsOf S) sym1) ha hi hb hj (by omega) (by omega)
  rw [e₁, e₂, Nat.add_sub_cancel, Nat.add_sub_cancel] at this
  refine (if_neg (by exact Nat.not_lt.2 (Nat.le_add_right _ _))).trans ((if_pos (pair_bound hb hj)).trans (Eq.trans ?_ this))
  exact congrArg (fun p => unlike _ _ _ _ _ _ _ p _) (Nat.add_sub_cancel_left ..)

theorem C87_cis_bb (ha : a < S.ub) (hi : i < S.nb) (hb : b < S.ub) (hj : j < S.nb) (h₁ : sym1 (a + S.nb) i = true)
    (h₂ : sym1 (b + S.nb) j = true) :
    buildCis (countsOf S) sym1 (elementsOf S Z T) (S.na * S.ua + (a * S.nb + i)) (S.na * S.ua + (b * S.nb + j))
      = energyElement S Z T (S.singleB a i) (cre (S.virB b) * ann (S.occB j)) := by
  rw [element_bb h hZ hT ha hi hb hj]
  have e₁ : idxB (countsOf S) sym1 a i = a * S.nb + i + 1 := if_pos h₁
  have e₂ : idxB (countsOf S) sym1 b j = b * S.nb + j + 1 := if_pos h₂
  have := like_apply (oo := (elementsOf S Z T).b_oo) (vv := (elementsOf S Z T).b_vv) (v := (elementsOf S Z T).bb_voov)
    (numbering_B (countsOf S) sym1) ha hi hb hj (by omega) (by omega)
  rw [e₁, e₂, Nat.add_sub_cancel, Nat.add_sub_cancel] at this
  refine (if_neg (by exact Nat.not_lt.2 (Nat.le_add_right _ _))).trans ((if_neg (by exact Nat.not_lt.2 (Nat.le_add_right _ _))).trans (Eq.trans ?_ this))
  exact congrArg₂ (like _ _ _ _ _ _) (Nat.add_sub_cancel_left ..) (Nat.add_sub_cancel_left ..)

/-! ### Spin flip, one particle, one hole -/

theorem C87_sf (ha : a < S.ub) (hi : i < S.na) (hb : b < S.ub) (hj : j < S.na) :
    buildSfcis (countsOf S) (elementsOf S Z T) (a * S.na + i) (b * S.na + j)
      = energyElement S Z T ((cre (S.virB a) * ann (S.occA i)) S.ref) (cre (S.virB b) * ann (S.occA j)) := by
  rw [element_sf h hZ hT ha hi hb hj]
  refine (buildSfcis_apply (s := countsOf S) ha hi hb hj).trans ?_
  unfold eqn
  simp only [mul_ite, mul_one, mul_zero]

theorem C87_1p (ha : a < S.ua) (hb : b < S.ua) :
    build1p (countsOf S) (elementsOf S Z T) a b = energyElement S Z T (cre (S.virA a) S.ref) (cre (S.virA b)) := by
  rw [element_ea h hZ hT ha hb]
  exact build1p_apply (s := countsOf S) ha hb

theorem C87_1h (hi : i < S.na) (hj : j < S.na) :
    build1h (countsOf S) (elementsOf S Z T) i j = energyElement S Z T (ann (S.occA i) S.ref) (ann (S.occA j)) := by
  rw [element_ip h hZ hT hi hj]
  exact build1h_apply (s := countsOf S) hi hj

/-! ### Two particles, two holes -/

/-- The pair `(a, b)` of active orbitals has the number `a * nactu_b + b`. -/
theorem C87_2p {c d nactu mult : ℕ} (ha : a < nactuA (countsOf S) nactu) (hb : b < nactuB (countsOf S) nactu mult)
    (hc : c < nactuA (countsOf S) nactu) (hd : d < nactuB (countsOf S) nactu mult) (h₁ : sym1 a b = true) (h₂ : sym1 c d = true) :
    build2p (countsOf S) nactu mult sym1 (elementsOf S Z T) (a * nactuB (countsOf S) nactu mult + b) (c * nactuB (countsOf S) nactu mult + d)
      = energyElement S Z T ((cre (S.virA a) * cre (S.virB b)) S.ref) (cre (S.virA c) * cre (S.virB d)) := by
  have ba : ∀ {a}, a < nactuA (countsOf S) nactu → a < S.ua := fun h => lt_of_lt_of_le h (min_le_right _ _)
  have bb : ∀ {b}, b < nactuB (countsOf S) nactu mult → b < S.ub := fun h => lt_of_lt_of_le h (min_le_right _ _)
  rw [element_dea h hZ hT (ba ha) (bb hb) (ba hc) (bb hd)]
  refine (buildPairs_apply (lo := 0) (lo' := 0) (Nat.zero_le a) (by omega) (Nat.zero_le b) (by omega) (Nat.zero_le c) (by omega)
    (Nat.zero_le d) (by omega) h₁ h₂).trans ?_
  unfold eqn
  simp only [mul_ite, mul_one, mul_zero]
  rw [add_comm (ite (a = c) _ _)]

/-- The active orbitals are the highest occupied ones; pairs are numbered row by row. -/
theorem C87_2h {k l nacto mult : ℕ} (hi : S.na - nactoA (countsOf S) nacto mult ≤ i) (hi' : i < S.na) (hj : S.nb - nactoB (countsOf S) nacto ≤ j)
    (hj' : j < S.nb) (hk : S.na - nactoA (countsOf S) nacto mult ≤ k) (hk' : k < S.na) (hl : S.nb - nactoB (countsOf S) nacto ≤ l) (hl' : l < S.nb)
    (h₁ : sym1 i j = true) (h₂ : sym1 k l = true) :
    build2h (countsOf S) nacto mult sym1 (elementsOf S Z T)
      ((i - (S.na - nactoA (countsOf S) nacto mult)) * nactoB (countsOf S) nacto + (j - (S.nb - nactoB (countsOf S) nacto)))
      ((k - (S.na - nactoA (countsOf S) nacto mult)) * nactoB (countsOf S) nacto + (l - (S.nb - nactoB (countsOf S) nacto)))
      = energyElement S Z T ((ann (S.occB j) * ann (S.occA i)) S.ref) (ann (S.occB l) * ann (S.occA k)) := by
  have na : nactoA (countsOf S) nacto mult ≤ S.na := min_le_right _ _
  have nb : nactoB (countsOf S) nacto ≤ S.nb := min_le_right _ _
  rw [element_dip h hZ hT hi' hj' hk' hl']
  refine (buildPairs_apply (lo := S.na - nactoA (countsOf S) nacto mult) (lo' := S.nb - nactoB (countsOf S) nacto) hi (by omega) hj (by omega) hk
    (by omega) hl (by omega) h₁ h₂).trans ?_
  unfold eqn
  simp only [mul_ite, mul_one, mul_zero]
  split_ifs <;> ring

end

/-! ### Determinants of another symmetry -/

/-- Rows and columns of excluded excitations with spin up. -/
theorem C87_cis_other_a {H : Blocks} (ha : a < S.ua) (hi : i < S.na) (h₁ : sym1 (a + S.na) i = false) (q : ℕ) :
    buildCis (countsOf S) sym1 H (a * S.na + i) q = 0 ∧ buildCis (countsOf S) sym1 H q (a * S.na + i) = 0 := by
  have e : ∀ a' i', a' < S.ua → i' < S.na → idxA (countsOf S) sym1 a' i' ≠ 0 → a * S.na + i ≠ idxA (countsOf S) sym1 a' i' - 1 := by
    intro a' i' ha' hi' h₀ c
    have h₂ : sym1 (a' + S.na) i' = true := by
      by_contra h₂
      exact h₀ (if_neg h₂)
    have e' : idxA (countsOf S) sym1 a' i' = a' * S.na + i' + 1 := if_pos h₂
    rw [e', Nat.add_sub_cancel] at c
    obtain ⟨rfl, rfl⟩ := pair_inj hi hi' c
    exact Bool.false_ne_true (h₁.symm.trans h₂)
  unfold buildCis assemble
  constructor
  · simp only [if_pos (show a * S.na + i < (countsOf S).noa * (countsOf S).nua from pair_bound ha hi)]
    split_ifs
    · exact like_row _ e
    · exact unlike_row _ e
  · simp only [if_pos (show a * S.na + i < (countsOf S).noa * (countsOf S).nua from pair_bound ha hi)]
    split_ifs
    · exact like_column _ e
    · exact unlike_column _ e

/-- Rows and columns of excluded excitations with spin down. -/
theorem C87_cis_other_b {H : Blocks} (ha : a < S.ub) (hi : i < S.nb) (h₁ : sym1 (a + S.nb) i = false) (q : ℕ) :
    buildCis (countsOf S) sym1 H (S.na * S.ua + (a * S.nb + i)) q = 0 ∧ buildCis (countsOf S) sym1 H q (S.na * S.ua + (a * S.nb + i)) = 0 := by
  have e : ∀ a' i', a' < S.ub → i' < S.nb → idxB (countsOf S) sym1 a' i' ≠ 0 →
      S.na * S.ua + (a * S.nb + i) - (countsOf S).noa * (countsOf S).nua ≠ idxB (countsOf S) sym1 a' i' - 1 := by
    intro a' i' ha' hi' h₀ c
    have c : a * S.nb + i = _ := (Nat.add_sub_cancel_left (S.na * S.ua) _).symm.trans c
    have h₂ : sym1 (a' + S.nb) i' = true := by
      by_contra h₂
      exact h₀ (if_neg h₂)
    have e' : idxB (countsOf S) sym1 a' i' = a' * S.nb + i' + 1 := if_pos h₂
    rw [e', Nat.add_sub_cancel] at c
    obtain ⟨rfl, rfl⟩ := pair_inj hi hi' c
    exact Bool.false_ne_true (h₁.symm.trans h₂)
  have n : ¬ S.na * S.ua + (a * S.nb + i) < (countsOf S).noa * (countsOf S).nua := Nat.not_lt.2 (Nat.le_add_right _ _)
  unfold buildCis assemble
  constructor
  · simp only [if_neg n]
    split_ifs
    · exact unlike_row _ e
    · exact like_row _ e
  · simp only [if_neg n]
    split_ifs
    · exact unlike_column _ e
    · exact like_column _ e

theorem C87_2p_other {H : Blocks} {c d nactu mult : ℕ} (hb : b < nactuB (countsOf S) nactu mult) (hd : d < nactuB (countsOf S) nactu mult)
    (h₁ : ¬ (sym1 a b = true ∧ sym1 c d = true)) :
    build2p (countsOf S) nactu mult sym1 H (a * nactuB (countsOf S) nactu mult + b) (c * nactuB (countsOf S) nactu mult + d) = 0 :=
  buildPairs_other (lo := 0) (lo' := 0) (Nat.zero_le a) (Nat.zero_le b) (by omega) (Nat.zero_le c) (Nat.zero_le d) (by omega) h₁

theorem C87_2h_other {H : Blocks} {k l nacto mult : ℕ} (hi : S.na - nactoA (countsOf S) nacto mult ≤ i) (hj : S.nb - nactoB (countsOf S) nacto ≤ j)
    (hj' : j < S.nb) (hk : S.na - nactoA (countsOf S) nacto mult ≤ k) (hl : S.nb - nactoB (countsOf S) nacto ≤ l) (hl' : l < S.nb)
    (h₁ : ¬ (sym1 i j = true ∧ sym1 k l = true)) :
    build2h (countsOf S) nacto mult sym1 H
      ((i - (S.na - nactoA (countsOf S) nacto mult)) * nactoB (countsOf S) nacto + (j - (S.nb - nactoB (countsOf S) nacto)))
      ((k - (S.na - nactoA (countsOf S) nacto mult)) * nactoB (countsOf S) nacto + (l - (S.nb - nactoB (countsOf S) nacto))) = 0 := by
  have nb : nactoB (countsOf S) nacto ≤ S.nb := min_le_right _ _
  exact buildPairs_other (lo := S.na - nactoA (countsOf S) nacto mult) (lo' := S.nb - nactoB (countsOf S) nacto) hi hj (by omega) hk hl (by omega) h₁

end

/-! ### Spreading of the eigenvectors -/

/-- For singlet references the coefficient of an active pair of particles goes to the place of the pair among all pairs, and the other
places are zero.  Missing: references of higher multiplicity, for which this is false (`C87_scatter2p_fails`). -/
theorem C87_scatter2p_partial (s : Counts) (nactu : ℕ) (V : ℕ → ℚ) {a b : ℕ} (ha : a < s.nua) (hb : b < s.nub) :
    scatter2p s nactu V (a * s.nub + b)
      = if a < nactuA s nactu ∧ b < nactuB s nactu 1 then V (a * nactuB s nactu 1 + b) else 0 := by
  have := (scatter_loop (lo := 0) (hi := nactu) (lo' := 0) (hi' := nactuB s nactu 1) (n' := s.nub)
    (active := fun a b => decide (a < nactu) && decide (b < nactuB s nactu 1)) (V := V) (fun a b => by simp) (min_le_right _ _) s.nua).2.2 a b hb
  have e : scatter2p s nactu V (a * s.nub + b)
      = (scatterLoop s.nua s.nub (fun a b => decide (a < nactu) && decide (b < nactuB s nactu 1)) V).2.2 (a * s.nub + b) := by
    unfold scatter2p
    refine congrFun (congrArg (fun x : ℕ × ℕ × (ℕ → ℚ) => x.2.2) ?_) _
    exact scatterLoop_congr fun a b _ hb => by
      congr 1
      unfold nactuB
      simp only [decide_eq_decide, lt_min_iff]
      omega
  rw [e, this]
  have c : (a < s.nua ∧ (0 ≤ a ∧ a < nactu) ∧ 0 ≤ b ∧ b < nactuB s nactu 1) ↔ (a < nactuA s nactu ∧ b < nactuB s nactu 1) := by
    unfold nactuA
    rw [lt_min_iff]
    omega
  simp only [c, Nat.sub_zero]

/-- For singlet references the coefficient of an active pair of holes goes to the place of the pair among all pairs, and the other
places are zero.  Missing: references of higher multiplicity, for which this is false (`C87_scatter2h_fails`). -/
theorem C87_scatter2h_partial (s : Counts) (nacto : ℕ) (V : ℕ → ℚ) {i j : ℕ} (hi : i < s.noa) (hj : j < s.nob) :
    scatter2h s nacto V (i * s.nob + j)
      = if s.noa - nactoA s nacto 1 ≤ i ∧ s.nob - nactoB s nacto ≤ j
        then V ((i - (s.noa - nactoA s nacto 1)) * nactoB s nacto + (j - (s.nob - nactoB s nacto))) else 0 := by
  have ea : s.noa - nacto = s.noa - nactoA s nacto 1 := by unfold nactoA; omega
  have eb : s.nob - nacto = s.nob - nactoB s nacto := by unfold nactoB; omega
  have ew : s.nob - (s.nob - nacto) = nactoB s nacto := by unfold nactoB; omega
  have := (scatter_loop (lo := s.noa - nacto) (hi := s.noa) (lo' := s.nob - nacto) (hi' := s.nob) (n' := s.nob)
    (active := fun i j => (decide (s.noa - nacto ≤ i) && decide (i < s.noa)) && (decide (s.nob - nacto ≤ j) && decide (j < s.nob))) (V := V)
    (fun a b => by simp) le_rfl s.noa).2.2 i j hj
  have e : scatter2h s nacto V (i * s.nob + j) = (scatterLoop s.noa s.nob (fun i j => (decide (s.noa - nacto ≤ i) && decide (i < s.noa))
      && (decide (s.nob - nacto ≤ j) && decide (j < s.nob))) V).2.2 (i * s.nob + j) := by
    unfold scatter2h
    refine congrFun (congrArg (fun x : ℕ × ℕ × (ℕ → ℚ) => x.2.2) ?_) _
    exact scatterLoop_congr fun a b ha hb => by simp [ha, hb]
  rw [e, this, ew, ea, eb]
  simp only [hi, hj, true_and, and_true]

/-- The coefficients of the two-particle guess of an open-shell reference do not reach their determinants: the numbering of the active
pairs uses `nactu + multiplicity - 1` orbitals of the second spin (deacis.py:88), but `scatter` (deacis.py:72) takes `nactu`, so that for
a triplet with one active orbital the coefficients of the pairs `(0, 1)` and `(0, 2)` are dropped. -/
theorem C87_scatter2p_fails : ∃ (s : Counts) (nactu mult : ℕ) (V : ℕ → ℚ) (a b : ℕ), s.noa = s.nob + (mult - 1) ∧ s.noa + s.nua = s.nob + s.nub
    ∧ a < nactuA s nactu ∧ b < nactuB s nactu mult
    ∧ scatter2p s nactu V (a * s.nub + b) ≠ V (a * nactuB s nactu mult + b) :=
  ⟨⟨2, 0, 1, 3⟩, 1, 3, fun k => k, 0, 1, by decide, by decide, by decide, by decide, by decide +kernel⟩

/-- The coefficients of the two-hole guess of an open-shell reference do not reach their determinants: the numbering of the active pairs
uses `nacto + multiplicity - 1` orbitals of the first spin (dipcis.py:85), but `scatter` (dipcis.py:72) takes `nacto`, so that for a triplet
with one active orbital the last pair gets the coefficient of the first. -/
theorem C87_scatter2h_fails : ∃ (s : Counts) (nacto mult : ℕ) (V : ℕ → ℚ) (i j : ℕ), s.noa = s.nob + (mult - 1) ∧ s.noa + s.nua = s.nob + s.nub
    ∧ s.noa - nactoA s nacto mult ≤ i ∧ i < s.noa ∧ s.nob - nactoB s nacto ≤ j ∧ j < s.nob
    ∧ scatter2h s nacto V (i * s.nob + j)
      ≠ V ((i - (s.noa - nactoA s nacto mult)) * nactoB s nacto + (j - (s.nob - nactoB s nacto))) :=
  ⟨⟨3, 1, 1, 3⟩, 1, 3, fun k => k, 2, 0, by decide, by decide, by decide, by decide, by decide, by decide, by decide +kernel⟩

/-! ### Concrete cases -/

open EomCcsd in
/-- The diagonal element of the single excitation with spin up, from the matrix. -/
example : energyElement smallOrbitals smallIntegrals smallCluster (smallOrbitals.singleA 0 0)
    (cre (smallOrbitals.virA 0) * ann (smallOrbitals.occA 0)) = -117 := by
  rw [← C87_cis_aa (sym1 := fun _ _ => true) smallOrbitals_proper smallIntegrals_antisym smallCluster_antisym (by decide) (by decide) (by decide) (by decide)
    rfl rfl]
  decide +kernel

/-- Two of three orbitals are active. -/
example : scatter2p ⟨1, 1, 3, 3⟩ 2 (fun k => k + 1) (1 * 3 + 0) = 3 := by
  rw [C87_scatter2p_partial _ _ _ (by decide) (by decide)]
  decide +kernel

end Ccpy.GuessMatrix
