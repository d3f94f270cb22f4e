import Verif.Lemmas.CrCcGap
import Verif.Lemmas.CrCcMomentValues
import Verif.Spec.CrCc

/-! A single excitation as the operator `T₃`, and the transformed Hamiltonian with it. -/

set_option linter.unusedSimpArgs false

namespace Ccpy.CrCc
open Ccpy.Fock Ccpy.Tensor Ccpy.Engine Ccpy.HbarCcsd Ccpy.Ccsdt Ccpy.PSpace Ccpy.Rdm Ccpy.Ccsd
open Finset (range)

variable {ι : Type*} [LinearOrder ι]

section
variable (a b c i j k : ι)

theorem three_v1 : three b a c i j k = -three a b c i j k := LinearMap.ext fun v => by
  rw [LinearMap.neg_apply, three_apply, three_apply, cre_cre_apply]
theorem three_v2 : three a c b i j k = -three a b c i j k := LinearMap.ext fun v => by
  rw [LinearMap.neg_apply, three_apply, three_apply, cre_cre_apply c b, map_neg]
theorem three_o1 : three a b c j i k = -three a b c i j k := LinearMap.ext fun v => by
  rw [LinearMap.neg_apply, three_apply, three_apply, ann_ann_apply i j, map_neg, map_neg, map_neg, map_neg]
theorem three_o2 : three a b c i k j = -three a b c i j k := LinearMap.ext fun v => by
  rw [LinearMap.neg_apply, three_apply, three_apply, ann_ann_apply j k, map_neg, map_neg, map_neg]

end

section
variable {S : Orbitals ι} {A B C L M N : ℕ} (u : ℚ)

theorem triples_aaa (hA : A < S.ua) (hB : B < S.ua) (hC : C < S.ua) (hL : L < S.na) (hM : M < S.na) (hN : N < S.na) :
    triplesOperator S (unitAAA A B C L M N u) = u • S.exciteAAA A B C L M N := by
  have e : ∀ a b c, ∑ i ∈ range S.na, ∑ j ∈ range S.na, ∑ k ∈ range S.na, (alternating3 a b c A B C * alternating3 i j k L M N * u)
      • (cre (S.virA a) * cre (S.virA b) * cre (S.virA c) * ann (S.occA k) * ann (S.occA j) * ann (S.occA i))
      = alternating3 a b c A B C • ((6 * u : ℚ) • three (S.virA a) (S.virA b) (S.virA c) (S.occA L) (S.occA M) (S.occA N)) := fun a b c => by
    rw [mul_smul, ← sum_alt3 hL hM hN (G := fun i j k => u • three (S.virA a) (S.virA b) (S.virA c) (S.occA i) (S.occA j) (S.occA k))
      (fun i j k => by rw [three_o1, smul_neg]) (fun i j k => by rw [three_o2, smul_neg])]
    simp only [Finset.smul_sum, smul_smul, mul_assoc]
    rfl
  unfold triplesOperator
  simp only [unitAAA, Triples.zero, zero_smul, Finset.sum_const_zero, smul_zero, add_zero, e]
  rw [sum_alt3 hA hB hC (G := fun a b c => (6 * u : ℚ) • three (S.virA a) (S.virA b) (S.virA c) (S.occA L) (S.occA M) (S.occA N))
    (fun a b c => by rw [three_v1, smul_neg]) (fun a b c => by rw [three_v2, smul_neg]), smul_smul, smul_smul]
  rw [show (1 / 36 : ℚ) * 6 * (6 * u) = u by ring]
  rfl

theorem triples_bbb (hA : A < S.ub) (hB : B < S.ub) (hC : C < S.ub) (hL : L < S.nb) (hM : M < S.nb) (hN : N < S.nb) :
    triplesOperator S (unitBBB A B C L M N u) = u • S.exciteBBB A B C L M N := by
  have e : ∀ a b c, ∑ i ∈ range S.nb, ∑ j ∈ range S.nb, ∑ k ∈ range S.nb, (alternating3 a b c A B C * alternating3 i j k L M N * u)
      • (cre (S.virB a) * cre (S.virB b) * cre (S.virB c) * ann (S.occB k) * ann (S.occB j) * ann (S.occB i))
      = alternating3 a b c A B C • ((6 * u : ℚ) • three (S.virB a) (S.virB b) (S.virB c) (S.occB L) (S.occB M) (S.occB N)) := fun a b c => by
    rw [mul_smul, ← sum_alt3 hL hM hN (G := fun i j k => u • three (S.virB a) (S.virB b) (S.virB c) (S.occB i) (S.occB j) (S.occB k))
      (fun i j k => by rw [three_o1, smul_neg]) (fun i j k => by rw [three_o2, smul_neg])]
    simp only [Finset.smul_sum, smul_smul, mul_assoc]
    rfl
  unfold triplesOperator
  simp only [unitBBB, Triples.zero, zero_smul, Finset.sum_const_zero, smul_zero, add_zero, zero_add, e]
  rw [sum_alt3 hA hB hC (G := fun a b c => (6 * u : ℚ) • three (S.virB a) (S.virB b) (S.virB c) (S.occB L) (S.occB M) (S.occB N))
    (fun a b c => by rw [three_v1, smul_neg]) (fun a b c => by rw [three_v2, smul_neg]), smul_smul, smul_smul]
  rw [show (1 / 36 : ℚ) * 6 * (6 * u) = u by ring]
  rfl

theorem triples_aab (hA : A < S.ua) (hB : B < S.ua) (hC : C < S.ub) (hL : L < S.na) (hM : M < S.na) (hN : N < S.nb) :
    triplesOperator S (unitAAB A B C L M N u) = u • S.exciteAAB A B C L M N := by
  have e : ∀ a b c, ∑ i ∈ range S.na, ∑ j ∈ range S.na, ∑ k ∈ range S.nb,
      (alternating2 a b A B * same1 c C * (alternating2 i j L M * same1 k N) * u)
        • (cre (S.virA a) * cre (S.virA b) * cre (S.virB c) * ann (S.occB k) * ann (S.occA j) * ann (S.occA i))
      = (same1 c C * alternating2 a b A B) • ((2 * u : ℚ) • three (S.virA a) (S.virA b) (S.virB c) (S.occA L) (S.occA M) (S.occB N)) := fun a b c => by
    rw [mul_smul 2 u, ← sum_alt2 hL hM (G := fun i j => u • three (S.virA a) (S.virA b) (S.virB c) (S.occA i) (S.occA j) (S.occB N))
      (fun i j => by rw [three_o1, smul_neg]), Finset.smul_sum]
    refine Finset.sum_congr rfl fun i _ => ?_
    rw [Finset.smul_sum]
    refine Finset.sum_congr rfl fun j _ => ?_
    rw [smul_smul, smul_smul, ← smul_same hN fun k => three (S.virA a) (S.virA b) (S.virB c) (S.occA i) (S.occA j) (S.occB k)]
    refine Finset.sum_congr rfl fun k _ => ?_
    congr 1; ring
  have e' : ∀ a b, ∑ c ∈ range S.ub, (same1 c C * alternating2 a b A B)
      • ((2 * u : ℚ) • three (S.virA a) (S.virA b) (S.virB c) (S.occA L) (S.occA M) (S.occB N))
      = alternating2 a b A B • ((2 * u : ℚ) • three (S.virA a) (S.virA b) (S.virB C) (S.occA L) (S.occA M) (S.occB N)) := fun a b =>
    smul_same hC (fun c => (2 * u : ℚ) • three (S.virA a) (S.virA b) (S.virB c) (S.occA L) (S.occA M) (S.occB N)) _
  unfold triplesOperator
  simp only [unitAAB, Triples.zero, zero_smul, Finset.sum_const_zero, smul_zero, add_zero, zero_add, e, e']
  rw [sum_alt2 hA hB (G := fun a b => (2 * u : ℚ) • three (S.virA a) (S.virA b) (S.virB C) (S.occA L) (S.occA M) (S.occB N))
    (fun a b => by rw [three_v1, smul_neg]), smul_smul, smul_smul]
  rw [show (1 / 4 : ℚ) * 2 * (2 * u) = u by ring]
  rfl

theorem triples_abb (hA : A < S.ua) (hB : B < S.ub) (hC : C < S.ub) (hL : L < S.na) (hM : M < S.nb) (hN : N < S.nb) :
    triplesOperator S (unitABB A B C L M N u) = u • S.exciteABB A B C L M N := by
  have e : ∀ a b c, ∑ i ∈ range S.na, ∑ j ∈ range S.nb, ∑ k ∈ range S.nb,
      (same1 a A * alternating2 b c B C * (same1 i L * alternating2 j k M N) * u)
        • (cre (S.virA a) * cre (S.virB b) * cre (S.virB c) * ann (S.occB k) * ann (S.occB j) * ann (S.occA i))
      = (same1 a A * alternating2 b c B C) • ((2 * u : ℚ) • three (S.virA a) (S.virB b) (S.virB c) (S.occA L) (S.occB M) (S.occB N)) := fun a b c => by
    have e₁ : ∀ i, ∑ j ∈ range S.nb, ∑ k ∈ range S.nb,
        (same1 a A * alternating2 b c B C * (same1 i L * alternating2 j k M N) * u)
          • (cre (S.virA a) * cre (S.virB b) * cre (S.virB c) * ann (S.occB k) * ann (S.occB j) * ann (S.occA i))
        = (same1 i L * (same1 a A * alternating2 b c B C * (2 * u))) • three (S.virA a) (S.virB b) (S.virB c) (S.occA i) (S.occB M) (S.occB N) := fun i => by
      rw [show same1 i L * (same1 a A * alternating2 b c B C * (2 * u)) = same1 i L * (same1 a A * alternating2 b c B C * u) * 2 by ring, mul_smul,
        ← sum_alt2 hM hN (G := fun j k => three (S.virA a) (S.virB b) (S.virB c) (S.occA i) (S.occB j) (S.occB k)) (fun j k => by rw [three_o2]),
        Finset.smul_sum]
      refine Finset.sum_congr rfl fun j _ => ?_
      rw [Finset.smul_sum]
      refine Finset.sum_congr rfl fun k _ => ?_
      rw [smul_smul]
      refine congrArg₂ (· • ·) ?_ rfl
      ring
    simp only [e₁]
    rw [smul_same hL fun i => three (S.virA a) (S.virB b) (S.virB c) (S.occA i) (S.occB M) (S.occB N), smul_smul]
  have e' : ∀ a, ∑ b ∈ range S.ub, ∑ c ∈ range S.ub, (same1 a A * alternating2 b c B C)
      • ((2 * u : ℚ) • three (S.virA a) (S.virB b) (S.virB c) (S.occA L) (S.occB M) (S.occB N))
      = (same1 a A * (2 * (2 * u))) • three (S.virA a) (S.virB B) (S.virB C) (S.occA L) (S.occB M) (S.occB N) := fun a => by
    rw [show same1 a A * (2 * (2 * u)) = same1 a A * (2 * u) * 2 by ring, mul_smul,
      ← sum_alt2 hB hC (G := fun b c => three (S.virA a) (S.virB b) (S.virB c) (S.occA L) (S.occB M) (S.occB N)) (fun b c => by rw [three_v2]),
      Finset.smul_sum]
    refine Finset.sum_congr rfl fun b _ => ?_
    rw [Finset.smul_sum]
    refine Finset.sum_congr rfl fun c _ => ?_
    rw [smul_smul, smul_smul]
    refine congrArg₂ (· • ·) ?_ rfl
    ring
  unfold triplesOperator
  simp only [unitABB, Triples.zero, zero_smul, Finset.sum_const_zero, smul_zero, add_zero, zero_add, e, e']
  rw [smul_same hA fun a => three (S.virA a) (S.virB B) (S.virB C) (S.occA L) (S.occB M) (S.occB N), smul_smul]
  rw [show (1 / 4 : ℚ) * (2 * (2 * u)) = u by ring]
  rfl

end

section
variable (A B C L M N : ℕ) (u : ℚ)

theorem unitAAA_antisym : (unitAAA A B C L M N u).Antisym where
  aaa a b c i j k := by
    simp only [unitAAA]
    rw [alternating3_swap a b c, alternating3_swap' a b c, alternating3_swap i j k, alternating3_swap' i j k]
    exact ⟨by ring, by ring, by ring, by ring⟩
  aab _ _ _ _ _ _ := by simp [unitAAA, Triples.zero]
  abb _ _ _ _ _ _ := by simp [unitAAA, Triples.zero]
  bbb _ _ _ _ _ _ := by simp [unitAAA, Triples.zero]

theorem unitBBB_antisym : (unitBBB A B C L M N u).Antisym where
  bbb a b c i j k := by
    simp only [unitBBB]
    rw [alternating3_swap a b c, alternating3_swap' a b c, alternating3_swap i j k, alternating3_swap' i j k]
    exact ⟨by ring, by ring, by ring, by ring⟩
  aab _ _ _ _ _ _ := by simp [unitBBB, Triples.zero]
  abb _ _ _ _ _ _ := by simp [unitBBB, Triples.zero]
  aaa _ _ _ _ _ _ := by simp [unitBBB, Triples.zero]

theorem unitAAB_antisym : (unitAAB A B C L M N u).Antisym where
  aab a b c i j k := by
    simp only [unitAAB]
    rw [alternating2_swap a b, alternating2_swap i j]
    exact ⟨by ring, by ring⟩
  aaa _ _ _ _ _ _ := by simp [unitAAB, Triples.zero]
  abb _ _ _ _ _ _ := by simp [unitAAB, Triples.zero]
  bbb _ _ _ _ _ _ := by simp [unitAAB, Triples.zero]

theorem unitABB_antisym : (unitABB A B C L M N u).Antisym where
  abb a b c i j k := by
    simp only [unitABB]
    rw [alternating2_swap b c, alternating2_swap j k]
    exact ⟨by ring, by ring⟩
  aaa _ _ _ _ _ _ := by simp [unitABB, Triples.zero]
  aab _ _ _ _ _ _ := by simp [unitABB, Triples.zero]
  bbb _ _ _ _ _ _ := by simp [unitABB, Triples.zero]

end

section
variable {S : Orbitals ι} (h : S.Proper)
include h

theorem cluster3_mem (T : Cluster) (T₃ : Triples) : clusterOperator3 S T T₃ ∈ excitations (dimS S) (opX S) := by
  have := (evalS_excitation (I := Tensor.elements S.na S.nb (stF S ⟨fun _ _ => 0, fun _ _ => 0, fun _ _ _ _ => 0, fun _ _ _ _ => 0,
    fun _ _ _ _ => 0⟩) ⟨fun _ _ _ _ => 0, fun _ _ _ _ => 0, fun _ _ _ _ => 0⟩ (store3 [T] [T₃])) (fock_car h)
    (fun p hp => (okT_spec okT_listE p hp).1) (fun _ => 0)).1
  rwa [evalS_listE S T T₃ (store3_holds_low [T] [T₃] 0 (by decide)) (store3_holds [T] [T₃] 0)] at this

theorem transformed3_split (Z : Fock.Integrals) (T : Cluster) {T₃ : Triples} {τ : Operator ι} (e : triplesOperator S T₃ = τ) :
    transformed3 S Z T T₃ = IsNilpotent.exp (-τ) * transformed S Z T * IsNilpotent.exp τ := by
  have z : clusterOperator3 S T Triples.zero = clusterOperator S T := by
    simp [clusterOperator3, triplesOperator, Triples.zero]
  have mC : clusterOperator S T ∈ excitations (dimS S) (opX S) := z ▸ cluster3_mem h T Triples.zero
  have m3 := cluster3_mem h T T₃
  have n3 := cluster3_nilpotent h T T₃
  have nC := cluster_nilpotent h T
  have eτ : clusterOperator3 S T T₃ = clusterOperator S T + τ := by rw [clusterOperator3, e]
  have co : Commute (clusterOperator S T) τ := by
    have := (commute_excitations mC m3).sub_right (Commute.refl _)
    rwa [eτ, add_sub_cancel_left] at this
  have nτ : IsNilpotent τ := by
    have := (commute_excitations m3 mC).isNilpotent_sub n3 nC
    rwa [eτ, add_sub_cancel_left] at this
  unfold transformed3 transformed
  rw [eτ, IsNilpotent.exp_add_of_commute co nC nτ, neg_add_rev, IsNilpotent.exp_add_of_commute (co.neg_left.neg_right.symm) nτ.neg nC.neg]
  simp only [mul_assoc]

end

section
variable {S : Orbitals ι} (h : S.Proper) {Z : Fock.Integrals} (hZ : Z.Antisym) {T : Cluster} (hT : T.Antisym) (shift : ℚ)
  {a b c i j k : ℕ}

include h in
theorem gap_of {τ : Operator ι} {U : ℚ → Triples} {d f : ℚ} (hU : ∀ u, triplesOperator S (U u) = u • τ)
    (hτ : τ * τ = 0) (hin : ∀ w, inner (τ S.ref) (τ w) = inner S.ref w)
    (hd : ∀ u, S.element (τ S.ref) (transformed3 S Z T (U u)) = f - u * d) : gap S Z T τ = d := by
  have e₁ := hd 1
  have e₂ := hd (-1)
  rw [transformed3_split h Z T (hU 1), one_smul] at e₁
  rw [transformed3_split h Z T ((hU (-1)).trans (show (-1 : ℚ) • τ = -τ by module)), neg_neg] at e₂
  have e := element_exp hτ hin (transformed S Z T)
  rw [e₁, e₂] at e
  unfold gap
  linear_combination (1 / 2) * e

include h hZ hT in
theorem gap_a (ha : a < S.ua) (hb : b < S.ua) (hc : c < S.ua) (hab : a < b) (hbc : b < c) (hi : i < S.na) (hj : j < S.na) (hk : k < S.na) (hij : i < j) (hjk : j < k) :
    gap S Z T (S.exciteAAA a b c i j k)
      = diffA (dressed (setup S Z shift) (store3 [T] [Triples.zero]) amplitudes3.toAmps hbar2) (dimsOf (setup S Z shift)) a b c i j k := by
  have key : ∀ u, dressed (setup S Z shift) (store3 [T] [unitAAA a b c i j k u]) amplitudes3.toAmps hbar2
      = dressed (setup S Z shift) (store3 [T] [Triples.zero]) amplitudes3.toAmps hbar2 := fun u =>
    (dressed_hbar (S := S) hZ hT (unitAAA_antisym a b c i j k u) T shift).symm.trans (dressed_hbar (S := S) hZ hT zero_antisym T shift)
  refine gap_of h (fun u => triples_aaa u ha hb hc hi hj hk)
    (three_sq (fun e => by have := h.up_inj e; omega) (fun e => by have := h.up_inj e; omega) (fun e => by have := h.up_inj e; omega))
    (three_inner (fun e => by have := h.up_inj e; omega) (fun e => by have := h.up_inj e; omega) (fun e => by have := h.up_inj e; omega) (fun e => by have := h.up_inj e; omega) (fun e => by have := h.up_inj e; omega) (fun e => by have := h.up_inj e; omega)
      (ann_ref (x := (1, a)) h (Or.inl rfl)) (ann_ref (x := (1, b)) h (Or.inl rfl)) (ann_ref (x := (1, c)) h (Or.inl rfl))
      (cre_ref (x := (0, i)) ⟨(by decide : 0 < 4), hi⟩ (Or.inl rfl)) (cre_ref (x := (0, j)) ⟨(by decide : 0 < 4), hj⟩ (Or.inl rfl)) (cre_ref (x := (0, k)) ⟨(by decide : 0 < 4), hk⟩ (Or.inl rfl)))
    (fun u => ?_)
    (f := resA (dressed (setup S Z shift) (store3 [T] [Triples.zero]) amplitudes3.toAmps hbar2) (dimsOf (setup S Z shift)) Triples.zero a b c i j k)
  rw [← element_a h hZ hT shift (unitAAA_antisym a b c i j k u) ha hb hc hi hj hk, key]
  exact diagonal_a (dressed_anti (S := S) hZ hT zero_antisym shift) (dimsOf (setup S Z shift)) ha hb hc hab hbc hi hj hk hij hjk u

include h hZ hT in
theorem gap_b (ha : a < S.ua) (hb : b < S.ua) (hc : c < S.ub) (hab : a < b) (hi : i < S.na) (hj : j < S.na) (hk : k < S.nb) (hij : i < j) :
    gap S Z T (S.exciteAAB a b c i j k)
      = diffB (dressed (setup S Z shift) (store3 [T] [Triples.zero]) amplitudes3.toAmps hbar2) (dimsOf (setup S Z shift)) a b c i j k := by
  have key : ∀ u, dressed (setup S Z shift) (store3 [T] [unitAAB a b c i j k u]) amplitudes3.toAmps hbar2
      = dressed (setup S Z shift) (store3 [T] [Triples.zero]) amplitudes3.toAmps hbar2 := fun u =>
    (dressed_hbar (S := S) hZ hT (unitAAB_antisym a b c i j k u) T shift).symm.trans (dressed_hbar (S := S) hZ hT zero_antisym T shift)
  refine gap_of h (fun u => triples_aab u ha hb hc hi hj hk)
    (three_sq (fun e => by have := h.up_inj e; omega) (fun e => by have := h.up_inj e; omega) (h.ne _ _))
    (three_inner (fun e => by have := h.up_inj e; omega) (h.ne _ _) (h.ne _ _) (fun e => by have := h.up_inj e; omega) (h.ne _ _) (h.ne _ _)
      (ann_ref (x := (1, a)) h (Or.inl rfl)) (ann_ref (x := (1, b)) h (Or.inl rfl)) (ann_ref (x := (3, c)) h (Or.inr rfl))
      (cre_ref (x := (0, i)) ⟨(by decide : 0 < 4), hi⟩ (Or.inl rfl)) (cre_ref (x := (0, j)) ⟨(by decide : 0 < 4), hj⟩ (Or.inl rfl)) (cre_ref (x := (2, k)) ⟨(by decide : 2 < 4), hk⟩ (Or.inr rfl)))
    (fun u => ?_)
    (f := resB (dressed (setup S Z shift) (store3 [T] [Triples.zero]) amplitudes3.toAmps hbar2) (dimsOf (setup S Z shift)) Triples.zero a b c i j k)
  rw [← element_b h hZ hT shift (unitAAB_antisym a b c i j k u) ha hb hc hi hj hk, key]
  exact diagonal_b (dressed_anti (S := S) hZ hT zero_antisym shift) (dimsOf (setup S Z shift)) ha hb hc hab hi hj hk hij u

include h hZ hT in
theorem gap_c (ha : a < S.ua) (hb : b < S.ub) (hc : c < S.ub) (hbc : b < c) (hi : i < S.na) (hj : j < S.nb) (hk : k < S.nb) (hjk : j < k) :
    gap S Z T (S.exciteABB a b c i j k)
      = diffC (dressed (setup S Z shift) (store3 [T] [Triples.zero]) amplitudes3.toAmps hbar2) (dimsOf (setup S Z shift)) a b c i j k := by
  have key : ∀ u, dressed (setup S Z shift) (store3 [T] [unitABB a b c i j k u]) amplitudes3.toAmps hbar2
      = dressed (setup S Z shift) (store3 [T] [Triples.zero]) amplitudes3.toAmps hbar2 := fun u =>
    (dressed_hbar (S := S) hZ hT (unitABB_antisym a b c i j k u) T shift).symm.trans (dressed_hbar (S := S) hZ hT zero_antisym T shift)
  refine gap_of h (fun u => triples_abb u ha hb hc hi hj hk)
    (three_sq (fun e => by have := h.up_inj e; omega) (h.ne _ _) (h.ne _ _))
    (three_inner (h.ne _ _) (h.ne _ _) (fun e => by have := h.down_inj e; omega) (h.ne _ _) (h.ne _ _) (fun e => by have := h.down_inj e; omega)
      (ann_ref (x := (1, a)) h (Or.inl rfl)) (ann_ref (x := (3, b)) h (Or.inr rfl)) (ann_ref (x := (3, c)) h (Or.inr rfl))
      (cre_ref (x := (0, i)) ⟨(by decide : 0 < 4), hi⟩ (Or.inl rfl)) (cre_ref (x := (2, j)) ⟨(by decide : 2 < 4), hj⟩ (Or.inr rfl)) (cre_ref (x := (2, k)) ⟨(by decide : 2 < 4), hk⟩ (Or.inr rfl)))
    (fun u => ?_)
    (f := resC (dressed (setup S Z shift) (store3 [T] [Triples.zero]) amplitudes3.toAmps hbar2) (dimsOf (setup S Z shift)) Triples.zero a b c i j k)
  rw [← element_c h hZ hT shift (unitABB_antisym a b c i j k u) ha hb hc hi hj hk, key]
  exact diagonal_c (dressed_anti (S := S) hZ hT zero_antisym shift) (dimsOf (setup S Z shift)) ha hb hc hbc hi hj hk hjk u

include h hZ hT in
theorem gap_d (ha : a < S.ub) (hb : b < S.ub) (hc : c < S.ub) (hab : a < b) (hbc : b < c) (hi : i < S.nb) (hj : j < S.nb) (hk : k < S.nb) (hij : i < j) (hjk : j < k) :
    gap S Z T (S.exciteBBB a b c i j k)
      = diffD (dressed (setup S Z shift) (store3 [T] [Triples.zero]) amplitudes3.toAmps hbar2) (dimsOf (setup S Z shift)) a b c i j k := by
  have key : ∀ u, dressed (setup S Z shift) (store3 [T] [unitBBB a b c i j k u]) amplitudes3.toAmps hbar2
      = dressed (setup S Z shift) (store3 [T] [Triples.zero]) amplitudes3.toAmps hbar2 := fun u =>
    (dressed_hbar (S := S) hZ hT (unitBBB_antisym a b c i j k u) T shift).symm.trans (dressed_hbar (S := S) hZ hT zero_antisym T shift)
  refine gap_of h (fun u => triples_bbb u ha hb hc hi hj hk)
    (three_sq (fun e => by have := h.down_inj e; omega) (fun e => by have := h.down_inj e; omega) (fun e => by have := h.down_inj e; omega))
    (three_inner (fun e => by have := h.down_inj e; omega) (fun e => by have := h.down_inj e; omega) (fun e => by have := h.down_inj e; omega) (fun e => by have := h.down_inj e; omega) (fun e => by have := h.down_inj e; omega) (fun e => by have := h.down_inj e; omega)
      (ann_ref (x := (3, a)) h (Or.inr rfl)) (ann_ref (x := (3, b)) h (Or.inr rfl)) (ann_ref (x := (3, c)) h (Or.inr rfl))
      (cre_ref (x := (2, i)) ⟨(by decide : 2 < 4), hi⟩ (Or.inr rfl)) (cre_ref (x := (2, j)) ⟨(by decide : 2 < 4), hj⟩ (Or.inr rfl)) (cre_ref (x := (2, k)) ⟨(by decide : 2 < 4), hk⟩ (Or.inr rfl)))
    (fun u => ?_)
    (f := resD (dressed (setup S Z shift) (store3 [T] [Triples.zero]) amplitudes3.toAmps hbar2) (dimsOf (setup S Z shift)) Triples.zero a b c i j k)
  rw [← element_d h hZ hT shift (unitBBB_antisym a b c i j k u) ha hb hc hi hj hk, key]
  exact diagonal_d (dressed_anti (S := S) hZ hT zero_antisym shift) (dimsOf (setup S Z shift)) ha hb hc hab hbc hi hj hk hij hjk u

end

end Ccpy.CrCc
