import Mathlib.Tactic.Module
import Verif.Lemmas.FlipBasic
import Verif.Spec.SingletPair

/-! Exchange of the names of the two spins for two added or removed electrons. -/

namespace Ccpy.Fock

variable {ι : Type*} [LinearOrder ι] {S : Orbitals ι}
open Finset (range)

theorem exchange_two (x y : ι) (A : Operator ι) : cre x * cre y * A = -(cre y * cre x * A) := by
  refine LinearMap.ext fun v => ?_
  simp only [Module.End.mul_apply, LinearMap.neg_apply]
  rw [cre_cre_apply]

theorem exchange_two' (x y : ι) (A : Operator ι) : A * ann x * ann y = -(A * ann y * ann x) := by
  refine LinearMap.ext fun v => ?_
  simp only [Module.End.mul_apply, LinearMap.neg_apply]
  rw [ann_ann_apply, map_neg]

theorem element_neg_neg (D : Vec ι) (A : Operator ι) : S.element (-D) (-A) = S.element D A := by
  unfold Orbitals.element
  rw [LinearMap.neg_apply, inner_neg_left, inner_neg_right, neg_neg]

theorem element_smul_smul {ε : ℚ} (D : Vec ι) (A B : Operator ι) :
    S.element (-D) (A * -(ε • B) - -(ε • B) * A) = ε * S.element D (A * B - B * A) := by
  have e : A * -(ε • B) - -(ε • B) * A = -(ε • (A * B - B * A)) := by
    refine LinearMap.ext fun v => ?_
    simp only [LinearMap.sub_apply, Module.End.mul_apply, LinearMap.neg_apply, LinearMap.smul_apply, map_neg, map_smul]
    module
  rw [e, element_neg_neg]
  unfold Orbitals.element
  rw [LinearMap.smul_apply, inner_smul_right]

theorem flip_doubleAttachment {R : DoubleAttachment} {ε : ℚ} (hε : ε * ε = 1) (h₂ : ∀ a b, R.ab a b = ε * R.ab b a)
    (h₃ : ∀ a b c k, R.abb a b c k = ε * R.aba b a c k) : R.operator S.flip = -(ε • R.operator S) := by
  unfold DoubleAttachment.operator
  have l₁ : S.flip.ua = S.ub := rfl
  have l₂ : S.flip.ub = S.ua := rfl
  have l₃ : S.flip.na = S.nb := rfl
  have l₄ : S.flip.nb = S.na := rfl
  have l₅ : S.flip.virA = S.virB := rfl
  have l₆ : S.flip.virB = S.virA := rfl
  have l₇ : S.flip.occA = S.occB := rfl
  have l₈ : S.flip.occB = S.occA := rfl
  rw [l₁, l₂, l₃, l₄, l₅, l₆, l₇, l₈]
  have e₁ : ∑ a ∈ range S.ub, ∑ b ∈ range S.ua, R.ab a b • (cre (S.virB a) * cre (S.virA b))
      = -(ε • ∑ a ∈ range S.ua, ∑ b ∈ range S.ub, R.ab a b • (cre (S.virA a) * cre (S.virB b))) := by
    rw [Finset.sum_comm]
    simp only [Finset.smul_sum, ← Finset.sum_neg_distrib]
    refine Finset.sum_congr rfl fun a _ => Finset.sum_congr rfl fun b _ => ?_
    rw [h₂ b a, ← mul_one (cre (S.virB b) * cre (S.virA a)), exchange_two, mul_one, smul_neg, smul_smul]
  have e₂ : ∑ a ∈ range S.ub, ∑ c ∈ range S.ub, ∑ b ∈ range S.ua, ∑ k ∈ range S.nb,
        R.aba a b c k • (cre (S.virB a) * cre (S.virA b) * cre (S.virB c) * ann (S.occB k))
      = -(ε • ∑ a ∈ range S.ua, ∑ b ∈ range S.ub, ∑ c ∈ range S.ub, ∑ k ∈ range S.nb,
        R.abb a b c k • (cre (S.virA a) * cre (S.virB b) * cre (S.virB c) * ann (S.occB k))) := by
    simp only [Finset.smul_sum, ← Finset.sum_neg_distrib]
    rw [Finset.sum_comm (s := range S.ua)]
    refine Finset.sum_congr rfl fun a _ => ?_
    rw [Finset.sum_comm]
    refine Finset.sum_congr rfl fun b _ => Finset.sum_congr rfl fun c _ => Finset.sum_congr rfl fun k _ => ?_
    rw [h₃, smul_smul, ← mul_assoc, hε, one_mul, mul_assoc, exchange_two, smul_neg, ← mul_assoc]
  have e₃ : ∑ a ∈ range S.ub, ∑ b ∈ range S.ua, ∑ c ∈ range S.ua, ∑ k ∈ range S.na,
        R.abb a b c k • (cre (S.virB a) * cre (S.virA b) * cre (S.virA c) * ann (S.occA k))
      = -(ε • ∑ a ∈ range S.ua, ∑ c ∈ range S.ua, ∑ b ∈ range S.ub, ∑ k ∈ range S.na,
        R.aba a b c k • (cre (S.virA a) * cre (S.virB b) * cre (S.virA c) * ann (S.occA k))) := by
    simp only [Finset.smul_sum, ← Finset.sum_neg_distrib]
    rw [Finset.sum_comm]
    refine Finset.sum_congr rfl fun b _ => ?_
    rw [Finset.sum_comm]
    refine Finset.sum_congr rfl fun c _ => Finset.sum_congr rfl fun a _ => Finset.sum_congr rfl fun k _ => ?_
    rw [h₃, mul_assoc, exchange_two, smul_neg, ← mul_assoc, smul_smul]
  rw [e₁, e₂, e₃]
  module

theorem flip_doubleIonisation {R : DoubleIonisation} {ε : ℚ} (hε : ε * ε = 1) (h₂ : ∀ a b, R.ab a b = ε * R.ab b a)
    (h₃ : ∀ a b c k, R.abb a b c k = ε * R.aba b a c k) : R.operator S.flip = -(ε • R.operator S) := by
  unfold DoubleIonisation.operator
  have l₁ : S.flip.ua = S.ub := rfl
  have l₂ : S.flip.ub = S.ua := rfl
  have l₃ : S.flip.na = S.nb := rfl
  have l₄ : S.flip.nb = S.na := rfl
  have l₅ : S.flip.virA = S.virB := rfl
  have l₆ : S.flip.virB = S.virA := rfl
  have l₇ : S.flip.occA = S.occB := rfl
  have l₈ : S.flip.occB = S.occA := rfl
  rw [l₁, l₂, l₃, l₄, l₅, l₆, l₇, l₈]
  have e₁ : ∑ i ∈ range S.nb, ∑ j ∈ range S.na, R.ab i j • (ann (S.occA j) * ann (S.occB i))
      = -(ε • ∑ i ∈ range S.na, ∑ j ∈ range S.nb, R.ab i j • (ann (S.occB j) * ann (S.occA i))) := by
    rw [Finset.sum_comm]
    simp only [Finset.smul_sum, ← Finset.sum_neg_distrib]
    refine Finset.sum_congr rfl fun a _ => Finset.sum_congr rfl fun b _ => ?_
    rw [h₂ b a]
    have q := exchange_two' (S.occA a) (S.occB b) 1
    rw [one_mul, one_mul] at q
    rw [q, smul_neg, smul_smul]
  have e₂ : ∑ c ∈ range S.ub, ∑ j ∈ range S.na, ∑ i ∈ range S.nb, ∑ k ∈ range S.nb,
        R.aba i j c k • (cre (S.virB c) * ann (S.occB k) * ann (S.occA j) * ann (S.occB i))
      = -(ε • ∑ i ∈ range S.na, ∑ c ∈ range S.ub, ∑ j ∈ range S.nb, ∑ k ∈ range S.nb,
        R.abb i j c k • (cre (S.virB c) * ann (S.occB k) * ann (S.occB j) * ann (S.occA i))) := by
    simp only [Finset.smul_sum, ← Finset.sum_neg_distrib]
    rw [Finset.sum_comm]
    refine Finset.sum_congr rfl fun i _ => Finset.sum_congr rfl fun c _ => Finset.sum_congr rfl fun j _ =>
      Finset.sum_congr rfl fun k _ => ?_
    rw [h₃, smul_smul, ← mul_assoc, hε, one_mul, exchange_two', smul_neg]
  have e₃ : ∑ i ∈ range S.nb, ∑ c ∈ range S.ua, ∑ j ∈ range S.na, ∑ k ∈ range S.na,
        R.abb i j c k • (cre (S.virA c) * ann (S.occA k) * ann (S.occA j) * ann (S.occB i))
      = -(ε • ∑ c ∈ range S.ua, ∑ j ∈ range S.nb, ∑ i ∈ range S.na, ∑ k ∈ range S.na,
        R.aba i j c k • (cre (S.virA c) * ann (S.occA k) * ann (S.occB j) * ann (S.occA i))) := by
    simp only [Finset.smul_sum, ← Finset.sum_neg_distrib]
    rw [Finset.sum_comm]
    refine Finset.sum_congr rfl fun c _ => Finset.sum_congr rfl fun j _ => Finset.sum_congr rfl fun i _ =>
      Finset.sum_congr rfl fun k _ => ?_
    rw [h₃, exchange_two', smul_neg, smul_smul]
  rw [e₁, e₂, e₃]
  module

end Ccpy.Fock
