import Verif.Lemmas.CrCcMomentValues

/-! The triples equations for amplitudes of one triple excitation: the diagonal of the transformed Hamiltonian. -/

set_option linter.unusedSimpArgs false
set_option linter.unusedVariables false

namespace Ccpy.CrCc
open Ccpy.Fock Ccpy.PSpace
open Finset (range)

theorem same_self (x : ℕ) : same1 x x = 1 := by simp [same1]
theorem same_ne {x y : ℕ} (h : x ≠ y) : same1 x y = 0 := by simp [same1, h]

/-- The amplitudes of a single excitation. -/
def unitAAA (A B C L M N : ℕ) (u : ℚ) : Triples :=
  { Triples.zero with tAAA := fun a b c i j k => alternating3 a b c A B C * alternating3 i j k L M N * u }
def unitAAB (A B C L M N : ℕ) (u : ℚ) : Triples :=
  { Triples.zero with tAAB := fun a b c i j k => alternating2 a b A B * same1 c C * (alternating2 i j L M * same1 k N) * u }
def unitABB (A B C L M N : ℕ) (u : ℚ) : Triples :=
  { Triples.zero with tABB := fun a b c i j k => same1 a A * alternating2 b c B C * (same1 i L * alternating2 j k M N) * u }
def unitBBB (A B C L M N : ℕ) (u : ℚ) : Triples :=
  { Triples.zero with tBBB := fun a b c i j k => alternating3 a b c A B C * alternating3 i j k L M N * u }

/-- The energy difference of variant D. -/
def diffA (X : Dressed) (d : Dims) (a b c i j k : ℕ) : ℚ :=
  X.a_oo i i + X.a_oo j j + X.a_oo k k - X.a_vv a a
    - X.a_vv b b - X.a_vv c c - X.aa_voov a i i a - X.aa_voov a j j a
    - X.aa_voov a k k a - X.aa_voov b i i b - X.aa_voov b j j b - X.aa_voov b k k b
    - X.aa_voov c i i c - X.aa_voov c j j c - X.aa_voov c k k c - X.aa_oooo i j i j
    - X.aa_oooo i k i k - X.aa_oooo j k j k - X.aa_vvvv a b a b - X.aa_vvvv a c a c
    - X.aa_vvvv b c b c + (∑ e ∈ range d.ua, X.aa_oovv i j a e * X.t_aa a e i j) + (∑ e ∈ range d.ua, X.aa_oovv i k a e * X.t_aa a e i k) + (∑ e ∈ range d.ua, X.aa_oovv j k a e * X.t_aa a e j k)
    + (∑ e ∈ range d.ua, X.aa_oovv i j b e * X.t_aa b e i j) + (∑ e ∈ range d.ua, X.aa_oovv i k b e * X.t_aa b e i k) + (∑ e ∈ range d.ua, X.aa_oovv j k b e * X.t_aa b e j k) + (∑ e ∈ range d.ua, X.aa_oovv i j c e * X.t_aa c e i j)
    + (∑ e ∈ range d.ua, X.aa_oovv i k c e * X.t_aa c e i k) + (∑ e ∈ range d.ua, X.aa_oovv j k c e * X.t_aa c e j k) + (∑ n ∈ range d.oa, X.aa_oovv i n a b * X.t_aa a b i n) + (∑ n ∈ range d.oa, X.aa_oovv i n a c * X.t_aa a c i n)
    + (∑ n ∈ range d.oa, X.aa_oovv i n b c * X.t_aa b c i n) + (∑ n ∈ range d.oa, X.aa_oovv j n a b * X.t_aa a b j n) + (∑ n ∈ range d.oa, X.aa_oovv j n a c * X.t_aa a c j n) + (∑ n ∈ range d.oa, X.aa_oovv j n b c * X.t_aa b c j n)
    + (∑ n ∈ range d.oa, X.aa_oovv k n a b * X.t_aa a b k n) + (∑ n ∈ range d.oa, X.aa_oovv k n a c * X.t_aa a c k n) + (∑ n ∈ range d.oa, X.aa_oovv k n b c * X.t_aa b c k n)

theorem diagonal_a {X : Dressed} (hX : X.Anti) (d : Dims) {a b c i j k : ℕ} (ha : a < d.ua) (hb : b < d.ua) (hc : c < d.ua) (hab : a < b) (hbc : b < c) (hi : i < d.oa) (hj : j < d.oa) (hk : k < d.oa) (hij : i < j) (hjk : j < k) (u : ℚ) :
    resA X d (unitAAA a b c i j k u) a b c i j k = resA X d Triples.zero a b c i j k - u * diffA X d a b c i j k := by
  have nab : a ≠ b := by omega
  have nac : a ≠ c := by omega
  have nbc : b ≠ c := by omega
  have nij : i ≠ j := by omega
  have nik : i ≠ k := by omega
  have njk : j ≠ k := by omega
  simp only [unitAAA, Triples.zero, resA, linAAA, crossAAA, momA1, momA2, vooA, vooA_t3a, vooA_t3b, vvoA, vvoA_t3a, vvoA_t3b, vooB, vooB_t3b, vooB_t3c, ovoB, ovoB_t3b, ovoB_t3c, vvoB, vvoB_t3b, vvoB_t3c, vvvB, vvvB_t3b, vvvB_t3c, vooC, vooC_t3d, vooC_t3c, vvoC, vvoC_t3d, vvoC_t3c, pick2, pick3, alternating3, alternating2, same_self, same_ne nab, same_ne nab.symm, same_ne nac, same_ne nac.symm, same_ne nbc, same_ne nbc.symm, same_ne nij, same_ne nij.symm, same_ne nik, same_ne nik.symm, same_ne njk, same_ne njk.symm,
    one_mul, zero_mul, mul_zero, sub_zero, add_zero, zero_sub, mul_one, zero_add, neg_zero, Finset.sum_const_zero, sub_self, neg_mul, mul_neg, neg_neg]
  simp [same1, mul_sub, sub_mul, mul_add, add_mul, Finset.sum_sub_distrib, Finset.sum_add_distrib, ha, hb, hc, hi, hj, hk]
  have Kaa0 : ∀ h p q, ∑ x ∈ range d.oa, 2⁻¹ * (X.aa_oovv x h p q * u) * X.t_aa p q x h = (2⁻¹ * u * ∑ n ∈ range d.oa, X.aa_oovv h n p q * X.t_aa p q h n) := by
    intro h p q
    rw [Finset.mul_sum]
    exact Finset.sum_congr rfl fun x _ => by rw [hX.aa_oovv_o h x, hX.aa_t_o p q h x]; ring
  have Kaa1 : ∀ h p q, ∑ x ∈ range d.oa, 2⁻¹ * (X.aa_oovv x h q p * u) * X.t_aa p q x h = -(2⁻¹ * u * ∑ n ∈ range d.oa, X.aa_oovv h n p q * X.t_aa p q h n) := by
    intro h p q
    rw [Finset.mul_sum, ← Finset.sum_neg_distrib]
    exact Finset.sum_congr rfl fun x _ => by rw [hX.aa_oovv_o h x, hX.aa_oovv_v _ _ p q, hX.aa_t_o p q h x]; ring
  have Kaa2 : ∀ h p q, ∑ x ∈ range d.oa, 2⁻¹ * (X.aa_oovv x h p q * u) * X.t_aa p q h x = -(2⁻¹ * u * ∑ n ∈ range d.oa, X.aa_oovv h n p q * X.t_aa p q h n) := by
    intro h p q
    rw [Finset.mul_sum, ← Finset.sum_neg_distrib]
    exact Finset.sum_congr rfl fun x _ => by rw [hX.aa_oovv_o h x]; ring
  have Kaa3 : ∀ h p q, ∑ x ∈ range d.oa, 2⁻¹ * (X.aa_oovv x h q p * u) * X.t_aa p q h x = (2⁻¹ * u * ∑ n ∈ range d.oa, X.aa_oovv h n p q * X.t_aa p q h n) := by
    intro h p q
    rw [Finset.mul_sum]
    exact Finset.sum_congr rfl fun x _ => by rw [hX.aa_oovv_o h x, hX.aa_oovv_v _ _ p q]; ring
  have Kaa4 : ∀ h p q, ∑ x ∈ range d.oa, 2⁻¹ * (X.aa_oovv h x p q * u) * X.t_aa p q x h = -(2⁻¹ * u * ∑ n ∈ range d.oa, X.aa_oovv h n p q * X.t_aa p q h n) := by
    intro h p q
    rw [Finset.mul_sum, ← Finset.sum_neg_distrib]
    exact Finset.sum_congr rfl fun x _ => by rw [hX.aa_t_o p q h x]; ring
  have Kaa5 : ∀ h p q, ∑ x ∈ range d.oa, 2⁻¹ * (X.aa_oovv h x q p * u) * X.t_aa p q x h = (2⁻¹ * u * ∑ n ∈ range d.oa, X.aa_oovv h n p q * X.t_aa p q h n) := by
    intro h p q
    rw [Finset.mul_sum]
    exact Finset.sum_congr rfl fun x _ => by rw [hX.aa_oovv_v _ _ p q, hX.aa_t_o p q h x]; ring
  have Kaa6 : ∀ h p q, ∑ x ∈ range d.oa, 2⁻¹ * (X.aa_oovv h x q p * u) * X.t_aa p q h x = -(2⁻¹ * u * ∑ n ∈ range d.oa, X.aa_oovv h n p q * X.t_aa p q h n) := by
    intro h p q
    rw [Finset.mul_sum, ← Finset.sum_neg_distrib]
    exact Finset.sum_congr rfl fun x _ => by rw [hX.aa_oovv_v _ _ p q]; ring
  have Kaa7 : ∀ h p q, ∑ x ∈ range d.oa, 2⁻¹ * (X.aa_oovv h x p q * u) * X.t_aa p q h x = (2⁻¹ * u * ∑ n ∈ range d.oa, X.aa_oovv h n p q * X.t_aa p q h n) := by
    intro h p q
    rw [Finset.mul_sum]
    exact Finset.sum_congr rfl fun x _ => by ring
  have Eaa0 : ∀ g h p, ∑ x ∈ range d.ua, 2⁻¹ * (X.aa_oovv g h x p * u) * X.t_aa x p g h = (2⁻¹ * u * ∑ e ∈ range d.ua, X.aa_oovv g h p e * X.t_aa p e g h) := by
    intro g h p
    rw [Finset.mul_sum]
    exact Finset.sum_congr rfl fun x _ => by rw [hX.aa_oovv_v _ _ p x, hX.aa_t_v p x]; ring
  have Eaa1 : ∀ g h p, ∑ x ∈ range d.ua, 2⁻¹ * (X.aa_oovv h g x p * u) * X.t_aa x p g h = -(2⁻¹ * u * ∑ e ∈ range d.ua, X.aa_oovv g h p e * X.t_aa p e g h) := by
    intro g h p
    rw [Finset.mul_sum, ← Finset.sum_neg_distrib]
    exact Finset.sum_congr rfl fun x _ => by rw [hX.aa_oovv_o g h, hX.aa_oovv_v _ _ p x, hX.aa_t_v p x]; ring
  have Eaa2 : ∀ g h p, ∑ x ∈ range d.ua, 2⁻¹ * (X.aa_oovv g h x p * u) * X.t_aa p x g h = -(2⁻¹ * u * ∑ e ∈ range d.ua, X.aa_oovv g h p e * X.t_aa p e g h) := by
    intro g h p
    rw [Finset.mul_sum, ← Finset.sum_neg_distrib]
    exact Finset.sum_congr rfl fun x _ => by rw [hX.aa_oovv_v _ _ p x]; ring
  have Eaa3 : ∀ g h p, ∑ x ∈ range d.ua, 2⁻¹ * (X.aa_oovv h g x p * u) * X.t_aa p x g h = (2⁻¹ * u * ∑ e ∈ range d.ua, X.aa_oovv g h p e * X.t_aa p e g h) := by
    intro g h p
    rw [Finset.mul_sum]
    exact Finset.sum_congr rfl fun x _ => by rw [hX.aa_oovv_o g h, hX.aa_oovv_v _ _ p x]; ring
  have Eaa4 : ∀ g h p, ∑ x ∈ range d.ua, 2⁻¹ * (X.aa_oovv g h p x * u) * X.t_aa x p g h = -(2⁻¹ * u * ∑ e ∈ range d.ua, X.aa_oovv g h p e * X.t_aa p e g h) := by
    intro g h p
    rw [Finset.mul_sum, ← Finset.sum_neg_distrib]
    exact Finset.sum_congr rfl fun x _ => by rw [hX.aa_t_v p x]; ring
  have Eaa5 : ∀ g h p, ∑ x ∈ range d.ua, 2⁻¹ * (X.aa_oovv h g p x * u) * X.t_aa x p g h = (2⁻¹ * u * ∑ e ∈ range d.ua, X.aa_oovv g h p e * X.t_aa p e g h) := by
    intro g h p
    rw [Finset.mul_sum]
    exact Finset.sum_congr rfl fun x _ => by rw [hX.aa_oovv_o g h, hX.aa_t_v p x]; ring
  have Eaa6 : ∀ g h p, ∑ x ∈ range d.ua, 2⁻¹ * (X.aa_oovv h g p x * u) * X.t_aa p x g h = -(2⁻¹ * u * ∑ e ∈ range d.ua, X.aa_oovv g h p e * X.t_aa p e g h) := by
    intro g h p
    rw [Finset.mul_sum, ← Finset.sum_neg_distrib]
    exact Finset.sum_congr rfl fun x _ => by rw [hX.aa_oovv_o g h]; ring
  have Eaa7 : ∀ g h p, ∑ x ∈ range d.ua, 2⁻¹ * (X.aa_oovv g h p x * u) * X.t_aa p x g h = (2⁻¹ * u * ∑ e ∈ range d.ua, X.aa_oovv g h p e * X.t_aa p e g h) := by
    intro g h p
    rw [Finset.mul_sum]
    exact Finset.sum_congr rfl fun x _ => by ring
  simp only [Kaa0, Kaa1, Kaa2, Kaa3, Kaa4, Kaa5, Kaa6, Kaa7, Eaa0, Eaa1, Eaa2, Eaa3, Eaa4, Eaa5, Eaa6, Eaa7, hX.aa_vvvv_r a b a b, hX.aa_vvvv_r a c a c, hX.aa_vvvv_r b c b c, hX.aa_oooo_l i j i j, hX.aa_oooo_l i k i k, hX.aa_oooo_l j k j k, diffA]
  ring

/-- The energy difference of variant D. -/
def diffB (X : Dressed) (d : Dims) (a b c i j k : ℕ) : ℚ :=
  X.a_oo i i + X.a_oo j j + X.b_oo k k - X.a_vv a a
    - X.a_vv b b - X.b_vv c c - X.aa_voov a i i a - X.aa_voov a j j a
    + X.ab_vovo a k a k - X.aa_voov b i i b - X.aa_voov b j j b + X.ab_vovo b k b k
    + X.ab_ovov i c i c + X.ab_ovov j c j c - X.bb_voov c k k c - X.aa_oooo i j i j
    - X.ab_oooo i k i k - X.ab_oooo j k j k - X.aa_vvvv a b a b - X.ab_vvvv a c a c
    - X.ab_vvvv b c b c + (∑ e ∈ range d.ua, X.aa_oovv i j a e * X.t_aa a e i j) + (∑ e ∈ range d.ub, X.ab_oovv i k a e * X.t_ab a e i k) + (∑ e ∈ range d.ub, X.ab_oovv j k a e * X.t_ab a e j k)
    + (∑ e ∈ range d.ua, X.aa_oovv i j b e * X.t_aa b e i j) + (∑ e ∈ range d.ub, X.ab_oovv i k b e * X.t_ab b e i k) + (∑ e ∈ range d.ub, X.ab_oovv j k b e * X.t_ab b e j k) + (∑ e ∈ range d.ua, X.ab_oovv i k e c * X.t_ab e c i k)
    + (∑ e ∈ range d.ua, X.ab_oovv j k e c * X.t_ab e c j k) + (∑ n ∈ range d.oa, X.aa_oovv i n a b * X.t_aa a b i n) + (∑ n ∈ range d.ob, X.ab_oovv i n a c * X.t_ab a c i n) + (∑ n ∈ range d.ob, X.ab_oovv i n b c * X.t_ab b c i n)
    + (∑ n ∈ range d.oa, X.aa_oovv j n a b * X.t_aa a b j n) + (∑ n ∈ range d.ob, X.ab_oovv j n a c * X.t_ab a c j n) + (∑ n ∈ range d.ob, X.ab_oovv j n b c * X.t_ab b c j n) + (∑ n ∈ range d.oa, X.ab_oovv n k a c * X.t_ab a c n k)
    + (∑ n ∈ range d.oa, X.ab_oovv n k b c * X.t_ab b c n k)

theorem diagonal_b {X : Dressed} (hX : X.Anti) (d : Dims) {a b c i j k : ℕ} (ha : a < d.ua) (hb : b < d.ua) (hc : c < d.ub) (hab : a < b) (hi : i < d.oa) (hj : j < d.oa) (hk : k < d.ob) (hij : i < j) (u : ℚ) :
    resB X d (unitAAB a b c i j k u) a b c i j k = resB X d Triples.zero a b c i j k - u * diffB X d a b c i j k := by
  have nab : a ≠ b := by omega
  have nij : i ≠ j := by omega
  simp only [unitAAB, Triples.zero, resB, linB_t3b, linB_t3a, linB_t3c, momB1, momB2, momB3, momB4, momB5, momB6, vooA, vooA_t3a, vooA_t3b, vvoA, vvoA_t3a, vvoA_t3b, vooB, vooB_t3b, vooB_t3c, ovoB, ovoB_t3b, ovoB_t3c, vvoB, vvoB_t3b, vvoB_t3c, vvvB, vvvB_t3b, vvvB_t3c, vooC, vooC_t3d, vooC_t3c, vvoC, vvoC_t3d, vvoC_t3c, pick2, pick3, alternating3, alternating2, same_self, same_ne nab, same_ne nab.symm, same_ne nij, same_ne nij.symm,
    one_mul, zero_mul, mul_zero, sub_zero, add_zero, zero_sub, mul_one, zero_add, neg_zero, Finset.sum_const_zero, sub_self, neg_mul, mul_neg, neg_neg]
  simp [same1, mul_sub, sub_mul, mul_add, add_mul, Finset.sum_sub_distrib, Finset.sum_add_distrib, ha, hb, hc, hi, hj, hk]
  have Kaa0 : ∀ h p q, ∑ x ∈ range d.oa, 2⁻¹ * (X.aa_oovv x h p q * u) * X.t_aa p q x h = (2⁻¹ * u * ∑ n ∈ range d.oa, X.aa_oovv h n p q * X.t_aa p q h n) := by
    intro h p q
    rw [Finset.mul_sum]
    exact Finset.sum_congr rfl fun x _ => by rw [hX.aa_oovv_o h x, hX.aa_t_o p q h x]; ring
  have Kaa1 : ∀ h p q, ∑ x ∈ range d.oa, 2⁻¹ * (X.aa_oovv x h q p * u) * X.t_aa p q x h = -(2⁻¹ * u * ∑ n ∈ range d.oa, X.aa_oovv h n p q * X.t_aa p q h n) := by
    intro h p q
    rw [Finset.mul_sum, ← Finset.sum_neg_distrib]
    exact Finset.sum_congr rfl fun x _ => by rw [hX.aa_oovv_o h x, hX.aa_oovv_v _ _ p q, hX.aa_t_o p q h x]; ring
  have Kaa2 : ∀ h p q, ∑ x ∈ range d.oa, 2⁻¹ * (X.aa_oovv x h p q * u) * X.t_aa p q h x = -(2⁻¹ * u * ∑ n ∈ range d.oa, X.aa_oovv h n p q * X.t_aa p q h n) := by
    intro h p q
    rw [Finset.mul_sum, ← Finset.sum_neg_distrib]
    exact Finset.sum_congr rfl fun x _ => by rw [hX.aa_oovv_o h x]; ring
  have Kaa3 : ∀ h p q, ∑ x ∈ range d.oa, 2⁻¹ * (X.aa_oovv x h q p * u) * X.t_aa p q h x = (2⁻¹ * u * ∑ n ∈ range d.oa, X.aa_oovv h n p q * X.t_aa p q h n) := by
    intro h p q
    rw [Finset.mul_sum]
    exact Finset.sum_congr rfl fun x _ => by rw [hX.aa_oovv_o h x, hX.aa_oovv_v _ _ p q]; ring
  have Kaa4 : ∀ h p q, ∑ x ∈ range d.oa, 2⁻¹ * (X.aa_oovv h x p q * u) * X.t_aa p q x h = -(2⁻¹ * u * ∑ n ∈ range d.oa, X.aa_oovv h n p q * X.t_aa p q h n) := by
    intro h p q
    rw [Finset.mul_sum, ← Finset.sum_neg_distrib]
    exact Finset.sum_congr rfl fun x _ => by rw [hX.aa_t_o p q h x]; ring
  have Kaa5 : ∀ h p q, ∑ x ∈ range d.oa, 2⁻¹ * (X.aa_oovv h x q p * u) * X.t_aa p q x h = (2⁻¹ * u * ∑ n ∈ range d.oa, X.aa_oovv h n p q * X.t_aa p q h n) := by
    intro h p q
    rw [Finset.mul_sum]
    exact Finset.sum_congr rfl fun x _ => by rw [hX.aa_oovv_v _ _ p q, hX.aa_t_o p q h x]; ring
  have Kaa6 : ∀ h p q, ∑ x ∈ range d.oa, 2⁻¹ * (X.aa_oovv h x q p * u) * X.t_aa p q h x = -(2⁻¹ * u * ∑ n ∈ range d.oa, X.aa_oovv h n p q * X.t_aa p q h n) := by
    intro h p q
    rw [Finset.mul_sum, ← Finset.sum_neg_distrib]
    exact Finset.sum_congr rfl fun x _ => by rw [hX.aa_oovv_v _ _ p q]; ring
  have Kaa7 : ∀ h p q, ∑ x ∈ range d.oa, 2⁻¹ * (X.aa_oovv h x p q * u) * X.t_aa p q h x = (2⁻¹ * u * ∑ n ∈ range d.oa, X.aa_oovv h n p q * X.t_aa p q h n) := by
    intro h p q
    rw [Finset.mul_sum]
    exact Finset.sum_congr rfl fun x _ => by ring
  have Eaa0 : ∀ g h p, ∑ x ∈ range d.ua, 2⁻¹ * (X.aa_oovv g h x p * u) * X.t_aa x p g h = (2⁻¹ * u * ∑ e ∈ range d.ua, X.aa_oovv g h p e * X.t_aa p e g h) := by
    intro g h p
    rw [Finset.mul_sum]
    exact Finset.sum_congr rfl fun x _ => by rw [hX.aa_oovv_v _ _ p x, hX.aa_t_v p x]; ring
  have Eaa1 : ∀ g h p, ∑ x ∈ range d.ua, 2⁻¹ * (X.aa_oovv h g x p * u) * X.t_aa x p g h = -(2⁻¹ * u * ∑ e ∈ range d.ua, X.aa_oovv g h p e * X.t_aa p e g h) := by
    intro g h p
    rw [Finset.mul_sum, ← Finset.sum_neg_distrib]
    exact Finset.sum_congr rfl fun x _ => by rw [hX.aa_oovv_o g h, hX.aa_oovv_v _ _ p x, hX.aa_t_v p x]; ring
  have Eaa2 : ∀ g h p, ∑ x ∈ range d.ua, 2⁻¹ * (X.aa_oovv g h x p * u) * X.t_aa p x g h = -(2⁻¹ * u * ∑ e ∈ range d.ua, X.aa_oovv g h p e * X.t_aa p e g h) := by
    intro g h p
    rw [Finset.mul_sum, ← Finset.sum_neg_distrib]
    exact Finset.sum_congr rfl fun x _ => by rw [hX.aa_oovv_v _ _ p x]; ring
  have Eaa3 : ∀ g h p, ∑ x ∈ range d.ua, 2⁻¹ * (X.aa_oovv h g x p * u) * X.t_aa p x g h = (2⁻¹ * u * ∑ e ∈ range d.ua, X.aa_oovv g h p e * X.t_aa p e g h) := by
    intro g h p
    rw [Finset.mul_sum]
    exact Finset.sum_congr rfl fun x _ => by rw [hX.aa_oovv_o g h, hX.aa_oovv_v _ _ p x]; ring
  have Eaa4 : ∀ g h p, ∑ x ∈ range d.ua, 2⁻¹ * (X.aa_oovv g h p x * u) * X.t_aa x p g h = -(2⁻¹ * u * ∑ e ∈ range d.ua, X.aa_oovv g h p e * X.t_aa p e g h) := by
    intro g h p
    rw [Finset.mul_sum, ← Finset.sum_neg_distrib]
    exact Finset.sum_congr rfl fun x _ => by rw [hX.aa_t_v p x]; ring
  have Eaa5 : ∀ g h p, ∑ x ∈ range d.ua, 2⁻¹ * (X.aa_oovv h g p x * u) * X.t_aa x p g h = (2⁻¹ * u * ∑ e ∈ range d.ua, X.aa_oovv g h p e * X.t_aa p e g h) := by
    intro g h p
    rw [Finset.mul_sum]
    exact Finset.sum_congr rfl fun x _ => by rw [hX.aa_oovv_o g h, hX.aa_t_v p x]; ring
  have Eaa6 : ∀ g h p, ∑ x ∈ range d.ua, 2⁻¹ * (X.aa_oovv h g p x * u) * X.t_aa p x g h = -(2⁻¹ * u * ∑ e ∈ range d.ua, X.aa_oovv g h p e * X.t_aa p e g h) := by
    intro g h p
    rw [Finset.mul_sum, ← Finset.sum_neg_distrib]
    exact Finset.sum_congr rfl fun x _ => by rw [hX.aa_oovv_o g h]; ring
  have Eaa7 : ∀ g h p, ∑ x ∈ range d.ua, 2⁻¹ * (X.aa_oovv g h p x * u) * X.t_aa p x g h = (2⁻¹ * u * ∑ e ∈ range d.ua, X.aa_oovv g h p e * X.t_aa p e g h) := by
    intro g h p
    rw [Finset.mul_sum]
    exact Finset.sum_congr rfl fun x _ => by ring
  have Kbb0 : ∀ h p q, ∑ x ∈ range d.ob, 2⁻¹ * (X.bb_oovv x h p q * u) * X.t_bb p q x h = (2⁻¹ * u * ∑ n ∈ range d.ob, X.bb_oovv h n p q * X.t_bb p q h n) := by
    intro h p q
    rw [Finset.mul_sum]
    exact Finset.sum_congr rfl fun x _ => by rw [hX.bb_oovv_o h x, hX.bb_t_o p q h x]; ring
  have Kbb1 : ∀ h p q, ∑ x ∈ range d.ob, 2⁻¹ * (X.bb_oovv x h q p * u) * X.t_bb p q x h = -(2⁻¹ * u * ∑ n ∈ range d.ob, X.bb_oovv h n p q * X.t_bb p q h n) := by
    intro h p q
    rw [Finset.mul_sum, ← Finset.sum_neg_distrib]
    exact Finset.sum_congr rfl fun x _ => by rw [hX.bb_oovv_o h x, hX.bb_oovv_v _ _ p q, hX.bb_t_o p q h x]; ring
  have Kbb2 : ∀ h p q, ∑ x ∈ range d.ob, 2⁻¹ * (X.bb_oovv x h p q * u) * X.t_bb p q h x = -(2⁻¹ * u * ∑ n ∈ range d.ob, X.bb_oovv h n p q * X.t_bb p q h n) := by
    intro h p q
    rw [Finset.mul_sum, ← Finset.sum_neg_distrib]
    exact Finset.sum_congr rfl fun x _ => by rw [hX.bb_oovv_o h x]; ring
  have Kbb3 : ∀ h p q, ∑ x ∈ range d.ob, 2⁻¹ * (X.bb_oovv x h q p * u) * X.t_bb p q h x = (2⁻¹ * u * ∑ n ∈ range d.ob, X.bb_oovv h n p q * X.t_bb p q h n) := by
    intro h p q
    rw [Finset.mul_sum]
    exact Finset.sum_congr rfl fun x _ => by rw [hX.bb_oovv_o h x, hX.bb_oovv_v _ _ p q]; ring
  have Kbb4 : ∀ h p q, ∑ x ∈ range d.ob, 2⁻¹ * (X.bb_oovv h x p q * u) * X.t_bb p q x h = -(2⁻¹ * u * ∑ n ∈ range d.ob, X.bb_oovv h n p q * X.t_bb p q h n) := by
    intro h p q
    rw [Finset.mul_sum, ← Finset.sum_neg_distrib]
    exact Finset.sum_congr rfl fun x _ => by rw [hX.bb_t_o p q h x]; ring
  have Kbb5 : ∀ h p q, ∑ x ∈ range d.ob, 2⁻¹ * (X.bb_oovv h x q p * u) * X.t_bb p q x h = (2⁻¹ * u * ∑ n ∈ range d.ob, X.bb_oovv h n p q * X.t_bb p q h n) := by
    intro h p q
    rw [Finset.mul_sum]
    exact Finset.sum_congr rfl fun x _ => by rw [hX.bb_oovv_v _ _ p q, hX.bb_t_o p q h x]; ring
  have Kbb6 : ∀ h p q, ∑ x ∈ range d.ob, 2⁻¹ * (X.bb_oovv h x q p * u) * X.t_bb p q h x = -(2⁻¹ * u * ∑ n ∈ range d.ob, X.bb_oovv h n p q * X.t_bb p q h n) := by
    intro h p q
    rw [Finset.mul_sum, ← Finset.sum_neg_distrib]
    exact Finset.sum_congr rfl fun x _ => by rw [hX.bb_oovv_v _ _ p q]; ring
  have Kbb7 : ∀ h p q, ∑ x ∈ range d.ob, 2⁻¹ * (X.bb_oovv h x p q * u) * X.t_bb p q h x = (2⁻¹ * u * ∑ n ∈ range d.ob, X.bb_oovv h n p q * X.t_bb p q h n) := by
    intro h p q
    rw [Finset.mul_sum]
    exact Finset.sum_congr rfl fun x _ => by ring
  have Ebb0 : ∀ g h p, ∑ x ∈ range d.ub, 2⁻¹ * (X.bb_oovv g h x p * u) * X.t_bb x p g h = (2⁻¹ * u * ∑ e ∈ range d.ub, X.bb_oovv g h p e * X.t_bb p e g h) := by
    intro g h p
    rw [Finset.mul_sum]
    exact Finset.sum_congr rfl fun x _ => by rw [hX.bb_oovv_v _ _ p x, hX.bb_t_v p x]; ring
  have Ebb1 : ∀ g h p, ∑ x ∈ range d.ub, 2⁻¹ * (X.bb_oovv h g x p * u) * X.t_bb x p g h = -(2⁻¹ * u * ∑ e ∈ range d.ub, X.bb_oovv g h p e * X.t_bb p e g h) := by
    intro g h p
    rw [Finset.mul_sum, ← Finset.sum_neg_distrib]
    exact Finset.sum_congr rfl fun x _ => by rw [hX.bb_oovv_o g h, hX.bb_oovv_v _ _ p x, hX.bb_t_v p x]; ring
  have Ebb2 : ∀ g h p, ∑ x ∈ range d.ub, 2⁻¹ * (X.bb_oovv g h x p * u) * X.t_bb p x g h = -(2⁻¹ * u * ∑ e ∈ range d.ub, X.bb_oovv g h p e * X.t_bb p e g h) := by
    intro g h p
    rw [Finset.mul_sum, ← Finset.sum_neg_distrib]
    exact Finset.sum_congr rfl fun x _ => by rw [hX.bb_oovv_v _ _ p x]; ring
  have Ebb3 : ∀ g h p, ∑ x ∈ range d.ub, 2⁻¹ * (X.bb_oovv h g x p * u) * X.t_bb p x g h = (2⁻¹ * u * ∑ e ∈ range d.ub, X.bb_oovv g h p e * X.t_bb p e g h) := by
    intro g h p
    rw [Finset.mul_sum]
    exact Finset.sum_congr rfl fun x _ => by rw [hX.bb_oovv_o g h, hX.bb_oovv_v _ _ p x]; ring
  have Ebb4 : ∀ g h p, ∑ x ∈ range d.ub, 2⁻¹ * (X.bb_oovv g h p x * u) * X.t_bb x p g h = -(2⁻¹ * u * ∑ e ∈ range d.ub, X.bb_oovv g h p e * X.t_bb p e g h) := by
    intro g h p
    rw [Finset.mul_sum, ← Finset.sum_neg_distrib]
    exact Finset.sum_congr rfl fun x _ => by rw [hX.bb_t_v p x]; ring
  have Ebb5 : ∀ g h p, ∑ x ∈ range d.ub, 2⁻¹ * (X.bb_oovv h g p x * u) * X.t_bb x p g h = (2⁻¹ * u * ∑ e ∈ range d.ub, X.bb_oovv g h p e * X.t_bb p e g h) := by
    intro g h p
    rw [Finset.mul_sum]
    exact Finset.sum_congr rfl fun x _ => by rw [hX.bb_oovv_o g h, hX.bb_t_v p x]; ring
  have Ebb6 : ∀ g h p, ∑ x ∈ range d.ub, 2⁻¹ * (X.bb_oovv h g p x * u) * X.t_bb p x g h = -(2⁻¹ * u * ∑ e ∈ range d.ub, X.bb_oovv g h p e * X.t_bb p e g h) := by
    intro g h p
    rw [Finset.mul_sum, ← Finset.sum_neg_distrib]
    exact Finset.sum_congr rfl fun x _ => by rw [hX.bb_oovv_o g h]; ring
  have Ebb7 : ∀ g h p, ∑ x ∈ range d.ub, 2⁻¹ * (X.bb_oovv g h p x * u) * X.t_bb p x g h = (2⁻¹ * u * ∑ e ∈ range d.ub, X.bb_oovv g h p e * X.t_bb p e g h) := by
    intro g h p
    rw [Finset.mul_sum]
    exact Finset.sum_congr rfl fun x _ => by ring
  have M0 : ∀ g h p, ∑ x ∈ range d.ua, X.ab_oovv g h x p * u * X.t_ab x p g h = u * ∑ x ∈ range d.ua, X.ab_oovv g h x p * X.t_ab x p g h := by
    intro g h p
    rw [Finset.mul_sum]
    exact Finset.sum_congr rfl fun x _ => by ring
  have M1 : ∀ g h p, ∑ x ∈ range d.ub, X.ab_oovv g h p x * u * X.t_ab p x g h = u * ∑ x ∈ range d.ub, X.ab_oovv g h p x * X.t_ab p x g h := by
    intro g h p
    rw [Finset.mul_sum]
    exact Finset.sum_congr rfl fun x _ => by ring
  have M2 : ∀ h p q, ∑ x ∈ range d.oa, X.ab_oovv x h p q * u * X.t_ab p q x h = u * ∑ x ∈ range d.oa, X.ab_oovv x h p q * X.t_ab p q x h := by
    intro h p q
    rw [Finset.mul_sum]
    exact Finset.sum_congr rfl fun x _ => by ring
  have M3 : ∀ h p q, ∑ x ∈ range d.ob, X.ab_oovv h x p q * u * X.t_ab p q h x = u * ∑ x ∈ range d.ob, X.ab_oovv h x p q * X.t_ab p q h x := by
    intro h p q
    rw [Finset.mul_sum]
    exact Finset.sum_congr rfl fun x _ => by ring
  simp only [Kaa0, Kaa1, Kaa2, Kaa3, Kaa4, Kaa5, Kaa6, Kaa7, Eaa0, Eaa1, Eaa2, Eaa3, Eaa4, Eaa5, Eaa6, Eaa7, Kbb0, Kbb1, Kbb2, Kbb3, Kbb4, Kbb5, Kbb6, Kbb7, Ebb0, Ebb1, Ebb2, Ebb3, Ebb4, Ebb5, Ebb6, Ebb7, M0, M1, M2, M3, hX.aa_vvvv_r a b a b, hX.aa_oooo_l i j i j, diffB]
  ring

/-- The energy difference of variant D. -/
def diffC (X : Dressed) (d : Dims) (a b c i j k : ℕ) : ℚ :=
  X.a_oo i i + X.b_oo j j + X.b_oo k k - X.a_vv a a
    - X.b_vv b b - X.b_vv c c - X.aa_voov a i i a + X.ab_vovo a j a j
    + X.ab_vovo a k a k + X.ab_ovov i b i b - X.bb_voov b j j b - X.bb_voov b k k b
    + X.ab_ovov i c i c - X.bb_voov c j j c - X.bb_voov c k k c - X.ab_oooo i j i j
    - X.ab_oooo i k i k - X.bb_oooo j k j k - X.ab_vvvv a b a b - X.ab_vvvv a c a c
    - X.bb_vvvv b c b c + (∑ e ∈ range d.ub, X.ab_oovv i j a e * X.t_ab a e i j) + (∑ e ∈ range d.ub, X.ab_oovv i k a e * X.t_ab a e i k) + (∑ e ∈ range d.ua, X.ab_oovv i j e b * X.t_ab e b i j)
    + (∑ e ∈ range d.ua, X.ab_oovv i k e b * X.t_ab e b i k) + (∑ e ∈ range d.ub, X.bb_oovv j k b e * X.t_bb b e j k) + (∑ e ∈ range d.ua, X.ab_oovv i j e c * X.t_ab e c i j) + (∑ e ∈ range d.ua, X.ab_oovv i k e c * X.t_ab e c i k)
    + (∑ e ∈ range d.ub, X.bb_oovv j k c e * X.t_bb c e j k) + (∑ n ∈ range d.ob, X.ab_oovv i n a b * X.t_ab a b i n) + (∑ n ∈ range d.ob, X.ab_oovv i n a c * X.t_ab a c i n) + (∑ n ∈ range d.oa, X.ab_oovv n j a b * X.t_ab a b n j)
    + (∑ n ∈ range d.oa, X.ab_oovv n j a c * X.t_ab a c n j) + (∑ n ∈ range d.ob, X.bb_oovv j n b c * X.t_bb b c j n) + (∑ n ∈ range d.oa, X.ab_oovv n k a b * X.t_ab a b n k) + (∑ n ∈ range d.oa, X.ab_oovv n k a c * X.t_ab a c n k)
    + (∑ n ∈ range d.ob, X.bb_oovv k n b c * X.t_bb b c k n)

theorem diagonal_c {X : Dressed} (hX : X.Anti) (d : Dims) {a b c i j k : ℕ} (ha : a < d.ua) (hb : b < d.ub) (hc : c < d.ub) (hbc : b < c) (hi : i < d.oa) (hj : j < d.ob) (hk : k < d.ob) (hjk : j < k) (u : ℚ) :
    resC X d (unitABB a b c i j k u) a b c i j k = resC X d Triples.zero a b c i j k - u * diffC X d a b c i j k := by
  have nbc : b ≠ c := by omega
  have njk : j ≠ k := by omega
  simp only [unitABB, Triples.zero, resC, linC_t3c, linC_t3d, linC_t3b, momC1, momC2, momC3, momC4, momC5, momC6, vooA, vooA_t3a, vooA_t3b, vvoA, vvoA_t3a, vvoA_t3b, vooB, vooB_t3b, vooB_t3c, ovoB, ovoB_t3b, ovoB_t3c, vvoB, vvoB_t3b, vvoB_t3c, vvvB, vvvB_t3b, vvvB_t3c, vooC, vooC_t3d, vooC_t3c, vvoC, vvoC_t3d, vvoC_t3c, pick2, pick3, alternating3, alternating2, same_self, same_ne nbc, same_ne nbc.symm, same_ne njk, same_ne njk.symm,
    one_mul, zero_mul, mul_zero, sub_zero, add_zero, zero_sub, mul_one, zero_add, neg_zero, Finset.sum_const_zero, sub_self, neg_mul, mul_neg, neg_neg]
  simp [same1, mul_sub, sub_mul, mul_add, add_mul, Finset.sum_sub_distrib, Finset.sum_add_distrib, ha, hb, hc, hi, hj, hk]
  have Kaa0 : ∀ h p q, ∑ x ∈ range d.oa, 2⁻¹ * (X.aa_oovv x h p q * u) * X.t_aa p q x h = (2⁻¹ * u * ∑ n ∈ range d.oa, X.aa_oovv h n p q * X.t_aa p q h n) := by
    intro h p q
    rw [Finset.mul_sum]
    exact Finset.sum_congr rfl fun x _ => by rw [hX.aa_oovv_o h x, hX.aa_t_o p q h x]; ring
  have Kaa1 : ∀ h p q, ∑ x ∈ range d.oa, 2⁻¹ * (X.aa_oovv x h q p * u) * X.t_aa p q x h = -(2⁻¹ * u * ∑ n ∈ range d.oa, X.aa_oovv h n p q * X.t_aa p q h n) := by
    intro h p q
    rw [Finset.mul_sum, ← Finset.sum_neg_distrib]
    exact Finset.sum_congr rfl fun x _ => by rw [hX.aa_oovv_o h x, hX.aa_oovv_v _ _ p q, hX.aa_t_o p q h x]; ring
  have Kaa2 : ∀ h p q, ∑ x ∈ range d.oa, 2⁻¹ * (X.aa_oovv x h p q * u) * X.t_aa p q h x = -(2⁻¹ * u * ∑ n ∈ range d.oa, X.aa_oovv h n p q * X.t_aa p q h n) := by
    intro h p q
    rw [Finset.mul_sum, ← Finset.sum_neg_distrib]
    exact Finset.sum_congr rfl fun x _ => by rw [hX.aa_oovv_o h x]; ring
  have Kaa3 : ∀ h p q, ∑ x ∈ range d.oa, 2⁻¹ * (X.aa_oovv x h q p * u) * X.t_aa p q h x = (2⁻¹ * u * ∑ n ∈ range d.oa, X.aa_oovv h n p q * X.t_aa p q h n) := by
    intro h p q
    rw [Finset.mul_sum]
    exact Finset.sum_congr rfl fun x _ => by rw [hX.aa_oovv_o h x, hX.aa_oovv_v _ _ p q]; ring
  have Kaa4 : ∀ h p q, ∑ x ∈ range d.oa, 2⁻¹ * (X.aa_oovv h x p q * u) * X.t_aa p q x h = -(2⁻¹ * u * ∑ n ∈ range d.oa, X.aa_oovv h n p q * X.t_aa p q h n) := by
    intro h p q
    rw [Finset.mul_sum, ← Finset.sum_neg_distrib]
    exact Finset.sum_congr rfl fun x _ => by rw [hX.aa_t_o p q h x]; ring
  have Kaa5 : ∀ h p q, ∑ x ∈ range d.oa, 2⁻¹ * (X.aa_oovv h x q p * u) * X.t_aa p q x h = (2⁻¹ * u * ∑ n ∈ range d.oa, X.aa_oovv h n p q * X.t_aa p q h n) := by
    intro h p q
    rw [Finset.mul_sum]
    exact Finset.sum_congr rfl fun x _ => by rw [hX.aa_oovv_v _ _ p q, hX.aa_t_o p q h x]; ring
  have Kaa6 : ∀ h p q, ∑ x ∈ range d.oa, 2⁻¹ * (X.aa_oovv h x q p * u) * X.t_aa p q h x = -(2⁻¹ * u * ∑ n ∈ range d.oa, X.aa_oovv h n p q * X.t_aa p q h n) := by
    intro h p q
    rw [Finset.mul_sum, ← Finset.sum_neg_distrib]
    exact Finset.sum_congr rfl fun x _ => by rw [hX.aa_oovv_v _ _ p q]; ring
  have Kaa7 : ∀ h p q, ∑ x ∈ range d.oa, 2⁻¹ * (X.aa_oovv h x p q * u) * X.t_aa p q h x = (2⁻¹ * u * ∑ n ∈ range d.oa, X.aa_oovv h n p q * X.t_aa p q h n) := by
    intro h p q
    rw [Finset.mul_sum]
    exact Finset.sum_congr rfl fun x _ => by ring
  have Eaa0 : ∀ g h p, ∑ x ∈ range d.ua, 2⁻¹ * (X.aa_oovv g h x p * u) * X.t_aa x p g h = (2⁻¹ * u * ∑ e ∈ range d.ua, X.aa_oovv g h p e * X.t_aa p e g h) := by
    intro g h p
    rw [Finset.mul_sum]
    exact Finset.sum_congr rfl fun x _ => by rw [hX.aa_oovv_v _ _ p x, hX.aa_t_v p x]; ring
  have Eaa1 : ∀ g h p, ∑ x ∈ range d.ua, 2⁻¹ * (X.aa_oovv h g x p * u) * X.t_aa x p g h = -(2⁻¹ * u * ∑ e ∈ range d.ua, X.aa_oovv g h p e * X.t_aa p e g h) := by
    intro g h p
    rw [Finset.mul_sum, ← Finset.sum_neg_distrib]
    exact Finset.sum_congr rfl fun x _ => by rw [hX.aa_oovv_o g h, hX.aa_oovv_v _ _ p x, hX.aa_t_v p x]; ring
  have Eaa2 : ∀ g h p, ∑ x ∈ range d.ua, 2⁻¹ * (X.aa_oovv g h x p * u) * X.t_aa p x g h = -(2⁻¹ * u * ∑ e ∈ range d.ua, X.aa_oovv g h p e * X.t_aa p e g h) := by
    intro g h p
    rw [Finset.mul_sum, ← Finset.sum_neg_distrib]
    exact Finset.sum_congr rfl fun x _ => by rw [hX.aa_oovv_v _ _ p x]; ring
  have Eaa3 : ∀ g h p, ∑ x ∈ range d.ua, 2⁻¹ * (X.aa_oovv h g x p * u) * X.t_aa p x g h = (2⁻¹ * u * ∑ e ∈ range d.ua, X.aa_oovv g h p e * X.t_aa p e g h) := by
    intro g h p
    rw [Finset.mul_sum]
    exact Finset.sum_congr rfl fun x _ => by rw [hX.aa_oovv_o g h, hX.aa_oovv_v _ _ p x]; ring
  have Eaa4 : ∀ g h p, ∑ x ∈ range d.ua, 2⁻¹ * (X.aa_oovv g h p x * u) * X.t_aa x p g h = -(2⁻¹ * u * ∑ e ∈ range d.ua, X.aa_oovv g h p e * X.t_aa p e g h) := by
    intro g h p
    rw [Finset.mul_sum, ← Finset.sum_neg_distrib]
    exact Finset.sum_congr rfl fun x _ => by rw [hX.aa_t_v p x]; ring
  have Eaa5 : ∀ g h p, ∑ x ∈ range d.ua, 2⁻¹ * (X.aa_oovv h g p x * u) * X.t_aa x p g h = (2⁻¹ * u * ∑ e ∈ range d.ua, X.aa_oovv g h p e * X.t_aa p e g h) := by
    intro g h p
    rw [Finset.mul_sum]
    exact Finset.sum_congr rfl fun x _ => by rw [hX.aa_oovv_o g h, hX.aa_t_v p x]; ring
  have Eaa6 : ∀ g h p, ∑ x ∈ range d.ua, 2⁻¹ * (X.aa_oovv h g p x * u) * X.t_aa p x g h = -(2⁻¹ * u * ∑ e ∈ range d.ua, X.aa_oovv g h p e * X.t_aa p e g h) := by
    intro g h p
    rw [Finset.mul_sum, ← Finset.sum_neg_distrib]
    exact Finset.sum_congr rfl fun x _ => by rw [hX.aa_oovv_o g h]; ring
  have Eaa7 : ∀ g h p, ∑ x ∈ range d.ua, 2⁻¹ * (X.aa_oovv g h p x * u) * X.t_aa p x g h = (2⁻¹ * u * ∑ e ∈ range d.ua, X.aa_oovv g h p e * X.t_aa p e g h) := by
    intro g h p
    rw [Finset.mul_sum]
    exact Finset.sum_congr rfl fun x _ => by ring
  have Kbb0 : ∀ h p q, ∑ x ∈ range d.ob, 2⁻¹ * (X.bb_oovv x h p q * u) * X.t_bb p q x h = (2⁻¹ * u * ∑ n ∈ range d.ob, X.bb_oovv h n p q * X.t_bb p q h n) := by
    intro h p q
    rw [Finset.mul_sum]
    exact Finset.sum_congr rfl fun x _ => by rw [hX.bb_oovv_o h x, hX.bb_t_o p q h x]; ring
  have Kbb1 : ∀ h p q, ∑ x ∈ range d.ob, 2⁻¹ * (X.bb_oovv x h q p * u) * X.t_bb p q x h = -(2⁻¹ * u * ∑ n ∈ range d.ob, X.bb_oovv h n p q * X.t_bb p q h n) := by
    intro h p q
    rw [Finset.mul_sum, ← Finset.sum_neg_distrib]
    exact Finset.sum_congr rfl fun x _ => by rw [hX.bb_oovv_o h x, hX.bb_oovv_v _ _ p q, hX.bb_t_o p q h x]; ring
  have Kbb2 : ∀ h p q, ∑ x ∈ range d.ob, 2⁻¹ * (X.bb_oovv x h p q * u) * X.t_bb p q h x = -(2⁻¹ * u * ∑ n ∈ range d.ob, X.bb_oovv h n p q * X.t_bb p q h n) := by
    intro h p q
    rw [Finset.mul_sum, ← Finset.sum_neg_distrib]
    exact Finset.sum_congr rfl fun x _ => by rw [hX.bb_oovv_o h x]; ring
  have Kbb3 : ∀ h p q, ∑ x ∈ range d.ob, 2⁻¹ * (X.bb_oovv x h q p * u) * X.t_bb p q h x = (2⁻¹ * u * ∑ n ∈ range d.ob, X.bb_oovv h n p q * X.t_bb p q h n) := by
    intro h p q
    rw [Finset.mul_sum]
    exact Finset.sum_congr rfl fun x _ => by rw [hX.bb_oovv_o h x, hX.bb_oovv_v _ _ p q]; ring
  have Kbb4 : ∀ h p q, ∑ x ∈ range d.ob, 2⁻¹ * (X.bb_oovv h x p q * u) * X.t_bb p q x h = -(2⁻¹ * u * ∑ n ∈ range d.ob, X.bb_oovv h n p q * X.t_bb p q h n) := by
    intro h p q
    rw [Finset.mul_sum, ← Finset.sum_neg_distrib]
    exact Finset.sum_congr rfl fun x _ => by rw [hX.bb_t_o p q h x]; ring
  have Kbb5 : ∀ h p q, ∑ x ∈ range d.ob, 2⁻¹ * (X.bb_oovv h x q p * u) * X.t_bb p q x h = (2⁻¹ * u * ∑ n ∈ range d.ob, X.bb_oovv h n p q * X.t_bb p q h n) := by
    intro h p q
    rw [Finset.mul_sum]
    exact Finset.sum_congr rfl fun x _ => by rw [hX.bb_oovv_v _ _ p q, hX.bb_t_o p q h x]; ring
  have Kbb6 : ∀ h p q, ∑ x ∈ range d.ob, 2⁻¹ * (X.bb_oovv h x q p * u) * X.t_bb p q h x = -(2⁻¹ * u * ∑ n ∈ range d.ob, X.bb_oovv h n p q * X.t_bb p q h n) := by
    intro h p q
    rw [Finset.mul_sum, ← Finset.sum_neg_distrib]
    exact Finset.sum_congr rfl fun x _ => by rw [hX.bb_oovv_v _ _ p q]; ring
  have Kbb7 : ∀ h p q, ∑ x ∈ range d.ob, 2⁻¹ * (X.bb_oovv h x p q * u) * X.t_bb p q h x = (2⁻¹ * u * ∑ n ∈ range d.ob, X.bb_oovv h n p q * X.t_bb p q h n) := by
    intro h p q
    rw [Finset.mul_sum]
    exact Finset.sum_congr rfl fun x _ => by ring
  have Ebb0 : ∀ g h p, ∑ x ∈ range d.ub, 2⁻¹ * (X.bb_oovv g h x p * u) * X.t_bb x p g h = (2⁻¹ * u * ∑ e ∈ range d.ub, X.bb_oovv g h p e * X.t_bb p e g h) := by
    intro g h p
    rw [Finset.mul_sum]
    exact Finset.sum_congr rfl fun x _ => by rw [hX.bb_oovv_v _ _ p x, hX.bb_t_v p x]; ring
  have Ebb1 : ∀ g h p, ∑ x ∈ range d.ub, 2⁻¹ * (X.bb_oovv h g x p * u) * X.t_bb x p g h = -(2⁻¹ * u * ∑ e ∈ range d.ub, X.bb_oovv g h p e * X.t_bb p e g h) := by
    intro g h p
    rw [Finset.mul_sum, ← Finset.sum_neg_distrib]
    exact Finset.sum_congr rfl fun x _ => by rw [hX.bb_oovv_o g h, hX.bb_oovv_v _ _ p x, hX.bb_t_v p x]; ring
  have Ebb2 : ∀ g h p, ∑ x ∈ range d.ub, 2⁻¹ * (X.bb_oovv g h x p * u) * X.t_bb p x g h = -(2⁻¹ * u * ∑ e ∈ range d.ub, X.bb_oovv g h p e * X.t_bb p e g h) := by
    intro g h p
    rw [Finset.mul_sum, ← Finset.sum_neg_distrib]
    exact Finset.sum_congr rfl fun x _ => by rw [hX.bb_oovv_v _ _ p x]; ring
  have Ebb3 : ∀ g h p, ∑ x ∈ range d.ub, 2⁻¹ * (X.bb_oovv h g x p * u) * X.t_bb p x g h = (2⁻¹ * u * ∑ e ∈ range d.ub, X.bb_oovv g h p e * X.t_bb p e g h) := by
    intro g h p
    rw [Finset.mul_sum]
    exact Finset.sum_congr rfl fun x _ => by rw [hX.bb_oovv_o g h, hX.bb_oovv_v _ _ p x]; ring
  have Ebb4 : ∀ g h p, ∑ x ∈ range d.ub, 2⁻¹ * (X.bb_oovv g h p x * u) * X.t_bb x p g h = -(2⁻¹ * u * ∑ e ∈ range d.ub, X.bb_oovv g h p e * X.t_bb p e g h) := by
    intro g h p
    rw [Finset.mul_sum, ← Finset.sum_neg_distrib]
    exact Finset.sum_congr rfl fun x _ => by rw [hX.bb_t_v p x]; ring
  have Ebb5 : ∀ g h p, ∑ x ∈ range d.ub, 2⁻¹ * (X.bb_oovv h g p x * u) * X.t_bb x p g h = (2⁻¹ * u * ∑ e ∈ range d.ub, X.bb_oovv g h p e * X.t_bb p e g h) := by
    intro g h p
    rw [Finset.mul_sum]
    exact Finset.sum_congr rfl fun x _ => by rw [hX.bb_oovv_o g h, hX.bb_t_v p x]; ring
  have Ebb6 : ∀ g h p, ∑ x ∈ range d.ub, 2⁻¹ * (X.bb_oovv h g p x * u) * X.t_bb p x g h = -(2⁻¹ * u * ∑ e ∈ range d.ub, X.bb_oovv g h p e * X.t_bb p e g h) := by
    intro g h p
    rw [Finset.mul_sum, ← Finset.sum_neg_distrib]
    exact Finset.sum_congr rfl fun x _ => by rw [hX.bb_oovv_o g h]; ring
  have Ebb7 : ∀ g h p, ∑ x ∈ range d.ub, 2⁻¹ * (X.bb_oovv g h p x * u) * X.t_bb p x g h = (2⁻¹ * u * ∑ e ∈ range d.ub, X.bb_oovv g h p e * X.t_bb p e g h) := by
    intro g h p
    rw [Finset.mul_sum]
    exact Finset.sum_congr rfl fun x _ => by ring
  have M0 : ∀ g h p, ∑ x ∈ range d.ua, X.ab_oovv g h x p * u * X.t_ab x p g h = u * ∑ x ∈ range d.ua, X.ab_oovv g h x p * X.t_ab x p g h := by
    intro g h p
    rw [Finset.mul_sum]
    exact Finset.sum_congr rfl fun x _ => by ring
  have M1 : ∀ g h p, ∑ x ∈ range d.ub, X.ab_oovv g h p x * u * X.t_ab p x g h = u * ∑ x ∈ range d.ub, X.ab_oovv g h p x * X.t_ab p x g h := by
    intro g h p
    rw [Finset.mul_sum]
    exact Finset.sum_congr rfl fun x _ => by ring
  have M2 : ∀ h p q, ∑ x ∈ range d.oa, X.ab_oovv x h p q * u * X.t_ab p q x h = u * ∑ x ∈ range d.oa, X.ab_oovv x h p q * X.t_ab p q x h := by
    intro h p q
    rw [Finset.mul_sum]
    exact Finset.sum_congr rfl fun x _ => by ring
  have M3 : ∀ h p q, ∑ x ∈ range d.ob, X.ab_oovv h x p q * u * X.t_ab p q h x = u * ∑ x ∈ range d.ob, X.ab_oovv h x p q * X.t_ab p q h x := by
    intro h p q
    rw [Finset.mul_sum]
    exact Finset.sum_congr rfl fun x _ => by ring
  simp only [Kaa0, Kaa1, Kaa2, Kaa3, Kaa4, Kaa5, Kaa6, Kaa7, Eaa0, Eaa1, Eaa2, Eaa3, Eaa4, Eaa5, Eaa6, Eaa7, Kbb0, Kbb1, Kbb2, Kbb3, Kbb4, Kbb5, Kbb6, Kbb7, Ebb0, Ebb1, Ebb2, Ebb3, Ebb4, Ebb5, Ebb6, Ebb7, M0, M1, M2, M3, hX.bb_vvvv_r b c b c, hX.bb_oooo_l j k j k, diffC]
  ring

/-- The energy difference of variant D. -/
def diffD (X : Dressed) (d : Dims) (a b c i j k : ℕ) : ℚ :=
  X.b_oo i i + X.b_oo j j + X.b_oo k k - X.b_vv a a
    - X.b_vv b b - X.b_vv c c - X.bb_voov a i i a - X.bb_voov a j j a
    - X.bb_voov a k k a - X.bb_voov b i i b - X.bb_voov b j j b - X.bb_voov b k k b
    - X.bb_voov c i i c - X.bb_voov c j j c - X.bb_voov c k k c - X.bb_oooo i j i j
    - X.bb_oooo i k i k - X.bb_oooo j k j k - X.bb_vvvv a b a b - X.bb_vvvv a c a c
    - X.bb_vvvv b c b c + (∑ e ∈ range d.ub, X.bb_oovv i j a e * X.t_bb a e i j) + (∑ e ∈ range d.ub, X.bb_oovv i k a e * X.t_bb a e i k) + (∑ e ∈ range d.ub, X.bb_oovv j k a e * X.t_bb a e j k)
    + (∑ e ∈ range d.ub, X.bb_oovv i j b e * X.t_bb b e i j) + (∑ e ∈ range d.ub, X.bb_oovv i k b e * X.t_bb b e i k) + (∑ e ∈ range d.ub, X.bb_oovv j k b e * X.t_bb b e j k) + (∑ e ∈ range d.ub, X.bb_oovv i j c e * X.t_bb c e i j)
    + (∑ e ∈ range d.ub, X.bb_oovv i k c e * X.t_bb c e i k) + (∑ e ∈ range d.ub, X.bb_oovv j k c e * X.t_bb c e j k) + (∑ n ∈ range d.ob, X.bb_oovv i n a b * X.t_bb a b i n) + (∑ n ∈ range d.ob, X.bb_oovv i n a c * X.t_bb a c i n)
    + (∑ n ∈ range d.ob, X.bb_oovv i n b c * X.t_bb b c i n) + (∑ n ∈ range d.ob, X.bb_oovv j n a b * X.t_bb a b j n) + (∑ n ∈ range d.ob, X.bb_oovv j n a c * X.t_bb a c j n) + (∑ n ∈ range d.ob, X.bb_oovv j n b c * X.t_bb b c j n)
    + (∑ n ∈ range d.ob, X.bb_oovv k n a b * X.t_bb a b k n) + (∑ n ∈ range d.ob, X.bb_oovv k n a c * X.t_bb a c k n) + (∑ n ∈ range d.ob, X.bb_oovv k n b c * X.t_bb b c k n)

theorem diagonal_d {X : Dressed} (hX : X.Anti) (d : Dims) {a b c i j k : ℕ} (ha : a < d.ub) (hb : b < d.ub) (hc : c < d.ub) (hab : a < b) (hbc : b < c) (hi : i < d.ob) (hj : j < d.ob) (hk : k < d.ob) (hij : i < j) (hjk : j < k) (u : ℚ) :
    resD X d (unitBBB a b c i j k u) a b c i j k = resD X d Triples.zero a b c i j k - u * diffD X d a b c i j k := by
  have nab : a ≠ b := by omega
  have nac : a ≠ c := by omega
  have nbc : b ≠ c := by omega
  have nij : i ≠ j := by omega
  have nik : i ≠ k := by omega
  have njk : j ≠ k := by omega
  simp only [unitBBB, Triples.zero, resD, linBBB, crossBBB, momD1, momD2, vooA, vooA_t3a, vooA_t3b, vvoA, vvoA_t3a, vvoA_t3b, vooB, vooB_t3b, vooB_t3c, ovoB, ovoB_t3b, ovoB_t3c, vvoB, vvoB_t3b, vvoB_t3c, vvvB, vvvB_t3b, vvvB_t3c, vooC, vooC_t3d, vooC_t3c, vvoC, vvoC_t3d, vvoC_t3c, pick2, pick3, alternating3, alternating2, same_self, same_ne nab, same_ne nab.symm, same_ne nac, same_ne nac.symm, same_ne nbc, same_ne nbc.symm, same_ne nij, same_ne nij.symm, same_ne nik, same_ne nik.symm, same_ne njk, same_ne njk.symm,
    one_mul, zero_mul, mul_zero, sub_zero, add_zero, zero_sub, mul_one, zero_add, neg_zero, Finset.sum_const_zero, sub_self, neg_mul, mul_neg, neg_neg]
  simp [same1, mul_sub, sub_mul, mul_add, add_mul, Finset.sum_sub_distrib, Finset.sum_add_distrib, ha, hb, hc, hi, hj, hk]
  have Kbb0 : ∀ h p q, ∑ x ∈ range d.ob, 2⁻¹ * (X.bb_oovv x h p q * u) * X.t_bb p q x h = (2⁻¹ * u * ∑ n ∈ range d.ob, X.bb_oovv h n p q * X.t_bb p q h n) := by
    intro h p q
    rw [Finset.mul_sum]
    exact Finset.sum_congr rfl fun x _ => by rw [hX.bb_oovv_o h x, hX.bb_t_o p q h x]; ring
  have Kbb1 : ∀ h p q, ∑ x ∈ range d.ob, 2⁻¹ * (X.bb_oovv x h q p * u) * X.t_bb p q x h = -(2⁻¹ * u * ∑ n ∈ range d.ob, X.bb_oovv h n p q * X.t_bb p q h n) := by
    intro h p q
    rw [Finset.mul_sum, ← Finset.sum_neg_distrib]
    exact Finset.sum_congr rfl fun x _ => by rw [hX.bb_oovv_o h x, hX.bb_oovv_v _ _ p q, hX.bb_t_o p q h x]; ring
  have Kbb2 : ∀ h p q, ∑ x ∈ range d.ob, 2⁻¹ * (X.bb_oovv x h p q * u) * X.t_bb p q h x = -(2⁻¹ * u * ∑ n ∈ range d.ob, X.bb_oovv h n p q * X.t_bb p q h n) := by
    intro h p q
    rw [Finset.mul_sum, ← Finset.sum_neg_distrib]
    exact Finset.sum_congr rfl fun x _ => by rw [hX.bb_oovv_o h x]; ring
  have Kbb3 : ∀ h p q, ∑ x ∈ range d.ob, 2⁻¹ * (X.bb_oovv x h q p * u) * X.t_bb p q h x = (2⁻¹ * u * ∑ n ∈ range d.ob, X.bb_oovv h n p q * X.t_bb p q h n) := by
    intro h p q
    rw [Finset.mul_sum]
    exact Finset.sum_congr rfl fun x _ => by rw [hX.bb_oovv_o h x, hX.bb_oovv_v _ _ p q]; ring
  have Kbb4 : ∀ h p q, ∑ x ∈ range d.ob, 2⁻¹ * (X.bb_oovv h x p q * u) * X.t_bb p q x h = -(2⁻¹ * u * ∑ n ∈ range d.ob, X.bb_oovv h n p q * X.t_bb p q h n) := by
    intro h p q
    rw [Finset.mul_sum, ← Finset.sum_neg_distrib]
    exact Finset.sum_congr rfl fun x _ => by rw [hX.bb_t_o p q h x]; ring
  have Kbb5 : ∀ h p q, ∑ x ∈ range d.ob, 2⁻¹ * (X.bb_oovv h x q p * u) * X.t_bb p q x h = (2⁻¹ * u * ∑ n ∈ range d.ob, X.bb_oovv h n p q * X.t_bb p q h n) := by
    intro h p q
    rw [Finset.mul_sum]
    exact Finset.sum_congr rfl fun x _ => by rw [hX.bb_oovv_v _ _ p q, hX.bb_t_o p q h x]; ring
  have Kbb6 : ∀ h p q, ∑ x ∈ range d.ob, 2⁻¹ * (X.bb_oovv h x q p * u) * X.t_bb p q h x = -(2⁻¹ * u * ∑ n ∈ range d.ob, X.bb_oovv h n p q * X.t_bb p q h n) := by
    intro h p q
    rw [Finset.mul_sum, ← Finset.sum_neg_distrib]
    exact Finset.sum_congr rfl fun x _ => by rw [hX.bb_oovv_v _ _ p q]; ring
  have Kbb7 : ∀ h p q, ∑ x ∈ range d.ob, 2⁻¹ * (X.bb_oovv h x p q * u) * X.t_bb p q h x = (2⁻¹ * u * ∑ n ∈ range d.ob, X.bb_oovv h n p q * X.t_bb p q h n) := by
    intro h p q
    rw [Finset.mul_sum]
    exact Finset.sum_congr rfl fun x _ => by ring
  have Ebb0 : ∀ g h p, ∑ x ∈ range d.ub, 2⁻¹ * (X.bb_oovv g h x p * u) * X.t_bb x p g h = (2⁻¹ * u * ∑ e ∈ range d.ub, X.bb_oovv g h p e * X.t_bb p e g h) := by
    intro g h p
    rw [Finset.mul_sum]
    exact Finset.sum_congr rfl fun x _ => by rw [hX.bb_oovv_v _ _ p x, hX.bb_t_v p x]; ring
  have Ebb1 : ∀ g h p, ∑ x ∈ range d.ub, 2⁻¹ * (X.bb_oovv h g x p * u) * X.t_bb x p g h = -(2⁻¹ * u * ∑ e ∈ range d.ub, X.bb_oovv g h p e * X.t_bb p e g h) := by
    intro g h p
    rw [Finset.mul_sum, ← Finset.sum_neg_distrib]
    exact Finset.sum_congr rfl fun x _ => by rw [hX.bb_oovv_o g h, hX.bb_oovv_v _ _ p x, hX.bb_t_v p x]; ring
  have Ebb2 : ∀ g h p, ∑ x ∈ range d.ub, 2⁻¹ * (X.bb_oovv g h x p * u) * X.t_bb p x g h = -(2⁻¹ * u * ∑ e ∈ range d.ub, X.bb_oovv g h p e * X.t_bb p e g h) := by
    intro g h p
    rw [Finset.mul_sum, ← Finset.sum_neg_distrib]
    exact Finset.sum_congr rfl fun x _ => by rw [hX.bb_oovv_v _ _ p x]; ring
  have Ebb3 : ∀ g h p, ∑ x ∈ range d.ub, 2⁻¹ * (X.bb_oovv h g x p * u) * X.t_bb p x g h = (2⁻¹ * u * ∑ e ∈ range d.ub, X.bb_oovv g h p e * X.t_bb p e g h) := by
    intro g h p
    rw [Finset.mul_sum]
    exact Finset.sum_congr rfl fun x _ => by rw [hX.bb_oovv_o g h, hX.bb_oovv_v _ _ p x]; ring
  have Ebb4 : ∀ g h p, ∑ x ∈ range d.ub, 2⁻¹ * (X.bb_oovv g h p x * u) * X.t_bb x p g h = -(2⁻¹ * u * ∑ e ∈ range d.ub, X.bb_oovv g h p e * X.t_bb p e g h) := by
    intro g h p
    rw [Finset.mul_sum, ← Finset.sum_neg_distrib]
    exact Finset.sum_congr rfl fun x _ => by rw [hX.bb_t_v p x]; ring
  have Ebb5 : ∀ g h p, ∑ x ∈ range d.ub, 2⁻¹ * (X.bb_oovv h g p x * u) * X.t_bb x p g h = (2⁻¹ * u * ∑ e ∈ range d.ub, X.bb_oovv g h p e * X.t_bb p e g h) := by
    intro g h p
    rw [Finset.mul_sum]
    exact Finset.sum_congr rfl fun x _ => by rw [hX.bb_oovv_o g h, hX.bb_t_v p x]; ring
  have Ebb6 : ∀ g h p, ∑ x ∈ range d.ub, 2⁻¹ * (X.bb_oovv h g p x * u) * X.t_bb p x g h = -(2⁻¹ * u * ∑ e ∈ range d.ub, X.bb_oovv g h p e * X.t_bb p e g h) := by
    intro g h p
    rw [Finset.mul_sum, ← Finset.sum_neg_distrib]
    exact Finset.sum_congr rfl fun x _ => by rw [hX.bb_oovv_o g h]; ring
  have Ebb7 : ∀ g h p, ∑ x ∈ range d.ub, 2⁻¹ * (X.bb_oovv g h p x * u) * X.t_bb p x g h = (2⁻¹ * u * ∑ e ∈ range d.ub, X.bb_oovv g h p e * X.t_bb p e g h) := by
    intro g h p
    rw [Finset.mul_sum]
    exact Finset.sum_congr rfl fun x _ => by ring
  simp only [Kbb0, Kbb1, Kbb2, Kbb3, Kbb4, Kbb5, Kbb6, Kbb7, Ebb0, Ebb1, Ebb2, Ebb3, Ebb4, Ebb5, Ebb6, Ebb7, hX.bb_vvvv_r a b a b, hX.bb_vvvv_r a c a c, hX.bb_vvvv_r b c b c, hX.bb_oooo_l i j i j, hX.bb_oooo_l i k i k, hX.bb_oooo_l j k j k, diffD]
  ring

end Ccpy.CrCc
