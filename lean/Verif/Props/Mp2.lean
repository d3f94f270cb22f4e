import Verif.Model.Mp2
import Verif.Spec.SpinOrbital
import Verif.Lemmas.UniqueSums
import Mathlib.Tactic.FieldSimp
import Mathlib.Algebra.BigOperators.Intervals

/-! C44: the second-order energy of the loops over unique pairs is the spin-orbital second-order energy. -/

namespace Ccpy.Mp2
open Finset Ccpy.Spec

variable {K : Type*} [Field K]

theorem doLoop_sum {lo hi : ℕ} {body : ℕ → K → K} {f : ℕ → K} (h : ∀ i x, body i x = x + f i) (acc : K) :
    doLoop lo hi body acc = acc + ∑ i ∈ Ico lo (hi + 1), f i := by
  unfold doLoop
  simp only [h]
  rw [sum_Ico_eq_sum_range]
  generalize hi + 1 - lo = n
  induction n generalizing lo acc with
  | zero => simp
  | succ n ih =>
    rw [List.range'_succ, List.foldl_cons, ih, sum_range_succ' , add_assoc, add_comm (f lo), Nat.add_zero]
    congr 2
    exact sum_congr rfl fun i _ => by rw [show lo + 1 + i = lo + (i + 1) by omega]

theorem sum_Ico_one (n : ℕ) (f : ℕ → K) : ∑ i ∈ Ico 1 (n + 1), f i = ∑ i ∈ range n, f (i + 1) := by
  rw [sum_Ico_eq_sum_range]
  exact sum_congr rfl fun i _ => by rw [Nat.add_comm]

theorem loop_pairs (n : ℕ) (F : ℕ → ℕ → K) :
    ∑ i ∈ Ico 1 (n + 1), ∑ j ∈ Ico (i + 1) (n + 1), F i j = ∑ x ∈ uniquePairs n, F (x.1 + 1) (x.2 + 1) := by
  unfold uniquePairs
  rw [sum_Ico_one, sum_filter, sum_product]
  refine sum_congr rfl fun i _ => ?_
  rw [← sum_filter (s := range n) (p := fun j => i < j), sum_Ico_eq_sum_range]
  refine sum_nbij' (fun k => i + 1 + k) (fun j => j - (i + 1)) ?_ ?_ ?_ ?_ ?_
  · intro k hk; simp only [mem_range, mem_filter] at hk ⊢; omega
  · intro k hk; simp only [mem_range, mem_filter] at hk ⊢; omega
  · intro k hk; simp only [mem_range] at hk; omega
  · intro k hk; simp only [mem_filter, mem_range] at hk; omega
  · intro k hk
    show F (i + 1) (i + 1 + 1 + k) = F (i + 1) (i + 1 + k + 1)
    rw [show i + 1 + 1 + k = i + 1 + k + 1 by omega]

theorem likeSpin_eq (foo fvv : ℕ → ℕ → K) (oovv vvoo : ℕ → ℕ → ℕ → ℕ → K) (no nu : ℕ) (e : K) :
    likeSpin foo fvv oovv vvoo no nu e = e + ∑ h ∈ uniquePairs no, ∑ p ∈ uniquePairs nu,
      oovv (h.1 + 1) (h.2 + 1) (p.1 + 1) (p.2 + 1) * (vvoo (p.1 + 1) (p.2 + 1) (h.1 + 1) (h.2 + 1) /
        (foo (h.1 + 1) (h.1 + 1) + foo (h.2 + 1) (h.2 + 1) - fvv (p.1 + 1) (p.1 + 1) - fvv (p.2 + 1) (p.2 + 1))) := by
  unfold likeSpin
  rw [doLoop_sum (f := fun i => ∑ j ∈ Ico (i + 1) (no + 1), ∑ a ∈ Ico 1 (nu + 1), ∑ b ∈ Ico (a + 1) (nu + 1),
    oovv i j a b * (vvoo a b i j / (foo i i + foo j j - fvv a a - fvv b b)))]
  · simp only [fun i j => loop_pairs nu fun a b => oovv i j a b * (vvoo a b i j / (foo i i + foo j j - fvv a a - fvv b b))]
    rw [loop_pairs no fun i j => ∑ p ∈ uniquePairs nu,
      oovv i j (p.1 + 1) (p.2 + 1) * (vvoo (p.1 + 1) (p.2 + 1) i j /
        (foo i i + foo j j - fvv (p.1 + 1) (p.1 + 1) - fvv (p.2 + 1) (p.2 + 1)))]
  · intro i x
    exact doLoop_sum (fun j x => doLoop_sum (fun a x => doLoop_sum (fun b x => rfl) x) x) x

theorem mixedSpin_eq (v : Ints K) (noa nob nua nub : ℕ) (e : K) :
    mixedSpin v noa nob nua nub e = e + ∑ i ∈ range noa, ∑ j ∈ range nob, ∑ a ∈ range nua, ∑ b ∈ range nub,
      v.vB_oovv (i + 1) (j + 1) (a + 1) (b + 1) * (v.vB_vvoo (a + 1) (b + 1) (i + 1) (j + 1) /
        (v.fA_oo (i + 1) (i + 1) + v.fB_oo (j + 1) (j + 1) - v.fA_vv (a + 1) (a + 1) - v.fB_vv (b + 1) (b + 1))) := by
  unfold mixedSpin
  rw [doLoop_sum (f := fun i => ∑ j ∈ Ico 1 (nob + 1), ∑ a ∈ Ico 1 (nua + 1), ∑ b ∈ Ico 1 (nub + 1),
    v.vB_oovv i j a b * (v.vB_vvoo a b i j / (v.fA_oo i i + v.fB_oo j j - v.fA_vv a a - v.fB_vv b b)))]
  · simp only [sum_Ico_one]
  · intro i x
    exact doLoop_sum (fun j x => doLoop_sum (fun a x => doLoop_sum (fun b x => rfl) x) x) x

/-- Arrays of the routine with indices starting at 0. -/
def shift2 (f : ℕ → ℕ → K) : ℕ → ℕ → K := fun p q => f (p + 1) (q + 1)
def shift4 (f : ℕ → ℕ → ℕ → ℕ → K) : ℕ → ℕ → ℕ → ℕ → K := fun p q r s => f (p + 1) (q + 1) (r + 1) (s + 1)

/-- Second-order energy in spin orbitals,
`¼ Σ ⟨ij‖ab⟩ ⟨ab‖ij⟩ / (ε_i + ε_j − ε_a − ε_b)`. -/
def spinOrbitalMp2 (no nu : Bool → ℕ) (oovv vvoo : SO → SO → SO → SO → K) (eo ev : SO → K) : K :=
  1 / 4 * soSum no fun i => soSum no fun j => soSum nu fun a => soSum nu fun b =>
    oovv i j a b * vvoo a b i j / (eo i + eo j - ev a - ev b)

variable [CharZero K]

/-- C44.  For antisymmetric like-spin integrals the routine returns the spin-orbital second-order energy. -/
theorem C44_mp2 (v : Ints K) (no nu : Bool → ℕ) (h1 : AntisymD (shift4 v.vA_oovv)) (h2 : AntisymD (shift4 v.vA_vvoo))
    (h3 : AntisymD (shift4 v.vC_oovv)) (h4 : AntisymD (shift4 v.vC_vvoo)) :
    mp2 v (no false) (no true) (nu false) (nu true) =
      spinOrbitalMp2 no nu
        (spinOrbital4 (shift4 v.vA_oovv) (shift4 v.vB_oovv) (shift4 v.vC_oovv))
        (spinOrbital4 (shift4 v.vA_vvoo) (shift4 v.vB_vvoo) (shift4 v.vC_vvoo))
        (fun i => spinOrbital2 (shift2 v.fA_oo) (shift2 v.fB_oo) i i)
        (fun a => spinOrbital2 (shift2 v.fA_vv) (shift2 v.fB_vv) a a) := by
  have n4 : (4 : K) ≠ 0 := OfNat.ofNat_ne_zero 4
  have like : ∀ (no nu : ℕ) (foo fvv : ℕ → ℕ → K) (oovv vvoo : ℕ → ℕ → ℕ → ℕ → K), AntisymD oovv → AntisymD vvoo →
      ∑ i ∈ range no, ∑ j ∈ range no, ∑ a ∈ range nu, ∑ b ∈ range nu,
        oovv i j a b * vvoo a b i j / (foo i i + foo j j - fvv a a - fvv b b) =
      4 * ∑ h ∈ uniquePairs no, ∑ p ∈ uniquePairs nu, oovv h.1 h.2 p.1 p.2 * (vvoo p.1 p.2 h.1 h.2 /
        (foo h.1 h.1 + foo h.2 h.2 - fvv p.1 p.1 - fvv p.2 p.2)) := by
    intro no nu foo fvv oovv vvoo ho hv
    have inner : ∀ i j, ∑ a ∈ range nu, ∑ b ∈ range nu,
        oovv i j a b * vvoo a b i j / (foo i i + foo j j - fvv a a - fvv b b) =
        2 * ∑ p ∈ uniquePairs nu, oovv i j p.1 p.2 * vvoo p.1 p.2 i j /
          (foo i i + foo j j - fvv p.1 p.1 - fvv p.2 p.2) := by
      intro i j
      refine sum_pairs (F := fun a b => oovv i j a b * vvoo a b i j / (foo i i + foo j j - fvv a a - fvv b b)) ?_ ?_
      · intro a b
        have e1 := ho.holes i j a b
        have e2 := hv.particles i j a b
        simp only at e1 e2
        rw [e1, e2, neg_mul_neg, sub_right_comm]
      · intro a
        have e1 := (ho.holes i j).diag a
        rw [e1]; simp
    simp only [inner]
    rw [sum_pairs, mul_sum, mul_sum]
    · refine sum_congr rfl fun h _ => ?_
      simp only [mul_div_assoc]
      ring
    · intro i j
      have e1 := fun a b => ho.particles a b i j
      have e2 := fun a b => hv.holes a b i j
      simp only at e1 e2
      simp only [e1, e2, neg_mul_neg, add_comm (foo j j)]
    · intro i
      have e1 := fun a b => (ho.particles a b).diag i
      simp [e1]
  have hA := like (no false) (nu false) (shift2 v.fA_oo) (shift2 v.fA_vv) _ _ h1 h2
  have hB := like (no true) (nu true) (shift2 v.fB_oo) (shift2 v.fB_vv) _ _ h3 h4
  unfold mp2
  rw [likeSpin_eq, mixedSpin_eq, likeSpin_eq]
  unfold spinOrbitalMp2 soSum
  simp only [Fintype.sum_bool, spinOrbital4, spinOrbital2, zero_mul, zero_div, sum_const_zero, add_zero, zero_add]
  simp only [sum_add_distrib]
  set M := ∑ i ∈ range (no false), ∑ j ∈ range (no true), ∑ a ∈ range (nu false), ∑ b ∈ range (nu true),
    v.vB_oovv (i + 1) (j + 1) (a + 1) (b + 1) * (v.vB_vvoo (a + 1) (b + 1) (i + 1) (j + 1) /
      (v.fA_oo (i + 1) (i + 1) + v.fB_oo (j + 1) (j + 1) - v.fA_vv (a + 1) (a + 1) - v.fB_vv (b + 1) (b + 1)))
    with hM
  have m1 : ∑ j ∈ range (no true), ∑ i ∈ range (no false), ∑ b ∈ range (nu true), ∑ a ∈ range (nu false),
      shift4 v.vB_oovv i j a b * shift4 v.vB_vvoo a b i j /
        (shift2 v.fB_oo j j + shift2 v.fA_oo i i - shift2 v.fB_vv b b - shift2 v.fA_vv a a) = M := by
    rw [sum_comm]
    refine sum_congr rfl fun i _ => sum_congr rfl fun j _ => ?_
    rw [sum_comm]
    refine sum_congr rfl fun a _ => sum_congr rfl fun b _ => ?_
    simp only [shift4, shift2]
    rw [mul_div_assoc, add_comm (v.fB_oo _ _), sub_right_comm]
  have m2 : ∑ j ∈ range (no true), ∑ i ∈ range (no false), ∑ a ∈ range (nu false), ∑ b ∈ range (nu true),
      -shift4 v.vB_oovv i j a b * -shift4 v.vB_vvoo a b i j /
        (shift2 v.fB_oo j j + shift2 v.fA_oo i i - shift2 v.fA_vv a a - shift2 v.fB_vv b b) = M := by
    rw [sum_comm]
    refine sum_congr rfl fun i _ => sum_congr rfl fun j _ => sum_congr rfl fun a _ => sum_congr rfl fun b _ => ?_
    simp only [shift4, shift2]
    rw [neg_mul_neg, mul_div_assoc, add_comm (v.fB_oo _ _)]
  have m3 : ∑ i ∈ range (no false), ∑ j ∈ range (no true), ∑ b ∈ range (nu true), ∑ a ∈ range (nu false),
      -shift4 v.vB_oovv i j a b * -shift4 v.vB_vvoo a b i j /
        (shift2 v.fA_oo i i + shift2 v.fB_oo j j - shift2 v.fB_vv b b - shift2 v.fA_vv a a) = M := by
    refine sum_congr rfl fun i _ => sum_congr rfl fun j _ => ?_
    rw [sum_comm]
    refine sum_congr rfl fun a _ => sum_congr rfl fun b _ => ?_
    simp only [shift4, shift2]
    rw [neg_mul_neg, mul_div_assoc, sub_right_comm]
  have m4 : ∑ i ∈ range (no false), ∑ j ∈ range (no true), ∑ a ∈ range (nu false), ∑ b ∈ range (nu true),
      shift4 v.vB_oovv i j a b * shift4 v.vB_vvoo a b i j /
        (shift2 v.fA_oo i i + shift2 v.fB_oo j j - shift2 v.fA_vv a a - shift2 v.fB_vv b b) = M := by
    refine sum_congr rfl fun i _ => sum_congr rfl fun j _ => sum_congr rfl fun a _ => sum_congr rfl fun b _ => ?_
    simp only [shift4, shift2]
    rw [mul_div_assoc]
  rw [m1, m2, m3, m4, hA, hB]
  simp only [shift4, shift2]
  field_simp
  ring

/-- Integrals of the example: two alpha and one beta electrons. -/
def exInts : Ints ℚ where
  fA_oo i j := if i = j then -3 + i else 1
  fA_vv a b := if a = b then 2 * a else 1
  fB_oo _ _ := -2
  fB_vv a b := a + b
  vA_oovv i j a b := (i - j) * (a - b)
  vA_vvoo a b i j := (i - j) * (a - b) * 2
  vB_oovv i j a b := i + 2 * j - a * b
  vB_vvoo a b i j := i + 2 * j - a * b
  vC_oovv i j a b := (i - j) * (a - b)
  vC_vvoo a b i j := (i - j) * (a - b)

example : AntisymD (shift4 exInts.vA_oovv) ∧ AntisymD (shift4 exInts.vC_vvoo) :=
  ⟨⟨fun i j a b => by simp only [shift4, exInts]; ring, fun i j a b => by simp only [shift4, exInts]; ring⟩,
    ⟨fun i j a b => by simp only [shift4, exInts]; ring, fun i j a b => by simp only [shift4, exInts]; ring⟩⟩

example : mp2 exInts 2 1 2 3 = -760651 / 180180 := by decide +kernel

end Ccpy.Mp2
