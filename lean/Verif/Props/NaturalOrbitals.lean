import Verif.Lemmas.NaturalOrbitals
import Mathlib.Algebra.BigOperators.Field
import Mathlib.Algebra.Order.AbsoluteValue.Basic
import Mathlib.Algebra.Order.Ring.Rat
import Mathlib.Tactic.NormNum

/-! C89: the transformation to natural orbitals. -/

namespace Ccpy.NatOrbs
open Finset (range)

section
variable {K : Type*} [Field K] [LinearOrder K] {n pg : ℕ} {irr : ℕ → ℕ} (hpg : ∀ p < n, irr p < pg) {eig : ℕ → Mat K → Eig K} {rdm : Mat K}
  {argsort : (ℕ → K) → ℕ → ℕ} (hs : SymmetryAdapted n irr rdm)
  (he : ∀ s, Returns (symIndex n irr s).length (irrepBlock n irr rdm s) (eig (symIndex n irr s).length (irrepBlock n irr rdm s)))
  (ha : Sorts n (fill n pg irr eig rdm).occ (argsort (fill n pg irr eig rdm).occ))
include hpg hs he ha

/-- The columns of the two arrays are the right and left eigenvectors of the whole density matrix, with the occupation numbers as
eigenvalues in an order in which they do not increase. -/
theorem C89_vectors :
    RightVectors n rdm (natorbs n pg irr eig argsort rdm).occ (natorbs n pg irr eig argsort rdm).right ∧
    LeftVectors n rdm (natorbs n pg irr eig argsort rdm).occ (natorbs n pg irr eig argsort rdm).left ∧
    ∀ k l, k ≤ l → l < n → (natorbs n pg irr eig argsort rdm).occ l ≤ (natorbs n pg irr eig argsort rdm).occ k := by
  refine ⟨fun c hc i hi => ?_, fun c hc j hj => ?_, fun k l h hl => ?_⟩
  · exact fill_right hpg hs he _ (ha.1 _ (by omega)) i hi
  · have e := fill_left hpg hs he (argsort (fill n pg irr eig rdm).occ (n - 1 - c)) (ha.1 _ (by omega)) j hj
    simp only [natorbs, biorthogonalize, sortOrbs, div_mul_eq_mul_div]
    rw [← Finset.sum_div, e, mul_div_assoc]
  · exact ha.2.2 _ _ (by omega) (by omega)

/-- The vectors are biorthonormal if the occupation numbers of every irrep are different and `eig` returns left and right vectors
with a positive product. Missing: products of the other sign, for which it is false, and equal occupation numbers. -/
theorem C89_biorthonormal_partial [IsStrictOrderedRing K]
    (hd : ∀ s, ∀ c < (symIndex n irr s).length, ∀ d < (symIndex n irr s).length, c ≠ d →
      (eig (symIndex n irr s).length (irrepBlock n irr rdm s)).vals c ≠ (eig (symIndex n irr s).length (irrepBlock n irr rdm s)).vals d)
    (hp : ∀ s, ∀ c < (symIndex n irr s).length, 0 < ∑ k ∈ range (symIndex n irr s).length,
      (eig (symIndex n irr s).length (irrepBlock n irr rdm s)).left k c * (eig (symIndex n irr s).length (irrepBlock n irr rdm s)).right k c) :
    Biorthonormal n (natorbs n pg irr eig argsort rdm).left (natorbs n pg irr eig argsort rdm).right := by
  intro p hpn q hqn
  set σ := fun k => argsort (fill n pg irr eig rdm).occ (n - 1 - k) with hσ
  have sp : σ p < n := ha.1 _ (by omega)
  have sq : σ q < n := ha.1 _ (by omega)
  have pos' : 0 < ∑ i ∈ range n, (fill n pg irr eig rdm).left i (σ p) * (fill n pg irr eig rdm).right i (σ p) := by
    rw [fill_dot hpg sp sp rfl]
    exact hp _ _ (pos_lt sp)
  have e : ∑ i ∈ range n, (natorbs n pg irr eig argsort rdm).left i p * (natorbs n pg irr eig argsort rdm).right i q =
      (∑ i ∈ range n, (fill n pg irr eig rdm).left i (σ p) * (fill n pg irr eig rdm).right i (σ q)) /
        |∑ i ∈ range n, (fill n pg irr eig rdm).left i (σ p) * (fill n pg irr eig rdm).right i (σ p)| := by
    simp only [natorbs, biorthogonalize, sortOrbs, div_mul_eq_mul_div, hσ]
    rw [← Finset.sum_div]
  rw [e, abs_of_pos pos']
  split
  · rename_i h
    subst h
    exact div_self pos'.ne'
  · rename_i h
    have ne : σ p ≠ σ q := fun c => h (by have := ha.2.1 _ (by omega) _ (by omega) c; omega)
    refine div_eq_zero_iff.2 (Or.inl ?_)
    by_cases hi : irr (σ p) = irr (σ q)
    · refine orthogonal (fill_left hpg hs he) (fill_right hpg hs he) sp sq ?_
      rw [fill_occ hpg eig rdm sp, fill_occ hpg eig rdm sq, hi]
      refine hd _ _ (by rw [← hi]; exact pos_lt sp) _ (pos_lt sq) fun c => ne (pos_inj sp sq hi c)
    · exact fill_other hpg sp sq hi

/-- For equal numbers of occupied orbitals of the two spins the elements between occupied and unoccupied orbitals are left out of the
density matrix, and under the conditions of the theorem above every natural orbital is a combination of occupied orbitals only or of
unoccupied orbitals only. -/
theorem C89_no_mixing [IsStrictOrderedRing K] {no : ℕ} {a b : OneBody K} (hr : rdm = rdmMatrix no no a b)
    (hd : ∀ s, ∀ c < (symIndex n irr s).length, ∀ d < (symIndex n irr s).length, c ≠ d →
      (eig (symIndex n irr s).length (irrepBlock n irr rdm s)).vals c ≠ (eig (symIndex n irr s).length (irrepBlock n irr rdm s)).vals d)
    (hp : ∀ s, ∀ c < (symIndex n irr s).length, 0 < ∑ k ∈ range (symIndex n irr s).length,
      (eig (symIndex n irr s).length (irrepBlock n irr rdm s)).left k c * (eig (symIndex n irr s).length (irrepBlock n irr rdm s)).right k c)
    {c : ℕ} (hc : c < n) :
    (∀ i < n, no ≤ i → (natorbs n pg irr eig argsort rdm).right i c = 0) ∨
      ∀ i < n, i < no → (natorbs n pg irr eig argsort rdm).right i c = 0 := by
  have v := C89_vectors hpg hs he ha
  refine no_mixing (fun i _ j _ h => ?_) v.2.1 v.1 (C89_biorthonormal_partial hpg hs he ha hd hp) hc fun p hpn ne => ?_
  · rw [hr]
    simp only [rdmMatrix, rdmSpin, mul_zero]
    by_cases ci : i < no
    · simp [ci, h.1 ci]
    · have cj : j < no := by by_contra q; exact ci (h.2 q)
      simp [ci, cj]
  · have sp : argsort (fill n pg irr eig rdm).occ (n - 1 - p) < n := ha.1 _ (by omega)
    have sc : argsort (fill n pg irr eig rdm).occ (n - 1 - c) < n := ha.1 _ (by omega)
    have ne' : argsort (fill n pg irr eig rdm).occ (n - 1 - p) ≠ argsort (fill n pg irr eig rdm).occ (n - 1 - c) := fun e =>
      ne (by have := ha.2.1 _ (by omega) _ (by omega) e; omega)
    simp only [natorbs, biorthogonalize, sortOrbs]
    by_cases hi : irr (argsort (fill n pg irr eig rdm).occ (n - 1 - p)) = irr (argsort (fill n pg irr eig rdm).occ (n - 1 - c))
    · left
      rw [fill_occ hpg eig rdm sp, fill_occ hpg eig rdm sc, hi]
      exact hd _ _ (by rw [← hi]; exact pos_lt sp) _ (pos_lt sc) fun e => ne' (pos_inj sp sc hi e)
    · right
      intro i hin
      rw [(fill_vectors hpg eig rdm hin sp).1, (fill_vectors hpg eig rdm hin sc).2]
      split
      · rename_i q
        rw [if_neg fun q' => hi (q.symm.trans q'), mul_zero]
      · rw [zero_div, zero_mul]

end

/-- The program divides by the absolute value of the product of the left and the right vector. The signs that an eigensolver gives to
left and right vectors are independent, and with a product of the other sign the vectors are not biorthonormal: already for one
orbital the transformed one-body integral is the negative of the integral. -/
theorem C89_biorthonormal_fails : ∃ (n pg : ℕ) (irr : ℕ → ℕ) (eig : ℕ → Mat ℚ → Eig ℚ) (argsort : (ℕ → ℚ) → ℕ → ℕ) (rdm : Mat ℚ),
    (∀ p < n, irr p < pg) ∧ SymmetryAdapted n irr rdm ∧
    (∀ s, Returns (symIndex n irr s).length (irrepBlock n irr rdm s) (eig (symIndex n irr s).length (irrepBlock n irr rdm s))) ∧
    Sorts n (fill n pg irr eig rdm).occ (argsort (fill n pg irr eig rdm).occ) ∧
    ¬ Biorthonormal n (natorbs n pg irr eig argsort rdm).left (natorbs n pg irr eig argsort rdm).right ∧
    ∀ h : Mat ℚ, e1intNo n 0 (natorbs n pg irr eig argsort rdm) h 0 0 = -h 0 0 := by
  have hl : (natorbs 1 1 (fun _ => 0) (fun _ A => ⟨fun _ => A 0 0, fun _ _ => -1, fun _ _ => 1⟩) (fun _ k => k) fun _ _ => (2 : ℚ)).left 0 0 = -1 := by
    decide +kernel
  have hr : (natorbs 1 1 (fun _ => 0) (fun _ A => ⟨fun _ => A 0 0, fun _ _ => -1, fun _ _ => 1⟩) (fun _ k => k) fun _ _ => (2 : ℚ)).right 0 0 = 1 := by
    decide +kernel
  refine ⟨1, 1, fun _ => 0, fun _ A => ⟨fun _ => A 0 0, fun _ _ => -1, fun _ _ => 1⟩, fun _ k => k, fun _ _ => 2, fun _ _ => Nat.one_pos,
    fun _ _ _ _ h => absurd rfl h, fun s => ?_, ⟨fun _ h => h, fun _ _ _ _ h => h, fun k l h hl => ?_⟩, fun h => ?_, fun h => ?_⟩
  · have len : (symIndex 1 (fun _ => 0) s).length ≤ 1 := by
      rw [symIndex_eq]; exact (List.length_filter_le _ _).trans (by simp)
    generalize (symIndex 1 (fun _ => 0) s).length = m at *
    obtain rfl | rfl : m = 0 ∨ m = 1 := by omega
    · simp [Returns, RightVectors, LeftVectors]
    · simp [Returns, RightVectors, LeftVectors, irrepBlock]
  · rw [show k = l by omega]
  · have := h 0 (by omega) 0 (by omega)
    rw [Finset.sum_range_one, hl, hr] at this
    norm_num at this
  · simp only [e1intNo, pad2, Finset.sum_range_one, Nat.zero_le, and_self, if_true, Nat.sub_zero]
    rw [hl, hr]
    ring

section
variable {K : Type*} [Field K] {n : ℕ} {o : Orbs K}

/-- With biorthonormal vectors the transformed one-body integrals represent the same operator: applying it to an orbital gives the
combination of orbitals that the integrals say. The places of frozen orbitals are zero. -/
theorem C89_one_body (h : Biorthonormal n o.left o.right) (nfrozen : ℕ) (f : Mat K) {k q : ℕ} (hk : k < n) :
    ∑ p ∈ range n, o.right k p * e1intNo n nfrozen o f (p + nfrozen) (q + nfrozen) = ∑ j ∈ range n, f k j * o.right j q ∧
    ∀ p q, p < nfrozen ∨ q < nfrozen → e1intNo n nfrozen o f p q = 0 := by
  refine ⟨?_, fun p q c => if_neg (by omega)⟩
  have e : ∀ p, e1intNo n nfrozen o f (p + nfrozen) (q + nfrozen) = ∑ i ∈ range n, o.left i p * ∑ j ∈ range n, f i j * o.right j q := fun p => by
    unfold e1intNo pad2
    rw [if_pos (by omega)]
    simp only [Nat.add_sub_cancel, Finset.mul_sum, mul_assoc]
  simp only [e]
  exact resolve h hk fun i => ∑ j ∈ range n, f i j * o.right j q

/-- The same for the two-body integrals. -/
theorem C89_two_body (h : Biorthonormal n o.left o.right) (nfrozen : ℕ) (v : ℕ → ℕ → ℕ → ℕ → K) {k l r s : ℕ} (hk : k < n) (hl : l < n) :
    ∑ p ∈ range n, ∑ q ∈ range n, o.right k p * o.right l q *
        e2intNo n nfrozen o v (p + nfrozen) (q + nfrozen) (r + nfrozen) (s + nfrozen) =
      ∑ i ∈ range n, ∑ j ∈ range n, v k l i j * o.right i r * o.right j s ∧
    ∀ p q r s, p < nfrozen ∨ q < nfrozen ∨ r < nfrozen ∨ s < nfrozen → e2intNo n nfrozen o v p q r s = 0 := by
  refine ⟨?_, fun p q r s c => if_neg (by omega)⟩
  have e : ∀ p q, e2intNo n nfrozen o v (p + nfrozen) (q + nfrozen) (r + nfrozen) (s + nfrozen) =
      ∑ j ∈ range n, o.left j q * ∑ i ∈ range n, o.left i p * ∑ k ∈ range n, ∑ l ∈ range n, v i j k l * o.right k r * o.right l s := fun p q => by
    unfold e2intNo pad4
    rw [if_pos (by omega)]
    simp only [Nat.add_sub_cancel, Finset.mul_sum]
    rw [Finset.sum_comm]
    refine Finset.sum_congr rfl fun j _ => Finset.sum_congr rfl fun i _ => Finset.sum_congr rfl fun k _ => Finset.sum_congr rfl fun l _ => ?_
    ring
  have e' : ∀ p, ∑ q ∈ range n, o.right k p * o.right l q *
        e2intNo n nfrozen o v (p + nfrozen) (q + nfrozen) (r + nfrozen) (s + nfrozen) =
      o.right k p * ∑ i ∈ range n, o.left i p * ∑ k ∈ range n, ∑ l' ∈ range n, v i l k l' * o.right k r * o.right l' s := fun p => by
    simp only [e, mul_assoc (o.right k p)]
    rw [← Finset.mul_sum, resolve h hl fun j => ∑ i ∈ range n, o.left i p * ∑ k ∈ range n, ∑ l ∈ range n, v i j k l * o.right k r * o.right l s]
  simp only [e']
  exact resolve h hk fun i => ∑ k ∈ range n, ∑ l' ∈ range n, v i l k l' * o.right k r * o.right l' s

/-- The array that is transformed is the whole array of integrals when the blocks are its slices. -/
theorem C89_slices {noa nob : ℕ} {ab : Bool → Bool → Bool → Bool → ℕ → ℕ → ℕ → ℕ → K} {v : ℕ → ℕ → ℕ → ℕ → K}
    (h : ∀ o₁ o₂ o₃ o₄ p q r s, ab o₁ o₂ o₃ o₄ p q r s =
      v (if o₁ then p else p + noa) (if o₂ then q else q + nob) (if o₃ then r else r + noa) (if o₄ then s else s + nob)) (p q r s : ℕ) :
    twoBody noa nob ab p q r s = v p q r s := by
  have e : ∀ m p : ℕ, (if decide (p < m) = true then (if p < m then p else p - m) else (if p < m then p else p - m) + m) = p := fun m p => by
    by_cases c : p < m
    · simp [c]
    · simp [c]; omega
  unfold twoBody
  rw [h, e, e, e, e]

/-- The one-body array is the difference of the Fock matrix and the mean field. -/
theorem C89_bare {noa : ℕ} {F G : Mat K} {H H' : OneBody K}
    (hoo : ∀ p q, H.oo p q = F p q ∧ H'.oo p q = G p q) (hov : ∀ p q, H.ov p q = F p (q + noa) ∧ H'.ov p q = G p (q + noa))
    (hvo : ∀ p q, H.vo p q = F (p + noa) q ∧ H'.vo p q = G (p + noa) q)
    (hvv : ∀ p q, H.vv p q = F (p + noa) (q + noa) ∧ H'.vv p q = G (p + noa) (q + noa)) (p q : ℕ) :
    oneBody noa H H' p q = F p q - G p q := by
  unfold oneBody
  split <;> split
  · rw [(hoo p q).1, (hoo p q).2]
  · rw [(hov _ _).1, (hov _ _).2, Nat.sub_add_cancel (by omega)]
  · rw [(hvo _ _).1, (hvo _ _).2, Nat.sub_add_cancel (by omega)]
  · rw [(hvv _ _).1, (hvv _ _).2, Nat.sub_add_cancel (by omega), Nat.sub_add_cancel (by omega)]

end

/-! ### A case: three orbitals, the first and the last of one irrep -/

namespace Case

/-- A density matrix that is not symmetric. -/
def rdm : Mat ℚ := fun p q => if p = 1 ∧ q = 1 then 3 / 2 else if p = 0 ∧ q = 0 then 1 / 2 else if p = 0 ∧ q = 2 then 9 / 8
  else if p = 2 ∧ q = 2 then 2 else 0

def irr : ℕ → ℕ := fun p => p % 2

/-- Eigenvectors of the two blocks. -/
def eig : ℕ → Mat ℚ → Eig ℚ := fun m A =>
  if m = 2 then ⟨fun c => if c = 0 then 2 else 1 / 2, fun i c => if c = 0 then (if i = 0 then 0 else 1) else if i = 0 then 4 / 5 else -3 / 5,
    fun i c => if c = 0 then (if i = 0 then 3 / 5 else 4 / 5) else if i = 0 then 1 else 0⟩
  else ⟨fun _ => A 0 0, fun _ _ => 1, fun _ _ => 1⟩

def argsort : (ℕ → ℚ) → ℕ → ℕ := fun _ k => 2 - k

theorem empty (s : ℕ) (h : 2 ≤ s) : (symIndex 3 irr s).length = 0 := by
  rw [List.length_eq_zero_iff, List.eq_nil_iff_forall_not_mem]
  intro p hp
  have := (mem_symIndex.1 hp).2
  unfold irr at this
  omega

theorem returns (s : ℕ) : Returns (symIndex 3 irr s).length (irrepBlock 3 irr rdm s) (eig (symIndex 3 irr s).length (irrepBlock 3 irr rdm s)) := by
  rcases Nat.lt_or_ge s 2 with h | h
  · obtain rfl | rfl : s = 0 ∨ s = 1 := by omega
    · unfold Returns RightVectors LeftVectors; decide +kernel
    · unfold Returns RightVectors LeftVectors; decide +kernel
  · rw [empty s h]
    simp [Returns, RightVectors, LeftVectors]

theorem sorts : Sorts 3 (fill 3 2 irr eig rdm).occ (argsort (fill 3 2 irr eig rdm).occ) := by
  refine ⟨fun k _ => by unfold argsort; omega, fun k hk l hl h => by unfold argsort at h; omega, fun k l h hl => ?_⟩
  have : ∀ l < 3, ∀ k < l + 1, (fill 3 2 irr eig rdm).occ (2 - k) ≤ (fill 3 2 irr eig rdm).occ (2 - l) := by decide +kernel
  exact this l hl k (by omega)

theorem adapted : SymmetryAdapted 3 irr rdm := by unfold SymmetryAdapted; decide +kernel

/-- The hypotheses of the two theorems about the vectors are met. -/
example : Biorthonormal 3 (natorbs 3 2 irr eig argsort rdm).left (natorbs 3 2 irr eig argsort rdm).right := by
  refine C89_biorthonormal_partial (fun p _ => by unfold irr; omega) adapted returns sorts (fun s => ?_) fun s => ?_
  · rcases Nat.lt_or_ge s 2 with h | h
    · obtain rfl | rfl : s = 0 ∨ s = 1 := by omega
      · decide +kernel
      · decide +kernel
    · rw [empty s h]; omega
  · rcases Nat.lt_or_ge s 2 with h | h
    · obtain rfl | rfl : s = 0 ∨ s = 1 := by omega
      · decide +kernel
      · decide +kernel
    · rw [empty s h]; omega

example : (List.range 3).map (natorbs 3 2 irr eig argsort rdm).occ = [2, 3 / 2, 1 / 2] := by decide +kernel

/-- The transformed integrals of a case. -/
example : (e1intNo 3 1 (natorbs 3 2 irr eig argsort rdm) (fun p q => (p : ℚ) + 2 * q + 1) 1 3,
    e2intNo 3 0 (natorbs 3 2 irr eig argsort rdm) (fun p q r s => (p : ℚ) * r + q * s) 0 2 1 2) = (15 / 4, 5 / 8) := by decide +kernel

/-- The blocks of a density matrix with elements between an occupied and an unoccupied orbital. -/
def spin : OneBody ℚ := ⟨fun _ _ => 19 / 20, fun _ _ => 1 / 7, fun _ _ => 1 / 7, fun _ _ => 1 / 20⟩

def unit : ℕ → Mat ℚ → Eig ℚ := fun _ A => ⟨fun c => A c c, fun i c => if i = c then 1 else 0, fun i c => if i = c then 1 else 0⟩

/-- The hypotheses of the theorem about mixing are met. -/
example : (∀ i < 2, 1 ≤ i → (natorbs 2 1 (fun _ => 0) unit (fun _ k => 1 - k) (rdmMatrix 1 1 spin spin)).right i 0 = 0) ∨
    ∀ i < 2, i < 1 → (natorbs 2 1 (fun _ => 0) unit (fun _ k => 1 - k) (rdmMatrix 1 1 spin spin)).right i 0 = 0 := by
  have none : ∀ s, 1 ≤ s → (symIndex 2 (fun _ => 0) s).length = 0 := fun s h => by
    rw [List.length_eq_zero_iff, List.eq_nil_iff_forall_not_mem]
    intro p hp
    have := (mem_symIndex.1 hp).2
    omega
  refine C89_no_mixing (a := spin) (b := spin) (fun _ _ => Nat.one_pos) (fun _ _ _ _ h => absurd rfl h) (fun s => ?_) ?_ rfl (fun s => ?_) (fun s => ?_) (by omega)
  · rcases Nat.lt_or_ge s 1 with h | h
    · obtain rfl : s = 0 := by omega
      unfold Returns RightVectors LeftVectors; decide +kernel
    · rw [none s h]; simp [Returns, RightVectors, LeftVectors]
  · refine ⟨fun k _ => by simp only; omega, fun k hk l hl h => by simp only at h; omega, fun k l h hl => ?_⟩
    have : ∀ l < 2, ∀ k < l + 1, (fill 2 1 (fun _ => 0) unit (rdmMatrix 1 1 spin spin)).occ (1 - k) ≤
        (fill 2 1 (fun _ => 0) unit (rdmMatrix 1 1 spin spin)).occ (1 - l) := by decide +kernel
    exact this l hl k (by omega)
  · rcases Nat.lt_or_ge s 1 with h | h
    · obtain rfl : s = 0 := by omega
      decide +kernel
    · rw [none s h]; omega
  · rcases Nat.lt_or_ge s 1 with h | h
    · obtain rfl : s = 0 := by omega
      decide +kernel
    · rw [none s h]; omega

/-- Blocks that are slices. -/
example : twoBody 1 2 (fun o₁ o₂ o₃ o₄ p q r s => 1000 * (if o₁ then p else p + 1) + 100 * (if o₂ then q else q + 2) +
    10 * (if o₃ then r else r + 1) + if o₄ then s else s + 2) 2 1 0 3 = 2103 := by decide

end Case

end Ccpy.NatOrbs
