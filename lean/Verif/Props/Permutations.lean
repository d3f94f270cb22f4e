import Verif.Lemmas.Permutations

/-!
C01, C02.  Specification used: `Ccpy.Spec.inversions`/`signOf` (inversion counting) and
Mathlib's `Equiv.Perm.sign`.
-/

namespace Ccpy.Permutations
open Ccpy.Spec

/-- C01: on every rearrangement of `0..n-1` the function returns the sign of that permutation
(`+1` iff the number of inversions is even). -/
theorem C01_parity_is_sign (l : List ℕ) (h : l.Perm (List.range l.length)) :
    calculatePermutationParity l = (if inversions l % 2 = 0 then 1 else -1) := by
  obtain ⟨σ, hσ⟩ := exists_perm_of_list l h
  rw [calculatePermutationParity_eq_sign l σ hσ, ← signOf_perm_fn σ l rfl hσ]
  unfold signOf
  split
  · exact Even.neg_one_pow (Nat.even_iff.mpr ‹_›)
  · exact Odd.neg_one_pow (Nat.odd_iff.mpr (by omega))

example : [2, 0, 3, 1].Perm (List.range [2, 0, 3, 1].length) ∧
    calculatePermutationParity [2, 0, 3, 1] = -1 := by decide

/-- C01: agreement with the group-theoretic sign, and hence multiplicativity: the parity of the
value table of a product of permutations is the product of the parities. -/
theorem C01_parity_multiplicative (n : ℕ) (σ τ : Equiv.Perm (Fin n)) :
    calculatePermutationParity (List.ofFn fun i => (σ i).val) = Equiv.Perm.sign σ ∧
    calculatePermutationParity (List.ofFn fun i => ((σ * τ) i).val) =
      calculatePermutationParity (List.ofFn fun i => (σ i).val) *
      calculatePermutationParity (List.ofFn fun i => (τ i).val) := by
  have key : ∀ ρ : Equiv.Perm (Fin n),
      calculatePermutationParity (List.ofFn fun i => (ρ i).val) = Equiv.Perm.sign ρ := by
    intro ρ
    have hp : (List.ofFn fun i => (ρ i).val).Perm
        (List.range (List.ofFn fun i => (ρ i).val).length) := by
      rw [List.length_ofFn]
      have h1 : (List.ofFn fun i => (ρ i).val) = ((List.finRange n).map ρ).map Fin.val := by
        simp [List.ofFn_eq_map]
      have h2 : List.range n = (List.finRange n).map Fin.val := by simp
      rw [h1, h2]
      apply List.Perm.map
      have h3 : ((List.finRange n).map ρ).Nodup :=
        (List.nodup_finRange n).map ρ.injective
      refine (List.perm_ext_iff_of_nodup h3 (List.nodup_finRange n)).mpr (fun a => ?_)
      simpa using ρ.surjective a
    obtain ⟨σ', hσ'⟩ := exists_perm_of_list _ hp
    rw [calculatePermutationParity_eq_sign _ σ' hσ', ← signOf_perm_fn σ' _ rfl hσ']
    exact signOf_perm_fn ρ _ (List.length_ofFn) (fun i => by simp)
  refine ⟨key σ, ?_⟩
  rw [key, key, key, Equiv.Perm.sign_mul]
  simp

example : calculatePermutationParity (List.ofFn fun i : Fin 3 => (Equiv.swap 0 2 i).val) = -1 := by
  decide

/-- C02: for duplicate-free inputs the two returned lists are rearrangements of the inputs with a
shared prefix `c` and remainders without any common orbital (so `c` is the longest possible
coincidence), and each returned phase is the sign of the returned arrangement relative to
ascending order. -/
theorem C02_lineup (f1 f2 : List ℕ) (h1 : f1.Nodup) (h2 : f2.Nodup) :
    ∃ c d1 d2 : List ℕ,
      (doLineupPermutation f1 f2).g1 = some (c ++ d1) ∧
      (doLineupPermutation f1 f2).g2 = some (c ++ d2) ∧
      (c ++ d1).Perm f1 ∧ (c ++ d2).Perm f2 ∧
      (∀ x ∈ d1, x ∉ f2) ∧ (∀ x ∈ d2, x ∉ f1) ∧
      (doLineupPermutation f1 f2).sign1 = signOf (c ++ d1) ∧
      (doLineupPermutation f1 f2).sign2 = signOf (c ++ d2) := by
  set s1 := f1.insertionSort (· ≤ ·) with hs1
  set s2 := f2.insertionSort (· ≤ ·) with hs2
  have p1 : s1.Perm f1 := List.perm_insertionSort _ _
  have p2 : s2.Perm f2 := List.perm_insertionSort _ _
  have k1 := insertionSort_strict f1 h1
  have k2 := insertionSort_strict f2 h2
  obtain ⟨m1, m2⟩ := mergeCommon_eq s1 s2 0 0 k1 k2
  obtain ⟨a1, b1⟩ := lineup_side s1 k1 (fun x => decide (x ∈ s2))
  obtain ⟨a2, b2⟩ := lineup_side s2 k2 (fun x => decide (x ∈ s1))
  refine ⟨s1.filter (fun x => decide (x ∈ s2)), s1.filter (fun x => !decide (x ∈ s2)),
    s2.filter (fun x => !decide (x ∈ s1)), ?_, ?_, ?_, ?_, ?_, ?_, ?_, ?_⟩
  · simp only [doLineupPermutation, ← hs1, ← hs2, m1]; exact a1
  · rw [m2]; simp only [doLineupPermutation, ← hs1, ← hs2, m1]; exact a2
  · exact (List.filter_append_perm _ s1).trans p1
  · rw [m2]; exact (List.filter_append_perm _ s2).trans p2
  · intro x hx
    have := (List.mem_filter.mp hx).2
    rw [← p2.mem_iff]; simpa using this
  · intro x hx
    have := (List.mem_filter.mp hx).2
    rw [← p1.mem_iff]; simpa using this
  · simp only [doLineupPermutation, ← hs1, ← hs2, m1]; exact b1
  · rw [m2]; simp only [doLineupPermutation, ← hs1, ← hs2, m1]; exact b2

example : [5, 1, 2].Nodup ∧ [7, 2, 5].Nodup ∧
    (doLineupPermutation [5, 1, 2] [7, 2, 5]).g1 = some [2, 5, 1] := by decide +kernel

end Ccpy.Permutations
