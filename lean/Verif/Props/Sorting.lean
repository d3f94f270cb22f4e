import Verif.Lemmas.Blocks
import Mathlib.Data.Rat.Defs
import Mathlib.Algebra.Order.Field.Rat

/-! C38, C39: the merge argsort and the block addressing built on it. -/

namespace Ccpy.Sorting
open Argsort Blocks Spec

/-! ## C38 -/

/-- C38: `argsort` returns every index 1..n exactly once, ordered so that the keys are
non-decreasing. -/
theorem C38_argsort {α : Type*} [LinearOrder α] (n : ℕ) (r : ℕ → α) :
    (argsort n r).Perm (List.range' 1 n) ∧ ((argsort n r).map r).Pairwise (· ≤ ·) := by
  obtain ⟨h1, h2⟩ := argsortBy_spec total_lt n r
  refine ⟨h1, List.Pairwise.map _ (fun a b h => ?_) h2⟩
  simpa [Ok] using h

/-- C38: `argsort_r8_descend` returns every index 1..n exactly once, ordered so that the keys are
non-increasing. -/
theorem C38_argsort_descend {α : Type*} [LinearOrder α] (n : ℕ) (r : ℕ → α) :
    (argsortDescend n r).Perm (List.range' 1 n) ∧
      ((argsortDescend n r).map r).Pairwise (· ≥ ·) := by
  obtain ⟨h1, h2⟩ := argsortBy_spec total_gt n r
  refine ⟨h1, List.Pairwise.map _ (fun a b h => ?_) h2⟩
  simpa [Ok] using h

example : argsort 7 (fun i => ([5, 3, 9, 3, 1, 7, 2].getD (i - 1) 0 : ℕ)) = [5, 7, 4, 2, 1, 6, 3] := by
  decide +kernel
example : argsortDescend 5 (fun i => ([5, -3, 9, 3, 1].getD (i - 1) 0 : ℤ)) = [3, 1, 4, 5, 2] := by
  decide +kernel

/-! ## C39 -/

/-- C39: the four-index table numbers exactly the tuples allowed by the loop bounds, 1, 2, ..., each
number once, for every sign pattern in use; no write leaves the array when the upper bounds fit. -/
theorem C39_table4 (r1 r2 r3 r4 : ℤ × ℤ) (n1 n2 n3 n4 : ℤ) (h : Supported4 r1 r2 r3 r4)
    (hd : r1.2 ≤ n1 ∧ r2.2 ≤ n2 ∧ r3.2 ≤ n3 ∧ r4.2 ≤ n4) :
    ∃ table n, getIndexTable4 r1 r2 r3 r4 n1 n2 n3 n4 = some table ∧
      Numbers table (InRanges [r1, r2, r3, r4] 0) n :=
  let ⟨table, h⟩ := table4_numbers r1 r2 r3 r4 n1 n2 n3 n4 h hd
  ⟨table, _, h⟩

/-- C39: the same for the three-index table. -/
theorem C39_table3 (r1 r2 r3 : ℤ × ℤ) (n1 n2 n3 : ℤ) (h : Supported3 r1 r2 r3)
    (hd : r1.2 ≤ n1 ∧ r2.2 ≤ n2 ∧ r3.2 ≤ n3) :
    ∃ table n, getIndexTable3 r1 r2 r3 n1 n2 n3 = some table ∧
      Numbers table (InRanges [r1, r2, r3] 0) n :=
  let ⟨table, h⟩ := table3_numbers r1 r2 r3 n1 n2 n3 h hd
  ⟨table, _, h⟩

/-- C39: the same for the two-index table. -/
theorem C39_table2 (r1 r2 : ℤ × ℤ) (n1 n2 : ℤ) (h : Supported2 r1 r2)
    (hd : r1.2 ≤ n1 ∧ r2.2 ≤ n2) :
    ∃ table n, getIndexTable2 r1 r2 n1 n2 = some table ∧
      Numbers table (InRanges [r1, r2] 0) n :=
  let ⟨table, h⟩ := table2_numbers r1 r2 n1 n2 h hd
  ⟨table, _, h⟩

example : Supported4 (1, 3) (-1, 4) (1, 1) (-2, 3) := by unfold Supported4; decide
example : InRanges [(1, 3), (-1, 4), (1, 1), (-2, 3)] 0 [2, 4, 1, 3] := by
  simp [InRanges, lowest]
example : ((getIndexTable4 (1, 3) (-1, 4) (1, 1) (-2, 3) 4 4 3 3).map fun f =>
    ([[1, 2, 1, 3], [2, 4, 1, 3], [3, 4, 1, 3], [3, 3, 1, 3]].map f)) = some [1, 5, 6, 0] := by
  decide +kernel

/-- C39: the number of blocks fits into `nloc = nua*(nua-1)*(nua-2)/6*noa`
(ccsdt_p_loops.f90:638, 867): three ordered indices and a fourth one from any part of 1..m. -/
theorem C39_nloc_triple (n m : ℕ) (r4 : ℤ × ℤ) (h4 : 0 < r4.1 ∧ r4.2 ≤ m) :
    ∃ table k, getIndexTable4 (1, n - 2) (-1, n - 1) (-1, n) r4 n n n m = some table ∧
      Numbers table (InRanges [(1, n - 2), (-1, n - 1), (-1, n), r4] 0) k ∧
      k ≤ n * (n - 1) * (n - 2) / 6 * m := by
  obtain ⟨table, h1, h2⟩ := table4_numbers (1, n - 2) (-1, n - 1) (-1, n) r4 n n n m
    ⟨by simp, Or.inl ⟨by simp, by simp, h4.1⟩⟩ ⟨by simp, by simp, by simp, h4.2⟩
  refine ⟨table, _, h1, h2, ?_⟩
  rw [length_tuples4_triple n r4 h4.1]
  exact Nat.mul_le_mul_left _ (by omega)

/-- C39: two ordered pairs, `nloc = nua*(nua-1)/2*noa*(noa-1)/2` (ccsdt_p_loops.f90:2186) or
`(nua-1)*(nua-2)/2*(noa-1)*(noa-2)/2` (ccsdt_p_loops.f90:1103): the blocks fill `nloc` exactly. -/
theorem C39_nloc_pairs (n m : ℕ) (r1 r2 r3 r4 : ℤ × ℤ) (c d : ℕ) (h : PairPattern n r1 r2 c)
    (h' : PairPattern m r3 r4 d) :
    ∃ table, getIndexTable4 r1 r2 r3 r4 n n m m = some table ∧
      Numbers table (InRanges [r1, r2, r3, r4] 0) (c * d) := by
  obtain ⟨a1, a2, a3, a4⟩ := h.signs
  obtain ⟨b1, b2, b3, b4⟩ := h'.signs
  obtain ⟨table, h1, h2⟩ := table4_numbers r1 r2 r3 r4 n n m m
    ⟨a1, Or.inr (Or.inl ⟨a2, b1, b2⟩)⟩ ⟨a3, a4, b3, b4⟩
  rw [length_tuples4_pairs r1 r2 r3 r4 a1 a2 b1 b2, h.count, h'.count] at h2
  exact ⟨table, h1, h2⟩

/-- C39: an ordered pair and two independent indices, `nloc = nua*(nua-1)/2*nub*nob`
(ccsdt_p_loops.f90:2514). -/
theorem C39_nloc_pair (n m l : ℕ) (r1 r2 r3 r4 : ℤ × ℤ) (c : ℕ) (h : PairPattern n r1 r2 c)
    (h3 : 0 < r3.1 ∧ r3.2 ≤ m) (h4 : 0 < r4.1 ∧ r4.2 ≤ l) :
    ∃ table k, getIndexTable4 r1 r2 r3 r4 n n m l = some table ∧
      Numbers table (InRanges [r1, r2, r3, r4] 0) k ∧ k ≤ c * (m * l) := by
  obtain ⟨a1, a2, a3, a4⟩ := h.signs
  obtain ⟨table, h1, h2⟩ := table4_numbers r1 r2 r3 r4 n n m l
    ⟨a1, Or.inr (Or.inr (Or.inl ⟨a2, h3.1, h4.1⟩))⟩ ⟨a3, a4, h3.2, h4.2⟩
  refine ⟨table, _, h1, h2, ?_⟩
  rw [length_tuples4_pair r1 r2 r3 r4 a1 a2 h3.1 h4.1, h.count]
  exact Nat.mul_le_mul_left _ (Nat.mul_le_mul (by omega) (by omega))

/-- C39: four independent indices, `nloc = nua*nub*noa*nob` (ccsdt_p_loops.f90:2789). -/
theorem C39_nloc_free (n m l k : ℕ) (r1 r2 r3 r4 : ℤ × ℤ) (h1 : 0 < r1.1 ∧ r1.2 ≤ n)
    (h2 : 0 < r2.1 ∧ r2.2 ≤ m) (h3 : 0 < r3.1 ∧ r3.2 ≤ l) (h4 : 0 < r4.1 ∧ r4.2 ≤ k) :
    ∃ table c, getIndexTable4 r1 r2 r3 r4 n m l k = some table ∧
      Numbers table (InRanges [r1, r2, r3, r4] 0) c ∧ c ≤ n * (m * (l * k)) := by
  obtain ⟨table, e1, e2⟩ := table4_numbers r1 r2 r3 r4 n m l k
    ⟨h1.1, Or.inr (Or.inr (Or.inr ⟨h2.1, h3.1, h4.1⟩))⟩ ⟨h1.2, h2.2, h3.2, h4.2⟩
  refine ⟨table, _, e1, e2, ?_⟩
  rw [length_tuples4_free r1 r2 r3 r4 h1.1 h2.1]
  exact Nat.mul_le_mul (by omega) (Nat.mul_le_mul (by omega) (Nat.mul_le_mul (by omega) (by omega)))

/-- C39: three ordered indices, `nloc = noa*(noa-1)*(noa-2)/6` (ccp3_adaptive_loops.f90:54): the
blocks fill `nloc` exactly. -/
theorem C39_nloc_triple3 (n : ℕ) :
    ∃ table, getIndexTable3 (1, n - 2) (-1, n - 1) (-1, n) n n n = some table ∧
      Numbers table (InRanges [(1, n - 2), (-1, n - 1), (-1, n)] 0)
        (n * (n - 1) * (n - 2) / 6) := by
  obtain ⟨table, h1, h2⟩ := table3_numbers (1, n - 2) (-1, n - 1) (-1, n) n n n
    ⟨by simp, Or.inl ⟨by simp, by simp⟩⟩ ⟨by simp, by simp, by simp⟩
  rw [length_tuples3_triple] at h2
  exact ⟨table, h1, h2⟩

/-- C39: an ordered pair and a single index, on either side. -/
theorem C39_nloc_pair3 (n m : ℕ) (r1 r2 r3 : ℤ × ℤ) (c : ℕ) (h : PairPattern n r1 r2 c)
    (h3 : 0 < r3.1 ∧ r3.2 ≤ m) :
    (∃ table k, getIndexTable3 r1 r2 r3 n n m = some table ∧
      Numbers table (InRanges [r1, r2, r3] 0) k ∧ k ≤ c * m) ∧
    (∃ table k, getIndexTable3 r3 r1 r2 m n n = some table ∧
      Numbers table (InRanges [r3, r1, r2] 0) k ∧ k ≤ m * c) := by
  obtain ⟨a1, a2, a3, a4⟩ := h.signs
  constructor
  · obtain ⟨table, h1, h2⟩ := table3_numbers r1 r2 r3 n n m
      ⟨a1, Or.inr (Or.inr (Or.inl ⟨a2, h3.1⟩))⟩ ⟨a3, a4, h3.2⟩
    refine ⟨table, _, h1, h2, ?_⟩
    rw [length_tuples3_pair_single r1 r2 r3 a1 a2 h3.1, h.count]
    exact Nat.mul_le_mul_left _ (by omega)
  · obtain ⟨table, h1, h2⟩ := table3_numbers r3 r1 r2 m n n
      ⟨h3.1, Or.inr (Or.inl ⟨a1, a2⟩)⟩ ⟨h3.2, a3, a4⟩
    refine ⟨table, _, h1, h2, ?_⟩
    rw [length_tuples3_single_pair r3 r1 r2 h3.1 a1 a2, h.count]
    exact Nat.mul_le_mul_right _ (by omega)

example : PairPattern 5 (1, 3) (-2, 5) 6 := by unfold PairPattern; norm_num

/-- C39, disagreement: the branch meant for `p < q < r < s` starts its outer loop at the negative
marker and writes outside the table (it is not used by any kernel). -/
theorem C39_four_ordered_branch_fails :
    getIndexTable4 (-1, 1) (-1, 2) (-1, 3) (-1, 4) 4 4 4 4 = none := by decide +kernel

/-- One permutation of the rows is applied to all arrays: the records (excitation, amplitude,
residual) are the same before and after. -/
def SameRecords {K : Type} (excits : List (List ℕ)) (amps : List K) (resid : Option (List K))
    (out : Sorted K) : Prop :=
  (out.excits.zip out.amps).Perm (excits.zip amps) ∧
  ∀ x, resid = some x → ∃ y, out.resid = some y ∧
    (out.excits.zip (out.amps.zip y)).Perm (excits.zip (amps.zip x))

/-- The sentinel list. -/
abbrev placeholder : List (List ℕ) := [[1, 1, 1, 1, 1, 1]]

/-- C39: on every list of triples whose indices have a number in the table, `sort4` permutes the
records, brings them in block order, and the start and end recorded for every block number enclose
exactly the rows of that block. -/
theorem C39_sort4 {K : Type} (nloc : ℕ) (table : List ℤ → ℕ) (idims : List ℕ)
    (excits : List (List ℕ)) (amps : List K) (resid : Option (List K))
    (hne : excits ≠ []) (hph : excits ≠ placeholder) (ha : amps.length = excits.length)
    (hr : ∀ x, resid = some x → x.length = excits.length)
    (hb : ∀ row ∈ excits, 1 ≤ lookup table idims row ∧ lookup table idims row ≤ nloc) :
    ∃ out, sort4 nloc table idims excits amps resid = some out ∧
      SameRecords excits amps resid out ∧
      (out.excits.map (lookup table idims)).Pairwise (· ≤ ·) ∧
      AddressesBlocks out.loc nloc (out.excits.map (lookup table idims)) := by
  obtain ⟨idx, hp, he, hA, hR, hs⟩ := sorted_spec table idims excits amps resid
  have hperm := gather_perm hp excits rfl
  rw [← he] at hperm
  obtain ⟨loc', last, R, h1, h2, h3⟩ := scan_addresses nloc
    ((sorted table idims excits amps resid).excits.map (lookup table idims))
    (by
      intro h
      have := hperm.length_eq
      rw [List.map_eq_nil_iff.mp h] at this
      exact hne (List.length_eq_zero_iff.mp this.symm))
    (if excits.length = 1 then
      ((((sorted table idims excits amps resid).excits.map (lookup table idims)).getD
        (excits.length - 1) 0 : ℕ) : ℤ) else -1) hs
    (by
      intro t ht
      obtain ⟨row, hrow, rfl⟩ := List.mem_map.mp ht
      exact hb row (hperm.mem_iff.mp hrow))
    (by
      intro h
      rw [List.length_map, hperm.length_eq] at h
      simp [h])
  have hcond : ¬ (excits.length = 1 ∧ (sorted table idims excits amps resid).excits = placeholder) := by
    rintro ⟨-, h⟩
    rw [h] at hperm
    exact hph (List.perm_singleton.mp hperm.symm)
  refine ⟨{ sorted table idims excits amps resid with loc := R }, ?_, ⟨?_, ?_⟩, hs, h3⟩
  · rw [List.length_map, hperm.length_eq] at h2
    simp only [sort4]
    rw [if_neg hcond]
    simp only [show (sorted table idims excits amps resid).loc = fun _ => (1, 0) from rfl, h1,
      Option.bind_eq_bind, Option.bind_some, h2]
  · simp only [he, hA]
    rw [gather_zip hp excits amps rfl ha]
    exact gather_perm hp _ (by simp [ha])
  · rintro x rfl
    refine ⟨gather idx x, by simp [hR], ?_⟩
    have hx := hr x rfl
    simp only [he, hA]
    rw [gather_zip hp amps x ha hx, gather_zip hp excits (amps.zip x) rfl (by simp [ha, hx])]
    exact gather_perm hp _ (by simp [ha, hx])

/-- C39: the placeholder list keeps every block empty. -/
theorem C39_sort4_placeholder {K : Type} (nloc : ℕ) (table : List ℤ → ℕ) (idims : List ℕ) (a : K)
    (resid : Option (List K)) :
    ∃ out, sort4 nloc table idims placeholder [a] resid = some out ∧
      out.excits = placeholder ∧ out.amps = [a] ∧ ∀ t x, ¬ ((out.loc t).1 ≤ x ∧ x ≤ (out.loc t).2) := by
  refine ⟨sorted table idims placeholder [a] resid, ?_, ?_, ?_, ?_⟩
  · simp [sort4, sorted, Argsort.argsort, Argsort.argsortBy, gather]
  · simp [sorted, Argsort.argsort, Argsort.argsortBy, gather]
  · simp [sorted, Argsort.argsort, Argsort.argsortBy, gather]
  · intro t x; simp [sorted]; omega

/-- C39: `sort4` on an array without rows writes outside `loc_arr` (the P-space builders always keep
a placeholder row). -/
theorem C39_sort4_no_rows_error {K : Type} (nloc : ℕ) (table : List ℤ → ℕ) (idims : List ℕ) :
    sort4 nloc table idims [] ([] : List K) none = none := by
  simp [sort4, sorted, scan, setEnd, gather]

/-- C39 for `sort3`/`sort2`, which is proved only for lists that do not consist of a single row:
see `C39_sort3_single_row_fails`. -/
theorem C39_sort3_partial {K : Type} (nloc : ℕ) (table : List ℤ → ℕ) (idims : List ℕ)
    (excits : List (List ℕ)) (amps : List K) (resid : Option (List K))
    (hne : excits.length ≠ 1) (ha : amps.length = excits.length)
    (hr : ∀ x, resid = some x → x.length = excits.length)
    (hb : ∀ row ∈ excits, 1 ≤ lookup table idims row ∧ lookup table idims row ≤ nloc) :
    ∃ out, sort3 nloc table idims excits amps resid = some out ∧
      SameRecords excits amps resid out ∧
      (out.excits.map (lookup table idims)).Pairwise (· ≤ ·) ∧
      AddressesBlocks out.loc nloc (out.excits.map (lookup table idims)) := by
  obtain ⟨idx, hp, he, hA, hR, hs⟩ := sorted_spec table idims excits amps resid
  have hperm := gather_perm hp excits rfl
  rw [← he] at hperm
  have records : ∀ R, SameRecords excits amps resid
      { sorted table idims excits amps resid with loc := R } := by
    refine fun R => ⟨?_, ?_⟩
    · simp only [he, hA]
      rw [gather_zip hp excits amps rfl ha]
      exact gather_perm hp _ (by simp [ha])
    · rintro x rfl
      refine ⟨gather idx x, by simp [hR], ?_⟩
      have hx := hr x rfl
      simp only [he, hA]
      rw [gather_zip hp amps x ha hx, gather_zip hp excits (amps.zip x) rfl (by simp [ha, hx])]
      exact gather_perm hp _ (by simp [ha, hx])
  by_cases h0 : excits = []
  · subst h0
    refine ⟨{ sorted table idims [] amps resid with loc := fun _ => (1, 0) }, ?_, records _, hs, ?_⟩
    · simp [sort3, sorted, scan, gather]
    · intro t _ _ x
      simp [sorted, gather]
      omega
  · have hlen : 1 < excits.length := by
      have : excits.length ≠ 0 := fun h => h0 (List.length_eq_zero_iff.mp h)
      omega
    obtain ⟨loc', last, R, h1, h2, h3⟩ := scan_addresses nloc
      ((sorted table idims excits amps resid).excits.map (lookup table idims))
      (by
        intro h
        have := hperm.length_eq
        rw [List.map_eq_nil_iff.mp h] at this
        exact h0 (List.length_eq_zero_iff.mp this.symm)) 0 hs
      (by
        intro t ht
        obtain ⟨row, hrow, rfl⟩ := List.mem_map.mp ht
        exact hb row (hperm.mem_iff.mp hrow))
      (by
        intro h
        rw [List.length_map, hperm.length_eq] at h
        omega)
    refine ⟨{ sorted table idims excits amps resid with loc := R }, ?_, records _, hs, h3⟩
    rw [List.length_map, hperm.length_eq] at h2
    simp only [sort3, show (sorted table idims excits amps resid).loc = fun _ => (1, 0) from rfl, h1,
      Option.bind_eq_bind, Option.bind_some, hlen, if_true, h2]

/-- C39, disagreement: `sort3` (and `sort2`) never records the block of a list with a single row,
because the closing write is guarded by `n3p > 1`. A P space of one triple is not taken out of the Q
space by the CC(P;3) loops. -/
theorem C39_sort3_single_row_fails :
    ∃ (nloc : ℕ) (table : List ℤ → ℕ) (excits : List (List ℕ)) (out : Sorted ℕ),
      (∀ row ∈ excits, 1 ≤ lookup table [4, 5, 6] row ∧ lookup table [4, 5, 6] row ≤ nloc) ∧
      sort3 nloc table [4, 5, 6] excits [7] none = some out ∧
      ¬ AddressesBlocks out.loc nloc (out.excits.map (lookup table [4, 5, 6])) := by
  refine ⟨4, fun t => if t = [1, 2, 3] then 1 else 0, [[1, 2, 3, 1, 2, 3]],
    ⟨[[1, 2, 3, 1, 2, 3]], [7], none, fun _ => (1, 0)⟩, by decide, by rfl, ?_⟩
  intro h
  have := (h 1 (le_refl 1) (by decide) 1).mpr ⟨le_refl 1, by decide⟩
  exact absurd this.2 (by decide)

/-- Non-trivial instance: four triples in three blocks. -/
def sampleTable : List ℤ → ℕ := fun t => if t = [1, 2, 3] then 1 else if t = [1, 2, 4] then 2 else 3

example : ((sort4 3 sampleTable [4, 5, 6]
    [[1, 2, 3, 1, 3, 4], [1, 2, 3, 1, 2, 3], [1, 2, 4, 1, 3, 4], [1, 2, 3, 1, 2, 4]]
    [10, 11, 12, 13] (some [0, 1, 2, 3])).map fun o =>
      (o.excits, o.amps, o.resid, [o.loc 1, o.loc 2, o.loc 3])) =
    some ([[1, 2, 3, 1, 2, 3], [1, 2, 3, 1, 2, 4], [1, 2, 4, 1, 3, 4], [1, 2, 3, 1, 3, 4]],
      [11, 13, 12, 10], some [1, 3, 2, 0], [(1, 1), (2, 2), (3, 4)]) := by decide +kernel

end Ccpy.Sorting
