import Verif.Lemmas.MomentSelection

/-! # C18: selection of the most important triples

The candidates of all calls whose contribution exceeds the threshold are the pool. The property asks
that the `num_add` chosen rows be the largest of the pool. The code keeps a bounded buffer, so this
holds only while the buffer never loses a candidate; what is chosen is always the best of what has not
been lost. -/

namespace Ccpy.MomentSelection

open Ccpy.Spec

variable {numAdd bufFact : ℕ} {minThresh : ℚ}

/-- The candidates of the calls whose contribution exceeds the threshold. -/
def pool (minThresh : ℚ) (calls : List (List Cand)) : List Cand :=
  calls.flatten.filter fun c => decide (minThresh < |c.2|)

/-- For every sequence of calls, the selection returns exactly `num_add` rows; each one is either a row
of zeros with contribution zero or a candidate above the threshold, never chosen more often than it was
offered; they come in decreasing order; and any candidate above the threshold is chosen, is not larger
than anything chosen, or was lost (it arrived when the buffer was full, or below the bound that was
read when its routine began). -/
theorem C18_selected (ha : 0 < numAdd) (hb : 0 < bufFact) (h0 : 0 ≤ minThresh)
    (calls : List (List Cand)) {b : Buffer} (hrun : run numAdd bufFact minThresh calls = some b)
    {idx : List ℕ} (hidx : SortsUp (b.entries.map fun c => |c.2|) idx) :
    (pick numAdd idx b.entries).length = numAdd ∧
    List.Subperm ((pick numAdd idx b.entries).filter fun c => decide (c ≠ blank)) (pool minThresh calls) ∧
    (pick numAdd idx b.entries).Pairwise (fun x y => |y.2| ≤ |x.2|) ∧
    ∀ x ∈ pool minThresh calls, x ∈ pick numAdd idx b.entries
      ∨ (∀ y ∈ pick numAdd idx b.entries, |x.2| ≤ |y.2|) ∨ x ∈ b.full ∨ x ∈ b.refused := by
  have hb' : b = calls.foldl (routine numAdd bufFact minThresh)
      ⟨List.replicate (bufFact * numAdd) blank, 1, [], []⟩ := by
    unfold run at hrun
    rw [if_neg (by omega)] at hrun
    exact (Option.some.inj hrun).symm
  obtain ⟨stored, gone, z, hi⟩ := run_inv ha hb h0 calls (init_inv (numAdd := numAdd) (bufFact := bufFact))
  rw [← hb'] at hi
  have hpool : ([] : List Cand) ++ above minThresh calls.flatten = pool minThresh calls := rfl
  rw [hpool] at hi
  obtain ⟨m, hm, hd, hpick⟩ := pick_spec hidx
  rw [hpick]
  have hN : numAdd ≤ bufFact * numAdd := Nat.le_mul_of_pos_left _ hb
  have hml : m.length = bufFact * numAdd := by rw [hm.length_eq, hi.len]
  have hprefix : ∀ x : Cand, ∀ k, (∀ j < k, |x.2| ≤ |(m.getD j blank).2|) → ∀ y ∈ m.take k, |x.2| ≤ |y.2| := by
    intro x k hk y hy
    obtain ⟨j, hj, rfl⟩ := List.mem_iff_getElem.mp hy
    rw [List.length_take] at hj
    have := hk j (by omega)
    rw [List.getD_eq_getElem?_getD, List.getElem?_eq_getElem (by omega : j < m.length)] at this
    simpa using this
  refine ⟨by rw [List.length_take, hml]; omega, ?_, hd.sublist (List.take_sublist _ _), ?_⟩
  · have e1 : (m.filter fun c => decide (c ≠ blank)).Perm stored := by
      refine ((hm.trans hi.perm).filter _).trans ?_
      rw [List.filter_append]
      have e2 : stored.filter (fun c => decide (c ≠ blank)) = stored :=
        List.filter_eq_self.mpr fun s hs => by simpa using hi.genuine s hs
      have e3 : (List.replicate z blank).filter (fun c => decide (c ≠ blank)) = [] := by
        rw [List.filter_eq_nil_iff]
        intro x hx
        simp [(List.mem_replicate.mp hx).2]
      rw [e2, e3, List.append_nil]
    have e4 : List.Subperm stored (pool minThresh calls) :=
      ((List.sublist_append_left stored gone).trans
        (List.sublist_append_left _ _)).subperm.trans hi.part.subperm
    exact (((List.take_sublist numAdd m).filter _).subperm.trans e1.subperm).trans e4
  · intro x hx
    rw [← hi.part.mem_iff] at hx
    rcases List.mem_append.mp hx with hx | hx
    · rcases List.mem_append.mp hx with hx | hx
      · have hxm : x ∈ m := by
          rw [(hm.trans hi.perm).mem_iff]
          exact List.mem_append_left _ hx
        rw [← List.take_append_drop numAdd m] at hxm
        rcases List.mem_append.mp hxm with hxm | hxm
        · exact Or.inl hxm
        · right; left
          intro y hy
          have hd' := hd
          unfold Desc at hd'
          rw [← List.take_append_drop numAdd m, List.pairwise_append] at hd'
          exact hd'.2.2 y hy x hxm
      · right; left
        refine hprefix x numAdd ?_
        exact desc_prefix hm hd numAdd (by rw [hi.len]; exact hN) _ (fun j hj => hi.best x hx j hj)
    · right; right
      exact List.mem_append.mp hx

/-- Partial: the chosen rows are the largest of the pool if the pool fits in the buffer and fewer than
`num_add` of its members come before the last call. Missing: larger pools, for which the claim is false
(`C18_overflow_fails`, `C18_bound_fails`). -/
theorem C18_largest_partial (ha : 0 < numAdd) (hb : 0 < bufFact) (h0 : 0 ≤ minThresh)
    (calls : List (List Cand)) {b : Buffer} (hrun : run numAdd bufFact minThresh calls = some b)
    {idx : List ℕ} (hidx : SortsUp (b.entries.map fun c => |c.2|) idx)
    (hfit : (pool minThresh calls).length ≤ bufFact * numAdd)
    (hlast : (pool minThresh calls.dropLast).length < numAdd) :
    Largest (pick numAdd idx b.entries) (pool minThresh calls) := by
  intro x hx
  have hb' : b = calls.foldl (routine numAdd bufFact minThresh)
      ⟨List.replicate (bufFact * numAdd) blank, 1, [], []⟩ := by
    unfold run at hrun
    rw [if_neg (by omega)] at hrun
    exact (Option.some.inj hrun).symm
  have hr := calls_roomy ha hb h0 calls _ (init_inv (numAdd := numAdd) (bufFact := bufFact))
    (by change 1 + (pool minThresh calls).length ≤ _; omega)
    (by change 1 - 1 + (pool minThresh calls.dropLast).length < _; omega)
  rw [← hb'] at hr
  rcases (C18_selected ha hb h0 calls hrun hidx).2.2.2 x hx with h | h | h | h
  · exact Or.inl h
  · exact Or.inr h
  · rw [hr.1] at h; simp at h
  · rw [hr.2] at h; simp at h

/-- One routine of any length that fits in the buffer selects the largest contributions. -/
theorem C18_single_call (ha : 0 < numAdd) (hb : 0 < bufFact) (h0 : 0 ≤ minThresh)
    (cands : List Cand) {b : Buffer} (hrun : run numAdd bufFact minThresh [cands] = some b)
    {idx : List ℕ} (hidx : SortsUp (b.entries.map fun c => |c.2|) idx)
    (hfit : (pool minThresh [cands]).length ≤ bufFact * numAdd) :
    Largest (pick numAdd idx b.entries) (pool minThresh [cands]) :=
  C18_largest_partial ha hb h0 _ hrun hidx hfit (by simpa [pool] using ha)

/-- The lists of lost candidates only hold candidates above the threshold. -/
theorem C18_lost_from_pool (ha : 0 < numAdd) (hb : 0 < bufFact) (h0 : 0 ≤ minThresh)
    (calls : List (List Cand)) {b : Buffer} (hrun : run numAdd bufFact minThresh calls = some b) :
    List.Subperm (b.full ++ b.refused) (pool minThresh calls) := by
  have hb' : b = calls.foldl (routine numAdd bufFact minThresh)
      ⟨List.replicate (bufFact * numAdd) blank, 1, [], []⟩ := by
    unfold run at hrun
    rw [if_neg (by omega)] at hrun
    exact (Option.some.inj hrun).symm
  obtain ⟨stored, gone, z, hi⟩ := run_inv ha hb h0 calls (init_inv (numAdd := numAdd) (bufFact := bufFact))
  rw [← hb'] at hi
  exact (List.sublist_append_right (stored ++ gone) _).subperm.trans hi.part.subperm

/-- Asking for no rows reads an element of an empty array. -/
theorem C18_zero_error (calls : List (List Cand)) : run 0 bufFact minThresh calls = none := by
  simp [run]

/-- A row with contribution `v`; used in the examples. -/
def row (n : ℕ) (v : ℚ) : Cand := (List.replicate 6 n, v)

/-- The candidate that finds the buffer full is lost, whatever its size: of the contributions 1, 2, 10
with one row wanted and a buffer of two, the one chosen is 2. -/
theorem C18_overflow_fails :
    ∃ b, run 1 2 0 [[row 1 1, row 2 2, row 3 10]] = some b ∧
      SortsUp (b.entries.map fun c => |c.2|) [1, 0] ∧
      pick 1 [1, 0] b.entries = [row 2 2] ∧
      ¬ Largest (pick 1 [1, 0] b.entries) (pool 0 [[row 1 1, row 2 2, row 3 10]]) := by
  refine ⟨_, rfl, ?_, ?_, ?_⟩
  · unfold SortsUp
    decide +kernel
  · decide +kernel
  · unfold Largest
    decide +kernel

/-- The bound read at the start of a routine is an arbitrary element of a buffer not yet sorted: with
two rows wanted, 1 and 10 in a first routine make a second routine refuse 5, so 1 is chosen. -/
theorem C18_bound_fails :
    ∃ b, run 2 2 0 [[row 1 1, row 2 10], [row 3 5]] = some b ∧
      SortsUp (b.entries.map fun c => |c.2|) [2, 3, 0, 1] ∧
      pick 2 [2, 3, 0, 1] b.entries = [row 2 10, row 1 1] ∧
      ¬ Largest (pick 2 [2, 3, 0, 1] b.entries) (pool 0 [[row 1 1, row 2 10], [row 3 5]]) := by
  refine ⟨_, rfl, ?_, ?_, ?_⟩
  · unfold SortsUp
    decide +kernel
  · decide +kernel
  · unfold Largest
    decide +kernel

/-- A case that meets the hypotheses of the theorems: three calls, four candidates above the threshold,
two rows wanted, a buffer of four. -/
example : ∃ b, run 2 2 (1/10) [[row 1 3, row 2 (1/20)], [], [row 3 (-7), row 4 5]] = some b ∧
    SortsUp (b.entries.map fun c => |c.2|) [3, 0, 2, 1] ∧
    (pool (1/10) [[row 1 3, row 2 (1/20)], [], [row 3 (-7), row 4 5]]).length ≤ 2 * 2 ∧
    (pool (1/10) [[row 1 3, row 2 (1/20)], [], [row 3 (-7), row 4 5]].dropLast).length < 2 ∧
    pick 2 [3, 0, 2, 1] b.entries = [row 3 (-7), row 4 5] := by
  refine ⟨_, rfl, ?_, ?_, ?_, ?_⟩
  · unfold SortsUp
    decide +kernel
  all_goals decide +kernel

/-- And one where the buffer overflows, as `C18_selected` allows. -/
example : ∃ b, run 1 2 0 [[row 1 1, row 2 2, row 3 10, row 4 3]] = some b ∧
    SortsUp (b.entries.map fun c => |c.2|) [0, 1] ∧ b.full = [row 3 10] ∧
    pick 1 [0, 1] b.entries = [row 4 3] := by
  refine ⟨_, rfl, ?_, ?_, ?_⟩
  · unfold SortsUp
    decide +kernel
  all_goals decide +kernel

end Ccpy.MomentSelection
