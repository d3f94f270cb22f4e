import Verif.Model.Qp2
import Verif.Lemmas.CipsiReader
import Mathlib.Data.Nat.Bitwise

/-! Helper lemmas for the Quantum Package converter. -/

namespace Ccpy.Qp2
open Ccpy.Determinants Ccpy.Permutations Ccpy.Spec Ccpy.Phases Ccpy.CipsiReader

theorem lowBits_get : ∀ (f n i : ℕ), n < f → ((lowBits f n)[i]? = some '1' ↔ n.testBit i = true)
  | 0, _, _, h => absurd h (Nat.not_lt_zero _)
  | f + 1, n, i, h => by
      unfold lowBits
      by_cases h2 : n < 2
      · rw [if_pos h2]
        have : n = 0 ∨ n = 1 := by omega
        rcases this with rfl | rfl
        · cases i <;> simp
        · cases i <;> simp [Nat.testBit_succ]
      · rw [if_neg h2]
        cases i with
        | zero =>
          simp only [List.getElem?_cons_zero, Option.some.injEq, Nat.testBit_zero]
          rcases Nat.mod_two_eq_zero_or_one n with h0 | h0 <;> simp [h0]
        | succ i =>
          rw [List.getElem?_cons_succ, lowBits_get f (n / 2) i (by omega), Nat.testBit_succ]

/-- Occupied spin-orbitals of one bit pattern. -/
def occ (n k : ℕ) : List ℕ := occupied (binString n).reverse k

theorem mem_occ (n k x : ℕ) : x ∈ occ n k ↔ ∃ i, n.testBit i = true ∧ x = 2 * i + k := by
  unfold occ occupied binString
  rw [List.reverse_reverse]
  simp only [List.mem_map, List.mem_filter, List.mem_range, decide_eq_true_eq]
  constructor
  · rintro ⟨i, ⟨_, h⟩, rfl⟩
    exact ⟨i, (lowBits_get (n + 1) n i (by omega)).mp h, rfl⟩
  · rintro ⟨i, h, rfl⟩
    have h' := (lowBits_get (n + 1) n i (by omega)).mpr h
    exact ⟨i, ⟨(List.getElem?_eq_some_iff.mp h').1, h'⟩, rfl⟩

theorem sorted_occ (n k : ℕ) : (occ n k).Pairwise (· < ·) := by
  unfold occ occupied
  rw [List.pairwise_map]
  refine List.Pairwise.imp ?_ ((List.pairwise_lt_range).filter _)
  intro a b h; omega

theorem nodup_blocked (a b : ℕ) : (spinBlocked a b).Nodup := by
  show (occ a 1 ++ occ b 2).Nodup
  rw [List.nodup_append]
  refine ⟨(sorted_occ a 1).imp (fun h => ne_of_lt h), (sorted_occ b 2).imp (fun h => ne_of_lt h), ?_⟩
  intro x hx y hy
  obtain ⟨i, _, rfl⟩ := (mem_occ _ _ _).mp hx
  obtain ⟨j, _, rfl⟩ := (mem_occ _ _ _).mp hy
  omega

/-- Reading a list in the order of its sorting permutation sorts it. -/
theorem gather_argsort (l : List ℕ) (h : l.Nodup) :
    ((argsort l).map (fun i => l.getD i 0)).Pairwise (· < ·) ∧
    ((argsort l).map (fun i => l.getD i 0)).Perm l := by
  have hperm : ((argsort l).map (fun i => l.getD i 0)).Perm l := by
    refine ((argsort_perm l).map _).trans ?_
    have : (List.range l.length).map (fun i => l.getD i 0) = l := by
      apply List.ext_getElem
      · simp
      · intro i h1 h2
        simp only [List.getElem_map, List.getElem_range]
        rw [List.getD_eq_getElem?_getD, List.getElem?_eq_getElem h2]; rfl
    rw [this]
  refine ⟨?_, hperm⟩
  have hs : (argsort l).Pairwise (fun i j => l.getD i 0 ≤ l.getD j 0) := by
    have : Std.Total (fun i j : ℕ => l.getD i 0 ≤ l.getD j 0) := ⟨fun a b => le_total _ _⟩
    have : IsTrans ℕ (fun i j : ℕ => l.getD i 0 ≤ l.getD j 0) := ⟨fun a b c => le_trans⟩
    exact List.pairwise_insertionSort _ _
  have h1 : ((argsort l).map (fun i => l.getD i 0)).Pairwise (· ≤ ·) := by
    rw [List.pairwise_map]; exact hs
  have h2 : ((argsort l).map (fun i => l.getD i 0)).Nodup := hperm.nodup_iff.mpr h
  exact (h1.and h2).imp (fun h => lt_of_le_of_ne h.1 h.2)

theorem mapM_some {α β : Type} (f : α → Option β) (g : α → β) :
    ∀ l : List α, (∀ x ∈ l, f x = some (g x)) → l.mapM f = some (l.map g)
  | [], _ => rfl
  | x :: l, h => by
      rw [List.mapM_cons, h x (by simp), mapM_some f g l (fun y hy => h y (List.mem_cons_of_mem _ hy))]
      rfl

theorem mapM_none {α β : Type} (f : α → Option β) (x : α) (hf : f x = none) :
    ∀ l : List α, x ∈ l → l.mapM f = none
  | y :: l, h => by
      rw [List.mapM_cons]
      rcases List.mem_cons.mp h with rfl | h
      · rw [hf]; rfl
      · rw [mapM_none f x hf l h]
        cases f y <;> rfl

/-- The slice taken by `correlated`. -/
theorem correlated_eq (nf nel : ℕ) (det : List ℕ) (h : nel + 2 * nf ≤ det.length) :
    correlated nf nel det = some (((det.drop (2 * nf)).take nel).map (· - 2 * nf)) := by
  unfold correlated
  rw [mapM_some _ (fun i => det.getD (i + 2 * nf) 0 - 2 * nf)]
  · congr 1
    apply List.ext_getElem
    · simp; omega
    · intro i h1 h2
      simp only [List.length_map, List.length_range] at h1
      simp only [List.getElem_map, List.getElem_range, List.getElem_take, List.getElem_drop]
      rw [List.getD_eq_getElem?_getD, List.getElem?_eq_getElem (by omega)]
      simp only [Option.getD_some, Nat.add_comm]
  · intro i hi
    have : i < nel := by simpa using hi
    rw [List.getElem?_eq_getElem (by omega), List.getD_eq_getElem?_getD,
      List.getElem?_eq_getElem (by omega)]
    rfl

theorem correlated_none (nf nel : ℕ) (det : List ℕ) (h : det.length < nel + 2 * nf)
    (hn : 0 < nel) : correlated nf nel det = none := by
  unfold correlated
  refine mapM_none _ (nel - 1) ?_ _ (by simp; omega)
  rw [List.getElem?_eq_none (by omega)]; rfl

/-- A bit pattern whose lowest `nf` bits are set splits into core and correlated part. -/
theorem occ_split (n k nf : ℕ) (h : ∀ i < nf, n.testBit i = true) :
    occ n k = (List.range nf).map (fun i => 2 * i + k) ++ (occ (n >>> nf) k).map (· + 2 * nf) := by
  refine sorted_unique (sorted_occ n k) ?_ ?_
  · rw [List.pairwise_append]
    refine ⟨?_, ?_, ?_⟩
    · rw [List.pairwise_map]; exact List.pairwise_lt_range.imp (fun h => by omega)
    · rw [List.pairwise_map]; exact (sorted_occ _ k).imp (fun h => by omega)
    · intro x hx y hy
      simp only [List.mem_map, List.mem_range] at hx hy
      obtain ⟨i, hi, rfl⟩ := hx
      obtain ⟨z, hz, rfl⟩ := hy
      obtain ⟨j, _, rfl⟩ := (mem_occ _ _ _).mp hz
      omega
  · intro x
    rw [List.mem_append, mem_occ]
    simp only [List.mem_map, List.mem_range]
    constructor
    · rintro ⟨i, hi, rfl⟩
      by_cases hlt : i < nf
      · exact Or.inl ⟨i, hlt, rfl⟩
      · refine Or.inr ⟨2 * (i - nf) + k, (mem_occ _ _ _).mpr ⟨i - nf, ?_, rfl⟩, by omega⟩
        rw [Nat.testBit_shiftRight]
        rwa [show nf + (i - nf) = i by omega]
    · rintro (⟨i, hi, rfl⟩ | ⟨z, hz, rfl⟩)
      · exact ⟨i, h i hi, rfl⟩
      · obtain ⟨j, hj, rfl⟩ := (mem_occ _ _ _).mp hz
        rw [Nat.testBit_shiftRight] at hj
        exact ⟨nf + j, hj, by omega⟩

theorem cross_none (l1 l2 : List ℕ) (h : ∀ a ∈ l1, ∀ b ∈ l2, a < b) : cross l1 l2 = 0 := by
  induction l1 with
  | nil => rfl
  | cons a l ih =>
    simp only [cross, List.map_cons, List.sum_cons] at *
    rw [ih (fun x hx => h x (List.mem_cons_of_mem _ hx))]
    rw [List.countP_eq_zero.mpr]
    intro b hb
    have := h a (by simp) b hb
    simp; omega

theorem cross_shift (l1 l2 : List ℕ) (d : ℕ) :
    cross (l1.map (· + d)) (l2.map (· + d)) = cross l1 l2 := by
  unfold cross
  rw [List.map_map]
  congr 1
  apply List.map_congr_left
  intro a _
  simp only [Function.comp, List.countP_map]
  apply List.countP_congr
  intro b _
  simp

theorem countP_range_lt (n k : ℕ) : (List.range n).countP (fun j => j < k) = min n k := by
  induction n with
  | zero => simp
  | succ n ih =>
    rw [List.range_succ, List.countP_append, ih]
    by_cases h : n < k <;> simp [h] <;> omega

theorem cross_core (nf : ℕ) :
    cross ((List.range nf).map (fun i => 2 * i + 1)) ((List.range nf).map (fun i => 2 * i + 2)) =
      nf.choose 2 := by
  unfold cross
  rw [List.map_map]
  have : ∀ i ∈ List.range nf, ((fun a => ((List.range nf).map (fun i => 2 * i + 2)).countP
      (fun b => b < a)) ∘ fun i => 2 * i + 1) i = i := by
    intro i hi
    have hi : i < nf := by simpa using hi
    simp only [Function.comp, List.countP_map]
    rw [List.countP_congr (q := fun j => decide (j < i)), countP_range_lt]
    · omega
    · intro j _
      simp only [Function.comp, decide_eq_true_eq]; omega
  rw [List.map_congr_left this]
  clear this
  induction nf with
  | zero => rfl
  | succ n ih =>
    rw [List.range_succ, List.map_append, List.sum_append, ih, Nat.choose_succ_succ' n 1,
      Nat.choose_one_right]
    simp; omega

/-- Inversions of the spin-blocked arrangement with a doubly occupied core. -/
theorem inversions_core (a b nf : ℕ) (ha : ∀ i < nf, a.testBit i = true)
    (hb : ∀ i < nf, b.testBit i = true) :
    inversions (spinBlocked a b) =
      nf.choose 2 + (occ (a >>> nf) 1).length * nf + inversions (spinBlocked (a >>> nf) (b >>> nf)) := by
  show inversions (occ a 1 ++ occ b 2) = _ + inversions (occ (a >>> nf) 1 ++ occ (b >>> nf) 2)
  rw [inversions_append, inversions_append, inversions_sorted _ (sorted_occ _ _),
    inversions_sorted _ (sorted_occ _ _), inversions_sorted _ (sorted_occ _ _),
    inversions_sorted _ (sorted_occ _ _), occ_split a 1 nf ha, occ_split b 2 nf hb,
    cross_append_left, cross_append_right, cross_append_right, cross_core, cross_shift,
    cross_none _ ((occ (b >>> nf) 2).map _), cross_all ((occ (a >>> nf) 1).map _)]
  · simp only [List.length_map, List.length_range]; omega
  · intro x hx y hy
    simp only [List.mem_map, List.mem_range] at hx hy
    obtain ⟨z, hz, rfl⟩ := hx
    obtain ⟨j, _, rfl⟩ := (mem_occ _ _ _).mp hz
    obtain ⟨i, hi, rfl⟩ := hy
    omega
  · intro x hx y hy
    simp only [List.mem_map, List.mem_range] at hx hy
    obtain ⟨i, hi, rfl⟩ := hx
    obtain ⟨z, hz, rfl⟩ := hy
    obtain ⟨j, _, rfl⟩ := (mem_occ _ _ _).mp hz
    omega

/-- Creating a list of distinct orbitals from the vacuum. -/
theorem excite_vacuum (l : List ℕ) (h : l.Nodup) :
    excite l [] ∅ = some (signOf l, l.toFinset) := by
  unfold excite
  simp only [List.foldlM_nil, Option.pure_def, Option.bind_some]
  rw [create_list l 1 ∅ h (by simp)]
  have : (l.map (below ∅)).sum = 0 := by
    rw [List.sum_eq_zero]
    intro x hx
    obtain ⟨y, _, rfl⟩ := List.mem_map.mp hx
    simp [below]
  rw [this]
  simp [signOf]

end Ccpy.Qp2
