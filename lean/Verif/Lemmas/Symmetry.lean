import Verif.Model.Symmetry
import Verif.Lemmas.Excitations
import Mathlib.Algebra.BigOperators.Intervals
import Mathlib.Algebra.BigOperators.Group.Finset.Sigma
import Mathlib.Data.Nat.Choose.Basic
import Mathlib.Data.Set.Card
import Mathlib.Algebra.BigOperators.Ring.Finset

/-! Helper lemmas for the symmetry-resolved counts. -/

namespace Ccpy.Excitations
open Ccpy.Spec
open Finset (Ico)

theorem sum_map_range' (lo m : ℕ) (g : ℕ → ℕ) :
    ((List.range' lo m).map g).sum = ∑ i ∈ Ico lo (lo + m), g i := by
  induction m generalizing lo with
  | zero => simp
  | succ m ih =>
    rw [List.range'_succ, List.map_cons, List.sum_cons, ih,
      Finset.sum_eq_sum_Ico_succ_bot (by omega : lo < lo + (m + 1))]
    congr 2
    congr 1
    omega

theorem Ico_sub (lo hi : ℕ) : Ico lo (lo + (hi - lo)) = Ico lo hi := by
  ext x
  simp only [Finset.mem_Ico]
  omega

theorem length_forRange {α : Type} (lo hi : ℕ) (f : ℕ → List α) :
    (forRange lo hi f).length = ∑ i ∈ Ico lo hi, (f i).length := by
  rw [forRange, List.length_flatMap, sum_map_range', Ico_sub]

theorem count_forRange (lo hi : ℕ) (f : ℕ → List ℕ) (t : ℕ) :
    (forRange lo hi f).count t = ∑ i ∈ Ico lo hi, (f i).count t := by
  rw [forRange, List.count_flatMap, sum_map_range', Ico_sub]
  rfl

theorem sum_choose (k n : ℕ) (m lo : ℕ) (h : n - lo = m) :
    ∑ i ∈ Ico lo n, (n - (i + 1)).choose k = m.choose (k + 1) := by
  induction m generalizing lo with
  | zero =>
    rw [Finset.Ico_eq_empty_of_le (by omega)]
    simp
  | succ m ih =>
    rw [Finset.sum_eq_sum_Ico_succ_bot (by omega), ih (lo + 1) (by omega), Nat.choose_succ_succ]
    congr 2
    omega

theorem sum_ones (lo n : ℕ) : ∑ _i ∈ Ico lo n, 1 = (n - lo).choose 1 := by
  rw [← Finset.card_eq_sum_ones, Nat.card_Ico, Nat.choose_one_right]

theorem sum2 (n lo : ℕ) : ∑ i ∈ Ico lo n, ∑ _j ∈ Ico (i + 1) n, 1 = (n - lo).choose 2 := by
  simp only [sum_ones]
  exact sum_choose 1 n _ lo rfl

theorem sum3 (n lo : ℕ) :
    ∑ i ∈ Ico lo n, ∑ j ∈ Ico (i + 1) n, ∑ _k ∈ Ico (j + 1) n, 1 = (n - lo).choose 3 := by
  simp only [sum2]
  exact sum_choose 2 n _ lo rfl

theorem swap2 {A C : Finset ℕ} {B : ℕ → Finset ℕ} (f : ℕ → ℕ → ℕ → ℕ) :
    ∑ j ∈ A, ∑ k ∈ B j, ∑ x ∈ C, f j k x = ∑ x ∈ C, ∑ j ∈ A, ∑ k ∈ B j, f j k x := by
  rw [Finset.sum_comm]
  exact Finset.sum_congr rfl fun j _ => Finset.sum_comm

theorem swap3 {A D : Finset ℕ} {B : ℕ → Finset ℕ} {C : ℕ → ℕ → Finset ℕ} (f : ℕ → ℕ → ℕ → ℕ → ℕ) :
    ∑ i ∈ A, ∑ j ∈ B i, ∑ k ∈ C i j, ∑ x ∈ D, f i j k x =
      ∑ x ∈ D, ∑ i ∈ A, ∑ j ∈ B i, ∑ k ∈ C i j, f i j k x := by
  rw [Finset.sum_comm]
  exact Finset.sum_congr rfl fun j _ => swap2 _

/-- A sum over orbital numbers as a sum over indices counted from `c`. -/
theorem sum_shift (lo n c m : ℕ) (h : c ≤ m) (hn : n = m - c) (f : ℕ → ℕ) :
    ∑ x ∈ Ico (lo + c) m, f x = ∑ x ∈ Ico lo n, f (x + c) := by
  subst hn
  rw [Finset.sum_Ico_add' f lo (m - c) c, Nat.sub_add_cancel h]

theorem sum_shift0 (n c m : ℕ) (h : c ≤ m) (hn : n = m - c) (f : ℕ → ℕ) :
    ∑ x ∈ Ico c m, f x = ∑ x ∈ Ico 0 n, f (x + c) := by
  have := sum_shift 0 n c m h hn f
  rwa [Nat.zero_add] at this

theorem sum_shift1 (lo n c m : ℕ) (h : c ≤ m) (hn : n = m - c) (f : ℕ → ℕ) :
    ∑ x ∈ Ico (lo + c + 1) m, f x = ∑ x ∈ Ico (lo + 1) n, f (x + c) := by
  have := sum_shift (lo + 1) n c m h hn f
  rwa [show lo + 1 + c = lo + c + 1 by omega] at this

/-- The tally counts occurrences. -/
theorem foldlM_tally (syms acc : List ℕ) (h : ∀ x ∈ syms, x < acc.length) :
    syms.foldlM (fun acc x => if x < acc.length then some (acc.modify x (· + 1)) else none) acc =
      some ((List.range acc.length).map fun t => acc.getD t 0 + syms.count t) := by
  induction syms generalizing acc with
  | nil =>
    simp only [List.foldlM_nil, List.count_nil, Nat.add_zero]
    congr 1
    apply List.ext_getElem
    · simp
    · intro i h1 h2
      simp [h1]
  | cons x syms ih =>
    have hx := h x List.mem_cons_self
    rw [List.foldlM_cons, if_pos hx]
    change syms.foldlM _ (acc.modify x (· + 1)) = _
    rw [ih _ (by intro y hy; rw [List.length_modify]; exact h y (List.mem_cons_of_mem _ hy))]
    congr 1
    rw [List.length_modify]
    apply List.map_congr_left
    intro t ht
    rw [List.mem_range] at ht
    simp only [List.getD_eq_getElem?_getD, List.getElem?_modify, List.count_cons,
      List.getElem?_eq_getElem ht]
    by_cases hxt : x = t
    · simp [hxt]
      omega
    · simp [hxt]

theorem tally_spec (h : ℕ) (syms : List ℕ) (hs : ∀ x ∈ syms, x < h) :
    tally h syms = some ((List.range h).map fun t => syms.count t) := by
  rw [tally, foldlM_tally _ _ (by simpa using hs)]
  congr 1
  rw [List.length_replicate]
  apply List.map_congr_left
  intro t ht
  rw [List.mem_range] at ht
  simp [List.getD_eq_getElem?_getD, ht]

theorem sum_count (h : ℕ) (syms : List ℕ) (hs : ∀ x ∈ syms, x < h) :
    ((List.range h).map fun t => syms.count t).sum = syms.length := by
  induction syms with
  | nil => simp
  | cons x syms ih =>
    have hx := hs x List.mem_cons_self
    have e : ∀ t, (x :: syms).count t = syms.count t + if x = t then 1 else 0 := by
      intro t
      rw [List.count_cons]
      simp
    simp only [e, List.sum_map_add, List.length_cons]
    rw [ih fun y hy => hs y (List.mem_cons_of_mem _ hy)]
    congr 1
    rw [List.range_eq_range', sum_map_range', Nat.zero_add, Finset.sum_ite_eq]
    simp [hx]

/-- What the counting functions return, given the irreps fit the table. -/
theorem counted_spec (h : ℕ) (syms : List ℕ) (hs : ∀ x ∈ syms, x < h) :
    counted h syms = some ((List.range h).map fun t => syms.count t, syms.length) := by
  rw [counted, tally_spec h syms hs, Option.map_some, sum_count h syms hs]

/-- A tally stops with an error as soon as a number does not fit. -/
theorem tally_error (h : ℕ) (syms : List ℕ) (x : ℕ) (hx : x ∈ syms) (hb : h ≤ x) :
    tally h syms = none := by
  unfold tally
  have : ∀ acc : List ℕ, acc.length = h → syms.foldlM
      (fun acc x => if x < acc.length then some (acc.modify x (· + 1)) else none) acc = none := by
    induction syms with
    | nil => simp at hx
    | cons y syms ih =>
      intro acc hacc
      rw [List.foldlM_cons]
      by_cases hy : y < acc.length
      · rw [if_pos hy]
        rcases List.mem_cons.mp hx with rfl | h'
        · omega
        · exact ih h' _ (by simpa using hacc)
      · rw [if_neg hy]
        rfl
  exact this _ (by simp)

/-- All members of a loop's sequence. -/
theorem forall_forRange {α : Type} (lo hi : ℕ) (f : ℕ → List α) (P : α → Prop)
    (h : ∀ i, lo ≤ i → i < hi → ∀ x ∈ f i, P x) : ∀ x ∈ forRange lo hi f, P x := by
  intro x hx
  rw [mem_forRange] at hx
  obtain ⟨i, hi, hx⟩ := hx
  exact h i hi.1 hi.2 x hx

theorem sum1c (n lo c : ℕ) : ∑ _i ∈ Ico lo n, c = (n - lo).choose 1 * c := by
  rw [← sum_ones, Finset.sum_mul]
  simp only [Nat.one_mul]

theorem sum2c (n lo c : ℕ) : ∑ i ∈ Ico lo n, ∑ _j ∈ Ico (i + 1) n, c = (n - lo).choose 2 * c := by
  rw [← sum2, Finset.sum_mul]
  simp only [Finset.sum_mul, Nat.one_mul]

theorem sum3c (n lo c : ℕ) : ∑ i ∈ Ico lo n, ∑ j ∈ Ico (i + 1) n, ∑ _k ∈ Ico (j + 1) n, c =
    (n - lo).choose 3 * c := by
  rw [← sum3, Finset.sum_mul]
  simp only [Finset.sum_mul, Nat.one_mul]

theorem sum_map_forRange (lo hi : ℕ) (f : ℕ → List (List ℕ)) (g : List ℕ → ℕ) :
    ((forRange lo hi f).map g).sum = ∑ i ∈ Ico lo hi, ((f i).map g).sum := by
  have e : ∀ l : List ℕ, ((l.flatMap f).map g).sum = (l.map fun i => ((f i).map g).sum).sum := by
    intro l
    induction l with
    | nil => rfl
    | cons x l ih => simp [ih]
  rw [forRange, e, sum_map_range', Ico_sub]

/-! Enumerations of ordered indices. -/

def enum1 (n : ℕ) : List (List ℕ) := forRange 0 n fun i => [[i]]
def enum2 (n : ℕ) : List (List ℕ) := forRange 0 n fun i => forRange (i + 1) n fun j => [[i, j]]
def enum11 (n m : ℕ) : List (List ℕ) := forRange 0 n fun i => forRange 0 m fun j => [[i, j]]
def enum3 (n : ℕ) : List (List ℕ) :=
  forRange 0 n fun i => forRange (i + 1) n fun j => forRange (j + 1) n fun k => [[i, j, k]]
def enum21 (n m : ℕ) : List (List ℕ) :=
  forRange 0 n fun i => forRange (i + 1) n fun j => forRange 0 m fun k => [[i, j, k]]
def enum12 (n m : ℕ) : List (List ℕ) :=
  forRange 0 n fun i => forRange 0 m fun j => forRange (j + 1) m fun k => [[i, j, k]]

/-- A duplicate-free enumeration of the ordered indices of given spins. -/
structure Enumerates (n : Spin → ℕ) (spins : List Spin) (l : List (List ℕ)) : Prop where
  mem : ∀ xs, xs ∈ l ↔ OrderedIndices n spins xs
  nodup : l.Nodup

theorem ordered1 (n : Spin → ℕ) (s1 : Spin) (xs : List ℕ) :
    OrderedIndices n [s1] xs ↔ ∃ a, xs = [a] ∧ a < n s1 := by
  constructor
  · rintro ⟨h1, h2, h3⟩
    match xs, h1, h2 with
    | [a], _, h2 =>
      simp at h2
      exact ⟨a, rfl, h2⟩
  · rintro ⟨a, rfl, h⟩
    exact ⟨rfl, by simpa using h, by simp⟩

theorem nodup_forRange_key' (lo hi : ℕ) (f : ℕ → List (List ℕ)) (p : ℕ)
    (h : ∀ i, (f i).Nodup) (hk : ∀ i x, x ∈ f i → x[p]? = some i) :
    (forRange lo hi f).Nodup := by
  refine nodup_forRange lo hi f h fun i j x hi hj => ?_
  have h1 := hk i x hi
  have h2 := hk j x hj
  rw [h1] at h2
  simpa using h2

theorem enumerates0 (n : Spin → ℕ) : Enumerates n [] [[]] := by
  refine ⟨fun xs => ?_, by simp⟩
  rw [List.mem_singleton]
  constructor
  · rintro rfl
    exact ⟨rfl, by simp, by simp⟩
  · rintro ⟨h, -, -⟩
    exact List.length_eq_zero_iff.mp h

theorem enumerates1 (n : Spin → ℕ) (σ : Spin) : Enumerates n [σ] (enum1 (n σ)) := by
  constructor
  · intro xs
    simp only [enum1, mem_forRange, List.mem_singleton, ordered1]
    exact ⟨fun ⟨a, h, e⟩ => ⟨a, e, h.2⟩, fun ⟨a, e, h⟩ => ⟨a, ⟨Nat.zero_le _, h⟩, e⟩⟩
  · refine nodup_forRange_key' _ _ _ 0 (fun i => List.nodup_singleton _) ?_
    intro i x hx
    rw [List.mem_singleton.mp hx]
    rfl

theorem enumerates2 (n : Spin → ℕ) (σ : Spin) : Enumerates n [σ, σ] (enum2 (n σ)) := by
  constructor
  · intro xs
    simp only [enum2, mem_forRange, List.mem_singleton, ordered2, true_implies]
    constructor
    · rintro ⟨a, h, b, h', e⟩
      exact ⟨a, b, e, by omega, by omega, by omega⟩
    · rintro ⟨a, b, e, h⟩
      exact ⟨a, by omega, b, by omega, e⟩
  · refine nodup_forRange_key' _ _ _ 0 (fun i => ?_) ?_
    · refine nodup_forRange_key' _ _ _ 1 (fun j => List.nodup_singleton _) ?_
      intro j x hx
      rw [List.mem_singleton.mp hx]
      rfl
    · intro i x hx
      simp only [mem_forRange, List.mem_singleton] at hx
      obtain ⟨j, -, rfl⟩ := hx
      rfl

theorem enumerates11 (n : Spin → ℕ) : Enumerates n [.α, .β] (enum11 (n .α) (n .β)) := by
  constructor
  · intro xs
    simp only [enum11, mem_forRange, List.mem_singleton, ordered2]
    constructor
    · rintro ⟨a, h, b, h', e⟩
      exact ⟨a, b, e, by omega, by omega, by simp⟩
    · rintro ⟨a, b, e, h⟩
      exact ⟨a, by omega, b, by omega, e⟩
  · refine nodup_forRange_key' _ _ _ 0 (fun i => ?_) ?_
    · refine nodup_forRange_key' _ _ _ 1 (fun j => List.nodup_singleton _) ?_
      intro j x hx
      rw [List.mem_singleton.mp hx]
      rfl
    · intro i x hx
      simp only [mem_forRange, List.mem_singleton] at hx
      obtain ⟨j, -, rfl⟩ := hx
      rfl

theorem nodup_three (lo hi : ℕ) (lo2 hi2 : ℕ → ℕ) (lo3 hi3 : ℕ → ℕ → ℕ) :
    (forRange lo hi fun i => forRange (lo2 i) (hi2 i) fun j =>
      forRange (lo3 i j) (hi3 i j) fun k => [[i, j, k]]).Nodup := by
  refine nodup_forRange_key' _ _ _ 0 (fun i => ?_) ?_
  · refine nodup_forRange_key' _ _ _ 1 (fun j => ?_) ?_
    · refine nodup_forRange_key' _ _ _ 2 (fun k => List.nodup_singleton _) ?_
      intro k x hx
      rw [List.mem_singleton.mp hx]
      rfl
    · intro j x hx
      simp only [mem_forRange, List.mem_singleton] at hx
      obtain ⟨k, -, rfl⟩ := hx
      rfl
  · intro i x hx
    simp only [mem_forRange, List.mem_singleton] at hx
    obtain ⟨j, -, k, -, rfl⟩ := hx
    rfl

theorem enumerates3 (n : Spin → ℕ) (σ : Spin) : Enumerates n [σ, σ, σ] (enum3 (n σ)) := by
  refine ⟨?_, nodup_three _ _ _ _ _ _⟩
  intro xs
  simp only [enum3, mem_forRange, List.mem_singleton, ordered3, true_implies]
  constructor
  · rintro ⟨a, h, b, h', c, h'', e⟩
    exact ⟨a, b, c, e, by omega⟩
  · rintro ⟨a, b, c, e, h⟩
    exact ⟨a, by omega, b, by omega, c, by omega, e⟩

theorem enumerates21 (n : Spin → ℕ) : Enumerates n [.α, .α, .β] (enum21 (n .α) (n .β)) := by
  refine ⟨?_, nodup_three _ _ _ _ _ _⟩
  intro xs
  simp only [enum21, mem_forRange, List.mem_singleton, ordered3, true_implies]
  constructor
  · rintro ⟨a, h, b, h', c, h'', e⟩
    refine ⟨a, b, c, e, ?_⟩
    simp
    omega
  · rintro ⟨a, b, c, e, h⟩
    exact ⟨a, by omega, b, by omega, c, by omega, e⟩

theorem enumerates12 (n : Spin → ℕ) : Enumerates n [.α, .β, .β] (enum12 (n .α) (n .β)) := by
  refine ⟨?_, nodup_three _ _ _ _ _ _⟩
  intro xs
  simp only [enum12, mem_forRange, List.mem_singleton, ordered3, true_implies]
  constructor
  · rintro ⟨a, h, b, h', c, h'', e⟩
    refine ⟨a, b, c, e, ?_⟩
    simp
    omega
  · rintro ⟨a, b, c, e, h⟩
    exact ⟨a, by omega, b, by omega, c, by omega, e⟩

/-- The number of excitations of a given symmetry as a double sum over enumerations. -/
theorem ncard_allowed (s : Sys) (t : ℕ) (pS hS : List Spin) (Ep Eh : List (List ℕ))
    (hp : Enumerates s.space.unocc pS Ep) (hh : Enumerates s.space.occ hS Eh) :
    Set.ncard {r | Allowed s (some t) pS hS (fun _ _ => True) r} =
      (Eh.map fun hs => (Ep.map fun ps =>
        if s.ref ^^^ excitationIrrep s.space pS ps hs = t then 1 else 0).sum).sum := by
  classical
  set L := Eh.flatMap fun hs =>
    (Ep.filter fun ps => s.ref ^^^ excitationIrrep s.space pS ps hs = t).map fun ps => row ps hs
    with hL
  have hmem : ∀ r, r ∈ L ↔ Allowed s (some t) pS hS (fun _ _ => True) r := by
    intro r
    simp only [hL, List.mem_flatMap, List.mem_map, List.mem_filter, decide_eq_true_eq, hp.mem,
      hh.mem, Allowed, hasSymmetry_iff, true_and]
    constructor
    · rintro ⟨hs, h1, ps, ⟨h2, h3⟩, rfl⟩
      exact ⟨ps, hs, rfl, h2, h1, h3⟩
    · rintro ⟨ps, hs, rfl, h2, h1, h3⟩
      exact ⟨hs, h1, ps, ⟨h2, h3⟩, rfl⟩
  have hinj : ∀ ps hs ps' hs', ps ∈ Ep → ps' ∈ Ep → row ps hs = row ps' hs' →
      ps = ps' ∧ hs = hs' := by
    intro ps hs ps' hs' h1 h2 he
    have hlen : ps.length = ps'.length := by
      rw [((hp.mem _).mp h1).length_eq, ((hp.mem _).mp h2).length_eq]
    exact List.append_inj (row_injective he) hlen
  have hnd : L.Nodup := by
    rw [hL, List.nodup_flatMap]
    constructor
    · intro hs _
      refine List.Nodup.map_on ?_ (hp.nodup.filter _)
      intro ps h1 ps' h2 he
      exact (hinj ps hs ps' hs (List.mem_filter.mp h1).1 (List.mem_filter.mp h2).1 he).1
    · refine hh.nodup.imp ?_
      intro hs hs' hne r h1 h2
      simp only [List.mem_map, List.mem_filter] at h1 h2
      obtain ⟨ps, ⟨h1, -⟩, rfl⟩ := h1
      obtain ⟨ps', ⟨h2, -⟩, he⟩ := h2
      exact hne (hinj ps' hs' ps hs h2 h1 he).2.symm
  have hset : {r | Allowed s (some t) pS hS (fun _ _ => True) r} = (L.toFinset : Set (List ℕ)) := by
    ext r
    simp [← hmem]
  rw [hset, Set.ncard_coe_finset, List.toFinset_card_of_nodup hnd, hL, List.length_flatMap]
  congr 1
  apply List.map_congr_left
  intro hs _
  rw [List.length_map, ← List.countP_eq_length_filter]
  clear * -
  induction Ep with
  | nil => rfl
  | cons x l ih => simp [List.countP_cons, ih, Nat.add_comm]

end Ccpy.Excitations
