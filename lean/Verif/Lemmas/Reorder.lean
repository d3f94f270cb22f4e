import Verif.Model.Reorder
import Verif.Spec.Tensor
import Mathlib.Data.List.Perm.Basic
import Mathlib.Data.List.Nodup
import Mathlib.Data.List.NodupEquivFin
import Mathlib.Algebra.Order.Group.Nat
import Mathlib.Tactic.Ring
import Mathlib.Tactic.Linarith
import Mathlib.Logic.Equiv.Basic
import Mathlib.Algebra.Group.End
import Mathlib.Data.Fintype.Card
import Mathlib.Tactic.FinCases

namespace Ccpy.Reorder
open Spec

/-! ### permute_array -/

theorem foldl_update {α β ι : Type*} [DecidableEq β] (l : List ι) (key : ι → β) (val : ι → α)
    (hn : (l.map key).Nodup) (B : β → α) :
    (∀ i ∈ l, (l.foldl (fun B i => Function.update B (key i) (val i)) B) (key i) = val i) ∧
    (∀ k, k ∉ l.map key → (l.foldl (fun B i => Function.update B (key i) (val i)) B) k = B k) := by
  induction l generalizing B with
  | nil => simp
  | cons a l ih =>
    simp only [List.map_cons, List.nodup_cons] at hn
    obtain ⟨h1, h2⟩ := ih hn.2 (Function.update B (key a) (val a))
    refine ⟨fun i hi => ?_, fun k hk => ?_⟩
    · simp only [List.foldl_cons]
      rcases List.mem_cons.mp hi with rfl | hi
      · rw [h2 _ hn.1]; simp
      · exact h1 i hi
    · simp only [List.foldl_cons]
      simp only [List.map_cons, List.mem_cons, not_or] at hk
      rw [h2 k hk.2]
      simp [Function.update, hk.1]

theorem permuteArray_apply {α : Type*} {n : ℕ} (perm : Fin n → Fin n) (h : Function.Injective perm)
    (A B : Fin n → α) (i : Fin n) : permuteArray perm A B (perm i) = A i :=
  (foldl_update (List.finRange n) perm A ((List.nodup_finRange n).map h) B).1 i (List.mem_finRange i)

theorem inversePermuteArray_apply {α : Type*} {n : ℕ} (perm : Fin n → Fin n)
    (A B : Fin n → α) (i : Fin n) : inversePermuteArray perm A B i = A (perm i) :=
  (foldl_update (List.finRange n) (fun i => i) (fun i => A (perm i))
    (by simpa using List.nodup_finRange n) B).1 i (List.mem_finRange i)

/-! ### Mixed radix -/

/-- Digits of an offset. -/
def unflat : List ℕ → ℕ → List ℕ
  | [], _ => []
  | d :: ds, k => k % d :: unflat ds (k / d)

theorem length_unflat (ds : List ℕ) (k : ℕ) : (unflat ds k).length = ds.length := by
  induction ds generalizing k with
  | nil => rfl
  | cons d ds ih => simp [unflat, ih]

theorem flat_unflat (ds : List ℕ) (k : ℕ) (hk : k < ds.prod) : flat ds (unflat ds k) = k := by
  induction ds generalizing k with
  | nil => simp at hk; simp [unflat, flat, hk]
  | cons d ds ih =>
    rw [List.prod_cons] at hk
    simp only [unflat, flat]
    rw [ih (k / d) (Nat.div_lt_of_lt_mul hk)]
    exact Nat.mod_add_div k d

theorem unflat_lt (ds : List ℕ) (k : ℕ) (hk : k < ds.prod) (p : ℕ) (hp : p < ds.length) :
    (unflat ds k).getD p 0 < ds.getD p 1 := by
  induction ds generalizing k p with
  | nil => simp at hp
  | cons d ds ih =>
    rw [List.prod_cons] at hk
    have hd : 0 < d := by
      rcases Nat.eq_zero_or_pos d with rfl | h
      · simp at hk
      · exact h
    cases p with
    | zero => simpa [unflat] using Nat.mod_lt k hd
    | succ p => simpa [unflat] using ih (k / d) (Nat.div_lt_of_lt_mul hk) p (by simpa using hp)

theorem flat_lt (L : List ℕ) (sh idx : ℕ → ℕ) (h : ∀ p ∈ L, idx p < sh p) :
    flat (L.map sh) (L.map idx) < (L.map sh).prod := by
  induction L with
  | nil => simp [flat]
  | cons p L ih =>
    have h1 := h p (List.mem_cons_self ..)
    have h2 := ih fun q hq => h q (List.mem_cons_of_mem _ hq)
    simp only [List.map_cons, flat, List.prod_cons]
    calc idx p + sh p * flat (L.map sh) (L.map idx)
        < sh p + sh p * flat (L.map sh) (L.map idx) := by omega
      _ = sh p * (flat (L.map sh) (L.map idx) + 1) := by ring
      _ ≤ sh p * (L.map sh).prod := Nat.mul_le_mul_left _ h2

theorem offsetA_flat (L : List ℕ) (sh st idx : ℕ → ℕ) (h : ∀ p ∈ L, idx p < sh p) (off : ℕ) :
    offsetA (L.map fun p => (sh p, st p)) (flat (L.map sh) (L.map idx)) off
      = off + (L.map fun p => idx p * st p).sum := by
  induction L generalizing off with
  | nil => simp [offsetA]
  | cons p L ih =>
    have h1 := h p (List.mem_cons_self ..)
    have h2 := fun o => ih (fun q hq => h q (List.mem_cons_of_mem _ hq)) o
    have e1 : (idx p + sh p * flat (L.map sh) (L.map idx)) % sh p = idx p := by
      rw [Nat.add_mul_mod_self_left, Nat.mod_eq_of_lt h1]
    have e2 : (idx p + sh p * flat (L.map sh) (L.map idx)) / sh p = flat (L.map sh) (L.map idx) := by
      rw [Nat.add_mul_div_left _ _ (by omega), Nat.div_eq_of_lt h1, Nat.zero_add]
    simp only [List.map_cons, flat, offsetA, e1, e2, h2, List.sum_cons]
    omega

theorem length_strideA (shape : List ℕ) : (strideA shape).length = shape.length := by
  induction shape with
  | nil => rfl
  | cons d ds ih => simp [strideA, ih]

theorem flat_stride (shape : List ℕ) (is : List ℕ) (h : is.length = shape.length) :
    flat shape is = (List.zipWith (· * ·) is (strideA shape)).sum := by
  induction shape generalizing is with
  | nil => cases is <;> simp_all [flat, strideA]
  | cons d ds ih =>
    match is, h with
    | i :: is, h =>
      simp only [flat, strideA, List.zipWith_cons_cons, List.sum_cons, Nat.mul_one]
      rw [ih is (by simpa using h)]
      congr 1
      have : ∀ (a b : List ℕ), d * (List.zipWith (· * ·) a b).sum
          = (List.zipWith (· * ·) a (b.map (d * ·))).sum := by
        intro a b
        induction a generalizing b with
        | nil => simp
        | cons x a iha =>
          cases b with
          | nil => simp
          | cons y b =>
            simp only [List.zipWith_cons_cons, List.sum_cons, List.map_cons, Nat.mul_add, iha]
            congr 1
            ring
      exact this _ _

theorem flat_range (shape : List ℕ) (idx : ℕ → ℕ) :
    flat shape ((List.range shape.length).map idx)
      = ((List.range shape.length).map fun p => idx p * (strideA shape).getD p 1).sum := by
  rw [flat_stride _ _ (by simp)]
  congr 1
  apply List.ext_getElem
  · simp [length_strideA]
  · intro i h1 h2
    have h3 : i < (strideA shape).length := by simpa [length_strideA] using h2
    simp [List.getD_eq_getElem?_getD, List.getElem?_eq_getElem h3]

theorem shape_eq (shape : List ℕ) : (List.range shape.length).map (fun p => shape.getD p 1) = shape := by
  apply List.ext_getElem
  · simp
  · intro i h1 h2
    simp [List.getD_eq_getElem?_getD, List.getElem?_eq_getElem h2]

theorem sizeOuter_eq (shape : List ℕ) (p1 : ℕ) (rest : List ℕ)
    (h : (p1 :: rest).Perm (List.range shape.length)) :
    sizeOuter shape p1 = (rest.map fun p => shape.getD p 1).prod := by
  have hn : (p1 :: rest).Nodup := h.nodup_iff.mpr List.nodup_range
  rw [List.nodup_cons] at hn
  unfold sizeOuter
  rw [← (h.map _).prod_eq]
  simp only [List.map_cons, ne_eq, not_true_eq_false, if_false, List.prod_cons, Nat.one_mul]
  congr 1
  apply List.map_congr_left
  intro p hp
  have : p ≠ p1 := fun e => hn.1 (e ▸ hp)
  simp [this]

/-! ### Nested loops -/

theorem foldl_inner {α : Type*} (s base : ℕ) (val : ℕ → α) (B : ℕ → α) (k : ℕ) :
    (List.range s).foldl (fun B i => Function.update B (base + i) (val i)) B k
      = if base ≤ k ∧ k < base + s then val (k - base) else B k := by
  have h := foldl_update (List.range s) (fun i => base + i) val
    (List.nodup_range.map fun a b h => by simpa using h) B
  split
  · rename_i hk
    have := h.1 (k - base) (by simp; omega)
    rwa [show base + (k - base) = k by omega] at this
  · rename_i hk
    apply h.2
    simp
    intro x hx e
    omega

theorem foldl_outer {α : Type*} (m s : ℕ) (val : ℕ → ℕ → α) (B : ℕ → α) (k : ℕ) :
    (List.range m).foldl (fun B j =>
      (List.range s).foldl (fun B i => Function.update B (j * s + i) (val j i)) B) B k
      = if k < m * s then val (k / s) (k % s) else B k := by
  induction m generalizing k with
  | zero => simp
  | succ m ih =>
    rw [List.range_succ, List.foldl_append, List.foldl_cons, List.foldl_nil, foldl_inner, ih,
      Nat.succ_mul]
    by_cases h1 : k < m * s
    · rw [if_neg (by omega), if_pos h1, if_pos (by omega)]
    · by_cases h2 : k < m * s + s
      · have hs : 0 < s := by omega
        have hq : k / s = m := by
          apply Nat.div_eq_of_lt_le
          · omega
          · rw [Nat.succ_mul]; omega
        have hr : k % s = k - m * s := by
          have := Nat.mod_add_div k s
          rw [hq, Nat.mul_comm] at this
          omega
        rw [if_pos ⟨by omega, h2⟩, if_pos h2, hq, hr]
      · rw [if_neg (by omega), if_neg h1, if_neg h2]

theorem foldl_add {α ι β : Type*} [Add α] [DecidableEq β] (l : List ι) (key : ι → β) (val : ι → α)
    (hn : (l.map key).Nodup) (A : β → α) :
    (∀ i ∈ l, (l.foldl (fun A i => Function.update A (key i) (A (key i) + val i)) A) (key i)
      = A (key i) + val i) ∧
    (∀ k, k ∉ l.map key →
      (l.foldl (fun A i => Function.update A (key i) (A (key i) + val i)) A) k = A k) := by
  induction l generalizing A with
  | nil => simp
  | cons a l ih =>
    simp only [List.map_cons, List.nodup_cons] at hn
    obtain ⟨h1, h2⟩ := ih hn.2 (Function.update A (key a) (A (key a) + val a))
    refine ⟨fun i hi => ?_, fun k hk => ?_⟩
    · simp only [List.foldl_cons]
      rcases List.mem_cons.mp hi with rfl | hi
      · rw [h2 _ hn.1]; simp
      · have hne : key i ≠ key a := fun e => hn.1 (e ▸ List.mem_map_of_mem hi)
        rw [h1 i hi]
        simp [Function.update, hne]
    · simp only [List.foldl_cons]
      simp only [List.map_cons, List.mem_cons, not_or] at hk
      rw [h2 k hk.2]
      simp [Function.update, hk.1]

/-! ### reorder_stripe -/

section
variable {α : Type*} {shape perm : List ℕ}

theorem flat_perm (hp : perm.Perm (List.range shape.length)) (idx : ℕ → ℕ) :
    flat shape ((List.range shape.length).map idx)
      = (perm.map fun p => idx p * (strideA shape).getD p 1).sum := by
  rw [flat_range, ((hp.map _).sum_eq).symm]

theorem prod_perm (hp : perm.Perm (List.range shape.length)) :
    (perm.map fun p => shape.getD p 1).prod = shape.prod := by
  rw [(hp.map _).prod_eq, shape_eq]

theorem reorderStripe_spec (hp : perm.Perm (List.range shape.length)) (A B : ℕ → α) :
    (∀ idx, InShape shape idx →
      reorderStripe shape perm A B (flat (perm.map fun p => shape.getD p 1) (perm.map idx))
        = A (flat shape ((List.range shape.length).map idx))) ∧
    (∀ k, shape.prod ≤ k → reorderStripe shape perm A B k = B k) := by
  have hlt : ∀ idx, InShape shape idx → ∀ p ∈ perm, idx p < shape.getD p 1 := by
    intro idx h p hpm
    exact h p (by simpa using hp.mem_iff.mp hpm)
  by_cases hid : perm = List.range shape.length
  · refine ⟨fun idx h => ?_, fun k hk => ?_⟩
    · have := flat_lt perm (fun p => shape.getD p 1) idx (hlt idx h)
      rw [prod_perm hp] at this
      unfold reorderStripe; rw [if_pos hid]
      simp only [this, if_true]
      rw [hid, shape_eq]
    · unfold reorderStripe; rw [if_pos hid]
      simp [Nat.not_lt.mpr hk]
  · match perm, hid with
    | [], hid =>
      exfalso
      have := hp.length_eq
      simp at this
      apply hid
      simp [← this]
    | p1 :: rest, hid =>
      have hso := sizeOuter_eq shape p1 rest hp
      have hval : ∀ k, reorderStripe shape (p1 :: rest) A B k =
          if k < sizeOuter shape p1 * shape.getD p1 1 then
            A (offsetA (rest.map fun p => (shape.getD p 1, (strideA shape).getD p 1))
              (k / shape.getD p1 1) 0 + (k % shape.getD p1 1) * (strideA shape).getD p1 1)
          else B k := by
        intro k
        rw [reorderStripe, if_neg hid]
        exact foldl_outer (sizeOuter shape p1) (shape.getD p1 1) (fun j i =>
          A (offsetA (rest.map fun p => (shape.getD p 1, (strideA shape).getD p 1)) j 0
            + i * (strideA shape).getD p1 1)) B k
      have htot : sizeOuter shape p1 * shape.getD p1 1 = shape.prod := by
        rw [hso, ← prod_perm hp, List.map_cons, List.prod_cons, Nat.mul_comm]
      refine ⟨fun idx h => ?_, fun k hk => ?_⟩
      · have hlt' := hlt idx h
        have h1 := hlt' p1 (List.mem_cons_self ..)
        have h2 : ∀ p ∈ rest, idx p < shape.getD p 1 := fun p hpm => hlt' p (List.mem_cons_of_mem _ hpm)
        have hk := flat_lt (p1 :: rest) (fun p => shape.getD p 1) idx hlt'
        rw [prod_perm hp, ← htot] at hk
        rw [hval, if_pos hk]
        simp only [List.map_cons, flat]
        rw [Nat.add_mul_mod_self_left, Nat.mod_eq_of_lt h1, Nat.add_mul_div_left _ _ (by omega),
          Nat.div_eq_of_lt h1, Nat.zero_add,
          offsetA_flat rest (fun p => shape.getD p 1) (fun p => (strideA shape).getD p 1) idx h2,
          flat_perm hp idx, List.map_cons, List.sum_cons]
        congr 1
        omega
      · rw [hval, if_neg (by omega)]

/-- Every offset of the permuted tensor belongs to a multi-index. -/
theorem exists_index (hp : perm.Perm (List.range shape.length)) (k : ℕ) (hk : k < shape.prod) :
    ∃ idx, InShape shape idx ∧
      flat (perm.map fun p => shape.getD p 1) (perm.map idx) = k := by
  have hn : perm.Nodup := hp.nodup_iff.mpr List.nodup_range
  have hk' : k < (perm.map fun p => shape.getD p 1).prod := by rwa [prod_perm hp]
  set ds := unflat (perm.map fun p => shape.getD p 1) k with hds
  have hlen : ds.length = perm.length := by simp [hds, length_unflat]
  refine ⟨fun p => ds.getD (perm.idxOf p) 0, fun p hpl => ?_, ?_⟩
  · have hm : p ∈ perm := hp.mem_iff.mpr (by simpa using hpl)
    have hi : perm.idxOf p < perm.length := List.idxOf_lt_length_iff.mpr hm
    have := unflat_lt (perm.map fun p => shape.getD p 1) k hk' (perm.idxOf p) (by simpa using hi)
    have e : (perm.map fun p => shape.getD p 1).getD (perm.idxOf p) 1 = shape.getD p 1 := by
      simp [List.getD_eq_getElem?_getD, List.getElem?_eq_getElem hi, List.getElem_idxOf]
    rw [e] at this
    exact this
  · have : perm.map (fun p => ds.getD (perm.idxOf p) 0) = ds := by
      apply List.ext_getElem
      · simp [hlen]
      · intro i h1 h2
        have h3 : i < perm.length := by simpa using h1
        simp [hn.idxOf_getElem i h3, List.getD_eq_getElem?_getD, List.getElem?_eq_getElem h2]
    rw [this, hds]
    exact flat_unflat _ k hk'

theorem flat_injective (idx idx' : ℕ → ℕ)
    (h : InShape shape idx) (h' : InShape shape idx')
    (e : flat shape ((List.range shape.length).map idx)
      = flat shape ((List.range shape.length).map idx')) :
    ∀ p < shape.length, idx p = idx' p := by
  have key : ∀ (L : List ℕ) (sh : ℕ → ℕ), (∀ p ∈ L, idx p < sh p) → (∀ p ∈ L, idx' p < sh p) →
      flat (L.map sh) (L.map idx) = flat (L.map sh) (L.map idx') → ∀ p ∈ L, idx p = idx' p := by
    intro L sh
    induction L with
    | nil => simp
    | cons a L ih =>
      intro h1 h2 e p hpm
      simp only [List.map_cons, flat] at e
      have a1 := h1 a (List.mem_cons_self ..)
      have a2 := h2 a (List.mem_cons_self ..)
      have hm : idx a = idx' a := by
        have := congrArg (· % sh a) e
        simpa [Nat.add_mul_mod_self_left, Nat.mod_eq_of_lt a1, Nat.mod_eq_of_lt a2] using this
      have hq : flat (L.map sh) (L.map idx) = flat (L.map sh) (L.map idx') := by
        rw [hm] at e
        exact Nat.eq_of_mul_eq_mul_left (by omega) (by omega : sh a * _ = sh a * _)
      rcases List.mem_cons.mp hpm with rfl | hpm
      · exact hm
      · exact ih (fun q hq => h1 q (List.mem_cons_of_mem _ hq))
          (fun q hq => h2 q (List.mem_cons_of_mem _ hq)) hq p hpm
  intro p hpl
  have hr := key (List.range shape.length) (fun p => shape.getD p 1)
    (fun q hq => h q (by simpa using hq)) (fun q hq => h' q (by simpa using hq))
    (by rw [shape_eq]; exact e)
  exact hr p (by simpa using hpl)

theorem foldl_nested {β : Type*} (m s : ℕ) (f : β → ℕ → ℕ → β) (A : β) :
    (List.range m).foldl (fun A j => (List.range s).foldl (fun A i => f A j i) A) A
      = ((List.range m).flatMap fun j => (List.range s).map fun i => (j, i)).foldl
          (fun A x => f A x.1 x.2) A := by
  rw [List.foldl_flatMap]
  congr 1
  funext A j
  rw [List.foldl_map]

theorem sumStripe_spec [Semiring α] (hp : perm.Perm (List.range shape.length)) (beta : α)
    (A B : ℕ → α) :
    (∀ idx, InShape shape idx →
      sumStripe shape perm beta A B (flat shape ((List.range shape.length).map idx))
        = A (flat shape ((List.range shape.length).map idx))
          + beta * B (flat (perm.map fun p => shape.getD p 1) (perm.map idx))) ∧
    (∀ k, shape.prod ≤ k → sumStripe shape perm beta A B k = A k) := by
  have hlt : ∀ idx, InShape shape idx → ∀ p ∈ perm, idx p < shape.getD p 1 := by
    intro idx h p hpm
    exact h p (by simpa using hp.mem_iff.mp hpm)
  have hflat : ∀ idx, InShape shape idx →
      flat shape ((List.range shape.length).map idx) < shape.prod := by
    intro idx h
    have := flat_lt (List.range shape.length) (fun p => shape.getD p 1) idx
      (fun p hp => h p (by simpa using hp))
    rwa [shape_eq] at this
  by_cases hid : perm = List.range shape.length
  · refine ⟨fun idx h => ?_, fun k hk => ?_⟩
    · unfold sumStripe; rw [if_pos hid]
      simp only [hflat idx h, if_true]
      rw [hid, shape_eq]
    · unfold sumStripe; rw [if_pos hid]
      simp [Nat.not_lt.mpr hk]
  · match perm, hid with
    | [], hid =>
      exfalso
      have := hp.length_eq
      simp at this
      apply hid
      simp [← this]
    | p1 :: rest, hid =>
      set s := shape.getD p1 1 with hs
      set m := sizeOuter shape p1 with hm
      set dims := rest.map fun p => (shape.getD p 1, (strideA shape).getD p 1) with hdims
      set key : ℕ × ℕ → ℕ := fun x => offsetA dims x.1 0 + x.2 * (strideA shape).getD p1 1 with hkey
      set pairs := (List.range m).flatMap fun j => (List.range s).map fun i => (j, i) with hpairs
      have hso := sizeOuter_eq shape p1 rest hp
      have htot : m * s = shape.prod := by
        rw [hm, hso, ← prod_perm hp, List.map_cons, List.prod_cons, Nat.mul_comm]
      have heq : sumStripe shape (p1 :: rest) beta A B = pairs.foldl (fun A x =>
          Function.update A (key x) (A (key x) + beta * B (x.1 * s + x.2))) A := by
        rw [sumStripe, if_neg hid]
        exact foldl_nested m s (fun A j i => Function.update A (key (j, i))
          (A (key (j, i)) + beta * B (j * s + i))) A
      have hmem : ∀ x, x ∈ pairs ↔ x.1 < m ∧ x.2 < s := by
        intro x
        simp only [hpairs, List.mem_flatMap, List.mem_range, List.mem_map]
        constructor
        · rintro ⟨j, hj, i, hi, rfl⟩; exact ⟨hj, hi⟩
        · rintro ⟨h1, h2⟩; exact ⟨x.1, h1, x.2, h2, rfl⟩
      -- every pair belongs to a multi-index
      have hidx : ∀ x ∈ pairs, ∃ idx, InShape shape idx ∧ x.2 = idx p1 ∧
          x.1 = flat (rest.map fun p => shape.getD p 1) (rest.map idx) ∧
          key x = flat shape ((List.range shape.length).map idx) := by
        intro x hx
        obtain ⟨h1, h2⟩ := (hmem x).mp hx
        have hk : x.1 * s + x.2 < shape.prod := by
          rw [← htot]
          calc x.1 * s + x.2 < x.1 * s + s := by omega
            _ = (x.1 + 1) * s := by ring
            _ ≤ m * s := Nat.mul_le_mul_right _ h1
        obtain ⟨idx, hin, he⟩ := exists_index hp (x.1 * s + x.2) hk
        have hlt' := hlt idx hin
        have g1 := hlt' p1 (List.mem_cons_self ..)
        have g2 : ∀ p ∈ rest, idx p < shape.getD p 1 := fun p hpm => hlt' p (List.mem_cons_of_mem _ hpm)
        simp only [List.map_cons, flat] at he
        have e2 : idx p1 = x.2 := by
          have := congrArg (fun t => t % s) he
          beta_reduce at this
          rw [← hs, Nat.add_mul_mod_self_left, Nat.mod_eq_of_lt g1, Nat.add_comm (x.1 * s),
            Nat.add_mul_mod_self_right, Nat.mod_eq_of_lt h2] at this
          exact this
        have e1 : x.1 = flat (rest.map fun p => shape.getD p 1) (rest.map idx) := by
          rw [e2, ← hs] at he
          exact (Nat.eq_of_mul_eq_mul_left (by omega : 0 < s)
            (by rw [Nat.mul_comm s x.1]; omega : s * _ = s * _)).symm
        refine ⟨idx, hin, e2.symm, e1, ?_⟩
        have e3 : x.2 = idx p1 := e2.symm
        simp only [hkey]
        rw [e1, e3, hdims, offsetA_flat rest (fun p => shape.getD p 1)
          (fun p => (strideA shape).getD p 1) idx g2, flat_perm hp idx, List.map_cons, List.sum_cons]
        omega
      have hpn : pairs.Nodup := by
        rw [hpairs, List.nodup_flatMap]
        refine ⟨fun j _ => List.nodup_range.map fun a b h => by simpa using h, ?_⟩
        refine List.Pairwise.imp (fun {j j'} hne => ?_) (List.nodup_range (n := m))
        intro x hx hx'
        simp only [List.mem_map] at hx hx'
        obtain ⟨i, -, rfl⟩ := hx
        obtain ⟨i', -, e⟩ := hx'
        simp at e
        exact hne e.1.symm
      have hn : (pairs.map key).Nodup := by
        refine List.Nodup.map_on (fun x hx y hy e => ?_) hpn
        obtain ⟨ix, hix, a1, a2, a3⟩ := hidx x hx
        obtain ⟨iy, hiy, b1, b2, b3⟩ := hidx y hy
        have hall := flat_injective ix iy hix hiy (by rw [← a3, ← b3, e])
        have hm : ∀ p ∈ p1 :: rest, ix p = iy p := fun p hpm => hall p (by simpa using hp.mem_iff.mp hpm)
        apply Prod.ext
        · rw [a2, b2]
          congr 1
          exact List.map_congr_left fun p hpm => hm p (List.mem_cons_of_mem _ hpm)
        · rw [a1, b1]; exact hm p1 (List.mem_cons_self ..)
      have hadd := foldl_add pairs key (fun x => beta * B (x.1 * s + x.2)) hn A
      rw [heq]
      refine ⟨fun idx h => ?_, fun k hk => ?_⟩
      · have hlt' := hlt idx h
        have g1 := hlt' p1 (List.mem_cons_self ..)
        have g2 : ∀ p ∈ rest, idx p < shape.getD p 1 := fun p hpm => hlt' p (List.mem_cons_of_mem _ hpm)
        set x : ℕ × ℕ := (flat (rest.map fun p => shape.getD p 1) (rest.map idx), idx p1) with hx
        have hxm : x ∈ pairs := by
          rw [hmem]
          refine ⟨?_, g1⟩
          rw [hm, hso]
          exact flat_lt rest _ idx g2
        have hkx : key x = flat shape ((List.range shape.length).map idx) := by
          simp only [hkey, hx]
          rw [hdims, offsetA_flat rest (fun p => shape.getD p 1)
            (fun p => (strideA shape).getD p 1) idx g2, flat_perm hp idx, List.map_cons, List.sum_cons]
          omega
        have := hadd.1 x hxm
        rw [hkx] at this
        rw [this]
        congr 3
        simp only [hx, List.map_cons, flat]
        rw [← hs]
        ring
      · apply hadd.2
        intro hmk
        obtain ⟨x, hx, rfl⟩ := List.mem_map.mp hmk
        obtain ⟨idx, hin, -, -, e⟩ := hidx x hx
        rw [e] at hk
        exact absurd (hflat idx hin) (by omega)

end

/-! ### reorder4 -/

theorem mem_loop4 {n1 n2 n3 n4 : ℕ} {v : Fin 4 → ℕ} :
    v ∈ loop4 n1 n2 n3 n4 ↔ v 0 < n1 ∧ v 1 < n2 ∧ v 2 < n3 ∧ v 3 < n4 := by
  simp only [loop4, List.mem_flatMap, List.mem_map, List.mem_range]
  constructor
  · rintro ⟨i, hi, j, hj, k, hk, l, hl, rfl⟩
    exact ⟨hi, hj, hk, hl⟩
  · rintro ⟨h1, h2, h3, h4⟩
    refine ⟨_, h1, _, h2, _, h3, _, h4, ?_⟩
    funext x
    fin_cases x <;> rfl

theorem nodup_loop4 (n1 n2 n3 n4 : ℕ) : (loop4 n1 n2 n3 n4).Nodup := by
  unfold loop4
  have hd : ∀ {γ : Type} (n : ℕ) (f : ℕ → List γ) (tag : γ → ℕ), (∀ i, (f i).Nodup) →
      (∀ i, ∀ x ∈ f i, tag x = i) → ((List.range n).flatMap f).Nodup := by
    intro γ n f tag h1 h2
    rw [List.nodup_flatMap]
    refine ⟨fun i _ => h1 i, List.Pairwise.imp (fun {i j} hne => ?_) (List.nodup_range (n := n))⟩
    intro x hx hy
    exact hne ((h2 i x hx).symm.trans (h2 j x hy))
  refine hd _ _ (fun v => v 0) (fun i => hd _ _ (fun v => v 1) (fun j => hd _ _ (fun v => v 2)
    (fun k => ?_) ?_) ?_) ?_
  · exact List.nodup_range.map fun a b h => by simpa using congrFun h 3
  · rintro k x hx; simp at hx; obtain ⟨l, _, rfl⟩ := hx; rfl
  · rintro j x hx; simp at hx; obtain ⟨k, _, l, _, rfl⟩ := hx; rfl
  · rintro i x hx; simp at hx; obtain ⟨j, _, k, _, l, _, rfl⟩ := hx; rfl

/-! ### reorder_amplitudes -/

section
variable {n : ℕ} {α : Type*}

/-- The arrays are the original ones read through one permutation. -/
def Permuted (l3 : Fin n → List ℕ) (amps : Fin n → α) (st : (Fin n → List ℕ) × (Fin n → α)) : Prop :=
  ∃ σ : Equiv.Perm (Fin n), st.1 = l3 ∘ σ ∧ st.2 = amps ∘ σ

theorem update_swap {β : Type*} (f : Fin n → β) (i j : Fin n) :
    Function.update (Function.update f j (f i)) i (f j) = f ∘ Equiv.swap i j := by
  funext x
  simp only [Function.comp, Equiv.swap_apply_def, Function.update_apply]
  split_ifs <;> simp_all

theorem swapIfMatch_eq (t3 : Fin n → List ℕ) (i j : Fin n) (st : (Fin n → List ℕ) × (Fin n → α)) :
    swapIfMatch t3 i st j
      = if t3 i = st.1 j then (st.1 ∘ Equiv.swap i j, st.2 ∘ Equiv.swap i j) else st := by
  unfold swapIfMatch
  split
  · simp only [update_swap]
  · rfl

theorem permuted_step {l3 : Fin n → List ℕ} {amps : Fin n → α} {t3 : Fin n → List ℕ} {i j : Fin n}
    {st : (Fin n → List ℕ) × (Fin n → α)} (h : Permuted l3 amps st) :
    Permuted l3 amps (swapIfMatch t3 i st j) := by
  rw [swapIfMatch_eq]
  split
  · obtain ⟨σ, h1, h2⟩ := h
    refine ⟨(Equiv.swap i j).trans σ, ?_, ?_⟩
    · simp [h1, Function.comp_assoc]
    · simp [h2, Function.comp_assoc]
  · exact h

theorem permuted_foldl {l3 : Fin n → List ℕ} {amps : Fin n → α} {t3 : Fin n → List ℕ} {i : Fin n}
    (l : List (Fin n)) {st : (Fin n → List ℕ) × (Fin n → α)} (h : Permuted l3 amps st) :
    Permuted l3 amps (l.foldl (swapIfMatch t3 i) st) := by
  induction l generalizing st with
  | nil => exact h
  | cons j l ih => exact ih (permuted_step h)

/-- One turn of the outer loop puts row `i` in its place and keeps the earlier ones. -/
theorem inner_places {t3 : Fin n → List ℕ} (ht : Function.Injective t3)
    (st : (Fin n → List ℕ) × (Fin n → α)) (hinj : Function.Injective st.1)
    (hsur : ∃ j, st.1 j = t3 (i : Fin n)) (hdone : ∀ k < i, st.1 k = t3 k) :
    let st' := (List.finRange n).foldl (swapIfMatch t3 i) st
    ∀ k ≤ i, st'.1 k = t3 k := by
  -- state while scanning the positions in `l`
  have key : ∀ (l : List (Fin n)) (st : (Fin n → List ℕ) × (Fin n → α)), Function.Injective st.1 →
      (∀ k < i, st.1 k = t3 k) → (st.1 i = t3 i ∨ ∃ j ∈ l, st.1 j = t3 i) →
      ∀ k ≤ i, (l.foldl (swapIfMatch t3 i) st).1 k = t3 k := by
    intro l
    induction l with
    | nil =>
      intro st _ h1 h2 k hk
      rcases h2 with h2 | ⟨j, hj, _⟩
      · rcases lt_or_eq_of_le hk with hk | rfl
        · exact h1 k hk
        · exact h2
      · simp at hj
    | cons j l ih =>
      intro st hst h1 h2
      rw [List.foldl_cons]
      have hstep := swapIfMatch_eq t3 i j st
      by_cases hm : t3 i = st.1 j
      · rw [if_pos hm] at hstep
        have hij : i ≤ j := by
          by_contra hlt
          have hlt : j < i := lt_of_not_ge hlt
          have := h1 j hlt
          rw [← hm] at this
          exact absurd (ht this) (ne_of_gt hlt)
        rw [hstep]
        refine ih _ (hst.comp (Equiv.injective _)) ?_ ?_
        · intro k hk
          have n1 : k ≠ i := ne_of_lt hk
          have n2 : k ≠ j := ne_of_lt (lt_of_lt_of_le hk hij)
          simp [Equiv.swap_apply_of_ne_of_ne n1 n2, h1 k hk]
        · left; simp [hm]
      · rw [if_neg hm] at hstep
        rw [hstep]
        refine ih st hst h1 ?_
        rcases h2 with h2 | ⟨k, hk, hk'⟩
        · exact Or.inl h2
        · rcases List.mem_cons.mp hk with rfl | hk
          · exact absurd hk'.symm hm
          · exact Or.inr ⟨k, hk, hk'⟩
  obtain ⟨j, hj⟩ := hsur
  exact key _ st hinj hdone (Or.inr ⟨j, List.mem_finRange j, hj⟩)

theorem reorderAmplitudes_permuted (amps : Fin n → α) (l3 t3 : Fin n → List ℕ) :
    Permuted l3 amps (reorderAmplitudes amps l3 t3) := by
  unfold reorderAmplitudes
  have : ∀ (l : List (Fin n)) st, Permuted l3 amps st →
      Permuted l3 amps (l.foldl (fun st i => (List.finRange n).foldl (swapIfMatch t3 i) st) st) := by
    intro l
    induction l with
    | nil => intro st h; exact h
    | cons i l ih => intro st h; exact ih _ (permuted_foldl _ h)
  exact this _ _ ⟨Equiv.refl _, rfl, rfl⟩

theorem reorderAmplitudes_rows (amps : Fin n → α) (l3 t3 : Fin n → List ℕ)
    (ht : Function.Injective t3) (hl : Function.Injective l3)
    (hsame : ∀ i, ∃ j, l3 j = t3 i) : (reorderAmplitudes amps l3 t3).1 = t3 := by
  have key : ∀ m ≤ n, ∃ st, st = ((List.finRange n).take m).foldl
        (fun st i => (List.finRange n).foldl (swapIfMatch t3 i) st) (l3, amps) ∧
      Permuted l3 amps st ∧ ∀ k : Fin n, k.1 < m → st.1 k = t3 k := by
    intro m
    induction m with
    | zero =>
      intro _
      exact ⟨_, rfl, ⟨Equiv.refl _, rfl, rfl⟩, fun k hk => absurd hk (by omega)⟩
    | succ m ih =>
      intro hm
      obtain ⟨st, hst, hperm, hrows⟩ := ih (by omega)
      have hml : m < (List.finRange n).length := by rw [List.length_finRange]; exact hm
      refine ⟨_, rfl, ?_⟩
      rw [List.take_succ_eq_append_getElem hml, List.foldl_append, ← hst, List.foldl_cons, List.foldl_nil]
      refine ⟨permuted_foldl _ hperm, ?_⟩
      obtain ⟨σ, h1, h2⟩ := hperm
      have e : (List.finRange n)[m] = ⟨m, hm⟩ := by simp
      intro k hk
      apply inner_places ht st (by rw [h1]; exact hl.comp σ.injective)
      · rw [e]
        obtain ⟨j, hj⟩ := hsame ⟨m, hm⟩
        exact ⟨σ.symm j, by simp [h1, hj]⟩
      · rw [e]
        intro k hk
        exact hrows k hk
      · rw [e]
        exact Fin.mk_le_mk.mpr (by omega : k.1 ≤ m)
  obtain ⟨st, hst, -, hrows⟩ := key n (le_refl n)
  rw [List.take_of_length_le (by simp)] at hst
  rw [reorderAmplitudes, ← hst]
  funext k
  exact hrows k k.2

end

end Ccpy.Reorder
