import Verif.Lemmas.Reorder

/-! C40: reorder_amplitudes; C41: tensor transposition. -/

namespace Ccpy.Reorder
open Spec

/-! ### C40 -/

/-- C40. `reorder_amplitudes` never separates an amplitude from its excitation: whatever the two
lists are, the output rows and amplitudes are the input ones moved by one and the same
permutation. -/
theorem C40_pairs_preserved {n : ℕ} {α : Type*} (amps : Fin n → α) (l3 t3 : Fin n → List ℕ) :
    ∃ σ : Equiv.Perm (Fin n), ∀ i,
      (reorderAmplitudes amps l3 t3).1 i = l3 (σ i) ∧ (reorderAmplitudes amps l3 t3).2 i = amps (σ i) := by
  obtain ⟨σ, h1, h2⟩ := reorderAmplitudes_permuted amps l3 t3
  exact ⟨σ, fun i => ⟨congrFun h1 i, congrFun h2 i⟩⟩

/-- C40. If the two lists hold the same distinct excitations, then after `reorder_amplitudes` row
`i` is the `i`-th target excitation and its amplitude is the one that excitation had. -/
theorem C40_target_order {n : ℕ} {α : Type*} (amps : Fin n → α) (l3 t3 : Fin n → List ℕ)
    (ht : Function.Injective t3) (hl : Function.Injective l3) (hsame : ∀ i, ∃ j, l3 j = t3 i) :
    (∀ i, (reorderAmplitudes amps l3 t3).1 i = t3 i) ∧
      ∀ i j, l3 j = t3 i → (reorderAmplitudes amps l3 t3).2 i = amps j := by
  have hrows := reorderAmplitudes_rows amps l3 t3 ht hl hsame
  refine ⟨fun i => congrFun hrows i, fun i j hij => ?_⟩
  obtain ⟨σ, h⟩ := C40_pairs_preserved amps l3 t3
  have e : l3 (σ i) = l3 j := by rw [← (h i).1, hij]; exact congrFun hrows i
  rw [(h i).2, hl e]

/-- Three triples in cyclically different orders. -/
example :
    let t3 : Fin 3 → List ℕ := ![[1, 2, 3, 1, 2, 3], [1, 2, 4, 1, 2, 3], [1, 2, 5, 1, 2, 3]]
    let l3 : Fin 3 → List ℕ := ![[1, 2, 4, 1, 2, 3], [1, 2, 5, 1, 2, 3], [1, 2, 3, 1, 2, 3]]
    (Function.Injective t3 ∧ Function.Injective l3 ∧ ∀ i, ∃ j, l3 j = t3 i) ∧
    (reorderAmplitudes ![(10 : ℤ), 20, 30] l3 t3).1 = t3 ∧
    (reorderAmplitudes ![(10 : ℤ), 20, 30] l3 t3).2 = ![30, 10, 20] := by decide +kernel

/-- C40. Distinctness is needed: with a repeated target row, a finished row is moved away again and
the output rows are not the target rows, even though both lists hold the same rows. -/
theorem C40_repeated_rows_fails :
    ¬ ∀ (n : ℕ) (amps : Fin n → ℤ) (l3 t3 : Fin n → List ℕ),
      (∃ σ : Equiv.Perm (Fin n), t3 = l3 ∘ σ) → (reorderAmplitudes amps l3 t3).1 = t3 := by
  intro h
  have := h 4 ![1, 2, 3, 4] ![[1], [2], [1], [2]] ![[1], [2], [2], [1]] ⟨Equiv.swap 2 3, by decide⟩
  revert this
  decide +kernel

/-! ### C41 -/

/-- C41. `reorder_stripe` stores, at the position of the permuted indices in a tensor of permuted
extents, the element of `A` with the unpermuted indices; all positions past the tensor's size keep
their value. -/
theorem C41_reorder_stripe {α : Type*} (shape perm : List ℕ)
    (hp : perm.Perm (List.range shape.length)) (A B : ℕ → α) :
    (∀ idx, InShape shape idx →
      reorderStripe shape perm A B (flat (perm.map fun p => shape.getD p 1) (perm.map idx))
        = A (flat shape ((List.range shape.length).map idx))) ∧
    (∀ k, shape.prod ≤ k → reorderStripe shape perm A B k = B k) :=
  reorderStripe_spec hp A B

/-- C41. Every position of the output is written: none keeps the old contents of `B`. -/
theorem C41_reorder_stripe_total {α : Type*} (shape perm : List ℕ)
    (hp : perm.Perm (List.range shape.length)) (A B : ℕ → α) (k : ℕ) (hk : k < shape.prod) :
    ∃ idx, InShape shape idx ∧ k = flat (perm.map fun p => shape.getD p 1) (perm.map idx) ∧
      reorderStripe shape perm A B k = A (flat shape ((List.range shape.length).map idx)) := by
  obtain ⟨idx, h1, h2⟩ := exists_index hp k hk
  refine ⟨idx, h1, h2.symm, ?_⟩
  rw [← h2]
  exact (reorderStripe_spec hp A B).1 idx h1

/-- C41. `sum_stripe` adds to each element of `A` exactly `beta` times the element of `B` with
permuted indices, once. -/
theorem C41_sum_stripe {α : Type*} [Semiring α] (shape perm : List ℕ)
    (hp : perm.Perm (List.range shape.length)) (beta : α) (A B : ℕ → α) :
    (∀ idx, InShape shape idx →
      sumStripe shape perm beta A B (flat shape ((List.range shape.length).map idx))
        = A (flat shape ((List.range shape.length).map idx))
          + beta * B (flat (perm.map fun p => shape.getD p 1) (perm.map idx))) ∧
    (∀ k, shape.prod ≤ k → sumStripe shape perm beta A B k = A k) :=
  sumStripe_spec hp beta A B

/-- C41. Different multi-indices have different offsets, so the statements above determine the
arrays. -/
theorem C41_flat_injective (shape : List ℕ) (idx idx' : ℕ → ℕ) (h : InShape shape idx)
    (h' : InShape shape idx')
    (e : flat shape ((List.range shape.length).map idx)
      = flat shape ((List.range shape.length).map idx')) :
    ∀ p < shape.length, idx p = idx' p :=
  flat_injective idx idx' h h' e

/-- C41. A transposed copy added back with the same permutation string gives `A + beta * A`. -/
theorem C41_reorder_then_sum {α : Type*} [Semiring α] (shape perm : List ℕ)
    (hp : perm.Perm (List.range shape.length)) (beta : α) (A B : ℕ → α) (k : ℕ)
    (hk : k < shape.prod) :
    sumStripe shape perm beta A (reorderStripe shape perm A B) k = A k + beta * A k := by
  obtain ⟨idx, h1, h2⟩ := exists_index (List.Perm.refl (List.range shape.length)) k hk
  rw [shape_eq] at h2
  have := (C41_sum_stripe shape perm hp beta A (reorderStripe shape perm A B)).1 idx h1
  rw [(C41_reorder_stripe shape perm hp A B).1 idx h1, h2] at this
  exact this

/-- A 2 x 3 x 2 tensor with permutation string "312". -/
example : [2, 0, 1].Perm (List.range [2, 3, 2].length) ∧
    InShape [2, 3, 2] (fun p => [1, 2, 0].getD p 0) ∧
    (List.range 12).map (reorderStripe [2, 3, 2] [2, 0, 1] (fun k => k) fun _ => 99)
      = [0, 6, 1, 7, 2, 8, 3, 9, 4, 10, 5, 11] ∧
    (List.range 12).map (sumStripe [2, 3, 2] [2, 0, 1] 10 (fun k => k) fun k => k)
      = [0, 21, 42, 63, 84, 105, 16, 37, 58, 79, 100, 121] := by
  refine ⟨by decide, ?_, by decide +kernel, by decide +kernel⟩
  unfold InShape
  decide

/-- C41. The two index permutations of reorder.f90 undo one another. -/
theorem C41_permute_inverse {α : Type*} {n : ℕ} (perm : Fin n → Fin n)
    (h : Function.Injective perm) (A B C : Fin n → α) :
    inversePermuteArray perm (permuteArray perm A B) C = A ∧
      permuteArray perm (inversePermuteArray perm A B) C = A := by
  constructor
  · funext i
    rw [inversePermuteArray_apply, permuteArray_apply perm h]
  · funext i
    obtain ⟨j, rfl⟩ := (Finite.injective_iff_surjective.mp h) i
    rw [permuteArray_apply perm h, inversePermuteArray_apply]

example : permuteArray ![(1 : Fin 3), 2, 0] ![(5 : ℕ), 6, 7] ![0, 0, 0] = ![7, 5, 6] := by decide

/-- C41. `reorder4` of a four-index tensor: the element with the indices taken in the order
`iorder` is the element of `x`; everything outside the permuted tensor is zero. -/
theorem C41_reorder4 {α : Type*} [Zero α] (n : Fin 4 → ℕ) (x : (Fin 4 → ℕ) → α)
    (iorder : Fin 4 → Fin 4) (h : Function.Injective iorder) :
    (∀ v, (∀ a, v a < n a) → reorder4 (n 0) (n 1) (n 2) (n 3) x iorder (v ∘ iorder) = x v) ∧
    (∀ w, (∃ a, n (iorder a) ≤ w a) → reorder4 (n 0) (n 1) (n 2) (n 3) x iorder w = 0) := by
  have hs : Function.Surjective iorder := Finite.injective_iff_surjective.mp h
  have hinj : Function.Injective fun v : Fin 4 → ℕ => v ∘ iorder := hs.injective_comp_right
  have hf := foldl_update (loop4 (n 0) (n 1) (n 2) (n 3)) (fun v => v ∘ iorder) x
    ((nodup_loop4 _ _ _ _).map hinj) (fun _ => 0)
  refine ⟨fun v hv => hf.1 v (mem_loop4.mpr ⟨hv 0, hv 1, hv 2, hv 3⟩), fun w hw => hf.2 w ?_⟩
  intro hm
  obtain ⟨v, hv, rfl⟩ := List.mem_map.mp hm
  obtain ⟨a, ha⟩ := hw
  obtain ⟨h0, h1, h2, h3⟩ := mem_loop4.mp hv
  have : ∀ b, v b < n b := by intro b; fin_cases b <;> assumption
  exact absurd (this (iorder a)) (by simpa using ha)

/-- C41. `sum4` adds the reordered tensor once to each element of `x` and nothing elsewhere. -/
theorem C41_sum4 {α : Type*} [Add α] (n : Fin 4 → ℕ) (x y : (Fin 4 → ℕ) → α)
    (iorder : Fin 4 → Fin 4) :
    (∀ v, (∀ a, v a < n a) → sum4 (n 0) (n 1) (n 2) (n 3) x y iorder v = x v + y (v ∘ iorder)) ∧
    (∀ v, (∃ a, n a ≤ v a) → sum4 (n 0) (n 1) (n 2) (n 3) x y iorder v = x v) := by
  have hf := foldl_add (loop4 (n 0) (n 1) (n 2) (n 3)) (fun v => v) (fun v => y (v ∘ iorder))
    (by simpa using nodup_loop4 _ _ _ _) x
  refine ⟨fun v hv => hf.1 v (mem_loop4.mpr ⟨hv 0, hv 1, hv 2, hv 3⟩), fun w hw => hf.2 w ?_⟩
  intro hm
  simp only [List.map_id'] at hm
  obtain ⟨a, ha⟩ := hw
  obtain ⟨h0, h1, h2, h3⟩ := mem_loop4.mp hm
  have : ∀ b, w b < n b := by intro b; fin_cases b <;> assumption
  exact absurd (this a) (by omega)

example : reorder4 2 1 1 3 (fun v => v 0 * 10 + v 3) ![3, 0, 1, 2] ![2, 1, 0, 0] = 12 := by
  have h := (C41_reorder4 ![2, 1, 1, 3] (fun v => v 0 * 10 + v 3) ![3, 0, 1, 2] (by decide)).1
    ![1, 0, 0, 2] (by decide)
  have e : ![1, 0, 0, 2] ∘ ![(3 : Fin 4), 0, 1, 2] = ![2, 1, 0, 0] := by decide
  rw [e] at h
  exact h

end Ccpy.Reorder
