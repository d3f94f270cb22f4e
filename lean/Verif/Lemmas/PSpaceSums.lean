import Verif.Lemmas.PSpaceAlgebra

/-! Sums over products of Kronecker's symbols, by the places of the summation indices. -/

namespace Ccpy.PSpace
open Ccpy.Fock
open Finset (range)

theorem sum_delta_mul {n p : ℕ} (hp : p < n) (f : ℕ → ℚ) (u : ℚ) : ∑ z ∈ range n, f z * (same1 z p * u) = f p * u := by
  rw [← sum_delta hp (fun z => f z * u)]
  exact Finset.sum_congr rfl fun _ _ => by ring

theorem sum_mul_delta {n p : ℕ} (hp : p < n) (f : ℕ → ℚ) (u : ℚ) : ∑ z ∈ range n, f z * (u * same1 z p) = f p * u := by
  rw [← sum_delta hp (fun z => f z * u)]
  exact Finset.sum_congr rfl fun _ _ => by ring

theorem sum_alternating2_mul {n p q : ℕ} (hp : p < n) (hq : q < n) (f : ℕ → ℚ) (u : ℚ) (x : ℕ) :
    ∑ z ∈ range n, f z * (alternating2 x z p q * u) = (f q * same1 x p - f p * same1 x q) * u := by
  rw [← sum_alternating2 hp hq, Finset.sum_mul]
  exact Finset.sum_congr rfl fun _ _ => by ring

theorem sum_mul_alternating2_first {n p q : ℕ} (hp : p < n) (hq : q < n) (f : ℕ → ℚ) (u : ℚ) (x : ℕ) :
    ∑ z ∈ range n, f z * (u * alternating2 z x p q) = u * (f p * same1 x q - f q * same1 x p) := by
  rw [← sum_alternating2_first hp hq, Finset.mul_sum]
  exact Finset.sum_congr rfl fun _ _ => by ring

theorem sum_mul_alternating2 {n p q : ℕ} (hp : p < n) (hq : q < n) (f : ℕ → ℚ) (u : ℚ) (x : ℕ) :
    ∑ z ∈ range n, f z * (u * alternating2 x z p q) = u * (f q * same1 x p - f p * same1 x q) := by
  rw [← sum_alternating2 hp hq, Finset.mul_sum]
  exact Finset.sum_congr rfl fun _ _ => by ring

theorem sum_alternating2_first_mul {n p q : ℕ} (hp : p < n) (hq : q < n) (f : ℕ → ℚ) (u : ℚ) (x : ℕ) :
    ∑ z ∈ range n, f z * (alternating2 z x p q * u) = (f p * same1 x q - f q * same1 x p) * u := by
  rw [← sum_alternating2_first hp hq, Finset.sum_mul]
  exact Finset.sum_congr rfl fun _ _ => by ring

/-- `alternating2 x y` and `same1 z`, summed over `y` and `z`. -/
theorem sum_pair_yz {n n' p q r : ℕ} (hp : p < n) (hq : q < n) (hr : r < n') (f : ℕ → ℕ → ℚ) (x : ℕ) :
    ∑ y ∈ range n, ∑ z ∈ range n', f y z * (alternating2 x y p q * same1 z r) = f q r * same1 x p - f p r * same1 x q := by
  simp only [sum_mul_delta hr]
  exact sum_alternating2 hp hq (fun y => f y r) x

/-- The same with the symbol for `z` in front. -/
theorem sum_pair_zy {n n' p q r : ℕ} (hp : p < n) (hq : q < n) (hr : r < n') (f : ℕ → ℕ → ℚ) (x : ℕ) :
    ∑ z ∈ range n', ∑ y ∈ range n, f z y * (same1 z r * alternating2 x y p q) = f r q * same1 x p - f r p * same1 x q := by
  rw [Finset.sum_comm]
  simp only [sum_delta_mul hr]
  exact sum_alternating2 hp hq (fun y => f r y) x

/-- `same1 z` and `alternating2 y x`, summed over `z` and `y`. -/
theorem sum_pair_zy_first {n n' p q r : ℕ} (hp : p < n) (hq : q < n) (hr : r < n') (f : ℕ → ℕ → ℚ) (x : ℕ) :
    ∑ z ∈ range n', ∑ y ∈ range n, f z y * (same1 z r * alternating2 y x p q) = f r p * same1 x q - f r q * same1 x p := by
  rw [Finset.sum_comm]
  simp only [sum_delta_mul hr]
  exact sum_alternating2_first hp hq (fun y => f r y) x

/-- Both indices of `alternating2`. -/
theorem sum_pair_left {n p q : ℕ} (hp : p < n) (hq : q < n) (f : ℕ → ℕ → ℚ) (u : ℚ) :
    ∑ y ∈ range n, ∑ z ∈ range n, f y z * (alternating2 y z p q * u) = (f p q - f q p) * u := by
  simp only [sum_alternating2_mul hp hq]
  simp only [sub_mul, Finset.sum_sub_distrib]
  rw [← sum_delta hp (fun y => f y q * u), ← sum_delta hq (fun y => f y p * u)]
  congr 1 <;> exact Finset.sum_congr rfl fun _ _ => by ring

theorem sum_pair_right {n p q : ℕ} (hp : p < n) (hq : q < n) (f : ℕ → ℕ → ℚ) (u : ℚ) :
    ∑ y ∈ range n, ∑ z ∈ range n, f y z * (u * alternating2 y z p q) = u * (f p q - f q p) := by
  rw [mul_comm, ← sum_pair_left hp hq]
  exact Finset.sum_congr rfl fun _ _ => Finset.sum_congr rfl fun _ _ => by ring

theorem sum3_right (n n' n'' : ℕ) (F : ℕ → ℕ → ℕ → ℚ) (U : ℕ → ℕ → ℚ) (V : ℕ → ℚ) :
    ∑ x ∈ range n, ∑ y ∈ range n', ∑ z ∈ range n'', F x y z * (U y z * V x)
      = ∑ x ∈ range n, (∑ y ∈ range n', ∑ z ∈ range n'', F x y z * U y z) * V x := by
  refine Finset.sum_congr rfl fun _ _ => ?_
  rw [Finset.sum_mul]
  refine Finset.sum_congr rfl fun _ _ => ?_
  rw [Finset.sum_mul]
  exact Finset.sum_congr rfl fun _ _ => by ring

theorem sum3_left (n n' n'' : ℕ) (F : ℕ → ℕ → ℕ → ℚ) (U : ℕ → ℚ) (V : ℕ → ℕ → ℚ) :
    ∑ x ∈ range n, ∑ y ∈ range n', ∑ z ∈ range n'', F x y z * (U z * V x y)
      = ∑ x ∈ range n, ∑ y ∈ range n', (∑ z ∈ range n'', F x y z * U z) * V x y := by
  refine Finset.sum_congr rfl fun _ _ => Finset.sum_congr rfl fun _ _ => ?_
  rw [Finset.sum_mul]
  exact Finset.sum_congr rfl fun _ _ => by ring

/-! The same inside of longer products. -/

section
variable {n n' p q r : ℕ}

theorem sum_in_right {n : ℕ} (f g : ℕ → ℚ) (u : ℚ) : ∑ z ∈ range n, f z * (u * g z) = u * ∑ z ∈ range n, f z * g z := by
  rw [Finset.mul_sum]
  exact Finset.sum_congr rfl fun _ _ => by ring

theorem sum_in_left {n : ℕ} (f g : ℕ → ℚ) (u : ℚ) : ∑ z ∈ range n, f z * (g z * u) = (∑ z ∈ range n, f z * g z) * u := by
  rw [Finset.sum_mul]
  exact Finset.sum_congr rfl fun _ _ => by ring

theorem sum_sum_in_right {n n' : ℕ} (f g : ℕ → ℕ → ℚ) (u : ℚ) : ∑ y ∈ range n, ∑ z ∈ range n', f y z * (u * g y z)
    = u * ∑ y ∈ range n, ∑ z ∈ range n', f y z * g y z := by
  rw [Finset.mul_sum]
  exact Finset.sum_congr rfl fun _ _ => sum_in_right _ _ _

theorem sum_sum_in_left {n n' : ℕ} (f g : ℕ → ℕ → ℚ) (u : ℚ) : ∑ y ∈ range n, ∑ z ∈ range n', f y z * (g y z * u)
    = (∑ y ∈ range n, ∑ z ∈ range n', f y z * g y z) * u := by
  rw [Finset.sum_mul]
  exact Finset.sum_congr rfl fun _ _ => sum_in_left _ _ _

/-- The summation indices belong to different factors. -/
theorem sum_sum_both {n n' : ℕ} (f : ℕ → ℕ → ℚ) (g h : ℕ → ℚ) : ∑ y ∈ range n, ∑ z ∈ range n', f y z * (g z * h y)
    = ∑ y ∈ range n, (∑ z ∈ range n', f y z * g z) * h y :=
  Finset.sum_congr rfl fun _ _ => sum_in_left _ _ _

end

/-! Loops that add to an array. -/

theorem addSlice_eq (a i j : ℕ) (v : ℕ → ℚ) (I : Arr4) (m a' i' j' : ℕ) :
    addSlice a i j v I m a' i' j' = I m a' i' j' + same1 a' a * (same1 i' i * (same1 j' j * v m)) := by
  unfold addSlice same1
  split_ifs <;> simp_all

theorem foldl_add {step : Arr4 → List ℕ × ℚ → Arr4} (g : List ℕ → Arr4)
    (h : ∀ I x m a i j, step I x m a i j = I m a i j + g x.1 m a i j * x.2) : ∀ (src : List (List ℕ × ℚ)) (I : Arr4) (m a i j : ℕ),
      src.foldl step I m a i j = I m a i j + over src (fun q => g q m a i j)
  | [], I, m, a, i, j => by simp [over]
  | x :: src, I, m, a, i, j => by
    rw [List.foldl_cons, foldl_add g h src, h]
    simp only [over, List.map_cons, List.sum_cons]
    ring

/-- The loop over `i < j` that antisymmetrizes. -/
theorem antisymmetrizeLoop_eq {n : ℕ} {β : Type} [AddCommGroup β] (I : ℕ → ℕ → β) {i j : ℕ} (hi : i < n) (hj : j < n) (hij : i ≠ j) :
    antisymmetrizeLoop n I (i + 1) (j + 1) = I (i + 1) (j + 1) - I (j + 1) (i + 1) := by
  have key : ∀ (l : List (ℕ × ℕ)) (I : ℕ → ℕ → β), (∀ p ∈ l, p.1 < p.2) → l.Nodup → ∀ x y,
      l.foldl (fun (I : ℕ → ℕ → β) (p : ℕ × ℕ) =>
        let I := Function.update I p.1 (Function.update (I p.1) p.2 (I p.1 p.2 - I p.2 p.1))
        Function.update I p.2 (Function.update (I p.2) p.1 (- I p.1 p.2))) I x y
      = if (x, y) ∈ l ∨ (y, x) ∈ l then I x y - I y x else I x y := by
    intro l
    induction l with
    | nil => simp
    | cons p l ih =>
      intro I hl hnd x y
      obtain ⟨u, v⟩ := p
      have huv : u < v := hl (u, v) (by simp)
      have hnd' := List.nodup_cons.mp hnd
      rw [List.foldl_cons, ih _ (fun p hp => hl p (by simp [hp])) hnd'.2]
      have hn : (v, u) ∉ l := fun h => by have := hl (v, u) (by simp [h]); simp at this; omega
      have step : ∀ x y, Function.update (Function.update I u (Function.update (I u) v (I u v - I v u))) v
          (Function.update (Function.update I u (Function.update (I u) v (I u v - I v u)) v) u
            (-Function.update I u (Function.update (I u) v (I u v - I v u)) u v)) x y
          = if x = u ∧ y = v then I u v - I v u else if x = v ∧ y = u then I v u - I u v else I x y := by
        intro x y
        by_cases h1 : x = v
        · subst h1
          by_cases h2 : y = u
          · subst h2
            rw [if_neg (by omega)]
            simp [huv.ne, huv.ne']
          · have : ¬(x = u ∧ y = x) := by omega
            rw [if_neg this]
            simp [h2, huv.ne']
        · by_cases h2 : x = u
          · subst h2
            by_cases h3 : y = v
            · subst h3; simp [h1]
            · simp [h1, h3]
          · simp [h1, h2]
      simp only [List.mem_cons, Prod.mk.injEq, step]
      by_cases h1 : x = u ∧ y = v
      · obtain ⟨rfl, rfl⟩ := h1
        simp [hnd'.1, hn, huv.ne, huv.ne']
      · by_cases h2 : x = v ∧ y = u
        · obtain ⟨rfl, rfl⟩ := h2
          simp [hnd'.1, hn, huv.ne, huv.ne']
        · have h1' : ¬(y = v ∧ x = u) := fun h => h1 ⟨h.2, h.1⟩
          have h2' : ¬(y = u ∧ x = v) := fun h => h2 ⟨h.2, h.1⟩
          simp [h1, h2, h1', h2']
  unfold antisymmetrizeLoop
  rw [key]
  · rw [if_pos]
    rcases Nat.lt_or_gt_of_ne hij with h | h
    · left
      simp only [List.mem_flatMap, List.mem_range, List.mem_map, Prod.mk.injEq]
      exact ⟨i, hi, j - i - 1, by omega, rfl, by omega⟩
    · right
      simp only [List.mem_flatMap, List.mem_range, List.mem_map, Prod.mk.injEq]
      exact ⟨j, hj, i - j - 1, by omega, rfl, by omega⟩
  · intro p hp
    simp only [List.mem_flatMap, List.mem_range, List.mem_map] at hp
    obtain ⟨a, _, b, _, rfl⟩ := hp
    simp only
    omega
  · rw [List.nodup_flatMap]
    refine ⟨fun a _ => (List.nodup_range).map ?_, ?_⟩
    · intro x y h; simp only [Prod.mk.injEq, true_and] at h; omega
    · refine List.pairwise_iff_forall_sublist.mpr fun {a b} hs => ?_
      have hab : a ≠ b := (List.pairwise_iff_forall_sublist.mp List.nodup_range) hs
      intro x hx hx'
      simp only [List.mem_map, List.mem_range] at hx hx'
      obtain ⟨_, _, rfl⟩ := hx
      obtain ⟨_, _, h⟩ := hx'
      simp only [Prod.mk.injEq] at h
      omega

end Ccpy.PSpace
