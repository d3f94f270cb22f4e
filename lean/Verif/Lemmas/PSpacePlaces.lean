import Verif.Lemmas.PSpaceSums
import Verif.Model.PSpaceDoubles

/-! Sums over products of Kronecker's symbols for the contractions of the single and double excitations. -/

namespace Ccpy.PSpace
open Ccpy.Fock
open Finset (range)

/-- Two summation indices belong to each factor. -/
theorem sum4_split (n n' n'' n''' : ℕ) (F : ℕ → ℕ → ℕ → ℕ → ℚ) (U V : ℕ → ℕ → ℚ) :
    ∑ x ∈ range n, ∑ y ∈ range n', ∑ z ∈ range n'', ∑ w ∈ range n''', F x y z w * (U z w * V x y)
      = ∑ x ∈ range n, ∑ y ∈ range n', (∑ z ∈ range n'', ∑ w ∈ range n''', F x y z w * U z w) * V x y :=
  Finset.sum_congr rfl fun _ _ => Finset.sum_congr rfl fun _ _ => sum_sum_in_left _ _ _

/-- The first and the last index are summation indices. -/
theorem sum_sum_alternating3_outer {n p q r : ℕ} (hp : p < n) (hq : q < n) (hr : r < n) (f : ℕ → ℕ → ℚ) (x : ℕ) :
    ∑ y ∈ range n, ∑ z ∈ range n, f y z * alternating3 y x z p q r
      = -((f q r - f r q) * same1 x p - (f p r - f r p) * same1 x q + (f p q - f q p) * same1 x r) := by
  rw [← sum_sum_alternating3 hp hq hr]
  simp only [fun y z => alternating3_swap x y z p q r, mul_neg, Finset.sum_neg_distrib]

/-- `alternating2 y x` and `same1 z`, summed over `y` and `z`. -/
theorem sum_pair_yz_first {n n' p q r : ℕ} (hp : p < n) (hq : q < n) (hr : r < n') (f : ℕ → ℕ → ℚ) (x : ℕ) :
    ∑ y ∈ range n, ∑ z ∈ range n', f y z * (alternating2 y x p q * same1 z r) = f p r * same1 x q - f q r * same1 x p := by
  simp only [sum_mul_delta hr]
  exact sum_alternating2_first hp hq (fun y => f y r) x

/-- Both indices of `alternating2` in the other order. -/
theorem sum_pair_right_reversed {n p q : ℕ} (hp : p < n) (hq : q < n) (f : ℕ → ℕ → ℚ) (u : ℚ) :
    ∑ y ∈ range n, ∑ z ∈ range n, f y z * (u * alternating2 z y p q) = u * (f q p - f p q) := by
  rw [Finset.sum_comm]
  exact sum_pair_right hp hq (fun z y => f y z) u

theorem over_sub (t : List (List ℕ × ℚ)) (f g : List ℕ → ℚ) : over t (fun q => f q - g q) = over t f - over t g := by
  have := over_add t (fun q => f q - g q) g
  simp only [sub_add_cancel] at this
  linarith

theorem addElement2_eq (a i : ℕ) (v : ℚ) (r : Arr2) (x y : ℕ) : addElement2 a i v r x y = r x y + same1 x a * (same1 y i * v) := by
  unfold addElement2 same1
  split_ifs <;> simp_all

theorem addElement4_eq (a b i j : ℕ) (v : ℚ) (r : Arr4) (x y z w : ℕ) :
    addElement4 a b i j v r x y z w = r x y z w + same1 x a * (same1 y b * (same1 z i * (same1 w j * v))) := by
  unfold addElement4 same1
  split_ifs <;> simp_all

theorem addSlice2_eq (a i j : ℕ) (v : ℕ → ℚ) (r : Arr4) (x y z w : ℕ) :
    addSlice2 a i j v r x y z w = r x y z w + same1 x a * (same1 z i * (same1 w j * v y)) := by
  unfold addSlice2 same1
  split_ifs <;> simp_all

theorem addSlice3_eq (a b j : ℕ) (v : ℕ → ℚ) (r : Arr4) (x y z w : ℕ) :
    addSlice3 a b j v r x y z w = r x y z w + same1 x a * (same1 y b * (same1 w j * v z)) := by
  unfold addSlice3 same1
  split_ifs <;> simp_all

theorem addSlice4_eq (a b i : ℕ) (v : ℕ → ℚ) (r : Arr4) (x y z w : ℕ) :
    addSlice4 a b i v r x y z w = r x y z w + same1 x a * (same1 y b * (same1 z i * v w)) := by
  unfold addSlice4 same1
  split_ifs <;> simp_all

theorem foldl_add2 {step : Arr2 → List ℕ × ℚ → Arr2} (g : List ℕ → Arr2)
    (h : ∀ I x a i, step I x a i = I a i + g x.1 a i * x.2) : ∀ (src : List (List ℕ × ℚ)) (I : Arr2) (a i : ℕ),
      src.foldl step I a i = I a i + over src (fun q => g q a i)
  | [], I, a, i => by simp [over]
  | x :: src, I, a, i => by
    rw [List.foldl_cons, foldl_add2 g h src, h]
    simp only [over, List.map_cons, List.sum_cons]
    ring

end Ccpy.PSpace
