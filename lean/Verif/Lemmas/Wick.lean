import Verif.Lemmas.SpinOperators

/-! Evaluation of matrix elements of operator strings between a determinant: operators that annihilate the
determinant move to the right. -/

namespace Ccpy.Fock

variable {ι : Type*} [LinearOrder ι] {up down : ℕ → ι} {n na nb : ℕ}

/-- Kronecker delta. -/
def delta (x y : ι) : ℚ := if x = y then 1 else 0

/-- The occupied spin orbitals of the reference. -/
def occupiedSet (up down : ℕ → ι) (na nb : ℕ) : Finset ι :=
  (Finset.range na).image up ∪ (Finset.range nb).image down

theorem reference_eq : reference up down na nb = det (occupiedSet up down na nb) := rfl

theorem up_mem (L : Labels up down) (a : ℕ) : up a ∈ occupiedSet up down na nb ↔ a < na := by
  simp only [occupiedSet, Finset.mem_union, Finset.mem_image, Finset.mem_range, L.up_inj, L.du, and_false,
    exists_false, or_false]
  exact ⟨fun ⟨p, hp, e⟩ => e ▸ hp, fun h => ⟨a, h, rfl⟩⟩

theorem down_mem (L : Labels up down) (a : ℕ) : down a ∈ occupiedSet up down na nb ↔ a < nb := by
  simp only [occupiedSet, Finset.mem_union, Finset.mem_image, Finset.mem_range, L.down_inj, L.ud, and_false,
    exists_false, false_or]
  exact ⟨fun ⟨p, hp, e⟩ => e ▸ hp, fun h => ⟨a, h, rfl⟩⟩

theorem delta_up (L : Labels up down) (a b : ℕ) : delta (up a) (up b) = if a = b then 1 else 0 := by
  simp only [delta, L.up_inj]
theorem delta_down (L : Labels up down) (a b : ℕ) : delta (down a) (down b) = if a = b then 1 else 0 := by
  simp only [delta, L.down_inj]
theorem delta_ud (L : Labels up down) (a b : ℕ) : delta (up a) (down b) = 0 := if_neg (L.ud a b)
theorem delta_du (L : Labels up down) (a b : ℕ) : delta (down a) (up b) = 0 := if_neg (L.du b a)

variable (D : Finset ι)

theorem w_ann_cre {x : ι} (_ : x ∉ D) (y : ι) (v : Vec ι) : ann x (cre y v) = delta x y • v - cre y (ann x v) := by
  rw [ann_cre_apply, delta]
  split_ifs
  · rw [one_smul]
  · rw [zero_smul]

theorem w_ann_ann {x y : ι} (_ : x ∉ D) (_ : y ∈ D) (v : Vec ι) : ann x (ann y v) = -ann y (ann x v) :=
  ann_ann_apply x y v

theorem w_cre_ann {x y : ι} (_ : x ∈ D) (_ : y ∈ D) (v : Vec ι) :
    cre x (ann y v) = delta y x • v - ann y (cre x v) := by
  have := ann_cre_apply y x v
  rw [delta]
  split_ifs with h
  · rw [this, if_pos h, one_smul, sub_sub_cancel]
  · rw [this, if_neg h, zero_smul, zero_sub, zero_sub, neg_neg]

theorem w_cre_cre {x y : ι} (_ : x ∈ D) (_ : y ∉ D) (v : Vec ι) : cre x (cre y v) = -cre y (cre x v) :=
  cre_cre_apply x y v

theorem w_ann_det {x : ι} (h : x ∉ D) : ann x (det D) = 0 := by rw [ann_det, if_neg h]
theorem w_cre_det {x : ι} (h : x ∈ D) : cre x (det D) = 0 := by rw [cre_det, if_pos h]
theorem w_det_cre {x : ι} (h : x ∉ D) (v : Vec ι) : inner (det D) (cre x v) = 0 := by
  rw [← inner_ann, w_ann_det D h, inner_zero_left]
theorem w_det_ann {x : ι} (h : x ∈ D) (v : Vec ι) : inner (det D) (ann x v) = 0 := by
  rw [← inner_cre, w_cre_det D h, inner_zero_left]
theorem w_det_det : inner (det D) (det D) = 1 := by rw [inner_det_det, if_pos rfl]

theorem inner_sub_right (v w w' : Vec ι) : inner v (w - w') = inner v w - inner v w' := by
  rw [sub_eq_add_neg, inner_add_right, inner_neg_right, sub_eq_add_neg]
theorem inner_sub_left (v v' w : Vec ι) : inner (v - v') w = inner v w - inner v' w := by
  rw [sub_eq_add_neg, inner_add_left, inner_neg_left, sub_eq_add_neg]

/-- Evaluate an inner product of operator strings on the reference; the occupations of all the labels must be
known from hypotheses `a < na`, `¬ a < na`, … passed as extra simplification rules. -/
syntax "wick " term:max term:max " with " "[" Lean.Parser.Tactic.simpLemma,* "]" : tactic
macro_rules
  | `(tactic| wick $L $D with [$xs,*]) => `(tactic|
    simp only [reference_eq, inner_cre, inner_ann, map_add, map_sub, map_neg, map_smul, map_zero, inner_add_right,
      inner_add_left, inner_sub_left, inner_sub_right, inner_neg_right, inner_neg_left, inner_smul_left,
      inner_smul_right, inner_zero_left, inner_zero_right, neg_zero, sub_zero, zero_sub, add_zero, zero_add,
      smul_zero, mul_zero, zero_mul, neg_neg, zero_smul, one_smul, mul_one, not_false_iff, ($(Lean.mkIdent ``up_mem) $L), ($(Lean.mkIdent ``down_mem) $L),
      ($(Lean.mkIdent ``delta_up) $L), ($(Lean.mkIdent ``delta_down) $L), ($(Lean.mkIdent ``delta_ud) $L), ($(Lean.mkIdent ``delta_du) $L),
      w_ann_cre $D, w_ann_ann $D, w_cre_ann $D,
      w_cre_cre $D, w_ann_det, w_cre_det, w_det_cre, w_det_ann, w_det_det, $xs,*])

end Ccpy.Fock
