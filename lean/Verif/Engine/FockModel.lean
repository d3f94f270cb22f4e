import Verif.Engine.Expectation
import Verif.Spec.StoredArrays
import Verif.Lemmas.SpinOperators
import Verif.Model.TensorArrays
import Mathlib.Tactic.Abel
import Mathlib.Tactic.IntervalCases
import Mathlib.Tactic.Module

/-! The engine computes in the Fock space: operators, Hamiltonian and cluster operator as lists of pieces. -/

namespace Ccpy.Engine

open Ccpy.Fock Ccpy.Tensor Finset

variable {ι : Type*} [LinearOrder ι]

/-- The spin orbital of an index of one of the four spaces. -/
def orb (S : Orbitals ι) (x : ℕ × ℕ) : ι :=
  match x.1 with
  | 0 => S.up x.2
  | 1 => S.up (S.na + x.2)
  | 2 => S.down x.2
  | _ => S.down (S.nb + x.2)

noncomputable def opX (S : Orbitals ι) (b : Bool) (x : ℕ × ℕ) : Operator ι := if b then cre (orb S x) else ann (orb S x)

/-- Expectation value in the reference determinant. -/
noncomputable def expect (S : Orbitals ι) : Operator ι →ₗ[ℚ] ℚ where
  toFun a := inner S.ref (a S.ref)
  map_add' a b := by rw [LinearMap.add_apply, inner_add_right]
  map_smul' c a := by rw [LinearMap.smul_apply, inner_smul_right]; rfl

abbrev dimS (S : Orbitals ι) : ℕ → ℕ := dims S.n S.na S.nb

theorem labels {S : Orbitals ι} (h : S.Proper) : Labels S.up S.down :=
  ⟨fun _ _ => h.up_inj.eq_iff, fun _ _ => h.down_inj.eq_iff, h.ne, fun p q e => h.ne p q e.symm⟩

theorem orb_inj {S : Orbitals ι} (h : S.Proper) {x y : ℕ × ℕ} (hx : Valid (dimS S) x) (hy : Valid (dimS S) y) :
    orb S x = orb S y ↔ x = y := by
  obtain ⟨s, k⟩ := x
  obtain ⟨s', k'⟩ := y
  obtain ⟨hs, hk⟩ := hx
  obtain ⟨hs', hk'⟩ := hy
  have L := labels h
  simp only at hs hk hs' hk'
  have h1 := h.ha
  have h2 := h.hb
  interval_cases s <;> interval_cases s' <;> simp only [dimS, dims] at hk hk' <;>
    simp [orb, L.up_inj, L.down_inj, L.ud, L.du] <;> omega

theorem fock_car {S : Orbitals ι} (h : S.Proper) : Car (dimS S) (opX S) where
  same b x y _ _ := by
    cases b
    · exact ann_ann _ _
    · exact cre_cre _ _
  mixed b x y hx hy := by
    cases b
    · have := ann_cre (orb S x) (orb S y)
      simp only [orb_inj h hx hy] at this
      exact this
    · have := ann_cre (orb S y) (orb S x)
      simp only [orb_inj h hy hx, eq_comm (a := y)] at this
      have h' : ann (orb S y) * cre (orb S x) = (if x = y then (1 : Operator ι) else 0) - cre (orb S x) * ann (orb S y) := this
      simp only [opX, Bool.not_true, if_true]
      rw [if_neg Bool.false_ne_true, h']
      abel

theorem isAnn_false {b : Bool} {s : ℕ} (hs : s < 4) (h : isAnn (b, s) = false) :
    (b = true ∧ (s = 1 ∨ s = 3)) ∨ (b = false ∧ (s = 0 ∨ s = 2)) := by
  rw [isAnn_eq] at h
  interval_cases s <;> cases b <;> simp_all

theorem isAnn_true {b : Bool} {s : ℕ} (hs : s < 4) (h : isAnn (b, s) = true) :
    (b = false ∧ (s = 1 ∨ s = 3)) ∨ (b = true ∧ (s = 0 ∨ s = 2)) := by
  rw [isAnn_eq] at h
  interval_cases s <;> cases b <;> simp_all

theorem ann_ref {S : Orbitals ι} (h : S.Proper) {x : ℕ × ℕ} (hs : x.1 = 1 ∨ x.1 = 3) : ann (orb S x) S.ref = 0 := by
  obtain ⟨s, k⟩ := x
  rcases hs with hs | hs <;> simp only at hs <;> subst hs
  · exact ann_reference_up (labels h) (Nat.le_add_right _ _)
  · exact ann_reference_down (labels h) (Nat.le_add_right _ _)

theorem cre_ref {S : Orbitals ι} {x : ℕ × ℕ} (hx : Valid (dimS S) x) (hs : x.1 = 0 ∨ x.1 = 2) : cre (orb S x) S.ref = 0 := by
  obtain ⟨s, k⟩ := x
  obtain ⟨_, hk⟩ := hx
  rcases hs with hs | hs <;> simp only at hs <;> subst hs
  · exact cre_reference_up hk
  · exact cre_reference_down hk

theorem fock_vacuum {S : Orbitals ι} (h : S.Proper) : Vacuum (dimS S) (opX S) (expect S) where
  toCar := fock_car h
  one := inner_reference
  left b x a hx hb := by
    show inner S.ref ((opX S b x) (a S.ref)) = 0
    rcases isAnn_false hx.1 hb with ⟨rfl, hs⟩ | ⟨rfl, hs⟩
    · show inner S.ref (cre (orb S x) (a S.ref)) = 0
      rw [← inner_ann, ann_ref h hs, inner_zero_left]
    · show inner S.ref (ann (orb S x) (a S.ref)) = 0
      rw [← inner_cre, cre_ref hx hs, inner_zero_left]
  right b x a hx hb := by
    show inner S.ref (a ((opX S b x) S.ref)) = 0
    rcases isAnn_true hx.1 hb with ⟨rfl, hs⟩ | ⟨rfl, hs⟩
    · have : opX S false x S.ref = 0 := ann_ref h hs
      rw [this, map_zero, inner_zero_right]
    · have : opX S true x S.ref = 0 := cre_ref hx hs
      rw [this, map_zero, inner_zero_right]

/-! ### Values of pieces -/

section pieces
variable {A : Type*} [Ring A] [Algebra ℚ A] {I : ℕ → List (ℕ × ℕ) → ℚ} {X : Bool → ℕ × ℕ → A} {dim : ℕ → ℕ}

theorem evalP_two {c : Coef} {k v w : ℕ} {b b' : Bool} (h : v ≠ w) (ρ : Env) :
    evalP I X dim ⟨c, [v, w], [(k, [v, w])], [(b, v), (b', w)]⟩ ρ = c.val • ∑ i ∈ range (dim (v % 4)), ∑ j ∈ range (dim (w % 4)),
      I k [(v % 4, i), (w % 4, j)] • (X b (v % 4, i) * X b' (w % 4, j)) := by
  simp [evalP, sumV, evalFs, evalF, evalO, val, Function.update_of_ne h]

theorem evalP_four {c : Coef} {k v w x y : ℕ} {b₁ b₂ b₃ b₄ : Bool} (h : [v, w, x, y].Nodup) (ρ : Env) :
    evalP I X dim ⟨c, [v, w, x, y], [(k, [v, w, x, y])], [(b₁, v), (b₂, w), (b₃, y), (b₄, x)]⟩ ρ
      = c.val • ∑ i ∈ range (dim (v % 4)), ∑ j ∈ range (dim (w % 4)), ∑ l ∈ range (dim (x % 4)), ∑ m ∈ range (dim (y % 4)),
      I k [(v % 4, i), (w % 4, j), (x % 4, l), (y % 4, m)]
        • (X b₁ (v % 4, i) * X b₂ (w % 4, j) * X b₃ (y % 4, m) * X b₄ (x % 4, l)) := by
  simp only [List.nodup_cons, List.mem_cons, List.not_mem_nil, or_false, not_or] at h
  obtain ⟨⟨h1, h2, h3⟩, ⟨h4, h5⟩, h6, _⟩ := h
  simp [evalP, sumV, evalFs, evalF, evalO, val, Function.update_of_ne h1, Function.update_of_ne h2, Function.update_of_ne h3,
    Function.update_of_ne h4, Function.update_of_ne h5, Function.update_of_ne h6, mul_assoc]

theorem evalP_mean {c : Coef} {k v w x : ℕ} {b b' : Bool} (h : [v, w, x].Nodup) (ρ : Env) :
    evalP I X dim ⟨c, [v, w, x], [(k, [v, x, w, x])], [(b, v), (b', w)]⟩ ρ
      = c.val • ∑ i ∈ range (dim (v % 4)), ∑ j ∈ range (dim (w % 4)), (∑ l ∈ range (dim (x % 4)),
      I k [(v % 4, i), (x % 4, l), (w % 4, j), (x % 4, l)]) • (X b (v % 4, i) * X b' (w % 4, j)) := by
  simp only [List.nodup_cons, List.mem_cons, List.not_mem_nil, or_false, not_or] at h
  obtain ⟨⟨h1, h2⟩, h3, _⟩ := h
  simp [evalP, sumV, evalFs, evalF, evalO, val, Function.update_of_ne h1, Function.update_of_ne h2, Function.update_of_ne h3,
    Finset.sum_smul]

theorem evalP_mean' {c : Coef} {k v w x : ℕ} {b b' : Bool} (h : [v, w, x].Nodup) (ρ : Env) :
    evalP I X dim ⟨c, [v, w, x], [(k, [x, v, x, w])], [(b, v), (b', w)]⟩ ρ
      = c.val • ∑ i ∈ range (dim (v % 4)), ∑ j ∈ range (dim (w % 4)), (∑ l ∈ range (dim (x % 4)),
      I k [(x % 4, l), (v % 4, i), (x % 4, l), (w % 4, j)]) • (X b (v % 4, i) * X b' (w % 4, j)) := by
  simp only [List.nodup_cons, List.mem_cons, List.not_mem_nil, or_false, not_or] at h
  obtain ⟨⟨h1, h2⟩, h3, _⟩ := h
  simp [evalP, sumV, evalFs, evalF, evalO, val, Function.update_of_ne h1, Function.update_of_ne h2, Function.update_of_ne h3,
    Finset.sum_smul]

end pieces

/-! ### The cluster operator -/

noncomputable section

/-- The cluster operator with the amplitudes `6, …, 10` and the variables of the identifiers `n, …, n + 3`. -/
def listT (n : ℕ) : List Piece :=
  [⟨⟨false, 1, 1⟩, [4 * (n + 2) + 1, 4 * n], [(6, [4 * (n + 2) + 1, 4 * n])], [(true, 4 * (n + 2) + 1), (false, 4 * n)]⟩,
   ⟨⟨false, 1, 1⟩, [4 * (n + 2) + 3, 4 * n + 2], [(7, [4 * (n + 2) + 3, 4 * n + 2])],
    [(true, 4 * (n + 2) + 3), (false, 4 * n + 2)]⟩,
   ⟨⟨false, 1, 4⟩, [4 * (n + 2) + 1, 4 * (n + 3) + 1, 4 * n, 4 * (n + 1)],
    [(8, [4 * (n + 2) + 1, 4 * (n + 3) + 1, 4 * n, 4 * (n + 1)])],
    [(true, 4 * (n + 2) + 1), (true, 4 * (n + 3) + 1), (false, 4 * (n + 1)), (false, 4 * n)]⟩,
   ⟨⟨false, 1, 1⟩, [4 * (n + 2) + 1, 4 * (n + 3) + 3, 4 * n, 4 * (n + 1) + 2],
    [(9, [4 * (n + 2) + 1, 4 * (n + 3) + 3, 4 * n, 4 * (n + 1) + 2])],
    [(true, 4 * (n + 2) + 1), (true, 4 * (n + 3) + 3), (false, 4 * (n + 1) + 2), (false, 4 * n)]⟩,
   ⟨⟨false, 1, 4⟩, [4 * (n + 2) + 3, 4 * (n + 3) + 3, 4 * n + 2, 4 * (n + 1) + 2],
    [(10, [4 * (n + 2) + 3, 4 * (n + 3) + 3, 4 * n + 2, 4 * (n + 1) + 2])],
    [(true, 4 * (n + 2) + 3), (true, 4 * (n + 3) + 3), (false, 4 * (n + 1) + 2), (false, 4 * n + 2)]⟩]

end

/-- The stored arrays hold these amplitudes. -/
structure Holds (T : Cluster) (amp : ℕ → List ℕ → ℚ) : Prop where
  a : ∀ x i, amp 6 [x, i] = T.tA x i
  b : ∀ x i, amp 7 [x, i] = T.tB x i
  aa : ∀ x y i j, amp 8 [x, y, i, j] = T.tAA x y i j
  ab : ∀ x y i j, amp 9 [x, y, i, j] = T.tAB x y i j
  bb : ∀ x y i j, amp 10 [x, y, i, j] = T.tBB x y i j

theorem evalS_listT (S : Orbitals ι) (T : Cluster) {f v} {amp : ℕ → List ℕ → ℚ} (hT : Holds T amp) (n : ℕ) (ρ : Env) :
    evalS (elements S.na S.nb f v amp) (opX S) (dimS S) (listT n) ρ = clusterOperator S T := by
  have m1 : ∀ k, (4 * k + 1) % 4 = 1 := fun k => by omega
  have m2 : ∀ k, (4 * k + 2) % 4 = 2 := fun k => by omega
  have m3 : ∀ k, (4 * k + 3) % 4 = 3 := fun k => by omega
  have m0 : ∀ k, (4 * k) % 4 = 0 := fun k => by omega
  unfold listT
  rw [evalS_cons, evalS_cons, evalS_cons, evalS_cons, evalS_cons, evalP_two (by omega), evalP_two (by omega),
    evalP_four (by simp; omega), evalP_four (by simp; omega), evalP_four (by simp; omega)]
  simp only [m0, m1, m2, m3]
  have c1 : (⟨false, 1, 1⟩ : Coef).val = 1 := by simp [Coef.val]
  have c4 : (⟨false, 1, 4⟩ : Coef).val = 1 / 4 := by simp [Coef.val]
  rw [c1, c4, one_smul, one_smul, one_smul]
  have e6 : ∀ x i, elements S.na S.nb f v amp 6 [(1, x), (0, i)] = T.tA x i := fun x i => hT.a x i
  have e7 : ∀ x i, elements S.na S.nb f v amp 7 [(3, x), (2, i)] = T.tB x i := fun x i => hT.b x i
  have e8 : ∀ x y i j, elements S.na S.nb f v amp 8 [(1, x), (1, y), (0, i), (0, j)] = T.tAA x y i j := fun x y i j => hT.aa x y i j
  have e9 : ∀ x y i j, elements S.na S.nb f v amp 9 [(1, x), (3, y), (0, i), (2, j)] = T.tAB x y i j := fun x y i j => hT.ab x y i j
  have e10 : ∀ x y i j, elements S.na S.nb f v amp 10 [(3, x), (3, y), (2, i), (2, j)] = T.tBB x y i j := fun x y i j => hT.bb x y i j
  simp only [e6, e7, e8, e9, e10]
  have hnil : evalS (elements S.na S.nb f v amp) (opX S) (dimS S) [] ρ = 0 := rfl
  rw [hnil, add_zero]
  unfold clusterOperator
  simp only [add_assoc]
  rfl

/-! ### The Hamiltonian -/

noncomputable section

def two : List ℕ := [0, 1]
/-- Pieces of a two-body operator for spins with first spaces `sp` and `sq`. -/
def listV (name sp sq : ℕ) (c : Coef) : List Piece :=
  bindL (fun p => bindL (fun q => bindL (fun r => mapL (fun s =>
    ⟨c, [40 + (sp + p), 44 + (sq + q), 48 + (sp + r), 52 + (sq + s)], [(name, [40 + (sp + p), 44 + (sq + q), 48 + (sp + r), 52 + (sq + s)])],
      [(true, 40 + (sp + p)), (true, 44 + (sq + q)), (false, 52 + (sq + s)), (false, 48 + (sp + r))]⟩) two) two) two) two
def listF (name sp : ℕ) (c : Coef) : List Piece :=
  bindL (fun p => mapL (fun r =>
    ⟨c, [40 + (sp + p), 48 + (sp + r)], [(name, [40 + (sp + p), 48 + (sp + r)])], [(true, 40 + (sp + p)), (false, 48 + (sp + r))]⟩) two) two
def listM (name sp sq : ℕ) : List Piece :=
  bindL (fun p => mapL (fun r =>
    ⟨⟨true, 1, 1⟩, [40 + (sp + p), 48 + (sp + r), 56 + sq], [(name, [40 + (sp + p), 56 + sq, 48 + (sp + r), 56 + sq])],
      [(true, 40 + (sp + p)), (false, 48 + (sp + r))]⟩) two) two
def listM' (name sp sq : ℕ) : List Piece :=
  bindL (fun p => mapL (fun r =>
    ⟨⟨true, 1, 1⟩, [40 + (sp + p), 48 + (sp + r), 56 + sq], [(name, [56 + sq, 40 + (sp + p), 56 + sq, 48 + (sp + r)])],
      [(true, 40 + (sp + p)), (false, 48 + (sp + r))]⟩) two) two

/-- The Hamiltonian: Fock operator minus mean field plus interaction. -/
def listH : List Piece :=
  app (listF 1 0 ⟨false, 1, 1⟩) (app (listF 2 2 ⟨false, 1, 1⟩) (app (listM 3 0 0) (app (listM 4 0 2) (app (listM 5 2 2)
    (app (listM' 4 2 0) (app (listV 3 0 0 ⟨false, 1, 4⟩) (app (listV 4 0 2 ⟨false, 1, 1⟩) (listV 5 2 2 ⟨false, 1, 4⟩))))))))

end

/-- The stored arrays of a Hamiltonian. -/
def stF (S : Orbitals ι) (Z : Fock.Integrals) : Ccpy.Integrals.OneBody ℚ := ⟨fockA S Z, fockB S Z⟩
def stV (Z : Fock.Integrals) : Ccpy.Integrals.TwoBody ℚ := ⟨Z.vAA, Z.vAB, Z.vBB⟩

section
variable {M : Type*} [AddCommMonoid M]

theorem split_a {S : Orbitals ι} (h : S.Proper) (g : ℕ → M) : ∑ p ∈ range S.n, g p
    = ∑ k ∈ range (dimS S 0), g k + ∑ k ∈ range (dimS S 1), g (S.na + k) := by
  have : S.n = S.na + (S.n - S.na) := by have := h.ha; omega
  conv_lhs => rw [this]
  exact Finset.sum_range_add _ _ _

theorem split_b {S : Orbitals ι} (h : S.Proper) (g : ℕ → M) : ∑ p ∈ range S.n, g p
    = ∑ k ∈ range (dimS S 2), g k + ∑ k ∈ range (dimS S 3), g (S.nb + k) := by
  have : S.n = S.nb + (S.n - S.nb) := by have := h.hb; omega
  conv_lhs => rw [this]
  exact Finset.sum_range_add _ _ _
end

/-- Sum over both spaces of a spin. -/
theorem evalS_bindL {A : Type*} [Ring A] [Algebra ℚ A] {I : ℕ → List (ℕ × ℕ) → ℚ} {X : Bool → ℕ × ℕ → A} {dim : ℕ → ℕ}
    (g : ℕ → List Piece) (ρ : Env) : evalS I X dim (bindL g two) ρ = evalS I X dim (g 0) ρ + evalS I X dim (g 1) ρ := by
  have : bindL g two = g 0 ++ (g 1 ++ []) := by rw [bindL_eq]; rfl
  rw [this, evalS_append, evalS_append]
  simp [evalS]

theorem evalS_mapL {A : Type*} [Ring A] [Algebra ℚ A] {I : ℕ → List (ℕ × ℕ) → ℚ} {X : Bool → ℕ × ℕ → A} {dim : ℕ → ℕ}
    (g : ℕ → Piece) (ρ : Env) : evalS I X dim (mapL g two) ρ = evalP I X dim (g 0) ρ + evalP I X dim (g 1) ρ := by
  have : mapL g two = [g 0, g 1] := by rw [mapL_eq]; rfl
  rw [this, evalS_cons, evalS_cons]
  simp [evalS]

theorem c_one : (⟨false, 1, 1⟩ : Coef).val = 1 := by simp [Coef.val]
theorem c_quarter : (⟨false, 1, 4⟩ : Coef).val = 1 / 4 := by simp [Coef.val]
theorem c_neg : (⟨true, 1, 1⟩ : Coef).val = -1 := by simp [Coef.val]

theorem sum_two_a {S : Orbitals ι} (h : S.Proper) (g : ℕ → ℕ → Operator ι) :
    ∑ p ∈ range S.n, ∑ q ∈ range S.n, g p q
      = ∑ i ∈ range (dimS S 0), ∑ j ∈ range (dimS S 0), g i j + ∑ i ∈ range (dimS S 0), ∑ j ∈ range (dimS S 1), g i (S.na + j)
      + (∑ i ∈ range (dimS S 1), ∑ j ∈ range (dimS S 0), g (S.na + i) j
        + ∑ i ∈ range (dimS S 1), ∑ j ∈ range (dimS S 1), g (S.na + i) (S.na + j)) := by
  simp only [split_a h, Finset.sum_add_distrib]

theorem sum_two_b {S : Orbitals ι} (h : S.Proper) (g : ℕ → ℕ → Operator ι) :
    ∑ p ∈ range S.n, ∑ q ∈ range S.n, g p q
      = ∑ i ∈ range (dimS S 2), ∑ j ∈ range (dimS S 2), g i j + ∑ i ∈ range (dimS S 2), ∑ j ∈ range (dimS S 3), g i (S.nb + j)
      + (∑ i ∈ range (dimS S 3), ∑ j ∈ range (dimS S 2), g (S.nb + i) j
        + ∑ i ∈ range (dimS S 3), ∑ j ∈ range (dimS S 3), g (S.nb + i) (S.nb + j)) := by
  simp only [split_b h, Finset.sum_add_distrib]

noncomputable def bothA (S : Orbitals ι) (g : ℕ → Operator ι) : Operator ι := ∑ k ∈ range (dimS S 0), g k + ∑ k ∈ range (dimS S 1), g (S.na + k)
noncomputable def bothB (S : Orbitals ι) (g : ℕ → Operator ι) : Operator ι := ∑ k ∈ range (dimS S 2), g k + ∑ k ∈ range (dimS S 3), g (S.nb + k)

theorem sum_aaaa {S : Orbitals ι} (h : S.Proper) (g : ℕ → ℕ → ℕ → ℕ → Operator ι) :
    ∑ p ∈ range S.n, ∑ q ∈ range S.n, ∑ r ∈ range S.n, ∑ s ∈ range S.n, g p q r s
      = bothA S fun p => bothA S fun q => bothA S fun r => bothA S fun s => g p q r s := by
  have e1 : ∀ p q r, ∑ s ∈ range S.n, g p q r s = bothA S (g p q r) := fun p q r => split_a h _
  simp only [e1]
  have e2 : ∀ p q, ∑ r ∈ range S.n, bothA S (g p q r) = bothA S fun r => bothA S (g p q r) := fun p q => split_a h _
  simp only [e2]
  have e3 : ∀ p, ∑ q ∈ range S.n, (bothA S fun r => bothA S (g p q r)) = bothA S fun q => bothA S fun r => bothA S (g p q r) :=
    fun p => split_a h _
  simp only [e3]
  exact split_a h _

theorem sum_abab {S : Orbitals ι} (h : S.Proper) (g : ℕ → ℕ → ℕ → ℕ → Operator ι) :
    ∑ p ∈ range S.n, ∑ q ∈ range S.n, ∑ r ∈ range S.n, ∑ s ∈ range S.n, g p q r s
      = bothA S fun p => bothB S fun q => bothA S fun r => bothB S fun s => g p q r s := by
  have e1 : ∀ p q r, ∑ s ∈ range S.n, g p q r s = bothB S (g p q r) := fun p q r => split_b h _
  simp only [e1]
  have e2 : ∀ p q, ∑ r ∈ range S.n, bothB S (g p q r) = bothA S fun r => bothB S (g p q r) := fun p q => split_a h _
  simp only [e2]
  have e3 : ∀ p, ∑ q ∈ range S.n, (bothA S fun r => bothB S (g p q r)) = bothB S fun q => bothA S fun r => bothB S (g p q r) :=
    fun p => split_b h _
  simp only [e3]
  exact split_a h _

theorem sum_bbbb {S : Orbitals ι} (h : S.Proper) (g : ℕ → ℕ → ℕ → ℕ → Operator ι) :
    ∑ p ∈ range S.n, ∑ q ∈ range S.n, ∑ r ∈ range S.n, ∑ s ∈ range S.n, g p q r s
      = bothB S fun p => bothB S fun q => bothB S fun r => bothB S fun s => g p q r s := by
  have e1 : ∀ p q r, ∑ s ∈ range S.n, g p q r s = bothB S (g p q r) := fun p q r => split_b h _
  simp only [e1]
  have e2 : ∀ p q, ∑ r ∈ range S.n, bothB S (g p q r) = bothB S fun r => bothB S (g p q r) := fun p q => split_b h _
  simp only [e2]
  have e3 : ∀ p, ∑ q ∈ range S.n, (bothB S fun r => bothB S (g p q r)) = bothB S fun q => bothB S fun r => bothB S (g p q r) :=
    fun p => split_b h _
  simp only [e3]
  exact split_b h _

section values
variable {S : Orbitals ι} (h : S.Proper) {f : Ccpy.Integrals.OneBody ℚ} {v : Ccpy.Integrals.TwoBody ℚ} {amp : ℕ → List ℕ → ℚ} (ρ : Env)

include h

theorem evalS_F1 : evalS (elements S.na S.nb f v amp) (opX S) (dimS S) (listF 1 0 ⟨false, 1, 1⟩) ρ
    = ∑ p ∈ range S.n, ∑ q ∈ range S.n, f.a p q • (cre (S.up p) * ann (S.up q)) := by
  rw [sum_two_a h]
  unfold listF
  simp only [evalS_bindL, evalS_mapL]
  rw [evalP_two (by omega), evalP_two (by omega), evalP_two (by omega), evalP_two (by omega), c_one]
  simp only [one_smul]
  rfl

theorem evalS_F2 : evalS (elements S.na S.nb f v amp) (opX S) (dimS S) (listF 2 2 ⟨false, 1, 1⟩) ρ
    = ∑ p ∈ range S.n, ∑ q ∈ range S.n, f.b p q • (cre (S.down p) * ann (S.down q)) := by
  rw [sum_two_b h]
  unfold listF
  simp only [evalS_bindL, evalS_mapL]
  rw [evalP_two (by omega), evalP_two (by omega), evalP_two (by omega), evalP_two (by omega), c_one]
  simp only [one_smul]
  rfl

theorem evalS_M3 : evalS (elements S.na S.nb f v amp) (opX S) (dimS S) (listM 3 0 0) ρ
    = -∑ p ∈ range S.n, ∑ q ∈ range S.n, (∑ k ∈ range S.na, v.aa p k q k) • (cre (S.up p) * ann (S.up q)) := by
  rw [sum_two_a h]
  unfold listM
  simp only [evalS_bindL, evalS_mapL]
  rw [evalP_mean (by simp), evalP_mean (by simp), evalP_mean (by simp), evalP_mean (by simp), c_neg]
  simp only [neg_add, neg_smul, one_smul]
  rfl

theorem evalS_M4 : evalS (elements S.na S.nb f v amp) (opX S) (dimS S) (listM 4 0 2) ρ
    = -∑ p ∈ range S.n, ∑ q ∈ range S.n, (∑ k ∈ range S.nb, v.ab p k q k) • (cre (S.up p) * ann (S.up q)) := by
  rw [sum_two_a h]
  unfold listM
  simp only [evalS_bindL, evalS_mapL]
  rw [evalP_mean (by simp), evalP_mean (by simp), evalP_mean (by simp), evalP_mean (by simp), c_neg]
  simp only [neg_add, neg_smul, one_smul]
  rfl

theorem evalS_M5 : evalS (elements S.na S.nb f v amp) (opX S) (dimS S) (listM 5 2 2) ρ
    = -∑ p ∈ range S.n, ∑ q ∈ range S.n, (∑ k ∈ range S.nb, v.bb p k q k) • (cre (S.down p) * ann (S.down q)) := by
  rw [sum_two_b h]
  unfold listM
  simp only [evalS_bindL, evalS_mapL]
  rw [evalP_mean (by simp), evalP_mean (by simp), evalP_mean (by simp), evalP_mean (by simp), c_neg]
  simp only [neg_add, neg_smul, one_smul]
  rfl

theorem evalS_M4' : evalS (elements S.na S.nb f v amp) (opX S) (dimS S) (listM' 4 2 0) ρ
    = -∑ p ∈ range S.n, ∑ q ∈ range S.n, (∑ k ∈ range S.na, v.ab k p k q) • (cre (S.down p) * ann (S.down q)) := by
  rw [sum_two_b h]
  unfold listM'
  simp only [evalS_bindL, evalS_mapL]
  rw [evalP_mean' (by simp), evalP_mean' (by simp), evalP_mean' (by simp), evalP_mean' (by simp), c_neg]
  simp only [neg_add, neg_smul, one_smul]
  rfl

theorem evalS_V3 : evalS (elements S.na S.nb f v amp) (opX S) (dimS S) (listV 3 0 0 ⟨false, 1, 4⟩) ρ
    = (1 / 4 : ℚ) • ∑ p ∈ range S.n, ∑ q ∈ range S.n, ∑ r ∈ range S.n, ∑ s ∈ range S.n,
      v.aa p q r s • (cre (S.up p) * cre (S.up q) * ann (S.up s) * ann (S.up r)) := by
  rw [sum_aaaa h]
  unfold listV
  simp only [evalS_bindL, evalS_mapL]
  rw [evalP_four (by simp), evalP_four (by simp), evalP_four (by simp), evalP_four (by simp), evalP_four (by simp), evalP_four (by simp), evalP_four (by simp), evalP_four (by simp), evalP_four (by simp), evalP_four (by simp), evalP_four (by simp), evalP_four (by simp), evalP_four (by simp), evalP_four (by simp), evalP_four (by simp), evalP_four (by simp), c_quarter]
  simp only [← smul_add]
  simp only [bothA, bothB, Finset.sum_add_distrib]
  rfl

theorem evalS_V4 : evalS (elements S.na S.nb f v amp) (opX S) (dimS S) (listV 4 0 2 ⟨false, 1, 1⟩) ρ
    = ∑ p ∈ range S.n, ∑ q ∈ range S.n, ∑ r ∈ range S.n, ∑ s ∈ range S.n,
      v.ab p q r s • (cre (S.up p) * cre (S.down q) * ann (S.down s) * ann (S.up r)) := by
  rw [sum_abab h]
  unfold listV
  simp only [evalS_bindL, evalS_mapL]
  rw [evalP_four (by simp), evalP_four (by simp), evalP_four (by simp), evalP_four (by simp), evalP_four (by simp), evalP_four (by simp), evalP_four (by simp), evalP_four (by simp), evalP_four (by simp), evalP_four (by simp), evalP_four (by simp), evalP_four (by simp), evalP_four (by simp), evalP_four (by simp), evalP_four (by simp), evalP_four (by simp), c_one]
  simp only [one_smul]
  simp only [bothA, bothB, Finset.sum_add_distrib]
  rfl

theorem evalS_V5 : evalS (elements S.na S.nb f v amp) (opX S) (dimS S) (listV 5 2 2 ⟨false, 1, 4⟩) ρ
    = (1 / 4 : ℚ) • ∑ p ∈ range S.n, ∑ q ∈ range S.n, ∑ r ∈ range S.n, ∑ s ∈ range S.n,
      v.bb p q r s • (cre (S.down p) * cre (S.down q) * ann (S.down s) * ann (S.down r)) := by
  rw [sum_bbbb h]
  unfold listV
  simp only [evalS_bindL, evalS_mapL]
  rw [evalP_four (by simp), evalP_four (by simp), evalP_four (by simp), evalP_four (by simp), evalP_four (by simp), evalP_four (by simp), evalP_four (by simp), evalP_four (by simp), evalP_four (by simp), evalP_four (by simp), evalP_four (by simp), evalP_four (by simp), evalP_four (by simp), evalP_four (by simp), evalP_four (by simp), evalP_four (by simp), c_quarter]
  simp only [← smul_add]
  simp only [bothA, bothB, Finset.sum_add_distrib]
  rfl

end values

theorem evalS_listH {S : Orbitals ι} (h : S.Proper) (Z : Fock.Integrals) (amp : ℕ → List ℕ → ℚ) (ρ : Env) :
    evalS (elements S.na S.nb (stF S Z) (stV Z) amp) (opX S) (dimS S) listH ρ = hamiltonian S Z := by
  unfold listH
  simp only [app_eq, evalS_append]
  rw [evalS_F1 h, evalS_F2 h, evalS_M3 h, evalS_M4 h, evalS_M5 h, evalS_M4' h, evalS_V3 h, evalS_V4 h, evalS_V5 h]
  have hA : ∀ p q, Z.zA p q = (stF S Z).a p q - ∑ k ∈ range S.na, (stV Z).aa p k q k - ∑ k ∈ range S.nb, (stV Z).ab p k q k := by
    intro p q
    simp only [stF, stV, fockA]
    ring
  have hB : ∀ p q, Z.zB p q = (stF S Z).b p q - ∑ k ∈ range S.nb, (stV Z).bb p k q k - ∑ k ∈ range S.na, (stV Z).ab k p k q := by
    intro p q
    simp only [stF, stV, fockB]
    ring
  unfold hamiltonian
  have kA : ∀ p q, Z.zA p q • (cre (S.up p) * ann (S.up q) : Operator ι) = (stF S Z).a p q • (cre (S.up p) * ann (S.up q))
      - (∑ k ∈ range S.na, (stV Z).aa p k q k) • (cre (S.up p) * ann (S.up q))
      - (∑ k ∈ range S.nb, (stV Z).ab p k q k) • (cre (S.up p) * ann (S.up q)) := fun p q => by
    rw [hA]; module
  have kB : ∀ p q, Z.zB p q • (cre (S.down p) * ann (S.down q) : Operator ι) = (stF S Z).b p q • (cre (S.down p) * ann (S.down q))
      - (∑ k ∈ range S.nb, (stV Z).bb p k q k) • (cre (S.down p) * ann (S.down q))
      - (∑ k ∈ range S.na, (stV Z).ab k p k q) • (cre (S.down p) * ann (S.down q)) := fun p q => by
    rw [hB]; module
  simp only [kA, kB, Finset.sum_sub_distrib]
  simp only [stV]
  abel

end Ccpy.Engine
