import Verif.Spec.GuessMatrix
import Verif.Lemmas.GuessLoops
import Verif.Props.EomCcsd
import Verif.Props.AttachEom
import Verif.Props.DoubleAttachEom
import Verif.Props.SpinFlipEom

/-! Matrix elements between singly excited determinants in terms of the blocks of `build_hbar_ccsd`. -/

namespace Ccpy.Tensor

mutual
/-- Only arrays with numbers below eleven occur: the stored Hamiltonian and the cluster amplitudes. -/
def Ex.lowOnly : Ex → Bool
  | .arr n _ => decide (n < 11)
  | .es _ b => b.lowOnly
  | .add x y => x.lowOnly && y.lowOnly
  | .smul _ _ _ x => x.lowOnly
def Body.lowOnly : Body → Bool
  | .nil => true
  | .cons _ x r => x.lowOnly && r.lowOnly
end

mutual
theorem Ex.denote_below {dim : ℕ → ℕ} {I I' : ℕ → List (ℕ × ℕ) → ℚ} (h : ∀ n, n < 11 → I n = I' n) :
    ∀ x : Ex, x.lowOnly = true → x.denote dim I = x.denote dim I'
  | .arr n sp, hx => by
    funext idx
    simp only [Ex.denote, h n (of_decide_eq_true hx)]
  | .es out b, hx => by
    funext idx
    simp only [Ex.denote, Body.denote_below h b hx]
  | .add x y, hx => by
    simp only [Ex.lowOnly, Bool.and_eq_true] at hx
    funext idx
    simp only [Ex.denote, Ex.denote_below h x hx.1, Ex.denote_below h y hx.2]
  | .smul neg n d x, hx => by
    funext idx
    simp only [Ex.denote, Ex.denote_below h x hx]
theorem Body.denote_below {dim : ℕ → ℕ} {I I' : ℕ → List (ℕ × ℕ) → ℚ} (h : ∀ n, n < 11 → I n = I' n) :
    ∀ b : Body, b.lowOnly = true → b.denote dim I = b.denote dim I'
  | .nil, _ => by
    funext ε
    simp only [Body.denote]
  | .cons l x r, hx => by
    simp only [Body.lowOnly, Bool.and_eq_true] at hx
    funext ε
    simp only [Body.denote, Ex.denote_below h x hx.1, Body.denote_below h r hx.2]
end

theorem sumLetters_zero (dim : ℕ → ℕ) (l : List (ℕ × ℕ)) {g : (ℕ → ℕ) → ℚ} (h : ∀ ε, g ε = 0) (ε : ℕ → ℕ) : sumLetters dim l g ε = 0 := by
  induction l generalizing ε with
  | nil => exact h ε
  | cons c r ih => exact Finset.sum_eq_zero fun k _ => ih _

end Ccpy.Tensor

namespace Ccpy.GuessMatrix
open Ccpy.Fock Ccpy.Tensor Ccpy.HbarCcsd
open Finset (range)

/-! ### Einsum with a unit array -/

/-- The amplitudes of a single operator. -/
def unit₂ (b j a i : ℕ) : ℚ := if a = b ∧ i = j then 1 else 0
def unit₁ (b a : ℕ) : ℚ := if a = b then 1 else 0

theorem sum_unit₁ {M : Type*} [AddCommMonoid M] [Module ℚ M] {n b : ℕ} (hb : b < n) (f : ℕ → M) :
    ∑ a ∈ range n, unit₁ b a • f a = f b := by
  rw [Finset.sum_eq_single b]
  · rw [unit₁, if_pos rfl, one_smul]
  · intro a _ h
    rw [unit₁, if_neg h, zero_smul]
  · exact fun h => absurd (Finset.mem_range.2 hb) h

theorem sum_unit₂ {M : Type*} [AddCommMonoid M] [Module ℚ M] {n m b j : ℕ} (hb : b < n) (hj : j < m) (f : ℕ → ℕ → M) :
    ∑ a ∈ range n, ∑ i ∈ range m, unit₂ b j a i • f a i = f b j := by
  rw [Finset.sum_eq_single b, Finset.sum_eq_single j]
  · rw [unit₂, if_pos ⟨rfl, rfl⟩, one_smul]
  · intro a _ h
    rw [unit₂, if_neg fun c => h c.2, zero_smul]
  · exact fun h => absurd (Finset.mem_range.2 hj) h
  · exact fun a _ h => Finset.sum_eq_zero fun i _ => by rw [unit₂, if_neg fun c => h c.1, zero_smul]
  · exact fun h => absurd (Finset.mem_range.2 hb) h

theorem sum_mul₁ {n b : ℕ} (hb : b < n) (f : ℕ → ℚ) : ∑ a ∈ range n, f a * unit₁ b a = f b := by
  rw [← sum_unit₁ hb f]
  exact Finset.sum_congr rfl fun a _ => mul_comm _ _

theorem sum_right {n b j : ℕ} (hj : j < n) (a : ℕ) (f : ℕ → ℚ) : ∑ m ∈ range n, f m * unit₂ b j a m = if a = b then f j else 0 := by
  split_ifs with h
  · rw [sum_one hj, unit₂, if_pos ⟨h, rfl⟩, mul_one]
    exact fun l _ hl => by rw [unit₂, if_neg fun c => hl c.2, mul_zero]
  · exact Finset.sum_eq_zero fun l _ => by rw [unit₂, if_neg fun c => h c.1, mul_zero]

theorem sum_left {n b j : ℕ} (hb : b < n) (i : ℕ) (f : ℕ → ℚ) : ∑ e ∈ range n, f e * unit₂ b j e i = if i = j then f b else 0 := by
  split_ifs with h
  · rw [sum_one hb, unit₂, if_pos ⟨rfl, h⟩, mul_one]
    exact fun l _ hl => by rw [unit₂, if_neg fun c => hl c.1, mul_zero]
  · exact Finset.sum_eq_zero fun l _ => by rw [unit₂, if_neg fun c => h c.2, mul_zero]

theorem sum_both {n m b j : ℕ} (hb : b < n) (hj : j < m) (f : ℕ → ℕ → ℚ) : ∑ k ∈ range m, ∑ e ∈ range n, f k e * unit₂ b j e k = f j b := by
  rw [sum_two hj hb, unit₂, if_pos ⟨rfl, rfl⟩, mul_one]
  exact fun k e _ _ h => by rw [unit₂, if_neg fun c => h.elim (· c.2) (· c.1), mul_zero]

theorem sum_both' {n m b j : ℕ} (hb : b < n) (hj : j < m) (f : ℕ → ℕ → ℚ) : ∑ e ∈ range n, ∑ k ∈ range m, f e k * unit₂ b j e k = f b j := by
  rw [sum_two hb hj, unit₂, if_pos ⟨rfl, rfl⟩, mul_one]
  exact fun k e _ _ h => by rw [unit₂, if_neg fun c => h.elim (· c.1) (· c.2), mul_zero]

section
variable {dim : ℕ → ℕ} {I : ℕ → List (ℕ × ℕ) → ℚ} {x y : Ex}

theorem den_add (idx : List ℕ) : (x + y).denote dim I idx = x.denote dim I idx + y.denote dim I idx := by
  change (Ex.add x y).denote dim I idx = _
  simp only [Ex.denote]
theorem den_neg (idx : List ℕ) : (-x).denote dim I idx = -x.denote dim I idx := by
  change (Ex.smul true 1 1 x).denote dim I idx = _
  simp [Ex.denote]
theorem den_sub (idx : List ℕ) : (x - y).denote dim I idx = x.denote dim I idx - y.denote dim I idx := by
  change (Ex.add x (Ex.smul true 1 1 y)).denote dim I idx = _
  simp [Ex.denote, sub_eq_add_neg]
theorem den_half (h : ∀ idx, x.denote dim I idx = 0) (idx : List ℕ) : (half x).denote dim I idx = 0 := by
  change (Ex.smul false 1 2 x).denote dim I idx = _
  simp only [Ex.denote, h, mul_zero]
/-- A contraction with an array of zeros. -/
theorem es_zero {out l l' : List ℕ} (h : ∀ idx, y.denote dim I idx = 0) (idx : List ℕ) :
    (Ex.es out (.cons l x (.cons l' y .nil))).denote dim I idx = 0 := by
  simp only [Ex.denote]
  refine sumLetters_zero dim _ (fun ε => ?_) _
  simp only [Body.denote, h, zero_mul, mul_zero]

theorem zero_transpose {perm : List ℕ} (h : ∀ idx, x.denote dim I idx = 0) (idx : List ℕ) : (transpose perm x).denote dim I idx = 0 := by
  unfold transpose
  simp only [Ex.denote]
  refine sumLetters_zero dim _ (fun ε => ?_) _
  simp only [Body.denote, h, zero_mul]

variable {o v o' v' : ℕ}

theorem ge_oo (hx : x.axes = [o, o]) (hy : y.axes = [v, o]) (a i : ℕ) :
    (es% "mi,am->ai" x, y).denote dim I [a, i] = ∑ m ∈ range (dim o), x.denote dim I [m, i] * y.denote dim I [a, m] := by
  simp only [Ex.denote, Body.letters, hx, hy, Body.denote, mul_one]
  rfl
theorem ge_vv (hx : x.axes = [v, v]) (hy : y.axes = [v, o]) (a i : ℕ) :
    (es% "ae,ei->ai" x, y).denote dim I [a, i] = ∑ e ∈ range (dim v), x.denote dim I [a, e] * y.denote dim I [e, i] := by
  simp only [Ex.denote, Body.letters, hx, hy, Body.denote, mul_one]
  rfl
theorem ge_voov (hx : x.axes = [v, o, o', v']) (hy : y.axes = [v', o]) (a i : ℕ) :
    (es% "amie,em->ai" x, y).denote dim I [a, i] = ∑ m ∈ range (dim o), ∑ e ∈ range (dim v'), x.denote dim I [a, m, i, e] * y.denote dim I [e, m] := by
  simp only [Ex.denote, Body.letters, hx, hy, Body.denote, mul_one]
  rfl
theorem ge_ovvo (hx : x.axes = [o, v, v', o']) (hy : y.axes = [v', o]) (a i : ℕ) :
    (es% "maei,em->ai" x, y).denote dim I [a, i] = ∑ m ∈ range (dim o), ∑ e ∈ range (dim v'), x.denote dim I [m, a, e, i] * y.denote dim I [e, m] := by
  simp only [Ex.denote, Body.letters, hx, hy, Body.denote, mul_one]
  rfl
theorem ge_ovov (hx : x.axes = [o, v, o, v]) (hy : y.axes = [v, o]) (a i : ℕ) :
    (es% "maie,em->ai" x, y).denote dim I [a, i] = ∑ m ∈ range (dim o), ∑ e ∈ range (dim v), x.denote dim I [m, a, i, e] * y.denote dim I [e, m] := by
  simp only [Ex.denote, Body.letters, hx, hy, Body.denote, mul_one]
  rfl
theorem ge_v (hx : x.axes = [v, v]) (hy : y.axes = [v]) (a : ℕ) :
    (es% "ae,e->a" x, y).denote dim I [a] = ∑ e ∈ range (dim v), x.denote dim I [a, e] * y.denote dim I [e] := by
  simp only [Ex.denote, Body.letters, hx, hy, Body.denote, mul_one]
  rfl
theorem ge_o (hx : x.axes = [o, o]) (hy : y.axes = [o]) (i : ℕ) :
    (es% "mi,m->i" x, y).denote dim I [i] = ∑ m ∈ range (dim o), x.denote dim I [m, i] * y.denote dim I [m] := by
  simp only [Ex.denote, Body.letters, hx, hy, Body.denote, mul_one]
  rfl
theorem ge_pva (hx : x.axes = [v, v]) (hy : y.axes = [v, v']) (a b : ℕ) :
    (es% "ae,eb->ab" x, y).denote dim I [a, b] = ∑ e ∈ range (dim v), x.denote dim I [a, e] * y.denote dim I [e, b] := by
  simp only [Ex.denote, Body.letters, hx, hy, Body.denote, mul_one]
  rfl
theorem ge_pvb (hx : x.axes = [v', v']) (hy : y.axes = [v, v']) (a b : ℕ) :
    (es% "be,ae->ab" x, y).denote dim I [a, b] = ∑ e ∈ range (dim v'), x.denote dim I [b, e] * y.denote dim I [a, e] := by
  simp only [Ex.denote, Body.letters, hx, hy, Body.denote, mul_one]
  rfl
theorem ge_pvv (hx : x.axes = [v, v', v, v']) (hy : y.axes = [v, v']) (a b : ℕ) :
    (es% "abef,ef->ab" x, y).denote dim I [a, b] = ∑ e ∈ range (dim v), ∑ f ∈ range (dim v'), x.denote dim I [a, b, e, f] * y.denote dim I [e, f] := by
  simp only [Ex.denote, Body.letters, hx, hy, Body.denote, mul_one]
  rfl
theorem ge_poa (hx : x.axes = [o, o]) (hy : y.axes = [o, o']) (i j : ℕ) :
    (es% "mi,mj->ij" x, y).denote dim I [i, j] = ∑ m ∈ range (dim o), x.denote dim I [m, i] * y.denote dim I [m, j] := by
  simp only [Ex.denote, Body.letters, hx, hy, Body.denote, mul_one]
  rfl
theorem ge_pob (hx : x.axes = [o', o']) (hy : y.axes = [o, o']) (i j : ℕ) :
    (es% "mj,im->ij" x, y).denote dim I [i, j] = ∑ m ∈ range (dim o'), x.denote dim I [m, j] * y.denote dim I [i, m] := by
  simp only [Ex.denote, Body.letters, hx, hy, Body.denote, mul_one]
  rfl
theorem ge_poo (hx : x.axes = [o, o', o, o']) (hy : y.axes = [o, o']) (i j : ℕ) :
    (es% "mnij,mn->ij" x, y).denote dim I [i, j] = ∑ m ∈ range (dim o), ∑ n ∈ range (dim o'), x.denote dim I [m, n, i, j] * y.denote dim I [m, n] := by
  simp only [Ex.denote, Body.letters, hx, hy, Body.denote, mul_one]
  rfl
end

/-! ### The blocks of the transformed Hamiltonian -/

/-- The intermediates of `build_hbar_ccsd`. -/
abbrev hbar : Ints := buildHbarCcsd amplitudes stored false

section
set_option maxRecDepth 100000
theorem below_all : (hbar.a.oo.lowOnly && hbar.a.vv.lowOnly && hbar.b.oo.lowOnly && hbar.b.vv.lowOnly && hbar.aa.voov.lowOnly && hbar.ab.voov.lowOnly
    && hbar.ab.ovvo.lowOnly && hbar.ab.ovov.lowOnly && hbar.ab.oooo.lowOnly && hbar.ab.vvvv.lowOnly && hbar.bb.voov.lowOnly) = true := by decide +kernel
end

variable {ι : Type*} [LinearOrder ι]

/-- The elements of the blocks for the amplitudes `T`. -/
def elementsOf (S : Orbitals ι) (Z : Fock.Integrals) (T : Cluster) : Blocks := blocks (value S Z T.amp) hbar

section
variable {S : Orbitals ι} {Z : Fock.Integrals} {T : Cluster} {amp : ℕ → List ℕ → ℚ}

theorem value_below {x : Ex} (hx : x.lowOnly = true) (h : ∀ n, 6 ≤ n → n < 11 → amp n = T.amp n) (idx : List ℕ) :
    value S Z amp x idx = value S Z T.amp x idx := by
  unfold value
  refine congrFun (Ex.denote_below (fun n hn => ?_) x hx) idx
  funext l
  match n, hn with
  | 0, _ => rcases l with _ | ⟨x, _ | ⟨y, _ | ⟨z, _ | ⟨w, _ | ⟨u, l⟩⟩⟩⟩⟩ <;> rfl
  | 1, _ => rcases l with _ | ⟨x, _ | ⟨y, _ | ⟨z, _ | ⟨w, _ | ⟨u, l⟩⟩⟩⟩⟩ <;> rfl
  | 2, _ => rcases l with _ | ⟨x, _ | ⟨y, _ | ⟨z, _ | ⟨w, _ | ⟨u, l⟩⟩⟩⟩⟩ <;> rfl
  | 3, _ => rcases l with _ | ⟨x, _ | ⟨y, _ | ⟨z, _ | ⟨w, _ | ⟨u, l⟩⟩⟩⟩⟩ <;> rfl
  | 4, _ => rcases l with _ | ⟨x, _ | ⟨y, _ | ⟨z, _ | ⟨w, _ | ⟨u, l⟩⟩⟩⟩⟩ <;> rfl
  | 5, _ => rcases l with _ | ⟨x, _ | ⟨y, _ | ⟨z, _ | ⟨w, _ | ⟨u, l⟩⟩⟩⟩⟩ <;> rfl
  | k + 6, hn => simp only [elements, h (k + 6) (by omega) hn]

theorem joined_low (r : ℕ → List ℕ → ℚ) (n : ℕ) (_ : 6 ≤ n) (h : n < 11) : joined T r n = T.amp n := by
  funext l
  exact if_pos h

theorem store_low (R : Cluster) (n : ℕ) (h' : 6 ≤ n) (h : n < 11) : Cluster.store [T, R] n = T.amp n := by
  funext l
  obtain rfl | rfl | rfl | rfl | rfl : n = 6 ∨ n = 7 ∨ n = 8 ∨ n = 9 ∨ n = 10 := by omega
  all_goals rfl

theorem low_a_oo : hbar.a.oo.lowOnly = true := by have := below_all; simp only [Bool.and_eq_true] at this; tauto
theorem low_a_vv : hbar.a.vv.lowOnly = true := by have := below_all; simp only [Bool.and_eq_true] at this; tauto
theorem low_b_oo : hbar.b.oo.lowOnly = true := by have := below_all; simp only [Bool.and_eq_true] at this; tauto
theorem low_b_vv : hbar.b.vv.lowOnly = true := by have := below_all; simp only [Bool.and_eq_true] at this; tauto
theorem low_aa_voov : hbar.aa.voov.lowOnly = true := by have := below_all; simp only [Bool.and_eq_true] at this; tauto
theorem low_ab_voov : hbar.ab.voov.lowOnly = true := by have := below_all; simp only [Bool.and_eq_true] at this; tauto
theorem low_ab_ovvo : hbar.ab.ovvo.lowOnly = true := by have := below_all; simp only [Bool.and_eq_true] at this; tauto
theorem low_ab_ovov : hbar.ab.ovov.lowOnly = true := by have := below_all; simp only [Bool.and_eq_true] at this; tauto
theorem low_ab_oooo : hbar.ab.oooo.lowOnly = true := by have := below_all; simp only [Bool.and_eq_true] at this; tauto
theorem low_ab_vvvv : hbar.ab.vvvv.lowOnly = true := by have := below_all; simp only [Bool.and_eq_true] at this; tauto
theorem low_bb_voov : hbar.bb.voov.lowOnly = true := by have := below_all; simp only [Bool.and_eq_true] at this; tauto

/-- Array 11 and the following ones. -/
theorem arr_value (n : ℕ) (sp idx : List ℕ) (h : sp.length = idx.length) : value S Z amp (.arr (n + 6) sp) idx = amp (n + 6) idx := by
  unfold value
  simp only [Ex.denote, elements, List.map_snd_zip (l₁ := sp) (l₂ := idx) h.ge]

end

/-! ### Singly excited determinants -/

def unitA (b j : ℕ) : Cluster := ⟨unit₂ b j, fun _ _ => 0, fun _ _ _ _ => 0, fun _ _ _ _ => 0, fun _ _ _ _ => 0⟩
def unitB (b j : ℕ) : Cluster := ⟨fun _ _ => 0, unit₂ b j, fun _ _ _ _ => 0, fun _ _ _ _ => 0, fun _ _ _ _ => 0⟩

theorem unitA_antisym (b j : ℕ) : (unitA b j).Antisym := by
  constructor <;> intro p q r s <;> constructor <;> exact neg_zero.symm
theorem unitB_antisym (b j : ℕ) : (unitB b j).Antisym := by
  constructor <;> intro p q r s <;> constructor <;> exact neg_zero.symm

variable {S : Orbitals ι} {Z : Fock.Integrals} {T : Cluster}

theorem clusterOperator_unitA {b j : ℕ} (hb : b < S.ua) (hj : j < S.na) : clusterOperator S (unitA b j) = cre (S.virA b) * ann (S.occA j) := by
  unfold clusterOperator
  simp only [unitA, zero_smul, Finset.sum_const_zero, smul_zero, add_zero]
  exact sum_unit₂ hb hj fun a i => cre (S.virA a) * ann (S.occA i)

theorem clusterOperator_unitB {b j : ℕ} (hb : b < S.ub) (hj : j < S.nb) : clusterOperator S (unitB b j) = cre (S.virB b) * ann (S.occB j) := by
  unfold clusterOperator
  simp only [unitB, zero_smul, Finset.sum_const_zero, smul_zero, add_zero, zero_add]
  exact sum_unit₂ hb hj fun a i => cre (S.virB a) * ann (S.occB i)

/-- The arrays 11 to 15 of one unit array and zeros. -/
theorem zero_arr {amp : ℕ → List ℕ → ℚ} (n : ℕ) (sp : List ℕ) (h : ∀ idx, amp (n + 6) idx = 0) (idx : List ℕ) :
    (Ex.arr (n + 6) sp).denote (dims S.n S.na S.nb) (elements S.na S.nb ⟨fockA S Z, fockB S Z⟩ ⟨Z.vAA, Z.vAB, Z.vBB⟩ amp) idx = 0 := by
  simp only [Ex.denote, elements, h]

theorem amp_zero_of {R : Cluster} (h : R.tAA = fun _ _ _ _ => 0) (h' : R.tAB = fun _ _ _ _ => 0) (h'' : R.tBB = fun _ _ _ _ => 0) (n : ℕ) (hn : 8 ≤ n)
    (l : List ℕ) : R.amp n l = 0 := by
  unfold Cluster.amp
  split <;> simp_all


section
variable {dim : ℕ → ℕ} {I : ℕ → List (ℕ × ℕ) → ℚ} {H : Ints}

theorem hr_a {R : Amps} (o : H.a.oo.axes = [0, 0]) (v : H.a.vv.axes = [1, 1]) (aa : H.aa.voov.axes = [1, 0, 0, 1]) (ab : H.ab.voov.axes = [1, 2, 0, 3])
    (ra : R.a.axes = [1, 0]) (rb : R.b.axes = [3, 2]) (zAA : ∀ idx, R.aa.denote dim I idx = 0) (zAB : ∀ idx, R.ab.denote dim I idx = 0) (a i : ℕ) :
    (EomCcsd.buildHR1A R H).denote dim I [a, i]
      = -(∑ m ∈ range (dim 0), H.a.oo.denote dim I [m, i] * R.a.denote dim I [a, m])
        + (∑ e ∈ range (dim 1), H.a.vv.denote dim I [a, e] * R.a.denote dim I [e, i])
        + (∑ m ∈ range (dim 0), ∑ e ∈ range (dim 1), H.aa.voov.denote dim I [a, m, i, e] * R.a.denote dim I [e, m])
        + ∑ m ∈ range (dim 2), ∑ e ∈ range (dim 3), H.ab.voov.denote dim I [a, m, i, e] * R.b.denote dim I [e, m] := by
  unfold EomCcsd.buildHR1A
  simp only [den_add, den_sub, den_neg]
  rw [den_half (es_zero zAA), es_zero zAB, den_half (es_zero zAA), es_zero zAB, es_zero zAA, es_zero zAB, ge_oo o ra, ge_vv v ra, ge_voov aa ra,
    ge_voov ab rb]
  simp only [sub_zero, add_zero]

theorem hr_b {R : Amps} (o : H.b.oo.axes = [2, 2]) (v : H.b.vv.axes = [3, 3]) (bb : H.bb.voov.axes = [3, 2, 2, 3]) (ab : H.ab.ovvo.axes = [0, 3, 1, 2])
    (ra : R.a.axes = [1, 0]) (rb : R.b.axes = [3, 2]) (zBB : ∀ idx, R.bb.denote dim I idx = 0) (zAB : ∀ idx, R.ab.denote dim I idx = 0) (a i : ℕ) :
    (EomCcsd.buildHR1B R H).denote dim I [a, i]
      = -(∑ m ∈ range (dim 2), H.b.oo.denote dim I [m, i] * R.b.denote dim I [a, m])
        + (∑ e ∈ range (dim 3), H.b.vv.denote dim I [a, e] * R.b.denote dim I [e, i])
        + (∑ m ∈ range (dim 0), ∑ e ∈ range (dim 1), H.ab.ovvo.denote dim I [m, a, e, i] * R.a.denote dim I [e, m])
        + ∑ m ∈ range (dim 2), ∑ e ∈ range (dim 3), H.bb.voov.denote dim I [a, m, i, e] * R.b.denote dim I [e, m] := by
  unfold EomCcsd.buildHR1B
  simp only [den_add, den_sub, den_neg]
  rw [es_zero zAB, den_half (es_zero zBB), es_zero zAB, den_half (es_zero zBB), es_zero zAB, es_zero zBB, ge_oo o rb, ge_vv v rb, ge_ovvo ab ra,
    ge_voov bb rb]
  simp only [sub_zero, add_zero]

theorem hr_sf {R : Flipped} {T : Amps} (o : H.a.oo.axes = [0, 0]) (v : H.b.vv.axes = [3, 3]) (ab : H.ab.ovov.axes = [0, 3, 0, 3])
    (r : R.b.axes = [3, 0]) (zAB : ∀ idx, R.ab.denote dim I idx = 0) (zBB : ∀ idx, R.bb.denote dim I idx = 0) (a i : ℕ) :
    (SfEom.buildHR1B R T H).denote dim I [a, i]
      = (∑ e ∈ range (dim 3), H.b.vv.denote dim I [a, e] * R.b.denote dim I [e, i])
        - (∑ m ∈ range (dim 0), H.a.oo.denote dim I [m, i] * R.b.denote dim I [a, m])
        - ∑ m ∈ range (dim 0), ∑ e ∈ range (dim 3), H.ab.ovov.denote dim I [m, a, i, e] * R.b.denote dim I [e, m] := by
  unfold SfEom.buildHR1B
  simp only [den_add, den_sub, den_neg]
  rw [es_zero zAB, es_zero zBB, den_half (es_zero zAB), es_zero zBB, den_half (es_zero zBB), es_zero zAB, ge_vv v r, ge_oo o r, ge_ovov ab r]
  simp only [sub_zero, add_zero]

theorem hr_ea {R : Attached} {T : Amps} (v : H.a.vv.axes = [1, 1]) (r : R.a.axes = [1]) (zAA : ∀ idx, R.aa.denote dim I idx = 0)
    (zAB : ∀ idx, R.ab.denote dim I idx = 0) (a : ℕ) :
    (EaEom.buildHR1A R T H).denote dim I [a] = ∑ e ∈ range (dim 1), H.a.vv.denote dim I [a, e] * R.a.denote dim I [e] := by
  unfold EaEom.buildHR1A
  simp only [den_add, den_sub, den_neg]
  rw [den_half (es_zero zAA), es_zero zAB, es_zero zAA, es_zero zAB, ge_v v r]
  simp only [sub_zero, add_zero]

theorem hr_ip {R : Attached} {T : Amps} (o : H.a.oo.axes = [0, 0]) (r : R.a.axes = [0]) (zAA : ∀ idx, R.aa.denote dim I idx = 0)
    (zAB : ∀ idx, R.ab.denote dim I idx = 0) (i : ℕ) :
    (IpEom.buildHR1A R T H).denote dim I [i] = -∑ m ∈ range (dim 0), H.a.oo.denote dim I [m, i] * R.a.denote dim I [m] := by
  unfold IpEom.buildHR1A
  simp only [den_add, den_sub, den_neg]
  rw [den_half (es_zero zAA), es_zero zAB, es_zero zAA, es_zero zAB, ge_o o r]
  simp only [sub_zero, add_zero]

theorem hr_dea {R : Ex} {T : Amps} (va : H.a.vv.axes = [1, 1]) (vb : H.b.vv.axes = [3, 3]) (v : H.ab.vvvv.axes = [1, 3, 1, 3]) (r : R.axes = [1, 3])
    (a b : ℕ) : (DeaEom2.buildHR2B R T H).denote dim I [a, b]
      = (∑ e ∈ range (dim 1), H.a.vv.denote dim I [a, e] * R.denote dim I [e, b])
        + (∑ e ∈ range (dim 3), H.b.vv.denote dim I [b, e] * R.denote dim I [a, e])
        + ∑ e ∈ range (dim 1), ∑ f ∈ range (dim 3), H.ab.vvvv.denote dim I [a, b, e, f] * R.denote dim I [e, f] := by
  unfold DeaEom2.buildHR2B
  simp only [den_add]
  rw [ge_pva va r, ge_pvb vb r, ge_pvv v r]

theorem hr_dip {R : DoublyAttached} {T : Amps} (oa : H.a.oo.axes = [0, 0]) (ob : H.b.oo.axes = [2, 2]) (o : H.ab.oooo.axes = [0, 2, 0, 2])
    (r : R.ab.axes = [0, 2]) (zA : ∀ idx, R.aba.denote dim I idx = 0) (zB : ∀ idx, R.abb.denote dim I idx = 0) (i j : ℕ) :
    (DipEom.buildHR2B R T H).denote dim I [i, j]
      = -(∑ m ∈ range (dim 0), H.a.oo.denote dim I [m, i] * R.ab.denote dim I [m, j])
        - (∑ m ∈ range (dim 2), H.b.oo.denote dim I [m, j] * R.ab.denote dim I [i, m])
        + ∑ m ∈ range (dim 0), ∑ n ∈ range (dim 2), H.ab.oooo.denote dim I [m, n, i, j] * R.ab.denote dim I [m, n] := by
  unfold DipEom.buildHR2B
  simp only [den_add, den_sub, den_neg]
  rw [es_zero zA, es_zero zB, es_zero zA, den_half (es_zero zB), den_half (es_zero zA), es_zero zB, ge_poa oa r, ge_pob ob r, ge_poo o r]
  simp only [sub_zero, add_zero]
end


section
variable (h : S.Proper) (hZ : Z.Antisym) (hT : T.Antisym)
include h hZ hT

theorem element_a {R : Cluster} (hR : R.Antisym) (h₁ : R.tAA = fun _ _ _ _ => 0) (h₂ : R.tAB = fun _ _ _ _ => 0) (h₃ : R.tBB = fun _ _ _ _ => 0)
    {a i : ℕ} (ha : a < S.ua) (hi : i < S.na) :
    energyElement S Z T (S.singleA a i) (clusterOperator S R)
      = -(∑ m ∈ range S.na, (elementsOf S Z T).a_oo m i * R.tA a m) + (∑ e ∈ range S.ua, (elementsOf S Z T).a_vv a e * R.tA e i)
        + (∑ m ∈ range S.na, ∑ e ∈ range S.ua, (elementsOf S Z T).aa_voov a m i e * R.tA e m)
        + ∑ m ∈ range S.nb, ∑ e ∈ range S.ub, (elementsOf S Z T).ab_voov a m i e * R.tB e m := by
  have z := amp_zero_of h₁ h₂ h₃
  refine (EomCcsd.C64_1a h hZ hT hR stored ha hi).symm.trans ((hr_a (R := EomCcsd.excitation) (H := hbar) rfl rfl rfl rfl rfl rfl
    (zero_arr (amp := Cluster.store [T, R]) 7 [1, 1, 0, 0] fun idx => z 8 (by decide) idx)
    (zero_arr (amp := Cluster.store [T, R]) 8 [1, 3, 0, 2] fun idx => z 9 (by decide) idx) a i).trans ?_)
  have e₁ := value_below (S := S) (Z := Z) low_a_oo (store_low (T := T) R)
  have e₂ := value_below (S := S) (Z := Z) low_a_vv (store_low (T := T) R)
  have e₃ := value_below (S := S) (Z := Z) low_aa_voov (store_low (T := T) R)
  have e₄ := value_below (S := S) (Z := Z) low_ab_voov (store_low (T := T) R)
  unfold value at e₁ e₂ e₃ e₄
  simp only [e₁, e₂, e₃, e₄]
  rfl

theorem element_b {R : Cluster} (hR : R.Antisym) (h₁ : R.tAA = fun _ _ _ _ => 0) (h₂ : R.tAB = fun _ _ _ _ => 0) (h₃ : R.tBB = fun _ _ _ _ => 0)
    {a i : ℕ} (ha : a < S.ub) (hi : i < S.nb) :
    energyElement S Z T (S.singleB a i) (clusterOperator S R)
      = -(∑ m ∈ range S.nb, (elementsOf S Z T).b_oo m i * R.tB a m) + (∑ e ∈ range S.ub, (elementsOf S Z T).b_vv a e * R.tB e i)
        + (∑ m ∈ range S.na, ∑ e ∈ range S.ua, (elementsOf S Z T).ab_ovvo m a e i * R.tA e m)
        + ∑ m ∈ range S.nb, ∑ e ∈ range S.ub, (elementsOf S Z T).bb_voov a m i e * R.tB e m := by
  have z := amp_zero_of h₁ h₂ h₃
  refine (EomCcsd.C64_1b h hZ hT hR stored ha hi).symm.trans ((hr_b (R := EomCcsd.excitation) (H := hbar) rfl rfl rfl rfl rfl rfl
    (zero_arr (amp := Cluster.store [T, R]) 9 [3, 3, 2, 2] fun idx => z 10 (by decide) idx)
    (zero_arr (amp := Cluster.store [T, R]) 8 [1, 3, 0, 2] fun idx => z 9 (by decide) idx) a i).trans ?_)
  have e₁ := value_below (S := S) (Z := Z) low_b_oo (store_low (T := T) R)
  have e₂ := value_below (S := S) (Z := Z) low_b_vv (store_low (T := T) R)
  have e₃ := value_below (S := S) (Z := Z) low_ab_ovvo (store_low (T := T) R)
  have e₄ := value_below (S := S) (Z := Z) low_bb_voov (store_low (T := T) R)
  unfold value at e₁ e₂ e₃ e₄
  simp only [e₁, e₂, e₃, e₄]
  rfl

section
variable {a i b j : ℕ}

theorem element_aa (ha : a < S.ua) (hi : i < S.na) (hb : b < S.ua) (hj : j < S.na) :
    energyElement S Z T (S.singleA a i) (cre (S.virA b) * ann (S.occA j))
      = (if a = b then -(elementsOf S Z T).a_oo j i else 0) + (if i = j then (elementsOf S Z T).a_vv a b else 0)
        + (elementsOf S Z T).aa_voov a j i b := by
  rw [← clusterOperator_unitA hb hj, element_a h hZ hT (unitA_antisym b j) rfl rfl rfl ha hi]
  simp only [unitA]
  rw [sum_right hj, sum_left hb, sum_both hb hj]
  simp only [mul_zero, Finset.sum_const_zero, add_zero]
  congr 2
  split_ifs <;> simp

theorem element_ab (ha : a < S.ua) (hi : i < S.na) (hb : b < S.ub) (hj : j < S.nb) :
    energyElement S Z T (S.singleA a i) (cre (S.virB b) * ann (S.occB j)) = (elementsOf S Z T).ab_voov a j i b := by
  rw [← clusterOperator_unitB hb hj, element_a h hZ hT (unitB_antisym b j) rfl rfl rfl ha hi]
  simp only [unitB]
  rw [sum_both hb hj]
  simp only [mul_zero, Finset.sum_const_zero, add_zero, neg_zero, zero_add]

theorem element_ba (ha : a < S.ub) (hi : i < S.nb) (hb : b < S.ua) (hj : j < S.na) :
    energyElement S Z T (S.singleB a i) (cre (S.virA b) * ann (S.occA j)) = (elementsOf S Z T).ab_ovvo j a b i := by
  rw [← clusterOperator_unitA hb hj, element_b h hZ hT (unitA_antisym b j) rfl rfl rfl ha hi]
  simp only [unitA]
  rw [sum_both hb hj fun m e => (elementsOf S Z T).ab_ovvo m a e i]
  simp only [mul_zero, Finset.sum_const_zero, add_zero, neg_zero, zero_add]

theorem element_bb (ha : a < S.ub) (hi : i < S.nb) (hb : b < S.ub) (hj : j < S.nb) :
    energyElement S Z T (S.singleB a i) (cre (S.virB b) * ann (S.occB j))
      = (if a = b then -(elementsOf S Z T).b_oo j i else 0) + (if i = j then (elementsOf S Z T).b_vv a b else 0)
        + (elementsOf S Z T).bb_voov a j i b := by
  rw [← clusterOperator_unitB hb hj, element_b h hZ hT (unitB_antisym b j) rfl rfl rfl ha hi]
  simp only [unitB]
  rw [sum_right hj, sum_left hb, sum_both hb hj]
  simp only [mul_zero, Finset.sum_const_zero, add_zero]
  congr 2
  split_ifs <;> simp

theorem element_sf (ha : a < S.ub) (hi : i < S.na) (hb : b < S.ub) (hj : j < S.na) :
    energyElement S Z T ((cre (S.virB a) * ann (S.occA i)) S.ref) (cre (S.virB b) * ann (S.occA j))
      = (if i = j then (elementsOf S Z T).b_vv a b else 0) - (if a = b then (elementsOf S Z T).a_oo j i else 0)
        - (elementsOf S Z T).ab_ovov j a i b := by
  let R : SpinFlip := ⟨unit₂ b j, fun _ _ _ _ => 0, fun _ _ _ _ => 0⟩
  have hR : R.Antisym := ⟨fun _ _ _ _ => neg_zero.symm, fun _ _ _ _ => neg_zero.symm⟩
  have e : R.operator S = cre (S.virB b) * ann (S.occA j) := by
    unfold SpinFlip.operator
    simp only [R, zero_smul, Finset.sum_const_zero, smul_zero, add_zero]
    exact sum_unit₂ hb hj fun a i => cre (S.virB a) * ann (S.occA i)
  rw [← e]
  refine (SfEom.C76_sf_b h hZ hT hR ha hi).symm.trans ((hr_sf (R := SfEom.arrays) (T := amplitudes) (H := hbar) rfl rfl rfl rfl
    (zero_arr (amp := joined T R.amp) 6 [1, 3, 0, 0] fun idx => ?_)
    (zero_arr (amp := joined T R.amp) 7 [3, 3, 2, 0] fun idx => ?_) a i).trans ?_)
  · change R.amp 12 idx = 0
    unfold SpinFlip.amp
    split <;> simp_all [R]
  · change R.amp 13 idx = 0
    unfold SpinFlip.amp
    split <;> simp_all [R]
  have e₁ := value_below (S := S) (Z := Z) low_a_oo (joined_low (T := T) R.amp)
  have e₂ := value_below (S := S) (Z := Z) low_b_vv (joined_low (T := T) R.amp)
  have e₃ := value_below (S := S) (Z := Z) low_ab_ovov (joined_low (T := T) R.amp)
  unfold value at e₁ e₂ e₃
  simp only [e₁, e₂, e₃]
  exact congrArg₂ (· - ·) (congrArg₂ (· - ·) (sum_left hb i fun e => (elementsOf S Z T).b_vv a e)
    (sum_right hj a fun m => (elementsOf S Z T).a_oo m i)) (sum_both hb hj fun m e => (elementsOf S Z T).ab_ovov m a i e)

theorem element_ea (ha : a < S.ua) (hb : b < S.ua) :
    energyElement S Z T (cre (S.virA a) S.ref) (cre (S.virA b)) = (elementsOf S Z T).a_vv a b := by
  let R : Attachment := ⟨unit₁ b, fun _ _ _ => 0, fun _ _ _ => 0⟩
  have hR : R.Antisym := ⟨fun _ _ _ => neg_zero.symm⟩
  have e : R.operator S = cre (S.virA b) := by
    unfold Attachment.operator
    simp only [R, zero_smul, Finset.sum_const_zero, smul_zero, add_zero]
    exact sum_unit₁ hb fun a => cre (S.virA a)
  rw [← e]
  refine (EaEom.C73_ea_a h hZ hT hR ha).symm.trans ((hr_ea (R := EaEom.arrays) (T := amplitudes) (H := hbar) rfl rfl
    (zero_arr (amp := joined T R.amp) 6 [1, 1, 0] fun idx => ?_)
    (zero_arr (amp := joined T R.amp) 7 [1, 3, 2] fun idx => ?_) a).trans ?_)
  · change R.amp 12 idx = 0
    unfold Attachment.amp
    split <;> simp_all [R]
  · change R.amp 13 idx = 0
    unfold Attachment.amp
    split <;> simp_all [R]
  have e₂ := value_below (S := S) (Z := Z) low_a_vv (joined_low (T := T) R.amp)
  unfold value at e₂
  simp only [e₂]
  exact sum_mul₁ hb fun e => (elementsOf S Z T).a_vv a e

theorem element_ip (hi : i < S.na) (hj : j < S.na) :
    energyElement S Z T (ann (S.occA i) S.ref) (ann (S.occA j)) = -(elementsOf S Z T).a_oo j i := by
  let R : Ionisation := ⟨unit₁ j, fun _ _ _ => 0, fun _ _ _ => 0⟩
  have hR : R.Antisym := ⟨fun _ _ _ => neg_zero.symm⟩
  have e : R.operator S = ann (S.occA j) := by
    unfold Ionisation.operator
    simp only [R, zero_smul, Finset.sum_const_zero, smul_zero, add_zero]
    exact sum_unit₁ hj fun a => ann (S.occA a)
  have z : ∀ idx, R.amp 12 idx = 0 := fun idx => by
    unfold Ionisation.amp
    split <;> simp_all [R]
  have z' : ∀ idx, R.amp 13 idx = 0 := fun idx => by
    unfold Ionisation.amp
    split <;> simp_all [R]
  rw [← e]
  refine (IpEom.C73_ip_a h hZ hT hR hi).symm.trans ((hr_ip (R := IpEom.arrays) (T := amplitudes) (H := hbar) rfl rfl
    (zero_transpose (zero_arr (amp := joined T R.amp) 6 [1, 0, 0] z)) (zero_arr (amp := joined T R.amp) 7 [0, 3, 2] z') i).trans ?_)
  have e₂ := value_below (S := S) (Z := Z) low_a_oo (joined_low (T := T) R.amp)
  unfold value at e₂
  simp only [e₂]
  exact congrArg Neg.neg (sum_mul₁ hj fun m => (elementsOf S Z T).a_oo m i)

theorem element_dea {c d : ℕ} (ha : a < S.ua) (hb : b < S.ub) (hc : c < S.ua) (hd : d < S.ub) :
    energyElement S Z T ((cre (S.virA a) * cre (S.virB b)) S.ref) (cre (S.virA c) * cre (S.virB d))
      = (if b = d then (elementsOf S Z T).a_vv a c else 0) + (if a = c then (elementsOf S Z T).b_vv b d else 0)
        + (elementsOf S Z T).ab_vvvv a b c d := by
  let R : PairAttachment := ⟨unit₂ c d⟩
  have e : R.operator S = cre (S.virA c) * cre (S.virB d) := sum_unit₂ hc hd fun a b => cre (S.virA a) * cre (S.virB b)
  rw [← e]
  refine (DeaEom2.C75_dea2_ab h hZ hT (R := R) ⟨⟩ ha hb).symm.trans ((hr_dea (R := .arr 11 [1, 3]) (T := amplitudes) (H := hbar) rfl rfl rfl rfl
    a b).trans ?_)
  have e₁ := value_below (S := S) (Z := Z) low_a_vv (joined_low (T := T) R.amp)
  have e₂ := value_below (S := S) (Z := Z) low_b_vv (joined_low (T := T) R.amp)
  have e₃ := value_below (S := S) (Z := Z) low_ab_vvvv (joined_low (T := T) R.amp)
  unfold value at e₁ e₂ e₃
  simp only [e₁, e₂, e₃]
  exact congrArg₂ (· + ·) (congrArg₂ (· + ·) (sum_left hc b fun e => (elementsOf S Z T).a_vv a e)
    (sum_right hd a fun m => (elementsOf S Z T).b_vv b m)) (sum_both' hc hd fun m e => (elementsOf S Z T).ab_vvvv a b m e)

theorem element_dip {k l : ℕ} (hi : i < S.na) (hj : j < S.nb) (hk : k < S.na) (hl : l < S.nb) :
    energyElement S Z T ((ann (S.occB j) * ann (S.occA i)) S.ref) (ann (S.occB l) * ann (S.occA k))
      = -(if j = l then (elementsOf S Z T).a_oo k i else 0) - (if i = k then (elementsOf S Z T).b_oo l j else 0)
        + (elementsOf S Z T).ab_oooo k l i j := by
  let R : DoubleIonisation := ⟨unit₂ k l, fun _ _ _ _ => 0, fun _ _ _ _ => 0⟩
  have hR : R.Antisym := ⟨fun _ _ _ _ => neg_zero.symm, fun _ _ _ _ => neg_zero.symm⟩
  have e : R.operator S = ann (S.occB l) * ann (S.occA k) := by
    unfold DoubleIonisation.operator
    simp only [R, zero_smul, Finset.sum_const_zero, smul_zero, add_zero]
    exact sum_unit₂ hk hl fun a i => ann (S.occB i) * ann (S.occA a)
  have z : ∀ idx, R.amp 12 idx = 0 := fun idx => by
    unfold DoubleIonisation.amp
    split <;> simp_all [R]
  have z' : ∀ idx, R.amp 13 idx = 0 := fun idx => by
    unfold DoubleIonisation.amp
    split <;> simp_all [R]
  rw [← e]
  refine (DipEom.C75_dip_ab h hZ hT hR hi hj).symm.trans ((hr_dip (R := DipEom.arrays) (T := amplitudes) (H := hbar) rfl rfl rfl rfl
    (zero_transpose (zero_arr (amp := joined T R.amp) 6 [1, 2, 0, 0] z))
    (zero_transpose (zero_arr (amp := joined T R.amp) 7 [0, 3, 2, 2] z')) i j).trans ?_)
  have e₁ := value_below (S := S) (Z := Z) low_a_oo (joined_low (T := T) R.amp)
  have e₂ := value_below (S := S) (Z := Z) low_b_oo (joined_low (T := T) R.amp)
  have e₃ := value_below (S := S) (Z := Z) low_ab_oooo (joined_low (T := T) R.amp)
  unfold value at e₁ e₂ e₃
  simp only [e₁, e₂, e₃]
  exact congrArg₂ (· + ·) (congrArg₂ (· - ·) (congrArg Neg.neg (sum_left hk j fun e => (elementsOf S Z T).a_oo e i))
    (sum_right hl i fun m => (elementsOf S Z T).b_oo m j)) (sum_both' hk hl fun m e => (elementsOf S Z T).ab_oooo m e i j)
end

end

end Ccpy.GuessMatrix
