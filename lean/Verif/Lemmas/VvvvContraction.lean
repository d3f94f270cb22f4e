import Verif.Model.VvvvContraction
import Verif.Spec.VvvvContraction
import Verif.Lemmas.FortranLoop
import Verif.Lemmas.UniqueSums
import Mathlib.Algebra.BigOperators.Group.List.Basic
import Mathlib.Algebra.BigOperators.Ring.Finset
import Mathlib.Algebra.BigOperators.Intervals
import Mathlib.Algebra.BigOperators.Pi
import Mathlib.Algebra.Ring.CharZero
import Mathlib.Tactic.Ring
import Mathlib.Tactic.FieldSimp
import Mathlib.Tactic.LinearCombination

/-! The loops of `vvvv_contraction.f90`. -/

namespace Ccpy.Vvvv
open Ccpy.Fortran
open Finset (range Icc Ioc)

section
variable {A : Type*} [AddCommMonoid A]

theorem foldl_add {ι : Type*} {body : ι → A → A} {c : ι → A} (h : ∀ k s, body k s = s + c k) (l : List ι) :
    ∀ s, l.foldl (fun p k => body k p) s = s + (l.map c).sum := by
  induction l with
  | nil => intro s; simp
  | cons k l ih => intro s; rw [List.foldl_cons, ih, h, List.map_cons, List.sum_cons, add_assoc]

theorem ompReduce_eq {body : ℕ → A → A} {c : ℕ → A} (h : ∀ k s, body k s = s + c k) (schedule : List (List ℕ)) :
    ∀ s, ompReduce schedule body s = s + (schedule.flatten.map c).sum := by
  unfold ompReduce
  induction schedule with
  | nil => intro s; simp
  | cons own l ih =>
    intro s
    rw [List.foldl_cons, ih, foldl_add h, zero_add, List.flatten_cons, List.map_append, List.sum_append, add_assoc]

theorem sum_range' (c : ℕ → A) (lo n : ℕ) : ((List.range' lo (n + 1 - lo)).map c).sum = ∑ k ∈ Icc lo n, c k := by
  have e : (List.range' lo (n + 1 - lo)).toFinset = Icc lo n := by
    ext i; rw [List.mem_toFinset, List.mem_range'_1, Finset.mem_Icc]; omega
  rw [← e, List.sum_toFinset _ List.nodup_range']

theorem doLoop_add {lo n : ℕ} {body : ℕ → A → A} {c : ℕ → A} (h : ∀ k s, body k s = s + c k) (s : A) :
    doLoop lo n body s = s + ∑ k ∈ Icc lo n, c k := by
  unfold doLoop
  rw [foldl_add h, sum_range']

end

variable {K : Type*} [Field K]

/-- What one statement adds. -/
def slice (t2 : Arr4 K) (b a f e : ℕ) (w : K) : Arr4 K := fun j i q p => if q = b ∧ p = a then w * t2 j i f e else 0

theorem addSlice_eq (resid t2 : Arr4 K) (b a f e : ℕ) (w : K) : addSlice resid t2 b a f e w = resid + slice t2 b a f e w := by
  funext j i q p
  simp only [addSlice, slice, Pi.add_apply]
  split <;> simp

/-! ### The table of pairs -/

theorem fill_list (L : List (ℕ × ℕ)) : ∀ s : ℕ × (ℕ → ℕ × ℕ),
    let s' := L.foldl (fun (s : ℕ × (ℕ → ℕ × ℕ)) p => (s.1 + 1, fun k => if k = s.1 then p else s.2 k)) s
    (∀ k, k < s.1 → s'.2 k = s.2 k) ∧ ∀ (i : ℕ) (h : i < L.length), s'.2 (s.1 + i) = L[i] := by
  induction L with
  | nil => intro s; exact ⟨fun _ _ => rfl, fun i h => absurd h (Nat.not_lt_zero i)⟩
  | cons p L ih =>
    intro s
    have := ih (s.1 + 1, fun k => if k = s.1 then p else s.2 k)
    simp only [List.foldl_cons] at this ⊢
    refine ⟨fun k hk => ?_, fun i h => ?_⟩
    · rw [this.1 k (by omega), if_neg (by omega)]
    · cases i with
      | zero => rw [this.1 _ (by omega)]; simp
      | succ i =>
        have e := this.2 i (by simpa using h)
        rw [show s.1 + (i + 1) = s.1 + 1 + i by omega, e]; rfl

/-- The pairs in the order of the table. -/
def pairList (nu : ℕ) : List (ℕ × ℕ) :=
  (List.range' 1 nu).flatMap fun a => (List.range' (a + 1) (nu - a)).map fun b => (a, b)

theorem abTable_eq (nu i : ℕ) (h : i < (pairList nu).length) : (abTable nu).2 (i + 1) = (pairList nu)[i] := by
  have e : abTable nu = (pairList nu).foldl
      (fun (s : ℕ × (ℕ → ℕ × ℕ)) p => (s.1 + 1, fun k => if k = s.1 then p else s.2 k)) (1, fun _ => (0, 0)) := by
    unfold abTable doLoop pairList
    rw [List.foldl_flatMap]
    simp only [List.foldl_map, Nat.add_sub_cancel, Nat.add_sub_add_right]
  rw [e, add_comm]
  exact (fill_list _ _).2 i h

theorem sum_sub_range (nu : ℕ) : ∀ m ≤ nu, ((List.range' 1 m).map fun a => nu - a).sum * 2 = m * (2 * nu - 1 - m) := by
  intro m
  induction m with
  | zero => intro _; simp
  | succ m ih =>
    intro h
    rw [List.range'_1_concat, List.map_append, List.sum_append, add_mul, ih (by omega)]
    obtain ⟨k, rfl⟩ : ∃ k, nu = m + 1 + k := ⟨nu - (m + 1), by omega⟩
    simp only [List.map_cons, List.map_nil, List.sum_cons, List.sum_nil]
    rw [show 2 * (m + 1 + k) - 1 - m = m + 1 + 2 * k by omega, show m + 1 + k - (1 + m) + 0 = k by omega,
      show 2 * (m + 1 + k) - 1 - (m + 1) = m + 2 * k by omega]
    ring

theorem length_pairList (nu : ℕ) : (pairList nu).length = nu * (nu - 1) / 2 := by
  have e := sum_sub_range nu nu le_rfl
  have l : (pairList nu).length = ((List.range' 1 nu).map fun a => nu - a).sum := by
    unfold pairList
    rw [List.length_flatMap]
    simp
  rw [l, ← Nat.mul_div_cancel (List.sum _) (show 0 < 2 by omega), e]
  congr 2
  omega

theorem sum_table {B : Type*} [AddCommMonoid B] (nu : ℕ) (c : ℕ × ℕ → B) :
    ((List.range' 1 (nu * (nu - 1) / 2)).map fun k => c ((abTable nu).2 k)).sum =
      ∑ a ∈ Icc 1 nu, ∑ b ∈ Icc (a + 1) nu, c (a, b) := by
  have e : (List.range' 1 (nu * (nu - 1) / 2)).map (fun k => c ((abTable nu).2 k)) = (pairList nu).map c := by
    refine List.ext_getElem (by simp [length_pairList]) fun i h₁ h₂ => ?_
    rw [List.getElem_map, List.getElem_map, List.getElem_range', ← abTable_eq nu i (by simpa using h₂)]
    rw [one_mul, add_comm]
  rw [e]
  unfold pairList
  rw [List.map_flatMap, List.flatMap_def, List.sum_flatten, List.map_map]
  simp only [List.map_map, Function.comp_def]
  rw [← sum_range' (fun a => ∑ b ∈ Icc (a + 1) nu, c (a, b)) 1 nu]
  simp only [Nat.add_sub_cancel]
  congr 1
  refine List.map_congr_left fun a _ => ?_
  rw [← sum_range' (fun b => c (a, b)) (a + 1) nu, Nat.add_sub_add_right]

/-! ### The results -/

/-- The antisymmetrised batch. -/
def batchSym (R : ℕ → ℕ → ℕ → K) (naux a b f e : ℕ) : K :=
  dgemmTn naux (fun x p => R x p b) (fun x q => R x q a) f e - dgemmTn naux (fun x p => R x p b) (fun x q => R x q a) e f

theorem sum_apply4 {ι : Type*} (s : Finset ι) (c : ι → Arr4 K) (j i q p : ℕ) : (∑ k ∈ s, c k) j i q p = ∑ k ∈ s, c k j i q p := by
  simp only [Finset.sum_apply]

theorem vvvvT2Sym_eq {schedule : List (List ℕ)} {nu : ℕ} (hs : Distributes schedule (nu * (nu - 1) / 2))
    (R : ℕ → ℕ → ℕ → K) (t2 : Arr4 K) (naux j i a b : ℕ) (ha : 1 ≤ a) (hb : b ≤ nu) :
    vvvvT2Sym schedule R t2 nu naux j i b a =
      if a < b then ∑ e ∈ Icc 1 nu, ∑ f ∈ Icc (e + 1) nu, batchSym R naux a b f e * t2 j i f e else 0 := by
  unfold vvvvT2Sym
  simp only
  rw [ompReduce_eq (c := fun k => (fun p : ℕ × ℕ => ∑ e ∈ Icc 1 nu, ∑ f ∈ Icc (e + 1) nu,
      slice t2 p.2 p.1 f e (batchSym R naux p.1 p.2 f e)) ((abTable nu).2 k))]
  · rw [(hs.map _).sum_eq, sum_table nu (fun p : ℕ × ℕ => ∑ e ∈ Icc 1 nu, ∑ f ∈ Icc (e + 1) nu,
      slice t2 p.2 p.1 f e (batchSym R naux p.1 p.2 f e))]
    simp only [Pi.add_apply, sum_apply4, slice, zero_add]
    split
    · rename_i h
      rw [Finset.sum_eq_single_of_mem a (Finset.mem_Icc.2 (by omega)) fun a' _ n =>
          Finset.sum_eq_zero fun b' _ => Finset.sum_eq_zero fun e _ => Finset.sum_eq_zero fun f _ => if_neg fun c => n c.2.symm,
        Finset.sum_eq_single_of_mem b (Finset.mem_Icc.2 (by omega)) fun b' _ n =>
          Finset.sum_eq_zero fun e _ => Finset.sum_eq_zero fun f _ => if_neg fun c => n c.1.symm]
      simp
    · rename_i h
      refine Finset.sum_eq_zero fun a' _ => Finset.sum_eq_zero fun b' hb' => Finset.sum_eq_zero fun e _ =>
        Finset.sum_eq_zero fun f _ => if_neg fun c => ?_
      rw [Finset.mem_Icc] at hb'
      omega
  · intro k s
    refine doLoop_add (fun e s => ?_) s
    exact doLoop_add (fun f s => addSlice_eq s _ _ _ _ _ _) s

theorem vvvvT2_eq {schedule : List (List ℕ)} {nua : ℕ} (hs : Distributes schedule nua) (Ra Rb : ℕ → ℕ → ℕ → K) (t2 : Arr4 K)
    (nub naux j i a b : ℕ) (ha : 1 ≤ a) (ha' : a ≤ nua) (hb : 1 ≤ b) (hb' : b ≤ nub) :
    vvvvT2 schedule Ra Rb t2 nua nub naux j i b a =
      ∑ e ∈ Icc 1 nua, ∑ f ∈ Icc 1 nub, dgemmTn naux (fun x p => Rb x p b) (fun x q => Ra x q a) f e * t2 j i f e := by
  unfold vvvvT2
  rw [ompReduce_eq (c := fun a => ∑ b ∈ Icc 1 nub, ∑ e ∈ Icc 1 nua, ∑ f ∈ Icc 1 nub,
      slice t2 b a f e (dgemmTn naux (fun x p => Rb x p b) (fun x q => Ra x q a) f e))]
  · have h := sum_range' (fun a => ∑ b ∈ Icc 1 nub, ∑ e ∈ Icc 1 nua, ∑ f ∈ Icc 1 nub,
      slice t2 b a f e (dgemmTn naux (fun x p => Rb x p b) (fun x q => Ra x q a) f e)) 1 nua
    rw [Nat.add_sub_cancel] at h
    rw [(hs.map _).sum_eq, h]
    simp only [Pi.add_apply, sum_apply4, slice, zero_add]
    rw [Finset.sum_eq_single_of_mem a (Finset.mem_Icc.2 (by omega)) fun a' _ n =>
        Finset.sum_eq_zero fun b' _ => Finset.sum_eq_zero fun e _ => Finset.sum_eq_zero fun f _ => if_neg fun c => n c.2.symm,
      Finset.sum_eq_single_of_mem b (Finset.mem_Icc.2 (by omega)) fun b' _ n =>
        Finset.sum_eq_zero fun e _ => Finset.sum_eq_zero fun f _ => if_neg fun c => n c.1.symm]
    simp
  · intro a s
    refine doLoop_add (fun b s => ?_) s
    refine doLoop_add (fun e s => ?_) s
    exact doLoop_add (fun f s => addSlice_eq s _ _ _ _ _ _) s

/-! ### Subscripts from zero -/

theorem sum_shift {B : Type*} [AddCommMonoid B] (n : ℕ) (g : ℕ → B) : ∑ x ∈ Icc 1 n, g x = ∑ x ∈ range n, g (x + 1) := by
  rw [Finset.range_eq_Ico, Finset.sum_Ico_add' g 0 n 1]
  rfl

theorem sum_shift' {B : Type*} [AddCommMonoid B] (n e : ℕ) (g : ℕ → B) :
    ∑ x ∈ Icc (e + 1 + 1) n, g x = ∑ x ∈ Finset.Ico (e + 1) n, g (x + 1) := by
  rw [Finset.sum_Ico_add' g (e + 1) n 1]
  rfl

theorem half_sum [CharZero K] {n : ℕ} {F : ℕ → ℕ → K} (h : ∀ a b, F b a = F a b) (h0 : ∀ a, F a a = 0) :
    ∑ a ∈ range n, ∑ b ∈ Finset.Ico (a + 1) n, F a b = 1 / 2 * ∑ a ∈ range n, ∑ b ∈ range n, F a b := by
  rw [Spec.sum_pairs h h0, Spec.sum_uniquePairs]
  have e : ∑ a ∈ range n, ∑ b ∈ Finset.Ico (a + 1) n, F a b = ∑ f ∈ range n, ∑ e ∈ range f, F e f := by
    refine Finset.sum_comm' fun a b => ?_
    simp only [Finset.mem_range, Finset.mem_Ico]
    omega
  rw [e]
  ring

/-- The result for equal spins in terms of an antisymmetric batch. -/
theorem sym_term [CharZero K] {schedule : List (List ℕ)} {nu : ℕ} (hs : Distributes schedule (nu * (nu - 1) / 2))
    (R : ℕ → ℕ → ℕ → K) (r : Arr4 K) (hr : ∀ e f i j, r f e i j = -r e f i j) (nx a b i j : ℕ) (hb : b < nu) :
    back4 (vvvvT2Sym schedule R (pass4 fun a b i j => 1 / 2 * r a b i j) nu nx) a b i j =
      if a < b then 1 / 4 * ∑ e ∈ range nu, ∑ f ∈ range nu, batchSym R nx (a + 1) (b + 1) (f + 1) (e + 1) * r e f i j else 0 := by
  unfold back4
  rw [vvvvT2Sym_eq hs _ _ _ _ _ _ _ (by omega) (by omega)]
  simp only [add_lt_add_iff_right]
  split
  · rw [sum_shift]
    simp only [sum_shift', pass4, Nat.add_sub_cancel]
    have h0 : ∀ e, r e e i j = 0 := fun e => by
      have := hr e e i j
      have h2 : (2 : K) * r e e i j = 0 := by linear_combination this
      exact (mul_eq_zero.1 h2).resolve_left two_ne_zero
    rw [half_sum (F := fun e f => batchSym R nx (a + 1) (b + 1) (f + 1) (e + 1) * (1 / 2 * r e f i j))]
    · simp only [Finset.mul_sum]
      refine Finset.sum_congr rfl fun e _ => Finset.sum_congr rfl fun f _ => ?_
      ring
    · intro e f
      rw [hr e f i j]; unfold batchSym; ring
    · intro e
      rw [h0]; ring
  · rfl

theorem dgemm_shift (nx : ℕ) (A B : ℕ → ℕ → K) (p q : ℕ) : dgemmTn nx A B p q = ∑ x ∈ range nx, A (x + 1) p * B (x + 1) q := sum_shift nx _

theorem batch_right (nx : ℕ) (c : ℕ → ℕ → ℕ → K) (a b e f : ℕ) :
    batchSym (pass3 (swap3 c)) nx (a + 1) (b + 1) (f + 1) (e + 1) = anti nx c a b e f := by
  simp only [batchSym, dgemm_shift, pass3, swap3, anti, plain, Nat.add_sub_cancel]
  congr 1 <;> exact Finset.sum_congr rfl fun x _ => mul_comm _ _

theorem batch_left (nx : ℕ) (c : ℕ → ℕ → ℕ → K) (a b e f : ℕ) :
    batchSym (pass3 c) nx (a + 1) (b + 1) (f + 1) (e + 1) = anti nx c e f a b := by
  simp only [batchSym, dgemm_shift, pass3, anti, plain, Nat.add_sub_cancel]
  congr 1
  · exact Finset.sum_congr rfl fun x _ => mul_comm _ _

theorem anti_swap (nx : ℕ) (c : ℕ → ℕ → ℕ → K) (p q r s : ℕ) : anti nx c q p r s = -anti nx c p q r s := by
  have h : ∀ p q r s, plain nx c c q p r s = plain nx c c p q s r := fun p q r s =>
    Finset.sum_congr rfl fun x _ => mul_comm _ _
  unfold anti
  rw [h, h p q s r]; ring

theorem anti_swap' (nx : ℕ) (c : ℕ → ℕ → ℕ → K) (p q r s : ℕ) : anti nx c p q s r = -anti nx c p q r s := by
  unfold anti; ring

/-- A term that is given only for the first order of two indices gives, antisymmetrised, the same as half of the full
term. -/
theorem half_term [CharZero K] (S Y Z : Arr4 K) {nu : ℕ} (hS : ∀ a b i j, b < nu → S a b i j = if a < b then 1 / 4 * Y a b i j else 0)
    (h₁ : ∀ a b i j, Y b a i j = -Y a b i j) (h₂ : ∀ a b i j, Y a b j i = -Y a b i j)
    (hZ : ∀ a b i j, Z a b i j = 1 / 8 * Y a b i j) {a b : ℕ} (ha : a < nu) (hb : b < nu) (i j : ℕ) :
    S a b i j - S b a i j - S a b j i + S b a j i = Z a b i j - Z b a i j - Z a b j i + Z b a j i := by
  have h0 : Y a a i j = 0 := by
    have := h₁ a a i j
    have h2 : (2 : K) * Y a a i j = 0 := by linear_combination this
    exact (mul_eq_zero.1 h2).resolve_left two_ne_zero
  simp only [hS _ _ _ _ ha, hS _ _ _ _ hb, hZ, h₂ b a i j, h₂ a b i j, h₁ a b i j]
  rcases Nat.lt_trichotomy a b with h | rfl | h
  · rw [if_pos h, if_neg (by omega), if_pos h, if_neg (by omega)]; ring
  · simp only [lt_irrefl, if_false, h0]; ring
  · rw [if_neg (by omega), if_pos h, if_neg (by omega), if_pos h]; ring

end Ccpy.Vvvv
