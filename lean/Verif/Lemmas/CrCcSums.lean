import Verif.Model.CrCc23
import Mathlib.Algebra.BigOperators.Intervals
import Mathlib.Algebra.BigOperators.Pi
import Mathlib.Algebra.BigOperators.Group.List.Basic
import Mathlib.Algebra.Group.Prod

/-! The loops of the CR-CC(2,3) kernels as sums over ordered indices. -/

namespace Ccpy.CrCc
open Ccpy.PSpace Ccpy.Fortran
open Finset (range Ico)

theorem doLoop_add {M : Type*} [AddCommMonoid M] {lo hi : ℕ} {body : ℕ → M → M} {f : ℕ → M}
    (h : ∀ i s, lo ≤ i → body i s = s + f i) (s : M) : doLoop (lo + 1) hi (fun i => body (i - 1)) s = s + ∑ i ∈ Ico lo hi, f i := by
  unfold doLoop
  rw [show hi + 1 - (lo + 1) = hi - lo by omega]
  by_cases hl : lo ≤ hi
  · obtain ⟨n, rfl⟩ := Nat.exists_eq_add_of_le hl
    rw [Nat.add_sub_cancel_left]
    induction n with
    | zero => simp
    | succ n ih =>
      rw [List.range'_concat, List.foldl_append, ih (by omega), ← Nat.add_assoc, Finset.sum_Ico_succ_top (by omega)]
      simp only [List.foldl_cons, List.foldl_nil]
      rw [show lo + 1 + 1 * n - 1 = lo + n by omega, h _ _ (by omega), add_assoc]
  · rw [Nat.sub_eq_zero_of_le (by omega), Finset.Ico_eq_empty (by omega)]
    simp

theorem doLoop_shift {M : Type*} [AddCommMonoid M] {lo hi : ℕ} {body : ℕ → M → M} {f : ℕ → M}
    (h : ∀ i s, lo ≤ i → body (i + 1) s = s + f i) (s : M) : doLoop (lo + 1) hi body s = s + ∑ i ∈ Ico lo hi, f i := by
  rw [← doLoop_add h s]
  unfold doLoop
  apply List.foldl_ext
  intro s i hi
  rw [List.mem_range'] at hi
  obtain ⟨k, _, rfl⟩ := hi
  congr 1
  omega

/-- The numbers that one set of indices adds. -/
def ArgsA.moment (x : ArgsA) (d : Dims) (i j k a b c : ℕ) : ℚ :=
  let x3 := x.x3a d i j k
  x3 a b c + x3 b c a + x3 c a b - x3 a c b - x3 b a c - x3 c b a
def ArgsA.left (x : ArgsA) (d : Dims) (i j k a b c : ℕ) : ℚ :=
  let l3 := x.l3a d i j k
  l3 a b c + l3 b c a + l3 c a b - l3 a c b - l3 b a c - l3 c b a + x.temp3 i j k a b c
def ArgsA.part (x : ArgsA) (d : Dims) (i j k a b c : ℕ) : Deltas :=
  let lm := x.moment d i j k a b c * x.left d i j k a b c
  (lm / x.denomA i j k a b c, lm / x.denomB i j k a b c, lm / x.denomC i j k a b c, lm / x.denomD i j k a b c)

theorem crcc23A_sum (d : Dims) (x : ArgsA) : crcc23A d x = ∑ i ∈ range d.oa, ∑ j ∈ Ico (i + 1) d.oa, ∑ k ∈ Ico (j + 1) d.oa, ∑ a ∈ range d.ua, ∑ b ∈ Ico (a + 1) d.ua, ∑ c ∈ Ico (b + 1) d.ua, x.part d (i + 1) (j + 1) (k + 1) (a + 1) (b + 1) (c + 1) := by
  unfold crcc23A
  simp only [Finset.range_eq_Ico]
  refine (doLoop_shift (lo := 0) (f := fun i => ∑ j ∈ Ico (i + 1) d.oa, ∑ k ∈ Ico (j + 1) d.oa, ∑ a ∈ Ico 0 d.ua, ∑ b ∈ Ico (a + 1) d.ua, ∑ c ∈ Ico (b + 1) d.ua, x.part d (i + 1) (j + 1) (k + 1) (a + 1) (b + 1) (c + 1)) (fun i s _ => ?_) _).trans (zero_add (M := Deltas) _)
  refine doLoop_shift (lo := (i + 1)) (f := fun j => ∑ k ∈ Ico (j + 1) d.oa, ∑ a ∈ Ico 0 d.ua, ∑ b ∈ Ico (a + 1) d.ua, ∑ c ∈ Ico (b + 1) d.ua, x.part d (i + 1) (j + 1) (k + 1) (a + 1) (b + 1) (c + 1)) (fun j s _ => ?_) _
  refine doLoop_shift (lo := (j + 1)) (f := fun k => ∑ a ∈ Ico 0 d.ua, ∑ b ∈ Ico (a + 1) d.ua, ∑ c ∈ Ico (b + 1) d.ua, x.part d (i + 1) (j + 1) (k + 1) (a + 1) (b + 1) (c + 1)) (fun k s _ => ?_) _
  refine doLoop_shift (lo := 0) (f := fun a => ∑ b ∈ Ico (a + 1) d.ua, ∑ c ∈ Ico (b + 1) d.ua, x.part d (i + 1) (j + 1) (k + 1) (a + 1) (b + 1) (c + 1)) (fun a s _ => ?_) _
  refine doLoop_shift (lo := (a + 1)) (f := fun b => ∑ c ∈ Ico (b + 1) d.ua, x.part d (i + 1) (j + 1) (k + 1) (a + 1) (b + 1) (c + 1)) (fun b s _ => ?_) _
  refine doLoop_shift (lo := (b + 1)) (f := fun c => x.part d (i + 1) (j + 1) (k + 1) (a + 1) (b + 1) (c + 1)) (fun c s _ => ?_) _
  rfl

/-- The numbers that one set of indices adds. -/
def ArgsB.moment (x : ArgsB) (d : Dims) (i j k a b c : ℕ) : ℚ :=
  let x3 := x.x3b d i j k
  x3 a b c - x3 b a c
def ArgsB.left (x : ArgsB) (d : Dims) (i j k a b c : ℕ) : ℚ :=
  let l3 := x.l3b d i j k
  l3 a b c - l3 b a c + x.temp3 i j k a b c
def ArgsB.part (x : ArgsB) (d : Dims) (i j k a b c : ℕ) : Deltas :=
  let lm := x.moment d i j k a b c * x.left d i j k a b c
  (lm / x.denomA i j k a b c, lm / x.denomB i j k a b c, lm / x.denomC i j k a b c, lm / x.denomD i j k a b c)

theorem crcc23B_sum (d : Dims) (x : ArgsB) : crcc23B d x = ∑ i ∈ range d.oa, ∑ j ∈ Ico (i + 1) d.oa, ∑ k ∈ range d.ob, ∑ a ∈ range d.ua, ∑ b ∈ Ico (a + 1) d.ua, ∑ c ∈ range d.ub, x.part d (i + 1) (j + 1) (k + 1) (a + 1) (b + 1) (c + 1) := by
  unfold crcc23B
  simp only [Finset.range_eq_Ico]
  refine (doLoop_shift (lo := 0) (f := fun i => ∑ j ∈ Ico (i + 1) d.oa, ∑ k ∈ Ico 0 d.ob, ∑ a ∈ Ico 0 d.ua, ∑ b ∈ Ico (a + 1) d.ua, ∑ c ∈ Ico 0 d.ub, x.part d (i + 1) (j + 1) (k + 1) (a + 1) (b + 1) (c + 1)) (fun i s _ => ?_) _).trans (zero_add (M := Deltas) _)
  refine doLoop_shift (lo := (i + 1)) (f := fun j => ∑ k ∈ Ico 0 d.ob, ∑ a ∈ Ico 0 d.ua, ∑ b ∈ Ico (a + 1) d.ua, ∑ c ∈ Ico 0 d.ub, x.part d (i + 1) (j + 1) (k + 1) (a + 1) (b + 1) (c + 1)) (fun j s _ => ?_) _
  refine doLoop_shift (lo := 0) (f := fun k => ∑ a ∈ Ico 0 d.ua, ∑ b ∈ Ico (a + 1) d.ua, ∑ c ∈ Ico 0 d.ub, x.part d (i + 1) (j + 1) (k + 1) (a + 1) (b + 1) (c + 1)) (fun k s _ => ?_) _
  refine doLoop_shift (lo := 0) (f := fun a => ∑ b ∈ Ico (a + 1) d.ua, ∑ c ∈ Ico 0 d.ub, x.part d (i + 1) (j + 1) (k + 1) (a + 1) (b + 1) (c + 1)) (fun a s _ => ?_) _
  refine doLoop_shift (lo := (a + 1)) (f := fun b => ∑ c ∈ Ico 0 d.ub, x.part d (i + 1) (j + 1) (k + 1) (a + 1) (b + 1) (c + 1)) (fun b s _ => ?_) _
  refine doLoop_shift (lo := 0) (f := fun c => x.part d (i + 1) (j + 1) (k + 1) (a + 1) (b + 1) (c + 1)) (fun c s _ => ?_) _
  rfl

/-- The numbers that one set of indices adds. -/
def ArgsC.moment (x : ArgsC) (d : Dims) (i j k a b c : ℕ) : ℚ :=
  let x3 := x.x3c d i j k
  x3 a b c - x3 a c b
def ArgsC.left (x : ArgsC) (d : Dims) (i j k a b c : ℕ) : ℚ :=
  let l3 := x.l3c d i j k
  l3 a b c - l3 a c b + x.temp3 i j k a b c
def ArgsC.part (x : ArgsC) (d : Dims) (i j k a b c : ℕ) : Deltas :=
  let lm := x.moment d i j k a b c * x.left d i j k a b c
  (lm / x.denomA i j k a b c, lm / x.denomB i j k a b c, lm / x.denomC i j k a b c, lm / x.denomD i j k a b c)

theorem crcc23C_sum (d : Dims) (x : ArgsC) : crcc23C d x = if d.oa < d.ob ∧ 0 < d.ub then none else some (∑ i ∈ range d.oa, ∑ j ∈ range d.ob, ∑ k ∈ Ico (j + 1) d.ob, ∑ a ∈ range d.ua, ∑ b ∈ range d.ub, ∑ c ∈ Ico (b + 1) d.ub, x.part d (i + 1) (j + 1) (k + 1) (a + 1) (b + 1) (c + 1)) := by
  unfold crcc23C
  simp only [Finset.range_eq_Ico]
  congr 2
  refine (doLoop_shift (lo := 0) (f := fun i => ∑ j ∈ Ico 0 d.ob, ∑ k ∈ Ico (j + 1) d.ob, ∑ a ∈ Ico 0 d.ua, ∑ b ∈ Ico 0 d.ub, ∑ c ∈ Ico (b + 1) d.ub, x.part d (i + 1) (j + 1) (k + 1) (a + 1) (b + 1) (c + 1)) (fun i s _ => ?_) _).trans (zero_add (M := Deltas) _)
  refine doLoop_shift (lo := 0) (f := fun j => ∑ k ∈ Ico (j + 1) d.ob, ∑ a ∈ Ico 0 d.ua, ∑ b ∈ Ico 0 d.ub, ∑ c ∈ Ico (b + 1) d.ub, x.part d (i + 1) (j + 1) (k + 1) (a + 1) (b + 1) (c + 1)) (fun j s _ => ?_) _
  refine doLoop_shift (lo := (j + 1)) (f := fun k => ∑ a ∈ Ico 0 d.ua, ∑ b ∈ Ico 0 d.ub, ∑ c ∈ Ico (b + 1) d.ub, x.part d (i + 1) (j + 1) (k + 1) (a + 1) (b + 1) (c + 1)) (fun k s _ => ?_) _
  refine doLoop_shift (lo := 0) (f := fun a => ∑ b ∈ Ico 0 d.ub, ∑ c ∈ Ico (b + 1) d.ub, x.part d (i + 1) (j + 1) (k + 1) (a + 1) (b + 1) (c + 1)) (fun a s _ => ?_) _
  refine doLoop_shift (lo := 0) (f := fun b => ∑ c ∈ Ico (b + 1) d.ub, x.part d (i + 1) (j + 1) (k + 1) (a + 1) (b + 1) (c + 1)) (fun b s _ => ?_) _
  refine doLoop_shift (lo := (b + 1)) (f := fun c => x.part d (i + 1) (j + 1) (k + 1) (a + 1) (b + 1) (c + 1)) (fun c s _ => ?_) _
  rfl

/-- The numbers that one set of indices adds. -/
def ArgsD.moment (x : ArgsD) (d : Dims) (i j k a b c : ℕ) : ℚ :=
  let x3 := x.x3d d i j k
  x3 a b c + x3 b c a + x3 c a b - x3 a c b - x3 b a c - x3 c b a
def ArgsD.left (x : ArgsD) (d : Dims) (i j k a b c : ℕ) : ℚ :=
  let l3 := x.l3d d i j k
  l3 a b c + l3 b c a + l3 c a b - l3 a c b - l3 b a c - l3 c b a + x.temp3 i j k a b c
def ArgsD.part (x : ArgsD) (d : Dims) (i j k a b c : ℕ) : Deltas :=
  let lm := x.moment d i j k a b c * x.left d i j k a b c
  (lm / x.denomA i j k a b c, lm / x.denomB i j k a b c, lm / x.denomC i j k a b c, lm / x.denomD i j k a b c)

theorem crcc23D_sum (d : Dims) (x : ArgsD) : crcc23D d x = ∑ i ∈ range d.ob, ∑ j ∈ Ico (i + 1) d.ob, ∑ k ∈ Ico (j + 1) d.ob, ∑ a ∈ range d.ub, ∑ b ∈ Ico (a + 1) d.ub, ∑ c ∈ Ico (b + 1) d.ub, x.part d (i + 1) (j + 1) (k + 1) (a + 1) (b + 1) (c + 1) := by
  unfold crcc23D
  simp only [Finset.range_eq_Ico]
  refine (doLoop_shift (lo := 0) (f := fun i => ∑ j ∈ Ico (i + 1) d.ob, ∑ k ∈ Ico (j + 1) d.ob, ∑ a ∈ Ico 0 d.ub, ∑ b ∈ Ico (a + 1) d.ub, ∑ c ∈ Ico (b + 1) d.ub, x.part d (i + 1) (j + 1) (k + 1) (a + 1) (b + 1) (c + 1)) (fun i s _ => ?_) _).trans (zero_add (M := Deltas) _)
  refine doLoop_shift (lo := (i + 1)) (f := fun j => ∑ k ∈ Ico (j + 1) d.ob, ∑ a ∈ Ico 0 d.ub, ∑ b ∈ Ico (a + 1) d.ub, ∑ c ∈ Ico (b + 1) d.ub, x.part d (i + 1) (j + 1) (k + 1) (a + 1) (b + 1) (c + 1)) (fun j s _ => ?_) _
  refine doLoop_shift (lo := (j + 1)) (f := fun k => ∑ a ∈ Ico 0 d.ub, ∑ b ∈ Ico (a + 1) d.ub, ∑ c ∈ Ico (b + 1) d.ub, x.part d (i + 1) (j + 1) (k + 1) (a + 1) (b + 1) (c + 1)) (fun k s _ => ?_) _
  refine doLoop_shift (lo := 0) (f := fun a => ∑ b ∈ Ico (a + 1) d.ub, ∑ c ∈ Ico (b + 1) d.ub, x.part d (i + 1) (j + 1) (k + 1) (a + 1) (b + 1) (c + 1)) (fun a s _ => ?_) _
  refine doLoop_shift (lo := (a + 1)) (f := fun b => ∑ c ∈ Ico (b + 1) d.ub, x.part d (i + 1) (j + 1) (k + 1) (a + 1) (b + 1) (c + 1)) (fun b s _ => ?_) _
  refine doLoop_shift (lo := (b + 1)) (f := fun c => x.part d (i + 1) (j + 1) (k + 1) (a + 1) (b + 1) (c + 1)) (fun c s _ => ?_) _
  rfl

end Ccpy.CrCc
