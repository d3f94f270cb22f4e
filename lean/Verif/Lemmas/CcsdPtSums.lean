import Verif.Model.CcsdPt
import Verif.Lemmas.CrCcSums

/-! The loops of the CCSD(T) kernels as sums over ordered indices. -/

namespace Ccpy.CrCc
open Ccpy.PSpace Ccpy.Fortran
open Finset (range Ico)

/-- The numbers that one set of indices adds. -/
def PtA.moment (x : PtA) (d : Dims) (i j k a b c : ℕ) : ℚ :=
  let x3 := x.x3a d i j k
  x3 a b c + x3 b c a + x3 c a b - x3 a c b - x3 b a c - x3 c b a
def PtA.left (x : PtA) (d : Dims) (i j k a b c : ℕ) : ℚ :=
  x.moment d i j k a b c + (x.temp3 i j k a b c + x.temp3f i j k a b c)
def PtA.part (x : PtA) (d : Dims) (i j k a b c : ℕ) : ℚ :=
  x.moment d i j k a b c * x.left d i j k a b c / x.denom i j k a b c

theorem ccsdptA_sum (d : Dims) (x : PtA) : ccsdptA d x = ∑ i ∈ range d.oa, ∑ j ∈ Ico (i + 1) d.oa, ∑ k ∈ Ico (j + 1) d.oa, ∑ a ∈ range d.ua, ∑ b ∈ Ico (a + 1) d.ua, ∑ c ∈ Ico (b + 1) d.ua, x.part d (i + 1) (j + 1) (k + 1) (a + 1) (b + 1) (c + 1) := by
  unfold ccsdptA
  simp only [Finset.range_eq_Ico]
  refine (doLoop_shift (lo := 0) (f := fun i => ∑ j ∈ Ico (i + 1) d.oa, ∑ k ∈ Ico (j + 1) d.oa, ∑ a ∈ Ico 0 d.ua, ∑ b ∈ Ico (a + 1) d.ua, ∑ c ∈ Ico (b + 1) d.ua, x.part d (i + 1) (j + 1) (k + 1) (a + 1) (b + 1) (c + 1)) (fun i s _ => ?_) _).trans (zero_add _)
  refine doLoop_shift (lo := (i + 1)) (f := fun j => ∑ k ∈ Ico (j + 1) d.oa, ∑ a ∈ Ico 0 d.ua, ∑ b ∈ Ico (a + 1) d.ua, ∑ c ∈ Ico (b + 1) d.ua, x.part d (i + 1) (j + 1) (k + 1) (a + 1) (b + 1) (c + 1)) (fun j s _ => ?_) _
  refine doLoop_shift (lo := (j + 1)) (f := fun k => ∑ a ∈ Ico 0 d.ua, ∑ b ∈ Ico (a + 1) d.ua, ∑ c ∈ Ico (b + 1) d.ua, x.part d (i + 1) (j + 1) (k + 1) (a + 1) (b + 1) (c + 1)) (fun k s _ => ?_) _
  refine doLoop_shift (lo := 0) (f := fun a => ∑ b ∈ Ico (a + 1) d.ua, ∑ c ∈ Ico (b + 1) d.ua, x.part d (i + 1) (j + 1) (k + 1) (a + 1) (b + 1) (c + 1)) (fun a s _ => ?_) _
  refine doLoop_shift (lo := (a + 1)) (f := fun b => ∑ c ∈ Ico (b + 1) d.ua, x.part d (i + 1) (j + 1) (k + 1) (a + 1) (b + 1) (c + 1)) (fun b s _ => ?_) _
  refine doLoop_shift (lo := (b + 1)) (f := fun c => x.part d (i + 1) (j + 1) (k + 1) (a + 1) (b + 1) (c + 1)) (fun c s _ => ?_) _
  rfl

/-- The numbers that one set of indices adds. -/
def PtB.moment (x : PtB) (d : Dims) (i j k a b c : ℕ) : ℚ :=
  let x3 := x.x3b d i j k
  x3 a b c - x3 b a c
def PtB.left (x : PtB) (d : Dims) (i j k a b c : ℕ) : ℚ :=
  x.moment d i j k a b c + (x.temp3 i j k a b c + x.temp3f i j k a b c)
def PtB.part (x : PtB) (d : Dims) (i j k a b c : ℕ) : ℚ :=
  x.moment d i j k a b c * x.left d i j k a b c / x.denom i j k a b c

theorem ccsdptB_sum (d : Dims) (x : PtB) : ccsdptB d x = ∑ i ∈ range d.oa, ∑ j ∈ Ico (i + 1) d.oa, ∑ k ∈ range d.ob, ∑ a ∈ range d.ua, ∑ b ∈ Ico (a + 1) d.ua, ∑ c ∈ range d.ub, x.part d (i + 1) (j + 1) (k + 1) (a + 1) (b + 1) (c + 1) := by
  unfold ccsdptB
  simp only [Finset.range_eq_Ico]
  refine (doLoop_shift (lo := 0) (f := fun i => ∑ j ∈ Ico (i + 1) d.oa, ∑ k ∈ Ico 0 d.ob, ∑ a ∈ Ico 0 d.ua, ∑ b ∈ Ico (a + 1) d.ua, ∑ c ∈ Ico 0 d.ub, x.part d (i + 1) (j + 1) (k + 1) (a + 1) (b + 1) (c + 1)) (fun i s _ => ?_) _).trans (zero_add _)
  refine doLoop_shift (lo := (i + 1)) (f := fun j => ∑ k ∈ Ico 0 d.ob, ∑ a ∈ Ico 0 d.ua, ∑ b ∈ Ico (a + 1) d.ua, ∑ c ∈ Ico 0 d.ub, x.part d (i + 1) (j + 1) (k + 1) (a + 1) (b + 1) (c + 1)) (fun j s _ => ?_) _
  refine doLoop_shift (lo := 0) (f := fun k => ∑ a ∈ Ico 0 d.ua, ∑ b ∈ Ico (a + 1) d.ua, ∑ c ∈ Ico 0 d.ub, x.part d (i + 1) (j + 1) (k + 1) (a + 1) (b + 1) (c + 1)) (fun k s _ => ?_) _
  refine doLoop_shift (lo := 0) (f := fun a => ∑ b ∈ Ico (a + 1) d.ua, ∑ c ∈ Ico 0 d.ub, x.part d (i + 1) (j + 1) (k + 1) (a + 1) (b + 1) (c + 1)) (fun a s _ => ?_) _
  refine doLoop_shift (lo := (a + 1)) (f := fun b => ∑ c ∈ Ico 0 d.ub, x.part d (i + 1) (j + 1) (k + 1) (a + 1) (b + 1) (c + 1)) (fun b s _ => ?_) _
  refine doLoop_shift (lo := 0) (f := fun c => x.part d (i + 1) (j + 1) (k + 1) (a + 1) (b + 1) (c + 1)) (fun c s _ => ?_) _
  rfl

/-- The numbers that one set of indices adds. -/
def PtC.moment (x : PtC) (d : Dims) (i j k a b c : ℕ) : ℚ :=
  let x3 := x.x3c d i j k
  x3 a b c - x3 a c b
def PtC.left (x : PtC) (d : Dims) (i j k a b c : ℕ) : ℚ :=
  x.moment d i j k a b c + (x.temp3 i j k a b c + x.temp3f i j k a b c)
def PtC.part (x : PtC) (d : Dims) (i j k a b c : ℕ) : ℚ :=
  x.moment d i j k a b c * x.left d i j k a b c / x.denom i j k a b c

theorem ccsdptC_sum (d : Dims) (x : PtC) : ccsdptC d x = if d.oa < d.ob ∧ 0 < d.ub then none else some (∑ i ∈ range d.oa, ∑ j ∈ range d.ob, ∑ k ∈ Ico (j + 1) d.ob, ∑ a ∈ range d.ua, ∑ b ∈ range d.ub, ∑ c ∈ Ico (b + 1) d.ub, x.part d (i + 1) (j + 1) (k + 1) (a + 1) (b + 1) (c + 1)) := by
  unfold ccsdptC
  simp only [Finset.range_eq_Ico]
  congr 2
  refine (doLoop_shift (lo := 0) (f := fun i => ∑ j ∈ Ico 0 d.ob, ∑ k ∈ Ico (j + 1) d.ob, ∑ a ∈ Ico 0 d.ua, ∑ b ∈ Ico 0 d.ub, ∑ c ∈ Ico (b + 1) d.ub, x.part d (i + 1) (j + 1) (k + 1) (a + 1) (b + 1) (c + 1)) (fun i s _ => ?_) _).trans (zero_add _)
  refine doLoop_shift (lo := 0) (f := fun j => ∑ k ∈ Ico (j + 1) d.ob, ∑ a ∈ Ico 0 d.ua, ∑ b ∈ Ico 0 d.ub, ∑ c ∈ Ico (b + 1) d.ub, x.part d (i + 1) (j + 1) (k + 1) (a + 1) (b + 1) (c + 1)) (fun j s _ => ?_) _
  refine doLoop_shift (lo := (j + 1)) (f := fun k => ∑ a ∈ Ico 0 d.ua, ∑ b ∈ Ico 0 d.ub, ∑ c ∈ Ico (b + 1) d.ub, x.part d (i + 1) (j + 1) (k + 1) (a + 1) (b + 1) (c + 1)) (fun k s _ => ?_) _
  refine doLoop_shift (lo := 0) (f := fun a => ∑ b ∈ Ico 0 d.ub, ∑ c ∈ Ico (b + 1) d.ub, x.part d (i + 1) (j + 1) (k + 1) (a + 1) (b + 1) (c + 1)) (fun a s _ => ?_) _
  refine doLoop_shift (lo := 0) (f := fun b => ∑ c ∈ Ico (b + 1) d.ub, x.part d (i + 1) (j + 1) (k + 1) (a + 1) (b + 1) (c + 1)) (fun b s _ => ?_) _
  refine doLoop_shift (lo := (b + 1)) (f := fun c => x.part d (i + 1) (j + 1) (k + 1) (a + 1) (b + 1) (c + 1)) (fun c s _ => ?_) _
  rfl

/-- The numbers that one set of indices adds. -/
def PtD.moment (x : PtD) (d : Dims) (i j k a b c : ℕ) : ℚ :=
  let x3 := x.x3d d i j k
  x3 a b c + x3 b c a + x3 c a b - x3 a c b - x3 b a c - x3 c b a
def PtD.left (x : PtD) (d : Dims) (i j k a b c : ℕ) : ℚ :=
  x.moment d i j k a b c + (x.temp3 i j k a b c + x.temp3f i j k a b c)
def PtD.part (x : PtD) (d : Dims) (i j k a b c : ℕ) : ℚ :=
  x.moment d i j k a b c * x.left d i j k a b c / x.denom i j k a b c

theorem ccsdptD_sum (d : Dims) (x : PtD) : ccsdptD d x = ∑ i ∈ range d.ob, ∑ j ∈ Ico (i + 1) d.ob, ∑ k ∈ Ico (j + 1) d.ob, ∑ a ∈ range d.ub, ∑ b ∈ Ico (a + 1) d.ub, ∑ c ∈ Ico (b + 1) d.ub, x.part d (i + 1) (j + 1) (k + 1) (a + 1) (b + 1) (c + 1) := by
  unfold ccsdptD
  simp only [Finset.range_eq_Ico]
  refine (doLoop_shift (lo := 0) (f := fun i => ∑ j ∈ Ico (i + 1) d.ob, ∑ k ∈ Ico (j + 1) d.ob, ∑ a ∈ Ico 0 d.ub, ∑ b ∈ Ico (a + 1) d.ub, ∑ c ∈ Ico (b + 1) d.ub, x.part d (i + 1) (j + 1) (k + 1) (a + 1) (b + 1) (c + 1)) (fun i s _ => ?_) _).trans (zero_add _)
  refine doLoop_shift (lo := (i + 1)) (f := fun j => ∑ k ∈ Ico (j + 1) d.ob, ∑ a ∈ Ico 0 d.ub, ∑ b ∈ Ico (a + 1) d.ub, ∑ c ∈ Ico (b + 1) d.ub, x.part d (i + 1) (j + 1) (k + 1) (a + 1) (b + 1) (c + 1)) (fun j s _ => ?_) _
  refine doLoop_shift (lo := (j + 1)) (f := fun k => ∑ a ∈ Ico 0 d.ub, ∑ b ∈ Ico (a + 1) d.ub, ∑ c ∈ Ico (b + 1) d.ub, x.part d (i + 1) (j + 1) (k + 1) (a + 1) (b + 1) (c + 1)) (fun k s _ => ?_) _
  refine doLoop_shift (lo := 0) (f := fun a => ∑ b ∈ Ico (a + 1) d.ub, ∑ c ∈ Ico (b + 1) d.ub, x.part d (i + 1) (j + 1) (k + 1) (a + 1) (b + 1) (c + 1)) (fun a s _ => ?_) _
  refine doLoop_shift (lo := (a + 1)) (f := fun b => ∑ c ∈ Ico (b + 1) d.ub, x.part d (i + 1) (j + 1) (k + 1) (a + 1) (b + 1) (c + 1)) (fun b s _ => ?_) _
  refine doLoop_shift (lo := (b + 1)) (f := fun c => x.part d (i + 1) (j + 1) (k + 1) (a + 1) (b + 1) (c + 1)) (fun c s _ => ?_) _
  rfl

end Ccpy.CrCc
