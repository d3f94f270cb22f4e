import Verif.Lemmas.Mp3Values

/-! The loops of `mp3` compute the projections of the third-order energy. -/

namespace Ccpy.Mp3
open Ccpy.Fock Ccpy.Tensor Ccpy.Engine Ccpy.HbarCcsd Ccpy.PSpace Ccpy.Ccsd Ccpy.Fortran
open Finset (range Ico)

variable {ι : Type*} [LinearOrder ι]

/-- The arrays hold the amplitudes of `T`, with indices that start at one. -/
structure Holds1 (S : Orbitals ι) (T : Cluster) (t2a t2b t2c : Arr4) : Prop where
  a : ∀ p q r s, p < S.ua → q < S.ua → r < S.na → s < S.na → t2a (p + 1) (q + 1) (r + 1) (s + 1) = T.tAA p q r s
  b : ∀ p q r s, p < S.ua → q < S.ub → r < S.na → s < S.nb → t2b (p + 1) (q + 1) (r + 1) (s + 1) = T.tAB p q r s
  c : ∀ p q r s, p < S.ub → q < S.ub → r < S.nb → s < S.nb → t2c (p + 1) (q + 1) (r + 1) (s + 1) = T.tBB p q r s

theorem four_terms (t p q r s : ℚ) : t + p - q - r + s = t + (p - q - r + s) := by ring

theorem diagonal_zero {x : ℚ} (h : x = -x) : x = 0 := by linarith

section
variable {S : Orbitals ι} {Z : Fock.Integrals} (hZ : Z.Antisym) {T : Cluster} (hT : T.Antisym) (shift : ℚ) (mem : Memory)
  {t2a t2b t2c : Arr4} (ht : Holds1 S T t2a t2b t2c) {a b i j : ℕ}
include hZ hT ht

theorem amp_a (ha : a < S.ua) (hb : b < S.ua) (hi : i < S.na) (hj : j < S.na) :
    ampA (argsMp3 (setup S Z shift) mem stored) (PSpace.dimsOf (setup S Z shift)) t2a t2b (a + 1) (b + 1) (i + 1) (j + 1)
      = value S Z (Cluster.store [T]) (m2a amplitudes stored) [a, b, i, j] := by
  have e0 : ∑ m ∈ range S.na, ∑ n ∈ Ico (m + 1) S.na, (Z.vAA m n i j * t2a (a + 1) (b + 1) (m + 1) (n + 1))
      = 1 / 2 * ∑ m ∈ range S.na, ∑ n ∈ range S.na, (Z.vAA m n i j * T.tAA a b m n) := by
    rw [half_pairs (F := fun m n => Z.vAA m n i j * T.tAA a b m n) (fun x y => by rw [(hZ.aa _ _ _ _).1, (hT.aa _ _ _ _).2, neg_mul_neg]) (fun x => by rw [diagonal_zero (hZ.aa _ _ _ _).1, zero_mul])]
    exact Finset.sum_congr rfl fun m m_ => Finset.sum_congr rfl fun n n_ => by
      have hm := Finset.mem_range.1 m_
      have hn := (Finset.mem_Ico.1 n_).2
      rw [ht.a a b m n ha hb hm hn]
  have e1 : ∑ e ∈ range S.ua, ∑ f ∈ Ico (e + 1) S.ua, (Z.vAA (S.na + a) (S.na + b) (S.na + e) (S.na + f) * t2a (e + 1) (f + 1) (i + 1) (j + 1))
      = 1 / 2 * ∑ e ∈ range S.ua, ∑ f ∈ range S.ua, (Z.vAA (S.na + a) (S.na + b) (S.na + e) (S.na + f) * T.tAA e f i j) := by
    rw [half_pairs (F := fun e f => Z.vAA (S.na + a) (S.na + b) (S.na + e) (S.na + f) * T.tAA e f i j) (fun x y => by rw [(hZ.aa _ _ _ _).2, (hT.aa _ _ _ _).1, neg_mul_neg]) (fun x => by rw [diagonal_zero (hZ.aa _ _ _ _).2, zero_mul])]
    exact Finset.sum_congr rfl fun e e_ => Finset.sum_congr rfl fun f f_ => by
      have he := Finset.mem_range.1 e_
      have hf := (Finset.mem_Ico.1 f_).2
      rw [ht.a e f i j he hf hi hj]
  have e2 : ∑ e ∈ range S.ua, ∑ m ∈ range S.na, (Z.vAA (S.na + a) m i (S.na + e) * t2a (e + 1) (b + 1) (m + 1) (j + 1) - Z.vAA (S.na + b) m i (S.na + e) * t2a (e + 1) (a + 1) (m + 1) (j + 1) - Z.vAA (S.na + a) m j (S.na + e) * t2a (e + 1) (b + 1) (m + 1) (i + 1) + Z.vAA (S.na + b) m j (S.na + e) * t2a (e + 1) (a + 1) (m + 1) (i + 1))
      = ∑ m ∈ range S.na, ∑ e ∈ range S.ua, (Z.vAA (S.na + a) m i (S.na + e) * T.tAA e b m j - Z.vAA (S.na + b) m i (S.na + e) * T.tAA e a m j - Z.vAA (S.na + a) m j (S.na + e) * T.tAA e b m i + Z.vAA (S.na + b) m j (S.na + e) * T.tAA e a m i) := by
    rw [Finset.sum_comm (s := range S.na)]
    exact Finset.sum_congr rfl fun e e_ => Finset.sum_congr rfl fun m m_ => by
      have he := Finset.mem_range.1 e_
      have hm := Finset.mem_range.1 m_
      rw [ht.a e b m j he hb hm hj, ht.a e a m j he ha hm hj, ht.a e b m i he hb hm hi, ht.a e a m i he ha hm hi]
  have e3 : ∑ e ∈ range S.ub, ∑ m ∈ range S.nb, (Z.vAB (S.na + a) m i (S.nb + e) * t2b (b + 1) (e + 1) (j + 1) (m + 1) - Z.vAB (S.na + b) m i (S.nb + e) * t2b (a + 1) (e + 1) (j + 1) (m + 1) - Z.vAB (S.na + a) m j (S.nb + e) * t2b (b + 1) (e + 1) (i + 1) (m + 1) + Z.vAB (S.na + b) m j (S.nb + e) * t2b (a + 1) (e + 1) (i + 1) (m + 1))
      = ∑ m ∈ range S.nb, ∑ e ∈ range S.ub, (Z.vAB (S.na + a) m i (S.nb + e) * T.tAB b e j m - Z.vAB (S.na + b) m i (S.nb + e) * T.tAB a e j m - Z.vAB (S.na + a) m j (S.nb + e) * T.tAB b e i m + Z.vAB (S.na + b) m j (S.nb + e) * T.tAB a e i m) := by
    rw [Finset.sum_comm (s := range S.nb)]
    exact Finset.sum_congr rfl fun e e_ => Finset.sum_congr rfl fun m m_ => by
      have he := Finset.mem_range.1 e_
      have hm := Finset.mem_range.1 m_
      rw [ht.b b e j m hb he hj hm, ht.b a e j m ha he hj hm, ht.b b e i m hb he hi hm, ht.b a e i m ha he hi hm]
  have d₁ : (PSpace.dimsOf (setup S Z shift)).oa = S.na := rfl
  have d₂ : (PSpace.dimsOf (setup S Z shift)).ua = S.ua := rfl
  have d₃ : (PSpace.dimsOf (setup S Z shift)).ob = S.nb := rfl
  have d₄ : (PSpace.dimsOf (setup S Z shift)).ub = S.ub := rfl
  have l : ampA (argsMp3 (setup S Z shift) mem stored) (PSpace.dimsOf (setup S Z shift)) t2a t2b (a + 1) (b + 1) (i + 1) (j + 1) = _ :=
    (loop_two (f := fun e m => Z.vAB (S.na + a) m i (S.nb + e) * t2b (b + 1) (e + 1) (j + 1) (m + 1) - Z.vAB (S.na + b) m i (S.nb + e) * t2b (a + 1) (e + 1) (j + 1) (m + 1) - Z.vAB (S.na + a) m j (S.nb + e) * t2b (b + 1) (e + 1) (i + 1) (m + 1) + Z.vAB (S.na + b) m j (S.nb + e) * t2b (a + 1) (e + 1) (i + 1) (m + 1)) (fun _ _ _ => four_terms _ _ _ _ _) _).trans (congrArg (· + _) ((loop_two (f := fun e m => Z.vAA (S.na + a) m i (S.na + e) * t2a (e + 1) (b + 1) (m + 1) (j + 1) - Z.vAA (S.na + b) m i (S.na + e) * t2a (e + 1) (a + 1) (m + 1) (j + 1) - Z.vAA (S.na + a) m j (S.na + e) * t2a (e + 1) (b + 1) (m + 1) (i + 1) + Z.vAA (S.na + b) m j (S.na + e) * t2a (e + 1) (a + 1) (m + 1) (i + 1)) (fun _ _ _ => four_terms _ _ _ _ _) _).trans (congrArg (· + _) ((loop_pair (f := fun e f => Z.vAA (S.na + a) (S.na + b) (S.na + e) (S.na + f) * t2a (e + 1) (f + 1) (i + 1) (j + 1)) (fun _ _ _ => rfl) _).trans (congrArg (· + _) ((loop_pair (f := fun m n => Z.vAA m n i j * t2a (a + 1) (b + 1) (m + 1) (n + 1)) (fun _ _ _ => rfl) _)))))))
  rw [d₁, d₂, d₃, d₄] at l
  rw [l, e0, e1, e2, e3, m2a_value]
  simp only [Finset.sum_add_distrib, Finset.sum_sub_distrib, Finset.sum_neg_distrib]
  ring

theorem amp_b (ha : a < S.ua) (hb : b < S.ub) (hi : i < S.na) (hj : j < S.nb) :
    ampB (argsMp3 (setup S Z shift) mem stored) (PSpace.dimsOf (setup S Z shift)) t2a t2b t2c (a + 1) (b + 1) (i + 1) (j + 1)
      = value S Z (Cluster.store [T]) (m2b amplitudes stored) [a, b, i, j] := by
  have e0 : ∑ m ∈ range S.na, ∑ n ∈ range S.nb, (Z.vAB m n i j * t2b (a + 1) (b + 1) (m + 1) (n + 1))
      = ∑ m ∈ range S.na, ∑ n ∈ range S.nb, (Z.vAB m n i j * T.tAB a b m n) :=
    Finset.sum_congr rfl fun m m_ => Finset.sum_congr rfl fun n n_ => by
      have hm := Finset.mem_range.1 m_
      have hn := Finset.mem_range.1 n_
      rw [ht.b a b m n ha hb hm hn]
  have e1 : ∑ e ∈ range S.ua, ∑ f ∈ range S.ub, (Z.vAB (S.na + a) (S.nb + b) (S.na + e) (S.nb + f) * t2b (e + 1) (f + 1) (i + 1) (j + 1))
      = ∑ e ∈ range S.ua, ∑ f ∈ range S.ub, (Z.vAB (S.na + a) (S.nb + b) (S.na + e) (S.nb + f) * T.tAB e f i j) :=
    Finset.sum_congr rfl fun e e_ => Finset.sum_congr rfl fun f f_ => by
      have he := Finset.mem_range.1 e_
      have hf := Finset.mem_range.1 f_
      rw [ht.b e f i j he hf hi hj]
  have e2 : ∑ e ∈ range S.ua, ∑ m ∈ range S.na, (Z.vAA (S.na + a) m i (S.na + e) * t2b (e + 1) (b + 1) (m + 1) (j + 1))
      = ∑ m ∈ range S.na, ∑ e ∈ range S.ua, (Z.vAA (S.na + a) m i (S.na + e) * T.tAB e b m j) := by
    rw [Finset.sum_comm (s := range S.na)]
    exact Finset.sum_congr rfl fun e e_ => Finset.sum_congr rfl fun m m_ => by
      have he := Finset.mem_range.1 e_
      have hm := Finset.mem_range.1 m_
      rw [ht.b e b m j he hb hm hj]
  have e3 : ∑ e ∈ range S.ub, ∑ m ∈ range S.nb, (Z.vBB (S.nb + b) m j (S.nb + e) * t2b (a + 1) (e + 1) (i + 1) (m + 1))
      = ∑ m ∈ range S.nb, ∑ e ∈ range S.ub, (Z.vBB (S.nb + b) m j (S.nb + e) * T.tAB a e i m) := by
    rw [Finset.sum_comm (s := range S.nb)]
    exact Finset.sum_congr rfl fun e e_ => Finset.sum_congr rfl fun m m_ => by
      have he := Finset.mem_range.1 e_
      have hm := Finset.mem_range.1 m_
      rw [ht.b a e i m ha he hi hm]
  have e4 : ∑ e ∈ range S.ua, ∑ m ∈ range S.na, (Z.vAB m (S.nb + b) (S.na + e) j * t2a (a + 1) (e + 1) (i + 1) (m + 1))
      = ∑ m ∈ range S.na, ∑ e ∈ range S.ua, (Z.vAB m (S.nb + b) (S.na + e) j * T.tAA a e i m) := by
    rw [Finset.sum_comm (s := range S.na)]
    exact Finset.sum_congr rfl fun e e_ => Finset.sum_congr rfl fun m m_ => by
      have he := Finset.mem_range.1 e_
      have hm := Finset.mem_range.1 m_
      rw [ht.a a e i m ha he hi hm]
  have e5 : ∑ e ∈ range S.ub, ∑ m ∈ range S.nb, (Z.vAB (S.na + a) m i (S.nb + e) * t2c (b + 1) (e + 1) (j + 1) (m + 1))
      = ∑ m ∈ range S.nb, ∑ e ∈ range S.ub, (Z.vAB (S.na + a) m i (S.nb + e) * T.tBB b e j m) := by
    rw [Finset.sum_comm (s := range S.nb)]
    exact Finset.sum_congr rfl fun e e_ => Finset.sum_congr rfl fun m m_ => by
      have he := Finset.mem_range.1 e_
      have hm := Finset.mem_range.1 m_
      rw [ht.c b e j m hb he hj hm]
  have e6 : ∑ e ∈ range S.ub, ∑ m ∈ range S.na, (-(Z.vAB m (S.nb + b) i (S.nb + e) * t2b (a + 1) (e + 1) (m + 1) (j + 1)))
      = ∑ m ∈ range S.na, ∑ e ∈ range S.ub, (-(Z.vAB m (S.nb + b) i (S.nb + e) * T.tAB a e m j)) := by
    rw [Finset.sum_comm (s := range S.na)]
    exact Finset.sum_congr rfl fun e e_ => Finset.sum_congr rfl fun m m_ => by
      have he := Finset.mem_range.1 e_
      have hm := Finset.mem_range.1 m_
      rw [ht.b a e m j ha he hm hj]
  have e7 : ∑ e ∈ range S.ua, ∑ m ∈ range S.nb, (-(Z.vAB (S.na + a) m (S.na + e) j * t2b (e + 1) (b + 1) (i + 1) (m + 1)))
      = ∑ m ∈ range S.nb, ∑ e ∈ range S.ua, (-(Z.vAB (S.na + a) m (S.na + e) j * T.tAB e b i m)) := by
    rw [Finset.sum_comm (s := range S.nb)]
    exact Finset.sum_congr rfl fun e e_ => Finset.sum_congr rfl fun m m_ => by
      have he := Finset.mem_range.1 e_
      have hm := Finset.mem_range.1 m_
      rw [ht.b e b i m he hb hi hm]
  have d₁ : (PSpace.dimsOf (setup S Z shift)).oa = S.na := rfl
  have d₂ : (PSpace.dimsOf (setup S Z shift)).ua = S.ua := rfl
  have d₃ : (PSpace.dimsOf (setup S Z shift)).ob = S.nb := rfl
  have d₄ : (PSpace.dimsOf (setup S Z shift)).ub = S.ub := rfl
  have l : ampB (argsMp3 (setup S Z shift) mem stored) (PSpace.dimsOf (setup S Z shift)) t2a t2b t2c (a + 1) (b + 1) (i + 1) (j + 1) = _ :=
    (loop_two (f := fun e m => -(Z.vAB (S.na + a) m (S.na + e) j * t2b (e + 1) (b + 1) (i + 1) (m + 1))) (fun _ _ _ => sub_eq_add_neg _ _) _).trans (congrArg (· + _) ((loop_two (f := fun e m => -(Z.vAB m (S.nb + b) i (S.nb + e) * t2b (a + 1) (e + 1) (m + 1) (j + 1))) (fun _ _ _ => sub_eq_add_neg _ _) _).trans (congrArg (· + _) ((loop_two (f := fun e m => Z.vAB (S.na + a) m i (S.nb + e) * t2c (b + 1) (e + 1) (j + 1) (m + 1)) (fun _ _ _ => rfl) _).trans (congrArg (· + _) ((loop_two (f := fun e m => Z.vAB m (S.nb + b) (S.na + e) j * t2a (a + 1) (e + 1) (i + 1) (m + 1)) (fun _ _ _ => rfl) _).trans (congrArg (· + _) ((loop_two (f := fun e m => Z.vBB (S.nb + b) m j (S.nb + e) * t2b (a + 1) (e + 1) (i + 1) (m + 1)) (fun _ _ _ => rfl) _).trans (congrArg (· + _) ((loop_two (f := fun e m => Z.vAA (S.na + a) m i (S.na + e) * t2b (e + 1) (b + 1) (m + 1) (j + 1)) (fun _ _ _ => rfl) _).trans (congrArg (· + _) ((loop_two (f := fun e f => Z.vAB (S.na + a) (S.nb + b) (S.na + e) (S.nb + f) * t2b (e + 1) (f + 1) (i + 1) (j + 1)) (fun _ _ _ => rfl) _).trans (congrArg (· + _) ((loop_two (f := fun m n => Z.vAB m n i j * t2b (a + 1) (b + 1) (m + 1) (n + 1)) (fun _ _ _ => rfl) _)))))))))))))))
  rw [d₁, d₂, d₃, d₄] at l
  rw [l, e0, e1, e2, e3, e4, e5, e6, e7, m2b_value]
  simp only [Finset.sum_add_distrib, Finset.sum_sub_distrib, Finset.sum_neg_distrib]
  ring

theorem amp_c (ha : a < S.ub) (hb : b < S.ub) (hi : i < S.nb) (hj : j < S.nb) :
    ampC (argsMp3 (setup S Z shift) mem stored) (PSpace.dimsOf (setup S Z shift)) t2b t2c (a + 1) (b + 1) (i + 1) (j + 1)
      = value S Z (Cluster.store [T]) (m2c amplitudes stored) [a, b, i, j] := by
  have e0 : ∑ m ∈ range S.nb, ∑ n ∈ Ico (m + 1) S.nb, (Z.vBB m n i j * t2c (a + 1) (b + 1) (m + 1) (n + 1))
      = 1 / 2 * ∑ m ∈ range S.nb, ∑ n ∈ range S.nb, (Z.vBB m n i j * T.tBB a b m n) := by
    rw [half_pairs (F := fun m n => Z.vBB m n i j * T.tBB a b m n) (fun x y => by rw [(hZ.bb _ _ _ _).1, (hT.bb _ _ _ _).2, neg_mul_neg]) (fun x => by rw [diagonal_zero (hZ.bb _ _ _ _).1, zero_mul])]
    exact Finset.sum_congr rfl fun m m_ => Finset.sum_congr rfl fun n n_ => by
      have hm := Finset.mem_range.1 m_
      have hn := (Finset.mem_Ico.1 n_).2
      rw [ht.c a b m n ha hb hm hn]
  have e1 : ∑ e ∈ range S.ub, ∑ f ∈ Ico (e + 1) S.ub, (Z.vBB (S.nb + a) (S.nb + b) (S.nb + e) (S.nb + f) * t2c (e + 1) (f + 1) (i + 1) (j + 1))
      = 1 / 2 * ∑ e ∈ range S.ub, ∑ f ∈ range S.ub, (Z.vBB (S.nb + a) (S.nb + b) (S.nb + e) (S.nb + f) * T.tBB e f i j) := by
    rw [half_pairs (F := fun e f => Z.vBB (S.nb + a) (S.nb + b) (S.nb + e) (S.nb + f) * T.tBB e f i j) (fun x y => by rw [(hZ.bb _ _ _ _).2, (hT.bb _ _ _ _).1, neg_mul_neg]) (fun x => by rw [diagonal_zero (hZ.bb _ _ _ _).2, zero_mul])]
    exact Finset.sum_congr rfl fun e e_ => Finset.sum_congr rfl fun f f_ => by
      have he := Finset.mem_range.1 e_
      have hf := (Finset.mem_Ico.1 f_).2
      rw [ht.c e f i j he hf hi hj]
  have e2 : ∑ e ∈ range S.ub, ∑ m ∈ range S.nb, (Z.vBB (S.nb + a) m i (S.nb + e) * t2c (e + 1) (b + 1) (m + 1) (j + 1) - Z.vBB (S.nb + b) m i (S.nb + e) * t2c (e + 1) (a + 1) (m + 1) (j + 1) - Z.vBB (S.nb + a) m j (S.nb + e) * t2c (e + 1) (b + 1) (m + 1) (i + 1) + Z.vBB (S.nb + b) m j (S.nb + e) * t2c (e + 1) (a + 1) (m + 1) (i + 1))
      = ∑ m ∈ range S.nb, ∑ e ∈ range S.ub, (Z.vBB (S.nb + a) m i (S.nb + e) * T.tBB e b m j - Z.vBB (S.nb + b) m i (S.nb + e) * T.tBB e a m j - Z.vBB (S.nb + a) m j (S.nb + e) * T.tBB e b m i + Z.vBB (S.nb + b) m j (S.nb + e) * T.tBB e a m i) := by
    rw [Finset.sum_comm (s := range S.nb)]
    exact Finset.sum_congr rfl fun e e_ => Finset.sum_congr rfl fun m m_ => by
      have he := Finset.mem_range.1 e_
      have hm := Finset.mem_range.1 m_
      rw [ht.c e b m j he hb hm hj, ht.c e a m j he ha hm hj, ht.c e b m i he hb hm hi, ht.c e a m i he ha hm hi]
  have e3 : ∑ e ∈ range S.ua, ∑ m ∈ range S.na, (Z.vAB m (S.nb + a) (S.na + e) i * t2b (e + 1) (b + 1) (m + 1) (j + 1) - Z.vAB m (S.nb + b) (S.na + e) i * t2b (e + 1) (a + 1) (m + 1) (j + 1) - Z.vAB m (S.nb + a) (S.na + e) j * t2b (e + 1) (b + 1) (m + 1) (i + 1) + Z.vAB m (S.nb + b) (S.na + e) j * t2b (e + 1) (a + 1) (m + 1) (i + 1))
      = ∑ m ∈ range S.na, ∑ e ∈ range S.ua, (Z.vAB m (S.nb + a) (S.na + e) i * T.tAB e b m j - Z.vAB m (S.nb + b) (S.na + e) i * T.tAB e a m j - Z.vAB m (S.nb + a) (S.na + e) j * T.tAB e b m i + Z.vAB m (S.nb + b) (S.na + e) j * T.tAB e a m i) := by
    rw [Finset.sum_comm (s := range S.na)]
    exact Finset.sum_congr rfl fun e e_ => Finset.sum_congr rfl fun m m_ => by
      have he := Finset.mem_range.1 e_
      have hm := Finset.mem_range.1 m_
      rw [ht.b e b m j he hb hm hj, ht.b e a m j he ha hm hj, ht.b e b m i he hb hm hi, ht.b e a m i he ha hm hi]
  have d₁ : (PSpace.dimsOf (setup S Z shift)).oa = S.na := rfl
  have d₂ : (PSpace.dimsOf (setup S Z shift)).ua = S.ua := rfl
  have d₃ : (PSpace.dimsOf (setup S Z shift)).ob = S.nb := rfl
  have d₄ : (PSpace.dimsOf (setup S Z shift)).ub = S.ub := rfl
  have l : ampC (argsMp3 (setup S Z shift) mem stored) (PSpace.dimsOf (setup S Z shift)) t2b t2c (a + 1) (b + 1) (i + 1) (j + 1) = _ :=
    (loop_two (f := fun e m => Z.vAB m (S.nb + a) (S.na + e) i * t2b (e + 1) (b + 1) (m + 1) (j + 1) - Z.vAB m (S.nb + b) (S.na + e) i * t2b (e + 1) (a + 1) (m + 1) (j + 1) - Z.vAB m (S.nb + a) (S.na + e) j * t2b (e + 1) (b + 1) (m + 1) (i + 1) + Z.vAB m (S.nb + b) (S.na + e) j * t2b (e + 1) (a + 1) (m + 1) (i + 1)) (fun _ _ _ => four_terms _ _ _ _ _) _).trans (congrArg (· + _) ((loop_two (f := fun e m => Z.vBB (S.nb + a) m i (S.nb + e) * t2c (e + 1) (b + 1) (m + 1) (j + 1) - Z.vBB (S.nb + b) m i (S.nb + e) * t2c (e + 1) (a + 1) (m + 1) (j + 1) - Z.vBB (S.nb + a) m j (S.nb + e) * t2c (e + 1) (b + 1) (m + 1) (i + 1) + Z.vBB (S.nb + b) m j (S.nb + e) * t2c (e + 1) (a + 1) (m + 1) (i + 1)) (fun _ _ _ => four_terms _ _ _ _ _) _).trans (congrArg (· + _) ((loop_pair (f := fun e f => Z.vBB (S.nb + a) (S.nb + b) (S.nb + e) (S.nb + f) * t2c (e + 1) (f + 1) (i + 1) (j + 1)) (fun _ _ _ => rfl) _).trans (congrArg (· + _) ((loop_pair (f := fun m n => Z.vBB m n i j * t2c (a + 1) (b + 1) (m + 1) (n + 1)) (fun _ _ _ => rfl) _)))))))
  rw [d₁, d₂, d₃, d₄] at l
  rw [l, e0, e1, e2, e3, m2c_value]
  simp only [Finset.sum_add_distrib, Finset.sum_sub_distrib, Finset.sum_neg_distrib]
  ring

end

end Ccpy.Mp3
