import Verif.Lemmas.CrCcMoments

/-! The triples equations without triple excitations, and the numbers `temp1` of the CR-CC(2,3) kernels. -/

set_option linter.unusedSimpArgs false

namespace Ccpy.CrCc
open Ccpy.Fock Ccpy.Tensor Ccpy.Engine Ccpy.HbarCcsd Ccpy.Ccsdt Ccpy.PSpace Ccpy.Rdm Ccpy.Ccsd
open Ccpy.EomCcsd (excitation)
open Finset (range)

variable {ι : Type*} [LinearOrder ι]

theorem transformed3_zero (S : Orbitals ι) (Z : Fock.Integrals) (T : Cluster) : transformed3 S Z T Triples.zero = transformed S Z T := by
  have e : clusterOperator3 S T Triples.zero = clusterOperator S T := by
    simp [clusterOperator3, triplesOperator, Triples.zero]
  unfold transformed3 transformed
  rw [e]

section
variable {S : Orbitals ι} (h : S.Proper) {Z : Fock.Integrals} (hZ : Z.Antisym) {T : Cluster} (hT : T.Antisym) (shift : ℚ)
  {a b c i j k : ℕ}
include h hZ hT

theorem element_a {T₃ : Triples} (hT₃ : T₃.Antisym) (ha : a < S.ua) (hb : b < S.ua) (hc : c < S.ua) (hi : i < S.na) (hj : j < S.na) (hk : k < S.na) :
    resA (dressed (setup S Z shift) (store3 [T] [T₃]) amplitudes3.toAmps hbar2) (dimsOf (setup S Z shift)) T₃ a b c i j k
      = S.element (S.exciteAAA a b c i j k S.ref) (transformed3 S Z T T₃) :=
  (linkA shaped_hbar2 (s := setup S Z shift) rfl (dressed_anti (S := S) hZ hT hT₃ shift) rfl hT₃ (fun _ _ _ _ _ _ => rfl) (fun _ _ _ _ _ _ => rfl)
    (fun _ _ _ _ _ _ => rfl) (fun _ _ _ _ _ _ => rfl) a b c i j k).symm.trans (value_t3a h hZ hT hT₃ ha hb hc hi hj hk)

theorem element_b {T₃ : Triples} (hT₃ : T₃.Antisym) (ha : a < S.ua) (hb : b < S.ua) (hc : c < S.ub) (hi : i < S.na) (hj : j < S.na) (hk : k < S.nb) :
    resB (dressed (setup S Z shift) (store3 [T] [T₃]) amplitudes3.toAmps hbar2) (dimsOf (setup S Z shift)) T₃ a b c i j k
      = S.element (S.exciteAAB a b c i j k S.ref) (transformed3 S Z T T₃) :=
  (linkB shaped_hbar2 (s := setup S Z shift) rfl (dressed_anti (S := S) hZ hT hT₃ shift) rfl hT₃ (fun _ _ _ _ _ _ => rfl) (fun _ _ _ _ _ _ => rfl)
    (fun _ _ _ _ _ _ => rfl) (fun _ _ _ _ _ _ => rfl) a b c i j k).symm.trans (value_t3b h hZ hT hT₃ ha hb hc hi hj hk)

theorem element_c {T₃ : Triples} (hT₃ : T₃.Antisym) (ha : a < S.ua) (hb : b < S.ub) (hc : c < S.ub) (hi : i < S.na) (hj : j < S.nb) (hk : k < S.nb) :
    resC (dressed (setup S Z shift) (store3 [T] [T₃]) amplitudes3.toAmps hbar2) (dimsOf (setup S Z shift)) T₃ a b c i j k
      = S.element (S.exciteABB a b c i j k S.ref) (transformed3 S Z T T₃) :=
  (linkC shaped_hbar2 (s := setup S Z shift) rfl (dressed_anti (S := S) hZ hT hT₃ shift) rfl hT₃ (fun _ _ _ _ _ _ => rfl) (fun _ _ _ _ _ _ => rfl)
    (fun _ _ _ _ _ _ => rfl) (fun _ _ _ _ _ _ => rfl) a b c i j k).symm.trans (value_t3c h hZ hT hT₃ ha hb hc hi hj hk)

theorem element_d {T₃ : Triples} (hT₃ : T₃.Antisym) (ha : a < S.ub) (hb : b < S.ub) (hc : c < S.ub) (hi : i < S.nb) (hj : j < S.nb) (hk : k < S.nb) :
    resD (dressed (setup S Z shift) (store3 [T] [T₃]) amplitudes3.toAmps hbar2) (dimsOf (setup S Z shift)) T₃ a b c i j k
      = S.element (S.exciteBBB a b c i j k S.ref) (transformed3 S Z T T₃) :=
  (linkD shaped_hbar2 (s := setup S Z shift) rfl (dressed_anti (S := S) hZ hT hT₃ shift) rfl hT₃ (fun _ _ _ _ _ _ => rfl) (fun _ _ _ _ _ _ => rfl)
    (fun _ _ _ _ _ _ => rfl) (fun _ _ _ _ _ _ => rfl) a b c i j k).symm.trans (value_t3d h hZ hT hT₃ ha hb hc hi hj hk)

end

section
variable {dim : ℕ → ℕ} {I : ℕ → List (ℕ × ℕ) → ℚ} {x y : Ex}

theorem es_m1 (hx : x.axes = [0, 1]) (hy : y.axes = [1, 1, 0, 0]) (a b i e : ℕ) :
    (es% "me,abim->abie" x, y).denote dim I [a, b, i, e] = ∑ m ∈ range (dim 0), x.denote dim I [m, e] * y.denote dim I [a, b, i, m] := by
  simp only [Ex.denote, Body.letters, hx, hy, Body.denote, mul_one]
  rfl

theorem es_m2 (hx : x.axes = [2, 3]) (hy : y.axes = [3, 3, 2, 2]) (a b i e : ℕ) :
    (es% "me,abim->abie" x, y).denote dim I [a, b, i, e] = ∑ m ∈ range (dim 2), x.denote dim I [m, e] * y.denote dim I [a, b, i, m] := by
  simp only [Ex.denote, Body.letters, hx, hy, Body.denote, mul_one]
  rfl

end

/-- The one-body array can go with either of the two intermediates. -/
theorem moment_same {no nv : ℕ} {t U W : ℕ → ℕ → ℕ → ℕ → ℚ} (tv : ∀ a b i j, t b a i j = -t a b i j) (tO : ∀ a b i j, t a b j i = -t a b i j)
    (hU : ∀ a m i j, U a m j i = -U a m i j) (hW : ∀ a b i e, W b a i e = -W a b i e) (O : ℕ → ℕ → ℚ)
    {x3 : ℕ → ℕ → ℕ → ℚ} {i j k : ℕ} (hx : ∀ a b c, x3 a b c =
      -(1 / 2) * (∑ m ∈ range no, (U a m i j + ∑ e ∈ range nv, O m e * t a e i j) * t b c m k)
        + (1 / 2) * (∑ m ∈ range no, (U a m k j + ∑ e ∈ range nv, O m e * t a e k j) * t b c m i)
        + (1 / 2) * (∑ m ∈ range no, (U a m i k + ∑ e ∈ range nv, O m e * t a e i k) * t b c m j)
        + (1 / 2) * (∑ e ∈ range nv, (W a b i e + ∑ n ∈ range no, O n e * t a b i n) * t e c j k)
        - (1 / 2) * (∑ e ∈ range nv, (W a b j e + ∑ n ∈ range no, O n e * t a b j n) * t e c i k)
        - (1 / 2) * (∑ e ∈ range nv, (W a b k e + ∑ n ∈ range no, O n e * t a b k n) * t e c j i)) (a b c : ℕ) :
    x3 a b c + x3 b c a + x3 c a b - x3 a c b - x3 b a c - x3 c b a
      = -pick3 (fun b c a => pick3 (fun i j k => ∑ m ∈ range no, U a m i j * t b c m k) i j k) a b c
        + pick3 (fun a b c => pick3 (fun j k i => ∑ e ∈ range nv, W a b i e * t e c j k) i j k) a b c := by
  have hV : ∀ a b c i j k, ∑ m ∈ range no, (U a m i j + ∑ e ∈ range nv, O m e * t a e i j) * t b c m k
      = (∑ m ∈ range no, U a m i j * t b c m k) + ∑ m ∈ range no, ∑ e ∈ range nv, O m e * t a e i j * t b c m k := fun a b c i j k => by
    simp only [add_mul, Finset.sum_add_distrib, Finset.sum_mul]
  have hI : ∀ a b c i j k, ∑ e ∈ range nv, (W a b i e + ∑ n ∈ range no, O n e * t a b i n) * t e c j k
      = (∑ e ∈ range nv, W a b i e * t e c j k) + ∑ m ∈ range no, ∑ e ∈ range nv, O m e * t c e j k * t a b m i := fun a b c i j k => by
    simp only [add_mul, Finset.sum_add_distrib, Finset.sum_mul]
    congr 1
    rw [Finset.sum_comm]
    refine Finset.sum_congr rfl fun m _ => Finset.sum_congr rfl fun e _ => ?_
    rw [tO a b m i, tv c e j k]; ring
  have P1 : ∀ a b c i j k, ∑ m ∈ range no, U a m i j * t c b m k = -∑ m ∈ range no, U a m i j * t b c m k := fun a b c i j k => by
    simp only [← Finset.sum_neg_distrib, tv b c, mul_neg]
  have P2 : ∀ a b c i j k, ∑ m ∈ range no, U a m j i * t b c m k = -∑ m ∈ range no, U a m i j * t b c m k := fun a b c i j k => by
    simp only [← Finset.sum_neg_distrib, (fun m => hU a m i j), neg_mul]
  have Q1 : ∀ a b c i j k, ∑ e ∈ range nv, W b a i e * t e c j k = -∑ e ∈ range nv, W a b i e * t e c j k := fun a b c i j k => by
    simp only [← Finset.sum_neg_distrib, hW a b, neg_mul]
  have Q2 : ∀ a b c i j k, ∑ e ∈ range nv, W a b i e * t e c k j = -∑ e ∈ range nv, W a b i e * t e c j k := fun a b c i j k => by
    simp only [← Finset.sum_neg_distrib, tO _ c j k, mul_neg]
  have R1 : ∀ a b c i j k, ∑ m ∈ range no, ∑ e ∈ range nv, O m e * t a e i j * t c b m k
      = -∑ m ∈ range no, ∑ e ∈ range nv, O m e * t a e i j * t b c m k := fun a b c i j k => by
    simp only [← Finset.sum_neg_distrib, tv b c, mul_neg]
  have R2 : ∀ a b c i j k, ∑ m ∈ range no, ∑ e ∈ range nv, O m e * t a e j i * t b c m k
      = -∑ m ∈ range no, ∑ e ∈ range nv, O m e * t a e i j * t b c m k := fun a b c i j k => by
    simp only [← Finset.sum_neg_distrib, tO a _ i j, mul_neg, neg_mul]
  simp only [hx, hV, hI, pick3]
  generalize hP : (fun a b c i j k => ∑ m ∈ range no, U a m i j * t b c m k) = P at *
  generalize hQ : (fun a b c i j k => ∑ e ∈ range nv, W a b i e * t e c j k) = Q at *
  generalize hR : (fun a b c i j k => ∑ m ∈ range no, ∑ e ∈ range nv, O m e * t a e i j * t b c m k) = R at *
  have eP : ∀ a b c i j k, ∑ m ∈ range no, U a m i j * t b c m k = P a b c i j k := fun a b c i j k => by rw [← hP]
  have eQ : ∀ a b c i j k, ∑ e ∈ range nv, W a b i e * t e c j k = Q a b c i j k := fun a b c i j k => by rw [← hQ]
  have eR : ∀ a b c i j k, ∑ m ∈ range no, ∑ e ∈ range nv, O m e * t a e i j * t b c m k = R a b c i j k := fun a b c i j k => by rw [← hR]
  simp only [eP, eQ, eR] at P1 P2 Q1 Q2 R1 R2 ⊢
  simp only [(fun x => P1 x a b), (fun x => P1 x a c), (fun x => P1 x b c), (fun x y z => P2 x y z i j), (fun x y z => P2 x y z i k), (fun x y z => P2 x y z j k),
    Q1 a b, Q1 a c, Q1 b c, (fun x y z u => Q2 x y z u i j), (fun x y z u => Q2 x y z u i k), (fun x y z u => Q2 x y z u j k),
    (fun x => R1 x a b), (fun x => R1 x a c), (fun x => R1 x b c), (fun x y z => R2 x y z i j), (fun x y z => R2 x y z i k), (fun x y z => R2 x y z j k)]
  ring

section
variable (s : Setup) (m : Memory) {Y : Dressed} (hY : dressed s m amplitudes hbar = Y) (hA : Y.Anti)
include hY hA

theorem moment_b (a b c i j k : ℕ) : (argsB s m amplitudes excitation hbar stored).moment (dimsOf s) (i + 1) (j + 1) (k + 1) (a + 1) (b + 1) (c + 1)
    = resB Y (dimsOf s) Triples.zero a b c i j k := by
  have e_t2a : ∀ p q u v, (argsB s m amplitudes excitation hbar stored).t2a (p + 1) (q + 1) (u + 1) (v + 1) = Y.t_aa p q u v := fun _ _ _ _ => by rw [← hY]; rfl
  have e_t2b : ∀ p q u v, (argsB s m amplitudes excitation hbar stored).t2b (p + 1) (q + 1) (u + 1) (v + 1) = Y.t_ab p q u v := fun _ _ _ _ => by rw [← hY]; rfl
  have e_i2b_ovoo : ∀ p q u v, (argsB s m amplitudes excitation hbar stored).i2b_ovoo (p + 1) (q + 1) (u + 1) (v + 1) = Y.ab_ovoo p q u v := fun _ _ _ _ => by rw [← hY]; rfl
  have e_i2b_vooo : ∀ p q u v, (argsB s m amplitudes excitation hbar stored).i2b_vooo (p + 1) (q + 1) (u + 1) (v + 1) = Y.ab_vooo p q u v := fun _ _ _ _ => by rw [← hY]; rfl
  have e_i2a_vooo : ∀ p q u v, (argsB s m amplitudes excitation hbar stored).i2a_vooo (p + 1) (q + 1) (u + 1) (v + 1) = Y.aa_vooo p q u v := fun _ _ _ _ => by rw [← hY]; rfl
  have e_h2b_vvvo : ∀ p q u v, (argsB s m amplitudes excitation hbar stored).h2b_vvvo (p + 1) (q + 1) (u + 1) (v + 1) = Y.ab_vvvo p q u v := fun _ _ _ _ => by rw [← hY]; rfl
  have e_h2b_vvov : ∀ p q u v, (argsB s m amplitudes excitation hbar stored).h2b_vvov (p + 1) (q + 1) (u + 1) (v + 1) = Y.ab_vvov p q u v := fun _ _ _ _ => by rw [← hY]; rfl
  have e_h2a_vvov : ∀ p q u v, (argsB s m amplitudes excitation hbar stored).h2a_vvov (p + 1) (q + 1) (u + 1) (v + 1) = Y.aa_vvov p q u v := fun _ _ _ _ => by rw [← hY]; rfl
  simp only [ArgsB.moment, ArgsB.x3b, sumTo_eq, e_t2a, e_t2b, e_i2b_ovoo, e_i2b_vooo, e_i2a_vooo, e_h2b_vvvo, e_h2b_vvov, e_h2a_vvov]
  simp only [resB, linB_t3b, linB_t3a, linB_t3c, momB1, momB2, momB3, momB4, momB5, momB6, vooA, vooA_t3a, vooA_t3b, vvoA, vvoA_t3a, vvoA_t3b, vooB, vooB_t3b, vooB_t3c, ovoB, ovoB_t3b, ovoB_t3c, vvoB, vvoB_t3b, vvoB_t3c, vvvB, vvvB_t3b, vvvB_t3c, vooC, vooC_t3d, vooC_t3c, vvoC, vvoC_t3d, vvoC_t3c, pick2, Triples.zero, mul_zero, Finset.sum_const_zero, neg_zero, add_zero, zero_add, sub_zero, zero_sub, sub_self]
  simp only [hA.aa_t_v a b, hA.aa_t_o _ _ i j, (fun m => hA.aa_vooo _ m i j), hA.aa_vvov a b, (fun z => hA.aa_t_o a b z i), (fun z => hA.aa_t_o a b z j), mul_neg, neg_mul, Finset.sum_neg_distrib, mul_comm]
  ring

theorem moment_c (a b c i j k : ℕ) : (argsC s m amplitudes excitation hbar stored).moment (dimsOf s) (i + 1) (j + 1) (k + 1) (a + 1) (b + 1) (c + 1)
    = resC Y (dimsOf s) Triples.zero a b c i j k := by
  have e_t2b : ∀ p q u v, (argsC s m amplitudes excitation hbar stored).t2b (p + 1) (q + 1) (u + 1) (v + 1) = Y.t_ab p q u v := fun _ _ _ _ => by rw [← hY]; rfl
  have e_t2c : ∀ p q u v, (argsC s m amplitudes excitation hbar stored).t2c (p + 1) (q + 1) (u + 1) (v + 1) = Y.t_bb p q u v := fun _ _ _ _ => by rw [← hY]; rfl
  have e_i2b_ovoo : ∀ p q u v, (argsC s m amplitudes excitation hbar stored).i2b_ovoo (p + 1) (q + 1) (u + 1) (v + 1) = Y.ab_ovoo p q u v := fun p q u v => by
    rw [← hY]
    simp only [argsC, axes4, one4, Nat.add_sub_cancel, dressed, Setup.eval, denote_sub]
    rfl
  have e_i2b_vooo : ∀ p q u v, (argsC s m amplitudes excitation hbar stored).i2b_vooo (p + 1) (q + 1) (u + 1) (v + 1) = Y.ab_vooo p q u v := fun p q u v => by
    rw [← hY]
    simp only [argsC, axes4, one4, Nat.add_sub_cancel, dressed, Setup.eval, denote_sub]
    rfl
  have e_i2c_vooo : ∀ p q u v, (argsC s m amplitudes excitation hbar stored).i2c_vooo (p + 1) (q + 1) (u + 1) (v + 1) = Y.bb_vooo p q u v := fun p q u v => by
    rw [← hY]
    simp only [argsC, axes4, one4, Nat.add_sub_cancel, dressed, Setup.eval, denote_sub]
    rfl
  have e_h2b_vvvo : ∀ p q u v, (argsC s m amplitudes excitation hbar stored).h2b_vvvo (p + 1) (q + 1) (u + 1) (v + 1) = Y.ab_vvvo p q u v := fun _ _ _ _ => by rw [← hY]; rfl
  have e_h2b_vvov : ∀ p q u v, (argsC s m amplitudes excitation hbar stored).h2b_vvov (p + 1) (q + 1) (u + 1) (v + 1) = Y.ab_vvov p q u v := fun _ _ _ _ => by rw [← hY]; rfl
  have e_h2c_vvov : ∀ p q u v, (argsC s m amplitudes excitation hbar stored).h2c_vvov (p + 1) (q + 1) (u + 1) (v + 1) = Y.bb_vvov p q u v := fun _ _ _ _ => by rw [← hY]; rfl
  simp only [ArgsC.moment, ArgsC.x3c, sumTo_eq, e_t2b, e_t2c, e_i2b_ovoo, e_i2b_vooo, e_i2c_vooo, e_h2b_vvvo, e_h2b_vvov, e_h2c_vvov]
  simp only [resC, linC_t3c, linC_t3d, linC_t3b, momC1, momC2, momC3, momC4, momC5, momC6, vooA, vooA_t3a, vooA_t3b, vvoA, vvoA_t3a, vvoA_t3b, vooB, vooB_t3b, vooB_t3c, ovoB, ovoB_t3b, ovoB_t3c, vvoB, vvoB_t3b, vvoB_t3c, vvvB, vvvB_t3b, vvvB_t3c, vooC, vooC_t3d, vooC_t3c, vvoC, vvoC_t3d, vvoC_t3c, pick2, Triples.zero, mul_zero, Finset.sum_const_zero, neg_zero, add_zero, zero_add, sub_zero, zero_sub, sub_self]
  simp only [hA.bb_t_v b c, hA.bb_t_o _ _ j k, (fun m => hA.bb_vooo _ m j k), hA.bb_vvov b c, mul_neg, neg_mul, Finset.sum_neg_distrib, mul_comm]
  ring


theorem moment_a (a b c i j k : ℕ) : (argsA s m amplitudes excitation hbar stored).moment (dimsOf s) (i + 1) (j + 1) (k + 1) (a + 1) (b + 1) (c + 1)
    = resA Y (dimsOf s) Triples.zero a b c i j k := by
  have e_t : ∀ p q u v, (argsA s m amplitudes excitation hbar stored).t2a (p + 1) (q + 1) (u + 1) (v + 1) = Y.t_aa p q u v := fun _ _ _ _ => by rw [← hY]; rfl
  have e_v : ∀ p q u v, (argsA s m amplitudes excitation hbar stored).h2a_vooo (p + 1) (q + 1) (u + 1) (v + 1)
      = Y.aa_vooo p q u v + ∑ e ∈ range (dimsOf s).ua, s.eval m hbar.a.ov [q, e] * Y.t_aa p e u v := fun p q u v => by
    rw [← hY]
    simp only [dressed, Setup.eval, denote_sub]
    rw [show amplitudes.aa = amplitudes3.aa from rfl, PSpace.es_5 ax_H_a_ov ax_taa]
    exact (sub_add_cancel _ _).symm
  have e_w : ∀ p q u v, (argsA s m amplitudes excitation hbar stored).i2a_vvov (p + 1) (q + 1) (u + 1) (v + 1)
      = Y.aa_vvov p q u v + ∑ n ∈ range (dimsOf s).oa, s.eval m hbar.a.ov [n, v] * Y.t_aa p q u n := fun p q u v => by
    rw [← hY]
    simp only [argsA, axes4, one4, Nat.add_sub_cancel, Setup.eval, denote_add]
    rw [show amplitudes.aa = amplitudes3.aa from rfl, es_m1 ax_H_a_ov ax_taa]
    rfl
  have e := moment_same (no := (dimsOf s).oa) (nv := (dimsOf s).ua) hA.aa_t_v hA.aa_t_o hA.aa_vooo hA.aa_vvov (fun n e => s.eval m hbar.a.ov [n, e])
    (x3 := fun a b c => (argsA s m amplitudes excitation hbar stored).x3a (dimsOf s) (i + 1) (j + 1) (k + 1) (a + 1) (b + 1) (c + 1)) (i := i) (j := j) (k := k)
    (fun a b c => by simp only [ArgsA.x3a, sumTo_eq, e_t, e_v, e_w]) a b c
  refine e.trans ?_
  simp only [resA, linAAA, crossAAA, momA1, momA2, vooA, vooA_t3a, vooA_t3b, vvoA, vvoA_t3a, vvoA_t3b, pick3, Triples.zero, mul_zero, Finset.sum_const_zero, neg_zero, add_zero, zero_add, sub_zero, zero_sub, sub_self]

theorem moment_d (a b c i j k : ℕ) : (argsD s m amplitudes excitation hbar stored).moment (dimsOf s) (i + 1) (j + 1) (k + 1) (a + 1) (b + 1) (c + 1)
    = resD Y (dimsOf s) Triples.zero a b c i j k := by
  have e_t : ∀ p q u v, (argsD s m amplitudes excitation hbar stored).t2c (p + 1) (q + 1) (u + 1) (v + 1) = Y.t_bb p q u v := fun _ _ _ _ => by rw [← hY]; rfl
  have e_v : ∀ p q u v, (argsD s m amplitudes excitation hbar stored).h2c_vooo (p + 1) (q + 1) (u + 1) (v + 1)
      = Y.bb_vooo p q u v + ∑ e ∈ range (dimsOf s).ub, s.eval m hbar.b.ov [q, e] * Y.t_bb p e u v := fun p q u v => by
    rw [← hY]
    simp only [dressed, Setup.eval, denote_sub]
    rw [show amplitudes.bb = amplitudes3.bb from rfl, PSpace.es_16 ax_H_b_ov ax_tbb]
    exact (sub_add_cancel _ _).symm
  have e_w : ∀ p q u v, (argsD s m amplitudes excitation hbar stored).i2c_vvov (p + 1) (q + 1) (u + 1) (v + 1)
      = Y.bb_vvov p q u v + ∑ n ∈ range (dimsOf s).ob, s.eval m hbar.b.ov [n, v] * Y.t_bb p q u n := fun p q u v => by
    rw [← hY]
    simp only [argsD, axes4, one4, Nat.add_sub_cancel, Setup.eval, denote_add]
    rw [show amplitudes.bb = amplitudes3.bb from rfl, es_m2 ax_H_b_ov ax_tbb]
    rfl
  have e := moment_same (no := (dimsOf s).ob) (nv := (dimsOf s).ub) hA.bb_t_v hA.bb_t_o hA.bb_vooo hA.bb_vvov (fun n e => s.eval m hbar.b.ov [n, e])
    (x3 := fun a b c => (argsD s m amplitudes excitation hbar stored).x3d (dimsOf s) (i + 1) (j + 1) (k + 1) (a + 1) (b + 1) (c + 1)) (i := i) (j := j) (k := k)
    (fun a b c => by simp only [ArgsD.x3d, sumTo_eq, e_t, e_v, e_w]) a b c
  refine e.trans ?_
  simp only [resD, linBBB, crossBBB, momD1, momD2, vooC, vooC_t3d, vooC_t3c, vvoC, vvoC_t3d, vvoC_t3c, pick3, Triples.zero, mul_zero, Finset.sum_const_zero, neg_zero, add_zero, zero_add, sub_zero, zero_sub, sub_self]

end

end Ccpy.CrCc
