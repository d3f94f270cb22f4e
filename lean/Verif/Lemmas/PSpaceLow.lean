import Verif.Lemmas.PSpaceInPlace
import Verif.Lemmas.PSpaceSplit
import Verif.Lemmas.PSpaceNames
import Verif.Lemmas.PSpaceAnti

/-! The kernels that update single and double excitations, with listed triple excitations. -/

namespace Ccpy.PSpace
open Ccpy.Tensor Ccpy.Fock Ccpy.Ccsdt Ccpy.Engine Ccpy.Ccsd Ccpy.Rdm

variable {ι : Type*} [LinearOrder ι]

theorem Swept1.congr {no nu : ℕ} {den X X' : ℕ → ℕ → ℚ} {t : List ℕ → ℚ} {r : (List ℕ → ℚ) × (List ℕ → ℚ)} (h : Swept1 no nu den X t r)
    (e : ∀ a i, a < nu → i < no → X a i = X' a i) : Swept1 no nu den X' t r :=
  ⟨fun a i ha hi => (h.step a i ha hi).trans (e a i ha hi), h.outside, h.other, h.change⟩

theorem Swept2.congr {nu nu' no no' : ℕ} {den X X' : ℕ → ℕ → ℕ → ℕ → ℚ} {t : List ℕ → ℚ} {r : (List ℕ → ℚ) × (List ℕ → ℚ)}
    (h : Swept2 nu nu' no no' den X t r) (e : ∀ a b i j, a < nu → b < nu' → i < no → j < no' → X a b i j = X' a b i j) :
    Swept2 nu nu' no no' den X' t r :=
  ⟨fun a b i j ha hb hi hj => (h.step a b i j ha hb hi hj).trans (e a b i j ha hb hi hj), h.outside, h.other, h.change⟩

theorem Swept1.explicit {no nu : ℕ} {den X : ℕ → ℕ → ℚ} {t : List ℕ → ℚ} {r : (List ℕ → ℚ) × (List ℕ → ℚ)} (h : Swept1 no nu den X t r)
    (hd : ∀ a i, a < nu → i < no → den a i ≠ 0) :
    (∀ a i, a < nu → i < no → r.1 [a, i] = t [a, i] + X a i / den a i ∧ r.2 [a, i] = X a i / den a i)
      ∧ ∀ l, (∀ a i, a < nu → i < no → l ≠ [a, i]) → r.1 l = t l := by
  refine ⟨fun a i ha hi => ?_, fun l hl => ?_⟩
  · have e : r.1 [a, i] - t [a, i] = X a i / den a i := by
      rw [← h.step a i ha hi, mul_div_cancel_left₀ _ (hd a i ha hi)]
    exact ⟨by linarith, (h.change a i ha hi).trans e⟩
  · match l with
    | [a, i] => exact h.outside a i fun g => hl a i g.1 g.2 rfl
    | [] | [_] | _ :: _ :: _ :: _ => exact h.other _ (by simp)

theorem Swept2.explicit {nu nu' no no' : ℕ} {den X : ℕ → ℕ → ℕ → ℕ → ℚ} {t : List ℕ → ℚ} {r : (List ℕ → ℚ) × (List ℕ → ℚ)}
    (h : Swept2 nu nu' no no' den X t r) (hd : ∀ a b i j, a < nu → b < nu' → i < no → j < no' → den a b i j ≠ 0) :
    (∀ a b i j, a < nu → b < nu' → i < no → j < no' →
      r.1 [a, b, i, j] = t [a, b, i, j] + X a b i j / den a b i j ∧ r.2 [a, b, i, j] = X a b i j / den a b i j)
      ∧ ∀ l, (∀ a b i j, a < nu → b < nu' → i < no → j < no' → l ≠ [a, b, i, j]) → r.1 l = t l := by
  refine ⟨fun a b i j ha hb hi hj => ?_, fun l hl => ?_⟩
  · have e : r.1 [a, b, i, j] - t [a, b, i, j] = X a b i j / den a b i j := by
      rw [← h.step a b i j ha hb hi hj, mul_div_cancel_left₀ _ (hd a b i j ha hb hi hj)]
    exact ⟨by linarith, (h.change a b i j ha hb hi hj).trans e⟩
  · match l with
    | [a, b, i, j] => exact h.outside a b i j fun g => hl a b i j g.1 g.2.1 g.2.2.1 g.2.2.2 rfl
    | [] | [_] | [_, _] | [_, _, _] | _ :: _ :: _ :: _ :: _ :: _ => exact h.other _ (by simp)

section
set_option maxRecDepth 100000
theorem axes_stored : Axes stored := by constructor <;> rfl
theorem axes_hbar1 : Axes hbar1 := by constructor <;> rfl
theorem axes_amplitudes3 : Axes3 amplitudes3 := by constructor <;> rfl
theorem flips_aa_ooov : flips (stored.aa.ooov + hbar1.aa.ooov) [0, 4, 8, 9] [4, 0, 8, 9] = true := by decide +kernel
theorem flips_aa_vovv : flips (stored.aa.vovv + hbar1.aa.vovv) [1, 0, 5, 9] [1, 0, 9, 5] = true := by decide +kernel
theorem flips_bb_ooov : flips (stored.bb.ooov + hbar1.bb.ooov) [2, 6, 10, 11] [6, 2, 10, 11] = true := by decide +kernel
theorem flips_bb_vovv : flips (stored.bb.vovv + hbar1.bb.vovv) [3, 2, 7, 11] [3, 2, 11, 7] = true := by decide +kernel
end

theorem eval_comm (s : Setup) (m : Memory) (x y : Ex) : s.eval m (x + y) = s.eval m (y + x) := by
  funext idx
  exact denote_add.trans ((add_comm _ _).trans denote_add.symm)

theorem backName_zero (n : ℕ) : backName 0 n = n := by
  unfold backName
  split_ifs <;> omega

section
variable {S : Orbitals ι} (h : S.Proper) {Z : Fock.Integrals} (hZ : Z.Antisym) {T : Cluster} (hT : T.Antisym) {shift : ℚ}
  (hd : Denominators (setup S Z shift)) (X : Ints) {m : Memory} {t3a t3b t3c t3d : Buffer} (ua : t3a.Usable (ListedAAA S.ua S.na))
  (ub : t3b.Usable (ListedAAB S.ua S.ub S.na S.nb)) (uc : t3c.Usable (ListedABB S.ua S.ub S.na S.nb)) (ud : t3d.Usable (ListedAAA S.ub S.nb))

/-- The amplitudes that the arrays of single and double excitations and the lists stand for. -/
abbrev store4 (T : Cluster) (t3a t3b t3c t3d : Buffer) : Memory := store3 [T] [listed3 t3a.list t3b.list t3c.list t3d.list]

section
include h hZ hT hd ua ub uc
theorem swept_callT1a_core {T' : Amps} {X' H' : Ints} 
    (er : axes2 ((setup S Z shift).eval m (residualT1a T' X' H')) = axes2 ((setup S Z shift).eval (store4 T t3a t3b t3c t3d) (residualT1a amplitudes3.toAmps Ccsdt.pre stored)))
    (e0 : axes4 ((setup S Z shift).eval m H'.aa.oovv) = axes4 ((setup S Z shift).eval (store4 T t3a t3b t3c t3d) stored.aa.oovv))
    (e1 : axes4 ((setup S Z shift).eval m H'.ab.oovv) = axes4 ((setup S Z shift).eval (store4 T t3a t3b t3c t3d) stored.ab.oovv))
    (e2 : axes4 ((setup S Z shift).eval m H'.bb.oovv) = axes4 ((setup S Z shift).eval (store4 T t3a t3b t3c t3d) stored.bb.oovv))
    : Swept1 S.na S.ua (setup S Z shift).dA
      (fun a i => S.element (S.singleA a i) (transformed3 S Z T (listed3 t3a.list t3b.list t3c.list t3d.list))) (m 6)
      (callT1a (setup S Z shift) m T' X' H' t3a t3b t3c (m 6)) := by
  have hT₃ := listed3_antisym t3a.list t3b.list t3c.list t3d.list
  refine (sweptT1a (setup S Z shift) _ (m 6) hd.a).congr fun a i ha hi => ?_
  rw [er, e0, e1, e2]
  let V := (setup S Z shift).eval (store4 T t3a t3b t3c t3d)
  let R := residualT1a amplitudes3.toAmps Ccsdt.pre stored
  let L := listsT1a (axes4 (V stored.aa.oovv)) (axes4 (V stored.ab.oovv)) (axes4 (V stored.bb.oovv)) t3a t3b t3c (axes2 (V R))
  have l : L (a + 1) (i + 1) = V R [a, i] + t1a_t3a_h2a_oovv (fun p q r s => V stored.aa.oovv [p, q, r, s]) (dimsOf (setup S Z shift)) (TripleList.ofThree t3a.list) a i + t1a_t3b_h2b_oovv (fun p q r s => V stored.ab.oovv [p, q, r, s]) (dimsOf (setup S Z shift)) (TripleList.ofTwoOne t3b.list) a i + t1a_t3c_h2c_oovv (fun p q r s => V stored.bb.oovv [p, q, r, s]) (dimsOf (setup S Z shift)) (TripleList.ofOneTwo t3c.list) a i :=
    listsT1a_eq (dimsOf (setup S Z shift)) (fun p q r s => flips_sound (S := S) hZ (mem_one hT) (mem_one hT₃) flips_aa_oovv_o fun w => if w = 0 then p else if w = 4 then q else if w = 1 then r else s) (fun p q r s => flips_sound (S := S) hZ (mem_one hT) (mem_one hT₃) flips_aa_oovv_v fun w => if w = 0 then p else if w = 4 then q else if w = 1 then r else s) (fun p q r s => flips_sound (S := S) hZ (mem_one hT) (mem_one hT₃) flips_bb_oovv_o fun w => if w = 2 then p else if w = 6 then q else if w = 3 then r else s) (fun p q r s => flips_sound (S := S) hZ (mem_one hT) (mem_one hT₃) flips_bb_oovv_v fun w => if w = 2 then p else if w = 6 then q else if w = 3 then r else s) ua.fits ub.fits uc.fits (axes2 (V R)) a i
  have p : ∀ a i, V (Ccsdt.residualT1a amplitudes3 Ccsdt.pre stored) [a, i] = V R [a, i] + t1a_t3a_h2a_oovv (fun p q r s => V stored.aa.oovv [p, q, r, s]) (dimsOf (setup S Z shift)) (TripleList.ofThree t3a.list) a i + t1a_t3b_h2b_oovv (fun p q r s => V stored.ab.oovv [p, q, r, s]) (dimsOf (setup S Z shift)) (TripleList.ofTwoOne t3b.list) a i + t1a_t3c_h2c_oovv (fun p q r s => V stored.bb.oovv [p, q, r, s]) (dimsOf (setup S Z shift)) (TripleList.ofOneTwo t3c.list) a i := fun a i =>
    residualT1a_split Ccsdt.pre stored axes_stored axes_amplitudes3 a i
  have c := C66_t1a h hZ hT hT₃ shift stored ha hi
  exact l.trans ((p a i).symm.trans c)
end

section
set_option maxRecDepth 100000
include h hZ hT hd ua ub uc
theorem swept_callT1a (hm : ∀ n, 6 ≤ n → n ≤ 10 → m n = T.amp n) : Swept1 S.na S.ua (setup S Z shift).dA
      (fun a i => S.element (S.singleA a i) (transformed3 S Z T (listed3 t3a.list t3b.list t3c.list t3d.list))) (m 6)
      (callT1a (setup S Z shift) m amplitudes3.toAmps (atSingles X) stored t3a t3b t3c (m 6)) := by
  have hs : ∀ n, m n = m (backName 0 n) := fun n => by rw [backName_zero]
  have key : ∀ {x y : Ex}, x.rename (backName 0) = y → y.rename low = y → (setup S Z shift).eval m x = (setup S Z shift).eval (store4 T t3a t3b t3c t3d) y := fun hx hy => by
    rw [eval_backName _ hs, hx]
    exact eval_low (fun n h₁ h₂ => (hm n h₁ h₂).trans (by interval_cases n <;> rfl)) hy
  exact swept_callT1a_core h hZ hT hd ua ub uc (congrArg axes2 (key rfl rfl)) (congrArg axes4 (key rfl rfl)) (congrArg axes4 (key rfl rfl)) (congrArg axes4 (key rfl rfl))
end

section
set_option maxRecDepth 100000
include h hZ hT hd ua ub uc
theorem swept_stageT1a (hs : ∀ n, m n = m (backName 0 n)) (hm : ∀ n, 6 ≤ n → n ≤ 10 → m n = T.amp n) : Swept1 S.na S.ua (setup S Z shift).dA
      (fun a i => S.element (S.singleA a i) (transformed3 S Z T (listed3 t3a.list t3b.list t3c.list t3d.list))) (m 6)
      (callT1a (setup S Z shift) m amplitudes3.toAmps (ints1 X) stored t3a t3b t3c (m 6)) := by
  have key : ∀ {x y : Ex}, x.rename (backName 0) = y → y.rename low = y → (setup S Z shift).eval m x = (setup S Z shift).eval (store4 T t3a t3b t3c t3d) y := fun hx hy => by
    rw [eval_backName _ hs, hx]
    exact eval_low (fun n h₁ h₂ => (hm n h₁ h₂).trans (by interval_cases n <;> rfl)) hy
  exact swept_callT1a_core h hZ hT hd ua ub uc (congrArg axes2 (key rfl rfl)) (congrArg axes4 (key rfl rfl)) (congrArg axes4 (key rfl rfl)) (congrArg axes4 (key rfl rfl))
end

section
include h hZ hT hd ub uc ud
theorem swept_callT1b_core {T' : Amps} {X' H' : Ints} 
    (er : axes2 ((setup S Z shift).eval m (residualT1b T' X' H')) = axes2 ((setup S Z shift).eval (store4 T t3a t3b t3c t3d) (residualT1b amplitudes3.toAmps Ccsdt.pre stored)))
    (e0 : axes4 ((setup S Z shift).eval m H'.aa.oovv) = axes4 ((setup S Z shift).eval (store4 T t3a t3b t3c t3d) stored.aa.oovv))
    (e1 : axes4 ((setup S Z shift).eval m H'.ab.oovv) = axes4 ((setup S Z shift).eval (store4 T t3a t3b t3c t3d) stored.ab.oovv))
    (e2 : axes4 ((setup S Z shift).eval m H'.bb.oovv) = axes4 ((setup S Z shift).eval (store4 T t3a t3b t3c t3d) stored.bb.oovv))
    : Swept1 S.nb S.ub (setup S Z shift).dB
      (fun a i => S.element (S.singleB a i) (transformed3 S Z T (listed3 t3a.list t3b.list t3c.list t3d.list))) (m 7)
      (callT1b (setup S Z shift) m T' X' H' t3b t3c t3d (m 7)) := by
  have hT₃ := listed3_antisym t3a.list t3b.list t3c.list t3d.list
  refine (sweptT1b (setup S Z shift) _ (m 7) hd.b).congr fun a i ha hi => ?_
  rw [er, e0, e1, e2]
  let V := (setup S Z shift).eval (store4 T t3a t3b t3c t3d)
  let R := residualT1b amplitudes3.toAmps Ccsdt.pre stored
  let L := listsT1b (axes4 (V stored.aa.oovv)) (axes4 (V stored.ab.oovv)) (axes4 (V stored.bb.oovv)) t3b t3c t3d (axes2 (V R))
  have l : L (a + 1) (i + 1) = V R [a, i] + t1b_t3b_h2a_oovv (fun p q r s => V stored.aa.oovv [p, q, r, s]) (dimsOf (setup S Z shift)) (TripleList.ofTwoOne t3b.list) a i + t1b_t3c_h2b_oovv (fun p q r s => V stored.ab.oovv [p, q, r, s]) (dimsOf (setup S Z shift)) (TripleList.ofOneTwo t3c.list) a i + t1b_t3d_h2c_oovv (fun p q r s => V stored.bb.oovv [p, q, r, s]) (dimsOf (setup S Z shift)) (TripleList.ofThree t3d.list) a i :=
    listsT1b_eq (dimsOf (setup S Z shift)) (fun p q r s => flips_sound (S := S) hZ (mem_one hT) (mem_one hT₃) flips_aa_oovv_o fun w => if w = 0 then p else if w = 4 then q else if w = 1 then r else s) (fun p q r s => flips_sound (S := S) hZ (mem_one hT) (mem_one hT₃) flips_aa_oovv_v fun w => if w = 0 then p else if w = 4 then q else if w = 1 then r else s) (fun p q r s => flips_sound (S := S) hZ (mem_one hT) (mem_one hT₃) flips_bb_oovv_o fun w => if w = 2 then p else if w = 6 then q else if w = 3 then r else s) (fun p q r s => flips_sound (S := S) hZ (mem_one hT) (mem_one hT₃) flips_bb_oovv_v fun w => if w = 2 then p else if w = 6 then q else if w = 3 then r else s) ub.fits uc.fits ud.fits (axes2 (V R)) a i
  have p : ∀ a i, V (Ccsdt.residualT1b amplitudes3 Ccsdt.pre stored) [a, i] = V R [a, i] + t1b_t3b_h2a_oovv (fun p q r s => V stored.aa.oovv [p, q, r, s]) (dimsOf (setup S Z shift)) (TripleList.ofTwoOne t3b.list) a i + t1b_t3c_h2b_oovv (fun p q r s => V stored.ab.oovv [p, q, r, s]) (dimsOf (setup S Z shift)) (TripleList.ofOneTwo t3c.list) a i + t1b_t3d_h2c_oovv (fun p q r s => V stored.bb.oovv [p, q, r, s]) (dimsOf (setup S Z shift)) (TripleList.ofThree t3d.list) a i := fun a i =>
    residualT1b_split Ccsdt.pre stored axes_stored axes_amplitudes3 a i
  have c := C66_t1b h hZ hT hT₃ shift stored ha hi
  exact l.trans ((p a i).symm.trans c)
end

section
set_option maxRecDepth 100000
include h hZ hT hd ub uc ud
theorem swept_callT1b (hm : ∀ n, 6 ≤ n → n ≤ 10 → m n = T.amp n) : Swept1 S.nb S.ub (setup S Z shift).dB
      (fun a i => S.element (S.singleB a i) (transformed3 S Z T (listed3 t3a.list t3b.list t3c.list t3d.list))) (m 7)
      (callT1b (setup S Z shift) m amplitudes3.toAmps (atSingles X) stored t3b t3c t3d (m 7)) := by
  have hs : ∀ n, m n = m (backName 0 n) := fun n => by rw [backName_zero]
  have key : ∀ {x y : Ex}, x.rename (backName 0) = y → y.rename low = y → (setup S Z shift).eval m x = (setup S Z shift).eval (store4 T t3a t3b t3c t3d) y := fun hx hy => by
    rw [eval_backName _ hs, hx]
    exact eval_low (fun n h₁ h₂ => (hm n h₁ h₂).trans (by interval_cases n <;> rfl)) hy
  exact swept_callT1b_core h hZ hT hd ub uc ud (congrArg axes2 (key rfl rfl)) (congrArg axes4 (key rfl rfl)) (congrArg axes4 (key rfl rfl)) (congrArg axes4 (key rfl rfl))
end

section
set_option maxRecDepth 100000
include h hZ hT hd ub uc ud
theorem swept_stageT1b (hs : ∀ n, m n = m (backName 1 n)) (hm : ∀ n, 6 ≤ n → n ≤ 10 → m n = T.amp n) : Swept1 S.nb S.ub (setup S Z shift).dB
      (fun a i => S.element (S.singleB a i) (transformed3 S Z T (listed3 t3a.list t3b.list t3c.list t3d.list))) (m 7)
      (callT1b (setup S Z shift) m stage1.toAmps (ints1 X) stored t3b t3c t3d (m 7)) := by
  have key : ∀ {x y : Ex}, x.rename (backName 1) = y → y.rename low = y → (setup S Z shift).eval m x = (setup S Z shift).eval (store4 T t3a t3b t3c t3d) y := fun hx hy => by
    rw [eval_backName _ hs, hx]
    exact eval_low (fun n h₁ h₂ => (hm n h₁ h₂).trans (by interval_cases n <;> rfl)) hy
  exact swept_callT1b_core h hZ hT hd ub uc ud (congrArg axes2 (key rfl rfl)) (congrArg axes4 (key rfl rfl)) (congrArg axes4 (key rfl rfl)) (congrArg axes4 (key rfl rfl))
end

section
include h hZ hT hd ua ub
theorem swept_callT2a_core {T' : Amps} {H' H0' : Ints} (hm : m 8 = T.amp 8) 
    (er : axes4 ((setup S Z shift).eval m (residualT2a T' H' H0')) = axes4 ((setup S Z shift).eval (store4 T t3a t3b t3c t3d) (residualT2a amplitudes3.toAmps hbar1 stored)))
    (e0 : axes2 ((setup S Z shift).eval m H'.a.ov) = axes2 ((setup S Z shift).eval (store4 T t3a t3b t3c t3d) hbar1.a.ov))
    (e1 : axes2 ((setup S Z shift).eval m H'.b.ov) = axes2 ((setup S Z shift).eval (store4 T t3a t3b t3c t3d) hbar1.b.ov))
    (e2 : axes4 ((setup S Z shift).eval m (H0'.aa.ooov + H'.aa.ooov)) = axes4 ((setup S Z shift).eval (store4 T t3a t3b t3c t3d) (stored.aa.ooov + hbar1.aa.ooov)))
    (e3 : axes4 ((setup S Z shift).eval m (H0'.aa.vovv + H'.aa.vovv)) = axes4 ((setup S Z shift).eval (store4 T t3a t3b t3c t3d) (stored.aa.vovv + hbar1.aa.vovv)))
    (e4 : axes4 ((setup S Z shift).eval m (H0'.ab.ooov + H'.ab.ooov)) = axes4 ((setup S Z shift).eval (store4 T t3a t3b t3c t3d) (stored.ab.ooov + hbar1.ab.ooov)))
    (e5 : axes4 ((setup S Z shift).eval m (H0'.ab.vovv + H'.ab.vovv)) = axes4 ((setup S Z shift).eval (store4 T t3a t3b t3c t3d) (stored.ab.vovv + hbar1.ab.vovv)))
    : Swept2 S.ua S.ua S.na S.na (setup S Z shift).dAA
      (fun a b i j => S.element (S.doubleAA a b i j) (transformed3 S Z T (listed3 t3a.list t3b.list t3c.list t3d.list))) (m 8)
      (callT2a (setup S Z shift) m T' H' H0' t3a t3b (m 8)) := by
  have hT₃ := listed3_antisym t3a.list t3b.list t3c.list t3d.list
  refine (sweptT2a (setup S Z shift) _ (m 8) (hT.aa) (fun _ _ _ _ => by rw [hm]; rfl) hd.aa).congr fun a b i j ha hb hi hj => ?_
  rw [er, e0, e1, e2, e3, e4, e5]
  let V := (setup S Z shift).eval (store4 T t3a t3b t3c t3d)
  let R := residualT2a amplitudes3.toAmps hbar1 stored
  let L := listsT2a (axes2 (V hbar1.a.ov)) (axes2 (V hbar1.b.ov)) (axes4 (V (stored.aa.ooov + hbar1.aa.ooov))) (axes4 (V (stored.aa.vovv + hbar1.aa.vovv))) (axes4 (V (stored.ab.ooov + hbar1.ab.ooov))) (axes4 (V (stored.ab.vovv + hbar1.ab.vovv))) t3a t3b (axes4 (V R))
  have l :  L (a + 1) (b + 1) (i + 1) (j + 1) - L (b + 1) (a + 1) (i + 1) (j + 1) - L (a + 1) (b + 1) (j + 1) (i + 1) + L (b + 1) (a + 1) (j + 1) (i + 1) = (V R [a, b, i, j] - V R [b, a, i, j] - V R [a, b, j, i] + V R [b, a, j, i]) + (t2a_t3a_h1a_ov (fun p q => V hbar1.a.ov [p, q]) (dimsOf (setup S Z shift)) (TripleList.ofThree t3a.list) a b i j - t2a_t3a_h1a_ov (fun p q => V hbar1.a.ov [p, q]) (dimsOf (setup S Z shift)) (TripleList.ofThree t3a.list) b a i j - t2a_t3a_h1a_ov (fun p q => V hbar1.a.ov [p, q]) (dimsOf (setup S Z shift)) (TripleList.ofThree t3a.list) a b j i + t2a_t3a_h1a_ov (fun p q => V hbar1.a.ov [p, q]) (dimsOf (setup S Z shift)) (TripleList.ofThree t3a.list) b a j i) + (t2a_t3a_h2a_ooov (fun p q r s => V (stored.aa.ooov + hbar1.aa.ooov) [p, q, r, s]) (dimsOf (setup S Z shift)) (TripleList.ofThree t3a.list) a b i j - t2a_t3a_h2a_ooov (fun p q r s => V (stored.aa.ooov + hbar1.aa.ooov) [p, q, r, s]) (dimsOf (setup S Z shift)) (TripleList.ofThree t3a.list) b a i j - t2a_t3a_h2a_ooov (fun p q r s => V (stored.aa.ooov + hbar1.aa.ooov) [p, q, r, s]) (dimsOf (setup S Z shift)) (TripleList.ofThree t3a.list) a b j i + t2a_t3a_h2a_ooov (fun p q r s => V (stored.aa.ooov + hbar1.aa.ooov) [p, q, r, s]) (dimsOf (setup S Z shift)) (TripleList.ofThree t3a.list) b a j i) + (t2a_t3a_h2a_vovv (fun p q r s => V (stored.aa.vovv + hbar1.aa.vovv) [p, q, r, s]) (dimsOf (setup S Z shift)) (TripleList.ofThree t3a.list) a b i j - t2a_t3a_h2a_vovv (fun p q r s => V (stored.aa.vovv + hbar1.aa.vovv) [p, q, r, s]) (dimsOf (setup S Z shift)) (TripleList.ofThree t3a.list) b a i j - t2a_t3a_h2a_vovv (fun p q r s => V (stored.aa.vovv + hbar1.aa.vovv) [p, q, r, s]) (dimsOf (setup S Z shift)) (TripleList.ofThree t3a.list) a b j i + t2a_t3a_h2a_vovv (fun p q r s => V (stored.aa.vovv + hbar1.aa.vovv) [p, q, r, s]) (dimsOf (setup S Z shift)) (TripleList.ofThree t3a.list) b a j i) + (t2a_t3b_h1b_ov (fun p q => V hbar1.b.ov [p, q]) (dimsOf (setup S Z shift)) (TripleList.ofTwoOne t3b.list) a b i j - t2a_t3b_h1b_ov (fun p q => V hbar1.b.ov [p, q]) (dimsOf (setup S Z shift)) (TripleList.ofTwoOne t3b.list) b a i j - t2a_t3b_h1b_ov (fun p q => V hbar1.b.ov [p, q]) (dimsOf (setup S Z shift)) (TripleList.ofTwoOne t3b.list) a b j i + t2a_t3b_h1b_ov (fun p q => V hbar1.b.ov [p, q]) (dimsOf (setup S Z shift)) (TripleList.ofTwoOne t3b.list) b a j i) + (t2a_t3b_h2b_ooov (fun p q r s => V (stored.ab.ooov + hbar1.ab.ooov) [p, q, r, s]) (dimsOf (setup S Z shift)) (TripleList.ofTwoOne t3b.list) a b i j - t2a_t3b_h2b_ooov (fun p q r s => V (stored.ab.ooov + hbar1.ab.ooov) [p, q, r, s]) (dimsOf (setup S Z shift)) (TripleList.ofTwoOne t3b.list) b a i j - t2a_t3b_h2b_ooov (fun p q r s => V (stored.ab.ooov + hbar1.ab.ooov) [p, q, r, s]) (dimsOf (setup S Z shift)) (TripleList.ofTwoOne t3b.list) a b j i + t2a_t3b_h2b_ooov (fun p q r s => V (stored.ab.ooov + hbar1.ab.ooov) [p, q, r, s]) (dimsOf (setup S Z shift)) (TripleList.ofTwoOne t3b.list) b a j i) + (t2a_t3b_h2b_vovv (fun p q r s => V (stored.ab.vovv + hbar1.ab.vovv) [p, q, r, s]) (dimsOf (setup S Z shift)) (TripleList.ofTwoOne t3b.list) a b i j - t2a_t3b_h2b_vovv (fun p q r s => V (stored.ab.vovv + hbar1.ab.vovv) [p, q, r, s]) (dimsOf (setup S Z shift)) (TripleList.ofTwoOne t3b.list) b a i j - t2a_t3b_h2b_vovv (fun p q r s => V (stored.ab.vovv + hbar1.ab.vovv) [p, q, r, s]) (dimsOf (setup S Z shift)) (TripleList.ofTwoOne t3b.list) a b j i + t2a_t3b_h2b_vovv (fun p q r s => V (stored.ab.vovv + hbar1.ab.vovv) [p, q, r, s]) (dimsOf (setup S Z shift)) (TripleList.ofTwoOne t3b.list) b a j i) :=
    listsT2a_eq (dimsOf (setup S Z shift)) (fun p q r s => flips_sound (S := S) hZ (mem_one hT) (mem_one hT₃) flips_aa_ooov fun w => if w = 0 then p else if w = 4 then q else if w = 8 then r else s) (fun p q r s => flips_sound (S := S) hZ (mem_one hT) (mem_one hT₃) flips_aa_vovv fun w => if w = 1 then p else if w = 0 then q else if w = 5 then r else s) ua.fits ub.fits (axes4 (V R)) a b i j
  have p : ∀ a b i j, V (Ccsdt.residualT2a amplitudes3 hbar1 stored) [a, b, i, j] = V R [a, b, i, j] + t2a_t3a_h1a_ov (fun p q => V hbar1.a.ov [p, q]) (dimsOf (setup S Z shift)) (TripleList.ofThree t3a.list) a b i j + t2a_t3a_h2a_ooov (fun p q r s => V (stored.aa.ooov + hbar1.aa.ooov) [p, q, r, s]) (dimsOf (setup S Z shift)) (TripleList.ofThree t3a.list) a b i j + t2a_t3a_h2a_vovv (fun p q r s => V (stored.aa.vovv + hbar1.aa.vovv) [p, q, r, s]) (dimsOf (setup S Z shift)) (TripleList.ofThree t3a.list) a b i j + t2a_t3b_h1b_ov (fun p q => V hbar1.b.ov [p, q]) (dimsOf (setup S Z shift)) (TripleList.ofTwoOne t3b.list) a b i j + t2a_t3b_h2b_ooov (fun p q r s => V (stored.ab.ooov + hbar1.ab.ooov) [p, q, r, s]) (dimsOf (setup S Z shift)) (TripleList.ofTwoOne t3b.list) a b i j + t2a_t3b_h2b_vovv (fun p q r s => V (stored.ab.vovv + hbar1.ab.vovv) [p, q, r, s]) (dimsOf (setup S Z shift)) (TripleList.ofTwoOne t3b.list) a b i j := fun a b i j =>
    residualT2a_split hbar1 stored axes_hbar1 axes_stored axes_amplitudes3 a b i j
  have c := C66_t2a h hZ hT hT₃ shift stored ha hb hi hj
  refine l.trans (Eq.trans ?_ c)
  have p1 := p a b i j; have p2 := p b a i j; have p3 := p a b j i; have p4 := p b a j i
  refine Eq.trans ?_ (show V (Ccsdt.residualT2a amplitudes3 hbar1 stored) [a, b, i, j] - V (Ccsdt.residualT2a amplitudes3 hbar1 stored) [b, a, i, j] - V (Ccsdt.residualT2a amplitudes3 hbar1 stored) [a, b, j, i] + V (Ccsdt.residualT2a amplitudes3 hbar1 stored) [b, a, j, i] = _ from rfl)
  rw [p1, p2, p3, p4]
  ring
end

section
set_option maxRecDepth 100000
include h hZ hT hd ua ub
theorem swept_callT2a (hm : ∀ n, 6 ≤ n → n ≤ 10 → m n = T.amp n) : Swept2 S.ua S.ua S.na S.na (setup S Z shift).dAA
      (fun a b i j => S.element (S.doubleAA a b i j) (transformed3 S Z T (listed3 t3a.list t3b.list t3c.list t3d.list))) (m 8)
      (callT2a (setup S Z shift) m amplitudes3.toAmps (atDoubles X) stored t3a t3b (m 8)) := by
  have hs : ∀ n, m n = m (backName 0 n) := fun n => by rw [backName_zero]
  have key : ∀ {x y : Ex}, x.rename (backName 0) = y → y.rename low = y → (setup S Z shift).eval m x = (setup S Z shift).eval (store4 T t3a t3b t3c t3d) y := fun hx hy => by
    rw [eval_backName _ hs, hx]
    exact eval_low (fun n h₁ h₂ => (hm n h₁ h₂).trans (by interval_cases n <;> rfl)) hy
  exact swept_callT2a_core h hZ hT hd ua ub (hm _ (by omega) (by omega)) (congrArg axes4 (key rfl rfl)) (congrArg axes2 (key rfl rfl)) (congrArg axes2 (key rfl rfl)) (congrArg axes4 (key rfl rfl)) (congrArg axes4 (key rfl rfl)) (congrArg axes4 (key rfl rfl)) (congrArg axes4 (key rfl rfl))
end

section
set_option maxRecDepth 100000
include h hZ hT hd ua ub
theorem swept_stageT2a (hs : ∀ n, m n = m (backName 2 n)) (hm : ∀ n, 6 ≤ n → n ≤ 10 → m n = T.amp n) : Swept2 S.ua S.ua S.na S.na (setup S Z shift).dAA
      (fun a b i j => S.element (S.doubleAA a b i j) (transformed3 S Z T (listed3 t3a.list t3b.list t3c.list t3d.list))) (m 8)
      (callT2a (setup S Z shift) m stage2.toAmps (ints2 X) stored t3a t3b (m 8)) := by
  have key : ∀ {x y : Ex}, x.rename (backName 2) = y → y.rename low = y → (setup S Z shift).eval m x = (setup S Z shift).eval (store4 T t3a t3b t3c t3d) y := fun hx hy => by
    rw [eval_backName _ hs, hx]
    exact eval_low (fun n h₁ h₂ => (hm n h₁ h₂).trans (by interval_cases n <;> rfl)) hy
  exact swept_callT2a_core h hZ hT hd ua ub (hm _ (by omega) (by omega)) (congrArg axes4 (key rfl rfl)) (congrArg axes2 (key rfl rfl)) (congrArg axes2 (key rfl rfl)) (congrArg axes4 (key rfl rfl)) (congrArg axes4 (key rfl rfl)) (congrArg axes4 (key rfl rfl)) (congrArg axes4 (key rfl rfl))
end

section
include h hZ hT hd ub uc
theorem swept_callT2b_core {T' : Amps} {H' H0' : Ints} 
    (er : axes4 ((setup S Z shift).eval m (residualT2b T' H' H0')) = axes4 ((setup S Z shift).eval (store4 T t3a t3b t3c t3d) (residualT2b amplitudes3.toAmps hbar1 stored)))
    (e0 : axes2 ((setup S Z shift).eval m H'.a.ov) = axes2 ((setup S Z shift).eval (store4 T t3a t3b t3c t3d) hbar1.a.ov))
    (e1 : axes2 ((setup S Z shift).eval m H'.b.ov) = axes2 ((setup S Z shift).eval (store4 T t3a t3b t3c t3d) hbar1.b.ov))
    (e2 : axes4 ((setup S Z shift).eval m (H'.aa.ooov + H0'.aa.ooov)) = axes4 ((setup S Z shift).eval (store4 T t3a t3b t3c t3d) (stored.aa.ooov + hbar1.aa.ooov)))
    (e3 : axes4 ((setup S Z shift).eval m (H'.aa.vovv + H0'.aa.vovv)) = axes4 ((setup S Z shift).eval (store4 T t3a t3b t3c t3d) (stored.aa.vovv + hbar1.aa.vovv)))
    (e4 : axes4 ((setup S Z shift).eval m (H'.ab.ooov + H0'.ab.ooov)) = axes4 ((setup S Z shift).eval (store4 T t3a t3b t3c t3d) (stored.ab.ooov + hbar1.ab.ooov)))
    (e5 : axes4 ((setup S Z shift).eval m (H'.ab.oovo + H0'.ab.oovo)) = axes4 ((setup S Z shift).eval (store4 T t3a t3b t3c t3d) (stored.ab.oovo + hbar1.ab.oovo)))
    (e6 : axes4 ((setup S Z shift).eval m (H'.ab.vovv + H0'.ab.vovv)) = axes4 ((setup S Z shift).eval (store4 T t3a t3b t3c t3d) (stored.ab.vovv + hbar1.ab.vovv)))
    (e7 : axes4 ((setup S Z shift).eval m (H'.ab.ovvv + H0'.ab.ovvv)) = axes4 ((setup S Z shift).eval (store4 T t3a t3b t3c t3d) (stored.ab.ovvv + hbar1.ab.ovvv)))
    (e8 : axes4 ((setup S Z shift).eval m (H'.bb.ooov + H0'.bb.ooov)) = axes4 ((setup S Z shift).eval (store4 T t3a t3b t3c t3d) (stored.bb.ooov + hbar1.bb.ooov)))
    (e9 : axes4 ((setup S Z shift).eval m (H'.bb.vovv + H0'.bb.vovv)) = axes4 ((setup S Z shift).eval (store4 T t3a t3b t3c t3d) (stored.bb.vovv + hbar1.bb.vovv)))
    : Swept2 S.ua S.ub S.na S.nb (setup S Z shift).dAB
      (fun a b i j => S.element (S.doubleAB a b i j) (transformed3 S Z T (listed3 t3a.list t3b.list t3c.list t3d.list))) (m 9)
      (callT2b (setup S Z shift) m T' H' H0' t3b t3c (m 9)) := by
  have hT₃ := listed3_antisym t3a.list t3b.list t3c.list t3d.list
  refine (sweptT2b (setup S Z shift) _ (m 9) hd.ab).congr fun a b i j ha hb hi hj => ?_
  rw [er, e0, e1, e2, e3, e4, e5, e6, e7, e8, e9]
  let V := (setup S Z shift).eval (store4 T t3a t3b t3c t3d)
  let R := residualT2b amplitudes3.toAmps hbar1 stored
  let L := listsT2b (axes2 (V hbar1.a.ov)) (axes2 (V hbar1.b.ov)) (axes4 (V (stored.aa.ooov + hbar1.aa.ooov))) (axes4 (V (stored.aa.vovv + hbar1.aa.vovv))) (axes4 (V (stored.ab.ooov + hbar1.ab.ooov))) (axes4 (V (stored.ab.oovo + hbar1.ab.oovo))) (axes4 (V (stored.ab.vovv + hbar1.ab.vovv))) (axes4 (V (stored.ab.ovvv + hbar1.ab.ovvv))) (axes4 (V (stored.bb.ooov + hbar1.bb.ooov))) (axes4 (V (stored.bb.vovv + hbar1.bb.vovv))) t3b t3c (axes4 (V R))
  have l : L (a + 1) (b + 1) (i + 1) (j + 1) = V R [a, b, i, j] + t2b_t3b_h2a_ooov (fun p q r s => V (stored.aa.ooov + hbar1.aa.ooov) [p, q, r, s]) (dimsOf (setup S Z shift)) (TripleList.ofTwoOne t3b.list) a b i j + t2b_t3b_h2b_oovo (fun p q r s => V (stored.ab.oovo + hbar1.ab.oovo) [p, q, r, s]) (dimsOf (setup S Z shift)) (TripleList.ofTwoOne t3b.list) a b i j + t2b_t3b_h2a_vovv (fun p q r s => V (stored.aa.vovv + hbar1.aa.vovv) [p, q, r, s]) (dimsOf (setup S Z shift)) (TripleList.ofTwoOne t3b.list) a b i j + t2b_t3b_h2b_ovvv (fun p q r s => V (stored.ab.ovvv + hbar1.ab.ovvv) [p, q, r, s]) (dimsOf (setup S Z shift)) (TripleList.ofTwoOne t3b.list) a b i j + t2b_t3b_h1a_ov (fun p q => V hbar1.a.ov [p, q]) (dimsOf (setup S Z shift)) (TripleList.ofTwoOne t3b.list) a b i j + t2b_t3c_h2c_ooov (fun p q r s => V (stored.bb.ooov + hbar1.bb.ooov) [p, q, r, s]) (dimsOf (setup S Z shift)) (TripleList.ofOneTwo t3c.list) a b i j + t2b_t3c_h2b_ooov (fun p q r s => V (stored.ab.ooov + hbar1.ab.ooov) [p, q, r, s]) (dimsOf (setup S Z shift)) (TripleList.ofOneTwo t3c.list) a b i j + t2b_t3c_h2c_vovv (fun p q r s => V (stored.bb.vovv + hbar1.bb.vovv) [p, q, r, s]) (dimsOf (setup S Z shift)) (TripleList.ofOneTwo t3c.list) a b i j + t2b_t3c_h2b_vovv (fun p q r s => V (stored.ab.vovv + hbar1.ab.vovv) [p, q, r, s]) (dimsOf (setup S Z shift)) (TripleList.ofOneTwo t3c.list) a b i j + t2b_t3c_h1b_ov (fun p q => V hbar1.b.ov [p, q]) (dimsOf (setup S Z shift)) (TripleList.ofOneTwo t3c.list) a b i j :=
    listsT2b_eq (dimsOf (setup S Z shift)) (fun p q r s => flips_sound (S := S) hZ (mem_one hT) (mem_one hT₃) flips_aa_ooov fun w => if w = 0 then p else if w = 4 then q else if w = 8 then r else s) (fun p q r s => flips_sound (S := S) hZ (mem_one hT) (mem_one hT₃) flips_aa_vovv fun w => if w = 1 then p else if w = 0 then q else if w = 5 then r else s) (fun p q r s => flips_sound (S := S) hZ (mem_one hT) (mem_one hT₃) flips_bb_ooov fun w => if w = 2 then p else if w = 6 then q else if w = 10 then r else s) (fun p q r s => flips_sound (S := S) hZ (mem_one hT) (mem_one hT₃) flips_bb_vovv fun w => if w = 3 then p else if w = 2 then q else if w = 7 then r else s) ub.fits uc.fits (axes4 (V R)) a b i j
  have p : ∀ a b i j, V (Ccsdt.residualT2b amplitudes3 hbar1 stored) [a, b, i, j] = V R [a, b, i, j] + t2b_t3b_h2a_ooov (fun p q r s => V (stored.aa.ooov + hbar1.aa.ooov) [p, q, r, s]) (dimsOf (setup S Z shift)) (TripleList.ofTwoOne t3b.list) a b i j + t2b_t3b_h2b_oovo (fun p q r s => V (stored.ab.oovo + hbar1.ab.oovo) [p, q, r, s]) (dimsOf (setup S Z shift)) (TripleList.ofTwoOne t3b.list) a b i j + t2b_t3b_h2a_vovv (fun p q r s => V (stored.aa.vovv + hbar1.aa.vovv) [p, q, r, s]) (dimsOf (setup S Z shift)) (TripleList.ofTwoOne t3b.list) a b i j + t2b_t3b_h2b_ovvv (fun p q r s => V (stored.ab.ovvv + hbar1.ab.ovvv) [p, q, r, s]) (dimsOf (setup S Z shift)) (TripleList.ofTwoOne t3b.list) a b i j + t2b_t3b_h1a_ov (fun p q => V hbar1.a.ov [p, q]) (dimsOf (setup S Z shift)) (TripleList.ofTwoOne t3b.list) a b i j + t2b_t3c_h2c_ooov (fun p q r s => V (stored.bb.ooov + hbar1.bb.ooov) [p, q, r, s]) (dimsOf (setup S Z shift)) (TripleList.ofOneTwo t3c.list) a b i j + t2b_t3c_h2b_ooov (fun p q r s => V (stored.ab.ooov + hbar1.ab.ooov) [p, q, r, s]) (dimsOf (setup S Z shift)) (TripleList.ofOneTwo t3c.list) a b i j + t2b_t3c_h2c_vovv (fun p q r s => V (stored.bb.vovv + hbar1.bb.vovv) [p, q, r, s]) (dimsOf (setup S Z shift)) (TripleList.ofOneTwo t3c.list) a b i j + t2b_t3c_h2b_vovv (fun p q r s => V (stored.ab.vovv + hbar1.ab.vovv) [p, q, r, s]) (dimsOf (setup S Z shift)) (TripleList.ofOneTwo t3c.list) a b i j + t2b_t3c_h1b_ov (fun p q => V hbar1.b.ov [p, q]) (dimsOf (setup S Z shift)) (TripleList.ofOneTwo t3c.list) a b i j := fun a b i j =>
    residualT2b_split hbar1 stored axes_hbar1 axes_stored axes_amplitudes3 a b i j
  have c := C66_t2b h hZ hT hT₃ shift stored ha hb hi hj
  exact l.trans ((p a b i j).symm.trans c)
end

section
set_option maxRecDepth 100000
include h hZ hT hd ub uc
theorem swept_callT2b (hm : ∀ n, 6 ≤ n → n ≤ 10 → m n = T.amp n) : Swept2 S.ua S.ub S.na S.nb (setup S Z shift).dAB
      (fun a b i j => S.element (S.doubleAB a b i j) (transformed3 S Z T (listed3 t3a.list t3b.list t3c.list t3d.list))) (m 9)
      (callT2b (setup S Z shift) m amplitudes3.toAmps (atDoubles X) stored t3b t3c (m 9)) := by
  have hs : ∀ n, m n = m (backName 0 n) := fun n => by rw [backName_zero]
  have key : ∀ {x y : Ex}, x.rename (backName 0) = y → y.rename low = y → (setup S Z shift).eval m x = (setup S Z shift).eval (store4 T t3a t3b t3c t3d) y := fun hx hy => by
    rw [eval_backName _ hs, hx]
    exact eval_low (fun n h₁ h₂ => (hm n h₁ h₂).trans (by interval_cases n <;> rfl)) hy
  exact swept_callT2b_core h hZ hT hd ub uc (congrArg axes4 (key rfl rfl)) (congrArg axes2 (key rfl rfl)) (congrArg axes2 (key rfl rfl)) (congrArg axes4 (by refine Eq.trans ?_ (eval_comm _ _ _ _); exact key rfl rfl)) (congrArg axes4 (by refine Eq.trans ?_ (eval_comm _ _ _ _); exact key rfl rfl)) (congrArg axes4 (by refine Eq.trans ?_ (eval_comm _ _ _ _); exact key rfl rfl)) (congrArg axes4 (by refine Eq.trans ?_ (eval_comm _ _ _ _); exact key rfl rfl)) (congrArg axes4 (by refine Eq.trans ?_ (eval_comm _ _ _ _); exact key rfl rfl)) (congrArg axes4 (by refine Eq.trans ?_ (eval_comm _ _ _ _); exact key rfl rfl)) (congrArg axes4 (by refine Eq.trans ?_ (eval_comm _ _ _ _); exact key rfl rfl)) (congrArg axes4 (by refine Eq.trans ?_ (eval_comm _ _ _ _); exact key rfl rfl))
end

section
set_option maxRecDepth 100000
include h hZ hT hd ub uc
theorem swept_stageT2b (hs : ∀ n, m n = m (backName 3 n)) (hm : ∀ n, 6 ≤ n → n ≤ 10 → m n = T.amp n) : Swept2 S.ua S.ub S.na S.nb (setup S Z shift).dAB
      (fun a b i j => S.element (S.doubleAB a b i j) (transformed3 S Z T (listed3 t3a.list t3b.list t3c.list t3d.list))) (m 9)
      (callT2b (setup S Z shift) m stage3.toAmps (ints2 X) stored t3b t3c (m 9)) := by
  have key : ∀ {x y : Ex}, x.rename (backName 3) = y → y.rename low = y → (setup S Z shift).eval m x = (setup S Z shift).eval (store4 T t3a t3b t3c t3d) y := fun hx hy => by
    rw [eval_backName _ hs, hx]
    exact eval_low (fun n h₁ h₂ => (hm n h₁ h₂).trans (by interval_cases n <;> rfl)) hy
  exact swept_callT2b_core h hZ hT hd ub uc (congrArg axes4 (key rfl rfl)) (congrArg axes2 (key rfl rfl)) (congrArg axes2 (key rfl rfl)) (congrArg axes4 (by refine Eq.trans ?_ (eval_comm _ _ _ _); exact key rfl rfl)) (congrArg axes4 (by refine Eq.trans ?_ (eval_comm _ _ _ _); exact key rfl rfl)) (congrArg axes4 (by refine Eq.trans ?_ (eval_comm _ _ _ _); exact key rfl rfl)) (congrArg axes4 (by refine Eq.trans ?_ (eval_comm _ _ _ _); exact key rfl rfl)) (congrArg axes4 (by refine Eq.trans ?_ (eval_comm _ _ _ _); exact key rfl rfl)) (congrArg axes4 (by refine Eq.trans ?_ (eval_comm _ _ _ _); exact key rfl rfl)) (congrArg axes4 (by refine Eq.trans ?_ (eval_comm _ _ _ _); exact key rfl rfl)) (congrArg axes4 (by refine Eq.trans ?_ (eval_comm _ _ _ _); exact key rfl rfl))
end

section
include h hZ hT hd uc ud
theorem swept_callT2c_core {T' : Amps} {H' H0' : Ints} (hm : m 10 = T.amp 10) 
    (er : axes4 ((setup S Z shift).eval m (residualT2c T' H' H0')) = axes4 ((setup S Z shift).eval (store4 T t3a t3b t3c t3d) (residualT2c amplitudes3.toAmps hbar1 stored)))
    (e0 : axes2 ((setup S Z shift).eval m H'.a.ov) = axes2 ((setup S Z shift).eval (store4 T t3a t3b t3c t3d) hbar1.a.ov))
    (e1 : axes2 ((setup S Z shift).eval m H'.b.ov) = axes2 ((setup S Z shift).eval (store4 T t3a t3b t3c t3d) hbar1.b.ov))
    (e2 : axes4 ((setup S Z shift).eval m (H0'.ab.oovo + H'.ab.oovo)) = axes4 ((setup S Z shift).eval (store4 T t3a t3b t3c t3d) (stored.ab.oovo + hbar1.ab.oovo)))
    (e3 : axes4 ((setup S Z shift).eval m (H0'.ab.ovvv + H'.ab.ovvv)) = axes4 ((setup S Z shift).eval (store4 T t3a t3b t3c t3d) (stored.ab.ovvv + hbar1.ab.ovvv)))
    (e4 : axes4 ((setup S Z shift).eval m (H0'.bb.ooov + H'.bb.ooov)) = axes4 ((setup S Z shift).eval (store4 T t3a t3b t3c t3d) (stored.bb.ooov + hbar1.bb.ooov)))
    (e5 : axes4 ((setup S Z shift).eval m (H0'.bb.vovv + H'.bb.vovv)) = axes4 ((setup S Z shift).eval (store4 T t3a t3b t3c t3d) (stored.bb.vovv + hbar1.bb.vovv)))
    : Swept2 S.ub S.ub S.nb S.nb (setup S Z shift).dBB
      (fun a b i j => S.element (S.doubleBB a b i j) (transformed3 S Z T (listed3 t3a.list t3b.list t3c.list t3d.list))) (m 10)
      (callT2c (setup S Z shift) m T' H' H0' t3c t3d (m 10)) := by
  have hT₃ := listed3_antisym t3a.list t3b.list t3c.list t3d.list
  refine (sweptT2c (setup S Z shift) _ (m 10) (hT.bb) (fun _ _ _ _ => by rw [hm]; rfl) hd.bb).congr fun a b i j ha hb hi hj => ?_
  rw [er, e0, e1, e2, e3, e4, e5]
  let V := (setup S Z shift).eval (store4 T t3a t3b t3c t3d)
  let R := residualT2c amplitudes3.toAmps hbar1 stored
  let L := listsT2c (axes2 (V hbar1.a.ov)) (axes2 (V hbar1.b.ov)) (axes4 (V (stored.ab.oovo + hbar1.ab.oovo))) (axes4 (V (stored.ab.ovvv + hbar1.ab.ovvv))) (axes4 (V (stored.bb.ooov + hbar1.bb.ooov))) (axes4 (V (stored.bb.vovv + hbar1.bb.vovv))) t3c t3d (axes4 (V R))
  have l :  L (a + 1) (b + 1) (i + 1) (j + 1) - L (b + 1) (a + 1) (i + 1) (j + 1) - L (a + 1) (b + 1) (j + 1) (i + 1) + L (b + 1) (a + 1) (j + 1) (i + 1) = (V R [a, b, i, j] - V R [b, a, i, j] - V R [a, b, j, i] + V R [b, a, j, i]) + (t2c_t3c_h1a_ov (fun p q => V hbar1.a.ov [p, q]) (dimsOf (setup S Z shift)) (TripleList.ofOneTwo t3c.list) a b i j - t2c_t3c_h1a_ov (fun p q => V hbar1.a.ov [p, q]) (dimsOf (setup S Z shift)) (TripleList.ofOneTwo t3c.list) b a i j - t2c_t3c_h1a_ov (fun p q => V hbar1.a.ov [p, q]) (dimsOf (setup S Z shift)) (TripleList.ofOneTwo t3c.list) a b j i + t2c_t3c_h1a_ov (fun p q => V hbar1.a.ov [p, q]) (dimsOf (setup S Z shift)) (TripleList.ofOneTwo t3c.list) b a j i) + (t2c_t3c_h2b_ovvv (fun p q r s => V (stored.ab.ovvv + hbar1.ab.ovvv) [p, q, r, s]) (dimsOf (setup S Z shift)) (TripleList.ofOneTwo t3c.list) a b i j - t2c_t3c_h2b_ovvv (fun p q r s => V (stored.ab.ovvv + hbar1.ab.ovvv) [p, q, r, s]) (dimsOf (setup S Z shift)) (TripleList.ofOneTwo t3c.list) b a i j - t2c_t3c_h2b_ovvv (fun p q r s => V (stored.ab.ovvv + hbar1.ab.ovvv) [p, q, r, s]) (dimsOf (setup S Z shift)) (TripleList.ofOneTwo t3c.list) a b j i + t2c_t3c_h2b_ovvv (fun p q r s => V (stored.ab.ovvv + hbar1.ab.ovvv) [p, q, r, s]) (dimsOf (setup S Z shift)) (TripleList.ofOneTwo t3c.list) b a j i) + (t2c_t3c_h2b_oovo (fun p q r s => V (stored.ab.oovo + hbar1.ab.oovo) [p, q, r, s]) (dimsOf (setup S Z shift)) (TripleList.ofOneTwo t3c.list) a b i j - t2c_t3c_h2b_oovo (fun p q r s => V (stored.ab.oovo + hbar1.ab.oovo) [p, q, r, s]) (dimsOf (setup S Z shift)) (TripleList.ofOneTwo t3c.list) b a i j - t2c_t3c_h2b_oovo (fun p q r s => V (stored.ab.oovo + hbar1.ab.oovo) [p, q, r, s]) (dimsOf (setup S Z shift)) (TripleList.ofOneTwo t3c.list) a b j i + t2c_t3c_h2b_oovo (fun p q r s => V (stored.ab.oovo + hbar1.ab.oovo) [p, q, r, s]) (dimsOf (setup S Z shift)) (TripleList.ofOneTwo t3c.list) b a j i) + (t2c_t3d_h1b_ov (fun p q => V hbar1.b.ov [p, q]) (dimsOf (setup S Z shift)) (TripleList.ofThree t3d.list) a b i j - t2c_t3d_h1b_ov (fun p q => V hbar1.b.ov [p, q]) (dimsOf (setup S Z shift)) (TripleList.ofThree t3d.list) b a i j - t2c_t3d_h1b_ov (fun p q => V hbar1.b.ov [p, q]) (dimsOf (setup S Z shift)) (TripleList.ofThree t3d.list) a b j i + t2c_t3d_h1b_ov (fun p q => V hbar1.b.ov [p, q]) (dimsOf (setup S Z shift)) (TripleList.ofThree t3d.list) b a j i) + (t2c_t3d_h2c_ooov (fun p q r s => V (stored.bb.ooov + hbar1.bb.ooov) [p, q, r, s]) (dimsOf (setup S Z shift)) (TripleList.ofThree t3d.list) a b i j - t2c_t3d_h2c_ooov (fun p q r s => V (stored.bb.ooov + hbar1.bb.ooov) [p, q, r, s]) (dimsOf (setup S Z shift)) (TripleList.ofThree t3d.list) b a i j - t2c_t3d_h2c_ooov (fun p q r s => V (stored.bb.ooov + hbar1.bb.ooov) [p, q, r, s]) (dimsOf (setup S Z shift)) (TripleList.ofThree t3d.list) a b j i + t2c_t3d_h2c_ooov (fun p q r s => V (stored.bb.ooov + hbar1.bb.ooov) [p, q, r, s]) (dimsOf (setup S Z shift)) (TripleList.ofThree t3d.list) b a j i) + (t2c_t3d_h2c_vovv (fun p q r s => V (stored.bb.vovv + hbar1.bb.vovv) [p, q, r, s]) (dimsOf (setup S Z shift)) (TripleList.ofThree t3d.list) a b i j - t2c_t3d_h2c_vovv (fun p q r s => V (stored.bb.vovv + hbar1.bb.vovv) [p, q, r, s]) (dimsOf (setup S Z shift)) (TripleList.ofThree t3d.list) b a i j - t2c_t3d_h2c_vovv (fun p q r s => V (stored.bb.vovv + hbar1.bb.vovv) [p, q, r, s]) (dimsOf (setup S Z shift)) (TripleList.ofThree t3d.list) a b j i + t2c_t3d_h2c_vovv (fun p q r s => V (stored.bb.vovv + hbar1.bb.vovv) [p, q, r, s]) (dimsOf (setup S Z shift)) (TripleList.ofThree t3d.list) b a j i) :=
    listsT2c_eq (dimsOf (setup S Z shift)) (fun p q r s => flips_sound (S := S) hZ (mem_one hT) (mem_one hT₃) flips_bb_ooov fun w => if w = 2 then p else if w = 6 then q else if w = 10 then r else s) (fun p q r s => flips_sound (S := S) hZ (mem_one hT) (mem_one hT₃) flips_bb_vovv fun w => if w = 3 then p else if w = 2 then q else if w = 7 then r else s) uc.fits ud.fits (axes4 (V R)) a b i j
  have p : ∀ a b i j, V (Ccsdt.residualT2c amplitudes3 hbar1 stored) [a, b, i, j] = V R [a, b, i, j] + t2c_t3c_h1a_ov (fun p q => V hbar1.a.ov [p, q]) (dimsOf (setup S Z shift)) (TripleList.ofOneTwo t3c.list) a b i j + t2c_t3c_h2b_ovvv (fun p q r s => V (stored.ab.ovvv + hbar1.ab.ovvv) [p, q, r, s]) (dimsOf (setup S Z shift)) (TripleList.ofOneTwo t3c.list) a b i j + t2c_t3c_h2b_oovo (fun p q r s => V (stored.ab.oovo + hbar1.ab.oovo) [p, q, r, s]) (dimsOf (setup S Z shift)) (TripleList.ofOneTwo t3c.list) a b i j + t2c_t3d_h1b_ov (fun p q => V hbar1.b.ov [p, q]) (dimsOf (setup S Z shift)) (TripleList.ofThree t3d.list) a b i j + t2c_t3d_h2c_ooov (fun p q r s => V (stored.bb.ooov + hbar1.bb.ooov) [p, q, r, s]) (dimsOf (setup S Z shift)) (TripleList.ofThree t3d.list) a b i j + t2c_t3d_h2c_vovv (fun p q r s => V (stored.bb.vovv + hbar1.bb.vovv) [p, q, r, s]) (dimsOf (setup S Z shift)) (TripleList.ofThree t3d.list) a b i j := fun a b i j =>
    residualT2c_split hbar1 stored axes_hbar1 axes_stored axes_amplitudes3 a b i j
  have c := C66_t2c h hZ hT hT₃ shift stored ha hb hi hj
  refine l.trans (Eq.trans ?_ c)
  have p1 := p a b i j; have p2 := p b a i j; have p3 := p a b j i; have p4 := p b a j i
  refine Eq.trans ?_ (show V (Ccsdt.residualT2c amplitudes3 hbar1 stored) [a, b, i, j] - V (Ccsdt.residualT2c amplitudes3 hbar1 stored) [b, a, i, j] - V (Ccsdt.residualT2c amplitudes3 hbar1 stored) [a, b, j, i] + V (Ccsdt.residualT2c amplitudes3 hbar1 stored) [b, a, j, i] = _ from rfl)
  rw [p1, p2, p3, p4]
  ring
end

section
set_option maxRecDepth 100000
include h hZ hT hd uc ud
theorem swept_callT2c (hm : ∀ n, 6 ≤ n → n ≤ 10 → m n = T.amp n) : Swept2 S.ub S.ub S.nb S.nb (setup S Z shift).dBB
      (fun a b i j => S.element (S.doubleBB a b i j) (transformed3 S Z T (listed3 t3a.list t3b.list t3c.list t3d.list))) (m 10)
      (callT2c (setup S Z shift) m amplitudes3.toAmps (atDoubles X) stored t3c t3d (m 10)) := by
  have hs : ∀ n, m n = m (backName 0 n) := fun n => by rw [backName_zero]
  have key : ∀ {x y : Ex}, x.rename (backName 0) = y → y.rename low = y → (setup S Z shift).eval m x = (setup S Z shift).eval (store4 T t3a t3b t3c t3d) y := fun hx hy => by
    rw [eval_backName _ hs, hx]
    exact eval_low (fun n h₁ h₂ => (hm n h₁ h₂).trans (by interval_cases n <;> rfl)) hy
  exact swept_callT2c_core h hZ hT hd uc ud (hm _ (by omega) (by omega)) (congrArg axes4 (key rfl rfl)) (congrArg axes2 (key rfl rfl)) (congrArg axes2 (key rfl rfl)) (congrArg axes4 (key rfl rfl)) (congrArg axes4 (key rfl rfl)) (congrArg axes4 (key rfl rfl)) (congrArg axes4 (key rfl rfl))
end

section
set_option maxRecDepth 100000
include h hZ hT hd uc ud
theorem swept_stageT2c (hs : ∀ n, m n = m (backName 4 n)) (hm : ∀ n, 6 ≤ n → n ≤ 10 → m n = T.amp n) : Swept2 S.ub S.ub S.nb S.nb (setup S Z shift).dBB
      (fun a b i j => S.element (S.doubleBB a b i j) (transformed3 S Z T (listed3 t3a.list t3b.list t3c.list t3d.list))) (m 10)
      (callT2c (setup S Z shift) m stage4.toAmps (ints2 X) stored t3c t3d (m 10)) := by
  have key : ∀ {x y : Ex}, x.rename (backName 4) = y → y.rename low = y → (setup S Z shift).eval m x = (setup S Z shift).eval (store4 T t3a t3b t3c t3d) y := fun hx hy => by
    rw [eval_backName _ hs, hx]
    exact eval_low (fun n h₁ h₂ => (hm n h₁ h₂).trans (by interval_cases n <;> rfl)) hy
  exact swept_callT2c_core h hZ hT hd uc ud (hm _ (by omega) (by omega)) (congrArg axes4 (key rfl rfl)) (congrArg axes2 (key rfl rfl)) (congrArg axes2 (key rfl rfl)) (congrArg axes4 (key rfl rfl)) (congrArg axes4 (key rfl rfl)) (congrArg axes4 (key rfl rfl)) (congrArg axes4 (key rfl rfl))
end

end

end Ccpy.PSpace
