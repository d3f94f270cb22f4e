import Verif.Lemmas.PSpaceLow
import Verif.Lemmas.PSpaceClosedChecks
import Verif.Lemmas.ClosedCcsdt

/-! The restricted kernels that update single and double excitations, with listed triple excitations. -/

namespace Ccpy.PSpace
open Ccpy.Tensor Ccpy.Fock Ccpy.Ccsdt Ccpy.Engine Ccpy.Ccsd Ccpy.Rdm

variable {ι : Type*} [LinearOrder ι]

theorem axes2_eq {f g : List ℕ → ℚ} (h : ∀ p q, f [p, q] = g [p, q]) : axes2 f = axes2 g := by
  funext p q
  exact h _ _
theorem axes4_eq {f g : List ℕ → ℚ} (h : ∀ p q r s, f [p, q, r, s] = g [p, q, r, s]) : axes4 f = axes4 g := by
  funext p q r s
  exact h _ _ _ _

section
variable {S : Orbitals ι} (h : S.Proper) {Z : Fock.Integrals} (hC : ClosedShell S Z) (hZ : Z.Antisym) {T : Cluster} (hT : T.Antisym)
  (hs : T.Symmetric) {shift : ℚ}
  (hd : Denominators (setup S Z shift)) (X : Ints) {m : Memory} {t3a t3b t3c t3d : Buffer} (ua : t3a.Usable (ListedAAA S.ua S.na))
  (ub : t3b.Usable (ListedAAB S.ua S.ub S.na S.nb)) (uc : t3c.Usable (ListedABB S.ua S.ub S.na S.nb)) (ud : t3d.Usable (ListedAAA S.ub S.nb))
  (hs₃ : (listed3 t3a.list t3b.list t3c.list t3d.list).Symmetric)

include hC hZ hT hs hs₃ in
theorem closed_at2 {x y : Ex} {v w : Var} (c : equalC x [v, w] y [v, w] = true) (hv : [v, w].Nodup) (p q : ℕ) :
    (setup S Z shift).eval (store4 T t3a t3b t3c t3d) x [p, q] = (setup S Z shift).eval (store4 T t3a t3b t3c t3d) y [p, q] := by
  have e := equalC_sound hC hZ (mem_one hT) (mem_one hs) (mem_one (listed3_antisym t3a.list t3b.list t3c.list t3d.list)) (mem_one hs₃) c
    (fun u => if u = v then p else q)
  simp only [List.nodup_cons, List.mem_cons, List.not_mem_nil, or_false] at hv
  simp only [List.map_cons, List.map_nil, if_true, if_neg (Ne.symm hv.1)] at e
  exact e

include hC hZ hT hs hs₃ in
theorem closed_at4 {x y : Ex} {v w a b : Var} (c : equalC x [v, w, a, b] y [v, w, a, b] = true) (hv : [v, w, a, b].Nodup)
    (p q r s : ℕ) : (setup S Z shift).eval (store4 T t3a t3b t3c t3d) x [p, q, r, s]
      = (setup S Z shift).eval (store4 T t3a t3b t3c t3d) y [p, q, r, s] := by
  have e := equalC_sound hC hZ (mem_one hT) (mem_one hs) (mem_one (listed3_antisym t3a.list t3b.list t3c.list t3d.list)) (mem_one hs₃) c
    (fun u => if u = v then p else if u = w then q else if u = a then r else s)
  simp only [List.nodup_cons, List.mem_cons, List.not_mem_nil, or_false, not_or] at hv
  obtain ⟨⟨h₁, h₂, h₃⟩, ⟨h₄, h₅⟩, h₆, -⟩ := hv
  simp only [List.map_cons, List.map_nil, if_true, if_neg (Ne.symm h₁), if_neg (Ne.symm h₂), if_neg (Ne.symm h₃), if_neg (Ne.symm h₄),
    if_neg (Ne.symm h₅), if_neg (Ne.symm h₆)] at e
  exact e

section
set_option maxRecDepth 100000
include h hC hZ hT hs hs₃ hd ua ub uc
theorem sweptR_stageT1a (hb : ∀ n, m n = m (backName 0 n)) (hm : ∀ n, 6 ≤ n → n ≤ 10 → m n = T.amp n) : Swept1 S.na S.ua (setup S Z shift).dA
      (fun a i => S.element (S.singleA a i) (transformed3 S Z T (listed3 t3a.list t3b.list t3c.list t3d.list))) (m 6)
      (callT1a (setup S Z shift) m amplitudes3.toAmps (ints1R X) stored t3a t3b t3c (m 6)) := by
  have key : ∀ {x y : Ex}, x.rename (backName 0) = y → y.rename low = y → (setup S Z shift).eval m x = (setup S Z shift).eval (store4 T t3a t3b t3c t3d) y := fun hx hy => by
    rw [eval_backName _ hb, hx]
    exact eval_low (fun n h₁ h₂ => (hm n h₁ h₂).trans (by interval_cases n <;> rfl)) hy
  have keyR2 : ∀ {v0 v1 : Var} {x yR y : Ex}, equalC yR [v0, v1] y [v0, v1] = true → [v0, v1].Nodup → x.rename (backName 0) = yR → yR.rename low = yR →
      axes2 ((setup S Z shift).eval m x) = axes2 ((setup S Z shift).eval (store4 T t3a t3b t3c t3d) y) := fun c hv hx hy => axes2_eq fun p q =>
    (congrFun (key hx hy) _).trans (closed_at2 hC hZ hT hs hs₃ c hv p q)
  exact swept_callT1a_core h hZ hT hd ua ub uc (keyR2 closed_residT1a (by decide) rfl rfl) (congrArg axes4 (key rfl rfl)) (congrArg axes4 (key rfl rfl)) (congrArg axes4 (key rfl rfl))
end

section
set_option maxRecDepth 100000
include h hC hZ hT hs hs₃ hd ua ub
theorem sweptR_stageT2a (hb : ∀ n, m n = m (backName 2 n)) (hm : ∀ n, 6 ≤ n → n ≤ 10 → m n = T.amp n) : Swept2 S.ua S.ua S.na S.na (setup S Z shift).dAA
      (fun a b i j => S.element (S.doubleAA a b i j) (transformed3 S Z T (listed3 t3a.list t3b.list t3c.list t3d.list))) (m 8)
      (callT2a (setup S Z shift) m stage2.toAmps (ints2R X) stored t3a t3b (m 8)) := by
  have key : ∀ {x y : Ex}, x.rename (backName 2) = y → y.rename low = y → (setup S Z shift).eval m x = (setup S Z shift).eval (store4 T t3a t3b t3c t3d) y := fun hx hy => by
    rw [eval_backName _ hb, hx]
    exact eval_low (fun n h₁ h₂ => (hm n h₁ h₂).trans (by interval_cases n <;> rfl)) hy
  have keyR2 : ∀ {v0 v1 : Var} {x yR y : Ex}, equalC yR [v0, v1] y [v0, v1] = true → [v0, v1].Nodup → x.rename (backName 2) = yR → yR.rename low = yR →
      axes2 ((setup S Z shift).eval m x) = axes2 ((setup S Z shift).eval (store4 T t3a t3b t3c t3d) y) := fun c hv hx hy => axes2_eq fun p q =>
    (congrFun (key hx hy) _).trans (closed_at2 hC hZ hT hs hs₃ c hv p q)
  have keyR4 : ∀ {v0 v1 v2 v3 : Var} {x yR y : Ex}, equalC yR [v0, v1, v2, v3] y [v0, v1, v2, v3] = true → [v0, v1, v2, v3].Nodup → x.rename (backName 2) = yR → yR.rename low = yR →
      axes4 ((setup S Z shift).eval m x) = axes4 ((setup S Z shift).eval (store4 T t3a t3b t3c t3d) y) := fun c hv hx hy => axes4_eq fun p q r s =>
    (congrFun (key hx hy) _).trans (closed_at4 hC hZ hT hs hs₃ c hv p q r s)
  exact swept_callT2a_core h hZ hT hd ua ub (hm _ (by omega) (by omega)) (keyR4 closed_residT2a (by decide) rfl rfl) (keyR2 closed_T2a_1A_ov (by decide) rfl rfl) (keyR2 closed_T2a_1B_ov (by decide) rfl rfl) (keyR4 closed_T2a_2A_ooov (by decide) rfl rfl) (keyR4 closed_T2a_2A_vovv (by decide) rfl rfl) (keyR4 closed_T2a_2B_ooov (by decide) rfl rfl) (keyR4 closed_T2a_2B_vovv (by decide) rfl rfl)
end

section
set_option maxRecDepth 100000
include h hC hZ hT hs hs₃ hd ub uc
theorem sweptR_stageT2b (hb : ∀ n, m n = m (backName 3 n)) (hm : ∀ n, 6 ≤ n → n ≤ 10 → m n = T.amp n) : Swept2 S.ua S.ub S.na S.nb (setup S Z shift).dAB
      (fun a b i j => S.element (S.doubleAB a b i j) (transformed3 S Z T (listed3 t3a.list t3b.list t3c.list t3d.list))) (m 9)
      (callT2b (setup S Z shift) m stage3.toAmps (ints2R X) stored t3b t3c (m 9)) := by
  have key : ∀ {x y : Ex}, x.rename (backName 3) = y → y.rename low = y → (setup S Z shift).eval m x = (setup S Z shift).eval (store4 T t3a t3b t3c t3d) y := fun hx hy => by
    rw [eval_backName _ hb, hx]
    exact eval_low (fun n h₁ h₂ => (hm n h₁ h₂).trans (by interval_cases n <;> rfl)) hy
  have keyR2 : ∀ {v0 v1 : Var} {x yR y : Ex}, equalC yR [v0, v1] y [v0, v1] = true → [v0, v1].Nodup → x.rename (backName 3) = yR → yR.rename low = yR →
      axes2 ((setup S Z shift).eval m x) = axes2 ((setup S Z shift).eval (store4 T t3a t3b t3c t3d) y) := fun c hv hx hy => axes2_eq fun p q =>
    (congrFun (key hx hy) _).trans (closed_at2 hC hZ hT hs hs₃ c hv p q)
  have keyR4 : ∀ {v0 v1 v2 v3 : Var} {x yR y : Ex}, equalC yR [v0, v1, v2, v3] y [v0, v1, v2, v3] = true → [v0, v1, v2, v3].Nodup → x.rename (backName 3) = yR → yR.rename low = yR →
      axes4 ((setup S Z shift).eval m x) = axes4 ((setup S Z shift).eval (store4 T t3a t3b t3c t3d) y) := fun c hv hx hy => axes4_eq fun p q r s =>
    (congrFun (key hx hy) _).trans (closed_at4 hC hZ hT hs hs₃ c hv p q r s)
  exact swept_callT2b_core h hZ hT hd ub uc (keyR4 closed_residT2b (by decide) rfl rfl) (keyR2 closed_T2b_1A_ov (by decide) rfl rfl) (keyR2 closed_T2b_1B_ov (by decide) rfl rfl) (keyR4 closed_T2b_2A_ooov (by decide) rfl rfl) (keyR4 closed_T2b_2A_vovv (by decide) rfl rfl) (keyR4 closed_T2b_2B_ooov (by decide) rfl rfl) (keyR4 closed_T2b_2B_oovo (by decide) rfl rfl) (keyR4 closed_T2b_2B_vovv (by decide) rfl rfl) (keyR4 closed_T2b_2B_ovvv (by decide) rfl rfl) (keyR4 closed_T2b_2C_ooov (by decide) rfl rfl) (keyR4 closed_T2b_2C_vovv (by decide) rfl rfl)
end

end

end Ccpy.PSpace
