import Verif.Lemmas.CrCcKernels

/-! The denominators of the variants B and C of CR-CC(2,3). -/

set_option linter.unusedSimpArgs false

namespace Ccpy.CrCc
open Ccpy.Fock Ccpy.Tensor Ccpy.Engine Ccpy.HbarCcsd Ccpy.Ccsdt Ccpy.PSpace Ccpy.Ccsd
open Ccpy.EomCcsd (excitation)
open Finset (range Ico)

variable {ι : Type*} [LinearOrder ι]

/-- `x e^{-T} H e^{T} x' - x x' e^{-T} H e^{T}` -/
noncomputable def connected (s : Bool) (x x' : Op) : List Ccpy.Engine.Term :=
  [⟨s, [slot [x]], fun _ => [slot [x']]⟩, ⟨!s, [slot [x, x']], fun _ => []⟩]

theorem check_a_oo : check (groups tableC) (listC 0) listH hbar.a.oo [12, 16] (connected true (true, 16) (false, 12)) = true := by decide +kernel
theorem check_a_vv : check (groups tableC) (listC 0) listH hbar.a.vv [1, 5] (connected false (false, 1) (true, 5)) = true := by decide +kernel
theorem check_b_oo : check (groups tableC) (listC 0) listH hbar.b.oo [14, 18] (connected true (true, 18) (false, 14)) = true := by decide +kernel
theorem check_b_vv : check (groups tableC) (listC 0) listH hbar.b.vv [3, 7] (connected false (false, 3) (true, 7)) = true := by decide +kernel

section
variable {S : Orbitals ι} (h : S.Proper) {Z : Fock.Integrals} (hZ : Z.Antisym) {T L : Cluster} (hT : T.Antisym) (hL : L.Antisym)
include h hZ hT hL

theorem value_connected {x : Ex} {ext : List ℕ} {s : Bool} {p p' : Op} (hb : p.2 ∈ ext) (hb' : p'.2 ∈ ext)
    (hx : check (groups tableC) (listC 0) listH x ext (connected s p p') = true) {ρ : Env} (hρ : ExtOk (dimS S) ext ρ) :
    value S Z (Cluster.store [T, L]) x (ext.map ρ)
      = (if s then (-1 : ℚ) else 1) * expect S (evalO (opX S) ρ [p] * transformed S Z T * evalO (opX S) ρ [p'])
        + (if !s then (-1 : ℚ) else 1) * expect S (evalO (opX S) ρ [p, p'] * transformed S Z T) := by
  have hall : ∀ C ∈ [T, L], C.Antisym := fun C hC => by
    simp only [List.mem_cons, List.not_mem_nil, or_false] at hC
    rcases hC with rfl | rfl <;> assumption
  have h0 := store_holds [T, L] 0
  rw [check_sound h (antiSym_C hZ hall) (fun m ρ => evalS_listC S T h0 m ρ) (cluster_nilpotent h T) hx hρ
    (vs := [(evalO (opX S) ρ [p], evalO (opX S) ρ [p']), (evalO (opX S) ρ [p, p'], 1)])
    (.cons ⟨fun ρ' hr => ?_, fun ρ' m hr => ?_⟩ (.cons ⟨fun ρ' hr => ?_, fun ρ' m hr => rfl⟩ .nil))]
  · simp only [connected, List.zipWith, List.sum_cons, List.sum_nil, add_zero, mul_one]
    rfl
  · simp only [List.map_cons, List.map_nil, List.prod_cons, List.prod_nil, mul_one]
    exact evalS_slot hr (by simpa using hb)
  · simp only [List.map_cons, List.map_nil, List.prod_cons, List.prod_nil, mul_one]
    exact evalS_slot hr (by simpa using hb')
  · simp only [List.map_cons, List.map_nil, List.prod_cons, List.prod_nil, mul_one]
    exact evalS_slot hr (by simpa using ⟨hb, hb'⟩)

theorem remove_a {i : ℕ} (hi : i < S.na) : value S Z (Cluster.store [T, L]) hbar.a.oo [i, i] = gap S Z T (ann (S.occA i)) := by
  have hρ : ExtOk (dimS S) [12, 16] (env [12, 16] [i, i]) := fun v hv => by
    simp only [List.mem_cons, List.not_mem_nil, or_false] at hv
    rcases hv with rfl | rfl <;> exact hi
  have e := value_connected h hZ hT hL (by decide) (by decide) check_a_oo hρ
  have e₁ : ∀ X : Operator ι, inner S.ref (cre (S.occA i) (ann (S.occA i) (X S.ref))) = inner S.ref (X S.ref) := fun X => by
    have c : cre (S.occA i) S.ref = 0 := cre_ref (S := S) (x := (0, i)) ⟨(by decide : 0 < 4), hi⟩ (Or.inl rfl)
    have d := ann_cre_apply (S.occA i) (S.occA i) S.ref
    rw [c, map_zero, if_pos rfl, eq_comm, sub_eq_zero] at d
    rw [← inner_ann, ← inner_cre, ← d]
  rw [if_pos rfl, if_neg (by decide), one_mul] at e
  refine e.trans ?_
  have k₁ : expect S (evalO (opX S) (env [12, 16] [i, i]) [(true, 16), (false, 12)] * transformed S Z T) = S.element S.ref (transformed S Z T) :=
    (show _ = inner S.ref (cre (S.occA i) (ann (S.occA i) (transformed S Z T S.ref))) by
      simp only [evalO, List.map_cons, List.map_nil, List.prod_cons, List.prod_nil, mul_one]; rfl).trans (e₁ _)
  have k₂ : expect S (evalO (opX S) (env [12, 16] [i, i]) [(true, 16)] * transformed S Z T * evalO (opX S) (env [12, 16] [i, i]) [(false, 12)])
      = S.element (ann (S.occA i) S.ref) (transformed S Z T * ann (S.occA i)) :=
    (show _ = inner S.ref (cre (S.occA i) (transformed S Z T (ann (S.occA i) S.ref))) by
      simp only [evalO, List.map_cons, List.map_nil, List.prod_cons, List.prod_nil, mul_one]; rfl).trans (inner_ann _ _ _).symm
  rw [k₁, k₂]
  unfold gap
  ring

theorem attach_a {a : ℕ} (ha : a < S.ua) : value S Z (Cluster.store [T, L]) hbar.a.vv [a, a] = -gap S Z T (cre (S.virA a)) := by
  have hρ : ExtOk (dimS S) [1, 5] (env [1, 5] [a, a]) := fun v hv => by
    simp only [List.mem_cons, List.not_mem_nil, or_false] at hv
    rcases hv with rfl | rfl <;> exact ha
  have e := value_connected h hZ hT hL (by decide) (by decide) check_a_vv hρ
  have e₁ : ∀ X : Operator ι, inner S.ref (ann (S.virA a) (cre (S.virA a) (X S.ref))) = inner S.ref (X S.ref) := fun X => by
    have c : ann (S.virA a) S.ref = 0 := ann_ref (S := S) (x := (1, a)) h (Or.inl rfl)
    have d := ann_cre_apply (S.virA a) (S.virA a) S.ref
    rw [c, map_zero, if_pos rfl, sub_zero] at d
    rw [← inner_cre, ← inner_ann, d]
  rw [if_neg (by decide), if_pos (show (!false) = true from rfl), one_mul] at e
  refine e.trans ?_
  have k₁ : expect S (evalO (opX S) (env [1, 5] [a, a]) [(false, 1), (true, 5)] * transformed S Z T) = S.element S.ref (transformed S Z T) :=
    (show _ = inner S.ref (ann (S.virA a) (cre (S.virA a) (transformed S Z T S.ref))) by
      simp only [evalO, List.map_cons, List.map_nil, List.prod_cons, List.prod_nil, mul_one]; rfl).trans (e₁ _)
  have k₂ : expect S (evalO (opX S) (env [1, 5] [a, a]) [(false, 1)] * transformed S Z T * evalO (opX S) (env [1, 5] [a, a]) [(true, 5)])
      = S.element (cre (S.virA a) S.ref) (transformed S Z T * cre (S.virA a)) :=
    (show _ = inner S.ref (ann (S.virA a) (transformed S Z T (cre (S.virA a) S.ref))) by
      simp only [evalO, List.map_cons, List.map_nil, List.prod_cons, List.prod_nil, mul_one]; rfl).trans (inner_cre _ _ _).symm
  rw [k₁, k₂]
  unfold gap
  ring

theorem remove_b {i : ℕ} (hi : i < S.nb) : value S Z (Cluster.store [T, L]) hbar.b.oo [i, i] = gap S Z T (ann (S.occB i)) := by
  have hρ : ExtOk (dimS S) [14, 18] (env [14, 18] [i, i]) := fun v hv => by
    simp only [List.mem_cons, List.not_mem_nil, or_false] at hv
    rcases hv with rfl | rfl <;> exact hi
  have e := value_connected h hZ hT hL (by decide) (by decide) check_b_oo hρ
  have e₁ : ∀ X : Operator ι, inner S.ref (cre (S.occB i) (ann (S.occB i) (X S.ref))) = inner S.ref (X S.ref) := fun X => by
    have c : cre (S.occB i) S.ref = 0 := cre_ref (S := S) (x := (2, i)) ⟨(by decide : 2 < 4), hi⟩ (Or.inr rfl)
    have d := ann_cre_apply (S.occB i) (S.occB i) S.ref
    rw [c, map_zero, if_pos rfl, eq_comm, sub_eq_zero] at d
    rw [← inner_ann, ← inner_cre, ← d]
  rw [if_pos rfl, if_neg (by decide), one_mul] at e
  refine e.trans ?_
  have k₁ : expect S (evalO (opX S) (env [14, 18] [i, i]) [(true, 18), (false, 14)] * transformed S Z T) = S.element S.ref (transformed S Z T) :=
    (show _ = inner S.ref (cre (S.occB i) (ann (S.occB i) (transformed S Z T S.ref))) by
      simp only [evalO, List.map_cons, List.map_nil, List.prod_cons, List.prod_nil, mul_one]; rfl).trans (e₁ _)
  have k₂ : expect S (evalO (opX S) (env [14, 18] [i, i]) [(true, 18)] * transformed S Z T * evalO (opX S) (env [14, 18] [i, i]) [(false, 14)])
      = S.element (ann (S.occB i) S.ref) (transformed S Z T * ann (S.occB i)) :=
    (show _ = inner S.ref (cre (S.occB i) (transformed S Z T (ann (S.occB i) S.ref))) by
      simp only [evalO, List.map_cons, List.map_nil, List.prod_cons, List.prod_nil, mul_one]; rfl).trans (inner_ann _ _ _).symm
  rw [k₁, k₂]
  unfold gap
  ring

theorem attach_b {a : ℕ} (ha : a < S.ub) : value S Z (Cluster.store [T, L]) hbar.b.vv [a, a] = -gap S Z T (cre (S.virB a)) := by
  have hρ : ExtOk (dimS S) [3, 7] (env [3, 7] [a, a]) := fun v hv => by
    simp only [List.mem_cons, List.not_mem_nil, or_false] at hv
    rcases hv with rfl | rfl <;> exact ha
  have e := value_connected h hZ hT hL (by decide) (by decide) check_b_vv hρ
  have e₁ : ∀ X : Operator ι, inner S.ref (ann (S.virB a) (cre (S.virB a) (X S.ref))) = inner S.ref (X S.ref) := fun X => by
    have c : ann (S.virB a) S.ref = 0 := ann_ref (S := S) (x := (3, a)) h (Or.inr rfl)
    have d := ann_cre_apply (S.virB a) (S.virB a) S.ref
    rw [c, map_zero, if_pos rfl, sub_zero] at d
    rw [← inner_cre, ← inner_ann, d]
  rw [if_neg (by decide), if_pos (show (!false) = true from rfl), one_mul] at e
  refine e.trans ?_
  have k₁ : expect S (evalO (opX S) (env [3, 7] [a, a]) [(false, 3), (true, 7)] * transformed S Z T) = S.element S.ref (transformed S Z T) :=
    (show _ = inner S.ref (ann (S.virB a) (cre (S.virB a) (transformed S Z T S.ref))) by
      simp only [evalO, List.map_cons, List.map_nil, List.prod_cons, List.prod_nil, mul_one]; rfl).trans (e₁ _)
  have k₂ : expect S (evalO (opX S) (env [3, 7] [a, a]) [(false, 3)] * transformed S Z T * evalO (opX S) (env [3, 7] [a, a]) [(true, 7)])
      = S.element (cre (S.virB a) S.ref) (transformed S Z T * cre (S.virB a)) :=
    (show _ = inner S.ref (ann (S.virB a) (transformed S Z T (cre (S.virB a) S.ref))) by
      simp only [evalO, List.map_cons, List.map_nil, List.prod_cons, List.prod_nil, mul_one]; rfl).trans (inner_cre _ _ _).symm
  rw [k₁, k₂]
  unfold gap
  ring

theorem denomC_a (shift : ℚ) {a b c i j k : ℕ} (ha : a < S.ua) (hb : b < S.ua) (hc : c < S.ua) (hab : a < b) (hbc : b < c) (hi : i < S.na) (hj : j < S.na) (hk : k < S.na) (hij : i < j) (hjk : j < k) :
    (argsA (setup S Z shift) (Cluster.store [T, L]) amplitudes excitation hbar stored).denomC (i + 1) (j + 1) (k + 1) (a + 1) (b + 1) (c + 1) = (gapsC S Z T).aaa a b c i j k := by
  have e := (denom_a (setup S Z shift) (Cluster.store [T, L]) (dressed_hbar (S := S) hZ hT zero_antisym L shift) (i := i) (j := j) (k := k) (a := a) (b := b) (c := c) (dressed_anti (S := S) hZ hT zero_antisym shift) hab (by omega) hbc).trans
    (gap_a h hZ hT shift ha hb hc hab hbc hi hj hk hij hjk).symm
  have oa : ∀ a i j, (argsA (setup S Z shift) (Cluster.store [T, L]) amplitudes excitation hbar stored).d3a_o (a + 1) (i + 1) (j + 1) = threeAAo S Z T a i j := fun _ _ _ => rfl
  have va : ∀ a i b, (argsA (setup S Z shift) (Cluster.store [T, L]) amplitudes excitation hbar stored).d3a_v (a + 1) (i + 1) (b + 1) = -threeAAv S Z T a b i := fun _ _ _ => rfl
  unfold ArgsA.denomD at e
  simp only [oa, va] at e
  simp only [gapsC]
  linear_combination e

theorem denomB_a (shift : ℚ) {a b c i j k : ℕ} (ha : a < S.ua) (hb : b < S.ua) (hc : c < S.ua) (hi : i < S.na) (hj : j < S.na) (hk : k < S.na) :
    (argsA (setup S Z shift) (Cluster.store [T, L]) amplitudes excitation hbar stored).denomB (i + 1) (j + 1) (k + 1) (a + 1) (b + 1) (c + 1) = (gapsB S Z T).aaa a b c i j k := by
  have e : (argsA (setup S Z shift) (Cluster.store [T, L]) amplitudes excitation hbar stored).denomB (i + 1) (j + 1) (k + 1) (a + 1) (b + 1) (c + 1)
      = value S Z (Cluster.store [T, L]) hbar.a.oo [i, i] + value S Z (Cluster.store [T, L]) hbar.a.oo [j, j] + value S Z (Cluster.store [T, L]) hbar.a.oo [k, k] - value S Z (Cluster.store [T, L]) hbar.a.vv [a, a] - value S Z (Cluster.store [T, L]) hbar.a.vv [b, b] - value S Z (Cluster.store [T, L]) hbar.a.vv [c, c] := rfl
  rw [e, remove_a h hZ hT hL hi, remove_a h hZ hT hL hj, remove_a h hZ hT hL hk, attach_a h hZ hT hL ha, attach_a h hZ hT hL hb, attach_a h hZ hT hL hc]
  simp only [gapsB, Orbitals.quasiAAA, List.map_cons, List.map_nil, List.sum_cons, List.sum_nil]
  ring

theorem denomC_b (shift : ℚ) {a b c i j k : ℕ} (ha : a < S.ua) (hb : b < S.ua) (hc : c < S.ub) (hab : a < b) (hi : i < S.na) (hj : j < S.na) (hk : k < S.nb) (hij : i < j) :
    (argsB (setup S Z shift) (Cluster.store [T, L]) amplitudes excitation hbar stored).denomC (i + 1) (j + 1) (k + 1) (a + 1) (b + 1) (c + 1) = (gapsC S Z T).aab a b c i j k := by
  have e := (denom_b (setup S Z shift) (Cluster.store [T, L]) (dressed_hbar (S := S) hZ hT zero_antisym L shift) (i := i) (j := j) (k := k) (a := a) (b := b) (c := c) (dressed_anti (S := S) hZ hT zero_antisym shift) hab).trans
    (gap_b h hZ hT shift ha hb hc hab hi hj hk hij).symm
  have oa : ∀ a i j, (argsB (setup S Z shift) (Cluster.store [T, L]) amplitudes excitation hbar stored).d3a_o (a + 1) (i + 1) (j + 1) = threeAAo S Z T a i j := fun _ _ _ => rfl
  have va : ∀ a i b, (argsB (setup S Z shift) (Cluster.store [T, L]) amplitudes excitation hbar stored).d3a_v (a + 1) (i + 1) (b + 1) = -threeAAv S Z T a b i := fun _ _ _ => rfl
  have ob : ∀ a i j, (argsB (setup S Z shift) (Cluster.store [T, L]) amplitudes excitation hbar stored).d3b_o (a + 1) (i + 1) (j + 1) = threeABo S Z T a i j := fun _ _ _ => rfl
  have vb : ∀ a i b, (argsB (setup S Z shift) (Cluster.store [T, L]) amplitudes excitation hbar stored).d3b_v (a + 1) (i + 1) (b + 1) = -threeABv S Z T a b i := fun _ _ _ => rfl
  have oc : ∀ a i j, (argsB (setup S Z shift) (Cluster.store [T, L]) amplitudes excitation hbar stored).d3c_o (a + 1) (i + 1) (j + 1) = threeBAo S Z T a i j := fun _ _ _ => rfl
  have vc : ∀ a i b, (argsB (setup S Z shift) (Cluster.store [T, L]) amplitudes excitation hbar stored).d3c_v (a + 1) (i + 1) (b + 1) = -threeBAv S Z T a b i := fun _ _ _ => rfl
  unfold ArgsB.denomD at e
  simp only [oa, va, ob, vb, oc, vc] at e
  simp only [gapsC]
  linear_combination e

theorem denomB_b (shift : ℚ) {a b c i j k : ℕ} (ha : a < S.ua) (hb : b < S.ua) (hc : c < S.ub) (hi : i < S.na) (hj : j < S.na) (hk : k < S.nb) :
    (argsB (setup S Z shift) (Cluster.store [T, L]) amplitudes excitation hbar stored).denomB (i + 1) (j + 1) (k + 1) (a + 1) (b + 1) (c + 1) = (gapsB S Z T).aab a b c i j k := by
  have e : (argsB (setup S Z shift) (Cluster.store [T, L]) amplitudes excitation hbar stored).denomB (i + 1) (j + 1) (k + 1) (a + 1) (b + 1) (c + 1)
      = value S Z (Cluster.store [T, L]) hbar.a.oo [i, i] + value S Z (Cluster.store [T, L]) hbar.a.oo [j, j] + value S Z (Cluster.store [T, L]) hbar.b.oo [k, k] - value S Z (Cluster.store [T, L]) hbar.a.vv [a, a] - value S Z (Cluster.store [T, L]) hbar.a.vv [b, b] - value S Z (Cluster.store [T, L]) hbar.b.vv [c, c] := rfl
  rw [e, remove_a h hZ hT hL hi, remove_a h hZ hT hL hj, remove_b h hZ hT hL hk, attach_a h hZ hT hL ha, attach_a h hZ hT hL hb, attach_b h hZ hT hL hc]
  simp only [gapsB, Orbitals.quasiAAB, List.map_cons, List.map_nil, List.sum_cons, List.sum_nil]
  ring

theorem denomC_c (shift : ℚ) {a b c i j k : ℕ} (ha : a < S.ua) (hb : b < S.ub) (hc : c < S.ub) (hbc : b < c) (hi : i < S.na) (hj : j < S.nb) (hk : k < S.nb) (hjk : j < k) :
    (argsC (setup S Z shift) (Cluster.store [T, L]) amplitudes excitation hbar stored).denomC (i + 1) (j + 1) (k + 1) (a + 1) (b + 1) (c + 1) = (gapsC S Z T).abb a b c i j k := by
  have e := (denom_c (setup S Z shift) (Cluster.store [T, L]) (dressed_hbar (S := S) hZ hT zero_antisym L shift) (i := i) (j := j) (k := k) (a := a) (b := b) (c := c) (dressed_anti (S := S) hZ hT zero_antisym shift) hbc).trans
    (gap_c h hZ hT shift ha hb hc hbc hi hj hk hjk).symm
  have ob : ∀ a i j, (argsC (setup S Z shift) (Cluster.store [T, L]) amplitudes excitation hbar stored).d3b_o (a + 1) (i + 1) (j + 1) = threeABo S Z T a i j := fun _ _ _ => rfl
  have vb : ∀ a i b, (argsC (setup S Z shift) (Cluster.store [T, L]) amplitudes excitation hbar stored).d3b_v (a + 1) (i + 1) (b + 1) = -threeABv S Z T a b i := fun _ _ _ => rfl
  have oc : ∀ a i j, (argsC (setup S Z shift) (Cluster.store [T, L]) amplitudes excitation hbar stored).d3c_o (a + 1) (i + 1) (j + 1) = threeBAo S Z T a i j := fun _ _ _ => rfl
  have vc : ∀ a i b, (argsC (setup S Z shift) (Cluster.store [T, L]) amplitudes excitation hbar stored).d3c_v (a + 1) (i + 1) (b + 1) = -threeBAv S Z T a b i := fun _ _ _ => rfl
  have od : ∀ a i j, (argsC (setup S Z shift) (Cluster.store [T, L]) amplitudes excitation hbar stored).d3d_o (a + 1) (i + 1) (j + 1) = threeBBo S Z T a i j := fun _ _ _ => rfl
  have vd : ∀ a i b, (argsC (setup S Z shift) (Cluster.store [T, L]) amplitudes excitation hbar stored).d3d_v (a + 1) (i + 1) (b + 1) = -threeBBv S Z T a b i := fun _ _ _ => rfl
  unfold ArgsC.denomD at e
  simp only [ob, vb, oc, vc, od, vd] at e
  simp only [gapsC]
  linear_combination e

theorem denomB_c (shift : ℚ) {a b c i j k : ℕ} (ha : a < S.ua) (hb : b < S.ub) (hc : c < S.ub) (hi : i < S.na) (hj : j < S.nb) (hk : k < S.nb) :
    (argsC (setup S Z shift) (Cluster.store [T, L]) amplitudes excitation hbar stored).denomB (i + 1) (j + 1) (k + 1) (a + 1) (b + 1) (c + 1) = (gapsB S Z T).abb a b c i j k := by
  have e : (argsC (setup S Z shift) (Cluster.store [T, L]) amplitudes excitation hbar stored).denomB (i + 1) (j + 1) (k + 1) (a + 1) (b + 1) (c + 1)
      = value S Z (Cluster.store [T, L]) hbar.a.oo [i, i] + value S Z (Cluster.store [T, L]) hbar.b.oo [j, j] + value S Z (Cluster.store [T, L]) hbar.b.oo [k, k] - value S Z (Cluster.store [T, L]) hbar.a.vv [a, a] - value S Z (Cluster.store [T, L]) hbar.b.vv [b, b] - value S Z (Cluster.store [T, L]) hbar.b.vv [c, c] := rfl
  rw [e, remove_a h hZ hT hL hi, remove_b h hZ hT hL hj, remove_b h hZ hT hL hk, attach_a h hZ hT hL ha, attach_b h hZ hT hL hb, attach_b h hZ hT hL hc]
  simp only [gapsB, Orbitals.quasiABB, List.map_cons, List.map_nil, List.sum_cons, List.sum_nil]
  ring

theorem denomC_d (shift : ℚ) {a b c i j k : ℕ} (ha : a < S.ub) (hb : b < S.ub) (hc : c < S.ub) (hab : a < b) (hbc : b < c) (hi : i < S.nb) (hj : j < S.nb) (hk : k < S.nb) (hij : i < j) (hjk : j < k) :
    (argsD (setup S Z shift) (Cluster.store [T, L]) amplitudes excitation hbar stored).denomC (i + 1) (j + 1) (k + 1) (a + 1) (b + 1) (c + 1) = (gapsC S Z T).bbb a b c i j k := by
  have e := (denom_d (setup S Z shift) (Cluster.store [T, L]) (dressed_hbar (S := S) hZ hT zero_antisym L shift) (i := i) (j := j) (k := k) (a := a) (b := b) (c := c) (dressed_anti (S := S) hZ hT zero_antisym shift) hab (by omega) hbc).trans
    (gap_d h hZ hT shift ha hb hc hab hbc hi hj hk hij hjk).symm
  have od : ∀ a i j, (argsD (setup S Z shift) (Cluster.store [T, L]) amplitudes excitation hbar stored).d3d_o (a + 1) (i + 1) (j + 1) = threeBBo S Z T a i j := fun _ _ _ => rfl
  have vd : ∀ a i b, (argsD (setup S Z shift) (Cluster.store [T, L]) amplitudes excitation hbar stored).d3d_v (a + 1) (i + 1) (b + 1) = -threeBBv S Z T a b i := fun _ _ _ => rfl
  unfold ArgsD.denomD at e
  simp only [od, vd] at e
  simp only [gapsC]
  linear_combination e

theorem denomB_d (shift : ℚ) {a b c i j k : ℕ} (ha : a < S.ub) (hb : b < S.ub) (hc : c < S.ub) (hi : i < S.nb) (hj : j < S.nb) (hk : k < S.nb) :
    (argsD (setup S Z shift) (Cluster.store [T, L]) amplitudes excitation hbar stored).denomB (i + 1) (j + 1) (k + 1) (a + 1) (b + 1) (c + 1) = (gapsB S Z T).bbb a b c i j k := by
  have e : (argsD (setup S Z shift) (Cluster.store [T, L]) amplitudes excitation hbar stored).denomB (i + 1) (j + 1) (k + 1) (a + 1) (b + 1) (c + 1)
      = value S Z (Cluster.store [T, L]) hbar.b.oo [i, i] + value S Z (Cluster.store [T, L]) hbar.b.oo [j, j] + value S Z (Cluster.store [T, L]) hbar.b.oo [k, k] - value S Z (Cluster.store [T, L]) hbar.b.vv [a, a] - value S Z (Cluster.store [T, L]) hbar.b.vv [b, b] - value S Z (Cluster.store [T, L]) hbar.b.vv [c, c] := rfl
  rw [e, remove_b h hZ hT hL hi, remove_b h hZ hT hL hj, remove_b h hZ hT hL hk, attach_b h hZ hT hL ha, attach_b h hZ hT hL hb, attach_b h hZ hT hL hc]
  simp only [gapsB, Orbitals.quasiBBB, List.map_cons, List.map_nil, List.sum_cons, List.sum_nil]
  ring

end

end Ccpy.CrCc
