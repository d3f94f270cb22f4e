import Verif.Lemmas.PSpaceAnti
import Verif.Lemmas.PSpaceElementsD
import Verif.Lemmas.PSpaceRowsD

/-! The kernel `update_t3d_p`. -/

set_option linter.unusedSimpArgs false
set_option linter.unusedVariables false

namespace Ccpy.PSpace
open Ccpy.Fock
open Finset (range)

theorem linBBB_linear (X : Dressed) (d : Dims) (a b c i j k : ℕ) : IsLinear fun t => linBBB X d t a b c i j k := by
  linear [linBBB]

theorem crossBBB_linear (X : Dressed) (d : Dims) (a b c i j k : ℕ) : IsLinear fun t => crossBBB X d t a b c i j k := by
  linear [crossBBB]

def momD1 (X : Dressed) (d : Dims) (T : Triples) (a b c i j k : ℕ) : ℚ :=
  -pick3 (fun b c a => pick3 (fun i j k => ∑ m ∈ range d.ob, vooC X d T.tBBB T.tABB a m i j * X.t_bb b c m k) i j k) a b c

def momD2 (X : Dressed) (d : Dims) (T : Triples) (a b c i j k : ℕ) : ℚ :=
  pick3 (fun a b c => pick3 (fun j k i => ∑ e ∈ range d.ub, vvoC X d T.tBBB T.tABB a b i e * X.t_bb e c j k) i j k) a b c

/-- The triples equation with the indices in order. -/
def resD (X : Dressed) (d : Dims) (T : Triples) (a b c i j k : ℕ) : ℚ :=
  linBBB X d T.tBBB a b c i j k + crossBBB X d T.tABB a b c i j k
    + momD1 X d T a b c i j k + momD2 X d T a b c i j k

def denD (X : Dressed) (a b c i j k : ℕ) : ℚ := X.fb_oo i i + X.fb_oo j j + X.fb_oo k k - X.fb_vv a a - X.fb_vv b b - X.fb_vv c c

section
variable {X : Dressed} (hX : X.Anti) (d : Dims) (t3a t3b t3c t3d : Buffer)
  (fa : Fits t3a.list (ListedAAA d.ua d.oa)) (fb : Fits t3b.list (ListedAAB d.ua d.ub d.oa d.ob))
  (fc : Fits t3c.list (ListedABB d.ua d.ub d.oa d.ob)) (fd : Fits t3d.list (ListedAAA d.ub d.ob))

include hX fa fb fc fd in
theorem t3dMoment1_eq {a b c i j k : ℕ} (hab : a < b) (hbc : b < c) (hc : c < d.ub) (hij : i < j) (hjk : j < k) (hk : k < d.ob) :
    t3dMoment1 d X.argsD (t3dInter d X.argsD t3c t3d) (column [a + 1, b + 1, c + 1, i + 1, j + 1, k + 1])
      = momD1 X d (listed3 t3a.list t3b.list t3c.list t3d.list) a b c i j k := by
  have hb := hbc.trans hc; have ha := hab.trans hb; have hj := hjk.trans hk; have hi := hij.trans hj
  have hac := hab.trans hbc; have hik := hij.trans hjk
  have hT := listed3_antisym t3a.list t3b.list t3c.list t3d.list
  generalize hTT : listed3 t3a.list t3b.list t3c.list t3d.list = T at hT ⊢
  have e : ∀ a m i j, i < d.ob → j < d.ob → i ≠ j → (t3dInter d X.argsD t3c t3d).i2c_vooo (m + 1) (a + 1) (i + 1) (j + 1) = vooC X d T.tBBB T.tABB a m i j := by
    rw [← hTT]
    exact
    fun a m i j hx hy hxy => calcI2c_vooo_eq X d X.argsD t3c t3d rfl rfl hX.bb_oovv_o hX.bb_oovv_v fd fc (fun _ _ _ _ => rfl) hX.bb_vooo hx hy hxy
  simp only [t3dMoment1, sumTo_eq, column, List.getD_cons_zero, List.getD_cons_succ, Nat.reduceSub, e _ _ _ _ hi hj hij.ne, e _ _ _ _ hj hi hij.ne', e _ _ _ _ hi hk hik.ne, e _ _ _ _ hk hi hik.ne', e _ _ _ _ hj hk hjk.ne, e _ _ _ _ hk hj hjk.ne', momD1, pick2, pick3,
    ← Finset.sum_sub_distrib, ← Finset.sum_add_distrib, ← Finset.sum_neg_distrib]
  refine Finset.sum_congr rfl fun z _ => ?_
  simp only [Dressed.argsD, one4, Nat.add_sub_cancel, vooC_anti hX d hT _ _ i j, vooC_anti hX d hT _ _ i k, vooC_anti hX d hT _ _ j k, hX.bb_t_v a b, hX.bb_t_v a c, hX.bb_t_v b c, hX.bb_t_o _ _ i j, hX.bb_t_o _ _ i k, hX.bb_t_o _ _ j k, hX.bb_t_o _ _ z i, hX.bb_t_o _ _ z j, hX.bb_t_o _ _ z k]
  all_goals ring

include hX fa fb fc fd in
theorem t3dMoment2_eq {a b c i j k : ℕ} (hab : a < b) (hbc : b < c) (hc : c < d.ub) (hij : i < j) (hjk : j < k) (hk : k < d.ob) :
    t3dMoment2 d X.argsD (t3dInter d X.argsD t3c t3d) (column [a + 1, b + 1, c + 1, i + 1, j + 1, k + 1])
      = momD2 X d (listed3 t3a.list t3b.list t3c.list t3d.list) a b c i j k := by
  have hb := hbc.trans hc; have ha := hab.trans hb; have hj := hjk.trans hk; have hi := hij.trans hj
  have hac := hab.trans hbc; have hik := hij.trans hjk
  have hT := listed3_antisym t3a.list t3b.list t3c.list t3d.list
  generalize hTT : listed3 t3a.list t3b.list t3c.list t3d.list = T at hT ⊢
  have e : ∀ a b i e, a < d.ub → b < d.ub → a ≠ b → (t3dInter d X.argsD t3c t3d).i2c_vvov (e + 1) (a + 1) (b + 1) (i + 1) = vvoC X d T.tBBB T.tABB a b i e := by
    rw [← hTT]
    exact
    fun a b i e hx hy hxy => calcI2c_vvov_eq X d X.argsD t3c t3d rfl rfl hX.bb_oovv_o hX.bb_oovv_v fd fc (fun _ _ _ _ => rfl) hX.bb_vvov hx hy hxy
  simp only [t3dMoment2, sumTo_eq, column, List.getD_cons_zero, List.getD_cons_succ, Nat.reduceSub, e _ _ _ _ ha hb hab.ne, e _ _ _ _ hb ha hab.ne', e _ _ _ _ ha hc hac.ne, e _ _ _ _ hc ha hac.ne', e _ _ _ _ hb hc hbc.ne, e _ _ _ _ hc hb hbc.ne', momD2, pick2, pick3,
    ← Finset.sum_sub_distrib, ← Finset.sum_add_distrib, ← Finset.sum_neg_distrib]
  refine Finset.sum_congr rfl fun z _ => ?_
  simp only [Dressed.argsD, one4, Nat.add_sub_cancel, vvoC_anti hX d hT a b, vvoC_anti hX d hT a c, vvoC_anti hX d hT b c, hX.bb_t_v a b, hX.bb_t_v a c, hX.bb_t_v b c, hX.bb_t_o _ _ i j, hX.bb_t_o _ _ i k, hX.bb_t_o _ _ j k, hX.bb_t_v a z, hX.bb_t_v b z, hX.bb_t_v c z]
  all_goals ring

end

theorem updateT3d_records {X : Dressed} (hX : X.Anti) (d : Dims) (t3a t3b t3c t3d : Buffer)
    (hne : t3d.excits ≠ []) (hrows : ∀ q ∈ t3d.excits, ListedAAA d.ub d.ob q) (hlen : t3d.amps.length = t3d.excits.length)
    (ua : t3a.Usable (ListedAAA d.ua d.oa)) (ub : t3b.Usable (ListedAAB d.ua d.ub d.oa d.ob)) (uc : t3c.Usable (ListedABB d.ua d.ub d.oa d.ob)) :
    ∃ s, updateT3d d X.argsD t3c t3d = some s ∧ s.Full ∧ s.records.Perm (t3d.list.map fun x =>
      let r := atRow (resD X d (listed3 t3a.list t3b.list t3c.list t3d.list)) x.1 / (atRow (denD X) x.1 - X.shift)
      (x.1, x.2 + r, r)) := by
  have fa := ua.fits
  have fb := ub.fits
  have fc := uc.fits
  have fd : Fits t3d.list (ListedAAA d.ub d.ob) := fits_of_rows hrows
  have h₀ : State.Full ⟨t3d.excits, t3d.amps, t3d.excits.map fun _ => 0⟩ := ⟨hlen, by simp⟩
  have hph : t3d.excits ≠ [[1, 1, 1, 1, 1, 1]] := by
    intro h
    obtain ⟨a, b, c, i, j, k, h, _⟩ := hrows [1, 1, 1, 1, 1, 1] (by rw [h]; simp)
    simp only [List.cons.injEq] at h
    omega
  obtain ⟨s₁, e₁, a₁⟩ := runOwn_adds (t3dBlocks_ready) (s := ⟨t3d.excits, t3d.amps, t3d.excits.map fun _ => 0⟩) h₀ hne hph
    (fun b hb q hq => ⟨t3dBlocks_holds (H := X.argsD) (hrows q hq) b hb, t3dBlocks_asks (H := X.argsD) (hrows q hq) b hb⟩)
  have hr₁ : ∀ q ∈ s₁.excits, ListedAAA d.ub d.ob q := fun q hq => hrows q (a₁.2.1.mem_iff.mp hq)
  obtain ⟨s₂, e₂, a₂, x₂, y₂⟩ := runOther_adds (t3dBlocksT3c_ready (d := d) (H := X.argsD)) a₁.1 (t := t3c)
    (fun b hb => uc.mono fun q hq => t3dBlocksT3c_holds (H := X.argsD) hq b hb)
    (fun b hb q hq => t3dBlocksT3c_asks (H := X.argsD) (hr₁ q hq) b hb)
  have hr₂ : ∀ q ∈ s₂.excits, ListedAAA d.ub d.ob q := fun q hq => hr₁ q (x₂ ▸ hq)
  have m1 := addMoment_adds a₂.1 (t3dMoment1 d X.argsD (t3dInter d X.argsD t3c t3d))
  have m2 := addMoment_adds m1.1 (t3dMoment2 d X.argsD (t3dInter d X.argsD t3c t3d))
  have all := (((a₁.trans a₂).trans m1).trans m2)
  refine ⟨_, ?_, (finish_records m2.1 X.shift (t3dDenom X.argsD)).1, ?_⟩
  · simp only [updateT3d, e₁, e₂, Option.bind_eq_bind, Option.bind_some]
    rfl
  · rw [(finish_records m2.1 X.shift (t3dDenom X.argsD)).2]
    refine (all.2.2.map _).trans (List.Perm.of_eq ?_)
    rw [List.map_map, State.records]
    simp only
    rw [zip_zero_records hlen, List.map_map]
    refine List.map_congr_left fun x hx => ?_
    obtain ⟨q, v⟩ := x
    obtain ⟨a, b, c, i, j, k, rfl, hab, hbc, hc, hij, hjk, hk⟩ := hrows q (List.of_mem_zip hx).1
    simp only [Function.comp_apply, zero_add, atRow_row]
    have l0 : over (t3d.excits.zip t3d.amps) (elements (t3dBlocks d X.argsD) [a + 1, b + 1, c + 1, i + 1, j + 1, k + 1])
        = linBBB X d (listed3 t3a.list t3b.list t3c.list t3d.list).tBBB a b c i j k :=
      over_three fd (linBBB_linear X d a b c i j k) fun A B C L M N h₁ h₂ h₃ h₄ h₅ h₆ => elements_t3d d X hX.bb_oooo_l hX.bb_oooo_r hX.bb_vvvv_l hX.bb_vvvv_r hab hbc hij hjk h₁ h₂ h₃ h₄ h₅ h₆
    have l1 : over (t3c.excits.zip t3c.amps) (elements (t3dBlocksT3c d X.argsD) [a + 1, b + 1, c + 1, i + 1, j + 1, k + 1])
        = crossBBB X d (listed3 t3a.list t3b.list t3c.list t3d.list).tABB a b c i j k :=
      over_oneTwo fc (crossBBB_linear X d a b c i j k) fun A B C L M N h₁ h₂ h₃ h₄ h₅ h₆ => elements_t3dBlocksT3c d X hab hbc hij hjk h₂ h₁ h₅ h₄
    have D : t3dDenom X.argsD (column [a + 1, b + 1, c + 1, i + 1, j + 1, k + 1]) = denD X a b c i j k := by
      simp [t3dDenom, column, Dressed.argsD, one2, denD]
    rw [l0, l1, t3dMoment1_eq hX d t3a t3b t3c t3d fa fb fc fd hab hbc hc hij hjk hk, t3dMoment2_eq hX d t3a t3b t3c t3d fa fb fc fd hab hbc hc hij hjk hk, D]
    simp only [resD]

end Ccpy.PSpace
