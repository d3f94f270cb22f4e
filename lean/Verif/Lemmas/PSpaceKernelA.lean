import Verif.Lemmas.PSpaceAnti
import Verif.Lemmas.PSpaceElementsA
import Verif.Lemmas.PSpaceRowsA

/-! The kernel `update_t3a_p`. -/

set_option linter.unusedSimpArgs false
set_option linter.unusedVariables false

namespace Ccpy.PSpace
open Ccpy.Fock
open Finset (range)

theorem linAAA_linear (X : Dressed) (d : Dims) (a b c i j k : ℕ) : IsLinear fun t => linAAA X d t a b c i j k := by
  linear [linAAA]

theorem crossAAA_linear (X : Dressed) (d : Dims) (a b c i j k : ℕ) : IsLinear fun t => crossAAA X d t a b c i j k := by
  linear [crossAAA]

def momA1 (X : Dressed) (d : Dims) (T : Triples) (a b c i j k : ℕ) : ℚ :=
  -pick3 (fun b c a => pick3 (fun i j k => ∑ m ∈ range d.oa, vooA X d T.tAAA T.tAAB a m i j * X.t_aa b c m k) i j k) a b c

def momA2 (X : Dressed) (d : Dims) (T : Triples) (a b c i j k : ℕ) : ℚ :=
  pick3 (fun a b c => pick3 (fun j k i => ∑ e ∈ range d.ua, vvoA X d T.tAAA T.tAAB a b i e * X.t_aa e c j k) i j k) a b c

/-- The triples equation with the indices in order. -/
def resA (X : Dressed) (d : Dims) (T : Triples) (a b c i j k : ℕ) : ℚ :=
  linAAA X d T.tAAA a b c i j k + crossAAA X d T.tAAB a b c i j k
    + momA1 X d T a b c i j k + momA2 X d T a b c i j k

def denA (X : Dressed) (a b c i j k : ℕ) : ℚ := X.fa_oo i i + X.fa_oo j j + X.fa_oo k k - X.fa_vv a a - X.fa_vv b b - X.fa_vv c c

section
variable {X : Dressed} (hX : X.Anti) (d : Dims) (t3a t3b t3c t3d : Buffer)
  (fa : Fits t3a.list (ListedAAA d.ua d.oa)) (fb : Fits t3b.list (ListedAAB d.ua d.ub d.oa d.ob))
  (fc : Fits t3c.list (ListedABB d.ua d.ub d.oa d.ob)) (fd : Fits t3d.list (ListedAAA d.ub d.ob))

include hX fa fb fc fd in
theorem t3aMoment1_eq {a b c i j k : ℕ} (hab : a < b) (hbc : b < c) (hc : c < d.ua) (hij : i < j) (hjk : j < k) (hk : k < d.oa) :
    t3aMoment1 d X.argsA (t3aInter d X.argsA t3a t3b) (column [a + 1, b + 1, c + 1, i + 1, j + 1, k + 1])
      = momA1 X d (listed3 t3a.list t3b.list t3c.list t3d.list) a b c i j k := by
  have hb := hbc.trans hc; have ha := hab.trans hb; have hj := hjk.trans hk; have hi := hij.trans hj
  have hac := hab.trans hbc; have hik := hij.trans hjk
  have hT := listed3_antisym t3a.list t3b.list t3c.list t3d.list
  generalize hTT : listed3 t3a.list t3b.list t3c.list t3d.list = T at hT ⊢
  have e : ∀ a m i j, i < d.oa → j < d.oa → i ≠ j → (t3aInter d X.argsA t3a t3b).i2a_vooo (m + 1) (a + 1) (i + 1) (j + 1) = vooA X d T.tAAA T.tAAB a m i j := by
    rw [← hTT]
    exact
    fun a m i j hx hy hxy => calcI2a_vooo_eq X d X.argsA t3a t3b rfl rfl hX.aa_oovv_o hX.aa_oovv_v fa fb (fun _ _ _ _ => rfl) hX.aa_vooo hx hy hxy
  simp only [t3aMoment1, sumTo_eq, column, List.getD_cons_zero, List.getD_cons_succ, Nat.reduceSub, e _ _ _ _ hi hj hij.ne, e _ _ _ _ hj hi hij.ne', e _ _ _ _ hi hk hik.ne, e _ _ _ _ hk hi hik.ne', e _ _ _ _ hj hk hjk.ne, e _ _ _ _ hk hj hjk.ne', momA1, pick2, pick3,
    ← Finset.sum_sub_distrib, ← Finset.sum_add_distrib, ← Finset.sum_neg_distrib]
  refine Finset.sum_congr rfl fun z _ => ?_
  simp only [Dressed.argsA, one4, Nat.add_sub_cancel, vooA_anti hX d hT _ _ i j, vooA_anti hX d hT _ _ i k, vooA_anti hX d hT _ _ j k, hX.aa_t_v a b, hX.aa_t_v a c, hX.aa_t_v b c, hX.aa_t_o _ _ i j, hX.aa_t_o _ _ i k, hX.aa_t_o _ _ j k, hX.aa_t_o _ _ z i, hX.aa_t_o _ _ z j, hX.aa_t_o _ _ z k]
  all_goals ring

include hX fa fb fc fd in
theorem t3aMoment2_eq {a b c i j k : ℕ} (hab : a < b) (hbc : b < c) (hc : c < d.ua) (hij : i < j) (hjk : j < k) (hk : k < d.oa) :
    t3aMoment2 d X.argsA (t3aInter d X.argsA t3a t3b) (column [a + 1, b + 1, c + 1, i + 1, j + 1, k + 1])
      = momA2 X d (listed3 t3a.list t3b.list t3c.list t3d.list) a b c i j k := by
  have hb := hbc.trans hc; have ha := hab.trans hb; have hj := hjk.trans hk; have hi := hij.trans hj
  have hac := hab.trans hbc; have hik := hij.trans hjk
  have hT := listed3_antisym t3a.list t3b.list t3c.list t3d.list
  generalize hTT : listed3 t3a.list t3b.list t3c.list t3d.list = T at hT ⊢
  have e : ∀ a b i e, a < d.ua → b < d.ua → a ≠ b → (t3aInter d X.argsA t3a t3b).i2a_vvov (e + 1) (a + 1) (b + 1) (i + 1) = vvoA X d T.tAAA T.tAAB a b i e := by
    rw [← hTT]
    exact
    fun a b i e hx hy hxy => calcI2a_vvov_eq X d X.argsA t3a t3b rfl rfl hX.aa_oovv_o hX.aa_oovv_v fa fb (fun _ _ _ _ => rfl) hX.aa_vvov hx hy hxy
  simp only [t3aMoment2, sumTo_eq, column, List.getD_cons_zero, List.getD_cons_succ, Nat.reduceSub, e _ _ _ _ ha hb hab.ne, e _ _ _ _ hb ha hab.ne', e _ _ _ _ ha hc hac.ne, e _ _ _ _ hc ha hac.ne', e _ _ _ _ hb hc hbc.ne, e _ _ _ _ hc hb hbc.ne', momA2, pick2, pick3,
    ← Finset.sum_sub_distrib, ← Finset.sum_add_distrib, ← Finset.sum_neg_distrib]
  refine Finset.sum_congr rfl fun z _ => ?_
  simp only [Dressed.argsA, one4, Nat.add_sub_cancel, vvoA_anti hX d hT a b, vvoA_anti hX d hT a c, vvoA_anti hX d hT b c, hX.aa_t_v a b, hX.aa_t_v a c, hX.aa_t_v b c, hX.aa_t_o _ _ i j, hX.aa_t_o _ _ i k, hX.aa_t_o _ _ j k, hX.aa_t_v a z, hX.aa_t_v b z, hX.aa_t_v c z]
  all_goals ring

end

theorem updateT3a_records {X : Dressed} (hX : X.Anti) (d : Dims) (t3a t3b t3c t3d : Buffer)
    (hne : t3a.excits ≠ []) (hrows : ∀ q ∈ t3a.excits, ListedAAA d.ua d.oa q) (hlen : t3a.amps.length = t3a.excits.length)
    (ub : t3b.Usable (ListedAAB d.ua d.ub d.oa d.ob)) (uc : t3c.Usable (ListedABB d.ua d.ub d.oa d.ob)) (ud : t3d.Usable (ListedAAA d.ub d.ob)) :
    ∃ s, updateT3a d X.argsA t3a t3b = some s ∧ s.Full ∧ s.records.Perm (t3a.list.map fun x =>
      let r := atRow (resA X d (listed3 t3a.list t3b.list t3c.list t3d.list)) x.1 / (atRow (denA X) x.1 - X.shift)
      (x.1, x.2 + r, r)) := by
  have fb := ub.fits
  have fc := uc.fits
  have fd := ud.fits
  have fa : Fits t3a.list (ListedAAA d.ua d.oa) := fits_of_rows hrows
  have h₀ : State.Full ⟨t3a.excits, t3a.amps, t3a.excits.map fun _ => 0⟩ := ⟨hlen, by simp⟩
  have hph : t3a.excits ≠ [[1, 1, 1, 1, 1, 1]] := by
    intro h
    obtain ⟨a, b, c, i, j, k, h, _⟩ := hrows [1, 1, 1, 1, 1, 1] (by rw [h]; simp)
    simp only [List.cons.injEq] at h
    omega
  obtain ⟨s₁, e₁, a₁⟩ := runOwn_adds (t3aBlocks_ready) (s := ⟨t3a.excits, t3a.amps, t3a.excits.map fun _ => 0⟩) h₀ hne hph
    (fun b hb q hq => ⟨t3aBlocks_holds (H := X.argsA) (hrows q hq) b hb, t3aBlocks_asks (H := X.argsA) (hrows q hq) b hb⟩)
  have hr₁ : ∀ q ∈ s₁.excits, ListedAAA d.ua d.oa q := fun q hq => hrows q (a₁.2.1.mem_iff.mp hq)
  obtain ⟨s₂, e₂, a₂, x₂, y₂⟩ := runOther_adds (t3aBlocksT3b_ready (d := d) (H := X.argsA)) a₁.1 (t := t3b)
    (fun b hb => ub.mono fun q hq => t3aBlocksT3b_holds (H := X.argsA) hq b hb)
    (fun b hb q hq => t3aBlocksT3b_asks (H := X.argsA) (hr₁ q hq) b hb)
  have hr₂ : ∀ q ∈ s₂.excits, ListedAAA d.ua d.oa q := fun q hq => hr₁ q (x₂ ▸ hq)
  have m1 := addMoment_adds a₂.1 (t3aMoment1 d X.argsA (t3aInter d X.argsA t3a t3b))
  have m2 := addMoment_adds m1.1 (t3aMoment2 d X.argsA (t3aInter d X.argsA t3a t3b))
  have all := (((a₁.trans a₂).trans m1).trans m2)
  refine ⟨_, ?_, (finish_records m2.1 X.shift (t3aDenom X.argsA)).1, ?_⟩
  · simp only [updateT3a, e₁, e₂, Option.bind_eq_bind, Option.bind_some]
    rfl
  · rw [(finish_records m2.1 X.shift (t3aDenom X.argsA)).2]
    refine (all.2.2.map _).trans (List.Perm.of_eq ?_)
    rw [List.map_map, State.records]
    simp only
    rw [zip_zero_records hlen, List.map_map]
    refine List.map_congr_left fun x hx => ?_
    obtain ⟨q, v⟩ := x
    obtain ⟨a, b, c, i, j, k, rfl, hab, hbc, hc, hij, hjk, hk⟩ := hrows q (List.of_mem_zip hx).1
    simp only [Function.comp_apply, zero_add, atRow_row]
    have l0 : over (t3a.excits.zip t3a.amps) (elements (t3aBlocks d X.argsA) [a + 1, b + 1, c + 1, i + 1, j + 1, k + 1])
        = linAAA X d (listed3 t3a.list t3b.list t3c.list t3d.list).tAAA a b c i j k :=
      over_three fa (linAAA_linear X d a b c i j k) fun A B C L M N h₁ h₂ h₃ h₄ h₅ h₆ => elements_t3a d X hX.aa_oooo_l hX.aa_oooo_r hX.aa_vvvv_l hX.aa_vvvv_r hab hbc hij hjk h₁ h₂ h₃ h₄ h₅ h₆
    have l1 : over (t3b.excits.zip t3b.amps) (elements (t3aBlocksT3b d X.argsA) [a + 1, b + 1, c + 1, i + 1, j + 1, k + 1])
        = crossAAA X d (listed3 t3a.list t3b.list t3c.list t3d.list).tAAB a b c i j k :=
      over_twoOne fb (crossAAA_linear X d a b c i j k) fun A B C L M N h₁ h₂ h₃ h₄ h₅ h₆ => elements_t3aBlocksT3b d X hab hbc hij hjk h₁ h₃ h₄ h₆
    have D : t3aDenom X.argsA (column [a + 1, b + 1, c + 1, i + 1, j + 1, k + 1]) = denA X a b c i j k := by
      simp [t3aDenom, column, Dressed.argsA, one2, denA]
    rw [l0, l1, t3aMoment1_eq hX d t3a t3b t3c t3d fa fb fc fd hab hbc hc hij hjk hk, t3aMoment2_eq hX d t3a t3b t3c t3d fa fb fc fd hab hbc hc hij hjk hk, D]
    simp only [resA]

end Ccpy.PSpace
