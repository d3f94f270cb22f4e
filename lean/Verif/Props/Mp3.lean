import Verif.Lemmas.Mp3Kernel

/-! C86: the energies of second and third order. -/

namespace Ccpy.Mp3
open Ccpy.Fock Ccpy.Tensor Ccpy.HbarCcsd Ccpy.PSpace Ccpy.Ccsd Ccpy.Fortran
open Ccpy.CrCc (doLoop_shift)
open Finset (range Ico)

variable {ι : Type*} [LinearOrder ι]

/-! ### Loops over four indices -/

theorem loop_pairs4 {n k : ℕ} {body : ℕ → ℕ → ℕ → ℕ → ℚ → ℚ} {f : ℕ → ℕ → ℕ → ℕ → ℚ}
    (h : ∀ a b i j e, body (a + 1) (b + 1) (i + 1) (j + 1) e = e + f a b i j) (e : ℚ) :
    doLoop 1 n (fun a => doLoop (a + 1) n fun b => doLoop 1 k fun i => doLoop (i + 1) k (body a b i)) e
      = e + ∑ a ∈ range n, ∑ b ∈ Ico (a + 1) n, ∑ i ∈ range k, ∑ j ∈ Ico (i + 1) k, f a b i j :=
  loop_pair (fun a b e => loop_pair (fun i j e => h a b i j e) e) e

theorem loop_all4 {n₁ n₂ k₁ k₂ : ℕ} {body : ℕ → ℕ → ℕ → ℕ → ℚ → ℚ} {f : ℕ → ℕ → ℕ → ℕ → ℚ}
    (h : ∀ a b i j e, body (a + 1) (b + 1) (i + 1) (j + 1) e = e + f a b i j) (e : ℚ) :
    doLoop 1 n₁ (fun a => doLoop 1 n₂ fun b => doLoop 1 k₁ fun i => doLoop 1 k₂ (body a b i)) e
      = e + ∑ a ∈ range n₁, ∑ b ∈ range n₂, ∑ i ∈ range k₁, ∑ j ∈ range k₂, f a b i j :=
  loop_two (fun a b e => loop_two (fun i j e => h a b i j e) e) e

theorem sum_turn {n k : ℕ} (J B : ℕ → Finset ℕ) (f : ℕ → ℕ → ℕ → ℕ → ℚ) :
    ∑ i ∈ range k, ∑ j ∈ J i, ∑ a ∈ range n, ∑ b ∈ B a, f a b i j = ∑ a ∈ range n, ∑ b ∈ B a, ∑ i ∈ range k, ∑ j ∈ J i, f a b i j := by
  calc _ = ∑ i ∈ range k, ∑ a ∈ range n, ∑ j ∈ J i, ∑ b ∈ B a, f a b i j := Finset.sum_congr rfl fun i _ => Finset.sum_comm
    _ = ∑ a ∈ range n, ∑ i ∈ range k, ∑ j ∈ J i, ∑ b ∈ B a, f a b i j := Finset.sum_comm
    _ = ∑ a ∈ range n, ∑ i ∈ range k, ∑ b ∈ B a, ∑ j ∈ J i, f a b i j :=
      Finset.sum_congr rfl fun a _ => Finset.sum_congr rfl fun i _ => Finset.sum_comm
    _ = _ := Finset.sum_congr rfl fun a _ => Finset.sum_comm

theorem sum_four {s : Finset ℕ} {B : ℕ → Finset ℕ} {k : Finset ℕ} {J : ℕ → Finset ℕ} {f g : ℕ → ℕ → ℕ → ℕ → ℚ}
    (h : ∀ a ∈ s, ∀ b ∈ B a, ∀ i ∈ k, ∀ j ∈ J i, f a b i j = g a b i j) :
    ∑ a ∈ s, ∑ b ∈ B a, ∑ i ∈ k, ∑ j ∈ J i, f a b i j = ∑ a ∈ s, ∑ b ∈ B a, ∑ i ∈ k, ∑ j ∈ J i, g a b i j :=
  Finset.sum_congr rfl fun a ha => Finset.sum_congr rfl fun b hb => Finset.sum_congr rfl fun i hi =>
    Finset.sum_congr rfl fun j hj => h a ha b hb i hi j hj

section
variable {S : Orbitals ι} (h : S.Proper) {Z : Fock.Integrals} (hZ : Z.Antisym) (shift : ℚ) (m : Memory)
include h hZ

/-- The second-order energy is the sum over all doubly excited determinants `K` of `⟨Φ| H |K⟩ ⟨K| H |Φ⟩ / D(K)`. -/
theorem C86_second_order : calcMp2 (setup S Z shift) m stored = secondOrder S Z := by
  have la : ∀ e, Mp2.likeSpin (argsMp2 (setup S Z shift) m stored).fA_oo (argsMp2 (setup S Z shift) m stored).fA_vv
      (argsMp2 (setup S Z shift) m stored).vA_oovv (argsMp2 (setup S Z shift) m stored).vA_vvoo S.na S.ua e = _ := fun e =>
    loop_pairs4 (n := S.na) (k := S.ua) (f := fun i j a b => Z.vAA i j (S.na + a) (S.na + b)
      * (Z.vAA (S.na + a) (S.na + b) i j / gapAA S Z a b i j)) (fun _ _ _ _ _ => rfl) e
  have lb : ∀ e, Mp2.mixedSpin (argsMp2 (setup S Z shift) m stored) S.na S.nb S.ua S.ub e = _ := fun e =>
    loop_all4 (n₁ := S.na) (n₂ := S.nb) (k₁ := S.ua) (k₂ := S.ub) (f := fun i j a b => Z.vAB i j (S.na + a) (S.nb + b)
      * (Z.vAB (S.na + a) (S.nb + b) i j / gapAB S Z a b i j)) (fun _ _ _ _ _ => rfl) e
  have lc : ∀ e, Mp2.likeSpin (argsMp2 (setup S Z shift) m stored).fB_oo (argsMp2 (setup S Z shift) m stored).fB_vv
      (argsMp2 (setup S Z shift) m stored).vC_oovv (argsMp2 (setup S Z shift) m stored).vC_vvoo S.nb S.ub e = _ := fun e =>
    loop_pairs4 (n := S.nb) (k := S.ub) (f := fun i j a b => Z.vBB i j (S.nb + a) (S.nb + b)
      * (Z.vBB (S.nb + a) (S.nb + b) i j / gapBB S Z a b i j)) (fun _ _ _ _ _ => rfl) e
  have e : calcMp2 (setup S Z shift) m stored = Mp2.likeSpin (argsMp2 (setup S Z shift) m stored).fB_oo
      (argsMp2 (setup S Z shift) m stored).fB_vv (argsMp2 (setup S Z shift) m stored).vC_oovv
      (argsMp2 (setup S Z shift) m stored).vC_vvoo S.nb S.ub (Mp2.mixedSpin (argsMp2 (setup S Z shift) m stored) S.na S.nb S.ua S.ub
      (Mp2.likeSpin (argsMp2 (setup S Z shift) m stored).fA_oo (argsMp2 (setup S Z shift) m stored).fA_vv
      (argsMp2 (setup S Z shift) m stored).vA_oovv (argsMp2 (setup S Z shift) m stored).vA_vvoo S.na S.ua 0)) := rfl
  rw [e, la, lb, lc, zero_add, sum_turn _ (fun a => Ico (a + 1) S.ua), sum_turn _ (fun _ => range S.ub),
    sum_turn _ (fun a => Ico (a + 1) S.ub)]
  unfold secondOrder pairSum
  congr 1
  · congr 1
    · refine sum_four fun a ha b hb i hi j hj => ?_
      have ha := Finset.mem_range.1 ha
      have hi := Finset.mem_range.1 hi
      rw [element_oa h hZ ha (Finset.mem_Ico.1 hb).2 hi (Finset.mem_Ico.1 hj).2,
        element_va h hZ ha (Finset.mem_Ico.1 hb).2 hi (Finset.mem_Ico.1 hj).2, mul_div_assoc]
    · refine sum_four fun a ha b hb i hi j hj => ?_
      have ha := Finset.mem_range.1 ha
      have hb := Finset.mem_range.1 hb
      have hi := Finset.mem_range.1 hi
      have hj := Finset.mem_range.1 hj
      rw [element_ob h hZ ha hb hi hj, element_vb h hZ ha hb hi hj, mul_div_assoc]
  · refine sum_four fun a ha b hb i hi j hj => ?_
    have ha := Finset.mem_range.1 ha
    have hi := Finset.mem_range.1 hi
    rw [element_oc h hZ ha (Finset.mem_Ico.1 hb).2 hi (Finset.mem_Ico.1 hj).2,
      element_vc h hZ ha (Finset.mem_Ico.1 hb).2 hi (Finset.mem_Ico.1 hj).2, mul_div_assoc]

/-- The amplitudes of first order are `⟨K| H |Φ⟩ / D(K)`. -/
theorem C86_first_order {a b i j : ℕ} :
    (a < S.ua → b < S.ua → i < S.na → j < S.na →
      (firstOrder S Z).tAA a b i j = S.element (S.exciteAA a b i j S.ref) (hamiltonian S Z) / gapAA S Z a b i j)
    ∧ (a < S.ua → b < S.ub → i < S.na → j < S.nb →
      (firstOrder S Z).tAB a b i j = S.element (S.exciteAB a b i j S.ref) (hamiltonian S Z) / gapAB S Z a b i j)
    ∧ (a < S.ub → b < S.ub → i < S.nb → j < S.nb →
      (firstOrder S Z).tBB a b i j = S.element (S.exciteBB a b i j S.ref) (hamiltonian S Z) / gapBB S Z a b i j) :=
  ⟨fun ha hb hi hj => by rw [element_va h hZ ha hb hi hj]; rfl, fun ha hb hi hj => by rw [element_vb h hZ ha hb hi hj]; rfl,
    fun ha hb hi hj => by rw [element_vc h hZ ha hb hi hj]; rfl⟩

omit h in
theorem first_holds : Holds1 S (firstOrder S Z)
    (firstLike (argsMp3 (setup S Z shift) m stored).fA_oo (argsMp3 (setup S Z shift) m stored).fA_vv
      (argsMp3 (setup S Z shift) m stored).vA_vvoo (PSpace.dimsOf (setup S Z shift)).oa (PSpace.dimsOf (setup S Z shift)).ua
      fun _ _ _ _ => 0)
    (firstMixed (argsMp3 (setup S Z shift) m stored) (PSpace.dimsOf (setup S Z shift)) fun _ _ _ _ => 0)
    (firstLike (argsMp3 (setup S Z shift) m stored).fB_oo (argsMp3 (setup S Z shift) m stored).fB_vv
      (argsMp3 (setup S Z shift) m stored).vC_vvoo (PSpace.dimsOf (setup S Z shift)).ob (PSpace.dimsOf (setup S Z shift)).ub
      fun _ _ _ _ => 0) := by
  have ea : (argsMp3 (setup S Z shift) m stored).vA_vvoo
    = fun p q r s => Z.vAA (S.na + (p - 1)) (S.na + (q - 1)) (r - 1) (s - 1) := rfl
  have ec : (argsMp3 (setup S Z shift) m stored).vC_vvoo
    = fun p q r s => Z.vBB (S.nb + (p - 1)) (S.nb + (q - 1)) (r - 1) (s - 1) := rfl
  refine ⟨fun p q r s hp hq hr hs => ?_, fun p q r s hp hq hr hs => ?_, fun p q r s hp hq hr hs => ?_⟩
  · rw [ea]
    exact firstLike_eq (vvoo := fun p q r s => Z.vAA (S.na + (p - 1)) (S.na + (q - 1)) (r - 1) (s - 1))
      (fun _ _ _ _ => (hZ.aa _ _ _ _).1) (fun _ _ _ _ => (hZ.aa _ _ _ _).2) hp hq hr hs
  · rw [firstMixed_eq _ _ hp hq hr hs]
    rfl
  · rw [ec]
    exact firstLike_eq (vvoo := fun p q r s => Z.vBB (S.nb + (p - 1)) (S.nb + (q - 1)) (r - 1) (s - 1))
      (fun _ _ _ _ => (hZ.bb _ _ _ _).1) (fun _ _ _ _ => (hZ.bb _ _ _ _).2) hp hq hr hs

/-- The program returns the sum of the energies of second and third order, plus the number that the variable `Emp3` of the Fortran
subroutine holds on entry.  (A vanishing energy difference is a division by zero in the program as well.) -/
theorem C86_third_order (e₀ : ℚ) : calcMp3 (setup S Z shift) m stored e₀ = e₀ + secondOrder S Z + thirdOrder S Z := by
  have hT := firstOrder_antisym (S := S) hZ
  have hl := first_holds (S := S) hZ shift m
  have e : calcMp3 (setup S Z shift) m stored e₀ = calcMp2 (setup S Z shift) m stored
    + mp3 (argsMp3 (setup S Z shift) m stored) (PSpace.dimsOf (setup S Z shift)) e₀ := rfl
  have k : mp3 (argsMp3 (setup S Z shift) m stored) (PSpace.dimsOf (setup S Z shift)) e₀ = _ :=
    (loop_pairs4 (n := S.ub) (k := S.nb) (f := fun a b i j => Z.vBB i j (S.nb + a) (S.nb + b)
      * (ampC (argsMp3 (setup S Z shift) m stored) (PSpace.dimsOf (setup S Z shift)) _ _ (a + 1) (b + 1) (i + 1) (j + 1)
        / gapBB S Z a b i j)) (fun _ _ _ _ _ => rfl) _).trans (congrArg (· + _)
    ((loop_all4 (n₁ := S.ua) (n₂ := S.ub) (k₁ := S.na) (k₂ := S.nb) (f := fun a b i j => Z.vAB i j (S.na + a) (S.nb + b)
      * (ampB (argsMp3 (setup S Z shift) m stored) (PSpace.dimsOf (setup S Z shift)) _ _ _ (a + 1) (b + 1) (i + 1) (j + 1)
        / gapAB S Z a b i j)) (fun _ _ _ _ _ => rfl) _).trans (congrArg (· + _)
    (loop_pairs4 (n := S.ua) (k := S.na) (f := fun a b i j => Z.vAA i j (S.na + a) (S.na + b)
      * (ampA (argsMp3 (setup S Z shift) m stored) (PSpace.dimsOf (setup S Z shift)) _ _ (a + 1) (b + 1) (i + 1) (j + 1)
        / gapAA S Z a b i j)) (fun _ _ _ _ _ => rfl) e₀))))
  rw [e, C86_second_order h hZ, k]
  have r : ∀ x y z w : ℚ, secondOrder S Z + (e₀ + x + y + z) = e₀ + secondOrder S Z + w ↔ x + y + z = w := fun x y z w =>
    ⟨fun q => by linarith, fun q => by linarith⟩
  rw [r]
  unfold thirdOrder pairSum
  congr 1
  · congr 1
    · refine sum_four fun a ha b hb i hi j hj => ?_
      have ha := Finset.mem_range.1 ha
      have hi := Finset.mem_range.1 hi
      have hb := (Finset.mem_Ico.1 hb).2
      have hj := (Finset.mem_Ico.1 hj).2
      rw [element_oa h hZ ha hb hi hj, amp_a hZ hT shift m hl ha hb hi hj, value_m2a h hZ ha hb hi hj hT, mul_div_assoc]
      rfl
    · refine sum_four fun a ha b hb i hi j hj => ?_
      have ha := Finset.mem_range.1 ha
      have hb := Finset.mem_range.1 hb
      have hi := Finset.mem_range.1 hi
      have hj := Finset.mem_range.1 hj
      rw [element_ob h hZ ha hb hi hj, amp_b hZ hT shift m hl ha hb hi hj, value_m2b h hZ ha hb hi hj hT, mul_div_assoc]
      rfl
  · refine sum_four fun a ha b hb i hi j hj => ?_
    have ha := Finset.mem_range.1 ha
    have hi := Finset.mem_range.1 hi
    have hb := (Finset.mem_Ico.1 hb).2
    have hj := (Finset.mem_Ico.1 hj).2
    rw [element_oc h hZ ha hb hi hj, amp_c hZ hT shift m hl ha hb hi hj, value_m2c h hZ ha hb hi hj hT, mul_div_assoc]
    rfl

/-- The Python module passes a variable that holds zero (`f2py` sets the results of type `real` to zero before the call). -/
theorem C86_calc_mp3 : calcMp3 (setup S Z shift) m stored 0 = secondOrder S Z + thirdOrder S Z := by
  rw [C86_third_order h hZ, zero_add]

end

/-! ### A concrete case -/

/-- The hypotheses hold, and the energy of third order does not vanish. -/
example : thirdOrder exampleOrbitals exampleIntegrals ≠ 0 := by
  have e₃ := C86_calc_mp3 exampleOrbitals_proper exampleIntegrals_antisym 0 (fun _ _ => 0)
  have e₂ := C86_second_order exampleOrbitals_proper exampleIntegrals_antisym 0 (fun _ _ => 0)
  rw [← e₂] at e₃
  have e : thirdOrder exampleOrbitals exampleIntegrals = calcMp3 (setup exampleOrbitals exampleIntegrals 0) (fun _ _ => 0) stored 0
    - calcMp2 (setup exampleOrbitals exampleIntegrals 0) (fun _ _ => 0) stored := by rw [e₃, add_sub_cancel_left]
  rw [e]
  decide +kernel

end Ccpy.Mp3
