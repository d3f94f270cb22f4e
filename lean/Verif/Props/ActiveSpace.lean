import Verif.Lemmas.ActiveSpace
import Verif.Spec.Antisymmetry
import Mathlib.Algebra.Field.Basic
import Mathlib.Algebra.CharZero.Defs
import Mathlib.Algebra.Field.Rat
import Mathlib.Tactic.Ring
import Mathlib.Tactic.LinearCombination

/-! C53: zeroing and copying the parts of a triples tensor defined by an active space. -/

namespace Ccpy.ActiveSpace

open Ccpy.Writes Ccpy.Excitations Ccpy.Spec

variable {R : Type}

/-- The four zeroing functions. -/
def zeroCase [Zero R] : Case → (Key3 → R) → Sys → ℕ → Key3 → R
  | .aaa => zeroAaa
  | .aab => zeroAab
  | .abb => zeroAbb
  | .bbb => zeroBbb

/-- The four copying functions. -/
def fillCase : Case → List BlockCopy
  | .aaa => fillAaa
  | .aab => fillAab
  | .abb => fillAbb
  | .bbb => fillBbb

/-- Spin of the `x`-th particle and hole. -/
def spinAt (c : Case) (x : Fin 3) : Spin := c.spins.getD x .α

/-- The indices lie in the tensor. -/
def InRange (s : Sys) (c : Case) (k : Key3) : Prop :=
  ∀ x : Fin 3, k.1 x < s.space.unocc (spinAt c x) ∧ k.2 x < s.space.occ (spinAt c x)

/-- No orbital is used twice. -/
def Distinct (c : Case) (k : Key3) : Prop :=
  ∀ x y : Fin 3, x ≠ y → spinAt c x = spinAt c y → k.1 x ≠ k.1 y ∧ k.2 x ≠ k.2 y

/-- Number of active particles and holes of an excitation. -/
def nParticles (s : Sys) (c : Case) (k : Key3) : ℕ :=
  activeParticles s.space c.spins [k.1 0, k.1 1, k.1 2]
def nHoles (s : Sys) (c : Case) (k : Key3) : ℕ :=
  activeHoles s.space c.spins [k.2 0, k.2 1, k.2 2]

theorem nHoles_eq (s : Sys) (c : Case) (k : Key3) : nHoles s c k =
    activeHole (k.2 0) (s.space.occ (spinAt c 0)) (s.space.actOcc (spinAt c 0)) +
    activeHole (k.2 1) (s.space.occ (spinAt c 1)) (s.space.actOcc (spinAt c 1)) +
    activeHole (k.2 2) (s.space.occ (spinAt c 2)) (s.space.actOcc (spinAt c 2)) := by
  have e : ∀ (x n m : ℕ), activeHole x n m = if n - m ≤ x then 1 else 0 := by
    intro x n m
    unfold activeHole
    split_ifs <;> omega
  simp only [e]
  cases c <;>
  simp [nHoles, activeHoles, Case.spins, spinAt, List.countP_cons, Nat.add_assoc, Nat.add_comm]

theorem nParticles_eq (s : Sys) (c : Case) (k : Key3) : nParticles s c k =
    activeParticle (k.1 0) (s.space.actUnocc (spinAt c 0)) +
    activeParticle (k.1 1) (s.space.actUnocc (spinAt c 1)) +
    activeParticle (k.1 2) (s.space.actUnocc (spinAt c 2)) := by
  have e : ∀ (x n : ℕ), activeParticle x n = if decide (x < n) = true then 1 else 0 := by
    intro x n
    simp [activeParticle]
  simp only [e]
  cases c <;>
  simp [-decide_eq_true_eq, nParticles, activeParticles, Case.spins, spinAt, List.countP_cons,
    Nat.add_assoc, Nat.add_comm] <;> rfl

open Classical in
theorem zero_aaa [Zero R] (T : Key3 → R) (s : Sys) (m : ℕ) (P H : Fin 3 → ℕ) :
    zeroCase .aaa T s m (P, H) =
      if InRange s .aaa (P, H) ∧ Distinct .aaa (P, H) ∧
        (nHoles s .aaa (P, H) < m ∨ nParticles s .aaa (P, H) < m) then 0 else T (P, H) := by
  rw [nHoles_eq, nParticles_eq]
  show zeroAaa T s m (P, H) = _
  rw [zeroAaa, zeroAll_apply]
  congr 1
  simp only [mem_forRange, eq_iff_iff]
  constructor
  · rintro ⟨a, ha, b, hb, c, hc, i, hi, j, hj, k, hk, hmem⟩
    split_ifs at hmem with hcond
    · obtain ⟨hp, hh⟩ := (mem_zeroKeysAaa ..).mp hmem
      obtain ⟨p1, p2, p3, p4, p5, p6, p7⟩ := perm6_elim (by omega) (by omega) hc.2 hp
        (fun x => activeParticle x s.actUA)
      obtain ⟨q1, q2, q3, q4, q5, q6, q7⟩ := perm6_elim (by omega) (by omega) hk.2 hh
        (fun x => activeHole x s.noa s.actOA)
      refine ⟨?_, ?_, ?_⟩
      · simp [InRange, Fin.forall_fin_succ, spinAt, Case.spins, Sys.space, *]
      · simp [Distinct, Fin.forall_fin_succ, spinAt, Case.spins, *, p1.symm, p2.symm, p3.symm, q1.symm,
          q2.symm, q3.symm]
      · show activeHole (H 0) s.noa s.actOA + activeHole (H 1) s.noa s.actOA +
            activeHole (H 2) s.noa s.actOA < m ∨
          activeParticle (P 0) s.actUA + activeParticle (P 1) s.actUA + activeParticle (P 2) s.actUA < m
        omega
    · simp at hmem
  · rintro ⟨hr, hd, hcond⟩
    simp [InRange, Fin.forall_fin_succ, spinAt, Case.spins, Sys.space] at hr
    simp [Distinct, Fin.forall_fin_succ, spinAt, Case.spins] at hd
    obtain ⟨a, b, c, hab, hbc, hc, hp, hpe⟩ := perm6_exists P s.nua (by tauto) (by tauto) (by tauto)
      (by tauto) (by tauto) (by tauto) (fun x => activeParticle x s.actUA)
    obtain ⟨i, j, k, hij, hjk, hk, hh, hhe⟩ := perm6_exists H s.noa (by tauto) (by tauto) (by tauto)
      (by tauto) (by tauto) (by tauto) (fun x => activeHole x s.noa s.actOA)
    refine ⟨a, ⟨by omega, by omega⟩, b, ⟨by omega, by omega⟩, c, ⟨by omega, hc⟩, i, ⟨by omega, by omega⟩,
      j, ⟨by omega, by omega⟩, k, ⟨by omega, hk⟩, ?_⟩
    simp only [spinAt, Case.spins, Sys.space] at hcond
    rw [if_pos (by rw [hpe, hhe]; exact hcond), mem_zeroKeysAaa]
    exact ⟨hp, hh⟩

open Classical in
theorem zero_aab [Zero R] (T : Key3 → R) (s : Sys) (m : ℕ) (P H : Fin 3 → ℕ) :
    zeroCase .aab T s m (P, H) =
      if InRange s .aab (P, H) ∧ Distinct .aab (P, H) ∧
        (nHoles s .aab (P, H) < m ∨ nParticles s .aab (P, H) < m) then 0 else T (P, H) := by
  rw [nHoles_eq, nParticles_eq]
  show zeroAab T s m (P, H) = _
  rw [zeroAab, zeroAll_apply]
  congr 1
  simp only [mem_forRange, eq_iff_iff]
  constructor
  · rintro ⟨a, ha, b, hb, c, hc, i, hi, j, hj, k, hk, hmem⟩
    split_ifs at hmem with hcond
    · simp only [zeroKeysAab, List.mem_cons, List.not_mem_nil, or_false, Prod.mk.injEq, vec3_eq] at hmem
      rcases hmem with ⟨⟨h0, h1, h2⟩, h3, h4, h5⟩ | ⟨⟨h0, h1, h2⟩, h3, h4, h5⟩ |
        ⟨⟨h0, h1, h2⟩, h3, h4, h5⟩ | ⟨⟨h0, h1, h2⟩, h3, h4, h5⟩ <;>
      · refine ⟨?_, ?_, ?_⟩
        · simp [InRange, Fin.forall_fin_succ, spinAt, Case.spins, Sys.space, h0, h1, h2, h3, h4, h5]
          omega
        · simp [Distinct, Fin.forall_fin_succ, spinAt, Case.spins, h0, h1, h2, h3, h4, h5]
          omega
        · simp [spinAt, Case.spins, Sys.space, h0, h1, h2, h3, h4, h5]
          omega
    · simp at hmem
  · rintro ⟨hr, hd, hcond⟩
    simp [InRange, Fin.forall_fin_succ, spinAt, Case.spins, Sys.space] at hr
    simp [Distinct, Fin.forall_fin_succ, spinAt, Case.spins] at hd
    obtain ⟨a, b, hab, hb, hp, hpe⟩ := pair_exists (P 0) (P 1) s.nua (by tauto) (by tauto) (by tauto)
      (fun x => activeParticle x s.actUA)
    obtain ⟨i, j, hij, hj, hh, hhe⟩ := pair_exists (H 0) (H 1) s.noa (by tauto) (by tauto) (by tauto)
      (fun x => activeHole x s.noa s.actOA)
    refine ⟨a, ⟨by omega, by omega⟩, b, ⟨by omega, by omega⟩, P 2, ⟨by omega, by tauto⟩, i,
      ⟨by omega, by omega⟩, j, ⟨by omega, by omega⟩, H 2, ⟨by omega, by tauto⟩, ?_⟩
    simp only [spinAt, Case.spins, Sys.space] at hcond
    rw [if_pos (by rw [hpe, hhe]; exact hcond)]
    simp only [zeroKeysAab, List.mem_cons, List.not_mem_nil, or_false, Prod.mk.injEq, vec3_eq]
    rcases hp with ⟨h1, h2⟩ | ⟨h1, h2⟩ <;> rcases hh with ⟨h3, h4⟩ | ⟨h3, h4⟩ <;> simp [h1, h2, h3, h4]

open Classical in
theorem zero_abb [Zero R] (T : Key3 → R) (s : Sys) (m : ℕ) (P H : Fin 3 → ℕ) :
    zeroCase .abb T s m (P, H) =
      if InRange s .abb (P, H) ∧ Distinct .abb (P, H) ∧
        (nHoles s .abb (P, H) < m ∨ nParticles s .abb (P, H) < m) then 0 else T (P, H) := by
  rw [nHoles_eq, nParticles_eq]
  show zeroAbb T s m (P, H) = _
  rw [zeroAbb, zeroAll_apply]
  congr 1
  simp only [mem_forRange, eq_iff_iff]
  constructor
  · rintro ⟨a, ha, b, hb, c, hc, i, hi, j, hj, k, hk, hmem⟩
    split_ifs at hmem with hcond
    · simp only [zeroKeysAbb, List.mem_cons, List.not_mem_nil, or_false, Prod.mk.injEq, vec3_eq] at hmem
      rcases hmem with ⟨⟨h0, h1, h2⟩, h3, h4, h5⟩ | ⟨⟨h0, h1, h2⟩, h3, h4, h5⟩ |
        ⟨⟨h0, h1, h2⟩, h3, h4, h5⟩ | ⟨⟨h0, h1, h2⟩, h3, h4, h5⟩ <;>
      · refine ⟨?_, ?_, ?_⟩
        · simp [InRange, Fin.forall_fin_succ, spinAt, Case.spins, Sys.space, h0, h1, h2, h3, h4, h5]
          omega
        · simp [Distinct, Fin.forall_fin_succ, spinAt, Case.spins, h0, h1, h2, h3, h4, h5]
          omega
        · simp [spinAt, Case.spins, Sys.space, h0, h1, h2, h3, h4, h5]
          omega
    · simp at hmem
  · rintro ⟨hr, hd, hcond⟩
    simp [InRange, Fin.forall_fin_succ, spinAt, Case.spins, Sys.space] at hr
    simp [Distinct, Fin.forall_fin_succ, spinAt, Case.spins] at hd
    obtain ⟨b, c, hbc, hc, hp, hpe⟩ := pair_exists (P 1) (P 2) s.nub (by tauto) (by tauto) (by tauto)
      (fun x => activeParticle x s.actUB)
    obtain ⟨j, k, hjk, hk, hh, hhe⟩ := pair_exists (H 1) (H 2) s.nob (by tauto) (by tauto) (by tauto)
      (fun x => activeHole x s.nob s.actOB)
    refine ⟨P 0, ⟨by omega, by tauto⟩, b, ⟨by omega, by omega⟩, c, ⟨by omega, by omega⟩, H 0,
      ⟨by omega, by tauto⟩, j, ⟨by omega, by omega⟩, k, ⟨by omega, by omega⟩, ?_⟩
    simp only [spinAt, Case.spins, Sys.space] at hcond
    rw [if_pos (by simp only [Nat.add_assoc] at hcond ⊢; rw [hpe, hhe]; exact hcond)]
    simp only [zeroKeysAbb, List.mem_cons, List.not_mem_nil, or_false, Prod.mk.injEq, vec3_eq]
    rcases hp with ⟨h1, h2⟩ | ⟨h1, h2⟩ <;> rcases hh with ⟨h3, h4⟩ | ⟨h3, h4⟩ <;> simp [h1, h2, h3, h4]

open Classical in
theorem zero_bbb [Zero R] (T : Key3 → R) (s : Sys) (m : ℕ) (P H : Fin 3 → ℕ) :
    zeroCase .bbb T s m (P, H) =
      if InRange s .bbb (P, H) ∧ Distinct .bbb (P, H) ∧
        (nHoles s .bbb (P, H) < m ∨ nParticles s .bbb (P, H) < m) then 0 else T (P, H) := by
  rw [nHoles_eq, nParticles_eq]
  show zeroBbb T s m (P, H) = _
  rw [zeroBbb, zeroAll_apply]
  congr 1
  simp only [mem_forRange, eq_iff_iff]
  constructor
  · rintro ⟨a, ha, b, hb, c, hc, i, hi, j, hj, k, hk, hmem⟩
    split_ifs at hmem with hcond
    · obtain ⟨hp, hh⟩ := (mem_zeroKeysBbb ..).mp hmem
      obtain ⟨p1, p2, p3, p4, p5, p6, p7⟩ := perm6_elim (by omega) (by omega) hc.2 hp
        (fun x => activeParticle x s.actUB)
      obtain ⟨q1, q2, q3, q4, q5, q6, q7⟩ := perm6_elim (by omega) (by omega) hk.2 hh
        (fun x => activeHole x s.nob s.actOB)
      refine ⟨?_, ?_, ?_⟩
      · simp [InRange, Fin.forall_fin_succ, spinAt, Case.spins, Sys.space, *]
      · simp [Distinct, Fin.forall_fin_succ, spinAt, Case.spins, *, p1.symm, p2.symm, p3.symm, q1.symm,
          q2.symm, q3.symm]
      · show activeHole (H 0) s.nob s.actOB + activeHole (H 1) s.nob s.actOB +
            activeHole (H 2) s.nob s.actOB < m ∨
          activeParticle (P 0) s.actUB + activeParticle (P 1) s.actUB + activeParticle (P 2) s.actUB < m
        omega
    · simp at hmem
  · rintro ⟨hr, hd, hcond⟩
    simp [InRange, Fin.forall_fin_succ, spinAt, Case.spins, Sys.space] at hr
    simp [Distinct, Fin.forall_fin_succ, spinAt, Case.spins] at hd
    obtain ⟨a, b, c, hab, hbc, hc, hp, hpe⟩ := perm6_exists P s.nub (by tauto) (by tauto) (by tauto)
      (by tauto) (by tauto) (by tauto) (fun x => activeParticle x s.actUB)
    obtain ⟨i, j, k, hij, hjk, hk, hh, hhe⟩ := perm6_exists H s.nob (by tauto) (by tauto) (by tauto)
      (by tauto) (by tauto) (by tauto) (fun x => activeHole x s.nob s.actOB)
    refine ⟨a, ⟨by omega, by omega⟩, b, ⟨by omega, by omega⟩, c, ⟨by omega, hc⟩, i, ⟨by omega, by omega⟩,
      j, ⟨by omega, by omega⟩, k, ⟨by omega, hk⟩, ?_⟩
    simp only [spinAt, Case.spins, Sys.space] at hcond
    rw [if_pos (by rw [hpe, hhe]; exact hcond), mem_zeroKeysBbb]
    exact ⟨hp, hh⟩

open Classical in
/-- C53. Zeroing sets exactly the amplitudes to zero whose number of active particles or of active holes
is below the limit, and leaves everything else as it was. (Elements that use an orbital twice are not
amplitudes and are left alone.) -/
theorem C53_zero [Zero R] (c : Case) (T : Key3 → R) (s : Sys) (m : ℕ) (k : Key3) :
    zeroCase c T s m k =
      if InRange s c k ∧ Distinct c k ∧ (nHoles s c k < m ∨ nParticles s c k < m) then 0 else T k := by
  obtain ⟨P, H⟩ := k
  cases c
  · exact zero_aaa T s m P H
  · exact zero_aab T s m P H
  · exact zero_abb T s m P H
  · exact zero_bbb T s m P H

/-- A sample system: three occupied and three unoccupied orbitals of each spin; one active orbital of each kind. -/
def sample : Sys := { noa := 3, nob := 3, norb := 6, actOA := 1, actOB := 1, actUA := 1, actUB := 1, irrep := fun _ => 0, ref := 0 }

example : InRange sample .aab (![1, 2, 0], ![1, 0, 2]) ∧ Distinct .aab (![1, 2, 0], ![1, 0, 2]) ∧
    nHoles sample .aab (![1, 2, 0], ![1, 0, 2]) = 1 ∧ nParticles sample .aab (![1, 2, 0], ![1, 0, 2]) = 1 := by
  refine ⟨?_, ?_, by decide, by decide⟩
  · unfold InRange
    decide
  · unfold Distinct
    decide

/-- The permutations of same-spin particles and holes of a spin case. -/
def sameSpin : Case → Set (Equiv.Perm (Fin 3) × Equiv.Perm (Fin 3))
  | .aaa => likeSpin 3
  | .aab => spinAab
  | .abb => spinAbb
  | .bbb => likeSpin 3

/-- Exchanging two positions of the same spin. -/
theorem swap_mem (c : Case) (x y : Fin 3) (h : spinAt c x = spinAt c y) :
    (Equiv.swap x y, (1 : Equiv.Perm (Fin 3))) ∈ sameSpin c ∧
    ((1 : Equiv.Perm (Fin 3)), Equiv.swap x y) ∈ sameSpin c := by
  cases c
  · exact ⟨trivial, trivial⟩
  · revert x y
    show ∀ x y, spinAt .aab x = spinAt .aab y →
      (Equiv.swap x y 2 = 2 ∧ (1 : Equiv.Perm (Fin 3)) 2 = 2) ∧
      ((1 : Equiv.Perm (Fin 3)) 2 = 2 ∧ Equiv.swap x y 2 = 2)
    decide
  · revert x y
    show ∀ x y, spinAt .abb x = spinAt .abb y →
      (Equiv.swap x y 0 = 0 ∧ (1 : Equiv.Perm (Fin 3)) 0 = 0) ∧
      ((1 : Equiv.Perm (Fin 3)) 0 = 0 ∧ Equiv.swap x y 0 = 0)
    decide
  · exact ⟨trivial, trivial⟩

theorem comp_swap (P : Fin 3 → ℕ) (x y : Fin 3) (h : P x = P y) : P ∘ Equiv.swap x y = P := by
  funext z
  simp only [Function.comp_apply]
  by_cases hx : z = x
  · subst hx
    rw [Equiv.swap_apply_left, h]
  · by_cases hy : z = y
    · subst hy
      rw [Equiv.swap_apply_right, h]
    · rw [Equiv.swap_apply_of_ne_of_ne hx hy]

open Classical in
/-- C53. For an antisymmetric tensor the result is, at every element, zero if there are too few active
particles or holes, and the old value otherwise. -/
theorem C53_zero_antisymmetric [Field R] [CharZero R] (c : Case) (T : Key3 → R)
    (hT : AntisymUnder (sameSpin c) T) (s : Sys) (m : ℕ) (k : Key3) (hk : InRange s c k) :
    zeroCase c T s m k = if nHoles s c k < m ∨ nParticles s c k < m then 0 else T k := by
  rw [C53_zero]
  by_cases hd : Distinct c k
  · simp only [hk, hd, true_and]
  · have hz : T k = 0 := by
      unfold Distinct at hd
      push Not at hd
      obtain ⟨x, y, hxy, hs, hp⟩ := hd
      obtain ⟨m1, m2⟩ := swap_mem c x y hs
      have two : ∀ v : R, v = -v → v = 0 := by
        intro v hv
        have h2 : (2 : R) * v = 0 := by linear_combination hv
        rcases mul_eq_zero.mp h2 with h | h
        · exact absurd h (by exact_mod_cast (Nat.cast_ne_zero (R := R)).mpr (two_ne_zero' ℕ))
        · exact h
      by_cases hpe : k.1 x = k.1 y
      · have := hT _ m1 k.1 k.2
        simp only [comp_swap _ _ _ hpe, Equiv.Perm.sign_swap hxy, Equiv.Perm.sign_one] at this
        exact two _ (by simpa using this)
      · have := hT _ m2 k.1 k.2
        simp only [comp_swap _ _ _ (hp hpe), Equiv.Perm.sign_swap hxy, Equiv.Perm.sign_one] at this
        exact two _ (by simpa using this)
    rw [if_neg (by tauto), hz, ite_self]

/-! The copied blocks. -/

/-- The letter of the spin of position `x`. -/
def letter (c : Case) (x : Fin 3) : Char := match spinAt c x with | .α => 'a' | .β => 'b'

theorem fill_slices (c : Case) : ∀ b ∈ fillCase c, ∃ p0 p1 p2 h0 h1 h2 : Bool,
    b.name = [p0, p1, p2, h0, h1, h2] ∧
    b.slices = [⟨letter c 0, p0⟩, ⟨letter c 1, p1⟩, ⟨letter c 2, p2⟩,
      ⟨letter c 0, h0⟩, ⟨letter c 1, h1⟩, ⟨letter c 2, h2⟩] ∧
    (p0 || p1 || p2) = true ∧ (h0 || h1 || h2) = true := by
  cases c <;> decide +kernel

/-- Among positions of equal spin the active particles come first and the active holes last. -/
def canonical (c : Case) (p0 p1 p2 h0 h1 h2 : Bool) : Bool :=
  (if spinAt c 0 = spinAt c 1 then (p0 || !p1) && (!h0 || h1) else true) &&
  (if spinAt c 1 = spinAt c 2 then (p1 || !p2) && (!h1 || h2) else true)

theorem fill_names (c : Case) : ∀ p0 p1 p2 h0 h1 h2 : Bool, canonical c p0 p1 p2 h0 h1 h2 = true →
    (p0 || p1 || p2) = true → (h0 || h1 || h2) = true →
    ∃ b ∈ fillCase c, b.name = [p0, p1, p2, h0, h1, h2] := by
  cases c <;> decide +kernel

theorem particleSlice_mem (s : Sys) (c : Case) (x : Fin 3) (f : Bool) (q : ℕ) :
    (particleSlice s ⟨letter c x, f⟩).1 ≤ q ∧ q < (particleSlice s ⟨letter c x, f⟩).2 ↔
      q < s.space.unocc (spinAt c x) ∧ (f = true ↔ q < s.space.actUnocc (spinAt c x)) := by
  unfold particleSlice letter
  cases spinAt c x <;> cases f <;> simp [Sys.space] <;> omega

theorem holeSlice_mem (s : Sys) (c : Case) (x : Fin 3) (f : Bool) (q : ℕ) :
    (holeSlice s ⟨letter c x, f⟩).1 ≤ q ∧ q < (holeSlice s ⟨letter c x, f⟩).2 ↔
      q < s.space.occ (spinAt c x) ∧
        (f = true ↔ s.space.occ (spinAt c x) - s.space.actOcc (spinAt c x) ≤ q) := by
  unfold holeSlice letter
  cases spinAt c x <;> cases f <;> simp [Sys.space] <;> omega

/-- C53. Every copied element is an element of the full tensor with at least one active particle and at
least one active hole. -/
theorem C53_fill_sound (c : Case) (s : Sys) (b : BlockCopy) (hb : b ∈ fillCase c) (p h : Fin 3 → ℕ)
    (hin : InBlock s b p h) :
    InRange s c (blockKey s b p h) ∧ 1 ≤ nParticles s c (blockKey s b p h) ∧
      1 ≤ nHoles s c (blockKey s b p h) := by
  obtain ⟨p0, p1, p2, h0, h1, h2, -, hs, hp, hh⟩ := fill_slices c b hb
  have P : ∀ (x : Fin 3) (f : Bool), b.slices.getD x (act 'a') = ⟨letter c x, f⟩ →
      (blockKey s b p h).1 x < s.space.unocc (spinAt c x) ∧
        (f = true ↔ (blockKey s b p h).1 x < s.space.actUnocc (spinAt c x)) := by
    intro x f hf
    rw [← particleSlice_mem, ← hf]
    exact ⟨Nat.le_add_right _ _, (hin x).1⟩
  have H : ∀ (x : Fin 3) (f : Bool), b.slices.getD (x + 3) (act 'a') = ⟨letter c x, f⟩ →
      (blockKey s b p h).2 x < s.space.occ (spinAt c x) ∧
        (f = true ↔ s.space.occ (spinAt c x) - s.space.actOcc (spinAt c x) ≤ (blockKey s b p h).2 x) := by
    intro x f hf
    rw [← holeSlice_mem, ← hf]
    exact ⟨Nat.le_add_right _ _, (hin x).2⟩
  have P0 := P 0 p0 (by rw [hs]; rfl)
  have P1 := P 1 p1 (by rw [hs]; rfl)
  have P2 := P 2 p2 (by rw [hs]; rfl)
  have H0 := H 0 h0 (by rw [hs]; rfl)
  have H1 := H 1 h1 (by rw [hs]; rfl)
  have H2 := H 2 h2 (by rw [hs]; rfl)
  refine ⟨?_, ?_, ?_⟩
  · intro x
    match x with
    | 0 => exact ⟨P0.1, H0.1⟩
    | 1 => exact ⟨P1.1, H1.1⟩
    | 2 => exact ⟨P2.1, H2.1⟩
  · rw [nParticles_eq]
    unfold activeParticle
    simp only [Bool.or_eq_true] at hp
    rcases hp with (hp | hp) | hp
    · rw [if_pos (P0.2.mp hp)]; omega
    · rw [if_pos (P1.2.mp hp)]; omega
    · rw [if_pos (P2.2.mp hp)]; omega
  · rw [nHoles_eq]
    unfold activeHole
    simp only [Bool.or_eq_true] at hh
    rcases hh with (hh | hh) | hh
    · have := H0.2.mp hh
      rw [if_neg (by omega)]; omega
    · have := H1.2.mp hh
      rw [if_neg (c := _ < s.space.occ (spinAt c 1) - _) (by omega)]; omega
    · have := H2.2.mp hh
      rw [if_neg (c := _ < s.space.occ (spinAt c 2) - _) (by omega)]; omega

/-- C53. Every amplitude with ordered indices and at least one active particle and one active hole is
copied, to exactly one place of exactly one block. -/
theorem C53_fill_complete (c : Case) (s : Sys) (k : Key3) (hr : InRange s c k)
    (hord : ∀ x y : Fin 3, x < y → spinAt c x = spinAt c y → k.1 x ≤ k.1 y ∧ k.2 x ≤ k.2 y)
    (hp : 1 ≤ nParticles s c k) (hh : 1 ≤ nHoles s c k) :
    ∃ b ∈ fillCase c, ∃ p h, InBlock s b p h ∧ blockKey s b p h = k ∧
      ∀ b' ∈ fillCase c, ∀ p' h', InBlock s b' p' h' → blockKey s b' p' h' = k →
        b' = b ∧ p' = p ∧ h' = h := by
  -- the block an element lies in determines its name, and its name the block
  have named : ∀ b' ∈ fillCase c, ∀ p' h', InBlock s b' p' h' → blockKey s b' p' h' = k →
      b'.name = [decide (k.1 0 < s.space.actUnocc (spinAt c 0)), decide (k.1 1 < s.space.actUnocc (spinAt c 1)),
        decide (k.1 2 < s.space.actUnocc (spinAt c 2)),
        decide (s.space.occ (spinAt c 0) - s.space.actOcc (spinAt c 0) ≤ k.2 0),
        decide (s.space.occ (spinAt c 1) - s.space.actOcc (spinAt c 1) ≤ k.2 1),
        decide (s.space.occ (spinAt c 2) - s.space.actOcc (spinAt c 2) ≤ k.2 2)] := by
    intro b' hb' p' h' hin hk
    obtain ⟨p0, p1, p2, h0, h1, h2, hn, hs, -, -⟩ := fill_slices c b' hb'
    have P : ∀ (x : Fin 3) (f : Bool), b'.slices.getD x (act 'a') = ⟨letter c x, f⟩ →
        f = decide (k.1 x < s.space.actUnocc (spinAt c x)) := by
      intro x f hf
      have := (particleSlice_mem s c x f (k.1 x)).mp (by
        rw [← hf, ← hk]
        exact ⟨Nat.le_add_right _ _, (hin x).1⟩)
      rw [Bool.eq_iff_iff, this.2, decide_eq_true_eq]
    have H : ∀ (x : Fin 3) (f : Bool), b'.slices.getD (x + 3) (act 'a') = ⟨letter c x, f⟩ →
        f = decide (s.space.occ (spinAt c x) - s.space.actOcc (spinAt c x) ≤ k.2 x) := by
      intro x f hf
      have := (holeSlice_mem s c x f (k.2 x)).mp (by
        rw [← hf, ← hk]
        exact ⟨Nat.le_add_right _ _, (hin x).2⟩)
      rw [Bool.eq_iff_iff, this.2, decide_eq_true_eq]
    rw [hn, ← P 0 p0 (by rw [hs]; rfl), ← P 1 p1 (by rw [hs]; rfl), ← P 2 p2 (by rw [hs]; rfl),
      ← H 0 h0 (by rw [hs]; rfl), ← H 1 h1 (by rw [hs]; rfl), ← H 2 h2 (by rw [hs]; rfl)]
  have inj : ∀ b ∈ fillCase c, ∀ b' ∈ fillCase c, b'.name = b.name → b' = b := by
    cases c <;> decide +kernel
  rw [nParticles_eq] at hp
  rw [nHoles_eq] at hh
  obtain ⟨b, hb, hname⟩ := fill_names c (decide (k.1 0 < s.space.actUnocc (spinAt c 0)))
    (decide (k.1 1 < s.space.actUnocc (spinAt c 1))) (decide (k.1 2 < s.space.actUnocc (spinAt c 2)))
    (decide (s.space.occ (spinAt c 0) - s.space.actOcc (spinAt c 0) ≤ k.2 0))
    (decide (s.space.occ (spinAt c 1) - s.space.actOcc (spinAt c 1) ≤ k.2 1))
    (decide (s.space.occ (spinAt c 2) - s.space.actOcc (spinAt c 2) ≤ k.2 2))
    (by
      have o1 := hord 0 1 (by decide)
      have o2 := hord 1 2 (by decide)
      unfold canonical
      simp only [Bool.and_eq_true]
      constructor
      · split_ifs with he
        · have := o1 he
          rw [← he]
          simp only [Bool.and_eq_true, Bool.or_eq_true, Bool.not_eq_true', decide_eq_true_eq,
            decide_eq_false_iff_not]
          omega
        · rfl
      · split_ifs with he
        · have := o2 he
          rw [← he]
          simp only [Bool.and_eq_true, Bool.or_eq_true, Bool.not_eq_true', decide_eq_true_eq,
            decide_eq_false_iff_not]
          omega
        · rfl)
    (by
      unfold activeParticle at hp
      simp only [Bool.or_eq_true, decide_eq_true_eq]
      by_contra hc
      simp only [not_or] at hc
      rw [if_neg hc.1.1, if_neg hc.1.2, if_neg hc.2] at hp
      omega)
    (by
      unfold activeHole at hh
      simp only [Bool.or_eq_true, decide_eq_true_eq]
      by_contra hc
      simp only [not_or] at hc
      rw [if_pos (by omega), if_pos (by omega), if_pos (by omega)] at hh
      omega)
  obtain ⟨p0, p1, p2, h0, h1, h2, hn, hs, -, -⟩ := fill_slices c b hb
  rw [hn] at hname
  simp only [List.cons.injEq, and_true] at hname
  obtain ⟨e0, e1, e2, e3, e4, e5⟩ := hname
  have P : ∀ (x : Fin 3) (f : Bool), b.slices.getD x (act 'a') = ⟨letter c x, f⟩ →
      f = decide (k.1 x < s.space.actUnocc (spinAt c x)) →
      (particleSlice s (b.slices.getD x (act 'a'))).1 ≤ k.1 x ∧
        k.1 x < (particleSlice s (b.slices.getD x (act 'a'))).2 := by
    intro x f hf hfd
    rw [hf]
    exact (particleSlice_mem s c x f (k.1 x)).mpr ⟨(hr x).1, by rw [hfd, decide_eq_true_eq]⟩
  have H : ∀ (x : Fin 3) (f : Bool), b.slices.getD (x + 3) (act 'a') = ⟨letter c x, f⟩ →
      f = decide (s.space.occ (spinAt c x) - s.space.actOcc (spinAt c x) ≤ k.2 x) →
      (holeSlice s (b.slices.getD (x + 3) (act 'a'))).1 ≤ k.2 x ∧
        k.2 x < (holeSlice s (b.slices.getD (x + 3) (act 'a'))).2 := by
    intro x f hf hfd
    rw [hf]
    exact (holeSlice_mem s c x f (k.2 x)).mpr ⟨(hr x).2, by rw [hfd, decide_eq_true_eq]⟩
  have Pall : ∀ x : Fin 3, (particleSlice s (b.slices.getD x (act 'a'))).1 ≤ k.1 x ∧
        k.1 x < (particleSlice s (b.slices.getD x (act 'a'))).2 := by
    intro x
    match x with
    | 0 => exact P 0 p0 (by rw [hs]; rfl) e0
    | 1 => exact P 1 p1 (by rw [hs]; rfl) e1
    | 2 => exact P 2 p2 (by rw [hs]; rfl) e2
  have Hall : ∀ x : Fin 3, (holeSlice s (b.slices.getD (x + 3) (act 'a'))).1 ≤ k.2 x ∧
        k.2 x < (holeSlice s (b.slices.getD (x + 3) (act 'a'))).2 := by
    intro x
    match x with
    | 0 => exact H 0 h0 (by rw [hs]; rfl) e3
    | 1 => exact H 1 h1 (by rw [hs]; rfl) e4
    | 2 => exact H 2 h2 (by rw [hs]; rfl) e5
  refine ⟨b, hb, fun x => k.1 x - (particleSlice s (b.slices.getD x (act 'a'))).1,
    fun x => k.2 x - (holeSlice s (b.slices.getD (x + 3) (act 'a'))).1, ?_, ?_, ?_⟩
  · intro x
    have h1 := Pall x
    have h2 := Hall x
    constructor <;> simp only <;> omega
  · unfold blockKey
    refine Prod.ext ?_ ?_
    · funext x
      have h1 := Pall x
      simp only
      omega
    · funext x
      have h1 := Hall x
      simp only
      omega
  · intro b' hb' p' h' hin hk
    have hbb : b' = b := inj b hb b' hb' (by
      rw [named b' hb' p' h' hin hk, hn, e0, e1, e2, e3, e4, e5])
    subst hbb
    refine ⟨rfl, ?_, ?_⟩
    · funext x
      have : (blockKey s b' p' h').1 x = k.1 x := by rw [hk]
      simp only [blockKey] at this
      omega
    · funext x
      have : (blockKey s b' p' h').2 x = k.2 x := by rw [hk]
      simp only [blockKey] at this
      omega

/-- C53. The two agree: zeroing with limit one changes no element that is copied. -/
theorem C53_agree [Zero R] (c : Case) (T0 : Key3 → R) (s : Sys) (b : BlockCopy) (hb : b ∈ fillCase c)
    (p h : Fin 3 → ℕ) (hin : InBlock s b p h) :
    blockEntry (zeroCase c T0 s 1) s b p h = T0 (blockKey s b p h) ∧
    blockEntry T0 s b p h = T0 (blockKey s b p h) := by
  obtain ⟨-, h1, h2⟩ := C53_fill_sound c s b hb p h hin
  refine ⟨?_, rfl⟩
  unfold blockEntry
  rw [C53_zero, if_neg]
  rintro ⟨-, -, h3⟩
  omega

example : ∃ b ∈ fillCase .aab, InBlock sample b ![0, 0, 0] ![1, 0, 0] ∧
    blockKey sample b ![0, 0, 0] ![1, 0, 0] = (![0, 1, 0], ![1, 2, 2]) := by
  refine ⟨⟨[true, false, true, false, true, true],
    [act 'a', ina 'a', act 'b', ina 'a', act 'a', act 'b']⟩, by decide, ?_, by decide⟩
  unfold InBlock
  decide

end Ccpy.ActiveSpace
