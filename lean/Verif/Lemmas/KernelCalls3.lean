import Verif.Lemmas.KernelCalls
import Verif.Model.CcsdtUpdate

/-! What the kernel calls for triple excitations do to Python arrays. -/

namespace Ccpy.Tensor
open Ccpy.UpdateKernels Ccpy.Writes Ccpy.Spec Ccpy.Fock

/-- The index list of an excitation. -/
def listed {m n : ℕ} (k : (Fin m → ℕ) × (Fin n → ℕ)) : List ℕ := List.ofFn k.1 ++ List.ofFn k.2

/-- Numbers of occupied and unoccupied orbitals and orbital energies, by spin. -/
def Setup.occ (s : Setup) (b : Bool) : ℕ := if b then s.nb else s.na
def Setup.vir (s : Setup) (b : Bool) : ℕ := if b then s.n - s.nb else s.n - s.na
def Setup.eo (s : Setup) (b : Bool) (i : ℕ) : ℚ := if b then s.f.b i i else s.f.a i i
def Setup.ev (s : Setup) (b : Bool) (a : ℕ) : ℚ :=
  if b then s.f.b (s.nb + a) (s.nb + a) else s.f.a (s.na + a) (s.na + a)

/-- The excitation is one of the orbitals of the given spins. -/
def Setup.Fits (s : Setup) {m n : ℕ} (sp : Fin m → Bool) (sh : Fin n → Bool) (k : (Fin m → ℕ) × (Fin n → ℕ)) : Prop :=
  (∀ i, k.1 i < s.vir (sp i)) ∧ ∀ i, k.2 i < s.occ (sh i)

/-- A kernel call: Jacobi steps in range, nothing else changed, increments returned. -/
structure Called (s : Setup) {m n : ℕ} (sp : Fin m → Bool) (sh : Fin n → Bool) (X t : List ℕ → ℚ)
    (r : (List ℕ → ℚ) × (List ℕ → ℚ)) : Prop where
  step : ∀ k, s.Fits sp sh k → (energyDifference sp sh s.eo s.ev k - s.shift) * (r.1 (listed k) - t (listed k))
    = antisymmetrize sp sh (fun k => X (listed k)) k
  outside : ∀ k : (Fin m → ℕ) × (Fin n → ℕ), ¬ s.Fits sp sh k → r.1 (listed k) = t (listed k)
  other : ∀ l, l.length ≠ m + n → r.1 l = t l
  change : ∀ k : (Fin m → ℕ) × (Fin n → ℕ), r.2 (listed k) = r.1 (listed k) - t (listed k)

theorem exists_listed {m n : ℕ} {l : List ℕ} (h : l.length = m + n) : ∃ k : (Fin m → ℕ) × (Fin n → ℕ), l = listed k := by
  refine ⟨(fun i => l.get ⟨i, by omega⟩, fun i => l.get ⟨m + i, by omega⟩), ?_⟩
  unfold listed
  refine List.ext_getElem (by simp [h]) fun i h₁ h₂ => ?_
  by_cases hi : i < m
  · rw [List.getElem_append_left (by simpa using hi)]
    simp
  · rw [List.getElem_append_right (by simpa using hi)]
    simp [Nat.add_sub_cancel' (Nat.le_of_not_lt hi)]

theorem Called.fixed_iff {s : Setup} {m n : ℕ} {sp : Fin m → Bool} {sh : Fin n → Bool} {X t : List ℕ → ℚ}
    {r : (List ℕ → ℚ) × (List ℕ → ℚ)} (h : Called s sp sh X t r)
    (hd : ∀ k, s.Fits sp sh k → energyDifference sp sh s.eo s.ev k - s.shift ≠ 0) :
    r.1 = t ↔ ∀ k, s.Fits sp sh k → antisymmetrize sp sh (fun k => X (listed k)) k = 0 := by
  constructor
  · intro e k hk
    rw [← h.step k hk, e, sub_self, mul_zero]
  · intro e
    funext l
    by_cases hl : l.length = m + n
    · obtain ⟨k, rfl⟩ := exists_listed hl
      by_cases hr : s.Fits sp sh k
      · have := h.step k hr
        rw [e k hr] at this
        exact sub_eq_zero.1 ((mul_eq_zero.1 this).resolve_left (hd k hr))
      · exact h.outside k hr
    · exact h.other l hl

section
variable (s : Setup)

/-- The kernels count from one. -/
def up {m n : ℕ} (k : (Fin m → ℕ) × (Fin n → ℕ)) : (Fin m → ℕ) × (Fin n → ℕ) := (fun i => k.1 i + 1, fun i => k.2 i + 1)
def dn {m n : ℕ} (k : (Fin m → ℕ) × (Fin n → ℕ)) : (Fin m → ℕ) × (Fin n → ℕ) := (fun i => k.1 i - 1, fun i => k.2 i - 1)

theorem fits_up {m n : ℕ} {sp : Fin m → Bool} {sh : Fin n → Bool} (k : (Fin m → ℕ) × (Fin n → ℕ)) :
    InRange sp sh (bySpin (s.n - s.na) (s.n - s.nb)) (bySpin s.na s.nb) (up k) ↔ s.Fits sp sh k := by
  unfold InRange Setup.Fits up bySpin Setup.vir Setup.occ
  constructor
  · rintro ⟨h₁, h₂⟩
    exact ⟨fun i => by have := (h₁ i).2; dsimp only at this; omega, fun i => by have := (h₂ i).2; dsimp only at this; omega⟩
  · rintro ⟨h₁, h₂⟩
    exact ⟨fun i => ⟨by simp, by have := h₁ i; dsimp only; omega⟩, fun i => ⟨by simp, by have := h₂ i; dsimp only; omega⟩⟩

theorem fits_dn {m n : ℕ} {sp : Fin m → Bool} {sh : Fin n → Bool} {k : (Fin m → ℕ) × (Fin n → ℕ)}
    (h : InRange sp sh (bySpin (s.n - s.na) (s.n - s.nb)) (bySpin s.na s.nb) k) : up (dn k) = k := by
  refine Prod.ext (funext fun i => ?_) (funext fun i => ?_)
  · have := (h.1 i).1
    simp only [up, dn]; omega
  · have := (h.2 i).1
    simp only [up, dn]; omega

theorem energy_up {m n : ℕ} (sp : Fin m → Bool) (sh : Fin n → Bool) (k : (Fin m → ℕ) × (Fin n → ℕ)) :
    energyDifference sp sh (diag s.foo s.goo) (diag s.fvv s.gvv) (up k) = energyDifference sp sh s.eo s.ev k := by
  unfold energyDifference up
  congr 1 <;> refine Finset.sum_congr rfl fun i _ => ?_
  · cases hb : sh i <;> simp [diag, Setup.eo, Setup.foo, Setup.goo, bySpin]
  · cases hb : sp i <;> simp [diag, Setup.ev, Setup.fvv, Setup.gvv, bySpin]

theorem antisymmetrize_up {m n : ℕ} (sp : Fin m → Bool) (sh : Fin n → Bool) (F : (Fin m → ℕ) × (Fin n → ℕ) → ℚ)
    (k : (Fin m → ℕ) × (Fin n → ℕ)) : antisymmetrize sp sh (fun k => F (dn k)) (up k) = antisymmetrize sp sh F k := by
  unfold antisymmetrize
  refine Finset.sum_congr rfl fun g _ => ?_
  rfl

theorem seen3_eq (x : List ℕ → ℚ) : seen3 x = fun k : Key3 => x (listed (dn k)) := by
  funext k
  simp [seen3, listed, dn, List.ofFn_succ]

theorem back3_up (t : List ℕ → ℚ) (r : Key3 → ℚ) (k : Key3) : back3 t r (listed k) = r (up k) := by
  obtain ⟨P, H⟩ := k
  have e : listed (P, H) = [P 0, P 1, P 2, H 0, H 1, H 2] := by simp [listed, List.ofFn_succ]
  rw [e]
  show r _ = r _
  congr 1
  refine Prod.ext ?_ ?_ <;> funext i <;> fin_cases i <;> rfl

theorem back3_other (t : List ℕ → ℚ) (r : Key3 → ℚ) (l : List ℕ) (h : l.length ≠ 6) : back3 t r l = t l := by
  match l, h with
  | [], _ | [_], _ | [_, _], _ | [_, _, _], _ | [_, _, _, _], _ | [_, _, _, _, _], _ | _ :: _ :: _ :: _ :: _ :: _ :: _ :: _, _ => rfl
  | [_, _, _, _, _, _], h => exact absurd rfl h

/-- From a Jacobi step of the kernel. -/
theorem called3_of {sp sh : Fin 3 → Bool} {X t : List ℕ → ℚ} {r : (Key3 → ℚ) × (Key3 → ℚ)}
    (hs : JacobiStep sp sh (bySpin (s.n - s.na) (s.n - s.nb)) (bySpin s.na s.nb) (diag s.foo s.goo) (diag s.fvv s.gvv) s.shift
      (seen3 X) (seen3 t) r.1 r.2) : Called s sp sh X t (back3 t r.1, back3 (fun _ => 0) r.2) := by
  have ht : ∀ k, seen3 t (up k) = t (listed k) := fun k => by rw [seen3_eq]; rfl
  refine ⟨fun k hk => ?_, fun k hk => ?_, fun l hl => back3_other _ _ _ hl, fun k => ?_⟩
  · have := hs.step (up k) ((fits_up s k).2 hk)
    rw [energy_up, seen3_eq X, antisymmetrize_up sp sh (fun k => X (listed k)), ht] at this
    rw [← this]
    dsimp only
    rw [back3_up]
  · have := hs.outside (up k) (fun h => hk ((fits_up s k).1 h))
    rw [ht] at this
    rw [← this]
    exact back3_up t r.1 k
  · have := hs.change (up k)
    rw [ht] at this
    dsimp only
    rw [back3_up, back3_up, this]

theorem den_of {sp sh : Fin 3 → Bool} (hd : ∀ k, s.Fits sp sh k → energyDifference sp sh s.eo s.ev k - s.shift ≠ 0) (k : Key3)
    (hk : InRange sp sh (bySpin (s.n - s.na) (s.n - s.nb)) (bySpin s.na s.nb) k) :
    energyDifference sp sh (diag s.foo s.goo) (diag s.fvv s.gvv) k ≠ s.shift := by
  have e := fits_dn s hk
  rw [← e] at hk
  rw [← e, energy_up]
  exact sub_ne_zero.1 (hd _ ((fits_up s _).1 hk))

/-- Antisymmetry of an array of amplitudes. -/
theorem perm3 {F : ℕ → ℕ → ℕ → ℚ} (h₁ : ∀ a b c, F b a c = - F a b c) (h₂ : ∀ a b c, F a c b = - F a b c)
    (g : Equiv.Perm (Fin 3)) (P : Fin 3 → ℕ) :
    F (P (g 0)) (P (g 1)) (P (g 2)) = ((Equiv.Perm.sign g : ℤˣ) : ℤ) * F (P 0) (P 1) (P 2) := by
  have h : ∀ g : Equiv.Perm (Fin 3), (g 0 = 0 ∧ g 1 = 1 ∧ g 2 = 2 ∧ Equiv.Perm.sign g = 1)
    ∨ (g 0 = 1 ∧ g 1 = 0 ∧ g 2 = 2 ∧ Equiv.Perm.sign g = -1) ∨ (g 0 = 0 ∧ g 1 = 2 ∧ g 2 = 1 ∧ Equiv.Perm.sign g = -1)
    ∨ (g 0 = 2 ∧ g 1 = 1 ∧ g 2 = 0 ∧ Equiv.Perm.sign g = -1) ∨ (g 0 = 1 ∧ g 1 = 2 ∧ g 2 = 0 ∧ Equiv.Perm.sign g = 1)
    ∨ (g 0 = 2 ∧ g 1 = 0 ∧ g 2 = 1 ∧ Equiv.Perm.sign g = 1) := by decide
  rcases h g with ⟨e₀, e₁, e₂, e⟩ | ⟨e₀, e₁, e₂, e⟩ | ⟨e₀, e₁, e₂, e⟩ | ⟨e₀, e₁, e₂, e⟩ | ⟨e₀, e₁, e₂, e⟩ | ⟨e₀, e₁, e₂, e⟩ <;>
    rw [e₀, e₁, e₂, e]
  · simp
  · rw [h₁]; simp
  · rw [h₂]; simp
  · rw [h₁, h₂, h₁]; simp
  · rw [h₂, h₁]; simp
  · rw [h₁, h₂]; simp

theorem antisym_of {sp sh : Fin 3 → Bool} {t : List ℕ → ℚ} {w : ℕ → ℕ → ℕ → ℕ → ℕ → ℕ → ℚ}
    (ht : ∀ a b c i j k, t [a, b, c, i, j, k] = w a b c i j k)
    (h₁ : ∀ g : Equiv.Perm (Fin 3), (∀ i, sp (g i) = sp i) → ∀ (P : Fin 3 → ℕ) i j k,
      w (P (g 0)) (P (g 1)) (P (g 2)) i j k = ((Equiv.Perm.sign g : ℤˣ) : ℤ) * w (P 0) (P 1) (P 2) i j k)
    (h₂ : ∀ g : Equiv.Perm (Fin 3), (∀ i, sh (g i) = sh i) → ∀ (H : Fin 3 → ℕ) a b c,
      w a b c (H (g 0)) (H (g 1)) (H (g 2)) = ((Equiv.Perm.sign g : ℤˣ) : ℤ) * w a b c (H 0) (H 1) (H 2)) :
    AntisymUnder (SpinExchange sp sh) (seen3 t) := by
  intro g hg P H
  simp only [seen3, ht]
  have e₁ := h₁ g.1 hg.1 (fun i => P i - 1) (H (g.2 0) - 1) (H (g.2 1) - 1) (H (g.2 2) - 1)
  have e₂ := h₂ g.2 hg.2 (fun i => H i - 1) (P 0 - 1) (P 1 - 1) (P 2 - 1)
  simp only [Function.comp] at e₁ e₂ ⊢
  rw [e₁, e₂, ← mul_assoc, zsmul_eq_mul]
  push_cast
  rfl

theorem antisym_aaa {s : Bool} {t : List ℕ → ℚ} {w : ℕ → ℕ → ℕ → ℕ → ℕ → ℕ → ℚ}
    (ht : ∀ a b c i j k, t [a, b, c, i, j, k] = w a b c i j k)
    (h : ∀ a b c i j k, w b a c i j k = - w a b c i j k ∧ w a c b i j k = - w a b c i j k
    ∧ w a b c j i k = - w a b c i j k ∧ w a b c i k j = - w a b c i j k) :
    AntisymUnder (SpinExchange ![s, s, s] ![s, s, s]) (seen3 t) :=
  antisym_of ht (fun g _ P i j k => perm3 (fun a b c => (h a b c i j k).1) (fun a b c => (h a b c i j k).2.1) g P)
    fun g _ H a b c => perm3 (fun i j k => (h a b c i j k).2.2.1) (fun i j k => (h a b c i j k).2.2.2) g H

theorem antisym_aab {t : List ℕ → ℚ} {w : ℕ → ℕ → ℕ → ℕ → ℕ → ℕ → ℚ}
    (ht : ∀ a b c i j k, t [a, b, c, i, j, k] = w a b c i j k)
    (h : ∀ a b c i j k, w b a c i j k = - w a b c i j k ∧ w a b c j i k = - w a b c i j k) :
    AntisymUnder (SpinExchange ![false, false, true] ![false, false, true]) (seen3 t) := by
  have hp : ∀ g : Equiv.Perm (Fin 3), (∀ i, ![false, false, true] (g i) = ![false, false, true] i) →
    (g 0 = 0 ∧ g 1 = 1 ∧ g 2 = 2 ∧ Equiv.Perm.sign g = 1) ∨ (g 0 = 1 ∧ g 1 = 0 ∧ g 2 = 2 ∧ Equiv.Perm.sign g = -1) := by decide
  refine antisym_of ht (fun g hg P i j k => ?_) fun g hg H a b c => ?_
  · rcases hp g hg with ⟨e₀, e₁, e₂, e⟩ | ⟨e₀, e₁, e₂, e⟩ <;> rw [e₀, e₁, e₂, e]
    · simp
    · rw [(h ..).1]; simp
  · rcases hp g hg with ⟨e₀, e₁, e₂, e⟩ | ⟨e₀, e₁, e₂, e⟩ <;> rw [e₀, e₁, e₂, e]
    · simp
    · rw [(h ..).2]; simp

theorem antisym_abb {t : List ℕ → ℚ} {w : ℕ → ℕ → ℕ → ℕ → ℕ → ℕ → ℚ}
    (ht : ∀ a b c i j k, t [a, b, c, i, j, k] = w a b c i j k)
    (h : ∀ a b c i j k, w a c b i j k = - w a b c i j k ∧ w a b c i k j = - w a b c i j k) :
    AntisymUnder (SpinExchange ![false, true, true] ![false, true, true]) (seen3 t) := by
  have hp : ∀ g : Equiv.Perm (Fin 3), (∀ i, ![false, true, true] (g i) = ![false, true, true] i) →
    (g 0 = 0 ∧ g 1 = 1 ∧ g 2 = 2 ∧ Equiv.Perm.sign g = 1) ∨ (g 0 = 0 ∧ g 1 = 2 ∧ g 2 = 1 ∧ Equiv.Perm.sign g = -1) := by decide
  refine antisym_of ht (fun g hg P i j k => ?_) fun g hg H a b c => ?_
  · rcases hp g hg with ⟨e₀, e₁, e₂, e⟩ | ⟨e₀, e₁, e₂, e⟩ <;> rw [e₀, e₁, e₂, e]
    · simp
    · rw [(h ..).1]; simp
  · rcases hp g hg with ⟨e₀, e₁, e₂, e⟩ | ⟨e₀, e₁, e₂, e⟩ <;> rw [e₀, e₁, e₂, e]
    · simp
    · rw [(h ..).2]; simp

variable {X t : List ℕ → ℚ}

theorem calledT3a (ht : AntisymUnder (SpinExchange ![false, false, false] ![false, false, false]) (seen3 t))
    (hd : ∀ k, s.Fits ![false, false, false] ![false, false, false] k →
      energyDifference ![false, false, false] ![false, false, false] s.eo s.ev k - s.shift ≠ 0) :
    Called s ![false, false, false] ![false, false, false] X t (callT3a s X t) :=
  called3_of s (C43_t3a _ _ _ _ _ _ _ _ _ _ _ ht (den_of s hd))

theorem calledT3b (ht : AntisymUnder (SpinExchange ![false, false, true] ![false, false, true]) (seen3 t))
    (hd : ∀ k, s.Fits ![false, false, true] ![false, false, true] k →
      energyDifference ![false, false, true] ![false, false, true] s.eo s.ev k - s.shift ≠ 0) :
    Called s ![false, false, true] ![false, false, true] X t (callT3b s X t) :=
  called3_of s (C43_t3b _ _ _ _ _ _ _ _ _ _ _ ht (den_of s hd))

theorem calledT3c (ht : AntisymUnder (SpinExchange ![false, true, true] ![false, true, true]) (seen3 t))
    (hd : ∀ k, s.Fits ![false, true, true] ![false, true, true] k →
      energyDifference ![false, true, true] ![false, true, true] s.eo s.ev k - s.shift ≠ 0) :
    Called s ![false, true, true] ![false, true, true] X t (callT3c s X t) :=
  called3_of s (C43_t3c _ _ _ _ _ _ _ _ _ _ _ ht (den_of s hd))

theorem calledT3d (ht : AntisymUnder (SpinExchange ![true, true, true] ![true, true, true]) (seen3 t))
    (hd : ∀ k, s.Fits ![true, true, true] ![true, true, true] k →
      energyDifference ![true, true, true] ![true, true, true] s.eo s.ev k - s.shift ≠ 0) :
    Called s ![true, true, true] ![true, true, true] X t (callT3d s X t) :=
  called3_of s (C43_t3d _ _ _ _ _ _ _ _ _ _ _ ht (den_of s hd))

end

end Ccpy.Tensor
