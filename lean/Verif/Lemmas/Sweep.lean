import Verif.Lemmas.Writes
import Verif.Spec.Exchange
import Mathlib.Order.Fin.Basic
import Mathlib.Data.Nat.Find
import Mathlib.Data.Fin.SuccPred

namespace Ccpy.Writes
open Ccpy.Spec Equiv

variable {m n : ℕ} {R : Type*} [AddCommGroup R]

theorem isGroup_spinExchange (sp : Fin m → Bool) (sh : Fin n → Bool) :
    IsGroup (SpinExchange sp sh) where
  one := ⟨fun _ => rfl, fun _ => rfl⟩
  mul := fun g hg h hh => ⟨fun i => by rw [Prod.fst_mul, Perm.mul_apply, hg.1, hh.1],
    fun i => by rw [Prod.snd_mul, Perm.mul_apply, hg.2, hh.2]⟩
  inv := fun g hg => ⟨fun i => by
      have := hg.1 (g.1⁻¹ i)
      rw [show g.1 (g.1⁻¹ i) = i from Equiv.apply_symm_apply g.1 i] at this
      rw [Prod.fst_inv, this],
    fun i => by
      have := hg.2 (g.2⁻¹ i)
      rw [show g.2 (g.2⁻¹ i) = i from Equiv.apply_symm_apply g.2 i] at this
      rw [Prod.snd_inv, this]⟩

/-- a spin-preserving permutation between two ordered tuples is the identity -/
theorem ordered_perm_eq_one {sp : Fin m → Bool} {P : Fin m → ℕ} {σ : Perm (Fin m)}
    (hσ : ∀ i, sp (σ i) = sp i) (h : OrderedWithin sp P) (h' : OrderedWithin sp (P ∘ σ)) :
    σ = 1 := by
  by_contra hne
  have hex : ∃ k : ℕ, ∃ hk : k < m, σ ⟨k, hk⟩ ≠ ⟨k, hk⟩ := by
    by_contra hc
    push Not at hc
    exact hne (Equiv.ext fun i => hc i.1 i.2)
  classical
  let k := Nat.find hex
  obtain ⟨hk, hσk⟩ := Nat.find_spec hex
  have hmin : ∀ i : Fin m, i.1 < k → σ i = i := by
    intro i hi
    have := Nat.find_min hex hi
    push Not at this
    exact this i.2
  set i : Fin m := ⟨k, hk⟩ with hi
  have hgt : ∀ j : Fin m, j ≠ i → σ j = i → i < j := by
    intro j hj e
    rcases lt_trichotomy j i with hl | hl | hl
    · have := hmin j hl
      exact absurd (this.symm.trans e) hj
    · exact absurd hl hj
    · exact hl
  have hup : i < σ i := by
    rcases lt_trichotomy (σ i) i with hl | hl | hl
    · have := hmin (σ i) hl
      exact absurd (σ.injective this) hσk
    · exact absurd hl hσk
    · exact hl
  let j := σ⁻¹ i
  have hj : σ j = i := Equiv.apply_symm_apply σ i
  have hji : j ≠ i := fun e => hσk (by rw [e] at hj; exact hj)
  have hlt := hgt j hji hj
  have hs : sp j = sp i := by rw [← hσ j, hj]
  have h1 : P (σ i) < P (σ j) := h' i j hlt hs.symm
  rw [hj] at h1
  have h2 : P i < P (σ i) := h i (σ i) hup (hσ i).symm
  omega

theorem free_ordered {sp : Fin m → Bool} {sh : Fin n → Bool} {P : Fin m → ℕ} {H : Fin n → ℕ}
    (hP : OrderedWithin sp P) (hH : OrderedWithin sh H) : Free (SpinExchange sp sh) P H := by
  intro g hg e1 e2
  refine Prod.ext ?_ ?_
  · exact ordered_perm_eq_one hg.1 hP (by rw [e1]; exact hP)
  · exact ordered_perm_eq_one hg.2 hH (by rw [e2]; exact hH)

theorem ordered_unique {sp : Fin m → Bool} {sh : Fin n → Bool} {P P' : Fin m → ℕ}
    {H H' : Fin n → ℕ} (hP : OrderedWithin sp P) (hH : OrderedWithin sh H)
    (hP' : OrderedWithin sp P') (hH' : OrderedWithin sh H') {g : Perm (Fin m) × Perm (Fin n)}
    (hg : g ∈ SpinExchange sp sh) (e1 : P' = P ∘ g.1) (e2 : H' = H ∘ g.2) : P' = P ∧ H' = H := by
  have h1 := ordered_perm_eq_one hg.1 hP (e1 ▸ hP')
  have h2 := ordered_perm_eq_one hg.2 hH (e2 ▸ hH')
  rw [e1, e2, h1, h2]
  exact ⟨rfl, rfl⟩

/-- The effect of storing a list of amplitudes one after the other. -/
structure Sweeps (G : Set (Perm (Fin m) × Perm (Fin n)))
    (entries : List ((Fin m → ℕ) × (Fin n → ℕ) × R))
    (T T' : (Fin m → ℕ) × (Fin n → ℕ) → R) : Prop where
  stored : ∀ e ∈ entries, ∀ g ∈ G,
    T' (e.1 ∘ g.1, e.2.1 ∘ g.2) = ((Perm.sign g.1 * Perm.sign g.2 : ℤˣ) : ℤ) • e.2.2
  untouched : ∀ key, (∀ e ∈ entries, ∀ g ∈ G, key ≠ (e.1 ∘ g.1, e.2.1 ∘ g.2)) → T' key = T key
  antisym : AntisymUnder G T → AntisymUnder G T'

theorem sweeps_nil (G : Set (Perm (Fin m) × Perm (Fin n))) (T : (Fin m → ℕ) × (Fin n → ℕ) → R) :
    Sweeps G [] T T :=
  ⟨fun e he => by simp at he, fun _ _ => rfl, id⟩

theorem sweeps_cons {G : Set (Perm (Fin m) × Perm (Fin n))} (hG : IsGroup G)
    {e : (Fin m → ℕ) × (Fin n → ℕ) × R} {es : List ((Fin m → ℕ) × (Fin n → ℕ) × R)}
    {T T1 T2 : (Fin m → ℕ) × (Fin n → ℕ) → R}
    (h1 : StoresAmplitude G e.1 e.2.1 e.2.2 T T1) (h2 : Sweeps G es T1 T2)
    (hd : ∀ e' ∈ es, ∀ g ∈ G, (e.1, e.2.1) ≠ (e'.1 ∘ g.1, e'.2.1 ∘ g.2)) :
    Sweeps G (e :: es) T T2 where
  stored := by
    intro e' he' g hg
    rcases List.mem_cons.mp he' with rfl | he'
    · rw [h2.untouched _ ?_, h1.stored g hg]
      intro e'' he'' h hh heq
      refine hd e'' he'' (h * g⁻¹) (hG.mul h hh _ (hG.inv g hg)) ?_
      simp only [Prod.mk.injEq] at heq ⊢
      constructor
      · rw [Prod.fst_mul, ← comp_mul, ← heq.1, comp_mul]; simp
      · rw [Prod.snd_mul, ← comp_mul, ← heq.2, comp_mul]; simp
    · exact h2.stored e' he' g hg
  untouched := by
    intro key hk
    rw [h2.untouched key (fun e' he' => hk e' (List.mem_cons_of_mem _ he')),
      h1.untouched key (hk e (by simp))]
  antisym := fun h => h2.antisym (h1.antisym h)

theorem Sweeps.expands {sp : Fin m → Bool} {sh : Fin n → Bool}
    {entries : List ((Fin m → ℕ) × (Fin n → ℕ) × R)} {T' : (Fin m → ℕ) × (Fin n → ℕ) → R}
    (h : Sweeps (SpinExchange sp sh) entries (fun _ => 0) T') : Expands sp sh entries T' where
  stored := by
    intro e he
    have := h.stored e he 1 (isGroup_spinExchange sp sh).one
    simpa using this
  antisym := h.antisym (fun g _ P H => by simp)
  zero := fun P H hk => h.untouched (P, H) (fun e he g hg => hk e he g hg)

end Ccpy.Writes
