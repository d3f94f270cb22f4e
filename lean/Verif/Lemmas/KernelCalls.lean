import Verif.Lemmas.Rename
import Verif.Props.UpdateKernels

/-! What the kernel calls do to Python arrays. -/

namespace Ccpy.Tensor
open Ccpy.UpdateKernels Ccpy.Writes Ccpy.Spec Ccpy.Fock

/-- A call of a one-index-pair kernel: Jacobi steps in range, nothing else changed, increments returned. -/
structure Called1 (no nu : ℕ) (den : ℕ → ℕ → ℚ) (X t : List ℕ → ℚ) (r : (List ℕ → ℚ) × (List ℕ → ℚ)) : Prop where
  step : ∀ a i, a < nu → i < no → den a i * (r.1 [a, i] - t [a, i]) = X [a, i]
  outside : ∀ a i, ¬ (a < nu ∧ i < no) → r.1 [a, i] = t [a, i]
  other : ∀ l, l.length ≠ 2 → r.1 l = t l
  change : ∀ a i, r.2 [a, i] = r.1 [a, i] - t [a, i]

/-- The same for the two-index-pair kernels. -/
structure Called2 (nu nu' no no' : ℕ) (den : ℕ → ℕ → ℕ → ℕ → ℚ) (sum : (List ℕ → ℚ) → ℕ → ℕ → ℕ → ℕ → ℚ) (X t : List ℕ → ℚ)
    (r : (List ℕ → ℚ) × (List ℕ → ℚ)) : Prop where
  step : ∀ a b i j, a < nu → b < nu' → i < no → j < no' →
    den a b i j * (r.1 [a, b, i, j] - t [a, b, i, j]) = sum X a b i j
  outside : ∀ a b i j, ¬ (a < nu ∧ b < nu' ∧ i < no ∧ j < no') → r.1 [a, b, i, j] = t [a, b, i, j]
  other : ∀ l, l.length ≠ 4 → r.1 l = t l
  change : ∀ a b i j, r.2 [a, b, i, j] = r.1 [a, b, i, j] - t [a, b, i, j]

/-- The signed sum over exchanges. -/
def exchange (X : List ℕ → ℚ) (a b i j : ℕ) : ℚ := X [a, b, i, j] - X [b, a, i, j] - X [a, b, j, i] + X [b, a, j, i]
/-- No exchange: different spins. -/
def noExchange (X : List ℕ → ℚ) (a b i j : ℕ) : ℚ := X [a, b, i, j]

theorem back1_other (t : List ℕ → ℚ) (r : Key1 → ℚ) (l : List ℕ) (h : l.length ≠ 2) : back1 t r l = t l := by
  match l, h with
  | [], _ | [_], _ | _ :: _ :: _ :: _, _ => rfl
  | [_, _], h => exact absurd rfl h

theorem back2_other (t : List ℕ → ℚ) (r : Key2 → ℚ) (l : List ℕ) (h : l.length ≠ 4) : back2 t r l = t l := by
  match l, h with
  | [], _ | [_], _ | [_, _], _ | [_, _, _], _ | _ :: _ :: _ :: _ :: _ :: _, _ => rfl
  | [_, _, _, _], h => exact absurd rfl h

theorem antisym_distinct {m n : ℕ} {sp : Fin m → Bool} {sh : Fin n → Bool} (h₁ : ∀ g : Equiv.Perm (Fin m), (∀ i, sp (g i) = sp i) → g = 1)
    (h₂ : ∀ g : Equiv.Perm (Fin n), (∀ i, sh (g i) = sh i) → g = 1) (T : (Fin m → ℕ) × (Fin n → ℕ) → ℚ) :
    AntisymUnder (SpinExchange sp sh) T := by
  intro g hg P H
  rw [h₁ _ hg.1, h₂ _ hg.2]
  simp

theorem antisymmetrize_one (s : Bool) (X : Key1 → ℚ) (k : Key1) : antisymmetrize ![s] ![s] X k = X k := by
  rw [← signedSum_at (lists_pat1 s)]
  obtain ⟨P, H⟩ := k
  have e : (P ∘ ![0], H ∘ ![0]) = (P, H) := by
    ext i <;> fin_cases i <;> rfl
  simp [signedSum, At, pat1, e]

theorem antisymmetrize_ab (X : Key2 → ℚ) (k : Key2) : antisymmetrize ![false, true] ![false, true] X k = X k := by
  rw [← signedSum_at lists_pat2b]
  obtain ⟨P, H⟩ := k
  have e : (P ∘ ![0, 1], H ∘ ![0, 1]) = (P, H) := by
    ext i <;> fin_cases i <;> rfl
  simp [signedSum, At, pat2b, e]

theorem antisymmetrize_two (s : Bool) (X : Key2 → ℚ) (a b i j : ℕ) : antisymmetrize ![s, s] ![s, s] X (![a, b], ![i, j])
    = X (![a, b], ![i, j]) - X (![b, a], ![i, j]) - X (![a, b], ![j, i]) + X (![b, a], ![j, i]) := by
  rw [← signedSum_at (lists_pat2 s)]
  have e : ∀ x y : ℕ, ![x, y] ∘ ![0, 1] = ![x, y] := fun x y => by ext i; fin_cases i <;> rfl
  have e' : ∀ x y : ℕ, ![x, y] ∘ ![1, 0] = ![y, x] := fun x y => by ext i; fin_cases i <;> rfl
  simp [signedSum, At, pattern4, e, e']
  ring

theorem seen2_antisym (s : Bool) {t : List ℕ → ℚ} {w : ℕ → ℕ → ℕ → ℕ → ℚ} (hw : Antisymmetric w)
    (ht : ∀ a b i j, t [a, b, i, j] = w a b i j) : AntisymUnder (SpinExchange ![s, s] ![s, s]) (seen2 t) := by
  have hp : ∀ g : Equiv.Perm (Fin 2), g = 1 ∨ g = Equiv.swap 0 1 := by decide
  intro g _ P H
  obtain ⟨g₁, g₂⟩ := g
  simp only [seen2, ht]
  rcases hp g₁ with rfl | rfl <;> rcases hp g₂ with rfl | rfl
  · simp
  · simp only [Function.comp, Equiv.swap_apply_left, Equiv.swap_apply_right]
    rw [(hw _ _ _ _).2]
    simp [Equiv.Perm.sign_swap]
  · simp only [Function.comp, Equiv.swap_apply_left, Equiv.swap_apply_right]
    rw [(hw _ _ _ _).1]
    simp [Equiv.Perm.sign_swap]
  · simp only [Function.comp, Equiv.swap_apply_left, Equiv.swap_apply_right]
    rw [(hw _ _ _ _).1, (hw _ _ _ _).2]
    simp [Equiv.Perm.sign_swap]

section
variable (s : Setup)

def Setup.dA (a i : ℕ) : ℚ := s.f.a i i - s.f.a (s.na + a) (s.na + a) - s.shift
def Setup.dB (a i : ℕ) : ℚ := s.f.b i i - s.f.b (s.nb + a) (s.nb + a) - s.shift
def Setup.dAA (a b i j : ℕ) : ℚ := s.f.a i i + s.f.a j j - s.f.a (s.na + a) (s.na + a) - s.f.a (s.na + b) (s.na + b) - s.shift
def Setup.dAB (a b i j : ℕ) : ℚ := s.f.a i i + s.f.b j j - s.f.a (s.na + a) (s.na + a) - s.f.b (s.nb + b) (s.nb + b) - s.shift
def Setup.dBB (a b i j : ℕ) : ℚ := s.f.b i i + s.f.b j j - s.f.b (s.nb + a) (s.nb + a) - s.f.b (s.nb + b) (s.nb + b) - s.shift

theorem key1_cases (k : Key1) : k = (![k.1 0], ![k.2 0]) := by
  ext i <;> fin_cases i <;> rfl
theorem key2_cases (k : Key2) : k = (![k.1 0, k.1 1], ![k.2 0, k.2 1]) := by
  ext i <;> fin_cases i <;> rfl

theorem calledT1a (X t : List ℕ → ℚ) (hd : ∀ a i, a < s.n - s.na → i < s.na → s.dA a i ≠ 0) :
    Called1 s.na (s.n - s.na) s.dA X t (callT1a s X t) := by
  have hs := C43_t1a s.na (s.n - s.na) s.nb (s.n - s.nb) s.foo s.fvv s.goo s.gvv s.shift (seen1 X) (seen1 t)
    (antisym_distinct (by decide) (by decide) _) (fun k hk => by
      rw [key1_cases k] at hk ⊢
      have h1 := hk.1 0; have h2 := hk.2 0
      simp [bySpin] at h1 h2
      have := hd (k.1 0 - 1) (k.2 0 - 1) (by omega) (by omega)
      unfold Setup.dA at this
      simpa [energyDifference, diag, bySpin, Setup.foo, Setup.fvv, sub_eq_zero] using this)
  refine ⟨fun a i ha hi => ?_, fun a i h => ?_, fun l h => back1_other _ _ _ h, fun a i => ?_⟩
  · have := hs.step (![a + 1], ![i + 1]) ⟨by intro k; fin_cases k; simp [bySpin]; omega, by intro k; fin_cases k; simp [bySpin]; omega⟩
    rw [antisymmetrize_one] at this
    simpa [energyDifference, diag, bySpin, Setup.foo, Setup.fvv, seen1, callT1a, back1, Setup.dA] using this
  · have := hs.outside (![a + 1], ![i + 1]) (fun hk => h ⟨by have := (hk.1 0).2; simp [bySpin] at this; omega,
      by have := (hk.2 0).2; simp [bySpin] at this; omega⟩)
    simpa [seen1, callT1a, back1] using this
  · have := hs.change (![a + 1], ![i + 1])
    simpa [seen1, callT1a, back1] using this

theorem calledT1b (X t : List ℕ → ℚ) (hd : ∀ a i, a < s.n - s.nb → i < s.nb → s.dB a i ≠ 0) :
    Called1 s.nb (s.n - s.nb) s.dB X t (callT1b s X t) := by
  have hs := C43_t1b s.na (s.n - s.na) s.nb (s.n - s.nb) s.foo s.fvv s.goo s.gvv s.shift (seen1 X) (seen1 t)
    (antisym_distinct (by decide) (by decide) _) (fun k hk => by
      rw [key1_cases k] at hk ⊢
      have h1 := hk.1 0; have h2 := hk.2 0
      simp [bySpin] at h1 h2
      have := hd (k.1 0 - 1) (k.2 0 - 1) (by omega) (by omega)
      unfold Setup.dB at this
      simpa [energyDifference, diag, bySpin, Setup.goo, Setup.gvv, sub_eq_zero] using this)
  refine ⟨fun a i ha hi => ?_, fun a i h => ?_, fun l h => back1_other _ _ _ h, fun a i => ?_⟩
  · have := hs.step (![a + 1], ![i + 1]) ⟨by intro k; fin_cases k; simp [bySpin]; omega, by intro k; fin_cases k; simp [bySpin]; omega⟩
    rw [antisymmetrize_one] at this
    simpa [energyDifference, diag, bySpin, Setup.goo, Setup.gvv, seen1, callT1b, back1, Setup.dB] using this
  · have := hs.outside (![a + 1], ![i + 1]) (fun hk => h ⟨by have := (hk.1 0).2; simp [bySpin] at this; omega,
      by have := (hk.2 0).2; simp [bySpin] at this; omega⟩)
    simpa [seen1, callT1b, back1] using this
  · have := hs.change (![a + 1], ![i + 1])
    simpa [seen1, callT1b, back1] using this

theorem calledT2a (X t : List ℕ → ℚ) {w : ℕ → ℕ → ℕ → ℕ → ℚ} (hw : Antisymmetric w) (ht : ∀ a b i j, t [a, b, i, j] = w a b i j)
    (hd : ∀ a b i j, a < s.n - s.na → b < s.n - s.na → i < s.na → j < s.na → s.dAA a b i j ≠ 0) :
    Called2 (s.n - s.na) (s.n - s.na) s.na s.na s.dAA exchange X t (callT2a s X t) := by
  have hs := C43_t2a s.na (s.n - s.na) s.nb (s.n - s.nb) s.foo s.fvv s.goo s.gvv s.shift (seen2 X) (seen2 t)
    (seen2_antisym _ hw ht) (fun k hk => by
      rw [key2_cases k] at hk ⊢
      have h1 := hk.1 0; have h2 := hk.2 0; have h3 := hk.1 1; have h4 := hk.2 1
      simp [bySpin] at h1 h2 h3 h4
      have := hd (k.1 0 - 1) (k.1 1 - 1) (k.2 0 - 1) (k.2 1 - 1) (by omega) (by omega) (by omega) (by omega)
      unfold Setup.dAA at this
      intro he
      apply this
      simp [energyDifference, diag, bySpin, Setup.foo, Setup.fvv] at he
      linarith)
  refine ⟨fun a b i j ha hb hi hj => ?_, fun a b i j h => ?_, fun l h => back2_other _ _ _ h, fun a b i j => ?_⟩
  · have := hs.step (![a + 1, b + 1], ![i + 1, j + 1]) ⟨by intro k; fin_cases k <;> simp [bySpin] <;> omega,
      by intro k; fin_cases k <;> simp [bySpin] <;> omega⟩
    rw [antisymmetrize_two] at this
    simp [energyDifference, diag, bySpin, Setup.foo, Setup.fvv, seen2, callT2a, back2, Setup.dAA, exchange] at this ⊢
    rw [← this]
    ring
  · have := hs.outside (![a + 1, b + 1], ![i + 1, j + 1]) (fun hk => h ⟨by have := (hk.1 0).2; simp [bySpin] at this; omega,
      by have := (hk.1 1).2; simp [bySpin] at this; omega, by have := (hk.2 0).2; simp [bySpin] at this; omega,
      by have := (hk.2 1).2; simp [bySpin] at this; omega⟩)
    simpa [seen2, callT2a, back2] using this
  · have := hs.change (![a + 1, b + 1], ![i + 1, j + 1])
    simpa [seen2, callT2a, back2] using this

theorem calledT2c (X t : List ℕ → ℚ) {w : ℕ → ℕ → ℕ → ℕ → ℚ} (hw : Antisymmetric w) (ht : ∀ a b i j, t [a, b, i, j] = w a b i j)
    (hd : ∀ a b i j, a < s.n - s.nb → b < s.n - s.nb → i < s.nb → j < s.nb → s.dBB a b i j ≠ 0) :
    Called2 (s.n - s.nb) (s.n - s.nb) s.nb s.nb s.dBB exchange X t (callT2c s X t) := by
  have hs := C43_t2c s.na (s.n - s.na) s.nb (s.n - s.nb) s.foo s.fvv s.goo s.gvv s.shift (seen2 X) (seen2 t)
    (seen2_antisym _ hw ht) (fun k hk => by
      rw [key2_cases k] at hk ⊢
      have h1 := hk.1 0; have h2 := hk.2 0; have h3 := hk.1 1; have h4 := hk.2 1
      simp [bySpin] at h1 h2 h3 h4
      have := hd (k.1 0 - 1) (k.1 1 - 1) (k.2 0 - 1) (k.2 1 - 1) (by omega) (by omega) (by omega) (by omega)
      unfold Setup.dBB at this
      intro he
      apply this
      simp [energyDifference, diag, bySpin, Setup.goo, Setup.gvv] at he
      linarith)
  refine ⟨fun a b i j ha hb hi hj => ?_, fun a b i j h => ?_, fun l h => back2_other _ _ _ h, fun a b i j => ?_⟩
  · have := hs.step (![a + 1, b + 1], ![i + 1, j + 1]) ⟨by intro k; fin_cases k <;> simp [bySpin] <;> omega,
      by intro k; fin_cases k <;> simp [bySpin] <;> omega⟩
    rw [antisymmetrize_two] at this
    simp [energyDifference, diag, bySpin, Setup.goo, Setup.gvv, seen2, callT2c, back2, Setup.dBB, exchange] at this ⊢
    rw [← this]
    ring
  · have := hs.outside (![a + 1, b + 1], ![i + 1, j + 1]) (fun hk => h ⟨by have := (hk.1 0).2; simp [bySpin] at this; omega,
      by have := (hk.1 1).2; simp [bySpin] at this; omega, by have := (hk.2 0).2; simp [bySpin] at this; omega,
      by have := (hk.2 1).2; simp [bySpin] at this; omega⟩)
    simpa [seen2, callT2c, back2] using this
  · have := hs.change (![a + 1, b + 1], ![i + 1, j + 1])
    simpa [seen2, callT2c, back2] using this

theorem calledT2b (X t : List ℕ → ℚ)
    (hd : ∀ a b i j, a < s.n - s.na → b < s.n - s.nb → i < s.na → j < s.nb → s.dAB a b i j ≠ 0) :
    Called2 (s.n - s.na) (s.n - s.nb) s.na s.nb s.dAB noExchange X t (callT2b s X t) := by
  have hs := C43_t2b s.na (s.n - s.na) s.nb (s.n - s.nb) s.foo s.fvv s.goo s.gvv s.shift (seen2 X) (seen2 t)
    (antisym_distinct (by decide) (by decide) _) (fun k hk => by
      rw [key2_cases k] at hk ⊢
      have h1 := hk.1 0; have h2 := hk.2 0; have h3 := hk.1 1; have h4 := hk.2 1
      simp [bySpin] at h1 h2 h3 h4
      have := hd (k.1 0 - 1) (k.1 1 - 1) (k.2 0 - 1) (k.2 1 - 1) (by omega) (by omega) (by omega) (by omega)
      unfold Setup.dAB at this
      intro he
      apply this
      simp [energyDifference, diag, bySpin, Setup.foo, Setup.fvv, Setup.goo, Setup.gvv] at he
      linarith)
  refine ⟨fun a b i j ha hb hi hj => ?_, fun a b i j h => ?_, fun l h => back2_other _ _ _ h, fun a b i j => ?_⟩
  · have := hs.step (![a + 1, b + 1], ![i + 1, j + 1]) ⟨by intro k; fin_cases k <;> simp [bySpin] <;> omega,
      by intro k; fin_cases k <;> simp [bySpin] <;> omega⟩
    rw [antisymmetrize_ab] at this
    simp [energyDifference, diag, bySpin, Setup.foo, Setup.fvv, Setup.goo, Setup.gvv, seen2, callT2b, back2, Setup.dAB,
      noExchange] at this ⊢
    rw [← this]
    ring
  · have := hs.outside (![a + 1, b + 1], ![i + 1, j + 1]) (fun hk => h ⟨by have := (hk.1 0).2; simp [bySpin] at this; omega,
      by have := (hk.1 1).2; simp [bySpin] at this; omega, by have := (hk.2 0).2; simp [bySpin] at this; omega,
      by have := (hk.2 1).2; simp [bySpin] at this; omega⟩)
    simpa [seen2, callT2b, back2] using this
  · have := hs.change (![a + 1, b + 1], ![i + 1, j + 1])
    simpa [seen2, callT2b, back2] using this

end

theorem Called1.fixed_iff {no nu : ℕ} {den : ℕ → ℕ → ℚ} {X t : List ℕ → ℚ} {r : (List ℕ → ℚ) × (List ℕ → ℚ)}
    (h : Called1 no nu den X t r) (hd : ∀ a i, a < nu → i < no → den a i ≠ 0) :
    r.1 = t ↔ ∀ a i, a < nu → i < no → X [a, i] = 0 := by
  constructor
  · intro e a i ha hi
    rw [← h.step a i ha hi, e, sub_self, mul_zero]
  · intro e
    funext l
    by_cases hl : l.length = 2
    · obtain ⟨a, i, rfl⟩ := List.length_eq_two.1 hl
      by_cases hr : a < nu ∧ i < no
      · have := h.step a i hr.1 hr.2
        rw [e a i hr.1 hr.2] at this
        exact sub_eq_zero.1 ((mul_eq_zero.1 this).resolve_left (hd a i hr.1 hr.2))
      · exact h.outside a i hr
    · exact h.other l hl

theorem length_eq_four {α : Type*} {l : List α} (h : l.length = 4) : ∃ a b c d, l = [a, b, c, d] := by
  match l, h with
  | [a, b, c, d], _ => exact ⟨a, b, c, d, rfl⟩

theorem Called2.fixed_iff {nu nu' no no' : ℕ} {den : ℕ → ℕ → ℕ → ℕ → ℚ} {sum} {X t : List ℕ → ℚ} {r : (List ℕ → ℚ) × (List ℕ → ℚ)}
    (h : Called2 nu nu' no no' den sum X t r) (hd : ∀ a b i j, a < nu → b < nu' → i < no → j < no' → den a b i j ≠ 0) :
    r.1 = t ↔ ∀ a b i j, a < nu → b < nu' → i < no → j < no' → sum X a b i j = 0 := by
  constructor
  · intro e a b i j ha hb hi hj
    rw [← h.step a b i j ha hb hi hj, e, sub_self, mul_zero]
  · intro e
    funext l
    by_cases hl : l.length = 4
    · obtain ⟨a, b, i, j, rfl⟩ := length_eq_four hl
      by_cases hr : a < nu ∧ b < nu' ∧ i < no ∧ j < no'
      · obtain ⟨h₁, h₂, h₃, h₄⟩ := hr
        have := h.step a b i j h₁ h₂ h₃ h₄
        rw [e a b i j h₁ h₂ h₃ h₄] at this
        exact sub_eq_zero.1 ((mul_eq_zero.1 this).resolve_left (hd a b i j h₁ h₂ h₃ h₄))
      · exact h.outside a b i j hr
    · exact h.other l hl

end Ccpy.Tensor
