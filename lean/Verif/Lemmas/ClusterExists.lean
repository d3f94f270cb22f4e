import Verif.Lemmas.ClusterValues
import Mathlib.Tactic.LinearCombination

/-! Amplitudes given by their singles, doubles and triples; every CI wave function is an exponential. -/

namespace Ccpy.ClusterAnalysis
open Ccpy.Writes Ccpy.Spec Ccpy.UpdateKernels Equiv

section
variable {R : Type*} [Ring R]

/-- amplitudes from their values for one, two and three electrons -/
def amp (f1 : SpinOrb → SpinOrb → R) (f2 : SpinOrb → SpinOrb → SpinOrb → SpinOrb → R)
    (f3 : SpinOrb → SpinOrb → SpinOrb → SpinOrb → SpinOrb → SpinOrb → R) : Amplitudes R
  | [p], [h] => f1 p h
  | [p, q], [h, k] => f2 p q h k
  | [p, q, r], [h, k, l] => f3 p q r h k l
  | _, _ => 0

theorem sign_lone (g : Perm (Fin 1)) : g = 1 := Subsingleton.elim _ _

/-- number of beta spin-orbitals -/
def nb (l : List SpinOrb) : ℕ := (l.filter (·.1)).length

theorem amp_long (f1 f2 f3) (p h : List SpinOrb) (hl : 4 ≤ p.length ∨ 4 ≤ h.length ∨ p.length ≠ h.length ∨ p = []) :
    amp (R := R) f1 f2 f3 p h = 0 := by
  unfold amp
  split <;> simp at hl ⊢

theorem amp_excitation {f1 : SpinOrb → SpinOrb → R} {f2 : SpinOrb → SpinOrb → SpinOrb → SpinOrb → R}
    {f3 : SpinOrb → SpinOrb → SpinOrb → SpinOrb → SpinOrb → SpinOrb → R}
    (p2 : ∀ p q h k, f2 q p h k = -f2 p q h k) (h2 : ∀ p q h k, f2 p q k h = -f2 p q h k)
    (p3 : ∀ p q r h k l, f3 q p r h k l = -f3 p q r h k l)
    (p3' : ∀ p q r h k l, f3 p r q h k l = -f3 p q r h k l)
    (h3 : ∀ p q r h k l, f3 p q r k h l = -f3 p q r h k l)
    (h3' : ∀ p q r h k l, f3 p q r h l k = -f3 p q r h k l)
    (s1 : ∀ p h, nb [p] ≠ nb [h] → f1 p h = 0) (s2 : ∀ p q h k, nb [p, q] ≠ nb [h, k] → f2 p q h k = 0)
    (s3 : ∀ p q r h k l, nb [p, q, r] ≠ nb [h, k, l] → f3 p q r h k l = 0) :
    IsExcitation (amp f1 f2 f3) where
  particles := by
    intro n p g h
    match n, p, g with
    | 0, p, g => rw [Subsingleton.elim g 1]; simp
    | 1, p, g => rw [Subsingleton.elim g 1]; simp
    | 2, p, g =>
      refine perm_antisym (F := fun p => amp f1 f2 f3 (List.ofFn p) h) ?_ g p
      intro x i
      fin_cases i
      match h with
      | [h, k] => exact p2 _ _ _ _
      | [] => exact (neg_zero (G := R)).symm
      | [_] => exact (neg_zero (G := R)).symm
      | _ :: _ :: _ :: _ => exact (neg_zero (G := R)).symm
    | 3, p, g =>
      refine perm_antisym (F := fun p => amp f1 f2 f3 (List.ofFn p) h) ?_ g p
      intro x i
      match h with
      | [h, k, l] =>
        fin_cases i
        · exact p3 _ _ _ _ _ _
        · exact p3' _ _ _ _ _ _
      | [] => exact (neg_zero (G := R)).symm
      | [_] => exact (neg_zero (G := R)).symm
      | [_, _] => exact (neg_zero (G := R)).symm
      | _ :: _ :: _ :: _ :: _ => exact (neg_zero (G := R)).symm
    | n + 4, p, g =>
      rw [amp_long, amp_long, smul_zero]
      · left; simp
      · left; simp
  holes := by
    intro n p h g
    match n, h, g with
    | 0, h, g => rw [Subsingleton.elim g 1]; simp
    | 1, h, g => rw [Subsingleton.elim g 1]; simp
    | 2, h, g =>
      refine perm_antisym (F := fun h => amp f1 f2 f3 p (List.ofFn h)) ?_ g h
      intro x i
      fin_cases i
      match p with
      | [p, q] => exact h2 _ _ _ _
      | [] => exact (neg_zero (G := R)).symm
      | [_] => exact (neg_zero (G := R)).symm
      | [_, _, _] => exact (neg_zero (G := R)).symm
      | _ :: _ :: _ :: _ :: _ => exact (neg_zero (G := R)).symm
    | 3, h, g =>
      refine perm_antisym (F := fun h => amp f1 f2 f3 p (List.ofFn h)) ?_ g h
      intro x i
      match p with
      | [p, q, r] =>
        fin_cases i
        · exact h3 _ _ _ _ _ _
        · exact h3' _ _ _ _ _ _
      | [] => exact (neg_zero (G := R)).symm
      | [_] => exact (neg_zero (G := R)).symm
      | [_, _] => exact (neg_zero (G := R)).symm
      | _ :: _ :: _ :: _ :: _ => exact (neg_zero (G := R)).symm
    | n + 4, h, g =>
      rw [amp_long, amp_long, smul_zero]
      · right; left; simp
      · right; left; simp
  spin := by
    intro p h hs
    unfold amp
    split
    · exact s1 _ _ hs
    · exact s2 _ _ _ _ hs
    · exact s3 _ _ _ _ _ _ hs
    · rfl

end

section
variable {R : Type*} [CommRing R]

/-- doubles cluster amplitude of a CI wave function -/
def log2 (C : Amplitudes R) (p q h k : SpinOrb) : R :=
  C [p, q] [h, k] - C [p] [h] * C [q] [k] + C [p] [k] * C [q] [h]

/-- triples cluster amplitude of a CI wave function -/
def log3 (C : Amplitudes R) (p q r h k l : SpinOrb) : R :=
  C [p, q, r] [h, k, l]
      - C [p] [h] * log2 C q r k l + C [p] [k] * log2 C q r h l - C [p] [l] * log2 C q r h k
      + C [q] [h] * log2 C p r k l - C [q] [k] * log2 C p r h l + C [q] [l] * log2 C p r h k
      - C [r] [h] * log2 C p q k l + C [r] [k] * log2 C p q h l - C [r] [l] * log2 C p q h k
      - C [p] [h] * C [q] [k] * C [r] [l] + C [p] [h] * C [q] [l] * C [r] [k]
      + C [p] [k] * C [q] [h] * C [r] [l] - C [p] [k] * C [q] [l] * C [r] [h]
      - C [p] [l] * C [q] [h] * C [r] [k] + C [p] [l] * C [q] [k] * C [r] [h]

theorem log_excitation {C : Amplitudes R} (hC : IsExcitation C) :
    IsExcitation (amp (fun p h => C [p] [h]) (log2 C) (log3 C)) := by
  refine amp_excitation ?_ ?_ ?_ ?_ ?_ ?_ ?_ ?_ ?_
  · intro p q h k
    unfold log2
    rw [P2 hC p q]; ring
  · intro p q h k
    unfold log2
    rw [H2 hC h k]; ring
  · intro p q r h k l
    unfold log3 log2
    simp only [P2 hC p q, (P3 hC p q r _).1]; ring
  · intro p q r h k l
    unfold log3 log2
    simp only [P2 hC q r, (P3 hC p q r _).2.1]; ring
  · intro p q r h k l
    unfold log3 log2
    simp only [H2 hC h k, (H3 hC h k l _).1]; ring
  · intro p q r h k l
    unfold log3 log2
    simp only [H2 hC k l, (H3 hC h k l _).2.1]; ring
  · intro p h hs
    exact hC.spin _ _ hs
  · rintro ⟨s, a⟩ ⟨t, b⟩ ⟨s', i⟩ ⟨t', j⟩ hs
    unfold log2
    rw [hC.spin _ _ hs]
    cases s <;> cases t <;> cases s' <;> cases t' <;> simp [nb] at hs <;> simp [Z1 hC]
  · rintro ⟨s, a⟩ ⟨t, b⟩ ⟨u, c⟩ ⟨s', i⟩ ⟨t', j⟩ ⟨u', k⟩ hs
    unfold log3 log2
    rw [hC.spin _ _ hs]
    cases s <;> cases t <;> cases u <;> cases s' <;> cases t' <;> cases u' <;> simp [nb] at hs <;>
      simp [Z1 hC, Z2 hC]

theorem log_exponential {C : Amplitudes R} (h0 : C [] [] = 1) :
    ExponentialUpTo 3 C (amp (fun p h => C [p] [h]) (log2 C) (log3 C)) := by
  intro p h hl h3
  match p, h, hl with
  | [], [], _ => simpa [expAmp, expAux] using h0
  | [p], [h], _ => rw [exp1]; rfl
  | [p, q], [h, k], _ =>
    rw [exp2]
    show C [p, q] [h, k] = log2 C p q h k + C [p] [h] * C [q] [k] - C [p] [k] * C [q] [h]
    unfold log2; ring
  | [p, q, r], [h, k, l], _ =>
    rw [exp3]
    simp only [amp, log3]
    ring
  | _ :: _ :: _ :: _ :: _, _, _ => simp at h3; omega

end

/-! ### blocks of exponentials -/

section
variable {R : Type*} [CommRing R] {n : ℕ} {C T : Amplitudes R}

theorem exp_block {m : ℕ} (hC : ExponentialUpTo n C T) (h : m ≤ n) (sp sh : Fin m → Bool) :
    block sp sh C = block sp sh (expAmp T) := by
  funext k
  exact hC _ _ (by simp) (by simpa using h)

theorem zipWith_map_rows {ι A B : Type*} {f : ι → A → B} {c : ι → A} {g : ι → B} (rows : List ι)
    (h : ∀ r, f r (c r) = g r) : List.zipWith f rows (rows.map c) = rows.map g := by
  induction rows with
  | nil => rfl
  | cons r rows ih => simp [ih, h]

end

section
variable {m : ℕ} {R : Type*} [Field R] [CharZero R] [DecidableEq R] {α : Type*} [LinearOrder α]

theorem clusterBlock_of {ι : Type*} {e : ℕ → α} {sp sh : Fin m → Bool}
    {nv no : Bool → ℕ} {items : List ι} {key : ι → (Fin m → ℕ) × (Fin m → ℕ)}
    (hv : Visits e sp sh nv no items key) {C T : Amplitudes R} (hT : IsExcitation T)
    (hC : block sp sh C = block sp sh (expAmp T))
    (ha : AntisymUnder (SpinExchange sp sh) (block sp sh (expAmp T)))
    {pat : Pattern m m} (hpat : Lists sp sh pat)
    {cs : ι → List (((Fin m → ℕ) × (Fin m → ℕ)) × ℤ)}
    (hcs : ∀ x, (key x, 1) :: cs x = At (key x) pat) {val : ι → R}
    (hval : ∀ x, val x = block sp sh T (key x)) {res : (Fin m → ℕ) × (Fin m → ℕ) → R}
    (hres : res = items.foldl (fun t x =>
      storeCluster (key x) (block sp sh (expAmp T) (key x)) (val x) (cs x) t) fun _ => 0) :
    ClusterBlock sp sh nv no C T res := by
  have := cluster_of hv ha (excitation_antisym hT sp sh) hpat hcs hval hres
  rw [← hC] at this
  exact ⟨fun k h1 h2 => (this k).1 ⟨h1, h2⟩, fun k h => (this k).2 h⟩

end

end Ccpy.ClusterAnalysis
