import Verif.Model.Writes
import Verif.Spec.Antisymmetry
import Mathlib.Data.Fintype.Perm
import Mathlib.Algebra.Module.Basic

namespace Ccpy.Writes
open Ccpy.Spec Equiv

variable {K R : Type*} [DecidableEq K]

theorem applyWrites_nil (T : K → R) : applyWrites T [] = T := rfl

theorem applyWrites_cons (T : K → R) (w : K × R) (ws : List (K × R)) :
    applyWrites T (w :: ws) = applyWrites (Function.update T w.1 w.2) ws := rfl

theorem applyWrites_append (T : K → R) (ws vs : List (K × R)) :
    applyWrites T (ws ++ vs) = applyWrites (applyWrites T ws) vs := by
  simp [applyWrites, List.foldl_append]

theorem applyWrites_of_not_mem (ws : List (K × R)) : ∀ (T : K → R) (k : K),
    (∀ w ∈ ws, w.1 ≠ k) → applyWrites T ws k = T k := by
  induction ws with
  | nil => intro T k _; rfl
  | cons w ws ih =>
    intro T k h
    rw [applyWrites_cons, ih _ _ (fun v hv => h v (List.mem_cons_of_mem _ hv)),
      Function.update_of_ne (fun e => h w (by simp) e.symm)]

/-- if all writes to `k` carry the value `v` and there is one, the result at `k` is `v` -/
theorem applyWrites_of_mem (ws : List (K × R)) : ∀ (T : K → R) (k : K) (v : R),
    (∃ w ∈ ws, w.1 = k) → (∀ w ∈ ws, w.1 = k → w.2 = v) → applyWrites T ws k = v := by
  induction ws with
  | nil => intro T k v h; obtain ⟨w, hw, _⟩ := h; simp at hw
  | cons w ws ih =>
    intro T k v h hv
    rw [applyWrites_cons]
    by_cases hex : ∃ w ∈ ws, w.1 = k
    · exact ih _ k v hex (fun u hu => hv u (List.mem_cons_of_mem _ hu))
    · rw [applyWrites_of_not_mem ws _ k (fun u hu e => hex ⟨u, hu, e⟩)]
      obtain ⟨u, hu, e⟩ := h
      rcases List.mem_cons.mp hu with rfl | hu
      · rw [← e, Function.update_self]
        exact hv u (by simp) e
      · exact absurd ⟨u, hu, e⟩ hex

section orbit
variable {m n : ℕ} {R : Type*} [AddCommGroup R]

/-- A set of position permutations closed under the group operations. -/
structure IsGroup (G : Set (Perm (Fin m) × Perm (Fin n))) : Prop where
  one : (1 : Perm (Fin m) × Perm (Fin n)) ∈ G
  mul : ∀ g ∈ G, ∀ h ∈ G, g * h ∈ G
  inv : ∀ g ∈ G, g⁻¹ ∈ G

/-- The writes cover the orbit of `(P0,H0)` with the right signs. -/
structure Covers (G : Set (Perm (Fin m) × Perm (Fin n))) (P0 : Fin m → ℕ) (H0 : Fin n → ℕ) (x : R)
    (ws : List (((Fin m → ℕ) × (Fin n → ℕ)) × R)) : Prop where
  all : ∀ g ∈ G, ((P0 ∘ g.1, H0 ∘ g.2), ((Perm.sign g.1 * Perm.sign g.2 : ℤˣ) : ℤ) • x) ∈ ws
  only : ∀ w ∈ ws, ∃ g ∈ G, w = ((P0 ∘ g.1, H0 ∘ g.2), ((Perm.sign g.1 * Perm.sign g.2 : ℤˣ) : ℤ) • x)

/-- No permutation except the identity fixes the index tuples. -/
def Free (G : Set (Perm (Fin m) × Perm (Fin n))) (P0 : Fin m → ℕ) (H0 : Fin n → ℕ) : Prop :=
  ∀ g ∈ G, P0 ∘ g.1 = P0 → H0 ∘ g.2 = H0 → g = 1

theorem comp_mul (P : Fin n → ℕ) (a b : Perm (Fin n)) : (P ∘ ⇑a) ∘ ⇑b = P ∘ ⇑(a * b) := by
  funext i; simp

theorem free_unique {G : Set (Perm (Fin m) × Perm (Fin n))} (hG : IsGroup G) {P0 : Fin m → ℕ} {H0 : Fin n → ℕ}
    (hf : Free G P0 H0) {g h : Perm (Fin m) × Perm (Fin n)} (hg : g ∈ G) (hh : h ∈ G)
    (e1 : P0 ∘ g.1 = P0 ∘ h.1) (e2 : H0 ∘ g.2 = H0 ∘ h.2) : g = h := by
  have h1 : P0 ∘ ⇑(g * h⁻¹).1 = P0 := by
    have : P0 ∘ ⇑(g * h⁻¹).1 = (P0 ∘ ⇑g.1) ∘ ⇑h.1⁻¹ := by rw [comp_mul]; rfl
    rw [this, e1, comp_mul]; simp
  have h2 : H0 ∘ ⇑(g * h⁻¹).2 = H0 := by
    have : H0 ∘ ⇑(g * h⁻¹).2 = (H0 ∘ ⇑g.2) ∘ ⇑h.2⁻¹ := by rw [comp_mul]; rfl
    rw [this, e2, comp_mul]; simp
  have := hf _ (hG.mul g hg _ (hG.inv h hh)) h1 h2
  exact mul_inv_eq_one.mp this

theorem covers_read {G : Set (Perm (Fin m) × Perm (Fin n))} (hG : IsGroup G) {P0 : Fin m → ℕ} {H0 : Fin n → ℕ}
    {x : R} {ws} (hc : Covers G P0 H0 x ws) (hf : Free G P0 H0)
    (T : (Fin m → ℕ) × (Fin n → ℕ) → R) (g) (hg : g ∈ G) :
    applyWrites T ws (P0 ∘ g.1, H0 ∘ g.2) = ((Perm.sign g.1 * Perm.sign g.2 : ℤˣ) : ℤ) • x := by
  apply applyWrites_of_mem
  · exact ⟨_, hc.all g hg, rfl⟩
  · intro w hw e
    obtain ⟨h, hh, rfl⟩ := hc.only w hw
    simp only [Prod.mk.injEq] at e
    have := free_unique hG hf hh hg e.1 e.2
    rw [this]

theorem covers_other {G : Set (Perm (Fin m) × Perm (Fin n))} {P0 : Fin m → ℕ} {H0 : Fin n → ℕ}
    {x : R} {ws} (hc : Covers G P0 H0 x ws)
    (T : (Fin m → ℕ) × (Fin n → ℕ) → R) (k : (Fin m → ℕ) × (Fin n → ℕ))
    (hk : ∀ g ∈ G, k ≠ (P0 ∘ g.1, H0 ∘ g.2)) :
    applyWrites T ws k = T k := by
  apply applyWrites_of_not_mem
  intro w hw e
  obtain ⟨g, hg, rfl⟩ := hc.only w hw
  exact hk g hg e.symm

theorem covers_antisym {G : Set (Perm (Fin m) × Perm (Fin n))} (hG : IsGroup G) {P0 : Fin m → ℕ} {H0 : Fin n → ℕ}
    {x : R} {ws} (hc : Covers G P0 H0 x ws) (hf : Free G P0 H0)
    (T : (Fin m → ℕ) × (Fin n → ℕ) → R) (hT : AntisymUnder G T) :
    AntisymUnder G (applyWrites T ws) := by
  intro g hg P H
  by_cases hk : ∃ h ∈ G, P = P0 ∘ h.1 ∧ H = H0 ∘ h.2
  · obtain ⟨h, hh, rfl, rfl⟩ := hk
    have e1 : ((P0 ∘ ⇑h.1) ∘ ⇑g.1, (H0 ∘ ⇑h.2) ∘ ⇑g.2) = (P0 ∘ ⇑(h * g).1, H0 ∘ ⇑(h * g).2) := by
      rw [comp_mul, comp_mul]; rfl
    rw [e1, covers_read hG hc hf T _ (hG.mul h hh g hg), covers_read hG hc hf T h hh, smul_smul]
    congr 1
    rw [← Units.val_mul]
    simp only [Prod.fst_mul, Prod.snd_mul, Perm.sign_mul]
    congr 1
    ac_rfl
  · have hother : ∀ g' ∈ G, (P ∘ g'.1, H ∘ g'.2) ∉ Set.range (fun h : G => (P0 ∘ h.1.1, H0 ∘ h.1.2)) := by
      rintro g' hg' ⟨⟨h, hh⟩, e⟩
      simp only [Prod.mk.injEq] at e
      apply hk
      refine ⟨h * g'⁻¹, hG.mul h hh _ (hG.inv g' hg'), ?_, ?_⟩
      · have : P0 ∘ ⇑(h * g'⁻¹).1 = (P0 ∘ ⇑h.1) ∘ ⇑g'.1⁻¹ := by rw [comp_mul]; rfl
        rw [this, e.1, comp_mul]; simp
      · have : H0 ∘ ⇑(h * g'⁻¹).2 = (H0 ∘ ⇑h.2) ∘ ⇑g'.2⁻¹ := by rw [comp_mul]; rfl
        rw [this, e.2, comp_mul]; simp
    rw [covers_other hc T _ (fun h hh e => hother g hg ⟨⟨h, hh⟩, e.symm⟩),
      covers_other hc T (P, H) (fun h hh e => by
        refine hother 1 hG.one ⟨⟨h, hh⟩, ?_⟩
        simpa using e.symm)]
    exact hT g hg P H

theorem covers_stores {G : Set (Perm (Fin m) × Perm (Fin n))} (hG : IsGroup G) {P0 : Fin m → ℕ} {H0 : Fin n → ℕ}
    {x : R} {ws} (hc : Covers G P0 H0 x ws) (hf : Free G P0 H0)
    (T : (Fin m → ℕ) × (Fin n → ℕ) → R) : StoresAmplitude G P0 H0 x T (applyWrites T ws) :=
  ⟨covers_read hG hc hf T, covers_other hc T, covers_antisym hG hc hf T⟩

end orbit

/-! ### the concrete spin cases -/

theorem isGroup_likeSpin (n : ℕ) : IsGroup (likeSpin n) :=
  ⟨trivial, fun _ _ _ _ => trivial, fun _ _ => trivial⟩

theorem isGroup_distinct (n : ℕ) : IsGroup (distinctSpin n) :=
  ⟨rfl, fun g hg h hh => by
      rw [show g = 1 from hg, show h = 1 from hh]; rfl,
    fun g hg => by rw [show g = 1 from hg]; rfl⟩

theorem isGroup_aab : IsGroup spinAab where
  one := by simp [spinAab]
  mul := by
    rintro g ⟨h1, h2⟩ h ⟨h3, h4⟩
    exact ⟨by simp [h1, h3], by simp [h2, h4]⟩
  inv := by
    rintro g ⟨h1, h2⟩
    exact ⟨by rw [Prod.fst_inv, Perm.inv_eq_iff_eq, h1], by rw [Prod.snd_inv, Perm.inv_eq_iff_eq, h2]⟩

theorem isGroup_abb : IsGroup spinAbb where
  one := by simp [spinAbb]
  mul := by
    rintro g ⟨h1, h2⟩ h ⟨h3, h4⟩
    exact ⟨by simp [h1, h3], by simp [h2, h4]⟩
  inv := by
    rintro g ⟨h1, h2⟩
    exact ⟨by rw [Prod.fst_inv, Perm.inv_eq_iff_eq, h1], by rw [Prod.snd_inv, Perm.inv_eq_iff_eq, h2]⟩

theorem free_likeSpin {n : ℕ} (P0 H0 : Fin n → ℕ) (hP : Function.Injective P0)
    (hH : Function.Injective H0) : Free (likeSpin n) P0 H0 := by
  intro g _ h1 h2
  refine Prod.ext ?_ ?_
  · ext i; exact congrArg Fin.val (hP (congrFun h1 i))
  · ext i; exact congrArg Fin.val (hH (congrFun h2 i))

theorem free_distinct {n : ℕ} (P0 H0 : Fin n → ℕ) : Free (distinctSpin n) P0 H0 :=
  fun _ hg _ _ => hg

theorem perm3_fix2 (σ : Perm (Fin 3)) (h : σ 2 = 2) : σ = 1 ∨ σ = swap 0 1 := by
  revert σ; decide

theorem perm3_fix0 (σ : Perm (Fin 3)) (h : σ 0 = 0) : σ = 1 ∨ σ = swap 1 2 := by
  revert σ; decide

theorem free_aab (P0 H0 : Fin 3 → ℕ) (hP : P0 0 ≠ P0 1) (hH : H0 0 ≠ H0 1) :
    Free spinAab P0 H0 := by
  rintro g ⟨h1, h2⟩ e1 e2
  refine Prod.ext ?_ ?_
  · rcases perm3_fix2 g.1 h1 with h | h
    · exact h
    · rw [h] at e1
      exact absurd (by simpa using (congrFun e1 0).symm) hP
  · rcases perm3_fix2 g.2 h2 with h | h
    · exact h
    · rw [h] at e2
      exact absurd (by simpa using (congrFun e2 0).symm) hH

theorem free_abb (P0 H0 : Fin 3 → ℕ) (hP : P0 1 ≠ P0 2) (hH : H0 1 ≠ H0 2) :
    Free spinAbb P0 H0 := by
  rintro g ⟨h1, h2⟩ e1 e2
  refine Prod.ext ?_ ?_
  · rcases perm3_fix0 g.1 h1 with h | h
    · exact h
    · rw [h] at e1
      exact absurd (by simpa using (congrFun e1 1).symm) hP
  · rcases perm3_fix0 g.2 h2 with h | h
    · exact h
    · rw [h] at e2
      exact absurd (by simpa using (congrFun e2 1).symm) hH

end Ccpy.Writes

namespace Ccpy.Writes
open Ccpy.Spec Equiv

/-- position pattern of a list of writes: particle positions, hole positions, sign -/
abbrev Pattern (m n : ℕ) := List ((Fin m → Fin m) × (Fin n → Fin n) × ℤ)

theorem covers_of_pattern {m n : ℕ} {R : Type*} [AddCommGroup R]
    (G : Set (Perm (Fin m) × Perm (Fin n))) (P0 : Fin m → ℕ) (H0 : Fin n → ℕ) (x : R) (pat : Pattern m n)
    (ws : List (((Fin m → ℕ) × (Fin n → ℕ)) × R))
    (hws : ws = pat.map (fun e => ((P0 ∘ e.1, H0 ∘ e.2.1), e.2.2 • x)))
    (h1 : ∀ g ∈ G, ((⇑g.1, ⇑g.2, ((Perm.sign g.1 * Perm.sign g.2 : ℤˣ) : ℤ)) :
      (Fin m → Fin m) × (Fin n → Fin n) × ℤ) ∈ pat)
    (h2 : ∀ e ∈ pat, ∃ g ∈ G, e = (⇑g.1, ⇑g.2, ((Perm.sign g.1 * Perm.sign g.2 : ℤˣ) : ℤ))) :
    Covers G P0 H0 x ws where
  all := by
    intro g hg
    rw [hws]
    exact List.mem_map.mpr ⟨_, h1 g hg, rfl⟩
  only := by
    intro w hw
    rw [hws] at hw
    obtain ⟨e, he, rfl⟩ := List.mem_map.mp hw
    obtain ⟨g, hg, rfl⟩ := h2 e he
    exact ⟨g, hg, rfl⟩

theorem vec_comp3 (f : Fin 3 → ℕ) (p q r : Fin 3) : f ∘ ![p, q, r] = ![f p, f q, f r] := by
  funext i
  match i with
  | 0 => rfl
  | 1 => rfl
  | 2 => rfl

theorem vec_comp2 (f : Fin 2 → ℕ) (p q : Fin 2) : f ∘ ![p, q] = ![f p, f q] := by
  funext i
  match i with
  | 0 => rfl
  | 1 => rfl

/-- all 36 (particle, hole) position permutations, holes outermost -/
def pattern36 : Pattern 3 3 :=
  [(![0,1,2], 1), (![0,2,1], -1), (![1,2,0], 1), (![1,0,2], -1), (![2,0,1], 1), (![2,1,0], -1)].flatMap
    fun (h : (Fin 3 → Fin 3) × ℤ) =>
      [(![0,1,2], 1), (![0,2,1], -1), (![1,0,2], -1), (![1,2,0], 1), (![2,0,1], 1), (![2,1,0], -1)].map
        fun (p : (Fin 3 → Fin 3) × ℤ) => (p.1, h.1, p.2 * h.2)

def pattern4 : Pattern 2 2 :=
  [(![0,1], ![0,1], 1), (![1,0], ![0,1], -1), (![0,1], ![1,0], -1), (![1,0], ![1,0], 1)]

def patternAab : Pattern 3 3 :=
  [(![0,1,2], ![0,1,2], 1), (![1,0,2], ![0,1,2], -1), (![0,1,2], ![1,0,2], -1), (![1,0,2], ![1,0,2], 1)]

def patternAbb : Pattern 3 3 :=
  [(![0,1,2], ![0,1,2], 1), (![0,2,1], ![0,1,2], -1), (![0,1,2], ![0,2,1], -1), (![0,2,1], ![0,2,1], 1)]

theorem pattern36_all : ∀ g ∈ likeSpin 3, ((⇑g.1, ⇑g.2, ((Perm.sign g.1 * Perm.sign g.2 : ℤˣ) : ℤ)) :
      (Fin 3 → Fin 3) × (Fin 3 → Fin 3) × ℤ) ∈ pattern36 := by
  have : ∀ g : Perm (Fin 3) × Perm (Fin 3),
    ((⇑g.1, ⇑g.2, ((Perm.sign g.1 * Perm.sign g.2 : ℤˣ) : ℤ)) :
      (Fin 3 → Fin 3) × (Fin 3 → Fin 3) × ℤ) ∈ pattern36 := by decide +kernel
  exact fun g _ => this g

theorem pattern36_only : ∀ e ∈ pattern36, ∃ g ∈ likeSpin 3,
    e = (⇑g.1, ⇑g.2, ((Perm.sign g.1 * Perm.sign g.2 : ℤˣ) : ℤ)) := by
  have : ∀ e ∈ pattern36, ∃ g : Perm (Fin 3) × Perm (Fin 3),
    e = (⇑g.1, ⇑g.2, ((Perm.sign g.1 * Perm.sign g.2 : ℤˣ) : ℤ)) := by decide +kernel
  intro e he
  obtain ⟨g, hg⟩ := this e he
  exact ⟨g, trivial, hg⟩

theorem pattern4_all : ∀ g ∈ likeSpin 2, ((⇑g.1, ⇑g.2, ((Perm.sign g.1 * Perm.sign g.2 : ℤˣ) : ℤ)) :
      (Fin 2 → Fin 2) × (Fin 2 → Fin 2) × ℤ) ∈ pattern4 := by
  have : ∀ g : Perm (Fin 2) × Perm (Fin 2),
    ((⇑g.1, ⇑g.2, ((Perm.sign g.1 * Perm.sign g.2 : ℤˣ) : ℤ)) :
      (Fin 2 → Fin 2) × (Fin 2 → Fin 2) × ℤ) ∈ pattern4 := by decide +kernel
  exact fun g _ => this g

theorem pattern4_only : ∀ e ∈ pattern4, ∃ g ∈ likeSpin 2,
    e = (⇑g.1, ⇑g.2, ((Perm.sign g.1 * Perm.sign g.2 : ℤˣ) : ℤ)) := by
  have : ∀ e ∈ pattern4, ∃ g : Perm (Fin 2) × Perm (Fin 2),
    e = (⇑g.1, ⇑g.2, ((Perm.sign g.1 * Perm.sign g.2 : ℤˣ) : ℤ)) := by decide +kernel
  intro e he
  obtain ⟨g, hg⟩ := this e he
  exact ⟨g, trivial, hg⟩

theorem patternAab_all : ∀ g ∈ spinAab, ((⇑g.1, ⇑g.2, ((Perm.sign g.1 * Perm.sign g.2 : ℤˣ) : ℤ)) :
      (Fin 3 → Fin 3) × (Fin 3 → Fin 3) × ℤ) ∈ patternAab := by
  have : ∀ g : Perm (Fin 3) × Perm (Fin 3), (g.1 2 = 2 ∧ g.2 2 = 2) →
    ((⇑g.1, ⇑g.2, ((Perm.sign g.1 * Perm.sign g.2 : ℤˣ) : ℤ)) :
      (Fin 3 → Fin 3) × (Fin 3 → Fin 3) × ℤ) ∈ patternAab := by decide +kernel
  exact this

theorem patternAab_only : ∀ e ∈ patternAab, ∃ g ∈ spinAab,
    e = (⇑g.1, ⇑g.2, ((Perm.sign g.1 * Perm.sign g.2 : ℤˣ) : ℤ)) := by
  have : ∀ e ∈ patternAab, ∃ g : Perm (Fin 3) × Perm (Fin 3), (g.1 2 = 2 ∧ g.2 2 = 2) ∧
    e = (⇑g.1, ⇑g.2, ((Perm.sign g.1 * Perm.sign g.2 : ℤˣ) : ℤ)) := by decide +kernel
  exact this

theorem patternAbb_all : ∀ g ∈ spinAbb, ((⇑g.1, ⇑g.2, ((Perm.sign g.1 * Perm.sign g.2 : ℤˣ) : ℤ)) :
      (Fin 3 → Fin 3) × (Fin 3 → Fin 3) × ℤ) ∈ patternAbb := by
  have : ∀ g : Perm (Fin 3) × Perm (Fin 3), (g.1 0 = 0 ∧ g.2 0 = 0) →
    ((⇑g.1, ⇑g.2, ((Perm.sign g.1 * Perm.sign g.2 : ℤˣ) : ℤ)) :
      (Fin 3 → Fin 3) × (Fin 3 → Fin 3) × ℤ) ∈ patternAbb := by decide +kernel
  exact this

theorem patternAbb_only : ∀ e ∈ patternAbb, ∃ g ∈ spinAbb,
    e = (⇑g.1, ⇑g.2, ((Perm.sign g.1 * Perm.sign g.2 : ℤˣ) : ℤ)) := by
  have : ∀ e ∈ patternAbb, ∃ g : Perm (Fin 3) × Perm (Fin 3), (g.1 0 = 0 ∧ g.2 0 = 0) ∧
    e = (⇑g.1, ⇑g.2, ((Perm.sign g.1 * Perm.sign g.2 : ℤˣ) : ℤ)) := by decide +kernel
  exact this

end Ccpy.Writes
