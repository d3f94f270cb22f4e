import Verif.Model.Excitations
import Verif.Spec.ExcitationLists
import Mathlib.Data.List.Range
import Mathlib.Data.List.Nodup
import Mathlib.Algebra.Order.Group.Nat

/-! Helper lemmas for the excitation lists. -/

namespace Ccpy.Excitations
open Ccpy.Spec

set_option linter.unusedSimpArgs false
set_option linter.unusedVariables false

theorem mem_forRange {α : Type} (lo hi : ℕ) (f : ℕ → List α) (x : α) :
    x ∈ forRange lo hi f ↔ ∃ i, (lo ≤ i ∧ i < hi) ∧ x ∈ f i := by
  simp only [forRange, List.mem_flatMap, List.mem_range'_1]
  constructor
  · rintro ⟨i, h, hx⟩
    exact ⟨i, ⟨h.1, by omega⟩, hx⟩
  · rintro ⟨i, h, hx⟩
    exact ⟨i, ⟨h.1, by omega⟩, hx⟩

theorem nodup_forRange {α : Type} (lo hi : ℕ) (f : ℕ → List α)
    (h : ∀ i, (f i).Nodup) (hd : ∀ i j x, x ∈ f i → x ∈ f j → i = j) :
    (forRange lo hi f).Nodup := by
  rw [forRange, List.nodup_flatMap]
  refine ⟨fun i _ => h i, ?_⟩
  refine (List.nodup_range' (s := lo) (n := hi - lo)).imp ?_
  intro i j hij x hx hx'
  exact hij (hd i j x hx hx')

/-- Membership in `if p then [] else l`. -/
theorem mem_ite_nil {α : Type} (p : Prop) [Decidable p] (l : List α) (x : α) :
    x ∈ (if p then [] else l) ↔ ¬ p ∧ x ∈ l := by
  by_cases h : p <;> simp [h]

theorem mem_ite_nil' {α : Type} (p : Prop) [Decidable p] (l : List α) (x : α) :
    x ∈ (if p then l else []) ↔ p ∧ x ∈ l := by
  by_cases h : p <;> simp [h]

theorem nodup_ite_nil {α : Type} (p : Prop) [Decidable p] (l : List α) (h : l.Nodup) :
    (if p then [] else l).Nodup := by
  by_cases hp : p <;> simp [hp, h]

theorem nodup_ite_nil' {α : Type} (p : Prop) [Decidable p] (l : List α) (h : l.Nodup) :
    (if p then l else []).Nodup := by
  by_cases hp : p <;> simp [hp, h]

theorem ordered2 (n : Spin → ℕ) (s1 s2 : Spin) (xs : List ℕ) :
    OrderedIndices n [s1, s2] xs ↔ ∃ a b, xs = [a, b] ∧ a < n s1 ∧ b < n s2 ∧
      (s1 = s2 → a < b) := by
  constructor
  · rintro ⟨h1, h2, h3⟩
    match xs, h1, h2, h3 with
    | [a, b], _, h2, h3 =>
      simp at h2 h3
      exact ⟨a, b, rfl, by tauto, by tauto, by tauto⟩
  · rintro ⟨a, b, rfl, h⟩
    exact ⟨rfl, by simp; tauto, by simp; tauto⟩

theorem ordered3 (n : Spin → ℕ) (s1 s2 s3 : Spin) (xs : List ℕ) :
    OrderedIndices n [s1, s2, s3] xs ↔ ∃ a b c, xs = [a, b, c] ∧ a < n s1 ∧ b < n s2 ∧ c < n s3 ∧
      (s1 = s2 → a < b) ∧ (s1 = s3 → a < c) ∧ (s2 = s3 → b < c) := by
  constructor
  · rintro ⟨h1, h2, h3⟩
    match xs, h1, h2, h3 with
    | [a, b, c], _, h2, h3 =>
      simp at h2 h3
      exact ⟨a, b, c, rfl, by tauto, by tauto, by tauto, by tauto, by tauto, by tauto⟩
  · rintro ⟨a, b, c, rfl, h⟩
    exact ⟨rfl, by simp; tauto, by simp; tauto⟩

theorem ordered4 (n : Spin → ℕ) (s1 s2 s3 s4 : Spin) (xs : List ℕ) :
    OrderedIndices n [s1, s2, s3, s4] xs ↔ ∃ a b c d, xs = [a, b, c, d] ∧
      a < n s1 ∧ b < n s2 ∧ c < n s3 ∧ d < n s4 ∧
      (s1 = s2 → a < b) ∧ (s1 = s3 → a < c) ∧ (s1 = s4 → a < d) ∧
      (s2 = s3 → b < c) ∧ (s2 = s4 → b < d) ∧ (s3 = s4 → c < d) := by
  constructor
  · rintro ⟨h1, h2, h3⟩
    match xs, h1, h2, h3 with
    | [a, b, c, d], _, h2, h3 =>
      simp at h2 h3
      exact ⟨a, b, c, d, rfl, by tauto, by tauto, by tauto, by tauto, by tauto, by tauto,
        by tauto, by tauto, by tauto, by tauto⟩
  · rintro ⟨a, b, c, d, rfl, h⟩
    exact ⟨rfl, by simp; tauto, by simp; tauto⟩

@[simp] theorem space_occ_a (s : Sys) : s.space.occ .α = s.noa := rfl
@[simp] theorem space_occ_b (s : Sys) : s.space.occ .β = s.nob := rfl
@[simp] theorem space_unocc_a (s : Sys) : s.space.unocc .α = s.nua := rfl
@[simp] theorem space_unocc_b (s : Sys) : s.space.unocc .β = s.nub := rfl
@[simp] theorem space_actOcc_a (s : Sys) : s.space.actOcc .α = s.actOA := rfl
@[simp] theorem space_actOcc_b (s : Sys) : s.space.actOcc .β = s.actOB := rfl
@[simp] theorem space_actUnocc_a (s : Sys) : s.space.actUnocc .α = s.actUA := rfl
@[simp] theorem space_actUnocc_b (s : Sys) : s.space.actUnocc .β = s.actUB := rfl
@[simp] theorem space_irrep (s : Sys) : s.space.irrep = s.irrep := rfl

theorem activeHole_eq (x nocc nact : ℕ) :
    activeHole x nocc nact = if nocc - nact ≤ x then 1 else 0 := by
  unfold activeHole
  split <;> split <;> omega

/-- The counters of the code, over split spin lists, in terms of the specification. -/
theorem activeHoles_eq (s : Sys) (l : List (Spin × ℕ)) :
    (l.countP fun q => decide (s.space.occ q.1 - s.space.actOcc q.1 ≤ q.2)) =
      (l.map fun q => match q.1 with
        | .α => activeHole q.2 s.noa s.actOA | .β => activeHole q.2 s.nob s.actOB).sum := by
  induction l with
  | nil => rfl
  | cons q l ih =>
    obtain ⟨σ, x⟩ := q
    rw [List.countP_cons, ih, List.map_cons, List.sum_cons, Nat.add_comm]
    cases σ <;> simp [activeHole_eq]

theorem activeParticles_eq (s : Sys) (l : List (Spin × ℕ)) :
    (l.countP fun q => decide (q.2 < s.space.actUnocc q.1)) =
      (l.map fun q => match q.1 with
        | .α => activeParticle q.2 s.actUA | .β => activeParticle q.2 s.actUB).sum := by
  induction l with
  | nil => rfl
  | cons q l ih =>
    obtain ⟨σ, x⟩ := q
    rw [List.countP_cons, ih, List.map_cons, List.sum_cons, Nat.add_comm]
    have e : (if decide (x < s.space.actUnocc σ) = true then 1 else 0) =
        if x < s.space.actUnocc σ then 1 else 0 := by
      by_cases h : x < s.space.actUnocc σ <;> simp [h]
    simp only [e]
    cases σ <;> rfl

theorem hasSymmetry_iff (s : Sys) (target : Option ℕ) (sp : List Spin) (ps hs : List ℕ) :
    HasSymmetry s.space s.ref target sp ps hs ↔ (match target with
      | none => True
      | some t => s.ref ^^^ excitationIrrep s.space sp ps hs = t) := by
  cases target with
  | none => simp [HasSymmetry]
  | some t =>
    simp only [HasSymmetry, Option.some.injEq]
    exact ⟨fun h => h t rfl, fun h t' ht => ht ▸ h⟩

theorem nodup_forRange_key (lo hi : ℕ) (f : ℕ → List (List ℕ)) (p : ℕ)
    (h : ∀ i, (f i).Nodup) (hk : ∀ i x, x ∈ f i → x[p]? = some (i + 1)) :
    (forRange lo hi f).Nodup := by
  refine nodup_forRange lo hi f h fun i j x hi hj => ?_
  have h1 := hk i x hi
  have h2 := hk j x hj
  rw [h1] at h2
  simpa using h2

theorem mem_activePAaa (s : Sys) (num : ℕ) (t : Option ℕ) (r : List ℕ) :
    r ∈ activePAaa s num t ↔ Allowed s t [.α, .α, .α] [.α, .α, .α] (fun ps hs =>
      num ≤ activeHoles s.space [.α, .α, .α] hs ∧
      num ≤ activeParticles s.space [.α, .α, .α] ps) r := by
  simp only [activePAaa, mem_forRange, mem_ite_nil, mem_ite_nil', List.mem_singleton, Allowed,
    ordered3, activeHoles, activeParticles, activeHoles_eq, activeParticles_eq, hasSymmetry_iff]
  constructor
  · rintro ⟨i, hi', j, hj', k, hk', h1, a, ha', b, hb', c, hc', h2, h3, rfl⟩
    refine ⟨[a, b, c], [i, j, k], rfl, ⟨a, b, c, rfl, ?_⟩, ⟨i, j, k, rfl, ?_⟩, ?_, ?_⟩
    · simp; omega
    · simp; omega
    · simp [countOccA, countOccB, countUnoccA, countUnoccB] at h1 h2 ⊢; omega
    · cases t <;> simp [checkAaa, excitationIrrep, Nat.xor_assoc] at h3 ⊢; exact h3
  · rintro ⟨_, _, rfl, ⟨a, b, c, rfl, hp⟩, ⟨i, j, k, rfl, hh⟩, h12, h3⟩
    simp at hp hh
    refine ⟨i, by omega, j, by omega, k, by omega, ?_, a, by omega, b, by omega, c, by omega, ?_, ?_, rfl⟩
    · simp [countOccA, countOccB, countUnoccA, countUnoccB] at h12 ⊢; omega
    · simp [countOccA, countOccB, countUnoccA, countUnoccB] at h12 ⊢; omega
    · cases t <;> simp [checkAaa, excitationIrrep, Nat.xor_assoc] at h3 ⊢; exact h3

theorem nodup_activePAaa (s : Sys) (num : ℕ) (t : Option ℕ) : (activePAaa s num t).Nodup := by
  unfold activePAaa
  refine nodup_forRange_key _ _ _ 3 (fun i => ?_) ?_
  rotate_left
  · intro i x hx
    simp only [mem_forRange, mem_ite_nil, mem_ite_nil', List.mem_singleton] at hx
    obtain ⟨j, _, k, _, _, a, _, b, _, c, _, _, _, rfl⟩ := hx
    rfl
  refine nodup_forRange_key _ _ _ 4 (fun j => ?_) ?_
  rotate_left
  · intro j x hx
    simp only [mem_forRange, mem_ite_nil, mem_ite_nil', List.mem_singleton] at hx
    obtain ⟨k, _, _, a, _, b, _, c, _, _, _, rfl⟩ := hx
    rfl
  refine nodup_forRange_key _ _ _ 5 (fun k => ?_) ?_
  rotate_left
  · intro k x hx
    simp only [mem_forRange, mem_ite_nil, mem_ite_nil', List.mem_singleton] at hx
    obtain ⟨_, a, _, b, _, c, _, _, _, rfl⟩ := hx
    rfl
  refine nodup_ite_nil _ _ ?_
  refine nodup_forRange_key _ _ _ 0 (fun a => ?_) ?_
  rotate_left
  · intro a x hx
    simp only [mem_forRange, mem_ite_nil, mem_ite_nil', List.mem_singleton] at hx
    obtain ⟨b, _, c, _, _, _, rfl⟩ := hx
    rfl
  refine nodup_forRange_key _ _ _ 1 (fun b => ?_) ?_
  rotate_left
  · intro b x hx
    simp only [mem_forRange, mem_ite_nil, mem_ite_nil', List.mem_singleton] at hx
    obtain ⟨c, _, _, _, rfl⟩ := hx
    rfl
  refine nodup_forRange_key _ _ _ 2 (fun c => ?_) ?_
  rotate_left
  · intro c x hx
    simp only [mem_forRange, mem_ite_nil, mem_ite_nil', List.mem_singleton] at hx
    obtain ⟨_, _, rfl⟩ := hx
    rfl
  refine nodup_ite_nil' _ _ ?_
  exact nodup_ite_nil _ _ (List.nodup_singleton _)

theorem mem_activePAab (s : Sys) (num : ℕ) (t : Option ℕ) (r : List ℕ) :
    r ∈ activePAab s num t ↔ Allowed s t [.α, .α, .β] [.α, .α, .β] (fun ps hs =>
      num ≤ activeHoles s.space [.α, .α, .β] hs ∧
      num ≤ activeParticles s.space [.α, .α, .β] ps) r := by
  simp only [activePAab, mem_forRange, mem_ite_nil, mem_ite_nil', List.mem_singleton, Allowed,
    ordered3, activeHoles, activeParticles, activeHoles_eq, activeParticles_eq, hasSymmetry_iff]
  constructor
  · rintro ⟨i, hi', j, hj', k, hk', h1, a, ha', b, hb', c, hc', h2, h3, rfl⟩
    refine ⟨[a, b, c], [i, j, k], rfl, ⟨a, b, c, rfl, ?_⟩, ⟨i, j, k, rfl, ?_⟩, ?_, ?_⟩
    · simp; omega
    · simp; omega
    · simp [countOccA, countOccB, countUnoccA, countUnoccB] at h1 h2 ⊢; omega
    · cases t <;> simp [checkAab, excitationIrrep, Nat.xor_assoc] at h3 ⊢; exact h3
  · rintro ⟨_, _, rfl, ⟨a, b, c, rfl, hp⟩, ⟨i, j, k, rfl, hh⟩, h12, h3⟩
    simp at hp hh
    refine ⟨i, by omega, j, by omega, k, by omega, ?_, a, by omega, b, by omega, c, by omega, ?_, ?_, rfl⟩
    · simp [countOccA, countOccB, countUnoccA, countUnoccB] at h12 ⊢; omega
    · simp [countOccA, countOccB, countUnoccA, countUnoccB] at h12 ⊢; omega
    · cases t <;> simp [checkAab, excitationIrrep, Nat.xor_assoc] at h3 ⊢; exact h3

theorem nodup_activePAab (s : Sys) (num : ℕ) (t : Option ℕ) : (activePAab s num t).Nodup := by
  unfold activePAab
  refine nodup_forRange_key _ _ _ 3 (fun i => ?_) ?_
  rotate_left
  · intro i x hx
    simp only [mem_forRange, mem_ite_nil, mem_ite_nil', List.mem_singleton] at hx
    obtain ⟨j, _, k, _, _, a, _, b, _, c, _, _, _, rfl⟩ := hx
    rfl
  refine nodup_forRange_key _ _ _ 4 (fun j => ?_) ?_
  rotate_left
  · intro j x hx
    simp only [mem_forRange, mem_ite_nil, mem_ite_nil', List.mem_singleton] at hx
    obtain ⟨k, _, _, a, _, b, _, c, _, _, _, rfl⟩ := hx
    rfl
  refine nodup_forRange_key _ _ _ 5 (fun k => ?_) ?_
  rotate_left
  · intro k x hx
    simp only [mem_forRange, mem_ite_nil, mem_ite_nil', List.mem_singleton] at hx
    obtain ⟨_, a, _, b, _, c, _, _, _, rfl⟩ := hx
    rfl
  refine nodup_ite_nil _ _ ?_
  refine nodup_forRange_key _ _ _ 0 (fun a => ?_) ?_
  rotate_left
  · intro a x hx
    simp only [mem_forRange, mem_ite_nil, mem_ite_nil', List.mem_singleton] at hx
    obtain ⟨b, _, c, _, _, _, rfl⟩ := hx
    rfl
  refine nodup_forRange_key _ _ _ 1 (fun b => ?_) ?_
  rotate_left
  · intro b x hx
    simp only [mem_forRange, mem_ite_nil, mem_ite_nil', List.mem_singleton] at hx
    obtain ⟨c, _, _, _, rfl⟩ := hx
    rfl
  refine nodup_forRange_key _ _ _ 2 (fun c => ?_) ?_
  rotate_left
  · intro c x hx
    simp only [mem_forRange, mem_ite_nil, mem_ite_nil', List.mem_singleton] at hx
    obtain ⟨_, _, rfl⟩ := hx
    rfl
  refine nodup_ite_nil' _ _ ?_
  exact nodup_ite_nil _ _ (List.nodup_singleton _)

theorem mem_activePAbb (s : Sys) (num : ℕ) (t : Option ℕ) (r : List ℕ) :
    r ∈ activePAbb s num t ↔ Allowed s t [.α, .β, .β] [.α, .β, .β] (fun ps hs =>
      num ≤ activeHoles s.space [.α, .β, .β] hs ∧
      num ≤ activeParticles s.space [.α, .β, .β] ps) r := by
  simp only [activePAbb, mem_forRange, mem_ite_nil, mem_ite_nil', List.mem_singleton, Allowed,
    ordered3, activeHoles, activeParticles, activeHoles_eq, activeParticles_eq, hasSymmetry_iff]
  constructor
  · rintro ⟨i, hi', j, hj', k, hk', h1, a, ha', b, hb', c, hc', h2, h3, rfl⟩
    refine ⟨[a, b, c], [i, j, k], rfl, ⟨a, b, c, rfl, ?_⟩, ⟨i, j, k, rfl, ?_⟩, ?_, ?_⟩
    · simp; omega
    · simp; omega
    · simp [countOccA, countOccB, countUnoccA, countUnoccB] at h1 h2 ⊢; omega
    · cases t <;> simp [checkAbb, excitationIrrep, Nat.xor_assoc] at h3 ⊢; exact h3
  · rintro ⟨_, _, rfl, ⟨a, b, c, rfl, hp⟩, ⟨i, j, k, rfl, hh⟩, h12, h3⟩
    simp at hp hh
    refine ⟨i, by omega, j, by omega, k, by omega, ?_, a, by omega, b, by omega, c, by omega, ?_, ?_, rfl⟩
    · simp [countOccA, countOccB, countUnoccA, countUnoccB] at h12 ⊢; omega
    · simp [countOccA, countOccB, countUnoccA, countUnoccB] at h12 ⊢; omega
    · cases t <;> simp [checkAbb, excitationIrrep, Nat.xor_assoc] at h3 ⊢; exact h3

theorem nodup_activePAbb (s : Sys) (num : ℕ) (t : Option ℕ) : (activePAbb s num t).Nodup := by
  unfold activePAbb
  refine nodup_forRange_key _ _ _ 3 (fun i => ?_) ?_
  rotate_left
  · intro i x hx
    simp only [mem_forRange, mem_ite_nil, mem_ite_nil', List.mem_singleton] at hx
    obtain ⟨j, _, k, _, _, a, _, b, _, c, _, _, _, rfl⟩ := hx
    rfl
  refine nodup_forRange_key _ _ _ 4 (fun j => ?_) ?_
  rotate_left
  · intro j x hx
    simp only [mem_forRange, mem_ite_nil, mem_ite_nil', List.mem_singleton] at hx
    obtain ⟨k, _, _, a, _, b, _, c, _, _, _, rfl⟩ := hx
    rfl
  refine nodup_forRange_key _ _ _ 5 (fun k => ?_) ?_
  rotate_left
  · intro k x hx
    simp only [mem_forRange, mem_ite_nil, mem_ite_nil', List.mem_singleton] at hx
    obtain ⟨_, a, _, b, _, c, _, _, _, rfl⟩ := hx
    rfl
  refine nodup_ite_nil _ _ ?_
  refine nodup_forRange_key _ _ _ 0 (fun a => ?_) ?_
  rotate_left
  · intro a x hx
    simp only [mem_forRange, mem_ite_nil, mem_ite_nil', List.mem_singleton] at hx
    obtain ⟨b, _, c, _, _, _, rfl⟩ := hx
    rfl
  refine nodup_forRange_key _ _ _ 1 (fun b => ?_) ?_
  rotate_left
  · intro b x hx
    simp only [mem_forRange, mem_ite_nil, mem_ite_nil', List.mem_singleton] at hx
    obtain ⟨c, _, _, _, rfl⟩ := hx
    rfl
  refine nodup_forRange_key _ _ _ 2 (fun c => ?_) ?_
  rotate_left
  · intro c x hx
    simp only [mem_forRange, mem_ite_nil, mem_ite_nil', List.mem_singleton] at hx
    obtain ⟨_, _, rfl⟩ := hx
    rfl
  refine nodup_ite_nil' _ _ ?_
  exact nodup_ite_nil _ _ (List.nodup_singleton _)

theorem mem_activePBbb (s : Sys) (num : ℕ) (t : Option ℕ) (r : List ℕ) :
    r ∈ activePBbb s num t ↔ Allowed s t [.β, .β, .β] [.β, .β, .β] (fun ps hs =>
      num ≤ activeHoles s.space [.β, .β, .β] hs ∧
      num ≤ activeParticles s.space [.β, .β, .β] ps) r := by
  simp only [activePBbb, mem_forRange, mem_ite_nil, mem_ite_nil', List.mem_singleton, Allowed,
    ordered3, activeHoles, activeParticles, activeHoles_eq, activeParticles_eq, hasSymmetry_iff]
  constructor
  · rintro ⟨i, hi', j, hj', k, hk', h1, a, ha', b, hb', c, hc', h2, h3, rfl⟩
    refine ⟨[a, b, c], [i, j, k], rfl, ⟨a, b, c, rfl, ?_⟩, ⟨i, j, k, rfl, ?_⟩, ?_, ?_⟩
    · simp; omega
    · simp; omega
    · simp [countOccA, countOccB, countUnoccA, countUnoccB] at h1 h2 ⊢; omega
    · cases t <;> simp [checkBbb, excitationIrrep, Nat.xor_assoc] at h3 ⊢; exact h3
  · rintro ⟨_, _, rfl, ⟨a, b, c, rfl, hp⟩, ⟨i, j, k, rfl, hh⟩, h12, h3⟩
    simp at hp hh
    refine ⟨i, by omega, j, by omega, k, by omega, ?_, a, by omega, b, by omega, c, by omega, ?_, ?_, rfl⟩
    · simp [countOccA, countOccB, countUnoccA, countUnoccB] at h12 ⊢; omega
    · simp [countOccA, countOccB, countUnoccA, countUnoccB] at h12 ⊢; omega
    · cases t <;> simp [checkBbb, excitationIrrep, Nat.xor_assoc] at h3 ⊢; exact h3

theorem nodup_activePBbb (s : Sys) (num : ℕ) (t : Option ℕ) : (activePBbb s num t).Nodup := by
  unfold activePBbb
  refine nodup_forRange_key _ _ _ 3 (fun i => ?_) ?_
  rotate_left
  · intro i x hx
    simp only [mem_forRange, mem_ite_nil, mem_ite_nil', List.mem_singleton] at hx
    obtain ⟨j, _, k, _, _, a, _, b, _, c, _, _, _, rfl⟩ := hx
    rfl
  refine nodup_forRange_key _ _ _ 4 (fun j => ?_) ?_
  rotate_left
  · intro j x hx
    simp only [mem_forRange, mem_ite_nil, mem_ite_nil', List.mem_singleton] at hx
    obtain ⟨k, _, _, a, _, b, _, c, _, _, _, rfl⟩ := hx
    rfl
  refine nodup_forRange_key _ _ _ 5 (fun k => ?_) ?_
  rotate_left
  · intro k x hx
    simp only [mem_forRange, mem_ite_nil, mem_ite_nil', List.mem_singleton] at hx
    obtain ⟨_, a, _, b, _, c, _, _, _, rfl⟩ := hx
    rfl
  refine nodup_ite_nil _ _ ?_
  refine nodup_forRange_key _ _ _ 0 (fun a => ?_) ?_
  rotate_left
  · intro a x hx
    simp only [mem_forRange, mem_ite_nil, mem_ite_nil', List.mem_singleton] at hx
    obtain ⟨b, _, c, _, _, _, rfl⟩ := hx
    rfl
  refine nodup_forRange_key _ _ _ 1 (fun b => ?_) ?_
  rotate_left
  · intro b x hx
    simp only [mem_forRange, mem_ite_nil, mem_ite_nil', List.mem_singleton] at hx
    obtain ⟨c, _, _, _, rfl⟩ := hx
    rfl
  refine nodup_forRange_key _ _ _ 2 (fun c => ?_) ?_
  rotate_left
  · intro c x hx
    simp only [mem_forRange, mem_ite_nil, mem_ite_nil', List.mem_singleton] at hx
    obtain ⟨_, _, rfl⟩ := hx
    rfl
  refine nodup_ite_nil' _ _ ?_
  exact nodup_ite_nil _ _ (List.nodup_singleton _)

theorem mem_activeQAaa (s : Sys) (num : ℕ) (t : Option ℕ) (r : List ℕ) :
    r ∈ activeQAaa s num t ↔ Allowed s t [.α, .α, .α] [.α, .α, .α] (fun ps hs =>
      ¬ (num ≤ activeHoles s.space [.α, .α, .α] hs ∧
      num ≤ activeParticles s.space [.α, .α, .α] ps)) r := by
  simp only [activeQAaa, mem_forRange, mem_ite_nil, mem_ite_nil', List.mem_singleton, Allowed,
    ordered3, activeHoles, activeParticles, activeHoles_eq, activeParticles_eq, hasSymmetry_iff]
  constructor
  · rintro ⟨i, hi', j, hj', k, hk', a, ha', b, hb', c, hc', h2, h3, rfl⟩
    refine ⟨[a, b, c], [i, j, k], rfl, ⟨a, b, c, rfl, ?_⟩, ⟨i, j, k, rfl, ?_⟩, ?_, ?_⟩
    · simp; omega
    · simp; omega
    · simp [countOccA, countOccB, countUnoccA, countUnoccB] at h2 ⊢; omega
    · cases t <;> simp [checkAaa, excitationIrrep, Nat.xor_assoc] at h3 ⊢; exact h3
  · rintro ⟨_, _, rfl, ⟨a, b, c, rfl, hp⟩, ⟨i, j, k, rfl, hh⟩, h12, h3⟩
    simp at hp hh
    refine ⟨i, by omega, j, by omega, k, by omega, a, by omega, b, by omega, c, by omega, ?_, ?_, rfl⟩
    · simp [countOccA, countOccB, countUnoccA, countUnoccB] at h12 ⊢; omega
    · cases t <;> simp [checkAaa, excitationIrrep, Nat.xor_assoc] at h3 ⊢; exact h3

theorem nodup_activeQAaa (s : Sys) (num : ℕ) (t : Option ℕ) : (activeQAaa s num t).Nodup := by
  unfold activeQAaa
  refine nodup_forRange_key _ _ _ 3 (fun i => ?_) ?_
  rotate_left
  · intro i x hx
    simp only [mem_forRange, mem_ite_nil, mem_ite_nil', List.mem_singleton] at hx
    obtain ⟨j, _, k, _, a, _, b, _, c, _, _, _, rfl⟩ := hx
    rfl
  refine nodup_forRange_key _ _ _ 4 (fun j => ?_) ?_
  rotate_left
  · intro j x hx
    simp only [mem_forRange, mem_ite_nil, mem_ite_nil', List.mem_singleton] at hx
    obtain ⟨k, _, a, _, b, _, c, _, _, _, rfl⟩ := hx
    rfl
  refine nodup_forRange_key _ _ _ 5 (fun k => ?_) ?_
  rotate_left
  · intro k x hx
    simp only [mem_forRange, mem_ite_nil, mem_ite_nil', List.mem_singleton] at hx
    obtain ⟨a, _, b, _, c, _, _, _, rfl⟩ := hx
    rfl
  refine nodup_forRange_key _ _ _ 0 (fun a => ?_) ?_
  rotate_left
  · intro a x hx
    simp only [mem_forRange, mem_ite_nil, mem_ite_nil', List.mem_singleton] at hx
    obtain ⟨b, _, c, _, _, _, rfl⟩ := hx
    rfl
  refine nodup_forRange_key _ _ _ 1 (fun b => ?_) ?_
  rotate_left
  · intro b x hx
    simp only [mem_forRange, mem_ite_nil, mem_ite_nil', List.mem_singleton] at hx
    obtain ⟨c, _, _, _, rfl⟩ := hx
    rfl
  refine nodup_forRange_key _ _ _ 2 (fun c => ?_) ?_
  rotate_left
  · intro c x hx
    simp only [mem_forRange, mem_ite_nil, mem_ite_nil', List.mem_singleton] at hx
    obtain ⟨_, _, rfl⟩ := hx
    rfl
  refine nodup_ite_nil' _ _ ?_
  exact nodup_ite_nil _ _ (List.nodup_singleton _)

theorem mem_activeQAab (s : Sys) (num : ℕ) (t : Option ℕ) (r : List ℕ) :
    r ∈ activeQAab s num t ↔ Allowed s t [.α, .α, .β] [.α, .α, .β] (fun ps hs =>
      ¬ (num ≤ activeHoles s.space [.α, .α, .β] hs ∧
      num ≤ activeParticles s.space [.α, .α, .β] ps)) r := by
  simp only [activeQAab, mem_forRange, mem_ite_nil, mem_ite_nil', List.mem_singleton, Allowed,
    ordered3, activeHoles, activeParticles, activeHoles_eq, activeParticles_eq, hasSymmetry_iff]
  constructor
  · rintro ⟨i, hi', j, hj', k, hk', a, ha', b, hb', c, hc', h2, h3, rfl⟩
    refine ⟨[a, b, c], [i, j, k], rfl, ⟨a, b, c, rfl, ?_⟩, ⟨i, j, k, rfl, ?_⟩, ?_, ?_⟩
    · simp; omega
    · simp; omega
    · simp [countOccA, countOccB, countUnoccA, countUnoccB] at h2 ⊢; omega
    · cases t <;> simp [checkAab, excitationIrrep, Nat.xor_assoc] at h3 ⊢; exact h3
  · rintro ⟨_, _, rfl, ⟨a, b, c, rfl, hp⟩, ⟨i, j, k, rfl, hh⟩, h12, h3⟩
    simp at hp hh
    refine ⟨i, by omega, j, by omega, k, by omega, a, by omega, b, by omega, c, by omega, ?_, ?_, rfl⟩
    · simp [countOccA, countOccB, countUnoccA, countUnoccB] at h12 ⊢; omega
    · cases t <;> simp [checkAab, excitationIrrep, Nat.xor_assoc] at h3 ⊢; exact h3

theorem nodup_activeQAab (s : Sys) (num : ℕ) (t : Option ℕ) : (activeQAab s num t).Nodup := by
  unfold activeQAab
  refine nodup_forRange_key _ _ _ 3 (fun i => ?_) ?_
  rotate_left
  · intro i x hx
    simp only [mem_forRange, mem_ite_nil, mem_ite_nil', List.mem_singleton] at hx
    obtain ⟨j, _, k, _, a, _, b, _, c, _, _, _, rfl⟩ := hx
    rfl
  refine nodup_forRange_key _ _ _ 4 (fun j => ?_) ?_
  rotate_left
  · intro j x hx
    simp only [mem_forRange, mem_ite_nil, mem_ite_nil', List.mem_singleton] at hx
    obtain ⟨k, _, a, _, b, _, c, _, _, _, rfl⟩ := hx
    rfl
  refine nodup_forRange_key _ _ _ 5 (fun k => ?_) ?_
  rotate_left
  · intro k x hx
    simp only [mem_forRange, mem_ite_nil, mem_ite_nil', List.mem_singleton] at hx
    obtain ⟨a, _, b, _, c, _, _, _, rfl⟩ := hx
    rfl
  refine nodup_forRange_key _ _ _ 0 (fun a => ?_) ?_
  rotate_left
  · intro a x hx
    simp only [mem_forRange, mem_ite_nil, mem_ite_nil', List.mem_singleton] at hx
    obtain ⟨b, _, c, _, _, _, rfl⟩ := hx
    rfl
  refine nodup_forRange_key _ _ _ 1 (fun b => ?_) ?_
  rotate_left
  · intro b x hx
    simp only [mem_forRange, mem_ite_nil, mem_ite_nil', List.mem_singleton] at hx
    obtain ⟨c, _, _, _, rfl⟩ := hx
    rfl
  refine nodup_forRange_key _ _ _ 2 (fun c => ?_) ?_
  rotate_left
  · intro c x hx
    simp only [mem_forRange, mem_ite_nil, mem_ite_nil', List.mem_singleton] at hx
    obtain ⟨_, _, rfl⟩ := hx
    rfl
  refine nodup_ite_nil' _ _ ?_
  exact nodup_ite_nil _ _ (List.nodup_singleton _)

theorem mem_activeQAbb (s : Sys) (num : ℕ) (t : Option ℕ) (r : List ℕ) :
    r ∈ activeQAbb s num t ↔ Allowed s t [.α, .β, .β] [.α, .β, .β] (fun ps hs =>
      ¬ (num ≤ activeHoles s.space [.α, .β, .β] hs ∧
      num ≤ activeParticles s.space [.α, .β, .β] ps)) r := by
  simp only [activeQAbb, mem_forRange, mem_ite_nil, mem_ite_nil', List.mem_singleton, Allowed,
    ordered3, activeHoles, activeParticles, activeHoles_eq, activeParticles_eq, hasSymmetry_iff]
  constructor
  · rintro ⟨i, hi', j, hj', k, hk', a, ha', b, hb', c, hc', h2, h3, rfl⟩
    refine ⟨[a, b, c], [i, j, k], rfl, ⟨a, b, c, rfl, ?_⟩, ⟨i, j, k, rfl, ?_⟩, ?_, ?_⟩
    · simp; omega
    · simp; omega
    · simp [countOccA, countOccB, countUnoccA, countUnoccB] at h2 ⊢; omega
    · cases t <;> simp [checkAbb, excitationIrrep, Nat.xor_assoc] at h3 ⊢; exact h3
  · rintro ⟨_, _, rfl, ⟨a, b, c, rfl, hp⟩, ⟨i, j, k, rfl, hh⟩, h12, h3⟩
    simp at hp hh
    refine ⟨i, by omega, j, by omega, k, by omega, a, by omega, b, by omega, c, by omega, ?_, ?_, rfl⟩
    · simp [countOccA, countOccB, countUnoccA, countUnoccB] at h12 ⊢; omega
    · cases t <;> simp [checkAbb, excitationIrrep, Nat.xor_assoc] at h3 ⊢; exact h3

theorem nodup_activeQAbb (s : Sys) (num : ℕ) (t : Option ℕ) : (activeQAbb s num t).Nodup := by
  unfold activeQAbb
  refine nodup_forRange_key _ _ _ 3 (fun i => ?_) ?_
  rotate_left
  · intro i x hx
    simp only [mem_forRange, mem_ite_nil, mem_ite_nil', List.mem_singleton] at hx
    obtain ⟨j, _, k, _, a, _, b, _, c, _, _, _, rfl⟩ := hx
    rfl
  refine nodup_forRange_key _ _ _ 4 (fun j => ?_) ?_
  rotate_left
  · intro j x hx
    simp only [mem_forRange, mem_ite_nil, mem_ite_nil', List.mem_singleton] at hx
    obtain ⟨k, _, a, _, b, _, c, _, _, _, rfl⟩ := hx
    rfl
  refine nodup_forRange_key _ _ _ 5 (fun k => ?_) ?_
  rotate_left
  · intro k x hx
    simp only [mem_forRange, mem_ite_nil, mem_ite_nil', List.mem_singleton] at hx
    obtain ⟨a, _, b, _, c, _, _, _, rfl⟩ := hx
    rfl
  refine nodup_forRange_key _ _ _ 0 (fun a => ?_) ?_
  rotate_left
  · intro a x hx
    simp only [mem_forRange, mem_ite_nil, mem_ite_nil', List.mem_singleton] at hx
    obtain ⟨b, _, c, _, _, _, rfl⟩ := hx
    rfl
  refine nodup_forRange_key _ _ _ 1 (fun b => ?_) ?_
  rotate_left
  · intro b x hx
    simp only [mem_forRange, mem_ite_nil, mem_ite_nil', List.mem_singleton] at hx
    obtain ⟨c, _, _, _, rfl⟩ := hx
    rfl
  refine nodup_forRange_key _ _ _ 2 (fun c => ?_) ?_
  rotate_left
  · intro c x hx
    simp only [mem_forRange, mem_ite_nil, mem_ite_nil', List.mem_singleton] at hx
    obtain ⟨_, _, rfl⟩ := hx
    rfl
  refine nodup_ite_nil' _ _ ?_
  exact nodup_ite_nil _ _ (List.nodup_singleton _)

theorem mem_activeQBbb (s : Sys) (num : ℕ) (t : Option ℕ) (r : List ℕ) :
    r ∈ activeQBbb s num t ↔ Allowed s t [.β, .β, .β] [.β, .β, .β] (fun ps hs =>
      ¬ (num ≤ activeHoles s.space [.β, .β, .β] hs ∧
      num ≤ activeParticles s.space [.β, .β, .β] ps)) r := by
  simp only [activeQBbb, mem_forRange, mem_ite_nil, mem_ite_nil', List.mem_singleton, Allowed,
    ordered3, activeHoles, activeParticles, activeHoles_eq, activeParticles_eq, hasSymmetry_iff]
  constructor
  · rintro ⟨i, hi', j, hj', k, hk', a, ha', b, hb', c, hc', h2, h3, rfl⟩
    refine ⟨[a, b, c], [i, j, k], rfl, ⟨a, b, c, rfl, ?_⟩, ⟨i, j, k, rfl, ?_⟩, ?_, ?_⟩
    · simp; omega
    · simp; omega
    · simp [countOccA, countOccB, countUnoccA, countUnoccB] at h2 ⊢; omega
    · cases t <;> simp [checkBbb, excitationIrrep, Nat.xor_assoc] at h3 ⊢; exact h3
  · rintro ⟨_, _, rfl, ⟨a, b, c, rfl, hp⟩, ⟨i, j, k, rfl, hh⟩, h12, h3⟩
    simp at hp hh
    refine ⟨i, by omega, j, by omega, k, by omega, a, by omega, b, by omega, c, by omega, ?_, ?_, rfl⟩
    · simp [countOccA, countOccB, countUnoccA, countUnoccB] at h12 ⊢; omega
    · cases t <;> simp [checkBbb, excitationIrrep, Nat.xor_assoc] at h3 ⊢; exact h3

theorem nodup_activeQBbb (s : Sys) (num : ℕ) (t : Option ℕ) : (activeQBbb s num t).Nodup := by
  unfold activeQBbb
  refine nodup_forRange_key _ _ _ 3 (fun i => ?_) ?_
  rotate_left
  · intro i x hx
    simp only [mem_forRange, mem_ite_nil, mem_ite_nil', List.mem_singleton] at hx
    obtain ⟨j, _, k, _, a, _, b, _, c, _, _, _, rfl⟩ := hx
    rfl
  refine nodup_forRange_key _ _ _ 4 (fun j => ?_) ?_
  rotate_left
  · intro j x hx
    simp only [mem_forRange, mem_ite_nil, mem_ite_nil', List.mem_singleton] at hx
    obtain ⟨k, _, a, _, b, _, c, _, _, _, rfl⟩ := hx
    rfl
  refine nodup_forRange_key _ _ _ 5 (fun k => ?_) ?_
  rotate_left
  · intro k x hx
    simp only [mem_forRange, mem_ite_nil, mem_ite_nil', List.mem_singleton] at hx
    obtain ⟨a, _, b, _, c, _, _, _, rfl⟩ := hx
    rfl
  refine nodup_forRange_key _ _ _ 0 (fun a => ?_) ?_
  rotate_left
  · intro a x hx
    simp only [mem_forRange, mem_ite_nil, mem_ite_nil', List.mem_singleton] at hx
    obtain ⟨b, _, c, _, _, _, rfl⟩ := hx
    rfl
  refine nodup_forRange_key _ _ _ 1 (fun b => ?_) ?_
  rotate_left
  · intro b x hx
    simp only [mem_forRange, mem_ite_nil, mem_ite_nil', List.mem_singleton] at hx
    obtain ⟨c, _, _, _, rfl⟩ := hx
    rfl
  refine nodup_forRange_key _ _ _ 2 (fun c => ?_) ?_
  rotate_left
  · intro c x hx
    simp only [mem_forRange, mem_ite_nil, mem_ite_nil', List.mem_singleton] at hx
    obtain ⟨_, _, rfl⟩ := hx
    rfl
  refine nodup_ite_nil' _ _ ?_
  exact nodup_ite_nil _ _ (List.nodup_singleton _)

theorem mem_generalQAaa (s : Sys) (open? : List ℕ → Bool) (t : Option ℕ) (r : List ℕ) :
    r ∈ generalQAaa s open? t ↔ Allowed s t [.α, .α, .α] [.α, .α, .α] (fun ps hs =>
      open? (ps ++ hs) = true) r := by
  simp only [generalQAaa, mem_forRange, mem_ite_nil, mem_ite_nil', List.mem_singleton, Allowed,
    ordered3, activeHoles, activeParticles, activeHoles_eq, activeParticles_eq, hasSymmetry_iff]
  constructor
  · rintro ⟨i, hi', j, hj', k, hk', a, ha', b, hb', c, hc', h2, h3, rfl⟩
    refine ⟨[a, b, c], [i, j, k], rfl, ⟨a, b, c, rfl, ?_⟩, ⟨i, j, k, rfl, ?_⟩, ?_, ?_⟩
    · simp; omega
    · simp; omega
    · exact h2
    · cases t <;> simp [checkAaa, excitationIrrep, Nat.xor_assoc] at h3 ⊢; exact h3
  · rintro ⟨_, _, rfl, ⟨a, b, c, rfl, hp⟩, ⟨i, j, k, rfl, hh⟩, h12, h3⟩
    simp at hp hh
    refine ⟨i, by omega, j, by omega, k, by omega, a, by omega, b, by omega, c, by omega, ?_, ?_, rfl⟩
    · exact h12
    · cases t <;> simp [checkAaa, excitationIrrep, Nat.xor_assoc] at h3 ⊢; exact h3

theorem nodup_generalQAaa (s : Sys) (open? : List ℕ → Bool) (t : Option ℕ) : (generalQAaa s open? t).Nodup := by
  unfold generalQAaa
  refine nodup_forRange_key _ _ _ 3 (fun i => ?_) ?_
  rotate_left
  · intro i x hx
    simp only [mem_forRange, mem_ite_nil, mem_ite_nil', List.mem_singleton] at hx
    obtain ⟨j, _, k, _, a, _, b, _, c, _, _, _, rfl⟩ := hx
    rfl
  refine nodup_forRange_key _ _ _ 4 (fun j => ?_) ?_
  rotate_left
  · intro j x hx
    simp only [mem_forRange, mem_ite_nil, mem_ite_nil', List.mem_singleton] at hx
    obtain ⟨k, _, a, _, b, _, c, _, _, _, rfl⟩ := hx
    rfl
  refine nodup_forRange_key _ _ _ 5 (fun k => ?_) ?_
  rotate_left
  · intro k x hx
    simp only [mem_forRange, mem_ite_nil, mem_ite_nil', List.mem_singleton] at hx
    obtain ⟨a, _, b, _, c, _, _, _, rfl⟩ := hx
    rfl
  refine nodup_forRange_key _ _ _ 0 (fun a => ?_) ?_
  rotate_left
  · intro a x hx
    simp only [mem_forRange, mem_ite_nil, mem_ite_nil', List.mem_singleton] at hx
    obtain ⟨b, _, c, _, _, _, rfl⟩ := hx
    rfl
  refine nodup_forRange_key _ _ _ 1 (fun b => ?_) ?_
  rotate_left
  · intro b x hx
    simp only [mem_forRange, mem_ite_nil, mem_ite_nil', List.mem_singleton] at hx
    obtain ⟨c, _, _, _, rfl⟩ := hx
    rfl
  refine nodup_forRange_key _ _ _ 2 (fun c => ?_) ?_
  rotate_left
  · intro c x hx
    simp only [mem_forRange, mem_ite_nil, mem_ite_nil', List.mem_singleton] at hx
    obtain ⟨_, _, rfl⟩ := hx
    rfl
  refine nodup_ite_nil' _ _ ?_
  exact nodup_ite_nil _ _ (List.nodup_singleton _)

theorem mem_generalQAab (s : Sys) (open? : List ℕ → Bool) (t : Option ℕ) (r : List ℕ) :
    r ∈ generalQAab s open? t ↔ Allowed s t [.α, .α, .β] [.α, .α, .β] (fun ps hs =>
      open? (ps ++ hs) = true) r := by
  simp only [generalQAab, mem_forRange, mem_ite_nil, mem_ite_nil', List.mem_singleton, Allowed,
    ordered3, activeHoles, activeParticles, activeHoles_eq, activeParticles_eq, hasSymmetry_iff]
  constructor
  · rintro ⟨i, hi', j, hj', k, hk', a, ha', b, hb', c, hc', h2, h3, rfl⟩
    refine ⟨[a, b, c], [i, j, k], rfl, ⟨a, b, c, rfl, ?_⟩, ⟨i, j, k, rfl, ?_⟩, ?_, ?_⟩
    · simp; omega
    · simp; omega
    · exact h2
    · cases t <;> simp [checkAab, excitationIrrep, Nat.xor_assoc] at h3 ⊢; exact h3
  · rintro ⟨_, _, rfl, ⟨a, b, c, rfl, hp⟩, ⟨i, j, k, rfl, hh⟩, h12, h3⟩
    simp at hp hh
    refine ⟨i, by omega, j, by omega, k, by omega, a, by omega, b, by omega, c, by omega, ?_, ?_, rfl⟩
    · exact h12
    · cases t <;> simp [checkAab, excitationIrrep, Nat.xor_assoc] at h3 ⊢; exact h3

theorem nodup_generalQAab (s : Sys) (open? : List ℕ → Bool) (t : Option ℕ) : (generalQAab s open? t).Nodup := by
  unfold generalQAab
  refine nodup_forRange_key _ _ _ 3 (fun i => ?_) ?_
  rotate_left
  · intro i x hx
    simp only [mem_forRange, mem_ite_nil, mem_ite_nil', List.mem_singleton] at hx
    obtain ⟨j, _, k, _, a, _, b, _, c, _, _, _, rfl⟩ := hx
    rfl
  refine nodup_forRange_key _ _ _ 4 (fun j => ?_) ?_
  rotate_left
  · intro j x hx
    simp only [mem_forRange, mem_ite_nil, mem_ite_nil', List.mem_singleton] at hx
    obtain ⟨k, _, a, _, b, _, c, _, _, _, rfl⟩ := hx
    rfl
  refine nodup_forRange_key _ _ _ 5 (fun k => ?_) ?_
  rotate_left
  · intro k x hx
    simp only [mem_forRange, mem_ite_nil, mem_ite_nil', List.mem_singleton] at hx
    obtain ⟨a, _, b, _, c, _, _, _, rfl⟩ := hx
    rfl
  refine nodup_forRange_key _ _ _ 0 (fun a => ?_) ?_
  rotate_left
  · intro a x hx
    simp only [mem_forRange, mem_ite_nil, mem_ite_nil', List.mem_singleton] at hx
    obtain ⟨b, _, c, _, _, _, rfl⟩ := hx
    rfl
  refine nodup_forRange_key _ _ _ 1 (fun b => ?_) ?_
  rotate_left
  · intro b x hx
    simp only [mem_forRange, mem_ite_nil, mem_ite_nil', List.mem_singleton] at hx
    obtain ⟨c, _, _, _, rfl⟩ := hx
    rfl
  refine nodup_forRange_key _ _ _ 2 (fun c => ?_) ?_
  rotate_left
  · intro c x hx
    simp only [mem_forRange, mem_ite_nil, mem_ite_nil', List.mem_singleton] at hx
    obtain ⟨_, _, rfl⟩ := hx
    rfl
  refine nodup_ite_nil' _ _ ?_
  exact nodup_ite_nil _ _ (List.nodup_singleton _)

theorem mem_generalQAbb (s : Sys) (open? : List ℕ → Bool) (t : Option ℕ) (r : List ℕ) :
    r ∈ generalQAbb s open? t ↔ Allowed s t [.α, .β, .β] [.α, .β, .β] (fun ps hs =>
      open? (ps ++ hs) = true) r := by
  simp only [generalQAbb, mem_forRange, mem_ite_nil, mem_ite_nil', List.mem_singleton, Allowed,
    ordered3, activeHoles, activeParticles, activeHoles_eq, activeParticles_eq, hasSymmetry_iff]
  constructor
  · rintro ⟨i, hi', j, hj', k, hk', a, ha', b, hb', c, hc', h2, h3, rfl⟩
    refine ⟨[a, b, c], [i, j, k], rfl, ⟨a, b, c, rfl, ?_⟩, ⟨i, j, k, rfl, ?_⟩, ?_, ?_⟩
    · simp; omega
    · simp; omega
    · exact h2
    · cases t <;> simp [checkAbb, excitationIrrep, Nat.xor_assoc] at h3 ⊢; exact h3
  · rintro ⟨_, _, rfl, ⟨a, b, c, rfl, hp⟩, ⟨i, j, k, rfl, hh⟩, h12, h3⟩
    simp at hp hh
    refine ⟨i, by omega, j, by omega, k, by omega, a, by omega, b, by omega, c, by omega, ?_, ?_, rfl⟩
    · exact h12
    · cases t <;> simp [checkAbb, excitationIrrep, Nat.xor_assoc] at h3 ⊢; exact h3

theorem nodup_generalQAbb (s : Sys) (open? : List ℕ → Bool) (t : Option ℕ) : (generalQAbb s open? t).Nodup := by
  unfold generalQAbb
  refine nodup_forRange_key _ _ _ 3 (fun i => ?_) ?_
  rotate_left
  · intro i x hx
    simp only [mem_forRange, mem_ite_nil, mem_ite_nil', List.mem_singleton] at hx
    obtain ⟨j, _, k, _, a, _, b, _, c, _, _, _, rfl⟩ := hx
    rfl
  refine nodup_forRange_key _ _ _ 4 (fun j => ?_) ?_
  rotate_left
  · intro j x hx
    simp only [mem_forRange, mem_ite_nil, mem_ite_nil', List.mem_singleton] at hx
    obtain ⟨k, _, a, _, b, _, c, _, _, _, rfl⟩ := hx
    rfl
  refine nodup_forRange_key _ _ _ 5 (fun k => ?_) ?_
  rotate_left
  · intro k x hx
    simp only [mem_forRange, mem_ite_nil, mem_ite_nil', List.mem_singleton] at hx
    obtain ⟨a, _, b, _, c, _, _, _, rfl⟩ := hx
    rfl
  refine nodup_forRange_key _ _ _ 0 (fun a => ?_) ?_
  rotate_left
  · intro a x hx
    simp only [mem_forRange, mem_ite_nil, mem_ite_nil', List.mem_singleton] at hx
    obtain ⟨b, _, c, _, _, _, rfl⟩ := hx
    rfl
  refine nodup_forRange_key _ _ _ 1 (fun b => ?_) ?_
  rotate_left
  · intro b x hx
    simp only [mem_forRange, mem_ite_nil, mem_ite_nil', List.mem_singleton] at hx
    obtain ⟨c, _, _, _, rfl⟩ := hx
    rfl
  refine nodup_forRange_key _ _ _ 2 (fun c => ?_) ?_
  rotate_left
  · intro c x hx
    simp only [mem_forRange, mem_ite_nil, mem_ite_nil', List.mem_singleton] at hx
    obtain ⟨_, _, rfl⟩ := hx
    rfl
  refine nodup_ite_nil' _ _ ?_
  exact nodup_ite_nil _ _ (List.nodup_singleton _)

theorem mem_generalQBbb (s : Sys) (open? : List ℕ → Bool) (t : Option ℕ) (r : List ℕ) :
    r ∈ generalQBbb s open? t ↔ Allowed s t [.β, .β, .β] [.β, .β, .β] (fun ps hs =>
      open? (ps ++ hs) = true) r := by
  simp only [generalQBbb, mem_forRange, mem_ite_nil, mem_ite_nil', List.mem_singleton, Allowed,
    ordered3, activeHoles, activeParticles, activeHoles_eq, activeParticles_eq, hasSymmetry_iff]
  constructor
  · rintro ⟨i, hi', j, hj', k, hk', a, ha', b, hb', c, hc', h2, h3, rfl⟩
    refine ⟨[a, b, c], [i, j, k], rfl, ⟨a, b, c, rfl, ?_⟩, ⟨i, j, k, rfl, ?_⟩, ?_, ?_⟩
    · simp; omega
    · simp; omega
    · exact h2
    · cases t <;> simp [checkBbb, excitationIrrep, Nat.xor_assoc] at h3 ⊢; exact h3
  · rintro ⟨_, _, rfl, ⟨a, b, c, rfl, hp⟩, ⟨i, j, k, rfl, hh⟩, h12, h3⟩
    simp at hp hh
    refine ⟨i, by omega, j, by omega, k, by omega, a, by omega, b, by omega, c, by omega, ?_, ?_, rfl⟩
    · exact h12
    · cases t <;> simp [checkBbb, excitationIrrep, Nat.xor_assoc] at h3 ⊢; exact h3

theorem nodup_generalQBbb (s : Sys) (open? : List ℕ → Bool) (t : Option ℕ) : (generalQBbb s open? t).Nodup := by
  unfold generalQBbb
  refine nodup_forRange_key _ _ _ 3 (fun i => ?_) ?_
  rotate_left
  · intro i x hx
    simp only [mem_forRange, mem_ite_nil, mem_ite_nil', List.mem_singleton] at hx
    obtain ⟨j, _, k, _, a, _, b, _, c, _, _, _, rfl⟩ := hx
    rfl
  refine nodup_forRange_key _ _ _ 4 (fun j => ?_) ?_
  rotate_left
  · intro j x hx
    simp only [mem_forRange, mem_ite_nil, mem_ite_nil', List.mem_singleton] at hx
    obtain ⟨k, _, a, _, b, _, c, _, _, _, rfl⟩ := hx
    rfl
  refine nodup_forRange_key _ _ _ 5 (fun k => ?_) ?_
  rotate_left
  · intro k x hx
    simp only [mem_forRange, mem_ite_nil, mem_ite_nil', List.mem_singleton] at hx
    obtain ⟨a, _, b, _, c, _, _, _, rfl⟩ := hx
    rfl
  refine nodup_forRange_key _ _ _ 0 (fun a => ?_) ?_
  rotate_left
  · intro a x hx
    simp only [mem_forRange, mem_ite_nil, mem_ite_nil', List.mem_singleton] at hx
    obtain ⟨b, _, c, _, _, _, rfl⟩ := hx
    rfl
  refine nodup_forRange_key _ _ _ 1 (fun b => ?_) ?_
  rotate_left
  · intro b x hx
    simp only [mem_forRange, mem_ite_nil, mem_ite_nil', List.mem_singleton] at hx
    obtain ⟨c, _, _, _, rfl⟩ := hx
    rfl
  refine nodup_forRange_key _ _ _ 2 (fun c => ?_) ?_
  rotate_left
  · intro c x hx
    simp only [mem_forRange, mem_ite_nil, mem_ite_nil', List.mem_singleton] at hx
    obtain ⟨_, _, rfl⟩ := hx
    rfl
  refine nodup_ite_nil' _ _ ?_
  exact nodup_ite_nil _ _ (List.nodup_singleton _)

theorem mem_active3p2hAaa (s : Sys) (num : ℕ) (t : Option ℕ) (r : List ℕ) :
    r ∈ active3p2hAaa s num t ↔ Allowed s t [.α, .α, .α] [.α, .α] (fun ps hs =>
      num ≤ activeParticles s.space [.α, .α, .α] ps) r := by
  simp only [active3p2hAaa, mem_forRange, mem_ite_nil, mem_ite_nil', List.mem_singleton, Allowed,
    ordered3, ordered2, activeHoles, activeParticles, activeHoles_eq, activeParticles_eq, hasSymmetry_iff]
  constructor
  · rintro ⟨a, ha', b, hb', c, hc', h1, j, hj', k, hk', h3, rfl⟩
    refine ⟨[a, b, c], [j, k], rfl, ⟨a, b, c, rfl, ?_⟩, ⟨j, k, rfl, ?_⟩, ?_, ?_⟩
    · simp; omega
    · simp; omega
    · simp [countOccA, countOccB, countUnoccA, countUnoccB] at h1 ⊢; omega
    · cases t <;> simp [check3p2hAaa, excitationIrrep, Nat.xor_assoc] at h3 ⊢; exact h3
  · rintro ⟨_, _, rfl, ⟨a, b, c, rfl, hp⟩, ⟨j, k, rfl, hh⟩, h12, h3⟩
    simp at hp hh
    refine ⟨a, by omega, b, by omega, c, by omega, ?_, j, by omega, k, by omega, ?_, rfl⟩
    · simp [countOccA, countOccB, countUnoccA, countUnoccB] at h12 ⊢; omega
    · cases t <;> simp [check3p2hAaa, excitationIrrep, Nat.xor_assoc] at h3 ⊢; exact h3

theorem nodup_active3p2hAaa (s : Sys) (num : ℕ) (t : Option ℕ) : (active3p2hAaa s num t).Nodup := by
  unfold active3p2hAaa
  refine nodup_forRange_key _ _ _ 0 (fun a => ?_) ?_
  rotate_left
  · intro a x hx
    simp only [mem_forRange, mem_ite_nil, mem_ite_nil', List.mem_singleton] at hx
    obtain ⟨b, _, c, _, _, j, _, k, _, _, rfl⟩ := hx
    rfl
  refine nodup_forRange_key _ _ _ 1 (fun b => ?_) ?_
  rotate_left
  · intro b x hx
    simp only [mem_forRange, mem_ite_nil, mem_ite_nil', List.mem_singleton] at hx
    obtain ⟨c, _, _, j, _, k, _, _, rfl⟩ := hx
    rfl
  refine nodup_forRange_key _ _ _ 2 (fun c => ?_) ?_
  rotate_left
  · intro c x hx
    simp only [mem_forRange, mem_ite_nil, mem_ite_nil', List.mem_singleton] at hx
    obtain ⟨_, j, _, k, _, _, rfl⟩ := hx
    rfl
  refine nodup_ite_nil _ _ ?_
  refine nodup_forRange_key _ _ _ 3 (fun j => ?_) ?_
  rotate_left
  · intro j x hx
    simp only [mem_forRange, mem_ite_nil, mem_ite_nil', List.mem_singleton] at hx
    obtain ⟨k, _, _, rfl⟩ := hx
    rfl
  refine nodup_forRange_key _ _ _ 4 (fun k => ?_) ?_
  rotate_left
  · intro k x hx
    simp only [mem_forRange, mem_ite_nil, mem_ite_nil', List.mem_singleton] at hx
    obtain ⟨_, rfl⟩ := hx
    rfl
  exact nodup_ite_nil _ _ (List.nodup_singleton _)

theorem mem_active3p2hAab (s : Sys) (num : ℕ) (t : Option ℕ) (r : List ℕ) :
    r ∈ active3p2hAab s num t ↔ Allowed s t [.α, .α, .β] [.α, .β] (fun ps hs =>
      num ≤ activeParticles s.space [.α, .α, .β] ps) r := by
  simp only [active3p2hAab, mem_forRange, mem_ite_nil, mem_ite_nil', List.mem_singleton, Allowed,
    ordered3, ordered2, activeHoles, activeParticles, activeHoles_eq, activeParticles_eq, hasSymmetry_iff]
  constructor
  · rintro ⟨a, ha', b, hb', c, hc', h1, j, hj', k, hk', h3, rfl⟩
    refine ⟨[a, b, c], [j, k], rfl, ⟨a, b, c, rfl, ?_⟩, ⟨j, k, rfl, ?_⟩, ?_, ?_⟩
    · simp; omega
    · simp; omega
    · simp [countOccA, countOccB, countUnoccA, countUnoccB] at h1 ⊢; omega
    · cases t <;> simp [check3p2hAab, excitationIrrep, Nat.xor_assoc] at h3 ⊢; exact h3
  · rintro ⟨_, _, rfl, ⟨a, b, c, rfl, hp⟩, ⟨j, k, rfl, hh⟩, h12, h3⟩
    simp at hp hh
    refine ⟨a, by omega, b, by omega, c, by omega, ?_, j, by omega, k, by omega, ?_, rfl⟩
    · simp [countOccA, countOccB, countUnoccA, countUnoccB] at h12 ⊢; omega
    · cases t <;> simp [check3p2hAab, excitationIrrep, Nat.xor_assoc] at h3 ⊢; exact h3

theorem nodup_active3p2hAab (s : Sys) (num : ℕ) (t : Option ℕ) : (active3p2hAab s num t).Nodup := by
  unfold active3p2hAab
  refine nodup_forRange_key _ _ _ 0 (fun a => ?_) ?_
  rotate_left
  · intro a x hx
    simp only [mem_forRange, mem_ite_nil, mem_ite_nil', List.mem_singleton] at hx
    obtain ⟨b, _, c, _, _, j, _, k, _, _, rfl⟩ := hx
    rfl
  refine nodup_forRange_key _ _ _ 1 (fun b => ?_) ?_
  rotate_left
  · intro b x hx
    simp only [mem_forRange, mem_ite_nil, mem_ite_nil', List.mem_singleton] at hx
    obtain ⟨c, _, _, j, _, k, _, _, rfl⟩ := hx
    rfl
  refine nodup_forRange_key _ _ _ 2 (fun c => ?_) ?_
  rotate_left
  · intro c x hx
    simp only [mem_forRange, mem_ite_nil, mem_ite_nil', List.mem_singleton] at hx
    obtain ⟨_, j, _, k, _, _, rfl⟩ := hx
    rfl
  refine nodup_ite_nil _ _ ?_
  refine nodup_forRange_key _ _ _ 3 (fun j => ?_) ?_
  rotate_left
  · intro j x hx
    simp only [mem_forRange, mem_ite_nil, mem_ite_nil', List.mem_singleton] at hx
    obtain ⟨k, _, _, rfl⟩ := hx
    rfl
  refine nodup_forRange_key _ _ _ 4 (fun k => ?_) ?_
  rotate_left
  · intro k x hx
    simp only [mem_forRange, mem_ite_nil, mem_ite_nil', List.mem_singleton] at hx
    obtain ⟨_, rfl⟩ := hx
    rfl
  exact nodup_ite_nil _ _ (List.nodup_singleton _)

theorem mem_active3p2hAbb (s : Sys) (num : ℕ) (t : Option ℕ) (r : List ℕ) :
    r ∈ active3p2hAbb s num t ↔ Allowed s t [.α, .β, .β] [.β, .β] (fun ps hs =>
      num ≤ activeParticles s.space [.α, .β, .β] ps) r := by
  simp only [active3p2hAbb, mem_forRange, mem_ite_nil, mem_ite_nil', List.mem_singleton, Allowed,
    ordered3, ordered2, activeHoles, activeParticles, activeHoles_eq, activeParticles_eq, hasSymmetry_iff]
  constructor
  · rintro ⟨a, ha', b, hb', c, hc', h1, j, hj', k, hk', h3, rfl⟩
    refine ⟨[a, b, c], [j, k], rfl, ⟨a, b, c, rfl, ?_⟩, ⟨j, k, rfl, ?_⟩, ?_, ?_⟩
    · simp; omega
    · simp; omega
    · simp [countOccA, countOccB, countUnoccA, countUnoccB] at h1 ⊢; omega
    · cases t <;> simp [check3p2hAbb, excitationIrrep, Nat.xor_assoc] at h3 ⊢; exact h3
  · rintro ⟨_, _, rfl, ⟨a, b, c, rfl, hp⟩, ⟨j, k, rfl, hh⟩, h12, h3⟩
    simp at hp hh
    refine ⟨a, by omega, b, by omega, c, by omega, ?_, j, by omega, k, by omega, ?_, rfl⟩
    · simp [countOccA, countOccB, countUnoccA, countUnoccB] at h12 ⊢; omega
    · cases t <;> simp [check3p2hAbb, excitationIrrep, Nat.xor_assoc] at h3 ⊢; exact h3

theorem nodup_active3p2hAbb (s : Sys) (num : ℕ) (t : Option ℕ) : (active3p2hAbb s num t).Nodup := by
  unfold active3p2hAbb
  refine nodup_forRange_key _ _ _ 0 (fun a => ?_) ?_
  rotate_left
  · intro a x hx
    simp only [mem_forRange, mem_ite_nil, mem_ite_nil', List.mem_singleton] at hx
    obtain ⟨b, _, c, _, _, j, _, k, _, _, rfl⟩ := hx
    rfl
  refine nodup_forRange_key _ _ _ 1 (fun b => ?_) ?_
  rotate_left
  · intro b x hx
    simp only [mem_forRange, mem_ite_nil, mem_ite_nil', List.mem_singleton] at hx
    obtain ⟨c, _, _, j, _, k, _, _, rfl⟩ := hx
    rfl
  refine nodup_forRange_key _ _ _ 2 (fun c => ?_) ?_
  rotate_left
  · intro c x hx
    simp only [mem_forRange, mem_ite_nil, mem_ite_nil', List.mem_singleton] at hx
    obtain ⟨_, j, _, k, _, _, rfl⟩ := hx
    rfl
  refine nodup_ite_nil _ _ ?_
  refine nodup_forRange_key _ _ _ 3 (fun j => ?_) ?_
  rotate_left
  · intro j x hx
    simp only [mem_forRange, mem_ite_nil, mem_ite_nil', List.mem_singleton] at hx
    obtain ⟨k, _, _, rfl⟩ := hx
    rfl
  refine nodup_forRange_key _ _ _ 4 (fun k => ?_) ?_
  rotate_left
  · intro k x hx
    simp only [mem_forRange, mem_ite_nil, mem_ite_nil', List.mem_singleton] at hx
    obtain ⟨_, rfl⟩ := hx
    rfl
  exact nodup_ite_nil _ _ (List.nodup_singleton _)

theorem mem_active3h2pAaa (s : Sys) (num : ℕ) (t : Option ℕ) (r : List ℕ) :
    r ∈ active3h2pAaa s num t ↔ Allowed s t [.α, .α] [.α, .α, .α] (fun ps hs =>
      num ≤ activeHoles s.space [.α, .α, .α] hs) r := by
  simp only [active3h2pAaa, mem_forRange, mem_ite_nil, mem_ite_nil', List.mem_singleton, Allowed,
    ordered2, ordered3, activeHoles, activeParticles, activeHoles_eq, activeParticles_eq, hasSymmetry_iff]
  constructor
  · rintro ⟨i, hi', j, hj', k, hk', h1, b, hb', c, hc', h3, rfl⟩
    refine ⟨[b, c], [i, j, k], rfl, ⟨b, c, rfl, ?_⟩, ⟨i, j, k, rfl, ?_⟩, ?_, ?_⟩
    · simp; omega
    · simp; omega
    · simp [countOccA, countOccB, countUnoccA, countUnoccB] at h1 ⊢; omega
    · cases t <;> simp [check3h2pAaa, excitationIrrep, Nat.xor_assoc] at h3 ⊢; exact h3
  · rintro ⟨_, _, rfl, ⟨b, c, rfl, hp⟩, ⟨i, j, k, rfl, hh⟩, h12, h3⟩
    simp at hp hh
    refine ⟨i, by omega, j, by omega, k, by omega, ?_, b, by omega, c, by omega, ?_, rfl⟩
    · simp [countOccA, countOccB, countUnoccA, countUnoccB] at h12 ⊢; omega
    · cases t <;> simp [check3h2pAaa, excitationIrrep, Nat.xor_assoc] at h3 ⊢; exact h3

theorem nodup_active3h2pAaa (s : Sys) (num : ℕ) (t : Option ℕ) : (active3h2pAaa s num t).Nodup := by
  unfold active3h2pAaa
  refine nodup_forRange_key _ _ _ 2 (fun i => ?_) ?_
  rotate_left
  · intro i x hx
    simp only [mem_forRange, mem_ite_nil, mem_ite_nil', List.mem_singleton] at hx
    obtain ⟨j, _, k, _, _, b, _, c, _, _, rfl⟩ := hx
    rfl
  refine nodup_forRange_key _ _ _ 3 (fun j => ?_) ?_
  rotate_left
  · intro j x hx
    simp only [mem_forRange, mem_ite_nil, mem_ite_nil', List.mem_singleton] at hx
    obtain ⟨k, _, _, b, _, c, _, _, rfl⟩ := hx
    rfl
  refine nodup_forRange_key _ _ _ 4 (fun k => ?_) ?_
  rotate_left
  · intro k x hx
    simp only [mem_forRange, mem_ite_nil, mem_ite_nil', List.mem_singleton] at hx
    obtain ⟨_, b, _, c, _, _, rfl⟩ := hx
    rfl
  refine nodup_ite_nil _ _ ?_
  refine nodup_forRange_key _ _ _ 0 (fun b => ?_) ?_
  rotate_left
  · intro b x hx
    simp only [mem_forRange, mem_ite_nil, mem_ite_nil', List.mem_singleton] at hx
    obtain ⟨c, _, _, rfl⟩ := hx
    rfl
  refine nodup_forRange_key _ _ _ 1 (fun c => ?_) ?_
  rotate_left
  · intro c x hx
    simp only [mem_forRange, mem_ite_nil, mem_ite_nil', List.mem_singleton] at hx
    obtain ⟨_, rfl⟩ := hx
    rfl
  exact nodup_ite_nil _ _ (List.nodup_singleton _)

theorem mem_active3h2pAab (s : Sys) (num : ℕ) (t : Option ℕ) (r : List ℕ) :
    r ∈ active3h2pAab s num t ↔ Allowed s t [.α, .β] [.α, .α, .β] (fun ps hs =>
      num ≤ activeHoles s.space [.α, .α, .β] hs) r := by
  simp only [active3h2pAab, mem_forRange, mem_ite_nil, mem_ite_nil', List.mem_singleton, Allowed,
    ordered2, ordered3, activeHoles, activeParticles, activeHoles_eq, activeParticles_eq, hasSymmetry_iff]
  constructor
  · rintro ⟨i, hi', j, hj', k, hk', h1, b, hb', c, hc', h3, rfl⟩
    refine ⟨[b, c], [i, j, k], rfl, ⟨b, c, rfl, ?_⟩, ⟨i, j, k, rfl, ?_⟩, ?_, ?_⟩
    · simp; omega
    · simp; omega
    · simp [countOccA, countOccB, countUnoccA, countUnoccB] at h1 ⊢; omega
    · cases t <;> simp [check3h2pAab, excitationIrrep, Nat.xor_assoc] at h3 ⊢; exact h3
  · rintro ⟨_, _, rfl, ⟨b, c, rfl, hp⟩, ⟨i, j, k, rfl, hh⟩, h12, h3⟩
    simp at hp hh
    refine ⟨i, by omega, j, by omega, k, by omega, ?_, b, by omega, c, by omega, ?_, rfl⟩
    · simp [countOccA, countOccB, countUnoccA, countUnoccB] at h12 ⊢; omega
    · cases t <;> simp [check3h2pAab, excitationIrrep, Nat.xor_assoc] at h3 ⊢; exact h3

theorem nodup_active3h2pAab (s : Sys) (num : ℕ) (t : Option ℕ) : (active3h2pAab s num t).Nodup := by
  unfold active3h2pAab
  refine nodup_forRange_key _ _ _ 2 (fun i => ?_) ?_
  rotate_left
  · intro i x hx
    simp only [mem_forRange, mem_ite_nil, mem_ite_nil', List.mem_singleton] at hx
    obtain ⟨j, _, k, _, _, b, _, c, _, _, rfl⟩ := hx
    rfl
  refine nodup_forRange_key _ _ _ 3 (fun j => ?_) ?_
  rotate_left
  · intro j x hx
    simp only [mem_forRange, mem_ite_nil, mem_ite_nil', List.mem_singleton] at hx
    obtain ⟨k, _, _, b, _, c, _, _, rfl⟩ := hx
    rfl
  refine nodup_forRange_key _ _ _ 4 (fun k => ?_) ?_
  rotate_left
  · intro k x hx
    simp only [mem_forRange, mem_ite_nil, mem_ite_nil', List.mem_singleton] at hx
    obtain ⟨_, b, _, c, _, _, rfl⟩ := hx
    rfl
  refine nodup_ite_nil _ _ ?_
  refine nodup_forRange_key _ _ _ 0 (fun b => ?_) ?_
  rotate_left
  · intro b x hx
    simp only [mem_forRange, mem_ite_nil, mem_ite_nil', List.mem_singleton] at hx
    obtain ⟨c, _, _, rfl⟩ := hx
    rfl
  refine nodup_forRange_key _ _ _ 1 (fun c => ?_) ?_
  rotate_left
  · intro c x hx
    simp only [mem_forRange, mem_ite_nil, mem_ite_nil', List.mem_singleton] at hx
    obtain ⟨_, rfl⟩ := hx
    rfl
  exact nodup_ite_nil _ _ (List.nodup_singleton _)

theorem mem_active3h2pAbb (s : Sys) (num : ℕ) (t : Option ℕ) (r : List ℕ) :
    r ∈ active3h2pAbb s num t ↔ Allowed s t [.β, .β] [.α, .β, .β] (fun ps hs =>
      num ≤ activeHoles s.space [.α, .β, .β] hs) r := by
  simp only [active3h2pAbb, mem_forRange, mem_ite_nil, mem_ite_nil', List.mem_singleton, Allowed,
    ordered2, ordered3, activeHoles, activeParticles, activeHoles_eq, activeParticles_eq, hasSymmetry_iff]
  constructor
  · rintro ⟨i, hi', j, hj', k, hk', h1, b, hb', c, hc', h3, rfl⟩
    refine ⟨[b, c], [i, j, k], rfl, ⟨b, c, rfl, ?_⟩, ⟨i, j, k, rfl, ?_⟩, ?_, ?_⟩
    · simp; omega
    · simp; omega
    · simp [countOccA, countOccB, countUnoccA, countUnoccB] at h1 ⊢; omega
    · cases t <;> simp [check3h2pAbb, excitationIrrep, Nat.xor_assoc] at h3 ⊢; exact h3
  · rintro ⟨_, _, rfl, ⟨b, c, rfl, hp⟩, ⟨i, j, k, rfl, hh⟩, h12, h3⟩
    simp at hp hh
    refine ⟨i, by omega, j, by omega, k, by omega, ?_, b, by omega, c, by omega, ?_, rfl⟩
    · simp [countOccA, countOccB, countUnoccA, countUnoccB] at h12 ⊢; omega
    · cases t <;> simp [check3h2pAbb, excitationIrrep, Nat.xor_assoc] at h3 ⊢; exact h3

theorem nodup_active3h2pAbb (s : Sys) (num : ℕ) (t : Option ℕ) : (active3h2pAbb s num t).Nodup := by
  unfold active3h2pAbb
  refine nodup_forRange_key _ _ _ 2 (fun i => ?_) ?_
  rotate_left
  · intro i x hx
    simp only [mem_forRange, mem_ite_nil, mem_ite_nil', List.mem_singleton] at hx
    obtain ⟨j, _, k, _, _, b, _, c, _, _, rfl⟩ := hx
    rfl
  refine nodup_forRange_key _ _ _ 3 (fun j => ?_) ?_
  rotate_left
  · intro j x hx
    simp only [mem_forRange, mem_ite_nil, mem_ite_nil', List.mem_singleton] at hx
    obtain ⟨k, _, _, b, _, c, _, _, rfl⟩ := hx
    rfl
  refine nodup_forRange_key _ _ _ 4 (fun k => ?_) ?_
  rotate_left
  · intro k x hx
    simp only [mem_forRange, mem_ite_nil, mem_ite_nil', List.mem_singleton] at hx
    obtain ⟨_, b, _, c, _, _, rfl⟩ := hx
    rfl
  refine nodup_ite_nil _ _ ?_
  refine nodup_forRange_key _ _ _ 0 (fun b => ?_) ?_
  rotate_left
  · intro b x hx
    simp only [mem_forRange, mem_ite_nil, mem_ite_nil', List.mem_singleton] at hx
    obtain ⟨c, _, _, rfl⟩ := hx
    rfl
  refine nodup_forRange_key _ _ _ 1 (fun c => ?_) ?_
  rotate_left
  · intro c x hx
    simp only [mem_forRange, mem_ite_nil, mem_ite_nil', List.mem_singleton] at hx
    obtain ⟨_, rfl⟩ := hx
    rfl
  exact nodup_ite_nil _ _ (List.nodup_singleton _)

theorem mem_active4p2hAbaa (s : Sys) (num : ℕ) (t : Option ℕ) (r : List ℕ) :
    r ∈ active4p2hAbaa s num t ↔ Allowed s t [.α, .β, .α, .α] [.α, .α] (fun ps hs =>
      num ≤ activeParticles s.space [.α, .β, .α, .α] ps) r := by
  simp only [active4p2hAbaa, mem_forRange, mem_ite_nil, mem_ite_nil', List.mem_singleton, Allowed,
    ordered4, ordered2, activeHoles, activeParticles, activeHoles_eq, activeParticles_eq, hasSymmetry_iff]
  constructor
  · rintro ⟨a, ha', b, hb', c, hc', d, hd', h1, k, hk', l, hl', h3, rfl⟩
    refine ⟨[a, b, c, d], [k, l], rfl, ⟨a, b, c, d, rfl, ?_⟩, ⟨k, l, rfl, ?_⟩, ?_, ?_⟩
    · simp; omega
    · simp; omega
    · simp [countOccA, countOccB, countUnoccA, countUnoccB] at h1 ⊢; omega
    · cases t <;> simp [check4p2hAbaa, excitationIrrep, Nat.xor_assoc] at h3 ⊢; exact h3
  · rintro ⟨_, _, rfl, ⟨a, b, c, d, rfl, hp⟩, ⟨k, l, rfl, hh⟩, h12, h3⟩
    simp at hp hh
    refine ⟨a, by omega, b, by omega, c, by omega, d, by omega, ?_, k, by omega, l, by omega, ?_, rfl⟩
    · simp [countOccA, countOccB, countUnoccA, countUnoccB] at h12 ⊢; omega
    · cases t <;> simp [check4p2hAbaa, excitationIrrep, Nat.xor_assoc] at h3 ⊢; exact h3

theorem nodup_active4p2hAbaa (s : Sys) (num : ℕ) (t : Option ℕ) : (active4p2hAbaa s num t).Nodup := by
  unfold active4p2hAbaa
  refine nodup_forRange_key _ _ _ 0 (fun a => ?_) ?_
  rotate_left
  · intro a x hx
    simp only [mem_forRange, mem_ite_nil, mem_ite_nil', List.mem_singleton] at hx
    obtain ⟨b, _, c, _, d, _, _, k, _, l, _, _, rfl⟩ := hx
    rfl
  refine nodup_forRange_key _ _ _ 1 (fun b => ?_) ?_
  rotate_left
  · intro b x hx
    simp only [mem_forRange, mem_ite_nil, mem_ite_nil', List.mem_singleton] at hx
    obtain ⟨c, _, d, _, _, k, _, l, _, _, rfl⟩ := hx
    rfl
  refine nodup_forRange_key _ _ _ 2 (fun c => ?_) ?_
  rotate_left
  · intro c x hx
    simp only [mem_forRange, mem_ite_nil, mem_ite_nil', List.mem_singleton] at hx
    obtain ⟨d, _, _, k, _, l, _, _, rfl⟩ := hx
    rfl
  refine nodup_forRange_key _ _ _ 3 (fun d => ?_) ?_
  rotate_left
  · intro d x hx
    simp only [mem_forRange, mem_ite_nil, mem_ite_nil', List.mem_singleton] at hx
    obtain ⟨_, k, _, l, _, _, rfl⟩ := hx
    rfl
  refine nodup_ite_nil _ _ ?_
  refine nodup_forRange_key _ _ _ 4 (fun k => ?_) ?_
  rotate_left
  · intro k x hx
    simp only [mem_forRange, mem_ite_nil, mem_ite_nil', List.mem_singleton] at hx
    obtain ⟨l, _, _, rfl⟩ := hx
    rfl
  refine nodup_forRange_key _ _ _ 5 (fun l => ?_) ?_
  rotate_left
  · intro l x hx
    simp only [mem_forRange, mem_ite_nil, mem_ite_nil', List.mem_singleton] at hx
    obtain ⟨_, rfl⟩ := hx
    rfl
  exact nodup_ite_nil _ _ (List.nodup_singleton _)

theorem mem_active4p2hAbab (s : Sys) (num : ℕ) (t : Option ℕ) (r : List ℕ) :
    r ∈ active4p2hAbab s num t ↔ Allowed s t [.α, .β, .α, .β] [.α, .β] (fun ps hs =>
      num ≤ activeParticles s.space [.α, .β, .α, .β] ps) r := by
  simp only [active4p2hAbab, mem_forRange, mem_ite_nil, mem_ite_nil', List.mem_singleton, Allowed,
    ordered4, ordered2, activeHoles, activeParticles, activeHoles_eq, activeParticles_eq, hasSymmetry_iff]
  constructor
  · rintro ⟨a, ha', b, hb', c, hc', d, hd', h1, k, hk', l, hl', h3, rfl⟩
    refine ⟨[a, b, c, d], [k, l], rfl, ⟨a, b, c, d, rfl, ?_⟩, ⟨k, l, rfl, ?_⟩, ?_, ?_⟩
    · simp; omega
    · simp; omega
    · simp [countOccA, countOccB, countUnoccA, countUnoccB] at h1 ⊢; omega
    · cases t <;> simp [check4p2hAbab, excitationIrrep, Nat.xor_assoc] at h3 ⊢; exact h3
  · rintro ⟨_, _, rfl, ⟨a, b, c, d, rfl, hp⟩, ⟨k, l, rfl, hh⟩, h12, h3⟩
    simp at hp hh
    refine ⟨a, by omega, b, by omega, c, by omega, d, by omega, ?_, k, by omega, l, by omega, ?_, rfl⟩
    · simp [countOccA, countOccB, countUnoccA, countUnoccB] at h12 ⊢; omega
    · cases t <;> simp [check4p2hAbab, excitationIrrep, Nat.xor_assoc] at h3 ⊢; exact h3

theorem nodup_active4p2hAbab (s : Sys) (num : ℕ) (t : Option ℕ) : (active4p2hAbab s num t).Nodup := by
  unfold active4p2hAbab
  refine nodup_forRange_key _ _ _ 0 (fun a => ?_) ?_
  rotate_left
  · intro a x hx
    simp only [mem_forRange, mem_ite_nil, mem_ite_nil', List.mem_singleton] at hx
    obtain ⟨b, _, c, _, d, _, _, k, _, l, _, _, rfl⟩ := hx
    rfl
  refine nodup_forRange_key _ _ _ 1 (fun b => ?_) ?_
  rotate_left
  · intro b x hx
    simp only [mem_forRange, mem_ite_nil, mem_ite_nil', List.mem_singleton] at hx
    obtain ⟨c, _, d, _, _, k, _, l, _, _, rfl⟩ := hx
    rfl
  refine nodup_forRange_key _ _ _ 2 (fun c => ?_) ?_
  rotate_left
  · intro c x hx
    simp only [mem_forRange, mem_ite_nil, mem_ite_nil', List.mem_singleton] at hx
    obtain ⟨d, _, _, k, _, l, _, _, rfl⟩ := hx
    rfl
  refine nodup_forRange_key _ _ _ 3 (fun d => ?_) ?_
  rotate_left
  · intro d x hx
    simp only [mem_forRange, mem_ite_nil, mem_ite_nil', List.mem_singleton] at hx
    obtain ⟨_, k, _, l, _, _, rfl⟩ := hx
    rfl
  refine nodup_ite_nil _ _ ?_
  refine nodup_forRange_key _ _ _ 4 (fun k => ?_) ?_
  rotate_left
  · intro k x hx
    simp only [mem_forRange, mem_ite_nil, mem_ite_nil', List.mem_singleton] at hx
    obtain ⟨l, _, _, rfl⟩ := hx
    rfl
  refine nodup_forRange_key _ _ _ 5 (fun l => ?_) ?_
  rotate_left
  · intro l x hx
    simp only [mem_forRange, mem_ite_nil, mem_ite_nil', List.mem_singleton] at hx
    obtain ⟨_, rfl⟩ := hx
    rfl
  exact nodup_ite_nil _ _ (List.nodup_singleton _)

theorem mem_active4p2hAbbb (s : Sys) (num : ℕ) (t : Option ℕ) (r : List ℕ) :
    r ∈ active4p2hAbbb s num t ↔ Allowed s t [.α, .β, .β, .β] [.β, .β] (fun ps hs =>
      num ≤ activeParticles s.space [.α, .β, .β, .β] ps) r := by
  simp only [active4p2hAbbb, mem_forRange, mem_ite_nil, mem_ite_nil', List.mem_singleton, Allowed,
    ordered4, ordered2, activeHoles, activeParticles, activeHoles_eq, activeParticles_eq, hasSymmetry_iff]
  constructor
  · rintro ⟨a, ha', b, hb', c, hc', d, hd', h1, k, hk', l, hl', h3, rfl⟩
    refine ⟨[a, b, c, d], [k, l], rfl, ⟨a, b, c, d, rfl, ?_⟩, ⟨k, l, rfl, ?_⟩, ?_, ?_⟩
    · simp; omega
    · simp; omega
    · simp [countOccA, countOccB, countUnoccA, countUnoccB] at h1 ⊢; omega
    · cases t <;> simp [check4p2hAbbb, excitationIrrep, Nat.xor_assoc] at h3 ⊢; exact h3
  · rintro ⟨_, _, rfl, ⟨a, b, c, d, rfl, hp⟩, ⟨k, l, rfl, hh⟩, h12, h3⟩
    simp at hp hh
    refine ⟨a, by omega, b, by omega, c, by omega, d, by omega, ?_, k, by omega, l, by omega, ?_, rfl⟩
    · simp [countOccA, countOccB, countUnoccA, countUnoccB] at h12 ⊢; omega
    · cases t <;> simp [check4p2hAbbb, excitationIrrep, Nat.xor_assoc] at h3 ⊢; exact h3

theorem nodup_active4p2hAbbb (s : Sys) (num : ℕ) (t : Option ℕ) : (active4p2hAbbb s num t).Nodup := by
  unfold active4p2hAbbb
  refine nodup_forRange_key _ _ _ 0 (fun a => ?_) ?_
  rotate_left
  · intro a x hx
    simp only [mem_forRange, mem_ite_nil, mem_ite_nil', List.mem_singleton] at hx
    obtain ⟨b, _, c, _, d, _, _, k, _, l, _, _, rfl⟩ := hx
    rfl
  refine nodup_forRange_key _ _ _ 1 (fun b => ?_) ?_
  rotate_left
  · intro b x hx
    simp only [mem_forRange, mem_ite_nil, mem_ite_nil', List.mem_singleton] at hx
    obtain ⟨c, _, d, _, _, k, _, l, _, _, rfl⟩ := hx
    rfl
  refine nodup_forRange_key _ _ _ 2 (fun c => ?_) ?_
  rotate_left
  · intro c x hx
    simp only [mem_forRange, mem_ite_nil, mem_ite_nil', List.mem_singleton] at hx
    obtain ⟨d, _, _, k, _, l, _, _, rfl⟩ := hx
    rfl
  refine nodup_forRange_key _ _ _ 3 (fun d => ?_) ?_
  rotate_left
  · intro d x hx
    simp only [mem_forRange, mem_ite_nil, mem_ite_nil', List.mem_singleton] at hx
    obtain ⟨_, k, _, l, _, _, rfl⟩ := hx
    rfl
  refine nodup_ite_nil _ _ ?_
  refine nodup_forRange_key _ _ _ 4 (fun k => ?_) ?_
  rotate_left
  · intro k x hx
    simp only [mem_forRange, mem_ite_nil, mem_ite_nil', List.mem_singleton] at hx
    obtain ⟨l, _, _, rfl⟩ := hx
    rfl
  refine nodup_forRange_key _ _ _ 5 (fun l => ?_) ?_
  rotate_left
  · intro l x hx
    simp only [mem_forRange, mem_ite_nil, mem_ite_nil', List.mem_singleton] at hx
    obtain ⟨_, rfl⟩ := hx
    rfl
  exact nodup_ite_nil _ _ (List.nodup_singleton _)

theorem exists_equal (spins : List Spin) (h : 3 ≤ spins.length) :
    ∃ (p q : ℕ) (σ : Spin), p < q ∧ spins[p]? = some σ ∧ spins[q]? = some σ := by
  match spins, h with
  | x :: y :: z :: l, _ =>
    by_cases h1 : x = y
    · exact ⟨0, 1, x, by omega, rfl, by simp [h1]⟩
    by_cases h2 : x = z
    · exact ⟨0, 2, x, by omega, rfl, by simp [h2]⟩
    refine ⟨1, 2, y, by omega, rfl, ?_⟩
    have : y = z := by cases x <;> cases y <;> cases z <;> simp_all
    simp [this]

/-- Three or more ordered indices cannot all be 0. -/
theorem ordered_ne_zero (n : Spin → ℕ) (spins : List Spin) (xs : List ℕ) (h3 : 3 ≤ spins.length)
    (h : OrderedIndices n spins xs) : ∃ x ∈ xs, x ≠ 0 := by
  obtain ⟨p, q, σ, hpq, hp, hq⟩ := exists_equal spins h3
  obtain ⟨hlen, _, hs⟩ := h
  obtain ⟨hp1, hp2⟩ := List.getElem?_eq_some_iff.mp hp
  obtain ⟨hq1, hq2⟩ := List.getElem?_eq_some_iff.mp hq
  rw [List.pairwise_iff_getElem] at hs
  have := hs p q (by simp; omega) (by simp; omega) hpq
  simp only [List.getElem_zip, hp2, hq2, true_implies] at this
  exact ⟨xs[q], List.getElem_mem _, by omega⟩

/-- The placeholder row is not an excitation row when there are at least three particles or at
least three holes. -/
theorem ones_not_excitation (S : Space) (p h : List Spin) (hlen : 3 ≤ p.length ∨ 3 ≤ h.length)
    (w : ℕ) : ¬ IsExcitationRow S p h (List.replicate w 1) := by
  rintro ⟨ps, hs, hr, hp, hh⟩
  have hall : ∀ x ∈ ps ++ hs, x = 0 := by
    intro x hx
    have : x + 1 ∈ List.replicate w 1 := by
      rw [hr, row]
      exact List.mem_map_of_mem hx
    have := List.eq_of_mem_replicate this
    omega
  rcases hlen with h3 | h3
  · obtain ⟨x, hx, hx0⟩ := ordered_ne_zero _ _ _ h3 hp
    exact hx0 (hall x (List.mem_append_left _ hx))
  · obtain ⟨x, hx, hx0⟩ := ordered_ne_zero _ _ _ h3 hh
    exact hx0 (hall x (List.mem_append_right _ hx))

theorem Allowed.isRow {s : Sys} {t : Option ℕ} {p h : List Spin} {cond} {r : List ℕ}
    (ha : Allowed s t p h cond r) : IsExcitationRow s.space p h r := by
  obtain ⟨ps, hs, h1, h2, h3, -, -⟩ := ha
  exact ⟨ps, hs, h1, h2, h3⟩

/-- Decoding a converted list gives the list back if the placeholder is not one of its rows. -/
theorem realRows_finalize (w : ℕ) (l : List (List ℕ)) (h : List.replicate w 1 ∉ l) :
    realRows w (finalize w l) = l := by
  unfold realRows finalize
  by_cases hl : l = []
  · simp [hl]
  · rw [if_neg hl, if_neg]
    intro hh
    obtain ⟨x, l', rfl⟩ := List.exists_cons_of_ne_nil hl
    simp at hh
    exact h (by rw [hh]; exact List.mem_cons_self)

theorem finalize_ne_nil (w : ℕ) (l : List (List ℕ)) : finalize w l ≠ [] := by
  unfold finalize
  split <;> simp_all

theorem finalize_head (w : ℕ) (l : List (List ℕ)) (h : List.replicate w 1 ∉ l) :
    (finalize w l).head? = some (List.replicate w 1) ↔ l = [] := by
  unfold finalize
  by_cases hl : l = []
  · simp [hl]
  · obtain ⟨x, l', rfl⟩ := List.exists_cons_of_ne_nil hl
    simp only [reduceCtorEq, if_false, List.head?_cons, Option.some.injEq, iff_false]
    rintro rfl
    exact h List.mem_cons_self

/-- The general shape of the results: a raw list with known members and without duplicates. -/
theorem list_result (w : ℕ) (l : List (List ℕ)) (P : List ℕ → Prop) (hm : ∀ r, r ∈ l ↔ P r)
    (hn : l.Nodup) (h1 : ¬ P (List.replicate w 1)) :
    (∀ r, r ∈ realRows w (finalize w l) ↔ P r) ∧ (realRows w (finalize w l)).Nodup ∧
    finalize w l ≠ [] ∧
    ((finalize w l).head? = some (List.replicate w 1) ↔ ¬ ∃ r, P r) := by
  have h0 : List.replicate w 1 ∉ l := fun h => h1 ((hm _).mp h)
  rw [realRows_finalize w l h0, finalize_head w l h0]
  refine ⟨hm, hn, finalize_ne_nil w l, ?_⟩
  rw [List.eq_nil_iff_forall_not_mem]
  simp [hm]

theorem mem_activePraw (s : Sys) (num : ℕ) (t : Option ℕ) (c : Case) (r : List ℕ) :
    r ∈ activePraw s num t c ↔ Allowed s t c.spins c.spins (fun ps hs =>
      num ≤ activeHoles s.space c.spins hs ∧ num ≤ activeParticles s.space c.spins ps) r := by
  cases c
  · exact mem_activePAaa ..
  · exact mem_activePAab ..
  · exact mem_activePAbb ..
  · exact mem_activePBbb ..

theorem nodup_activePraw (s : Sys) (num : ℕ) (t : Option ℕ) (c : Case) :
    (activePraw s num t c).Nodup := by
  cases c
  · exact nodup_activePAaa ..
  · exact nodup_activePAab ..
  · exact nodup_activePAbb ..
  · exact nodup_activePBbb ..

theorem mem_activeQraw (s : Sys) (num : ℕ) (t : Option ℕ) (c : Case) (r : List ℕ) :
    r ∈ activeQraw s num t c ↔ Allowed s t c.spins c.spins (fun ps hs =>
      ¬ (num ≤ activeHoles s.space c.spins hs ∧ num ≤ activeParticles s.space c.spins ps)) r := by
  cases c
  · exact mem_activeQAaa ..
  · exact mem_activeQAab ..
  · exact mem_activeQAbb ..
  · exact mem_activeQBbb ..

theorem nodup_activeQraw (s : Sys) (num : ℕ) (t : Option ℕ) (c : Case) :
    (activeQraw s num t c).Nodup := by
  cases c
  · exact nodup_activeQAaa ..
  · exact nodup_activeQAab ..
  · exact nodup_activeQAbb ..
  · exact nodup_activeQBbb ..

theorem mem_generalQraw (s : Sys) (o : List ℕ → Bool) (t : Option ℕ) (c : Case) (r : List ℕ) :
    r ∈ generalQraw s o t c ↔ Allowed s t c.spins c.spins (fun ps hs => o (ps ++ hs) = true) r := by
  cases c
  · exact mem_generalQAaa ..
  · exact mem_generalQAab ..
  · exact mem_generalQAbb ..
  · exact mem_generalQBbb ..

theorem nodup_generalQraw (s : Sys) (o : List ℕ → Bool) (t : Option ℕ) (c : Case) :
    (generalQraw s o t c).Nodup := by
  cases c
  · exact nodup_generalQAaa ..
  · exact nodup_generalQAab ..
  · exact nodup_generalQAbb ..
  · exact nodup_generalQBbb ..

theorem spins_length (c : Case) : c.spins.length = 3 := by cases c <;> rfl

/-- A row that stands for an ordered triple addresses the cell of that triple. -/
theorem rowIndex_row (s : Sys) (c : Case) (ps hs : List ℕ)
    (hp : OrderedIndices s.space.unocc c.spins ps) (hh : OrderedIndices s.space.occ c.spins hs) :
    rowIndex (shape s c) (row ps hs) = some (ps ++ hs) := by
  have w : ∀ n x : ℕ, x < n → wrapIndex n (x + 1) = some x := by
    intro n x h
    simp [wrapIndex, h]
  cases c <;>
  · simp only [Case.spins, ordered3] at hp hh
    obtain ⟨a, b, c, rfl, h1, h2, h3, -⟩ := hp
    obtain ⟨i, j, k, rfl, h4, h5, h6, -⟩ := hh
    simp only [space_occ_a, space_occ_b, space_unocc_a, space_unocc_b] at h1 h2 h3 h4 h5 h6
    simp [rowIndex, row, shape, w, h1, h2, h3, h4, h5, h6]

theorem row_injective {ps hs ps' hs' : List ℕ} (h : row ps hs = row ps' hs')
    : ps ++ hs = ps' ++ hs' := by
  unfold row at h
  exact List.map_injective_iff.mpr (fun a b h => by simpa using h) h

theorem mapM_rowIndex (s : Sys) (c : Case) (p : List (List ℕ))
    (h : ∀ r ∈ p, IsExcitationRow s.space c.spins c.spins r) :
    p.mapM (rowIndex (shape s c)) = some (p.map (List.map (· - 1))) := by
  induction p with
  | nil => rfl
  | cons r p ih =>
    obtain ⟨ps, hs, rfl, hp, hh⟩ := h r List.mem_cons_self
    rw [List.mapM_cons, rowIndex_row s c ps hs hp hh, ih fun r hr => h r (List.mem_cons_of_mem _ hr)]
    simp [row, Function.comp_def]

/-- The cells excluded by a well-formed list are those of its excitations. -/
theorem excludedCells_spec (s : Sys) (c : Case) (p : List (List ℕ))
    (h : ∀ r ∈ realRows 6 p, IsExcitationRow s.space c.spins c.spins r) :
    excludedCells (shape s c) p = some ((realRows 6 p).map (List.map (· - 1))) := by
  unfold excludedCells realRows at *
  split
  · rfl
  · rename_i hh
    rw [if_neg hh] at h
    exact mapM_rowIndex s c p h

theorem mem_cells (s : Sys) (c : Case) (l : List (List ℕ)) (ps hs : List ℕ)
    (h : ∀ r ∈ l, IsExcitationRow s.space c.spins c.spins r) :
    ps ++ hs ∈ l.map (List.map (· - 1)) ↔ row ps hs ∈ l := by
  simp only [List.mem_map]
  constructor
  · rintro ⟨r, hr, he⟩
    obtain ⟨ps', hs', rfl, -, -⟩ := h r hr
    have : ps' ++ hs' = ps ++ hs := by
      rw [← he]
      simp [row, Function.comp_def]
    rw [show row ps hs = row ps' hs' by simp only [row, this]]
    exact hr
  · intro hr
    exact ⟨_, hr, by simp [row, Function.comp_def]⟩

end Ccpy.Excitations
