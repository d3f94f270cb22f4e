import Verif.Model.Hilbert
import Verif.Lemmas.ExcitedDeterminants
import Mathlib.Data.List.Sort
import Mathlib.Tactic.FieldSimp

/-! The determinants of the program as determinants of the Fock space. -/

namespace Ccpy.Hilbert

open Ccpy.Fock (sgn Ordered exciteWith)

/-- What the constructor guarantees. -/
structure Wf (d : Det) : Prop where
  sortA : d.occA.Pairwise (· < ·)
  sortB : d.occB.Pairwise (· < ·)
  sort : d.occupation.Pairwise (· < ·)
  odd : ∀ i, 2 * i + 1 ∈ d.occupation ↔ i ∈ d.occA
  even : ∀ i, 2 * i + 2 ∈ d.occupation ↔ i ∈ d.occB
  pos : 0 ∉ d.occupation

theorem mem_sorted (l : List ℕ) (x : ℕ) : x ∈ sorted l ↔ x ∈ l := by unfold sorted; exact List.mem_insertionSort _

theorem pairwise_sorted (l : List ℕ) (h : l.Nodup) : (sorted l).Pairwise (· < ·) := by
  have h1 : (sorted l).Pairwise (· ≤ ·) := List.pairwise_insertionSort _ _
  have h2 : (sorted l).Nodup := (List.perm_insertionSort _ _).nodup_iff.2 h
  exact (h1.and h2).imp (by intro a b h; omega)

theorem length_sorted (l : List ℕ) : (sorted l).length = l.length := (List.perm_insertionSort _ _).length_eq

theorem wf_determinant {na nb : ℕ} {a b : List ℕ} {d : Det} (h : determinant na nb a b = .ok d) (ha : a.Nodup) (hb : b.Nodup)
    (ha0 : 0 ∉ a) (hb0 : 0 ∉ b) :
    Wf d ∧ (∀ i, i ∈ d.occA ↔ i + 1 ∈ a) ∧ (∀ i, i ∈ d.occB ↔ i + 1 ∈ b) ∧ d.occA.length = na ∧ d.occB.length = nb := by
  unfold determinant at h
  split at h
  swap
  · exact absurd h (by simp)
  rename_i hlen
  have h := Except.ok.inj h
  subst h
  have hA : ∀ i, i ∈ a.map (· - 1) ↔ i + 1 ∈ a := by
    intro i
    rw [List.mem_map]
    constructor
    · rintro ⟨x, hx, rfl⟩
      have : x ≠ 0 := fun e => ha0 (e ▸ hx)
      rwa [Nat.sub_add_cancel (by omega)]
    · intro hx; exact ⟨i + 1, hx, by omega⟩
  have hB : ∀ i, i ∈ b.map (· - 1) ↔ i + 1 ∈ b := by
    intro i
    rw [List.mem_map]
    constructor
    · rintro ⟨x, hx, rfl⟩
      have : x ≠ 0 := fun e => hb0 (e ▸ hx)
      rwa [Nat.sub_add_cancel (by omega)]
    · intro hx; exact ⟨i + 1, hx, by omega⟩
  have hnA : (a.map (· - 1)).Nodup := by
    refine List.Nodup.map_on ?_ ha
    intro x hx y hy hxy
    have : x ≠ 0 := fun e => ha0 (e ▸ hx)
    have : y ≠ 0 := fun e => ha0 (e ▸ hy)
    omega
  have hnB : (b.map (· - 1)).Nodup := by
    refine List.Nodup.map_on ?_ hb
    intro x hx y hy hxy
    have : x ≠ 0 := fun e => hb0 (e ▸ hx)
    have : y ≠ 0 := fun e => hb0 (e ▸ hy)
    omega
  have hnO : (a.map (fun i => 2 * i - 1) ++ b.map (fun i => 2 * i)).Nodup := by
    refine List.Nodup.append ?_ ?_ ?_
    · refine List.Nodup.map_on ?_ ha
      intro x hx y hy hxy
      have : x ≠ 0 := fun e => ha0 (e ▸ hx)
      have : y ≠ 0 := fun e => ha0 (e ▸ hy)
      omega
    · exact List.Nodup.map_on (by intro x _ y _ h; omega) hb
    · intro z hz1 hz2
      obtain ⟨x, hx, rfl⟩ := List.mem_map.1 hz1
      obtain ⟨y, hy, hxy⟩ := List.mem_map.1 hz2
      have : x ≠ 0 := fun e => ha0 (e ▸ hx)
      omega
  refine ⟨⟨pairwise_sorted _ hnA, pairwise_sorted _ hnB, pairwise_sorted _ hnO, ?_, ?_, ?_⟩, ?_, ?_, ?_, ?_⟩
  · intro i
    simp only [mem_sorted, List.mem_append, hA, List.mem_map]
    constructor
    · rintro (⟨x, hx, e⟩ | ⟨x, hx, e⟩)
      · rwa [show i + 1 = x by omega]
      · omega
    · intro hx; exact Or.inl ⟨i + 1, hx, by omega⟩
  · intro i
    simp only [mem_sorted, List.mem_append, hB, List.mem_map]
    constructor
    · rintro (⟨x, hx, e⟩ | ⟨x, hx, e⟩)
      · omega
      · rwa [show i + 1 = x by omega]
    · intro hx; exact Or.inr ⟨i + 1, hx, by omega⟩
  · simp only [mem_sorted, List.mem_append, List.mem_map, not_or, not_exists, not_and]
    refine ⟨fun x hx e => ?_, fun x hx e => ?_⟩
    · have : x ≠ 0 := fun e => ha0 (e ▸ hx)
      omega
    · exact hb0 (by rwa [show x = 0 by omega] at hx)
  · intro i; simp only [mem_sorted, hA]
  · intro i; simp only [mem_sorted, hB]
  · simp [length_sorted, hlen.1]
  · simp [length_sorted, hlen.2]

/-- The alpha and the beta orbitals of a list of spin orbitals, from zero. -/
def alphas (l : List ℕ) : List ℕ := ((l.filter (· % 2 = 1)).map spatial).map (· - 1)
def betas (l : List ℕ) : List ℕ := ((l.filter (· % 2 = 0)).map spatial).map (· - 1)

theorem spatial_odd {p : ℕ} (h : p % 2 = 1) : spatial p - 1 = p / 2 := by unfold spatial; rw [if_pos h]; omega
theorem spatial_even {p : ℕ} (h : p % 2 = 0) : spatial p - 1 = p / 2 - 1 := by unfold spatial; rw [if_neg (by omega)]

/-- The sign collected for a list of orbitals with `k` found before. -/
def weight (occ : List ℕ) : List ℕ → ℕ → ℚ
  | [], _ => 1
  | x :: l, k => (-1) ^ (occ.length - occ.idxOf x + 1 + k) * weight occ l (k + 1)

theorem scan_eq (d : Det) (other l : List ℕ) : ∀ n ka kb,
    (scan d other l n ka kb).1 = l.filter (· ∉ other) ∧
    (scan d other l n ka kb).2.2.1 = ka + (alphas (l.filter (· ∉ other))).length ∧
    (scan d other l n ka kb).2.2.2 = kb + (betas (l.filter (· ∉ other))).length ∧
    (-1 : ℚ) ^ (scan d other l n ka kb).2.1 =
      (-1) ^ n * weight d.occA (alphas (l.filter (· ∉ other))) ka * weight d.occB (betas (l.filter (· ∉ other))) kb := by
  induction l with
  | nil => intro n ka kb; simp [scan, alphas, betas, weight]
  | cons p l ih =>
    intro n ka kb
    by_cases hp : p ∈ other
    · have hf : (p :: l).filter (· ∉ other) = l.filter (· ∉ other) := by simp [hp]
      rw [hf]
      simp only [scan, if_pos hp]
      exact ih n ka kb
    · have hf : (p :: l).filter (· ∉ other) = p :: l.filter (· ∉ other) := by simp [hp]
      rw [hf]
      simp only [scan, if_neg hp]
      by_cases h0 : p % 2 = 0
      · have h1 : alphas (p :: l.filter (· ∉ other)) = alphas (l.filter (· ∉ other)) := by simp [alphas, h0]
        have h2 : betas (p :: l.filter (· ∉ other)) = (spatial p - 1) :: betas (l.filter (· ∉ other)) := by simp [betas, h0]
        rw [if_pos h0, h1, h2]
        obtain ⟨i1, i2, i3, i4⟩ := ih (n + (d.occB.length - d.occB.idxOf (spatial p - 1) + 1 + kb)) ka (kb + 1)
        refine ⟨by rw [i1], i2, by rw [i3, List.length_cons]; omega, ?_⟩
        rw [i4, weight, pow_add]
        ring
      · have h0' : p % 2 = 1 := by omega
        have h1 : betas (p :: l.filter (· ∉ other)) = betas (l.filter (· ∉ other)) := by simp [betas, h0']
        have h2 : alphas (p :: l.filter (· ∉ other)) = (spatial p - 1) :: alphas (l.filter (· ∉ other)) := by simp [alphas, h0']
        rw [if_neg h0, h1, h2]
        obtain ⟨i1, i2, i3, i4⟩ := ih (n + (d.occA.length - d.occA.idxOf (spatial p - 1) + 1 + ka)) (ka + 1) kb
        refine ⟨by rw [i1], by rw [i2, List.length_cons]; omega, i3, ?_⟩
        rw [i4, weight, pow_add]
        ring

/-- `(-1)` to the positions of the orbitals of `l` in `occ`. -/
def places (occ l : List ℕ) : ℚ := (l.map fun x => (-1 : ℚ) ^ occ.idxOf x).prod

theorem neg_one_pow_sq (n : ℕ) : ((-1 : ℚ) ^ n) * (-1) ^ n = 1 := by rw [← mul_pow]; simp

theorem weight_pair (occ occ' : List ℕ) (hlen : occ.length = occ'.length) : ∀ (l l' : List ℕ) (k : ℕ), l.length = l'.length →
    (∀ x ∈ l, x ∈ occ) → (∀ x ∈ l', x ∈ occ') → weight occ l k * weight occ' l' k = places occ l * places occ' l' := by
  intro l
  induction l with
  | nil =>
    intro l' k h _ _
    rw [List.length_nil] at h
    rw [List.length_eq_zero_iff.1 h.symm]
    simp [weight, places]
  | cons x l ih =>
    intro l' k h hx hx'
    cases l' with
    | nil => simp at h
    | cons y l' =>
      have hl := ih l' (k + 1) (by simpa using h) (fun z hz => hx z (by simp [hz])) (fun z hz => hx' z (by simp [hz]))
      have e : ∀ (o : List ℕ) (z : ℕ), z ∈ o → (-1 : ℚ) ^ (o.length - o.idxOf z + 1 + k) = (-1) ^ (o.length + 1 + k) * (-1) ^ o.idxOf z := by
        intro o z hz
        have : o.idxOf z < o.length := List.idxOf_lt_length_iff.2 hz
        have h1 : o.length + 1 + k = (o.length - o.idxOf z + 1 + k) + o.idxOf z := by omega
        rw [h1, pow_add _ _ (o.idxOf z), mul_assoc, neg_one_pow_sq, mul_one]
      simp only [weight]
      rw [e occ x (hx x (by simp)), e occ' y (hx' y (by simp)), ← hlen]
      have hsq := neg_one_pow_sq (occ.length + 1 + k)
      simp only [places, List.map_cons, List.prod_cons] at hl ⊢
      linear_combination ((-1) ^ occ.idxOf x * (-1) ^ occ'.idxOf y * (weight occ l (k + 1) * weight occ' l' (k + 1))) * hsq +
        ((-1) ^ occ.idxOf x * (-1) ^ occ'.idxOf y) * hl

theorem eq_of_mem_iff {l m : List ℕ} (hl : l.Pairwise (· < ·)) (hm : m.Pairwise (· < ·)) (h : ∀ x, x ∈ l ↔ x ∈ m) : l = m := by
  have hp : l.Perm m := (List.perm_ext_iff_of_nodup (hl.imp (fun h => h.ne)) (hm.imp (fun h => h.ne))).2 h
  exact hp.eq_of_pairwise (fun a b _ _ h1 h2 => absurd (lt_trans h1 h2) (lt_irrefl _)) hl hm

theorem alphas_eq {d e : Det} (hd : Wf d) (he : Wf e) :
    alphas (d.occupation.filter (· ∉ e.occupation)) = d.occA.filter (· ∉ e.occA) := by
  apply eq_of_mem_iff
  · unfold alphas
    rw [List.pairwise_map, List.pairwise_map]
    have h1 := (hd.sort.filter (· ∉ e.occupation)).filter (· % 2 = 1)
    refine List.Pairwise.imp_of_mem ?_ h1
    intro a b ha hb hab
    have ha' : a % 2 = 1 := by simpa using (List.mem_filter.1 ha).2
    have hb' : b % 2 = 1 := by simpa using (List.mem_filter.1 hb).2
    rw [spatial_odd ha', spatial_odd hb']
    omega
  · exact hd.sortA.filter _
  · intro x
    simp only [alphas, List.mem_map, List.mem_filter, decide_eq_true_eq]
    constructor
    · rintro ⟨_, ⟨p, ⟨⟨hp1, hp2⟩, hp3⟩, rfl⟩, rfl⟩
      rw [spatial_odd hp3]
      have e1 : p = 2 * (p / 2) + 1 := by omega
      rw [e1, hd.odd] at hp1
      rw [e1, he.odd] at hp2
      exact ⟨hp1, hp2⟩
    · rintro ⟨h1, h2⟩
      refine ⟨_, ⟨2 * x + 1, ⟨⟨(hd.odd x).2 h1, fun h => h2 ((he.odd x).1 h)⟩, by omega⟩, rfl⟩, ?_⟩
      rw [spatial_odd (by omega)]; omega

theorem betas_eq {d e : Det} (hd : Wf d) (he : Wf e) :
    betas (d.occupation.filter (· ∉ e.occupation)) = d.occB.filter (· ∉ e.occB) := by
  apply eq_of_mem_iff
  · unfold betas
    rw [List.pairwise_map, List.pairwise_map]
    have h1 := (hd.sort.filter (· ∉ e.occupation)).filter (· % 2 = 0)
    refine List.Pairwise.imp_of_mem ?_ h1
    intro a b ha hb hab
    have ha' : a % 2 = 0 := by simpa using (List.mem_filter.1 ha).2
    have hb' : b % 2 = 0 := by simpa using (List.mem_filter.1 hb).2
    have ha0 : a ≠ 0 := fun e => hd.pos (e ▸ (List.mem_filter.1 (List.mem_filter.1 ha).1).1)
    rw [spatial_even ha', spatial_even hb']
    omega
  · exact hd.sortB.filter _
  · intro x
    simp only [betas, List.mem_map, List.mem_filter, decide_eq_true_eq]
    constructor
    · rintro ⟨_, ⟨p, ⟨⟨hp1, hp2⟩, hp3⟩, rfl⟩, rfl⟩
      rw [spatial_even hp3]
      have hp0 : p ≠ 0 := fun e => hd.pos (e ▸ hp1)
      have e1 : p = 2 * (p / 2 - 1) + 2 := by omega
      rw [e1, hd.even] at hp1
      rw [e1, he.even] at hp2
      exact ⟨hp1, hp2⟩
    · rintro ⟨h1, h2⟩
      refine ⟨_, ⟨2 * x + 2, ⟨⟨(hd.even x).2 h1, fun h => h2 ((he.even x).1 h)⟩, by omega⟩, rfl⟩, ?_⟩
      rw [spatial_even (by omega)]; omega

theorem length_filter_comm {l m : List ℕ} (hl : l.Nodup) (hm : m.Nodup) (h : l.length = m.length) :
    (l.filter (· ∉ m)).length = (m.filter (· ∉ l)).length := by
  have e : ∀ {l m : List ℕ}, l.Nodup → (l.filter (· ∉ m)).length = (l.toFinset \ m.toFinset).card := by
    intro l m hl
    rw [← List.toFinset_card_of_nodup (hl.filter _)]
    congr 1
    ext x
    simp
  rw [e hl, e hm]
  apply Finset.card_sdiff_comm
  rw [List.toFinset_card_of_nodup hl, List.toFinset_card_of_nodup hm, h]

/-- What `get_excitation` returns. -/
theorem getExcitation_eq {d e : Det} (hd : Wf d) (he : Wf e) (hA : d.occA.length = e.occA.length)
    (hB : d.occB.length = e.occB.length) :
    getExcitation d e = .ok ⟨d.occA.filter (· ∉ e.occA), e.occA.filter (· ∉ d.occA), d.occB.filter (· ∉ e.occB),
      e.occB.filter (· ∉ d.occB),
      places d.occA (d.occA.filter (· ∉ e.occA)) * places e.occA (e.occA.filter (· ∉ d.occA)) *
      (places d.occB (d.occB.filter (· ∉ e.occB)) * places e.occB (e.occB.filter (· ∉ d.occB)))⟩ := by
  have nA : d.occA.Nodup := hd.sortA.imp fun h => h.ne
  have nB : d.occB.Nodup := hd.sortB.imp fun h => h.ne
  have nA' : e.occA.Nodup := he.sortA.imp fun h => h.ne
  have nB' : e.occB.Nodup := he.sortB.imp fun h => h.ne
  have lA := length_filter_comm nA nA' hA
  have lB := length_filter_comm nB nB' hB
  obtain ⟨a1, a2, a3, a4⟩ := scan_eq d e.occupation d.occupation 0 0 0
  obtain ⟨b1, b2, b3, b4⟩ := scan_eq e d.occupation e.occupation (scan d e.occupation d.occupation 0 0 0).2.1 0 0
  rw [alphas_eq hd he, betas_eq hd he] at a4
  rw [alphas_eq he hd, betas_eq he hd, a4] at b4
  rw [alphas_eq hd he] at a2
  rw [betas_eq hd he] at a3
  rw [alphas_eq he hd] at b2
  rw [betas_eq he hd] at b3
  unfold getExcitation
  dsimp only
  rw [if_pos ⟨by rw [a2, b2, lA], by rw [a3, b3, lB]⟩, b4, a1, b1]
  have hl1 := congrArg List.length (alphas_eq hd he)
  have hl2 := congrArg List.length (alphas_eq he hd)
  have hl3 := congrArg List.length (betas_eq hd he)
  have hl4 := congrArg List.length (betas_eq he hd)
  unfold alphas at hl1 hl2
  unfold betas at hl3 hl4
  rw [List.length_map] at hl1 hl2 hl3 hl4
  unfold excitation
  rw [if_pos ⟨by rw [hl1, hl2, lA], by rw [hl3, hl4, lB]⟩]
  have c1 := alphas_eq hd he
  have c2 := alphas_eq he hd
  have c3 := betas_eq hd he
  have c4 := betas_eq he hd
  unfold alphas at c1 c2
  unfold betas at c3 c4
  rw [c1, c2, c3, c4]
  congr 2
  have w1 := weight_pair d.occA e.occA hA _ _ 0 lA (fun x hx => (List.mem_filter.1 hx).1) (fun x hx => (List.mem_filter.1 hx).1)
  have w2 := weight_pair d.occB e.occB hB _ _ 0 lB (fun x hx => (List.mem_filter.1 hx).1) (fun x hx => (List.mem_filter.1 hx).1)
  rw [← w1, ← w2]
  ring

/-! ### The Fock space -/

variable {ι : Type*} [LinearOrder ι]

/-- The occupied spin orbitals. -/
abbrev Det.set (up down : ℕ → ι) (d : Det) : Finset ι := Fock.occupiedBy up down d.occA d.occB

variable {up down : ℕ → ι} (O : Ordered up down)

include O in
theorem up_mem_set (d : Det) (i : ℕ) : up i ∈ d.set up down ↔ i ∈ d.occA := by
  unfold Det.set Fock.occupiedBy
  simp only [Finset.mem_union, Finset.mem_image, List.mem_toFinset]
  constructor
  · rintro (⟨j, hj, e⟩ | ⟨j, hj, e⟩)
    · rwa [← O.monoUp.injective e]
    · exact absurd e (O.lt i j).ne'
  · intro h; exact Or.inl ⟨i, h, rfl⟩

include O in
theorem down_mem_set (d : Det) (i : ℕ) : down i ∈ d.set up down ↔ i ∈ d.occB := by
  unfold Det.set Fock.occupiedBy
  simp only [Finset.mem_union, Finset.mem_image, List.mem_toFinset]
  constructor
  · rintro (⟨j, hj, e⟩ | ⟨j, hj, e⟩)
    · exact absurd e (O.lt j i).ne
    · rwa [← O.monoDown.injective e]
  · intro h; exact Or.inr ⟨i, h, rfl⟩

theorem card_before {l : List ℕ} (h : l.Pairwise (· < ·)) {a : ℕ} (ha : a ∈ l) : (l.toFinset.filter (· < a)).card = l.idxOf a := by
  induction l with
  | nil => simp at ha
  | cons x l ih =>
    rw [List.pairwise_cons] at h
    rw [List.toFinset_cons, Finset.filter_insert]
    by_cases hx : x = a
    · subst hx
      rw [if_neg (lt_irrefl _), List.idxOf_cons_self, Finset.card_eq_zero, Finset.filter_eq_empty_iff]
      intro y hy
      have := h.1 y (List.mem_toFinset.1 hy)
      omega
    · have ha' : a ∈ l := by simpa [Ne.symm hx] using ha
      rw [if_pos (h.1 a ha'), List.idxOf_cons_ne _ hx, Finset.card_insert_of_notMem, ih h.2 ha']
      simp only [Finset.mem_filter, List.mem_toFinset, not_and]
      intro hxl
      exact absurd (h.1 x hxl) (lt_irrefl _)

include O in
theorem sgn_up {d : Det} (hd : Wf d) {a : ℕ} (ha : a ∈ d.occA) : sgn (up a) (d.set up down) = (-1) ^ d.occA.idxOf a := by
  unfold sgn
  rw [← card_before hd.sortA ha]
  congr 1
  rw [← Finset.card_image_of_injective _ O.monoUp.injective]
  congr 1
  ext x
  simp only [Det.set, Fock.occupiedBy, Finset.mem_filter, Finset.mem_union, Finset.mem_image, List.mem_toFinset]
  constructor
  · rintro ⟨(⟨j, hj, rfl⟩ | ⟨j, hj, rfl⟩), hlt⟩
    · exact ⟨j, ⟨hj, O.monoUp.lt_iff_lt.1 hlt⟩, rfl⟩
    · exact absurd hlt (O.lt a j).asymm
  · rintro ⟨j, ⟨hj, hlt⟩, rfl⟩
    exact ⟨Or.inl ⟨j, hj, rfl⟩, O.monoUp hlt⟩

include O in
theorem sgn_down {d : Det} (hd : Wf d) {b : ℕ} (hb : b ∈ d.occB) :
    sgn (down b) (d.set up down) = (-1) ^ d.occA.length * (-1) ^ d.occB.idxOf b := by
  unfold sgn
  rw [← card_before hd.sortB hb, ← List.toFinset_card_of_nodup (hd.sortA.imp fun h => h.ne), ← pow_add]
  congr 1
  rw [← Finset.card_image_of_injective (d.occB.toFinset.filter _) O.monoDown.injective, ← Finset.card_image_of_injective d.occA.toFinset O.monoUp.injective,
    ← Finset.card_union_of_disjoint]
  · congr 1
    ext x
    simp only [Det.set, Fock.occupiedBy, Finset.mem_filter, Finset.mem_union, Finset.mem_image, List.mem_toFinset]
    constructor
    · rintro ⟨(⟨j, hj, rfl⟩ | ⟨j, hj, rfl⟩), hlt⟩
      · exact Or.inl ⟨j, hj, rfl⟩
      · exact Or.inr ⟨j, ⟨hj, O.monoDown.lt_iff_lt.1 hlt⟩, rfl⟩
    · rintro (⟨j, hj, rfl⟩ | ⟨j, ⟨hj, hlt⟩, rfl⟩)
      · exact ⟨Or.inl ⟨j, hj, rfl⟩, O.lt j b⟩
      · exact ⟨Or.inr ⟨j, hj, rfl⟩, O.monoDown hlt⟩
  · rw [Finset.disjoint_left]
    intro x hx hx'
    obtain ⟨j, _, rfl⟩ := Finset.mem_image.1 hx
    obtain ⟨k, _, e⟩ := Finset.mem_image.1 hx'
    exact (O.lt j k).ne e.symm

include O in
theorem prod_sgn {d : Det} (hd : Wf d) (A B : List ℕ) (hA : ∀ x ∈ A, x ∈ d.occA) (hB : ∀ x ∈ B, x ∈ d.occB) :
    ((A.map up ++ B.map down).map fun x => sgn x (d.set up down)).prod =
      places d.occA A * (((-1) ^ d.occA.length) ^ B.length * places d.occB B) := by
  rw [List.map_append, List.prod_append, List.map_map, List.map_map]
  congr 1
  · unfold places
    congr 1
    exact List.map_congr_left fun x hx => sgn_up O hd (hA x hx)
  · unfold places
    clear hA
    induction B with
    | nil => simp
    | cons b B ih =>
      rw [List.map_cons, List.prod_cons, ih fun x hx => hB x (by simp [hx])]
      simp only [Function.comp_apply, List.map_cons, List.prod_cons, List.length_cons]
      rw [sgn_down O hd (hB b (by simp)), pow_succ]
      ring

include O in
theorem pairwise_spin {A B : List ℕ} (hA : A.Pairwise (· < ·)) (hB : B.Pairwise (· < ·)) :
    (A.map up ++ B.map down).Pairwise (· < ·) := by
  rw [List.pairwise_append, List.pairwise_map, List.pairwise_map]
  refine ⟨hA.imp fun h => O.monoUp h, hB.imp fun h => O.monoDown h, ?_⟩
  intro x hx y hy
  obtain ⟨i, _, rfl⟩ := List.mem_map.1 hx
  obtain ⟨j, _, rfl⟩ := List.mem_map.1 hy
  exact O.lt i j

include O in
/-- The excitation and phase found by `get_excitation` turn the second determinant into the first. -/
theorem excite_eq {d e : Det} (hd : Wf d) (he : Wf e) (hA : d.occA.length = e.occA.length) (hB : d.occB.length = e.occB.length)
    {x : Excitation} (hx : getExcitation d e = .ok x) :
    exciteWith (x.toA.map up ++ x.toB.map down) (x.fromA.map up ++ x.fromB.map down) (Fock.det (e.set up down)) =
      x.phase • Fock.det (d.set up down) := by
  rw [getExcitation_eq hd he hA hB] at hx
  have hx := Except.ok.inj hx
  subst hx
  have nA : d.occA.Nodup := hd.sortA.imp fun h => h.ne
  have nB : d.occB.Nodup := hd.sortB.imp fun h => h.ne
  have nA' : e.occA.Nodup := he.sortA.imp fun h => h.ne
  have nB' : e.occB.Nodup := he.sortB.imp fun h => h.ne
  have lA := length_filter_comm nA nA' hA
  have lB := length_filter_comm nB nB' hB
  have s1 := pairwise_spin O (hd.sortA.filter (· ∉ e.occA)) (hd.sortB.filter (· ∉ e.occB))
  have s2 := pairwise_spin O (he.sortA.filter (· ∉ d.occA)) (he.sortB.filter (· ∉ d.occB))
  have m1 : ∀ x ∈ (d.occA.filter (· ∉ e.occA)).map up ++ (d.occB.filter (· ∉ e.occB)).map down, x ∈ d.set up down := by
    intro x hx
    rcases List.mem_append.1 hx with h | h
    · obtain ⟨i, hi, rfl⟩ := List.mem_map.1 h
      exact (up_mem_set O d i).2 (List.mem_filter.1 hi).1
    · obtain ⟨i, hi, rfl⟩ := List.mem_map.1 h
      exact (down_mem_set O d i).2 (List.mem_filter.1 hi).1
  have m2 : ∀ x ∈ (e.occA.filter (· ∉ d.occA)).map up ++ (e.occB.filter (· ∉ d.occB)).map down, x ∈ e.set up down := by
    intro x hx
    rcases List.mem_append.1 hx with h | h
    · obtain ⟨i, hi, rfl⟩ := List.mem_map.1 h
      exact (up_mem_set O e i).2 (List.mem_filter.1 hi).1
    · obtain ⟨i, hi, rfl⟩ := List.mem_map.1 h
      exact (down_mem_set O e i).2 (List.mem_filter.1 hi).1
  unfold exciteWith
  rw [Fock.excite_det (I := d.set up down) (s1.imp fun h => h.ne) (s2.imp fun h => h.ne) m1 m2]
  · congr 1
    rw [Fock.sgnL_sorted _ _ s1 m1, Fock.sgnL_sorted _ _ s2 m2,
      prod_sgn O hd _ _ (fun x hx => (List.mem_filter.1 hx).1) (fun x hx => (List.mem_filter.1 hx).1),
      prod_sgn O he _ _ (fun x hx => (List.mem_filter.1 hx).1) (fun x hx => (List.mem_filter.1 hx).1)]
    have hlen : ((d.occA.filter (· ∉ e.occA)).map up ++ (d.occB.filter (· ∉ e.occB)).map down).length =
        ((e.occA.filter (· ∉ d.occA)).map up ++ (e.occB.filter (· ∉ d.occB)).map down).length := by
      rw [List.length_append, List.length_append, List.length_map, List.length_map, List.length_map, List.length_map, lA, lB]
    rw [hlen, hA, lB]
    have ht := Fock.tri_mul_self (((e.occA.filter (· ∉ d.occA)).map up ++ (e.occB.filter (· ∉ d.occB)).map down).length)
    have hn : (((-1 : ℚ) ^ e.occA.length) ^ (e.occB.filter (· ∉ d.occB)).length) *
        ((-1 : ℚ) ^ e.occA.length) ^ (e.occB.filter (· ∉ d.occB)).length = 1 := by
      rw [← mul_pow, neg_one_pow_sq, one_pow]
    generalize Fock.tri _ = t at ht ⊢
    generalize ((-1 : ℚ) ^ e.occA.length) ^ (e.occB.filter (· ∉ d.occB)).length = m at hn ⊢
    generalize places d.occA _ = p1
    generalize places e.occA _ = p2
    generalize places d.occB _ = p3
    generalize places e.occB _ = p4
    linear_combination (p1 * p2 * p3 * p4 * m * m) * ht + (p1 * p2 * p3 * p4) * hn
  · ext y
    simp only [Finset.mem_sdiff, List.mem_toFinset, List.mem_append, List.mem_map, List.mem_filter, decide_eq_true_eq]
    unfold Det.set Fock.occupiedBy
    simp only [Finset.mem_union, Finset.mem_image, List.mem_toFinset]
    constructor
    · rintro ⟨(⟨i, hi, rfl⟩ | ⟨i, hi, rfl⟩), hn⟩
      · have : i ∈ e.occA := by
          by_contra hc
          exact hn (Or.inl ⟨i, ⟨hi, hc⟩, rfl⟩)
        refine ⟨Or.inl ⟨i, this, rfl⟩, ?_⟩
        rintro (⟨j, ⟨_, hj⟩, ej⟩ | ⟨j, _, ej⟩)
        · exact hj (by rwa [O.monoUp.injective ej])
        · exact (O.lt i j).ne ej.symm
      · have : i ∈ e.occB := by
          by_contra hc
          exact hn (Or.inr ⟨i, ⟨hi, hc⟩, rfl⟩)
        refine ⟨Or.inr ⟨i, this, rfl⟩, ?_⟩
        rintro (⟨j, _, ej⟩ | ⟨j, ⟨_, hj⟩, ej⟩)
        · exact (O.lt j i).ne ej
        · exact hj (by rwa [O.monoDown.injective ej])
    · rintro ⟨(⟨i, hi, rfl⟩ | ⟨i, hi, rfl⟩), hn⟩
      · have : i ∈ d.occA := by
          by_contra hc
          exact hn (Or.inl ⟨i, ⟨hi, hc⟩, rfl⟩)
        refine ⟨Or.inl ⟨i, this, rfl⟩, ?_⟩
        rintro (⟨j, ⟨_, hj⟩, ej⟩ | ⟨j, _, ej⟩)
        · exact hj (by rwa [O.monoUp.injective ej])
        · exact (O.lt i j).ne ej.symm
      · have : i ∈ d.occB := by
          by_contra hc
          exact hn (Or.inr ⟨i, ⟨hi, hc⟩, rfl⟩)
        refine ⟨Or.inr ⟨i, this, rfl⟩, ?_⟩
        rintro (⟨j, _, ej⟩ | ⟨j, ⟨_, hj⟩, ej⟩)
        · exact (O.lt j i).ne ej
        · exact hj (by rwa [O.monoDown.injective ej])

theorem places_sq (occ l : List ℕ) : places occ l * places occ l = 1 := by
  unfold places
  induction l with
  | nil => simp
  | cons x l ih =>
    rw [List.map_cons, List.prod_cons]
    linear_combination (List.map (fun x => (-1 : ℚ) ^ occ.idxOf x) l).prod * (List.map (fun x => (-1 : ℚ) ^ occ.idxOf x) l).prod *
      neg_one_pow_sq (occ.idxOf x) + ih

theorem sum_occupied (n : ℕ) (l : List ℕ) (hl : l.Nodup) (hn : ∀ x ∈ l, x < n) (f : ℕ → ℚ) :
    ∑ k ∈ Finset.range n, f k * (if k ∈ l then 1 else 0) = (l.map f).sum := by
  rw [← List.sum_toFinset f hl]
  simp only [mul_ite, mul_one, mul_zero]
  rw [← Finset.sum_filter]
  congr 1
  ext x
  simp only [Finset.mem_filter, Finset.mem_range, List.mem_toFinset]
  exact ⟨fun h => h.2, fun h => ⟨hn x h, h⟩⟩

/-- The integrals of the program. -/
def Arrays.integrals (H : Arrays) : Fock.Integrals := ⟨H.a, H.b, H.aa, H.ab, H.bb⟩

include O in
theorem slaterEval_eq (H : Arrays) (hAA : Fock.Antisymmetric H.aa) (hBB : Fock.Antisymmetric H.bb) (n : ℕ) {d e : Det} (hd : Wf d)
    (he : Wf e) (hA : d.occA.length = e.occA.length) (hB : d.occB.length = e.occB.length) (hdA : ∀ x ∈ d.occA, x < n)
    (hdB : ∀ x ∈ d.occB, x < n) (heA : ∀ x ∈ e.occA, x < n) (heB : ∀ x ∈ e.occB, x < n)
    (hone : (d.set up down \ e.set up down).card = 1 → e.occA.length ≠ 1 ∧ e.occB.length ≠ 1) :
    slaterEval H d e = .ok (Fock.inner (Fock.det (d.set up down))
      (Fock.hamiltonian (⟨n, 0, 0, up, down⟩ : Fock.Orbitals ι) H.integrals (Fock.det (e.set up down)))) := by
  have hS : (⟨n, 0, 0, up, down⟩ : Fock.Orbitals ι).Proper :=
    ⟨O.monoUp.injective, O.monoDown.injective, fun p q => (O.lt p q).ne, Nat.zero_le _, Nat.zero_le _⟩
  have nA : d.occA.Nodup := hd.sortA.imp fun h => h.ne
  have nB : d.occB.Nodup := hd.sortB.imp fun h => h.ne
  have nA' : e.occA.Nodup := he.sortA.imp fun h => h.ne
  have nB' : e.occB.Nodup := he.sortB.imp fun h => h.ne
  have lA := length_filter_comm nA nA' hA
  have lB := length_filter_comm nB nB' hB
  have hex := getExcitation_eq hd he hA hB
  have hop := excite_eq O hd he hA hB hex
  have hcard : (d.set up down \ e.set up down).card =
      (d.occA.filter (· ∉ e.occA)).length + (d.occB.filter (· ∉ e.occB)).length := by
    rw [← List.toFinset_card_of_nodup (nA.filter _), ← List.toFinset_card_of_nodup (nB.filter _),
      ← Finset.card_image_of_injective _ O.monoUp.injective,
      ← Finset.card_image_of_injective (d.occB.filter _).toFinset O.monoDown.injective, ← Finset.card_union_of_disjoint]
    · congr 1
      ext x
      simp only [Finset.mem_sdiff, Finset.mem_union, Finset.mem_image, List.mem_toFinset, List.mem_filter, decide_eq_true_eq]
      constructor
      · rintro ⟨h1, h2⟩
        unfold Det.set Fock.occupiedBy at h1
        simp only [Finset.mem_union, Finset.mem_image, List.mem_toFinset] at h1
        rcases h1 with ⟨i, hi, rfl⟩ | ⟨i, hi, rfl⟩
        · exact Or.inl ⟨i, ⟨hi, fun h => h2 ((up_mem_set O e i).2 h)⟩, rfl⟩
        · exact Or.inr ⟨i, ⟨hi, fun h => h2 ((down_mem_set O e i).2 h)⟩, rfl⟩
      · rintro (⟨i, ⟨h1, h2⟩, rfl⟩ | ⟨i, ⟨h1, h2⟩, rfl⟩)
        · exact ⟨(up_mem_set O d i).2 h1, fun h => h2 ((up_mem_set O e i).1 h)⟩
        · exact ⟨(down_mem_set O d i).2 h1, fun h => h2 ((down_mem_set O e i).1 h)⟩
    · rw [Finset.disjoint_left]
      intro x hx hx'
      obtain ⟨j, _, rfl⟩ := Finset.mem_image.1 hx
      obtain ⟨k, _, e⟩ := Finset.mem_image.1 hx'
      exact (O.lt j k).ne e.symm
  have mA : ∀ p ∈ d.occA.filter (· ∉ e.occA), p < n ∧ up p ∉ e.set up down := by
    intro p hp
    obtain ⟨h1, h2⟩ := List.mem_filter.1 hp
    exact ⟨hdA p h1, fun h => (by simpa using h2 : p ∉ e.occA) ((up_mem_set O e p).1 h)⟩
  have mB : ∀ p ∈ d.occB.filter (· ∉ e.occB), p < n ∧ down p ∉ e.set up down := by
    intro p hp
    obtain ⟨h1, h2⟩ := List.mem_filter.1 hp
    exact ⟨hdB p h1, fun h => (by simpa using h2 : p ∉ e.occB) ((down_mem_set O e p).1 h)⟩
  have mA' : ∀ p ∈ e.occA.filter (· ∉ d.occA), p < n ∧ up p ∈ e.set up down := by
    intro p hp
    obtain ⟨h1, h2⟩ := List.mem_filter.1 hp
    exact ⟨heA p h1, (up_mem_set O e p).2 h1⟩
  have mB' : ∀ p ∈ e.occB.filter (· ∉ d.occB), p < n ∧ down p ∈ e.set up down := by
    intro p hp
    obtain ⟨h1, h2⟩ := List.mem_filter.1 hp
    exact ⟨heB p h1, (down_mem_set O e p).2 h1⟩
  have occA : ∀ k, Fock.occ (e.set up down) (up k) = if k ∈ e.occA then 1 else 0 := by
    intro k; unfold Fock.occ; simp only [up_mem_set O]
  have occB : ∀ k, Fock.occ (e.set up down) (down k) = if k ∈ e.occB then 1 else 0 := by
    intro k; unfold Fock.occ; simp only [down_mem_set O]
  have hphase : ∀ φ : ℚ, φ * φ = 1 → ∀ {v : Fock.Vec ι}, v = φ • Fock.det (d.set up down) → ∀ w,
      Fock.inner (Fock.det (d.set up down)) w = Fock.inner v w * φ := by
    intro φ hφ v hv w
    rw [hv, Fock.inner_smul_left]
    linear_combination -(Fock.inner (Fock.det (d.set up down)) w) * hφ
  have hsq : ∀ a b c d : ℚ, a * a = 1 → b * b = 1 → c * c = 1 → d * d = 1 → (a * b * (c * d)) * (a * b * (c * d)) = 1 := by
    intro a b c d h1 h2 h3 h4
    have : (a * b * (c * d)) * (a * b * (c * d)) = (a * a) * (b * b) * ((c * c) * (d * d)) := by ring
    rw [this, h1, h2, h3, h4]; norm_num
  have hφ := hsq _ _ _ _ (places_sq d.occA (d.occA.filter (· ∉ e.occA))) (places_sq e.occA (e.occA.filter (· ∉ d.occA)))
    (places_sq d.occB (d.occB.filter (· ∉ e.occB))) (places_sq e.occB (e.occB.filter (· ∉ d.occB)))
  have hin := hphase _ hφ hop
  unfold slaterEval
  rw [hex]
  rw [hcard] at hone
  clear hop hex
  generalize places d.occA (d.occA.filter (· ∉ e.occA)) * places e.occA (e.occA.filter (· ∉ d.occA)) *
      (places d.occB (d.occB.filter (· ∉ e.occB)) * places e.occB (e.occB.filter (· ∉ d.occB))) = φ at *
  generalize d.occA.filter (· ∉ e.occA) = PA at *
  generalize e.occA.filter (· ∉ d.occA) = QA at *
  generalize d.occB.filter (· ∉ e.occB) = PB at *
  generalize e.occB.filter (· ∉ d.occB) = QB at *
  by_cases hfar : 2 < PA.length + PB.length
  · rw [Fock.far_hamiltonian _ _ (by rw [hcard]; exact hfar)]
    match PA, QA, PB, QB, lA, lB, hfar with
    | [], [], _ :: _ :: _ :: _, _, _, _, _ => simp [pure, Except.pure, bind, Except.bind]
    | [_], [_], _ :: _ :: _, _, _, _, _ => simp [pure, Except.pure, bind, Except.bind]
    | [_, _], [_, _], _ :: _, _, _, _, _ => simp [pure, Except.pure, bind, Except.bind]
    | _ :: _ :: _ :: _, _, _, _, _, _, _ => simp [pure, Except.pure, bind, Except.bind]
  · rw [hin]
    clear hin hcard hphase hsq
    match PA, QA, PB, QB, lA, lB, hfar with
    | [], [], [], [], _, _, _ =>
      have hr := Fock.rule_zero hS (Z := H.integrals) (J := e.set up down) hAA hBB
      simp only [exciteWith, Fock.creL, Fock.annL, List.map_nil, List.append_nil, List.foldr_nil, List.foldl_nil]
      rw [hr]
      simp only [Fock.energyOf, occA, occB, bind, Except.bind, pure, Except.pure]
      congr 2
      have two : ∀ (f : ℕ → ℕ → ℚ) (l m : List ℕ), l.Nodup → m.Nodup → (∀ x ∈ l, x < n) → (∀ x ∈ m, x < n) →
          ∑ k ∈ Finset.range n, ∑ j ∈ Finset.range n, f k j * ((if k ∈ l then 1 else 0) * (if j ∈ m then 1 else 0)) =
          (l.map fun i => (m.map fun j => f i j).sum).sum := by
        intro f l m hl hm hln hmn
        rw [← sum_occupied n l hl hln]
        refine Finset.sum_congr rfl fun k _ => ?_
        rw [← sum_occupied n m hm hmn, Finset.sum_mul]
        exact Finset.sum_congr rfl fun j _ => by ring
      simp only [Arrays.integrals]
      rw [sum_occupied n _ nA' heA fun k => H.a k k, sum_occupied n _ nB' heB fun k => H.b k k,
        two (fun k l => H.aa k l k l) _ _ nA' nA' heA heA, two (fun k l => H.ab k l k l) _ _ nA' nB' heA heB,
        two (fun k l => H.bb k l k l) _ _ nB' nB' heB heB]
    | [p], [r], [], [], _, _, _ =>
      have hr := Fock.rule_singleA hS (Z := H.integrals) (J := e.set up down) hAA (p := p) (i := r) (mA p (by simp)).1 (mA' r (by simp)).1
        (mA p (by simp)).2 (mA' r (by simp)).2
      simp only [exciteWith, Fock.creL, Fock.annL, List.map_nil, List.map_cons, List.append_nil, List.foldr_nil, List.foldr_cons,
        List.foldl_nil, List.foldl_cons]
      rw [hr]
      obtain ⟨h1, h2⟩ := hone rfl
      simp only [squeezedTrace, if_neg h1, if_neg h2, occA, occB, bind, Except.bind, pure, Except.pure]
      simp only [Arrays.integrals]
      rw [sum_occupied n _ nA' heA fun k => H.aa p k r k, sum_occupied n _ nB' heB fun k => H.ab p k r k]
    | [], [], [p], [r], _, _, _ =>
      have hr := Fock.rule_singleB hS (Z := H.integrals) (J := e.set up down) hBB (p := p) (i := r) (mB p (by simp)).1 (mB' r (by simp)).1
        (mB p (by simp)).2 (mB' r (by simp)).2
      simp only [exciteWith, Fock.creL, Fock.annL, List.map_nil, List.map_cons, List.nil_append, List.foldr_nil, List.foldr_cons,
        List.foldl_nil, List.foldl_cons]
      rw [hr]
      obtain ⟨h1, h2⟩ := hone rfl
      simp only [squeezedTrace, if_neg h1, if_neg h2, occA, occB, bind, Except.bind, pure, Except.pure]
      simp only [Arrays.integrals]
      rw [sum_occupied n _ nB' heB fun k => H.bb p k r k, sum_occupied n _ nA' heA fun k => H.ab k p k r]
    | [p, q], [r, s], [], [], _, _, _ =>
      have hr := Fock.rule_doubleAA hS (Z := H.integrals) (J := e.set up down) hAA (p := p) (q := q) (i := r) (j := s)
        (mA p (by simp)).1 (mA q (by simp)).1 (mA' r (by simp)).1 (mA' s (by simp)).1
        (mA p (by simp)).2 (mA q (by simp)).2 (mA' r (by simp)).2 (mA' s (by simp)).2
      simp only [exciteWith, Fock.creL, Fock.annL, List.map_nil, List.map_cons, List.append_nil, List.foldr_nil, List.foldr_cons,
        List.foldl_nil, List.foldl_cons]
      rw [hr]
      simp only [Arrays.integrals, bind, Except.bind, pure, Except.pure]
    | [p], [r], [q], [s], _, _, _ =>
      have hr := Fock.rule_doubleAB hS (Z := H.integrals) (J := e.set up down) (p := p) (q := q) (i := r) (j := s)
        (mA p (by simp)).1 (mB q (by simp)).1 (mA' r (by simp)).1 (mB' s (by simp)).1
        (mA p (by simp)).2 (mB q (by simp)).2 (mA' r (by simp)).2 (mB' s (by simp)).2
      simp only [exciteWith, Fock.creL, Fock.annL, List.map_nil, List.map_cons, List.cons_append, List.nil_append, List.foldr_nil,
        List.foldr_cons, List.foldl_nil, List.foldl_cons]
      rw [hr]
      simp only [Arrays.integrals, bind, Except.bind, pure, Except.pure]
    | [], [], [p, q], [r, s], _, _, _ =>
      have hr := Fock.rule_doubleBB hS (Z := H.integrals) (J := e.set up down) hBB (p := p) (q := q) (i := r) (j := s)
        (mB p (by simp)).1 (mB q (by simp)).1 (mB' r (by simp)).1 (mB' s (by simp)).1
        (mB p (by simp)).2 (mB q (by simp)).2 (mB' r (by simp)).2 (mB' s (by simp)).2
      simp only [exciteWith, Fock.creL, Fock.annL, List.map_nil, List.map_cons, List.nil_append, List.foldr_nil, List.foldr_cons,
        List.foldl_nil, List.foldl_cons]
      rw [hr]
      simp only [Arrays.integrals, bind, Except.bind, pure, Except.pure]
    | _ :: _ :: _ :: _, _, _, _, _, _, h => exact absurd (by simp only [List.length_cons]; omega) h
    | [], [], _ :: _ :: _ :: _, _, _, _, h => exact absurd (by simp only [List.length_cons]; omega) h
    | [_], [_], _ :: _ :: _, _, _, _, h => exact absurd (by simp only [List.length_cons]; omega) h
    | [_, _], [_, _], _ :: _, _, _, _, h => exact absurd (by simp only [List.length_cons]; omega) h

end Ccpy.Hilbert
