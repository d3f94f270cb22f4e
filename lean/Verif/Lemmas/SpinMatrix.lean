import Verif.Lemmas.Wick
import Verif.Spec.GuessVectors
import Verif.Model.SpinMatrix
import Mathlib.Tactic.SplitIfs

namespace Ccpy.SpinMatrix

open Ccpy.Fock

variable {ι : Type*} [LinearOrder ι] {up down : ℕ → ι}

theorem mem_pairs {xs ys : List ℕ} {p : ℕ × ℕ} : p ∈ pairs xs ys ↔ p.1 ∈ xs ∧ p.2 ∈ ys := by
  obtain ⟨a, i⟩ := p
  simp only [pairs, List.mem_flatMap, List.mem_map, Prod.mk.injEq]
  constructor
  · rintro ⟨x, hx, y, hy, rfl, rfl⟩
    exact ⟨hx, hy⟩
  · rintro ⟨hx, hy⟩
    exact ⟨a, hx, i, hy, rfl, rfl⟩

theorem map_pairs {α : Type*} (xs ys : List ℕ) (f : ℕ → ℕ → α) :
    (xs.flatMap fun a => ys.map fun i => f a i) = (pairs xs ys).map fun p => f p.1 p.2 := by
  rw [pairs, List.map_flatMap]
  simp only [List.map_map]
  rfl

theorem beside_map {α : Type*} (l : List α) (f g : α → List ℚ) :
    beside (l.map f) (l.map g) = l.map fun x => f x ++ g x := by
  unfold beside
  rw [List.zipWith_map, List.zipWith_self]

theorem eqn_comm (i j : ℕ) : eqn i j = eqn j i := by
  unfold eqn
  simp only [eq_comm]

theorem ite_eqn (i j : ℕ) : (if i = j then (1 : ℚ) else 0) = eqn i j := rfl

theorem eqn_ne {i j : ℕ} (h : i ≠ j) : eqn i j = 0 := if_neg h

/-- The reference and its projection for `n` orbitals. -/
theorem sz_reference (L : Labels up down) {n na nb : ℕ} (ha : na ≤ n) (hb : nb ≤ n) :
    HasSz n up down (((na : ℚ) - nb) / 2) (reference up down na nb) := hasSz_reference L ha hb

variable {n na nb : ℕ}

/-- Matrix elements between single excitations. -/
theorem element_uu (L : Labels up down) (hab : nb ≤ na) (hn : na ≤ n) {a i b j : ℕ} (ha : na ≤ a) (ha' : a < n)
    (hi : i < na) (hb : na ≤ b) (hb' : b < n) (hj : j < na) :
    inner (cre (up a) (ann (up i) (reference up down na nb)))
        (spinSquared n up down (cre (up b) (ann (up j) (reference up down na nb)))) =
      ((((na : ℚ) - nb) / 2 + 1) * (((na : ℚ) - nb) / 2) + if i < nb then 1 else 0) *
        (if i = j then 1 else 0) * (if a = b then 1 else 0) := by
  have hs := ((hasSz_reference (n := n) L hn (hab.trans hn)).ann_up L (a := j) (by omega)).cre_up L hb'
  rw [inner_spinSquared hs]
  rw [raising_cre_up L, raising_ann_up (by omega) L, raising_cre_up L, raising_ann_up (by omega) L,
    raising_reference L hab]
  have ha2 : ¬ a < na := by omega
  have hb2 : ¬ b < na := by omega
  by_cases hi2 : i < nb
  · by_cases hj2 : j < nb
    · wick L (occupiedSet up down na nb) with [ha2, hb2, hi, hj, hi2, hj2]
      simp only [if_true, eq_comm (a := j)]
      ring
    · have : i ≠ j := by omega
      wick L (occupiedSet up down na nb) with [ha2, hb2, hi, hj, hi2, hj2]
      simp [this, Ne.symm this]
  · by_cases hj2 : j < nb
    · have : i ≠ j := by omega
      wick L (occupiedSet up down na nb) with [ha2, hb2, hi, hj, hi2, hj2]
      simp [this, Ne.symm this]
    · wick L (occupiedSet up down na nb) with [ha2, hb2, hi, hj, hi2, hj2]
      simp only [if_false, eq_comm (a := j)]
      ring

theorem element_ud (L : Labels up down) (hab : nb ≤ na) (hn : na ≤ n) {a i b j : ℕ} (ha : na ≤ a) (ha' : a < n)
    (hi : i < na) (hb : nb ≤ b) (hb' : b < n) (hj : j < nb) :
    inner (cre (up a) (ann (up i) (reference up down na nb)))
        (spinSquared n up down (cre (down b) (ann (down j) (reference up down na nb)))) =
      -(if i = j then 1 else 0) * (if a = b then 1 else 0) := by
  have hs := ((hasSz_reference (n := n) L hn (hab.trans hn)).ann_down L (a := j) (by omega)).cre_down L hb'
  rw [inner_spinSquared hs]
  rw [raising_cre_up L, raising_ann_up (by omega) L, raising_cre_down hb' L, raising_ann_down L,
    raising_reference L hab]
  have ha2 : ¬ a < na := by omega
  have hb2 : ¬ b < nb := by omega
  have hj2 : j < na := by omega
  by_cases hi2 : i < nb
  · by_cases hb3 : b < na
    · have : a ≠ b := by omega
      wick L (occupiedSet up down na nb) with [ha2, hb2, hb3, hi, hj, hi2, hj2]
      simp [this]
    · wick L (occupiedSet up down na nb) with [ha2, hb2, hb3, hi, hj, hi2, hj2]
      simp only [eq_comm (a := j)]
      ring
  · have : i ≠ j := by omega
    by_cases hb3 : b < na
    · wick L (occupiedSet up down na nb) with [ha2, hb2, hb3, hi, hj, hi2, hj2]
      simp [this]
    · wick L (occupiedSet up down na nb) with [ha2, hb2, hb3, hi, hj, hi2, hj2]
      simp [this]

theorem element_dd (L : Labels up down) (hab : nb ≤ na) (hn : na ≤ n) {a i b j : ℕ} (ha : nb ≤ a) (ha' : a < n)
    (hi : i < nb) (hb : nb ≤ b) (hb' : b < n) (hj : j < nb) :
    inner (cre (down a) (ann (down i) (reference up down na nb)))
        (spinSquared n up down (cre (down b) (ann (down j) (reference up down na nb)))) =
      ((((na : ℚ) - nb) / 2 + 1) * (((na : ℚ) - nb) / 2) + if na ≤ a then 1 else 0) *
        (if i = j then 1 else 0) * (if a = b then 1 else 0) := by
  have hs := ((hasSz_reference (n := n) L hn (hab.trans hn)).ann_down L (a := j) (by omega)).cre_down L hb'
  rw [inner_spinSquared hs]
  rw [raising_cre_down hb' L, raising_ann_down L, raising_cre_down ha' L, raising_ann_down L,
    raising_reference L hab]
  have ha2 : ¬ a < nb := by omega
  have hb2 : ¬ b < nb := by omega
  by_cases ha3 : a < na
  · have ha4 : ¬ na ≤ a := by omega
    by_cases hb3 : b < na
    · wick L (occupiedSet up down na nb) with [ha2, hb2, hb3, hi, hj, ha3]
      simp only [ha4, if_false, eq_comm (a := j)]
      ring
    · have : a ≠ b := by omega
      wick L (occupiedSet up down na nb) with [ha2, hb2, hb3, hi, hj, ha3]
      simp [this]
  · have ha4 : na ≤ a := by omega
    by_cases hb3 : b < na
    · have : a ≠ b := by omega
      wick L (occupiedSet up down na nb) with [ha2, hb2, hb3, hi, hj, ha3]
      simp [this]
    · wick L (occupiedSet up down na nb) with [ha2, hb2, hb3, hi, hj, ha3]
      simp only [ha4, if_true, eq_comm (a := j)]
      ring

/-- `S²` is self-adjoint. -/
theorem spinSquared_symm (v w : Vec ι) :
    inner v (spinSquared n up down w) = inner w (spinSquared n up down v) := by
  have hp : ∀ x y : Vec ι, inner x (projection n up down y) = inner y (projection n up down x) := by
    intro x y
    rw [projection_apply, projection_apply, inner_smul_right, inner_smul_right, inner_sum_right, inner_sum_right]
    congr 1
    refine Finset.sum_congr rfl fun p _ => ?_
    rw [Fock.inner_sub_right, Fock.inner_sub_right, inner_comm x, inner_comm x, inner_cre, inner_cre, inner_comm (ann _ _),
      inner_comm (ann (down p) y), ← inner_cre, ← inner_cre, inner_comm _ y, inner_comm _ y]
  unfold spinSquared
  simp only [LinearMap.add_apply, LinearMap.comp_apply, inner_add_right, inner_lowering, LinearMap.id_apply, map_add]
  rw [inner_comm (raising n up down v), hp v w, hp v, inner_comm (projection n up down w), hp w (projection n up down v)]

theorem element_flip (L : Labels up down) (hab : nb ≤ na) (hn : na ≤ n) {a i b j : ℕ} (ha : nb ≤ a) (ha' : a < n)
    (hi : i < na) (hb : nb ≤ b) (hb' : b < n) (hj : j < na) :
    inner (cre (down a) (ann (up i) (reference up down na nb)))
        (spinSquared n up down (cre (down b) (ann (up j) (reference up down na nb)))) =
      (((((na : ℚ) - nb) / 2 - 1) + 1) * (((na : ℚ) - nb) / 2 - 1) + (if na ≤ a then 1 else 0) +
          (if i < nb then 1 else 0)) * (if i = j then 1 else 0) * (if a = b then 1 else 0) +
        (if a = i then 1 else 0) * (if b = j then 1 else 0) := by
  have hs := ((hasSz_reference (n := n) L hn (hab.trans hn)).ann_up L (a := j) (by omega)).cre_down L hb'
  rw [inner_spinSquared hs]
  rw [raising_cre_down hb' L, raising_ann_up (by omega) L, raising_cre_down ha' L, raising_ann_up (by omega) L,
    raising_reference L hab]
  have ha2 : ¬ a < nb := by omega
  have hb2 : ¬ b < nb := by omega
  have A : (a < na ∧ ¬ na ≤ a) ∨ (¬ a < na ∧ na ≤ a ∧ i ≠ a) := by omega
  have B : b < na ∨ (¬ b < na ∧ j ≠ b) := by omega
  have I : (i < nb ∧ i ≠ a) ∨ ¬ i < nb := by omega
  have J : (j < nb ∧ j ≠ b) ∨ ¬ j < nb := by omega
  have c1 : a = i ↔ i = a := eq_comm
  have c2 : b = j ↔ j = b := eq_comm
  have c3 : j = i ↔ i = j := eq_comm
  have e1 : a = b ∨ a ≠ b := em _
  have e2 : i = j ∨ i ≠ j := em _
  rcases A with ⟨ha3, ha4⟩ | ⟨ha3, ha4, ha5⟩ <;> rcases I with ⟨hi2, hi3⟩ | hi2 <;>
  rcases B with hb3 | ⟨hb3, hb5⟩ <;> rcases J with ⟨hj2, hj3⟩ | hj2 <;>
    wick L (occupiedSet up down na nb) with [ha2, ha3, hb2, hb3, hi, hj, hi2, hj2] <;>
    rcases e1 with rfl | e1 <;> rcases e2 with rfl | e2 <;>
    first
    | omega
    | (simp only [c1, c2, c3, if_true, if_false, mul_zero, mul_one, add_zero, zero_add, *]; done)
    | (simp only [c1, c2, c3, if_true, if_false, mul_zero, mul_one, add_zero, zero_add, *]; ring)

theorem element_removal (L : Labels up down) (hab : nb ≤ na) (hn : na ≤ n) {i j : ℕ} (hi : i < na) (hj : j < na) :
    inner (ann (up i) (reference up down na nb)) (spinSquared n up down (ann (up j) (reference up down na nb))) =
      ((((na : ℚ) - 1 - nb) / 2 + 1) * (((na : ℚ) - 1 - nb) / 2) + if i < nb then 1 else 0) *
        (if i = j then 1 else 0) := by
  have hs := (hasSz_reference (n := n) L hn (hab.trans hn)).ann_up L (a := j) (by omega)
  rw [inner_spinSquared hs, raising_ann_up (by omega) L, raising_ann_up (by omega) L, raising_reference L hab]
  have c3 : j = i ↔ i = j := eq_comm
  by_cases hi2 : i < nb <;> by_cases hj2 : j < nb <;>
    wick L (occupiedSet up down na nb) with [hi, hj, hi2, hj2] <;> simp only [c3, if_true, if_false]
  · ring
  · rw [if_neg (by omega : i ≠ j)]; ring
  · rw [if_neg (by omega : i ≠ j)]; ring
  · ring

theorem element_attachment (L : Labels up down) (hab : nb ≤ na) (hn : na ≤ n) {a b : ℕ} (ha : na ≤ a) (hb : na ≤ b)
    (hb' : b < n) :
    inner (cre (up a) (reference up down na nb)) (spinSquared n up down (cre (up b) (reference up down na nb))) =
      (((na : ℚ) + 1 - nb) / 2 + 1) * (((na : ℚ) + 1 - nb) / 2) * (if a = b then 1 else 0) := by
  have hs := (hasSz_reference (n := n) L hn (hab.trans hn)).cre_up L (a := b) hb'
  rw [inner_spinSquared hs, raising_cre_up L, raising_cre_up L, raising_reference L hab]
  have ha2 : ¬ a < na := by omega
  have hb2 : ¬ b < na := by omega
  wick L (occupiedSet up down na nb) with [ha2, hb2]
  ring

theorem element_pair_attachment (L : Labels up down) (hab : nb ≤ na) (hn : na ≤ n) {a b c d : ℕ} (ha : na ≤ a)
    (hb : nb ≤ b) (hb' : b < n) (hc : na ≤ c) (hc' : c < n) (hd : nb ≤ d) (hd' : d < n) :
    inner (cre (up a) (cre (down b) (reference up down na nb)))
        (spinSquared n up down (cre (up c) (cre (down d) (reference up down na nb)))) =
      (((((na : ℚ) - nb) / 2 + 1) * (((na : ℚ) - nb) / 2)) + if na ≤ b then 1 else 0) *
        (if a = c then 1 else 0) * (if b = d then 1 else 0) -
      (if b = c then 1 else 0) * (if a = d then 1 else 0) := by
  have hs := ((hasSz_reference (n := n) L hn (hab.trans hn)).cre_down L hd').cre_up L hc'
  rw [inner_spinSquared hs, raising_cre_up L, raising_cre_up L, raising_cre_down hb' L, raising_cre_down hd' L,
    raising_reference L hab]
  have ha2 : ¬ a < na := by omega
  have hb2 : ¬ b < nb := by omega
  have hc2 : ¬ c < na := by omega
  have hd2 : ¬ d < nb := by omega
  by_cases hb3 : b < na <;> by_cases hd3 : d < na <;>
    wick L (occupiedSet up down na nb) with [ha2, hb2, hc2, hd2, hb3, hd3]
  · rw [if_neg (by omega : ¬ na ≤ b), if_neg (by omega : ¬ b = c)]; ring
  · rw [if_neg (by omega : ¬ na ≤ b), if_neg (by omega : ¬ b = d), if_neg (by omega : ¬ b = c)]; ring
  · rw [if_neg (by omega : ¬ b = d), if_neg (by omega : ¬ a = d)]; ring
  · rw [if_pos (by omega : na ≤ b)]; ring

theorem element_pair_removal (L : Labels up down) (hab : nb ≤ na) (hn : na ≤ n) {i j k l : ℕ} (hi : i < na)
    (hj : j < nb) (hk : k < na) (hl : l < nb) :
    inner (ann (down j) (ann (up i) (reference up down na nb)))
        (spinSquared n up down (ann (down l) (ann (up k) (reference up down na nb)))) =
      (((((na : ℚ) - nb) / 2 + 1) * (((na : ℚ) - nb) / 2)) + if i < nb then 1 else 0) *
        (if i = k then 1 else 0) * (if j = l then 1 else 0) -
      (if i = l then 1 else 0) * (if j = k then 1 else 0) := by
  have hs := ((hasSz_reference (n := n) L hn (hab.trans hn)).ann_up L (a := k) (by omega)).ann_down L (a := l) (by omega)
  rw [inner_spinSquared hs, raising_ann_down L, raising_ann_down L, raising_ann_up (by omega) L,
    raising_ann_up (by omega) L, raising_reference L hab]
  have c1 : k = i ↔ i = k := eq_comm
  have c2 : l = i ↔ i = l := eq_comm
  have c3 : k = j ↔ j = k := eq_comm
  have c4 : l = j ↔ j = l := eq_comm
  by_cases hi2 : i < nb <;> by_cases hk2 : k < nb <;>
    wick L (occupiedSet up down na nb) with [hi, hj, hk, hl, hi2, hk2] <;> simp only [c1, c2, c3, c4, if_true, if_false]
  · ring
  · rw [if_neg (by omega : ¬ i = k), if_neg (by omega : ¬ j = k)]; ring
  · rw [if_neg (by omega : ¬ i = k), if_neg (by omega : ¬ i = l)]; ring
  · rw [if_neg (by omega : ¬ i = l)]; ring

/-- Numbering of the pairs visited by two loops. -/
theorem range_mul {α : Type*} (m k : ℕ) (f : ℕ → α) :
    (List.range (m * k)).map f = (pairs (List.range m) (List.range k)).map fun p => f (p.1 * k + p.2) := by
  rw [← map_pairs (List.range m) (List.range k) fun a i => f (a * k + i)]
  induction m with
  | zero => simp
  | succ m ih =>
    rw [Nat.succ_mul, List.range_add, List.map_append, ih, List.range_succ, List.flatMap_append, List.map_map,
      List.flatMap_singleton]
    rfl

theorem numbering {k a i b j : ℕ} (hi : i < k) (hj : j < k) : a * k + i = b * k + j ↔ a = b ∧ i = j := by
  constructor
  · intro h
    have h1 := congrArg (· / k) h
    have h2 := congrArg (· % k) h
    have hk : 0 < k := by omega
    simp only [Nat.mul_comm _ k, Nat.mul_add_div hk, Nat.mul_add_mod, Nat.div_eq_of_lt hi, Nat.div_eq_of_lt hj,
      Nat.mod_eq_of_lt hi, Nat.mod_eq_of_lt hj, add_zero] at h1 h2
    exact ⟨h1, h2⟩
  · rintro ⟨rfl, rfl⟩; rfl

/-- A matrix incremented once for each visited pair. -/
theorem accumulate_nodup {α : Type*} [DecidableEq α] (l : List α) (hl : l.Nodup) (row col : α → ℕ) (val : α → ℚ) (keep : α → Prop)
    [DecidablePred keep] (x : α) (hx : x ∈ l) (I J : ℕ) (hI : row x = I)
    (hinj : ∀ y ∈ l, keep y → row y = I → y = x) :
    accumulate (l.flatMap fun y => if keep y then [(row y, col y, val y)] else []) I J =
      if keep x ∧ col x = J then val x else 0 := by
  unfold accumulate
  rw [List.map_flatMap]
  have : ∀ l' : List α, (∀ y ∈ l', keep y → row y = I → y = x) → l'.Nodup →
      ((l'.flatMap fun y => (if keep y then [(row y, col y, val y)] else []).map
        fun u => if u.1 = I ∧ u.2.1 = J then u.2.2 else (0 : ℚ))).sum =
      if x ∈ l' ∧ keep x ∧ col x = J then val x else 0 := by
    intro l'
    induction l' with
    | nil => intro _ _; simp
    | cons y l' ih =>
      intro h hn
      rw [List.flatMap_cons, List.sum_append, ih (fun z hz => h z (List.mem_cons_of_mem _ hz)) (List.nodup_cons.mp hn).2]
      by_cases e : y = x
      · subst e
        have hy : y ∉ l' := (List.nodup_cons.mp hn).1
        by_cases hk : keep y
        · by_cases hc : col y = J
          · simp [hk, hc, hy, hI]
          · simp [hk, hc]
        · simp [hk]
      · have hm : x ∈ y :: l' ↔ x ∈ l' := by simp [Ne.symm e]
        simp only [hm]
        by_cases hk : keep y
        · have hr : row y ≠ I := fun h' => e (h y List.mem_cons_self hk h')
          simp [hk, hr]
        · simp [hk]
  rw [this l hinj hl]
  simp [hx]

theorem nodup_pairs {xs ys : List ℕ} (hx : xs.Nodup) (hy : ys.Nodup) : (pairs xs ys).Nodup := by
  unfold pairs
  rw [List.nodup_flatMap]
  refine ⟨fun a _ => hy.map fun i j h => (Prod.mk.inj h).2, hx.imp ?_⟩
  intro a b hab p ha hb
  simp only [List.mem_map] at ha hb
  obtain ⟨i, _, rfl⟩ := ha
  obtain ⟨j, _, h⟩ := hb
  exact hab (Prod.mk.inj h).1.symm

/-- The value of `a_S_a` at the numbers of two excitations. -/
theorem updatesAA_value (s : Counts) (sym1 : ℕ → ℕ → Bool) {p : ℕ × ℕ} {b j : ℕ}
    (hp : p ∈ pairs (List.range s.nua) (List.range s.noa)) (hj : j < s.noa) :
    accumulate (updatesAA s sym1) (p.1 * s.noa + p.2) (b * s.noa + j) =
      if sym1 (p.1 + s.noa) p.2 ∧ p.1 = b ∧ p.2 = j then getSz2 s 0 + chiBeta s p.2 else 0 := by
  have key := accumulate_nodup (pairs (List.range s.nua) (List.range s.noa))
    (nodup_pairs List.nodup_range List.nodup_range) (fun y => y.1 * s.noa + y.2) (fun y => y.1 * s.noa + y.2)
    (fun y => getSz2 s 0 + 1 * chiBeta s y.2) (fun y => sym1 (y.1 + s.noa) y.2) p hp _ (b * s.noa + j) rfl
    (fun y hy _ e => by
      have hp := mem_pairs.mp hp
      have hy := mem_pairs.mp hy
      simp only [List.mem_range] at hp hy
      have := (numbering hy.2 hp.2).mp e
      exact Prod.ext this.1 this.2)
  have e : updatesAA s sym1 = (pairs (List.range s.nua) (List.range s.noa)).flatMap fun y =>
      if sym1 (y.1 + s.noa) y.2 then
        [(y.1 * s.noa + y.2, y.1 * s.noa + y.2, getSz2 s 0 + 1 * chiBeta s y.2)] else [] := by
    unfold updatesAA idxA
    congr 1
    funext y
    by_cases h : sym1 (y.1 + s.noa) y.2 <;> simp [h]
  rw [e, key]
  simp only [numbering (List.mem_range.mp (mem_pairs.mp hp).2) hj, one_mul]

theorem updatesBB_value (s : Counts) (sym1 : ℕ → ℕ → Bool) {p : ℕ × ℕ} {b j : ℕ}
    (hp : p ∈ pairs (List.range s.nub) (List.range s.nob)) (hj : j < s.nob) :
    accumulate (updatesBB s sym1) (p.1 * s.nob + p.2) (b * s.nob + j) =
      if sym1 (p.1 + s.nob) p.2 ∧ p.1 = b ∧ p.2 = j then getSz2 s 0 + piAlpha s (p.1 + s.nob) else 0 := by
  have key := accumulate_nodup (pairs (List.range s.nub) (List.range s.nob))
    (nodup_pairs List.nodup_range List.nodup_range) (fun y => y.1 * s.nob + y.2) (fun y => y.1 * s.nob + y.2)
    (fun y => getSz2 s 0 + 1 * piAlpha s (y.1 + s.nob)) (fun y => sym1 (y.1 + s.nob) y.2) p hp _ (b * s.nob + j) rfl
    (fun y hy _ e => by
      have hp := mem_pairs.mp hp
      have hy := mem_pairs.mp hy
      simp only [List.mem_range] at hp hy
      have := (numbering hy.2 hp.2).mp e
      exact Prod.ext this.1 this.2)
  have e : updatesBB s sym1 = (pairs (List.range s.nub) (List.range s.nob)).flatMap fun y =>
      if sym1 (y.1 + s.nob) y.2 then
        [(y.1 * s.nob + y.2, y.1 * s.nob + y.2, getSz2 s 0 + 1 * piAlpha s (y.1 + s.nob))] else [] := by
    unfold updatesBB idxB
    congr 1
    funext y
    by_cases h : sym1 (y.1 + s.nob) y.2 <;> simp [h]
  rw [e, key]
  simp only [numbering (List.mem_range.mp (mem_pairs.mp hp).2) hj, one_mul]

theorem updatesAB_value (s : Counts) (hs : s.nob ≤ s.noa) (sym1 : ℕ → ℕ → Bool) {p : ℕ × ℕ} {b j : ℕ}
    (hp : p ∈ pairs (List.range s.nua) (List.range s.noa)) (hj : j < s.nob) :
    accumulate (updatesAB s sym1) (p.1 * s.noa + p.2) (b * s.nob + j) =
      if sym1 (p.1 + s.noa) p.2 ∧ p.1 + s.noa = b + s.nob ∧ p.2 = j then -1 else 0 := by
  have key := accumulate_nodup (pairs (List.range s.nua) (List.range s.noa))
    (nodup_pairs List.nodup_range List.nodup_range) (fun y => y.1 * s.noa + y.2)
    (fun y => (y.1 + (s.noa - s.nob)) * s.nob + y.2)
    (fun _ => -1) (fun y => sym1 (y.1 + s.noa) y.2 ∧ y.2 < s.nob) p hp _ (b * s.nob + j) rfl
    (fun y hy _ e => by
      have hp := mem_pairs.mp hp
      have hy := mem_pairs.mp hy
      simp only [List.mem_range] at hp hy
      have := (numbering hy.2 hp.2).mp e
      exact Prod.ext this.1 this.2)
  have e : updatesAB s sym1 = (pairs (List.range s.nua) (List.range s.noa)).flatMap fun y =>
      if sym1 (y.1 + s.noa) y.2 ∧ y.2 < s.nob then
        [(y.1 * s.noa + y.2, (y.1 + (s.noa - s.nob)) * s.nob + y.2, (-1 : ℚ))] else [] := by
    unfold updatesAB idxA idxB chiBeta
    congr 1
    funext y
    have e2 : y.1 + (s.noa - s.nob) + s.nob = y.1 + s.noa := by omega
    by_cases h : sym1 (y.1 + s.noa) y.2 <;> by_cases h2 : y.2 < s.nob <;> simp [h, h2, e2]
  rw [e, key]
  by_cases h : p.2 < s.nob
  · simp only [numbering h hj]
    refine if_congr ?_ rfl rfl
    constructor
    · rintro ⟨⟨h1, _⟩, h2, h3⟩
      exact ⟨h1, by omega, h3⟩
    · rintro ⟨h1, h2, h3⟩
      exact ⟨⟨h1, h⟩, by omega, h3⟩
  · rw [if_neg (fun h' => h h'.1.2), if_neg (fun h' : _ ∧ _ ∧ p.2 = j => h (h'.2.2 ▸ hj))]

end Ccpy.SpinMatrix
