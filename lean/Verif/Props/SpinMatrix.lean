import Verif.Lemmas.SpinMatrix
import Mathlib.Tactic.NormNum

/-! The `S²` matrices used by the guess routines against the matrix of the total-spin operator. -/

namespace Ccpy.SpinMatrix

open Ccpy.Fock

variable {ι : Type*} [LinearOrder ι] {up down : ℕ → ι}

/-- `n` orbitals, of which each spin occupies its lowest ones, spin up at least as many. -/
structure Consistent (s : Counts) (n : ℕ) : Prop where
  alpha : s.noa + s.nua = n
  beta : s.nob + s.nub = n
  order : s.nob ≤ s.noa

/-- **C48** The matrix of `build_s2matrix_cis` is the matrix of the total-spin operator between the single
excitations, spin-up ones first. -/
theorem C48_cis (L : Labels up down) {s : Counts} {n : ℕ} (h : Consistent s n) :
    buildCis s = spinMatrix n up down (singlesUp up down s.noa s.nob n ++ singlesDown up down s.noa s.nob n) := by
  obtain ⟨noa, nob, nua, nub⟩ := s
  obtain ⟨h1, h2, h3⟩ := h
  simp only at h1 h2 h3
  have e1 : n - noa = nua := by omega
  have e2 : n - nob = nub := by omega
  unfold buildCis spinMatrix singlesUp singlesDown
  simp only [e1, e2]
  rw [beside_map, beside_map, map_pairs, map_pairs]
  simp only [List.map_append, List.map_map]
  congr 1
  · refine List.map_congr_left fun p hp => ?_
    have hp := mem_pairs.mp hp
    simp only [List.mem_range'_1, List.mem_range] at hp
    congr 1
    · refine List.map_congr_left fun q hq => ?_
      have hq := mem_pairs.mp hq
      simp only [List.mem_range'_1, List.mem_range] at hq
      simp only [Function.comp]
      rw [element_uu L h3 (by omega) (by omega) (by omega) (by omega) (by omega) (by omega) (by omega)]
      simp only [getSz2, chiBeta, eqn]
      ring
    · refine List.map_congr_left fun q hq => ?_
      have hq := mem_pairs.mp hq
      simp only [List.mem_range'_1, List.mem_range] at hq
      simp only [Function.comp]
      rw [element_ud L h3 (by omega) (by omega) (by omega) (by omega) (by omega) (by omega) (by omega)]
      simp only [chiBeta, piAlpha, eqn]
      rw [if_pos (by omega : noa ≤ p.1 ∧ p.1 < nua + noa)]
      by_cases e : p.2 = q.2
      · rw [if_pos e, if_pos (by omega : p.2 < nob)]; ring
      · rw [if_neg e]; ring
  · refine List.map_congr_left fun p hp => ?_
    have hp := mem_pairs.mp hp
    simp only [List.mem_range'_1, List.mem_range] at hp
    congr 1
    · refine List.map_congr_left fun q hq => ?_
      have hq := mem_pairs.mp hq
      simp only [List.mem_range'_1, List.mem_range] at hq
      simp only [Function.comp]
      rw [spinSquared_symm, element_ud L h3 (by omega) (by omega) (by omega) (by omega) (by omega) (by omega) (by omega)]
      simp only [chiBeta, piAlpha, eqn]
      rw [if_pos hp.2]
      simp only [eq_comm (a := q.2), eq_comm (a := q.1)]
      by_cases e : p.1 = q.1
      · rw [if_pos e, if_pos (by omega : noa ≤ p.1 ∧ p.1 < nua + noa)]; ring
      · rw [if_neg e]; ring
    · refine List.map_congr_left fun q hq => ?_
      have hq := mem_pairs.mp hq
      simp only [List.mem_range'_1, List.mem_range] at hq
      simp only [Function.comp]
      rw [element_dd L h3 (by omega) (by omega) (by omega) (by omega) (by omega) (by omega) (by omega)]
      simp only [getSz2, piAlpha, eqn]
      by_cases e : noa ≤ p.1
      · rw [if_pos e, if_pos (by omega : noa ≤ p.1 ∧ p.1 < nua + noa)]; ring
      · rw [if_neg e, if_neg (by omega : ¬ (noa ≤ p.1 ∧ p.1 < nua + noa))]; ring

/-- The determinants numbered by `get_index_arrays`, with the result of the symmetry test: spin-up ones, then
spin-down ones. -/
noncomputable def labelled (up down : ℕ → ι) (sym1 : ℕ → ℕ → Bool) (na nb n : ℕ) : List (Bool × Vec ι) :=
  ((List.range' na (n - na)).flatMap fun a => (List.range na).map fun i =>
      (sym1 a i, cre (up a) (ann (up i) (reference up down na nb)))) ++
  ((List.range' nb (n - nb)).flatMap fun a => (List.range nb).map fun i =>
      (sym1 a i, cre (down a) (ann (down i) (reference up down na nb))))

/-- **C48** The matrix of `cis.build_s2matrix` is that of the total-spin operator between the excitations of the
target symmetry, and zero in the rows and columns of the others. -/
theorem C48_cis_symmetry (L : Labels up down) {s : Counts} {n : ℕ} (h : Consistent s n) (sym1 : ℕ → ℕ → Bool) :
    buildCisSym s sym1 =
      (labelled up down sym1 s.noa s.nob n).map fun X => (labelled up down sym1 s.noa s.nob n).map fun Y =>
        if X.1 && Y.1 then inner X.2 (spinSquared n up down Y.2) else 0 := by
  obtain ⟨noa, nob, nua, nub⟩ := s
  obtain ⟨h1, h2, h3⟩ := h
  simp only at h1 h2 h3
  have e1 : n - noa = nua := by omega
  have e2 : n - nob = nub := by omega
  unfold buildCisSym labelled
  simp only [e1, e2, List.range'_eq_map_range, List.flatMap_map]
  rw [map_pairs (List.range nua), map_pairs (List.range nub)]
  simp only [range_mul, beside_map, List.map_append, List.map_map]
  congr 1
  · refine List.map_congr_left fun p hp => ?_
    have hp' := mem_pairs.mp hp
    simp only [List.mem_range] at hp'
    congr 1
    · refine List.map_congr_left fun q hq => ?_
      have hq := mem_pairs.mp hq
      simp only [List.mem_range] at hq
      simp only [Function.comp]
      rw [element_uu L h3 (by omega) (by omega) (by omega) (by omega) (by omega) (by omega) (by omega)]
      rw [updatesAA_value _ sym1 hp hq.2]
      by_cases e : p.1 = q.1 ∧ p.2 = q.2
      · obtain ⟨a, i⟩ := p
        obtain ⟨b, j⟩ := q
        obtain ⟨rfl, rfl⟩ : a = b ∧ i = j := e
        simp only [getSz2, chiBeta, Nat.add_comm noa, and_true, Bool.and_self, if_true]
        split_ifs <;> ring
      · rw [if_neg (fun h => e h.2)]
        have : (if p.2 = q.2 then (1 : ℚ) else 0) * (if noa + p.1 = noa + q.1 then 1 else 0) = 0 := by
          by_cases e2 : p.2 = q.2
          · rw [if_neg (by omega : ¬ noa + p.1 = noa + q.1), mul_zero]
          · rw [if_neg e2, zero_mul]
        rw [mul_assoc, this, mul_zero]
        split_ifs <;> rfl
    · refine List.map_congr_left fun q hq => ?_
      have hq := mem_pairs.mp hq
      simp only [List.mem_range] at hq
      simp only [Function.comp]
      rw [element_ud L h3 (by omega) (by omega) (by omega) (by omega) (by omega) (by omega) (by omega)]
      rw [updatesAB_value _ h3 sym1 hp hq.2]
      by_cases e : p.1 + noa = q.1 + nob ∧ p.2 = q.2
      · simp only [e.1, e.2, Nat.add_comm noa, Nat.add_comm nob, and_true, Bool.and_self, if_true]
        split_ifs <;> ring
      · rw [if_neg (fun h => e h.2)]
        have : (if p.2 = q.2 then (1 : ℚ) else 0) * (if noa + p.1 = nob + q.1 then 1 else 0) = 0 := by
          by_cases e2 : p.2 = q.2
          · rw [if_neg (by omega : ¬ noa + p.1 = nob + q.1), mul_zero]
          · rw [if_neg e2, zero_mul]
        rw [neg_mul, this, neg_zero]
        split_ifs <;> rfl
  · refine List.map_congr_left fun p hp => ?_
    have hp' := mem_pairs.mp hp
    simp only [List.mem_range] at hp'
    congr 1
    · refine List.map_congr_left fun q hq => ?_
      have hq' := mem_pairs.mp hq
      simp only [List.mem_range] at hq'
      simp only [Function.comp]
      rw [spinSquared_symm,
        element_ud L h3 (by omega) (by omega) (by omega) (by omega) (by omega) (by omega) (by omega)]
      rw [updatesAB_value _ h3 sym1 hq hp'.2]
      by_cases e : q.1 + noa = p.1 + nob ∧ q.2 = p.2
      · simp only [e.1, e.2, Nat.add_comm noa, Nat.add_comm nob, and_true, Bool.and_self, if_true]
        split_ifs <;> ring
      · rw [if_neg (fun h => e h.2)]
        have : (if q.2 = p.2 then (1 : ℚ) else 0) * (if noa + q.1 = nob + p.1 then 1 else 0) = 0 := by
          by_cases e2 : q.2 = p.2
          · rw [if_neg (by omega : ¬ noa + q.1 = nob + p.1), mul_zero]
          · rw [if_neg e2, zero_mul]
        rw [neg_mul, this, neg_zero]
        split_ifs <;> rfl
    · refine List.map_congr_left fun q hq => ?_
      have hq := mem_pairs.mp hq
      simp only [List.mem_range] at hq
      simp only [Function.comp]
      rw [element_dd L h3 (by omega) (by omega) (by omega) (by omega) (by omega) (by omega) (by omega)]
      rw [updatesBB_value _ sym1 hp hq.2]
      by_cases e : p.1 = q.1 ∧ p.2 = q.2
      · obtain ⟨a, i⟩ := p
        obtain ⟨b, j⟩ := q
        obtain ⟨rfl, rfl⟩ : a = b ∧ i = j := e
        have : (noa ≤ a + nob ∧ a + nob < nua + noa) ↔ noa ≤ a + nob := by omega
        simp only [getSz2, piAlpha, Nat.add_comm nob, and_true, Bool.and_self, if_true, this]
        split_ifs <;> ring
      · rw [if_neg (fun h => e h.2)]
        have : (if p.2 = q.2 then (1 : ℚ) else 0) * (if nob + p.1 = nob + q.1 then 1 else 0) = 0 := by
          by_cases e2 : p.2 = q.2
          · rw [if_neg (by omega : ¬ nob + p.1 = nob + q.1), mul_zero]
          · rw [if_neg e2, zero_mul]
        rw [mul_assoc, this, mul_zero]
        split_ifs <;> rfl

/-- **C48** The two implementations agree when no symmetry is imposed. -/
theorem C48_agree {s : Counts} {n : ℕ} (h : Consistent s n) : buildCisSym s (fun _ _ => true) = buildCis s := by
  have L : Labels (fun p : ℕ => 2 * p) (fun p => 2 * p + 1) :=
    ⟨fun p q => by omega, fun p q => by omega, fun p q => by omega, fun p q => by omega⟩
  rw [C48_cis L h, C48_cis_symmetry L h]
  unfold labelled spinMatrix singlesUp singlesDown
  simp only [map_pairs, List.map_append, List.map_map, Function.comp_def, Bool.and_self, if_true]

/-- **C48** The matrix is symmetric. -/
theorem C48_symmetric {s : Counts} {n : ℕ} (h : Consistent s n) (p q : ℕ) :
    ((buildCis s)[p]?.bind (·[q]?)) = ((buildCis s)[q]?.bind (·[p]?)) := by
  have L : Labels (fun p : ℕ => 2 * p) (fun p => 2 * p + 1) :=
    ⟨fun p q => by omega, fun p q => by omega, fun p q => by omega, fun p q => by omega⟩
  rw [C48_cis L h]
  unfold spinMatrix
  generalize singlesUp (fun p : ℕ => 2 * p) _ _ _ _ ++ singlesDown _ _ _ _ _ = B
  simp only [List.getElem?_map]
  cases hp : B[p]? <;> cases hq : B[q]? <;>
    simp only [Option.map_none, Option.map_some, Option.bind_none, Option.bind_some, List.getElem?_map, hp, hq]
  rw [spinSquared_symm]

/-- Product of a matrix and a vector. -/
def mulVec (M : List (List ℚ)) (v : List ℚ) : List ℚ := M.map fun row => (List.zipWith (· * ·) row v).sum

/-- The sum over the visited pairs of an amplitude times Kronecker deltas. -/
theorem sum_eqn (P : List (ℕ × ℕ)) (hP : P.Nodup) (p : ℕ × ℕ) (c : ℕ × ℕ → ℚ) :
    (P.map fun q => eqn p.2 q.2 * eqn p.1 q.1 * c q).sum = if p ∈ P then c p else 0 := by
  induction P with
  | nil => simp
  | cons q P ih =>
    obtain ⟨hq, hP⟩ := List.nodup_cons.mp hP
    rw [List.map_cons, List.sum_cons, ih hP]
    by_cases e : p = q
    · subst e
      simp [hq, eqn]
    · have : eqn p.2 q.2 * eqn p.1 q.1 = 0 := by
        unfold eqn
        by_cases e2 : p.2 = q.2
        · rw [if_neg (fun e' => e (Prod.ext e' e2)), mul_zero]
        · rw [if_neg e2, zero_mul]
      rw [this, zero_mul, zero_add]
      simp [e]

/-- **C48** For closed shells, equal spin-up and spin-down amplitudes are singlets (eigenvalue 0) and opposite ones
triplets (eigenvalue 2). -/
theorem C48_singlet_triplet {s : Counts} {n : ℕ} (h : Consistent s n) (hc : s.noa = s.nob) (c : ℕ × ℕ → ℚ)
    (v w : List ℚ) (hv : v = (pairsA s).map c ++ (pairsB s).map c)
    (hw : w = (pairsA s).map c ++ (pairsB s).map fun p => -c p) :
    mulVec (buildCis s) v = v.map (0 * ·) ∧ mulVec (buildCis s) w = w.map (2 * ·) := by
  obtain ⟨noa, nob, nua, nub⟩ := s
  obtain ⟨h1, h2, -⟩ := h
  simp only at h1 h2 hc
  subst hc
  obtain rfl : nub = nua := by omega
  have hs : pairsA ⟨noa, noa, nub, nub⟩ = pairsB ⟨noa, noa, nub, nub⟩ := rfl
  have hnd : (pairsB ⟨noa, noa, nub, nub⟩).Nodup := nodup_pairs List.nodup_range' List.nodup_range
  have hz : getSz2 ⟨noa, noa, nub, nub⟩ 0 = 0 := by simp [getSz2]
  have hpi : ∀ p ∈ pairsB ⟨noa, noa, nub, nub⟩, piAlpha ⟨noa, noa, nub, nub⟩ p.1 = 1 ∧
      chiBeta ⟨noa, noa, nub, nub⟩ p.2 = 1 := by
    intro p hp
    have := mem_pairs.mp hp
    simp only [List.mem_range'_1, List.mem_range] at this
    exact ⟨if_pos ⟨this.1.1, by simp only; omega⟩, if_pos this.2⟩
  have hrows : ∀ f g : ℕ × ℕ → ℚ, mulVec (buildCis ⟨noa, noa, nub, nub⟩)
      ((pairsB ⟨noa, noa, nub, nub⟩).map f ++ (pairsB ⟨noa, noa, nub, nub⟩).map g) =
      ((pairsB ⟨noa, noa, nub, nub⟩).map fun p => f p - g p) ++
        (pairsB ⟨noa, noa, nub, nub⟩).map fun p => g p - f p := by
    intro f g
    unfold buildCis mulVec
    simp only [hs, hz, beside_map, List.map_append, List.map_map]
    congr 1 <;> refine List.map_congr_left fun p hp => ?_ <;>
      simp only [Function.comp, hpi p hp, zero_add, mul_one, one_mul] <;>
      rw [List.zipWith_append (by simp), List.sum_append, List.zipWith_map, List.zipWith_map, List.zipWith_self,
        List.zipWith_self]
    · have := sum_eqn _ hnd p f
      have h2 := sum_eqn _ hnd p fun q => -g q
      rw [if_pos hp] at this h2
      rw [this, sub_eq_add_neg, ← h2]
      congr 2
      refine List.map_congr_left fun q _ => by ring
    · have := sum_eqn _ hnd p fun q => -f q
      have h2 := sum_eqn _ hnd p g
      rw [if_pos hp] at this h2
      rw [h2, sub_eq_add_neg, ← this, add_comm]
      congr 2
      refine List.map_congr_left fun q _ => by ring
  subst hv hw
  rw [hs, hrows, hrows]
  constructor
  · simp only [List.map_append, List.map_map, Function.comp_def, sub_self, zero_mul]
  · simp only [List.map_append, List.map_map, Function.comp_def]
    congr 1 <;> refine List.map_congr_left fun q _ => by ring

/-- **C48** The matrix of `build_s2matrix_1h` is that of the total-spin operator between removals of a spin-up
electron. -/
theorem C48_removal (L : Labels up down) {s : Counts} {n : ℕ} (h : Consistent s n) :
    build1h s = spinMatrix n up down (removals up down s.noa s.nob) := by
  obtain ⟨h1, h2, h3⟩ := h
  unfold build1h spinMatrix removals
  simp only [List.map_map]
  refine List.map_congr_left fun i hi => List.map_congr_left fun j hj => ?_
  rw [List.mem_range] at hi hj
  simp only [Function.comp]
  rw [element_removal L h3 (by omega) hi hj]
  simp only [getSz2Ip, chiBeta, eqn]
  ring

/-- Two electrons of each spin in four orbitals, and a triplet. -/
example : Consistent ⟨2, 2, 2, 2⟩ 4 := ⟨rfl, rfl, le_refl _⟩
example : Consistent ⟨3, 1, 1, 3⟩ 4 := ⟨rfl, rfl, by decide⟩
example : buildCis ⟨1, 1, 1, 1⟩ = [[1, -1], [-1, 1]] := by decide +kernel
example : buildCis ⟨2, 1, 1, 2⟩ =
    [[7/4, 0, 0, -1], [0, 3/4, 0, 0], [0, 0, 3/4, 0], [-1, 0, 0, 7/4]] := by decide +kernel

/-! ## Attachments, pairs and spin flips -/

/-- **C59** For closed shells, the matrices of `build_s2matrix_1p`, `build_s2matrix_2p` and `build_s2matrix_2h` are
those of the total-spin operator between attachments of a spin-up electron, attachments of a pair, and removals of a
pair.  (Partial: for open shells they are not, `C59_attachment_fails`, `C59_pair_attachment_fails`,
`C59_pair_removal_fails`.) -/
theorem C59_closed_shell_partial (L : Labels up down) {s : Counts} {n : ℕ} (h : Consistent s n) (hc : s.noa = s.nob)
    (ka kb : ℕ) :
    build1p s = spinMatrix n up down (attachments up down s.noa s.nob n) ∧
    (ka ≤ s.nua → kb ≤ s.nub →
      build2p s ka kb = spinMatrix n up down (pairAttachments up down s.noa s.nob ka kb)) ∧
    (ka ≤ s.noa → kb ≤ s.nob →
      build2h s ka kb = spinMatrix n up down (pairRemovals up down s.noa s.nob ka kb)) := by
  obtain ⟨noa, nob, nua, nub⟩ := s
  obtain ⟨h1, h2, h3⟩ := h
  simp only at h1 h2 h3 hc
  subst hc
  have e1 : n - noa = nua := by omega
  refine ⟨?_, fun hka hkb => ?_, fun hka hkb => ?_⟩
  · unfold build1p spinMatrix attachments
    simp only [List.map_map, e1]
    refine List.map_congr_left fun a ha => List.map_congr_left fun b hb => ?_
    rw [List.mem_range'_1] at ha hb
    simp only [Function.comp]
    rw [element_attachment L h3 (by omega) ha.1 hb.1 (by omega)]
    simp only [getSz2Ea, piAlpha, eqn]
    rw [if_pos (by omega : noa ≤ a ∧ a < nua + noa)]
    ring
  · unfold build2p spinMatrix pairAttachments
    simp only [map_pairs, List.map_map]
    simp only at hka hkb
    refine List.map_congr_left fun p hp => List.map_congr_left fun q hq => ?_
    have hp := mem_pairs.mp hp
    have hq := mem_pairs.mp hq
    simp only [List.mem_range'_1] at hp hq
    simp only [Function.comp]
    rw [element_pair_attachment L h3 (by omega) hp.1.1 hp.2.1 (by omega) hq.1.1 (by omega) hq.2.1 (by omega)]
    simp only [getSz2, piAlpha, eqn]
    rw [if_pos (by omega : noa ≤ p.1 ∧ p.1 < nua + noa), if_pos hp.2.1]
    ring
  · unfold build2h spinMatrix pairRemovals
    simp only [map_pairs, List.map_map]
    simp only at hka hkb
    refine List.map_congr_left fun p hp => List.map_congr_left fun q hq => ?_
    have hp := mem_pairs.mp hp
    have hq := mem_pairs.mp hq
    simp only [List.mem_range'_1] at hp hq
    simp only [Function.comp]
    rw [element_pair_removal L h3 (by omega) (by omega) (by omega) (by omega) (by omega)]
    simp only [eqn]
    rw [if_pos (by omega : p.1 < noa)]
    ring

/-- **C59** The entry of the spin-flip matrix is the matrix element of the total spin except on the diagonal of
excitations from doubly occupied orbitals or to orbitals empty for both spins.  (Partial: there the contributions of
the two unpaired electrons are missing, `C59_spin_flip_fails`.) -/
theorem C59_spin_flip_partial (L : Labels up down) {s : Counts} {n : ℕ} (h : Consistent s n) {a i b j : ℕ}
    (ha : s.nob ≤ a) (ha' : a < n) (hi : i < s.noa) (hb : s.nob ≤ b) (hb' : b < n) (hj : j < s.noa)
    (hd : (a, i) = (b, j) → a < s.noa ∧ s.nob ≤ i) :
    ((buildSfcis s (-1))[(a - s.nob) * s.noa + i]?.bind (·[(b - s.nob) * s.noa + j]?)) =
      some (inner (cre (down a) (ann (up i) (reference up down s.noa s.nob)))
        (spinSquared n up down (cre (down b) (ann (up j) (reference up down s.noa s.nob))))) := by
  obtain ⟨noa, nob, nua, nub⟩ := s
  obtain ⟨h1, h2, h3⟩ := h
  simp only at h1 h2 h3 ha hi hb hj hd ⊢
  have get : ∀ {α : Type} (f : ℕ × ℕ → α) (a i : ℕ), nob ≤ a → a < n → i < noa →
      ((pairs (span nob nub) (List.range noa)).map f)[(a - nob) * noa + i]? = some (f (a, i)) := by
    intro α f a i ha ha' hi
    have e : (pairs (span nob nub) (List.range noa)).map f =
        (List.range (nub * noa)).map fun k => f (k / noa + nob, k % noa) := by
      rw [range_mul, span, List.range'_eq_map_range]
      rw [← map_pairs ((List.range nub).map (nob + ·)) (List.range noa) fun a i => f (a, i),
        ← map_pairs (List.range nub) (List.range noa)
          fun a i => f ((a * noa + i) / noa + nob, (a * noa + i) % noa), List.flatMap_map]
      congr 1
      funext x
      refine List.map_congr_left fun y hy => ?_
      rw [List.mem_range] at hy
      rw [Nat.mul_comm x, Nat.mul_add_div (by omega), Nat.div_eq_of_lt hy, Nat.mul_add_mod, Nat.mod_eq_of_lt hy,
        add_zero, Nat.add_comm]
    rw [e, List.getElem?_map, List.getElem?_range]
    · rw [Option.map_some, Nat.mul_comm, Nat.mul_add_div (by omega), Nat.div_eq_of_lt hi, Nat.mul_add_mod,
        Nat.mod_eq_of_lt hi, add_zero, Nat.sub_add_cancel ha]
    · have : a - nob + 1 ≤ nub := by omega
      calc (a - nob) * noa + i < (a - nob) * noa + noa := by omega
        _ = (a - nob + 1) * noa := by rw [Nat.succ_mul]
        _ ≤ nub * noa := Nat.mul_le_mul_right _ this
  unfold buildSfcis
  rw [get _ a i ha ha' hi, Option.bind_some, get _ b j hb hb' hj,
    element_flip L h3 (by omega) ha ha' hi hb hb' hj]
  simp only [getSz2, eqn]
  congr 1
  by_cases e : (a, i) = (b, j)
  · obtain ⟨h5, h6⟩ := hd e
    obtain ⟨rfl, rfl⟩ := Prod.mk.inj e
    rw [if_neg (by omega : ¬ noa ≤ a), if_neg (by omega : ¬ i < nob)]
    ring
  · have : (if i = j then (1 : ℚ) else 0) * (if a = b then 1 else 0) = 0 := by
      by_cases e2 : i = j
      · rw [if_neg (fun e' : a = b => e (by rw [e', e2])), mul_zero]
      · rw [if_neg e2, zero_mul]
    rw [mul_assoc _ (if i = j then (1 : ℚ) else 0), this, mul_assoc _ (if a = b then (1 : ℚ) else 0),
      mul_comm (if a = b then (1 : ℚ) else 0), this, mul_zero, mul_zero]

/-- **C59 fails** for an attachment to a doublet: a triplet is given `S² = 1`, not 2. -/
theorem C59_attachment_fails (L : Labels up down) :
    build1p ⟨1, 0, 1, 2⟩ = [[1]] ∧ spinMatrix 2 up down (attachments up down 1 0 2) = [[2]] := by
  refine ⟨by decide +kernel, ?_⟩
  have := element_attachment L (na := 1) (nb := 0) (n := 2) (a := 1) (b := 1) (by omega) (by omega) (by omega)
    (by omega) (by omega)
  simp only [spinMatrix, attachments, List.range', List.map_cons, List.map_nil, this]
  norm_num

/-- **C59 fails** for a pair attached to a doublet, one electron of which joins the unpaired one: the doublet is
given `S² = 7/4`, not 3/4. -/
theorem C59_pair_attachment_fails (L : Labels up down) :
    build2p ⟨1, 0, 1, 2⟩ 1 1 = [[7/4]] ∧ spinMatrix 2 up down (pairAttachments up down 1 0 1 1) = [[3/4]] := by
  refine ⟨by decide +kernel, ?_⟩
  have := element_pair_attachment L (na := 1) (nb := 0) (n := 2) (a := 1) (b := 0) (c := 1) (d := 0) (by omega)
    (by omega) (by omega) (by omega) (by omega) (by omega) (by omega) (by omega) (by omega)
  simp only [spinMatrix, pairAttachments, List.range', List.map_cons, List.map_nil, List.flatMap_cons,
    List.flatMap_nil, List.append_nil, this]
  norm_num

/-- **C59 fails** for a pair removed from a doublet: the doublet is given `S² = 0`, not 3/4. -/
theorem C59_pair_removal_fails (L : Labels up down) :
    build2h ⟨2, 1, 0, 1⟩ 2 1 = [[0, 0], [0, 1]] ∧
      spinMatrix 2 up down (pairRemovals up down 2 1 2 1) = [[3/4, 0], [0, 3/4]] := by
  refine ⟨by decide +kernel, ?_⟩
  have := fun i k (hi : i < 2) (hk : k < 2) => element_pair_removal L (na := 2) (nb := 1) (n := 2) (i := i) (j := 0)
    (k := k) (l := 0) (by omega) (by omega) hi (by omega) hk (by omega)
  simp only [spinMatrix, pairRemovals, List.range', List.map_cons, List.map_nil, List.flatMap_cons,
    List.flatMap_nil, List.cons_append, List.nil_append, List.append_nil, Nat.sub_self, Nat.add_zero, Nat.zero_add]
  rw [this 0 0, this 0 1, this 1 0, this 1 1] <;> norm_num

/-- **C59 fails** for spin flips of a triplet from its doubly occupied orbital to an empty one: the configuration
with four unpaired electrons is given `S² = 0`, while its expectation value is 2. -/
theorem C59_spin_flip_fails (L : Labels up down) :
    ((buildSfcis ⟨3, 1, 1, 3⟩ (-1))[6]?.bind (·[6]?)) = some 0 ∧
      inner (cre (down 3) (ann (up 0) (reference up down 3 1)))
        (spinSquared 4 up down (cre (down 3) (ann (up 0) (reference up down 3 1)))) = 2 := by
  refine ⟨by decide +kernel, ?_⟩
  rw [element_flip L (by omega) (by omega) (by omega) (by omega) (by omega) (by omega) (by omega) (by omega)]
  norm_num

/-- The pair spaces of two electrons in closed shells. -/
example : build2p ⟨1, 1, 2, 2⟩ 2 2 = [[0, 0, 0, 0], [0, 1, -1, 0], [0, -1, 1, 0], [0, 0, 0, 0]] := by decide +kernel
example : Labels (fun p : ℕ => 2 * p) (fun p => 2 * p + 1) :=
  ⟨fun p q => by omega, fun p q => by omega, fun p q => by omega, fun p q => by omega⟩

end Ccpy.SpinMatrix
