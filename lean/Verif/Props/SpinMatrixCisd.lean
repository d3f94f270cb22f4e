import Verif.Lemmas.SpinMatrixCisd
import Verif.Props.SpinMatrix

/-! The `S²` matrix of the active-space CISD guess against the total-spin operator. -/

namespace Ccpy.SpinMatrix

open Ccpy.Fock

variable {ι : Type*} [LinearOrder ι] {up down : ℕ → ι}

/-- The active orbitals fit. -/
structure Fits (s : Counts) (t : Active) : Prop where
  oa : t.nactoA ≤ s.noa
  ob : t.nactoB ≤ s.nob
  ua : t.nactuA ≤ s.nua
  ub : t.nactuB ≤ s.nub

theorem active_fits (s : Counts) (m o u : ℕ) : Fits s (active s m o u) :=
  ⟨Nat.min_le_right _ _, Nat.min_le_right _ _, Nat.min_le_right _ _, Nat.min_le_right _ _⟩

/-- **C60** The matrix of `build_s2matrix_cisd` is that of the total-spin operator between the reference's single
excitations and active double excitations, for open and closed shells and any active orbitals. -/
theorem C60_cisd (L : Labels up down) {s : Counts} {n : ℕ} (h : Consistent s n) {t : Active} (ht : Fits s t) :
    buildCisd s t = spinMatrix n up down (singlesUp up down s.noa s.nob n ++ singlesDown up down s.noa s.nob n ++
      doublesUp up down s.noa s.nob t.nactoA t.nactuA ++
      doublesMixed up down s.noa s.nob t.nactoA t.nactoB t.nactuA t.nactuB ++
      doublesDown up down s.noa s.nob t.nactoB t.nactuB) := by
  have e1 : n - s.noa = s.nua := by have := h.alpha; omega
  have e2 : n - s.nob = s.nub := by have := h.beta; omega
  have hA : singlesUp up down s.noa s.nob n = (pairsA s).map (vA up down s) := by
    unfold singlesUp; rw [e1, map_pairs]; rfl
  have hB : singlesDown up down s.noa s.nob n = (pairsB s).map (vB up down s) := by
    unfold singlesDown; rw [e2, map_pairs]; rfl
  have hAA : doublesUp up down s.noa s.nob t.nactoA t.nactuA = (quadsAA s t).map (vAA up down s) := by
    unfold doublesUp; rw [map_quads]; rfl
  have hAB : doublesMixed up down s.noa s.nob t.nactoA t.nactoB t.nactuA t.nactuB =
      (quadsAB s t).map (vAB up down s) := by
    unfold doublesMixed
    rw [map_quads _ (fun _ => List.range' s.nob t.nactuB) _ (fun _ => List.range' (s.nob - t.nactoB) t.nactoB)]
    rfl
  have hBB : doublesDown up down s.noa s.nob t.nactoB t.nactuB = (quadsBB s t).map (vBB up down s) := by
    unfold doublesDown; rw [map_quads]; rfl
  rw [hA, hB, hAA, hAB, hBB]
  obtain ⟨noa, nob, nua, nub⟩ := s
  obtain ⟨oa, ob, ua, ub⟩ := t
  obtain ⟨h1, h2, h3⟩ := h
  obtain ⟨t1, t2, t3, t4⟩ := ht
  simp only at h1 h2 h3 t1 t2 t3 t4
  have mA : ∀ p ∈ pairsA ⟨noa, nob, nua, nub⟩, noa ≤ p.1 ∧ p.1 < n ∧ p.2 < noa := by
    intro p hp
    have := mem_pairs.mp hp
    simp only [List.mem_range'_1, List.mem_range] at this
    omega
  have mB : ∀ p ∈ pairsB ⟨noa, nob, nua, nub⟩, nob ≤ p.1 ∧ p.1 < n ∧ p.2 < nob := by
    intro p hp
    have := mem_pairs.mp hp
    simp only [List.mem_range'_1, List.mem_range] at this
    omega
  have mAA : ∀ x ∈ quadsAA ⟨noa, nob, nua, nub⟩ ⟨oa, ob, ua, ub⟩, noa ≤ x.1 ∧ x.1 < x.2.1 ∧ x.2.1 < n ∧
      x.2.2.1 < x.2.2.2 ∧ x.2.2.2 < noa := by
    intro x hx
    have := mem_quads.mp hx
    simp only [List.mem_range'_1] at this
    omega
  have mAB : ∀ x ∈ quadsAB ⟨noa, nob, nua, nub⟩ ⟨oa, ob, ua, ub⟩, noa ≤ x.1 ∧ x.1 < n ∧ nob ≤ x.2.1 ∧ x.2.1 < n ∧
      x.2.2.1 < noa ∧ x.2.2.2 < nob := by
    intro x hx
    have := mem_quads.mp hx
    simp only [List.mem_range'_1] at this
    omega
  have mBB : ∀ x ∈ quadsBB ⟨noa, nob, nua, nub⟩ ⟨oa, ob, ua, ub⟩, nob ≤ x.1 ∧ x.1 < x.2.1 ∧ x.2.1 < n ∧
      x.2.2.1 < x.2.2.2 ∧ x.2.2.2 < nob := by
    intro x hx
    have := mem_quads.mp hx
    simp only [List.mem_range'_1] at this
    omega
  have hpi : ∀ a, a < n → piAlpha ⟨noa, nob, nua, nub⟩ a = if a < noa then 0 else 1 := by
    intro a ha
    unfold piAlpha
    simp only
    split_ifs <;> first | rfl | omega
  have hz : getSz2 ⟨noa, nob, nua, nub⟩ 0 = (((noa : ℚ) - nob) / 2 + 1) * (((noa : ℚ) - nob) / 2) := by
    simp only [getSz2]; ring
  unfold buildCisd
  generalize pairsA ⟨noa, nob, nua, nub⟩ = PA at mA ⊢
  generalize pairsB ⟨noa, nob, nua, nub⟩ = PB at mB ⊢
  generalize quadsAA ⟨noa, nob, nua, nub⟩ ⟨oa, ob, ua, ub⟩ = QAA at mAA ⊢
  generalize quadsAB ⟨noa, nob, nua, nub⟩ ⟨oa, ob, ua, ub⟩ = QAB at mAB ⊢
  generalize quadsBB ⟨noa, nob, nua, nub⟩ ⟨oa, ob, ua, ub⟩ = QBB at mBB ⊢
  have hn : noa ≤ n := by omega
  -- the diagonal and upper blocks
  have b1 : ∀ p ∈ PA, ∀ q ∈ PA, entryAA ⟨noa, nob, nua, nub⟩ p q =
      inner (vA up down ⟨noa, nob, nua, nub⟩ p) (spinSquared n up down (vA up down ⟨noa, nob, nua, nub⟩ q)) := by
    intro p hp q hq
    have := mA p hp; have := mA q hq
    unfold vA
    rw [element_uu L h3 hn (by omega) (by omega) (by omega) (by omega) (by omega) (by omega), entryAA, hz]
    simp only [chiBeta, eqn]
    ring
  have b2 : ∀ p ∈ PA, ∀ q ∈ PB, entryAB p q =
      inner (vA up down ⟨noa, nob, nua, nub⟩ p) (spinSquared n up down (vB up down ⟨noa, nob, nua, nub⟩ q)) := by
    intro p hp q hq
    have := mA p hp; have := mB q hq
    unfold vA vB
    rw [element_ud L h3 hn (by omega) (by omega) (by omega) (by omega) (by omega) (by omega), entryAB]
    simp only [eqn]
    ring
  have b3 : ∀ p ∈ PB, ∀ q ∈ PB, entryBB ⟨noa, nob, nua, nub⟩ p q =
      inner (vB up down ⟨noa, nob, nua, nub⟩ p) (spinSquared n up down (vB up down ⟨noa, nob, nua, nub⟩ q)) := by
    intro p hp q hq
    have := mB p hp; have := mB q hq
    unfold vB
    rw [element_dd L h3 hn (by omega) (by omega) (by omega) (by omega) (by omega) (by omega), entryBB, hz,
      hpi _ (by omega)]
    simp only [eqn]
    by_cases e : p.1 < noa
    · rw [if_pos e, if_neg (by omega : ¬ noa ≤ p.1)]; ring
    · rw [if_neg e, if_pos (by omega : noa ≤ p.1)]; ring
  have b4 : ∀ p ∈ PA, ∀ q ∈ QAB, entryA_AB p q =
      inner (vA up down ⟨noa, nob, nua, nub⟩ p) (spinSquared n up down (vAB up down ⟨noa, nob, nua, nub⟩ q)) := by
    rintro ⟨a, i⟩ hp ⟨B, C, J, K⟩ hq
    have hp := mA _ hp; have hq := mAB _ hq
    simp only at hp hq
    unfold vA vAB
    rw [element_a_ab L h3 hn (a := a) (i := i) (B := B) (C := C) (J := J) (K := K) (by omega) (by omega) (by omega) (by omega) (by omega) (by omega) (by omega) (by omega) (by omega), entryA_AB]
    ring
  have b5 : ∀ p ∈ PB, ∀ q ∈ QAB, entryB_AB p q =
      inner (vB up down ⟨noa, nob, nua, nub⟩ p) (spinSquared n up down (vAB up down ⟨noa, nob, nua, nub⟩ q)) := by
    rintro ⟨a, i⟩ hp ⟨B, C, J, K⟩ hq
    have hp := mB _ hp; have hq := mAB _ hq
    simp only at hp hq
    unfold vB vAB
    rw [element_b_ab L h3 hn (a := a) (i := i) (B := B) (C := C) (J := J) (K := K) (by omega) (by omega) (by omega) (by omega) (by omega) (by omega) (by omega) (by omega) (by omega), entryB_AB]
    ring
  have b6 : ∀ p ∈ PA, ∀ q ∈ QAA, 0 =
      inner (vA up down ⟨noa, nob, nua, nub⟩ p) (spinSquared n up down (vAA up down ⟨noa, nob, nua, nub⟩ q)) := by
    rintro ⟨a, i⟩ hp ⟨B, C, J, K⟩ hq
    have hp := mA _ hp; have hq := mAA _ hq
    simp only at hp hq
    unfold vA vAA
    rw [element_a_aa L h3 hn (a := a) (i := i) (B := B) (C := C) (J := J) (K := K) (by omega) (by omega) (by omega) (by omega) (by omega) (by omega) (by omega) (by omega) (by omega)]
  have b7 : ∀ p ∈ PB, ∀ q ∈ QAA, 0 =
      inner (vB up down ⟨noa, nob, nua, nub⟩ p) (spinSquared n up down (vAA up down ⟨noa, nob, nua, nub⟩ q)) := by
    rintro ⟨a, i⟩ hp ⟨B, C, J, K⟩ hq
    have hp := mB _ hp; have hq := mAA _ hq
    simp only at hp hq
    unfold vB vAA
    rw [element_b_aa L h3 hn (a := a) (i := i) (B := B) (C := C) (J := J) (K := K) (by omega) (by omega) (by omega) (by omega) (by omega) (by omega) (by omega) (by omega) (by omega)]
  have b8 : ∀ p ∈ PA, ∀ q ∈ QBB, 0 =
      inner (vA up down ⟨noa, nob, nua, nub⟩ p) (spinSquared n up down (vBB up down ⟨noa, nob, nua, nub⟩ q)) := by
    rintro ⟨a, i⟩ hp ⟨B, C, J, K⟩ hq
    have hp := mA _ hp; have hq := mBB _ hq
    simp only at hp hq
    unfold vA vBB
    rw [element_a_bb L h3 hn (a := a) (i := i) (B := B) (C := C) (J := J) (K := K) (by omega) (by omega) (by omega) (by omega) (by omega) (by omega) (by omega) (by omega) (by omega)]
  have b9 : ∀ p ∈ PB, ∀ q ∈ QBB, 0 =
      inner (vB up down ⟨noa, nob, nua, nub⟩ p) (spinSquared n up down (vBB up down ⟨noa, nob, nua, nub⟩ q)) := by
    rintro ⟨a, i⟩ hp ⟨B, C, J, K⟩ hq
    have hp := mB _ hp; have hq := mBB _ hq
    simp only at hp hq
    unfold vB vBB
    rw [element_b_bb L h3 hn (a := a) (i := i) (B := B) (C := C) (J := J) (K := K) (by omega) (by omega) (by omega) (by omega) (by omega) (by omega) (by omega) (by omega) (by omega)]
  have b10 : ∀ p ∈ QAA, ∀ q ∈ QBB, 0 =
      inner (vAA up down ⟨noa, nob, nua, nub⟩ p) (spinSquared n up down (vBB up down ⟨noa, nob, nua, nub⟩ q)) := by
    rintro ⟨A, B, I, J⟩ hp ⟨C, D, K, M⟩ hq
    have hp := mAA _ hp; have hq := mBB _ hq
    simp only at hp hq
    unfold vAA vBB
    rw [element_aa_bb L h3 hn (A := A) (B := B) (I := I) (J := J) (C := C) (D := D) (K := K) (M := M) (by omega) (by omega) (by omega) (by omega) (by omega) (by omega) (by omega) (by omega)
      (by omega) (by omega) (by omega) (by omega)]
  have b11 : ∀ p ∈ QAA, ∀ q ∈ QAA, entryAA_AA ⟨noa, nob, nua, nub⟩ p q =
      inner (vAA up down ⟨noa, nob, nua, nub⟩ p) (spinSquared n up down (vAA up down ⟨noa, nob, nua, nub⟩ q)) := by
    rintro ⟨A, B, I, J⟩ hp ⟨C, D, K, M⟩ hq
    have hp := mAA _ hp; have hq := mAA _ hq
    simp only at hp hq
    unfold vAA
    rw [element_aa_aa L h3 hn (A := A) (B := B) (I := I) (J := J) (C := C) (D := D) (K := K) (M := M) (by omega) (by omega) (by omega) (by omega) (by omega) (by omega) (by omega) (by omega)
      (by omega) (by omega) (by omega) (by omega) (by omega) (by omega) (by omega) (by omega), entryAA_AA, hz]
    simp only [chiBeta]
    by_cases e : I = M
    · rw [eqn_ne (by omega : I ≠ K), eqn_ne (by omega : J ≠ K), eqn_ne (by omega : J ≠ M)]; ring
    · rw [eqn_ne e]; ring
  have b12 : ∀ p ∈ QAA, ∀ q ∈ QAB, entryAA_AB p q =
      inner (vAA up down ⟨noa, nob, nua, nub⟩ p) (spinSquared n up down (vAB up down ⟨noa, nob, nua, nub⟩ q)) := by
    rintro ⟨A, B, I, J⟩ hp ⟨C, D, K, M⟩ hq
    have hp := mAA _ hp; have hq := mAB _ hq
    simp only at hp hq
    unfold vAA vAB
    rw [element_aa_ab L h3 hn (A := A) (B := B) (I := I) (J := J) (C := C) (D := D) (K := K) (M := M) (by omega) (by omega) (by omega) (by omega) (by omega) (by omega) (by omega) (by omega)
      (by omega) (by omega) (by omega) (by omega), entryAA_AB]
    ring
  have b13 : ∀ p ∈ QAB, ∀ q ∈ QAB, entryAB_AB ⟨noa, nob, nua, nub⟩ p q =
      inner (vAB up down ⟨noa, nob, nua, nub⟩ p) (spinSquared n up down (vAB up down ⟨noa, nob, nua, nub⟩ q)) := by
    rintro ⟨A, B, I, J⟩ hp ⟨C, D, K, M⟩ hq
    have hp := mAB _ hp; have hq := mAB _ hq
    simp only at hp hq
    unfold vAB
    rw [element_ab_ab L h3 hn (A := A) (B := B) (I := I) (J := J) (C := C) (D := D) (K := K) (M := M) (by omega) (by omega) (by omega) (by omega) (by omega) (by omega) (by omega) (by omega)
      (by omega) (by omega) (by omega) (by omega), entryAB_AB, hz, hpi _ (by omega)]
    simp only [chiBeta]
    ring
  have b14 : ∀ p ∈ QAB, ∀ q ∈ QBB, entryAB_BB p q =
      inner (vAB up down ⟨noa, nob, nua, nub⟩ p) (spinSquared n up down (vBB up down ⟨noa, nob, nua, nub⟩ q)) := by
    rintro ⟨A, B, I, J⟩ hp ⟨C, D, K, M⟩ hq
    have hp := mAB _ hp; have hq := mBB _ hq
    simp only at hp hq
    unfold vAB vBB
    rw [element_ab_bb L h3 hn (A := A) (B := B) (I := I) (J := J) (C := C) (D := D) (K := K) (M := M) (by omega) (by omega) (by omega) (by omega) (by omega) (by omega) (by omega) (by omega)
      (by omega) (by omega) (by omega) (by omega), entryAB_BB]
    ring
  have b15 : ∀ p ∈ QBB, ∀ q ∈ QBB, entryBB_BB ⟨noa, nob, nua, nub⟩ p q =
      inner (vBB up down ⟨noa, nob, nua, nub⟩ p) (spinSquared n up down (vBB up down ⟨noa, nob, nua, nub⟩ q)) := by
    rintro ⟨A, B, I, J⟩ hp ⟨C, D, K, M⟩ hq
    have hp := mBB _ hp; have hq := mBB _ hq
    simp only at hp hq
    unfold vBB
    rw [element_bb_bb L h3 hn (A := A) (B := B) (I := I) (J := J) (C := C) (D := D) (K := K) (M := M) (by omega) (by omega) (by omega) (by omega) (by omega) (by omega) (by omega) (by omega)
      (by omega) (by omega) (by omega) (by omega) (by omega) (by omega) (by omega) (by omega), entryBB_BB, hz,
      hpi _ (by omega), hpi _ (by omega)]
    by_cases e : A = D
    · rw [eqn_ne (by omega : A ≠ C), eqn_ne (by omega : B ≠ C), eqn_ne (by omega : B ≠ D)]; ring
    · rw [eqn_ne e]; ring
  have sy : ∀ {α β : Type} (P : List α) (Q : List β) (f : α → β → ℚ) (u : α → Vec ι) (v : β → Vec ι),
      (∀ p ∈ P, ∀ q ∈ Q, f p q = inner (u p) (spinSquared n up down (v q))) →
      ∀ q ∈ Q, ∀ p ∈ P, f p q = inner (v q) (spinSquared n up down (u p)) :=
    fun P Q f u v h q hq p hp => (h p hp q hq).trans (spinSquared_symm _ _)
  simp only []
  rw [block_congr _ _ _ _ _ n b1, block_congr _ _ _ _ _ n b2, block_congr _ _ _ _ _ n b3, block_congr _ _ _ _ _ n b4,
    block_congr _ _ _ _ _ n b5, block_congr _ _ _ _ _ n b6, block_congr _ _ _ _ _ n b7, block_congr _ _ _ _ _ n b8,
    block_congr _ _ _ _ _ n b9, block_congr _ _ _ _ _ n b10, block_congr _ _ _ _ _ n b11,
    block_congr _ _ _ _ _ n b12, block_congr _ _ _ _ _ n b13, block_congr _ _ _ _ _ n b14,
    block_congr _ _ _ _ _ n b15,
    block_congr _ _ _ _ _ n (sy _ _ _ _ _ b2), block_congr _ _ _ _ _ n (sy _ _ _ _ _ b4),
    block_congr _ _ _ _ _ n (sy _ _ _ _ _ b5), block_congr _ _ (fun _ _ => 0) _ _ n (sy _ _ _ _ _ b6),
    block_congr _ _ (fun _ _ => 0) _ _ n (sy _ _ _ _ _ b7),
    block_congr _ _ (fun _ _ => 0) _ _ n (sy _ _ _ _ _ b8), block_congr _ _ (fun _ _ => 0) _ _ n (sy _ _ _ _ _ b9),
    block_congr _ _ (fun _ _ => 0) _ _ n (sy _ _ _ _ _ b10),
    block_congr _ _ _ _ _ n (sy _ _ _ _ _ b12), block_congr _ _ _ _ _ n (sy _ _ _ _ _ b14)]
  unfold block spinMatrix
  simp only [beside_map, List.map_append, List.map_map, Function.comp_def, List.append_assoc]

/-- Five electrons in four orbitals, one active occupied and one active unoccupied orbital plus the open shell. -/
example : Consistent ⟨3, 2, 1, 2⟩ 4 ∧ Fits ⟨3, 2, 1, 2⟩ (active ⟨3, 2, 1, 2⟩ 2 1 1) :=
  ⟨⟨by decide, by decide, by decide⟩, active_fits _ _ _ _⟩

/-- Three electrons in three orbitals: two α singles, two β singles and the four αβ doubles of the active space
`nacto = nactu = 1`, multiplicity two. -/
example : buildCisd ⟨2, 1, 1, 2⟩ (active ⟨2, 1, 1, 2⟩ 2 1 1) =
    [[7/4, 0, 0, -1, 0, 1, 0, 0], [0, 3/4, 0, 0, 0, 0, 0, 0], [0, 0, 3/4, 0, 0, 0, 0, 0],
     [-1, 0, 0, 7/4, 0, -1, 0, 0], [0, 0, 0, 0, 3/4, 0, 0, 0], [1, 0, 0, -1, 0, 7/4, 0, 0],
     [0, 0, 0, 0, 0, 0, 3/4, 0], [0, 0, 0, 0, 0, 0, 0, 3/4]] := by
  decide +kernel

end Ccpy.SpinMatrix
