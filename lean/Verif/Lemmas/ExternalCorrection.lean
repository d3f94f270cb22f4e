import Verif.Lemmas.Phases
import Mathlib.Order.Interval.Finset.Nat
import Mathlib.Tactic.IntervalCases
import Mathlib.Algebra.Field.Rat

namespace Ccpy.ExternalCorrection
open Ccpy.Spec Ccpy.Permutations Ccpy.Determinants Ccpy.Phases

theorem mem_hfDet (noa nob x : ℕ) :
    x ∈ hfDet noa nob ↔ (x % 2 = 1 ∧ x < 2 * noa) ∨ (x % 2 = 0 ∧ 1 ≤ x ∧ x ≤ 2 * nob) := by
  unfold hfDet
  rw [(List.perm_insertionSort _ _).mem_iff]
  simp only [List.mem_append, List.mem_map, List.mem_range]
  constructor
  · rintro (⟨i, hi, rfl⟩ | ⟨i, hi, rfl⟩)
    · left; omega
    · right; omega
  · rintro (⟨h1, h2⟩ | ⟨h1, h2, h3⟩)
    · left; exact ⟨x / 2, by omega, by omega⟩
    · right; exact ⟨x / 2 - 1, by omega, by omega⟩

theorem hfDet_closed (m : ℕ) : (hfDet m m).toFinset = Finset.Icc 1 (2 * m) := by
  ext x
  rw [List.mem_toFinset, mem_hfDet, Finset.mem_Icc]; omega

theorem hfDet_doublet (m : ℕ) : (hfDet (m + 1) m).toFinset = Finset.Icc 1 (2 * m + 1) := by
  ext x
  rw [List.mem_toFinset, mem_hfDet, Finset.mem_Icc]; omega

theorem sort_pairwise (s : Finset ℕ) : (s.sort (· ≤ ·)).Pairwise (· < ·) :=
  s.sortedLT_sort.pairwise

theorem sum_mod2 (s : List ℕ) : (s.map (· % 2)).sum = s.countP (fun i => i % 2 = 1) := by
  induction s with
  | nil => rfl
  | cons a s ih =>
    simp only [List.map_cons, List.sum_cons, ih, List.countP_cons, decide_eq_true_eq]
    split <;> omega

theorem countP_sort (s : Finset ℕ) (P : ℕ → Prop) [DecidablePred P] :
    (s.sort (· ≤ ·)).countP (fun i => decide (P i)) = (s.filter P).card := by
  rw [List.countP_eq_length_filter, ← List.toFinset_card_of_nodup]
  · congr 1
    ext x; simp
  · exact (s.sort_nodup _).filter _

theorem alphaSorted_eq (s : Finset ℕ) :
    alphaSorted s = (s.filter (fun i => i % 2 = 1)).sort (· ≤ ·) := fsort_eq _

theorem betaSorted_eq (s : Finset ℕ) :
    betaSorted s = (s.filter (fun i => i % 2 = 0)).sort (· ≤ ·) := fsort_eq _

theorem alphaSorted_length (s : Finset ℕ) :
    (alphaSorted s).length = ((s.sort (· ≤ ·)).map (· % 2)).sum := by
  rw [sum_mod2, countP_sort]; simp [alphaSorted_eq]

theorem alpha_add_beta_length (s : Finset ℕ) :
    (alphaSorted s).length + (betaSorted s).length = s.card := by
  simp only [alphaSorted_eq, betaSorted_eq, Finset.length_sort]
  rw [← Finset.card_filter_add_card_filter_not (s := s) (fun i => i % 2 = 1)]
  congr 1
  congr 1
  ext x; simp only [Finset.mem_filter]; constructor <;> rintro ⟨h1, h2⟩ <;> exact ⟨h1, by omega⟩

theorem mem_alphaSorted (s : Finset ℕ) (x : ℕ) : x ∈ alphaSorted s ↔ x ∈ s ∧ x % 2 = 1 := by
  simp [alphaSorted_eq]

theorem mem_betaSorted (s : Finset ℕ) (x : ℕ) : x ∈ betaSorted s ↔ x ∈ s ∧ x % 2 = 0 := by
  simp [betaSorted_eq]

theorem toFinset_alpha_beta (s : Finset ℕ) : (alphaSorted s ++ betaSorted s).toFinset = s := by
  ext x
  simp only [List.mem_toFinset, List.mem_append, mem_alphaSorted, mem_betaSorted]
  constructor
  · rintro (h | h) <;> exact h.1
  · intro h
    rcases Nat.mod_two_eq_zero_or_one x with h2 | h2
    · exact Or.inr ⟨h, h2⟩
    · exact Or.inl ⟨h, h2⟩

theorem nodup_alpha_beta (s : Finset ℕ) : (alphaSorted s ++ betaSorted s).Nodup := by
  rw [List.nodup_append]
  refine ⟨by rw [alphaSorted_eq]; exact Finset.sort_nodup _ _, by rw [betaSorted_eq]; exact Finset.sort_nodup _ _, ?_⟩
  intro a ha b hb
  rw [mem_alphaSorted] at ha
  rw [mem_betaSorted] at hb
  rintro rfl
  omega

theorem spincase_some {f t : Finset ℕ} {sc : List Char}
    (h : getSpincase (f.sort (· ≤ ·)) (t.sort (· ≤ ·)) = some sc) :
    (alphaSorted f).length = (alphaSorted t).length ∧
    (betaSorted f).length = (betaSorted t).length ∧
    sc = List.replicate (alphaSorted f).length 'a' ++ List.replicate (betaSorted f).length 'b' := by
  unfold getSpincase at h
  have hf := alpha_add_beta_length f
  have ht := alpha_add_beta_length t
  rw [← alphaSorted_length, ← alphaSorted_length] at h
  simp only [Finset.length_sort] at h
  split at h
  · split at h
    · rename_i h1 h2
      refine ⟨h2, by omega, ?_⟩
      rw [Option.some.injEq] at h
      rw [← h]
      congr 2; omega
    · exact absurd h (by simp)
  · exact absurd h (by simp)

/-- what a successful `parseLine` did -/
theorem parseLine_store {noa nob nub : ℕ} {chf coeff : ℚ} {det : List ℕ} {sc : List Char}
    {e : List ℤ} {c : ℚ} (h : parseLine noa nob nub chf det coeff = .store sc e c) :
    let occ := getExcitsFrom det (hfDet noa nob)
    let unocc := getExcitsTo det (hfDet noa nob)
    det ≠ hfDet noa nob ∧ unocc.card ≤ 4 ∧
    getSpincase (occ.sort (· ≤ ·)) (unocc.sort (· ≤ ·)) = some sc ∧
    c = coeff / chf * permParity (alphaSorted unocc) (betaSorted unocc) (alphaSorted occ) (betaSorted occ) ∧
    e = List.zipWith (fun x s => x - s)
          ((alphaSorted unocc ++ betaSorted unocc).map (fun x => (spatialOrbIdx x : ℤ)))
          (sc.map (orbTable noa nob)) ++
        (alphaSorted occ ++ betaSorted occ).map (fun x => (spatialOrbIdx x : ℤ)) := by
  intro occ unocc
  unfold parseLine at h
  simp only at h
  split at h
  · exact absurd h (by simp)
  · rename_i hne
    split at h
    · exact absurd h (by simp)
    · rename_i hrank
      split at h
      · exact absurd h (by simp)
      · rename_i sc' hsc
        split at h
        · exact absurd h (by simp)
        · split at h
          · exact absurd h (by simp)
          · simp only [Line.store.injEq] at h
            obtain ⟨h1, h2, h3⟩ := h
            subst h1
            rw [fsort_eq, fsort_eq] at hsc
            exact ⟨hne, not_lt.mp hrank, hsc, h3.symm, h2.symm⟩

theorem signFix_eq (a b : ℕ) (hab : a + b ≤ 4) (c : ℚ) :
    signFix (List.replicate a 'a' ++ List.replicate b 'b') c = c * (((-1) ^ (b * (1 + a)) : ℤ) : ℚ) := by
  have ha : a ≤ 4 := by omega
  have hb : b ≤ 4 := by omega
  interval_cases a <;> interval_cases b <;> first | omega | (simp [signFix, List.replicate])

theorem pow_congr_mod2 {x y : ℕ} (h : (x + y) % 2 = 0) : (-1 : ℤ) ^ x = (-1) ^ y := by
  rcases Nat.even_or_odd x with hx | hx
  · have hy : Even y := by
      rw [Nat.even_iff] at *; omega
    rw [hx.neg_one_pow, hy.neg_one_pow]
  · have hy : Odd y := by
      rw [Nat.odd_iff] at *; omega
    rw [hx.neg_one_pow, hy.neg_one_pow]

/-- Phases for a reference occupying the first `N` spin-orbitals without gaps. -/
theorem phase_contiguous (N : ℕ) (HF occ unocc : Finset ℕ) (hHF : HF = Finset.Icc 1 N)
    (hocc : occ ⊆ HF) (hun : ∀ u ∈ unocc, N < u)
    (hA : (alphaSorted occ).length = (alphaSorted unocc).length)
    (hB : (betaSorted occ).length = (betaSorted unocc).length) :
    excite (alphaSorted unocc ++ betaSorted unocc) (alphaSorted occ ++ betaSorted occ) HF =
      some ((-1) ^ (((betaSorted occ).length) * (1 + (alphaSorted occ).length) + occ.card * N) *
        permParity (alphaSorted unocc) (betaSorted unocc) (alphaSorted occ) (betaSorted occ),
        (HF \ occ) ∪ unocc) := by
  set oA := alphaSorted occ with hoA
  set oB := betaSorted occ with hoB
  set uA := alphaSorted unocc with huA
  set uB := betaSorted unocc with huB
  have hos : (oA ++ oB).toFinset = occ := toFinset_alpha_beta occ
  have hus : (uA ++ uB).toFinset = unocc := toFinset_alpha_beta unocc
  have ndo : (oA ++ oB).Nodup := nodup_alpha_beta occ
  have ndu : (uA ++ uB).Nodup := nodup_alpha_beta unocc
  have memo : ∀ o ∈ oA ++ oB, o ∈ occ := fun o ho => by rw [← hos]; simpa using ho
  have memu : ∀ o ∈ uA ++ uB, o ∈ unocc := fun o ho => by rw [← hus]; simpa using ho
  have hn : oA.length + oB.length = occ.card := alpha_add_beta_length occ
  unfold excite
  rw [annihilate_list _ _ _ ndo (fun o ho => hocc (memo o ho))]
  simp only [Option.bind_some]
  rw [create_list _ _ _ ndu (by
    intro u hu hu'
    have h1 := hun u (memu u hu)
    have h2 := (Finset.mem_sdiff.mp hu').1
    rw [hHF, Finset.mem_Icc] at h2; omega)]
  rw [hos, hus]
  congr 2
  -- the phase
  have hNc : HF.card = N := by rw [hHF]; simp
  have hle : occ.card ≤ N := by rw [← hNc]; exact Finset.card_le_card hocc
  have hb1 : ((oA ++ oB).map (below HF)).sum % 2 = oB.length % 2 := by
    have hbelow : ∀ o ∈ occ, below HF o = o - 1 := by
      intro o ho
      have ho' := hocc ho
      rw [hHF, Finset.mem_Icc] at ho'
      unfold below
      have : HF.filter (· < o) = Finset.Ico 1 o := by
        ext x; rw [hHF]; simp only [Finset.mem_filter, Finset.mem_Icc, Finset.mem_Ico]; omega
      rw [this]; simp
    have hA' : ∀ l : List ℕ, (∀ x ∈ l, x ∈ occ ∧ x % 2 = 1) → (l.map (below HF)).sum % 2 = 0 := by
      intro l hl
      induction l with
      | nil => rfl
      | cons x l ih =>
        have h1 := ih (fun y hy => hl y (List.mem_cons_of_mem _ hy))
        have h2 := hl x (by simp)
        rw [List.map_cons, List.sum_cons, hbelow x h2.1]; omega
    have hB' : ∀ l : List ℕ, (∀ x ∈ l, x ∈ occ ∧ x % 2 = 0) → (l.map (below HF)).sum % 2 = l.length % 2 := by
      intro l hl
      induction l with
      | nil => rfl
      | cons x l ih =>
        have h1 := ih (fun y hy => hl y (List.mem_cons_of_mem _ hy))
        have h2 := hl x (by simp)
        have h3 := hocc h2.1
        rw [hHF, Finset.mem_Icc] at h3
        rw [List.map_cons, List.sum_cons, hbelow x h2.1, List.length_cons]; omega
    rw [List.map_append, List.sum_append]
    have h1 := hA' oA (fun x hx => (mem_alphaSorted occ x).mp hx)
    have h2 := hB' oB (fun x hx => (mem_betaSorted occ x).mp hx)
    omega
  have hb2 : ((uA ++ uB).map (below (HF \ occ))).sum = occ.card * (N - occ.card) := by
    have hbelow : ∀ u ∈ uA ++ uB, below (HF \ occ) u = N - occ.card := by
      intro u hu
      have h1 := hun u (memu u hu)
      unfold below
      rw [Finset.filter_true_of_mem, Finset.card_sdiff_of_subset hocc, hNc]
      intro x hx
      have := (Finset.mem_sdiff.mp hx).1
      rw [hHF, Finset.mem_Icc] at this; omega
    rw [List.map_congr_left hbelow, List.map_const', List.sum_replicate, List.length_append, ← hA, ← hB, hn]
    simp
  have hinv : inversions (uA ++ uB ++ oA.reverse ++ oB.reverse) =
      inversions (uA ++ uB) + (ascents oA + ascents oB + inversions (oA ++ oB)) +
        occ.card * occ.card := by
    rw [List.append_assoc, inversions_append (uA ++ uB), inversions_append oA.reverse oB.reverse,
      inversions_reverse, inversions_reverse]
    rw [cross_perm oA.reverse oA oB.reverse oB (List.reverse_perm _) (List.reverse_perm _)]
    rw [inversions_append oA oB, inversions_sorted oA (by rw [hoA, alphaSorted_eq]; exact sort_pairwise _),
      inversions_sorted oB (by rw [hoB, betaSorted_eq]; exact sort_pairwise _)]
    rw [cross_all (uA ++ uB) (oA.reverse ++ oB.reverse)]
    · simp only [List.length_append, List.length_reverse]
      rw [← hA, ← hB, hn]; ring
    · intro a ha b hb
      have h1 := hun a (memu a ha)
      have h2 : b ∈ occ := by
        apply memo
        simpa using hb
      have := hocc h2
      rw [hHF, Finset.mem_Icc] at this; omega
  have hndall : (uA ++ uB ++ oA.reverse ++ oB.reverse).Nodup := by
    rw [List.append_assoc, List.nodup_append]
    refine ⟨ndu, ?_, ?_⟩
    · have : (oA.reverse ++ oB.reverse).Perm (oA ++ oB) :=
        (List.reverse_perm _).append (List.reverse_perm _)
      exact this.nodup_iff.mpr ndo
    · intro a ha b hb
      have h1 := hun a (memu a ha)
      have h2 : b ∈ occ := by
        apply memo
        simpa using hb
      have := hocc h2
      rw [hHF, Finset.mem_Icc] at this; omega
  unfold permParity
  rw [parity_argsort _ hndall, signOf, hinv, hb2, one_mul, ← pow_add, ← pow_add]
  apply pow_congr_mod2
  have c1 := ascents_add_inversions (oA ++ oB) ndo
  have c2 := ascents_add_inversions oA (by rw [hoA, alphaSorted_eq]; exact Finset.sort_nodup _ _)
  have c3 := ascents_add_inversions oB (by rw [hoB, betaSorted_eq]; exact Finset.sort_nodup _ _)
  rw [inversions_sorted oA (by rw [hoA, alphaSorted_eq]; exact sort_pairwise _)] at c2
  rw [inversions_sorted oB (by rw [hoB, betaSorted_eq]; exact sort_pairwise _)] at c3
  have c4 : ∀ a b : ℕ, (a + b).choose 2 = a.choose 2 + b.choose 2 + a * b := by
    intro a b
    induction b with
    | zero => simp
    | succ b ih =>
      have h1 : (a + (b + 1)).choose 2 = (a + b) + (a + b).choose 2 := by
        rw [← Nat.add_assoc, Nat.choose_succ_succ' (a + b) 1, Nat.choose_one_right]
      have h2 : (b + 1).choose 2 = b + b.choose 2 := by
        rw [Nat.choose_succ_succ' b 1, Nat.choose_one_right]
      rw [h1, h2, ih]; ring
  rw [List.length_append, c4] at c1
  obtain ⟨r, hr⟩ : ∃ r, N = occ.card + r := ⟨N - occ.card, by omega⟩
  have hr' : N - occ.card = r := by omega
  rw [hr', hr, ← hn]
  obtain ⟨q, hq⟩ : ∃ q, ((oA ++ oB).map (below HF)).sum + oB.length = 2 * q :=
    ⟨(((oA ++ oB).map (below HF)).sum + oB.length) / 2, by omega⟩
  set S := ((oA ++ oB).map (below HF)).sum
  set a := oA.length
  set b := oB.length
  have : S + ascents (oA ++ oB) + ((a + b) * r + inversions (uA ++ uB)) +
      (b * (1 + a) + (a + b) * (a + b + r) +
        (inversions (uA ++ uB) + (ascents oA + ascents oB + inversions (oA ++ oB)) + (a + b) * (a + b))) =
      2 * (q + (a + b) * r + inversions (uA ++ uB) + (a + b) * (a + b) + a.choose 2 + b.choose 2 + a * b) := by
    linear_combination hq + c1 + c2 + c3
  rw [this]; simp

end Ccpy.ExternalCorrection
