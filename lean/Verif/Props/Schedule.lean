import Verif.Lemmas.Adaptive
import Verif.Props.Symmetry

/-! # C19: the growth schedule of the adaptive calculation -/

namespace Ccpy.Adaptive

open Ccpy.Excitations

/-- A percentage schedule: increasing, from a nonnegative start to 100. -/
structure Schedule (ps : List ℚ) : Prop where
  increasing : ps.Pairwise (· < ·)
  start : 0 ≤ ps.getD 0 0
  long : 2 ≤ ps.length
  ends : ps.getD (ps.length - 1) 0 = 100

theorem Schedule.bounds {ps : List ℚ} (h : Schedule ps) {i : ℕ} (hi : i < ps.length) :
    0 ≤ ps.getD i 0 ∧ ps.getD i 0 ≤ 100 ∧ (i + 1 < ps.length → ps.getD i 0 < 100) := by
  have h1 : i + 1 < ps.length → ps.getD i 0 < 100 := fun hlt => by
    have := pairwise_getD h.increasing (i := i) (j := ps.length - 1) (by omega) (by omega)
    rw [h.ends] at this
    exact this
  refine ⟨?_, ?_, h1⟩
  · rcases Nat.eq_zero_or_pos i with rfl | hp
    · exact h.start
    · exact le_of_lt (lt_of_le_of_lt h.start (pairwise_getD h.increasing hp hi))
  · rcases Nat.lt_or_ge (i + 1) ps.length with hl | hl
    · exact le_of_lt (h1 hl)
    · have : i = ps.length - 1 := by omega
      rw [this, h.ends]

/-- Before the last percentage, the increments so far make up the difference of the percentages
reached, each percent counting as `int(total / 100)` determinants. -/
theorem C19_partial_sums {total : ℕ} {ps adds : List ℚ} (hs : Schedule ps)
    (h : percentAdds total ps = some adds) {i : ℕ} (hi : i + 1 < ps.length) :
    (adds.take i).sum = oneIncrement total * (ps.getD i 0 - ps.getD 0 0) := by
  obtain ⟨hl, -, hg⟩ := percentAdds_get h
  induction i with
  | zero => simp
  | succ i ih =>
    rw [take_sum_succ, ih (by omega), hg i (by omega), if_neg (by omega),
      if_neg (ne_of_lt ((hs.bounds (i := i + 1) (by omega)).2.2 hi))]
    ring

/-- C19: the increments of all macro-iterations but the last (which selects nothing) add up to the
whole space minus the starting fraction; from 0 percent, to the whole space. -/
theorem C19_whole_space {total : ℕ} {ps adds : List ℚ} (hs : Schedule ps)
    (h : percentAdds total ps = some adds) :
    adds.length = ps.length ∧
    adds.dropLast.sum = total - oneIncrement total * ps.getD 0 0 ∧
    (ps.getD 0 0 = 0 → adds.dropLast.sum = total) := by
  obtain ⟨hl, -, hg⟩ := percentAdds_get h
  have hlong := hs.long
  have key : adds.dropLast.sum = total - oneIncrement total * ps.getD 0 0 := by
    rw [List.dropLast_eq_take, hl, show ps.length - 1 = (ps.length - 2) + 1 by omega, take_sum_succ,
      C19_partial_sums hs h (i := ps.length - 2) (by omega), hg _ (by omega), if_neg (by omega),
      if_pos (by rw [show ps.length - 2 + 1 = ps.length - 1 by omega]; exact hs.ends)]
    ring
  exact ⟨hl, key, fun h0 => by rw [key, h0]; ring⟩

/-- C19: every increment is nonnegative, and no initial part of the plan asks for more than the whole
space. -/
theorem C19_within_space {total : ℕ} {ps adds : List ℚ} (hs : Schedule ps)
    (h : percentAdds total ps = some adds) :
    (∀ x ∈ adds, 0 ≤ x) ∧ ∀ i, i < ps.length → (adds.take i).sum ≤ total := by
  obtain ⟨hl, -, hg⟩ := percentAdds_get h
  have hinc := oneIncrement_nonneg total
  have hinc' : (0 : ℚ) ≤ oneIncrement total := by exact_mod_cast hinc
  have htot := oneIncrement_le total
  have hnn : ∀ i, i < ps.length → 0 ≤ adds.getD i 0 := by
    intro i hi
    rw [hg i hi]
    split_ifs with h1 h2
    · exact zero_le_one
    · have := (hs.bounds hi).2.1
      nlinarith
    · have := pairwise_getD hs.increasing (i := i) (j := i + 1) (by omega) (by omega)
      exact mul_nonneg hinc' (by linarith)
  refine ⟨?_, ?_⟩
  · intro x hx
    obtain ⟨i, hi, rfl⟩ := List.mem_iff_getElem.mp hx
    have := hnn i (by omega)
    rw [List.getD_eq_getElem?_getD, List.getElem?_eq_getElem hi] at this
    simpa using this
  · intro i hi
    have h0 := hs.start
    rcases Nat.lt_or_ge (i + 1) ps.length with h1 | h1
    · rw [C19_partial_sums hs h h1]
      have := (hs.bounds hi).2.1
      nlinarith
    · have e := (C19_whole_space hs h).2.1
      rw [List.dropLast_eq_take, hl] at e
      rw [show i = ps.length - 1 by omega, e]
      nlinarith

/-- C19: with RHF symmetry every selected determinant brings its spin mirror, and the halved plan never
asks for more than the whole space; it falls short of it by less than two determinants for each
macro-iteration. -/
theorem C19_rhf_within_space {total : ℕ} {ps adds : List ℚ} (hs : Schedule ps)
    (h : percentAdds total ps = some adds) :
    (∀ x ∈ halve true adds, 0 ≤ x) ∧
    2 * (halve true adds).dropLast.sum ≤ total - oneIncrement total * ps.getD 0 0 ∧
    total - oneIncrement total * ps.getD 0 0 - 2 * (ps.length - 1)
      < 2 * (halve true adds).dropLast.sum := by
  obtain ⟨hl, -, hg⟩ := percentAdds_get h
  obtain ⟨hnn, -⟩ := C19_within_space hs h
  have hlong := hs.long
  have hlen : (halve true adds).length = ps.length := by simp [halve, hl]
  have hnn' : ∀ i, i < adds.length → 0 ≤ adds.getD i 0 := by
    intro i hi
    refine hnn _ ?_
    rw [List.getD_eq_getElem?_getD, List.getElem?_eq_getElem hi]
    exact List.getElem_mem hi
  have key : ∀ i, i ≤ adds.length → 2 * ((halve true adds).take i).sum ≤ (adds.take i).sum ∧
      (adds.take i).sum - 2 * i ≤ 2 * ((halve true adds).take i).sum ∧
      (0 < i → (adds.take i).sum - 2 * i < 2 * ((halve true adds).take i).sum) := by
    intro i
    induction i with
    | zero => intro _; simp
    | succ i ih =>
      intro hi
      obtain ⟨h1, h2, -⟩ := ih (by omega)
      rw [take_sum_succ, take_sum_succ, halve_true_get, if_pos (by omega)]
      have hx : 0 ≤ adds.getD i 0 / 2 := div_nonneg (hnn' i (by omega)) (by norm_num)
      have := pyInt_le hx
      have := pyInt_gt hx
      push_cast
      refine ⟨by linarith, by linarith, fun _ => by linarith⟩
  have e := (C19_whole_space hs h).2.1
  rw [List.dropLast_eq_take, hl] at e
  refine ⟨?_, ?_, ?_⟩
  · intro x hx
    simp only [halve, if_true, List.mem_map] at hx
    obtain ⟨y, hy, rfl⟩ := hx
    exact_mod_cast pyInt_nonneg (div_nonneg (hnn y hy) (by norm_num))
  · rw [List.dropLast_eq_take, hlen, ← e]
    exact (key _ (by omega)).1
  · rw [List.dropLast_eq_take, hlen, ← e]
    have := (key (ps.length - 1) (by omega)).2.2 (by omega)
    rw [Nat.cast_sub (by omega)] at this
    exact_mod_cast this

/-- C19: the plan of the driver is made for the number of triples of the irrep of the reference. -/
theorem C19_plan (s : Sys) (h : ℕ) (hf : Fits s h) (rhf : Bool) (ps : List ℚ) (hp : ps ≠ [])
    (o : Options) (n : ℕ) :
    ∃ adds, percentAdds (([Case.aaa, .aab, .abb, .bbb].map fun c => number s c.spins c.spins s.ref).sum) ps
        = some adds ∧
      excitationCount s h rhf ⟨some ps, n, o⟩ = some ⟨halve rhf adds, 0⟩ := by
  obtain ⟨c, hc, -, -, ht⟩ := C16_triples s h hf
  have he : ∀ total, ∃ adds, percentAdds total ps = some adds := by
    intro total
    unfold percentAdds
    rw [if_neg (by simpa using hp)]
    exact ⟨_, rfl⟩
  obtain ⟨adds, ha⟩ := he (([Case.aaa, .aab, .abb, .bbb].map fun c => number s c.spins c.spins s.ref).sum)
  refine ⟨adds, ha, ?_⟩
  have h2 := ht s.ref hf.ref
  have e : ([([Spec.Spin.α, .α, .α], [Spec.Spin.α, .α, .α]), ([.α, .α, .β], [.α, .α, .β]),
      ([.α, .β, .β], [.α, .β, .β]), ([.β, .β, .β], [.β, .β, .β])].map
        fun q => number s q.1 q.2 s.ref).sum
      = ([Case.aaa, .aab, .abb, .bbb].map fun c => number s c.spins c.spins s.ref).sum := rfl
  rw [e] at h2
  simp only [excitationCount, hc, Option.bind_eq_bind, Option.bind_some, h2, ha]
  rfl

/-- C19: without percentages, every macro-iteration but the last adds the same number of determinants,
the number of singles and doubles of the irrep of the reference times the selection factor. -/
theorem C19_fixed_scheme (s : Sys) (h : ℕ) (hf : Fits s h) (rhf : Bool) (o : Options) (n : ℕ)
    (ho : o.growByCcsd = true) :
    ∃ inc : ℕ, inc = number s [.α] [.α] s.ref + number s [.β] [.β] s.ref
        + (number s [.α, .α] [.α, .α] s.ref + number s [.α, .β] [.α, .β] s.ref
          + number s [.β, .β] [.β, .β] s.ref) ∧
      excitationCount s h rhf ⟨none, n, o⟩ = some
        ⟨halve rhf (List.replicate (n - 1) (pyInt (inc * o.selectionFactor) : ℚ)), inc + 1⟩ := by
  obtain ⟨c, hc, hcl, -, ht⟩ := C16_singles s h hf
  obtain ⟨d, hd, hdl, -, hu⟩ := C16_doubles s h hf
  refine ⟨_, rfl, ?_⟩
  have e : (List.zipWith (· + ·) c d)[s.ref]? = some
      (number s [.α] [.α] s.ref + number s [.β] [.β] s.ref
        + (number s [.α, .α] [.α, .α] s.ref + number s [.α, .β] [.α, .β] s.ref
          + number s [.β, .β] [.β, .β] s.ref)) := by
    rw [List.getElem?_zipWith, ht _ hf.ref, hu _ hf.ref]
    simp [Nat.add_assoc]
  simp only [excitationCount, hc, hd, ho, Option.bind_eq_bind, Option.bind_some, if_true, pure, e]
  simp [List.map_const']

/-- With base growth "ccs" only the singles count. -/
theorem C19_fixed_scheme_singles (s : Sys) (h : ℕ) (hf : Fits s h) (rhf : Bool) (o : Options) (n : ℕ)
    (ho : o.growByCcsd = false) :
    ∃ inc : ℕ, inc = number s [.α] [.α] s.ref + number s [.β] [.β] s.ref ∧
      excitationCount s h rhf ⟨none, n, o⟩ = some
        ⟨halve rhf (List.replicate (n - 1) (pyInt (inc * o.selectionFactor) : ℚ)), inc + 1⟩ := by
  obtain ⟨c, hc, hcl, -, ht⟩ := C16_singles s h hf
  refine ⟨_, rfl, ?_⟩
  have e : c[s.ref]? = some (number s [.α] [.α] s.ref + number s [.β] [.β] s.ref) := by
    rw [ht _ hf.ref]
    simp
  simp only [excitationCount, hc, ho, Option.bind_eq_bind, Option.bind_some, pure, e]
  simp [List.map_const']

/-- An empty schedule raises. -/
theorem C19_empty_schedule_error (total : ℕ) : percentAdds total [] = none := rfl

/-- With RHF symmetry the whole space is not reached: of 10100 triples the schedule 0, 1, 100 percent
adds only 10098. -/
theorem C19_rhf_incomplete_fails : ∃ adds, percentAdds 10100 [0, 1, 100] = some adds ∧
    2 * (halve true adds).dropLast.sum = 10098 :=
  ⟨_, rfl, by decide +kernel⟩

/-- With fewer than 100 triples a step of some percent asks for nothing, which the selection cannot
do (`C18_zero_error`). -/
theorem C19_zero_increment_fails {total : ℕ} (ht : total < 100) {ps adds : List ℚ} (hs : Schedule ps)
    (h : percentAdds total ps = some adds) {i : ℕ} (hi : i + 2 < ps.length) : adds.getD i 0 = 0 := by
  obtain ⟨hl, -, hg⟩ := percentAdds_get h
  have h0 : oneIncrement total = 0 := by
    have h1 := oneIncrement_nonneg total
    have h2 := oneIncrement_le total
    have h3 : (total : ℚ) < 100 := by exact_mod_cast ht
    have h4 : (oneIncrement total : ℚ) < 1 := by linarith
    have : oneIncrement total < 1 := by exact_mod_cast h4
    omega
  rw [hg i (by omega), if_neg (by omega),
    if_neg (ne_of_lt ((hs.bounds (i := i + 1) (by omega)).2.2 (by omega))), h0]
  simp

/-- The hypotheses are met by the schedule 0, 1, 5/2, 100 percent of 1234 triples. -/
example : Schedule [0, 1, 5/2, 100] ∧
    percentAdds 1234 [0, 1, 5/2, 100] = some [12, 18, 1204, 1] := by
  refine ⟨⟨by decide +kernel, by decide +kernel, by decide, by decide +kernel⟩, by decide +kernel⟩

example : Fits sample 2 ∧ excitationCount sample 2 false ⟨some [0, 100], 2, {}⟩ ≠ none := by
  refine ⟨⟨⟨1, rfl⟩, by decide, by decide, by decide, by decide⟩, ?_⟩
  obtain ⟨adds, -, h⟩ := C19_plan sample 2 ⟨⟨1, rfl⟩, by decide, by decide, by decide, by decide⟩ false [0, 100] (by simp) {} 2
  rw [h]
  simp

end Ccpy.Adaptive
