import Verif.Lemmas.CipsiReader

/-! # C54: reading P spaces from CIPSI determinant lists

`Fits s h`: the orbital counts and irrep numbers of the system are consistent with a point group of
`h` irreps.  `Physical`: a determinant with the right number of electrons of each spin, inside the
correlated orbitals.  `realRows 6` reads a list, treating the placeholder row of ones as empty. -/

namespace Ccpy.CipsiReader
open Ccpy.Excitations Ccpy.Spec

/-- Sample system: three occupied orbitals of each spin out of six, irreps 0/1. -/
def sample : Sys := ⟨3, 3, 6, 0, 0, 0, 0, fun p => p % 2, 0⟩

/-- Sample open-shell system: three alpha and two beta electrons. -/
def sampleOpen : Sys := ⟨3, 2, 6, 0, 0, 0, 0, fun p => p % 2, 0⟩

theorem sample_fits : Fits sample 2 :=
  ⟨⟨1, rfl⟩, by decide, fun p _ => Nat.mod_lt _ (by decide), by decide, by decide⟩

theorem sampleOpen_fits : Fits sampleOpen 2 :=
  ⟨⟨1, rfl⟩, by decide, fun p _ => Nat.mod_lt _ (by decide), by decide, by decide⟩

/-- **C54** (every file of physical determinants is read to its end; partial: one determinant
outside the orbital range silently ends the reading, see `C54_stops_fails`, and repeated
determinants give repeated rows, see `C54_repetition_fails`).
For each spin case, every row of the result is an ordered triple excitation of that case, and every
ordered triple occurs exactly as often as its determinant occurs in the file. -/
theorem C54_read_partial (s : Sys) (h : ℕ) (hf : Fits s h) (hab : s.nob ≤ s.noa)
    (file : List (List ℕ)) (hphys : ∀ det ∈ file, Physical s.space s.norb det.toFinset) :
    ∃ res, readCipsi s h file = .ok res ∧ ∀ c,
      (∀ r ∈ realRows 6 (res.rows c), IsExcitationRow s.space c.spins c.spins r) ∧
      (∀ ps hs, OrderedIndices s.space.unocc c.spins ps → OrderedIndices s.space.occ c.spins hs →
        (realRows 6 (res.rows c)).count (row ps hs) =
          file.countP (fun det =>
            det.toFinset = excitedDeterminant s.space c.spins c.spins ps hs)) := by
  obtain ⟨l, h1, h2, h3⟩ := loop_physical s h hf hab file hphys
  have hne : ∀ e ∈ l, e.2.1 ≠ [1, 1, 1, 1, 1, 1] := by
    intro e he
    obtain ⟨-, d, -, hd⟩ := h2 e he
    exact describes_ne_ones s _ _ _ hd
  refine ⟨gather l, by unfold readCipsi; rw [h1], fun c => ?_⟩
  rw [realRows_gather l c hne]
  refine ⟨?_, fun ps hs o1 o2 => h3 c ps hs o1 o2⟩
  intro r hr
  obtain ⟨e, he, rfl⟩ := List.mem_map.mp hr
  obtain ⟨he1, he2⟩ := List.mem_filter.mp he
  obtain ⟨-, d, -, ps, hs, q1, q2, q3, -⟩ := h2 e he1
  obtain rfl : e.1 = c := by simpa using he2
  exact ⟨ps, hs, q1, q2, q3⟩

/-- **C54**, each once: when the determinants of the file are distinct, no row is repeated. -/
theorem C54_distinct (s : Sys) (h : ℕ) (hf : Fits s h) (hab : s.nob ≤ s.noa)
    (file : List (List ℕ)) (hphys : ∀ det ∈ file, Physical s.space s.norb det.toFinset)
    (hd : file.Pairwise (fun d d' => d.toFinset ≠ d'.toFinset)) (res : Result)
    (hr : readCipsi s h file = .ok res) (c : Case) : (realRows 6 (res.rows c)).Nodup := by
  obtain ⟨res', hr', hall⟩ := C54_read_partial s h hf hab file hphys
  rw [hr] at hr'
  obtain rfl : res = res' := by injection hr'
  rw [List.nodup_iff_count_le_one]
  intro r
  by_cases hmem : r ∈ realRows 6 (res.rows c)
  · obtain ⟨ps, hs, rfl, o1, o2⟩ := (hall c).1 r hmem
    rw [(hall c).2 ps hs o1 o2]
    clear hr hr' hall hmem hphys
    induction file with
    | nil => simp
    | cons d rest ih =>
      obtain ⟨q1, q2⟩ := List.pairwise_cons.mp hd
      rw [List.countP_cons]
      split
      · next he =>
        have : rest.countP (fun det =>
            det.toFinset = excitedDeterminant s.space c.spins c.spins ps hs) = 0 := by
          rw [List.countP_eq_zero]
          intro d' hd'
          have h1 := q1 d' hd'
          have h2 : d.toFinset = excitedDeterminant s.space c.spins c.spins ps hs := by
            simpa using he
          simp only [decide_eq_true_eq]
          intro h3
          exact h1 (h2.trans h3.symm)
        omega
      · have := ih q2; omega
  · rw [List.count_eq_zero_of_not_mem hmem]; exact Nat.zero_le _

/-- **C54**, counters: each counter is the number of returned rows of its irrep and spin case. -/
theorem C54_counts (s : Sys) (h : ℕ) (hf : Fits s h) (hab : s.nob ≤ s.noa)
    (file : List (List ℕ)) (hphys : ∀ det ∈ file, Physical s.space s.norb det.toFinset)
    (res : Result) (hr : readCipsi s h file = .ok res) (x : ℕ) (c : Case) :
    res.counts x c = (realRows 6 (res.rows c)).countP (fun r => rowIrrep s c r = x) := by
  obtain ⟨l, h1, h2, h3⟩ := loop_physical s h hf hab file hphys
  have hne : ∀ e ∈ l, e.2.1 ≠ [1, 1, 1, 1, 1, 1] := by
    intro e he
    obtain ⟨-, d, -, hd⟩ := h2 e he
    exact describes_ne_ones s _ _ _ hd
  unfold readCipsi at hr
  rw [h1] at hr
  obtain rfl : gather l = res := by injection hr
  rw [realRows_gather l c hne, List.countP_map, List.countP_filter]
  unfold gather
  simp only
  apply List.countP_congr
  intro e he
  have := (h2 e he).1
  simp only [decide_eq_true_eq, Function.comp, Bool.and_eq_true]
  constructor
  · rintro ⟨rfl, rfl⟩; exact ⟨this.symm, rfl⟩
  · rintro ⟨q1, rfl⟩; exact ⟨rfl, this.trans q1⟩

/-- A file with the reference, a double, an `aaa`, an `aab` and an `abb` triple. -/
def sampleFile : List (List ℕ) :=
  [[1, 2, 3, 4, 5, 6], [1, 2, 3, 4, 7, 8], [2, 4, 6, 7, 9, 11], [6, 1, 4, 10, 7, 9],
   [1, 3, 2, 11, 8, 12]]

theorem sampleFile_physical :
    ∀ det ∈ sampleFile, Physical sample.space sample.norb det.toFinset := by
  intro det hd
  simp only [sampleFile, List.mem_cons, List.not_mem_nil, or_false] at hd
  rcases hd with rfl | rfl | rfl | rfl | rfl <;>
  exact ⟨by decide +kernel, by decide +kernel, by decide +kernel⟩

example : Fits sample 2 ∧ sample.nob ≤ sample.noa ∧
    (∀ det ∈ sampleFile, Physical sample.space sample.norb det.toFinset) ∧
    sampleFile.Pairwise (fun d d' => d.toFinset ≠ d'.toFinset) :=
  ⟨sample_fits, by decide, sampleFile_physical, by decide +kernel⟩

example : ((readCipsi sample 2 sampleFile).toOption.map fun r =>
    ([Case.aaa, .aab, .abb, .bbb].map r.rows, [Case.aaa, .aab, .abb, .bbb].map (r.counts 0))) =
    some ([[[1, 2, 3, 1, 2, 3]], [[1, 2, 2, 2, 3, 1]], [[3, 1, 3, 3, 2, 3]], [[1, 1, 1, 1, 1, 1]]],
      [0, 1, 1, 0]) := by decide +kernel

/-- **C54 fails** when a determinant is repeated: its row is returned twice. -/
theorem C54_repetition_fails : ∃ file : List (List ℕ),
    (∀ det ∈ file, Physical sample.space sample.norb det.toFinset) ∧
    ∃ res, readCipsi sample 2 file = .ok res ∧ ¬ (realRows 6 (res.rows .aaa)).Nodup := by
  have hp : ∀ det ∈ [[2, 4, 6, 7, 9, 11], [2, 4, 6, 7, 9, 11]],
      Physical sample.space sample.norb det.toFinset := by
    intro det hd
    obtain rfl : det = [2, 4, 6, 7, 9, 11] := by simpa using hd
    exact sampleFile_physical _ (by simp [sampleFile])
  refine ⟨[[2, 4, 6, 7, 9, 11], [2, 4, 6, 7, 9, 11]], hp, ?_⟩
  obtain ⟨res, h1, h2⟩ := C54_read_partial sample 2 sample_fits (by decide) _ hp
  refine ⟨res, h1, fun hn => ?_⟩
  have := (h2 .aaa).2 [0, 1, 2] [0, 1, 2] ⟨rfl, by decide, by decide⟩ ⟨rfl, by decide, by decide⟩
  rw [List.nodup_iff_count_le_one] at hn
  have h3 := hn (row [0, 1, 2] [0, 1, 2])
  rw [this] at h3
  exact absurd h3 (by decide +kernel)

/-- **C54**, error behaviour: at the first determinant outside the accepted range the reading ends
without an error; everything after it is dropped. -/
theorem C54_truncates (s : Sys) (h : ℕ) (pre post : List (List ℕ)) (bad : List ℕ)
    (hb : cipsiLine s h bad = .stop) : readCipsi s h (pre ++ bad :: post) = readCipsi s h pre := by
  have : cipsiLoop s h (pre ++ bad :: post) = cipsiLoop s h pre := by
    induction pre with
    | nil => simp only [List.nil_append]; unfold cipsiLoop; rw [hb]
    | cons d pre ih =>
      simp only [List.cons_append]
      unfold cipsiLoop
      cases cipsiLine s h d <;> simp only <;> rw [ih]
  unfold readCipsi; rw [this]

example : cipsiLine sample 2 [2, 4, 6, 7, 9, 13] = .stop := by decide +kernel

/-- **C54 fails** for files that hold a determinant outside the orbital range: a later physical
triple is lost and no error is reported. -/
theorem C54_stops_fails : ∃ file : List (List ℕ), ∃ det ∈ file, ∃ res,
    Describes sample .aaa [1, 2, 3, 1, 2, 3] det.toFinset ∧
    readCipsi sample 2 file = .ok res ∧ [1, 2, 3, 1, 2, 3] ∉ res.rows .aaa := by
  refine ⟨[[2, 4, 6, 7, 9, 13], [2, 4, 6, 7, 9, 11]], [2, 4, 6, 7, 9, 11], by simp, gather [],
    ⟨[0, 1, 2], [0, 1, 2], rfl, ⟨rfl, by decide, by decide⟩, ⟨rfl, by decide, by decide⟩,
      by decide +kernel⟩, ?_, by decide +kernel⟩
  have h1 := C54_truncates sample 2 [] [[2, 4, 6, 7, 9, 11]] [2, 4, 6, 7, 9, 13]
    (by decide +kernel)
  exact h1

/-- **C54**, error behaviour: a triply excited line whose numbers of removed and added spin-orbitals
of a spin differ raises an error for the whole file. -/
theorem C54_unbalanced (s : Sys) (h : ℕ) (pre post : List (List ℕ)) (bad : List ℕ)
    (hb : cipsiLine s h bad = .raise .assertionError) (hpre : ∃ r, readCipsi s h pre = .ok r)
    (hstop : ∀ d ∈ pre, cipsiLine s h d ≠ .stop) :
    ∃ e, readCipsi s h (pre ++ bad :: post) = .error e := by
  have key : ∀ pre : List (List ℕ), (∃ l, cipsiLoop s h pre = .ok l) →
      (∀ d ∈ pre, cipsiLine s h d ≠ .stop) →
      cipsiLoop s h (pre ++ bad :: post) = .error .assertionError := by
    intro pre
    induction pre with
    | nil => intro _ _; simp only [List.nil_append]; unfold cipsiLoop; rw [hb]
    | cons d pre ih =>
      rintro ⟨l, hl⟩ hs
      have ih' := fun h => ih h (fun d hd => hs d (List.mem_cons_of_mem _ hd))
      have hd := hs d (by simp)
      simp only [List.cons_append]
      unfold cipsiLoop at hl ⊢
      cases hc : cipsiLine s h d with
      | skip => rw [hc] at hl; exact ih' ⟨l, hl⟩
      | stop => exact absurd hc hd
      | raise e => rw [hc] at hl; cases hl
      | store c r x =>
        rw [hc] at hl
        simp only at hl ⊢
        cases hq : cipsiLoop s h pre with
        | ok l' => rw [ih' ⟨l', hq⟩]
        | error e => rw [hq] at hl; cases hl
  obtain ⟨r, hr⟩ := hpre
  unfold readCipsi at hr ⊢
  refine ⟨.assertionError, ?_⟩
  rw [key pre ?_ hstop]
  cases hc : cipsiLoop s h pre with
  | ok l => exact ⟨l, rfl⟩
  | error e => rw [hc] at hr; cases hr

example : cipsiLine sample 2 [1, 2, 3, 7, 9, 11] = .raise .assertionError := by decide +kernel

/-- **C54 fails** for open shells: the upper bound tested for alpha particles is the number of
unoccupied beta orbitals, so an alpha orbital just above the range is not reported as out of range
but raises an IndexError. -/
theorem C54_open_shell_bound_fails :
    cipsiLine sampleOpen 2 [2, 4, 7, 9, 13] = .raise .indexError ∧
    cipsiLine sampleOpen 2 [2, 4, 7, 9, 15] = .stop := by decide +kernel

end Ccpy.CipsiReader
