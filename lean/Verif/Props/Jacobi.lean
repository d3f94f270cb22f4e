import Verif.Lemmas.Jacobi
import Verif.Props.Diis
import Mathlib.Algebra.Order.Ring.Unbundled.Rat
import Mathlib.Data.Rat.Defs
import Mathlib.Tactic.NormNum

/-! C21: the vectors the extrapolation sees. C23: what convergence of the Jacobi solvers means. -/

namespace Ccpy.Jacobi

open Ccpy.Diis (Slots push)

section generic
variable {V D K : Type} [Field K] [LinearOrder K]

theorem run_ok {m : Method V D K} {o : Options K} {t0 : V} {d0 : D} {rs : List (Record V D K)}
    {fin : Final V K} (h : run m o t0 d0 = .ok (rs, fin)) :
    -1 ≤ o.diisSize ∧ LoopOk m o o.maximumIterations 0
      ⟨t0, d0, 0, m.energy t0 d0, 0, fun _ => none⟩ [] rs fin := by
  unfold run at h
  split_ifs at h with hs
  refine ⟨by omega, loop_ok m o (by omega) _ 0 _ [] rfl ?_ rs fin h⟩
  intro _ k hk
  simp at hk

/-- C21. Whenever the solver extrapolates, at iteration `n`, the lists hold exactly the vector and the
residual computed in each of the last `size` iterations, the one of iteration `k` in row `k % size`;
every row is one of these. Without DIIS there is no extrapolation. -/
theorem C21_history (m : Method V D K) (o : Options K) (t0 : V) (d0 : D)
    (rs : List (Record V D K)) (fin : Final V K) (h : run m o t0 d0 = .ok (rs, fin))
    (n : ℕ) (r : Record V D K) (hr : rs[n]? = some r) (b : Slots V D) (hb : r.buffer = some b) :
    o.diisSize ≠ -1 ∧ 0 < o.diisSize ∧ o.diisSize ≤ n ∧
    (∀ k, k ≤ n → n < k + o.diisSize.toNat → ∃ q, rs[k]? = some q ∧
      b (k % o.diisSize.toNat) = some (q.tOut, q.dOut)) ∧
    ∀ i, i < o.diisSize.toNat → ∃ k q, k ≤ n ∧ n < k + o.diisSize.toNat ∧
      k % o.diisSize.toNat = i ∧ rs[k]? = some q ∧ b i = some (q.tOut, q.dOut) := by
  obtain ⟨hs, L⟩ := run_ok h
  have hne : o.diisSize ≠ -1 := by
    intro he
    have := L.noDiis he r (List.mem_of_getElem? hr)
    rw [this] at hb
    cases hb
  have hx : exitTest m o r.dOut r.energy r.energyOld = false := by
    by_contra hx
    have := L.exitBuffer n r hr (by simpa using hx)
    rw [this] at hb
    cases hb
  have hle : o.diisSize.toNat ≤ n := by
    have := (L.extrap hne n r hr hx).mp (by rw [hb]; rfl)
    omega
  have hlen : n < rs.length := by
    by_contra hc
    rw [List.getElem?_eq_none (by omega)] at hr
    cases hr
  have hpos : 0 < o.diisSize := by
    by_contra hc
    have h0 : o.diisSize = 0 := by omega
    -- with size zero the first unconverged iteration raises
    unfold run at h
    rw [if_neg (by omega)] at h
    cases hm : o.maximumIterations with
    | zero =>
      rw [hm] at L
      have := L.length
      omega
    | succ f =>
      rw [hm, loop] at h
      generalize hu : m.update t0 d0 = u at h
      obtain ⟨t, d⟩ := u
      simp only at h
      by_cases hx0 : exitTest m o d (m.energy t d) (m.energy t0 d0) = true
      · rw [if_pos hx0] at h
        simp only [Except.ok.injEq, Prod.mk.injEq] at h
        obtain ⟨rfl, rfl⟩ := h
        have : n = 0 := by simpa using hlen
        subst this
        simp only [List.getElem?_cons_zero, Option.some.injEq] at hr
        subst hr
        cases hb
      · rw [if_neg hx0] at h
        have : save o (fun _ => none) t d 0 = .error .zeroDivision := by
          unfold save push
          rw [if_neg hne, h0]
          rfl
        rw [this] at h
        simp [bind, Except.bind] at h
  have hall : ∀ k, k ≤ n → n < k + o.diisSize.toNat → ∃ q, rs[k]? = some q ∧
      b (k % o.diisSize.toNat) = some (q.tOut, q.dOut) := by
    intro k hk hk'
    have := L.buffers n r b hr hb k (by omega) (by omega)
    rw [List.nil_append, List.getElem?_map, List.getElem?_eq_getElem (by omega : k < rs.length)] at this
    exact ⟨rs[k], List.getElem?_eq_getElem _, this⟩
  refine ⟨hne, hpos, by omega, hall, ?_⟩
  intro i hi
  -- the largest k ≤ n congruent to i
  set s := o.diisSize.toNat with hsdef
  have hspos : 0 < s := by omega
  have h1 := Nat.mod_lt (n + s - i) hspos
  have h2 := Nat.mod_add_div (n + s - i) s
  set e := (n + s - i) % s with he
  set w := (n + s - i) / s with hw
  have hen : e ≤ n := by omega
  have hmod : (n - e) % s = i := by
    have hkey : n - e + s = i + s * w := by omega
    have : (n - e + s) % s = i := by
      rw [hkey, Nat.add_mul_mod_self_left, Nat.mod_eq_of_lt hi]
    rwa [Nat.add_mod_right] at this
  obtain ⟨q, hq1, hq2⟩ := hall (n - e) (by omega) (by omega)
  rw [hmod] at hq2
  exact ⟨n - e, q, by omega, by omega, hmod, hq1, hq2⟩

/-- C21. With DIIS of size `s` an iteration that does not end the run extrapolates exactly from iteration
`s` on; the next iteration starts from the extrapolated vector, and from the updated vector otherwise
(in both cases after the scaling, for left excited states). -/
theorem C21_schedule (m : Method V D K) (o : Options K) (t0 : V) (d0 : D)
    (rs : List (Record V D K)) (fin : Final V K) (h : run m o t0 d0 = .ok (rs, fin))
    (n : ℕ) (r r' : Record V D K) (hr : rs[n]? = some r) (hr' : rs[n + 1]? = some r') :
    (r.buffer.isSome ↔ o.diisSize ≠ -1 ∧ o.diisSize ≤ n) ∧
    ∃ t, (∀ b, r.buffer = some b → t = m.extrapolate b) ∧ (r.buffer = none → t = r.tOut) ∧
      (m.scale = none → r'.tIn = t) ∧ ∀ f, m.scale = some f → r'.tIn = (f t).2 := by
  obtain ⟨hs, L⟩ := run_ok h
  have hlen : n + 1 < rs.length := by
    by_contra hc
    rw [List.getElem?_eq_none (by omega)] at hr'
    cases hr'
  constructor
  · by_cases hne : o.diisSize = -1
    · rw [L.noDiis hne r (List.mem_of_getElem? hr)]
      simp [hne]
    · have hx : exitTest m o r.dOut r.energy r.energyOld = false := by
        by_contra hx
        have := (L.stop n r hr (by simpa using hx)).1
        omega
      rw [L.extrap hne n r hr hx]
      constructor
      · intro hle
        exact ⟨hne, by omega⟩
      · intro hle
        omega
  · obtain ⟨h1, -⟩ := L.next n r r' hr hr'
    refine ⟨match r.buffer with | some b => m.extrapolate b | none => r.tOut, ?_, ?_, ?_, ?_⟩
    · intro b hb
      rw [hb]
    · intro hb
      rw [hb]
    · intro hsc
      rw [h1]
      unfold handOver
      rw [hsc]
      rfl
    · intro f hsc
      rw [h1]
      unfold handOver
      rw [hsc]
      rfl

/-- The two convergence criteria, for the residual and energies of one iteration. -/
def MeetsCriteria (m : Method V D K) (o : Options K) (r : Record V D K) : Prop :=
  m.norm r.dOut < o.ampConvergence ∧ |r.energy - r.energyOld| < o.energyConvergence

theorem exitTest_iff (m : Method V D K) (o : Options K) (r : Record V D K) :
    exitTest m o r.dOut r.energy r.energyOld = true ↔ MeetsCriteria m o r := by
  unfold exitTest MeetsCriteria
  simp

/-- C23. The solver performs iterations, each applying the update to the vector and residual it is given
and taking the energy of the result; the reference energy is that of the previous iteration, at first
that of the initial guess. -/
theorem C23_iterations (m : Method V D K) (o : Options K) (t0 : V) (d0 : D)
    (rs : List (Record V D K)) (fin : Final V K) (h : run m o t0 d0 = .ok (rs, fin)) :
    rs.length ≤ o.maximumIterations ∧
    (∀ r, rs[0]? = some r → r.tIn = t0 ∧ r.dIn = d0 ∧ r.energyOld = m.energy t0 d0) ∧
    (∀ (i : ℕ) (r : Record V D K), rs[i]? = some r →
      (r.tOut, r.dOut) = m.update r.tIn r.dIn ∧ r.energy = m.energy r.tOut r.dOut) ∧
    ∀ (i : ℕ) (r r' : Record V D K), rs[i]? = some r → rs[i + 1]? = some r' →
      r'.dIn = r.dOut ∧ r'.energyOld = r.energy := by
  obtain ⟨-, L⟩ := run_ok h
  exact ⟨L.length, L.start, L.each, fun i r r' h1 h2 => (L.next i r r' h1 h2).2⟩

/-- C23. Convergence is reported if and only if the last iteration meets both criteria; no earlier
iteration met both. -/
theorem C23_convergence (m : Method V D K) (o : Options K) (t0 : V) (d0 : D)
    (rs : List (Record V D K)) (fin : Final V K) (h : run m o t0 d0 = .ok (rs, fin)) :
    (fin.converged = true ↔ ∃ r, rs.getLast? = some r ∧ MeetsCriteria m o r) ∧
    (∀ (i : ℕ) (r : Record V D K), i + 1 < rs.length → rs[i]? = some r → ¬ MeetsCriteria m o r) ∧
    (fin.converged = false → rs.length = o.maximumIterations) := by
  obtain ⟨-, L⟩ := run_ok h
  refine ⟨⟨fun hc => ?_, fun ⟨r, hr, hx⟩ => ?_⟩, fun i r hi hr hx => ?_, fun hc => (L.unconv hc).1⟩
  · obtain ⟨r, h1, h2⟩ := L.conv hc
    exact ⟨r, h1, (exitTest_iff m o r).mp h2⟩
  · rw [List.getLast?_eq_getElem?] at hr
    exact (L.stop _ r hr ((exitTest_iff m o r).mpr hx)).2.1
  · have := (L.stop i r hr ((exitTest_iff m o r).mpr hx)).1
    omega

/-- C23. After convergence the returned vector is the one computed in the last iteration, and the returned
energy is the energy of the returned vector. -/
theorem C23_result_partial (m : Method V D K) (o : Options K) (t0 : V) (d0 : D)
    (rs : List (Record V D K)) (fin : Final V K) (h : run m o t0 d0 = .ok (rs, fin))
    (hc : fin.converged = true) :
    ∃ r, rs.getLast? = some r ∧ fin.t = r.tOut ∧ fin.energy = m.energy fin.t r.dOut ∧
      (fin.t, r.dOut) = m.update r.tIn r.dIn := by
  obtain ⟨-, L⟩ := run_ok h
  obtain ⟨r, h1, h2⟩ := L.conv hc
  have h1' := h1
  rw [List.getLast?_eq_getElem?] at h1'
  obtain ⟨-, -, h3, h4⟩ := L.stop _ r h1' h2
  obtain ⟨h5, h6⟩ := L.each _ r h1'
  exact ⟨r, h1, h3, by rw [h4, h6, h3], by rw [h3]; exact h5⟩

/-- C23. Without convergence, without DIIS and without scaling, the returned vector and energy are those
of the last iteration, if there was one. -/
theorem C23_unconverged_partial (m : Method V D K) (o : Options K) (t0 : V) (d0 : D)
    (rs : List (Record V D K)) (fin : Final V K) (h : run m o t0 d0 = .ok (rs, fin))
    (hc : fin.converged = false) (hm : 0 < o.maximumIterations) (hsc : m.scale = none)
    (hd : o.maximumIterations ≤ o.diisSize ∨ o.diisSize = -1) :
    ∃ r, rs.getLast? = some r ∧ fin.t = r.tOut ∧ fin.energy = m.energy fin.t r.dOut := by
  obtain ⟨hs, L⟩ := run_ok h
  obtain ⟨h1, h2, -⟩ := L.unconv hc
  cases hlast : rs.getLast? with
  | none =>
    rw [List.getLast?_eq_none_iff] at hlast
    subst hlast
    simp at h1
    omega
  | some r =>
    obtain ⟨h3, h4⟩ := h2 r hlast
    rw [List.getLast?_eq_getElem?] at hlast
    have hb : r.buffer = none := by
      by_cases hne : o.diisSize = -1
      · exact L.noDiis hne r (List.mem_of_getElem? hlast)
      · have hx : exitTest m o r.dOut r.energy r.energyOld = false := by
          by_contra hx
          have := (L.stop _ r hlast (by simpa using hx)).2.1
          rw [hc] at this
          cases this
        have := L.extrap hne _ r hlast hx
        by_contra hbn
        have := this.mp (by cases hbb : r.buffer with
          | none => exact absurd hbb hbn
          | some b => rfl)
        rcases hd with hd | hd
        · omega
        · exact hne hd
    refine ⟨r, rfl, ?_, ?_⟩
    · rw [h3]
      unfold handOver
      rw [hsc, hb]
    · rw [h4, (L.each _ r hlast).2, h3]
      unfold handOver
      rw [hsc, hb]

/-- C21, C23: the error branches. A size below −1 always raises; size 0 raises unless the first iteration
converges (or no iteration is made); every other run returns. -/
theorem C21_errors (m : Method V D K) (o : Options K) (t0 : V) (d0 : D) :
    (o.diisSize < -1 → run m o t0 d0 = .error .valueError) ∧
    (o.diisSize = 0 → 0 < o.maximumIterations →
      exitTest m o (m.update t0 d0).2 (m.energy (m.update t0 d0).1 (m.update t0 d0).2)
        (m.energy t0 d0) = false → run m o t0 d0 = .error .zeroDivision) ∧
    (o.diisSize = -1 ∨ 0 < o.diisSize → ∃ res, run m o t0 d0 = .ok res) := by
  refine ⟨fun h => by unfold run; rw [if_pos h], fun h0 hm hx => ?_, fun h => ?_⟩
  · unfold run
    rw [if_neg (by omega)]
    obtain ⟨f, hf⟩ : ∃ f, o.maximumIterations = f + 1 := ⟨o.maximumIterations - 1, by omega⟩
    rw [hf, loop]
    simp only [hx]
    have : save o (fun _ => none) (m.update t0 d0).1 (m.update t0 d0).2 0 = .error .zeroDivision := by
      unfold save push
      rw [if_neg (by omega), h0]
      rfl
    rw [this]
    rfl
  · unfold run
    rw [if_neg (by omega)]
    have hsave : ∀ (slots : Slots V D) (t : V) (d : D) (n : ℕ), ∃ s', save o slots t d n = .ok s' := by
      intro slots t d n
      unfold save
      split_ifs with h1
      · exact ⟨_, rfl⟩
      · unfold push
        rw [if_neg (by omega)]
        exact ⟨_, rfl⟩
    generalize o.maximumIterations = fuel
    generalize (⟨t0, d0, 0, m.energy t0 d0, 0, fun _ => none⟩ : State V D K) = s
    generalize 0 = n
    induction fuel generalizing n s with
    | zero => exact ⟨_, rfl⟩
    | succ fuel ih =>
      rw [loop]
      simp only
      split_ifs with hx
      · exact ⟨_, rfl⟩
      · obtain ⟨s', hs'⟩ := hsave s.slots (m.update s.t s.d).1 (m.update s.t s.d).2 n
        rw [hs']
        simp only [bind, Except.bind]
        obtain ⟨res, hres⟩ := ih (n := n + 1) (s := ⟨(finish m (bufferAt o s' n) (m.update s.t s.d).1 s.lr).2,
          (m.update s.t s.d).2, m.energy (m.update s.t s.d).1 (m.update s.t s.d).2,
          m.energy (m.update s.t s.d).1 (m.update s.t s.d).2,
          (finish m (bufferAt o s' n) (m.update s.t s.d).1 s.lr).1, s'⟩)
        rw [hres]
        exact ⟨_, rfl⟩

end generic

/-! A concrete method: one amplitude, the update halves it, the residual is the change, the energy is the
amplitude, the extrapolation is the one of the DIIS model (for two stored pairs). -/

/-- The rows of the DIIS lists of a one-amplitude run. -/
def rows (b : Slots ℚ ℚ) : (ℕ → ℕ → ℚ) × (ℕ → ℕ → ℚ) :=
  (fun i _ => (b i).elim 0 (·.1), fun i _ => (b i).elim 0 (·.2))

/-- Halving, with DIIS of size one (the stored vector is returned unchanged). -/
def halving : Method ℚ ℚ ℚ where
  update t _ := (t / 2, t / 2 - t)
  energy t _ := t
  norm d := |d|
  extrapolate b := ((Ccpy.Diis.extrapolate 1 1 (rows b).1 (rows b).2).elim 0 (· 0))
  scale := none

/-- Extrapolation with size two: the rows are averaged with fixed weights, as an arbitrary linear
extrapolation would. -/
def averaging : Method ℚ ℚ ℚ :=
  { halving with extrapolate := fun b => ((b 0).elim 0 (·.1) + (b 1).elim 0 (·.1)) / 2 }

/-- Halving with the scaling of the left excited-state equations: the overlap is the amplitude. -/
def scaled : Method ℚ ℚ ℚ := { halving with scale := some fun t => (t, 1 / t * t) }

/-- What is observed of a run. -/
def observe (x : Except Err (List (Record ℚ ℚ ℚ) × Final ℚ ℚ)) : Option (ℕ × ℚ × ℚ × ℚ × Bool) :=
  match x with
  | .ok (rs, fin) => some (rs.length, fin.t, fin.energy, fin.lr, fin.converged)
  | .error _ => none

example : observe (run halving ⟨10, 1/10, 1/10, -1⟩ 1 0) = some (4, 1/16, 1/16, 0, true) := by
  decide +kernel

example : observe (run averaging ⟨20, 1/10, 1/10, 2⟩ 1 0) = some (4, 3/32, 3/32, 0, true) := by
  decide +kernel

example : observe (run halving ⟨3, 1/10, 1/10, 5⟩ 1 0) = some (3, 1/8, 1/8, 0, false) := by
  decide +kernel

/-- C23, disagreement: without convergence, the last extrapolation is applied to the returned vector after
its energy was taken, so the returned energy (1/8) is not the energy of the returned vector (3/16). -/
theorem C23_unconverged_energy_fails :
    observe (run averaging ⟨3, 0, 0, 2⟩ 1 0) = some (3, 3/16, 1/8, 0, false) ∧
    averaging.energy (3/16) 0 ≠ 1/8 := by
  constructor
  · decide +kernel
  · show (3/16 : ℚ) ≠ 1/8
    norm_num

/-- C23, disagreement: with no iteration allowed the returned energy is 0, whatever the guess. -/
theorem C23_no_iterations_fails (V D K : Type) [Field K] [LinearOrder K] (m : Method V D K)
    (o : Options K) (t0 : V) (d0 : D) (hm : o.maximumIterations = 0) (hs : -1 ≤ o.diisSize) :
    run m o t0 d0 = .ok ([], ⟨t0, 0, 0, false⟩) := by
  unfold run
  rw [if_neg (by omega), hm]
  rfl

/-- C23, disagreement: a left excited-state run that converges reports the overlap of the vector before
the previous scaling, and returns a vector that is not scaled: here overlap 1 is reported for a vector
whose overlap is 1/2; if the first iteration converges the reported overlap is 0. -/
theorem C23_left_overlap_fails :
    observe (run scaled ⟨10, 1, 1, -1⟩ (1/2) 0) = some (1, 1/4, 1/4, 0, true) ∧
    observe (run scaled ⟨10, 3/4, 3/4, -1⟩ 2 0) = some (2, 1/2, 1/2, 1, true) ∧
    (run scaled ⟨10, 3/4, 3/4, -1⟩ 2 0).toOption.map (fun x => (scaled.scale.map fun f => (f x.2.t).1))
      = some (some (1/2)) := by
  decide +kernel

end Ccpy.Jacobi
