import Verif.Lemmas.Adaptive

/-! Helper lemmas for C20: what every completed macro-iteration satisfies. -/

namespace Ccpy.Adaptive

open Ccpy.Excitations

variable {E : Engine} {s : Sys} {rhf cholesky : Bool} {o : Options} {ref : ℚ} {plan : Plan} {nmacro : ℕ}

/-- Macro-iteration number `i` of `ms` did what it should, except for stopping. -/
structure MacroOk (E : Engine) (s : Sys) (rhf cholesky : Bool) (o : Options) (ref : ℚ) (plan : Plan)
    (nmacro : ℕ) (p0 : PSpace) (n0 : ℕ → Case → ℕ) (ms : List Macro) (i : ℕ) (m : Macro) : Prop where
  here : ms[i]? = some m
  size : nDet plan.base m.pspace = some m.nDet
  ccp : m.eP = E.ccp i m.pspace
  ccp3 : runCcp3 E o cholesky plan nmacro i m.pspace = .ok (m.eQ, m.asked, m.rows)
  extrapolated : ccqRaises ref m.eP m.eQ = false
  first : i = 0 → m.pspace = p0 ∧ m.counts = n0
  next : ∀ m', ms[i + 1]? = some m' → addTriples s rhf m.rows m.pspace m.counts
    = some (m'.pspace, m'.counts)

/-- The energy of the macro-iteration before number `i`. -/
def prevEnergy (ms : List Macro) (i : ℕ) : Option ℚ :=
  if i = 0 then none else ms[i - 1]?.map Macro.eQ

theorem loop_spec (p0 : PSpace) (n0 : ℕ → Case → ℕ) (fuel k : ℕ) (p : PSpace) (n : ℕ → Case → ℕ)
    (hist : List Macro) (hk : hist.length = k) (hf : k + fuel = nmacro)
    (hok : ∀ i m, hist[i]? = some m →
      MacroOk E s rhf cholesky o ref plan nmacro p0 n0 hist i m ∧
        stopTest o nmacro i (prevEnergy hist i) m = none)
    (hlast : ∀ m, hist.getLast? = some m → addTriples s rhf m.rows m.pspace m.counts = some (p, n))
    (hfirst : k = 0 → p = p0 ∧ n = n0) {ms : List Macro} {r : Option Stop}
    (h : loop E s rhf o cholesky ref plan nmacro fuel k p n hist = .ok (ms, r)) :
    ms.length ≤ nmacro ∧
    (∀ i m, ms[i]? = some m → MacroOk E s rhf cholesky o ref plan nmacro p0 n0 ms i m) ∧
    (∀ i m, i + 1 < ms.length → ms[i]? = some m → stopTest o nmacro i (prevEnergy ms i) m = none) ∧
    (fuel = 0 → ms = hist ∧ r = none) ∧
    (0 < fuel → ∃ m, ms.getLast? = some m ∧ ∃ stop, r = some stop ∧
      stopTest o nmacro (ms.length - 1) (prevEnergy ms (ms.length - 1)) m = some stop) := by
  induction fuel generalizing k p n hist with
  | zero =>
    rw [loop] at h
    obtain ⟨rfl, rfl⟩ := Prod.mk.inj (Except.ok.inj h)
    refine ⟨by omega, fun i m hm => (hok i m hm).1, fun i m _ hm => (hok i m hm).2,
      fun _ => ⟨rfl, rfl⟩, fun h => absurd h (by omega)⟩
  | succ fuel ih =>
    unfold loop at h
    cases hm : macroIteration E o cholesky ref plan nmacro k p n with
    | error e => rw [hm] at h; simp at h
    | ok m =>
      rw [hm] at h
      simp only at h
      -- what the new macro-iteration satisfies
      have hmac : nDet plan.base p = some m.nDet ∧ m.eP = E.ccp k p ∧
          runCcp3 E o cholesky plan nmacro k p = .ok (m.eQ, m.asked, m.rows) ∧
          ccqRaises ref m.eP m.eQ = false ∧ m.pspace = p ∧ m.counts = n := by
        unfold macroIteration at hm
        cases hn : nDet plan.base p with
        | none => rw [hn] at hm; simp at hm
        | some d =>
          rw [hn] at hm
          simp only at hm
          cases hr : runCcp3 E o cholesky plan nmacro k p with
          | error e => rw [hr] at hm; simp at hm
          | ok q =>
            obtain ⟨eQ, asked, rows⟩ := q
            rw [hr] at hm
            simp only at hm
            split_ifs at hm with hc
            obtain rfl := Except.ok.inj hm
            exact ⟨rfl, rfl, rfl, by simpa using hc, rfl, rfl⟩
      obtain ⟨m1, m2, m3, m4, m5, m6⟩ := hmac
      have hget : ∀ i, (hist ++ [m])[i]? = if i < k then hist[i]? else if i = k then some m else none := by
        intro i
        rcases lt_trichotomy i k with hi | hi | hi
        · rw [if_pos hi, List.getElem?_append_left (by omega)]
        · rw [if_neg (by omega), if_pos hi, hi, ← hk, List.getElem?_concat_length]
        · rw [if_neg (by omega), if_neg (by omega), List.getElem?_eq_none]
          simp
          omega
      have hnew : MacroOk E s rhf cholesky o ref plan nmacro p0 n0 (hist ++ [m]) k m := by
        refine ⟨by rw [hget]; simp, by rw [m5]; exact m1, by rw [m5]; exact m2, by rw [m5]; exact m3,
          m4, fun h0 => by rw [m5, m6]; exact hfirst h0, fun m' hm' => ?_⟩
        rw [hget, if_neg (by omega), if_neg (by omega)] at hm'
        exact absurd hm' (by simp)
      have hold : ∀ i m', i < k → (hist ++ [m])[i]? = some m' →
          MacroOk E s rhf cholesky o ref plan nmacro p0 n0 (hist ++ [m]) i m' := by
        intro i m' hi hm'
        have hm'' : hist[i]? = some m' := by rw [hget, if_pos hi] at hm'; exact hm'
        have hx := (hok i m' hm'').1
        refine ⟨hm', hx.size, hx.ccp, hx.ccp3, hx.extrapolated, hx.first, fun m2 hm2 => ?_⟩
        rw [hget] at hm2
        by_cases hi1 : i + 1 < k
        · rw [if_pos hi1] at hm2
          exact hx.next m2 hm2
        · rw [if_neg hi1, if_pos (by omega)] at hm2
          obtain rfl := Option.some.inj hm2
          rw [m5, m6]
          refine hlast m' ?_
          rw [List.getLast?_eq_getElem?, hk, show k - 1 = i by omega]
          exact hm''
      have hall : ∀ i m', (hist ++ [m])[i]? = some m' →
          MacroOk E s rhf cholesky o ref plan nmacro p0 n0 (hist ++ [m]) i m' := by
        intro i m' hm'
        by_cases hi : i < k
        · exact hold i m' hi hm'
        · by_cases hik : i = k
          · subst hik
            have : m' = m := by
              rw [hget, if_neg hi, if_pos rfl] at hm'
              exact (Option.some.inj hm').symm
            rw [this]
            exact hnew
          · rw [hget, if_neg hi, if_neg hik] at hm'
            exact absurd hm' (by simp)
      have hprev : ∀ i, i ≤ k → prevEnergy (hist ++ [m]) i = prevEnergy hist i := by
        intro i hi
        unfold prevEnergy
        by_cases h0 : i = 0
        · rw [if_pos h0, if_pos h0]
        · rw [if_neg h0, if_neg h0, hget, if_pos (by omega)]
      have hcur : prevEnergy hist k = hist.getLast?.map Macro.eQ := by
        unfold prevEnergy
        by_cases h0 : k = 0
        · rw [if_pos h0]
          have : hist = [] := List.length_eq_zero_iff.mp (by omega)
          rw [this]
          rfl
        · rw [if_neg h0, List.getLast?_eq_getElem?, hk]
      have hlen : (hist ++ [m]).length = k + 1 := by simp [hk]
      have hstops : ∀ i m', i < k → (hist ++ [m])[i]? = some m' →
          stopTest o nmacro i (prevEnergy (hist ++ [m]) i) m' = none := by
        intro i m' hi hm'
        rw [hprev i (by omega)]
        exact (hok i m' (by rw [hget, if_pos hi] at hm'; exact hm')).2
      cases hs : stopTest o nmacro k (hist.getLast?.map Macro.eQ) m with
      | some st =>
        rw [hs] at h
        simp only at h
        obtain ⟨rfl, rfl⟩ := Prod.mk.inj (Except.ok.inj h)
        refine ⟨by rw [hlen]; omega, hall, ?_, fun h => absurd h (by omega), fun _ => ?_⟩
        · intro i m' hi hm'
          exact hstops i m' (by rw [hlen] at hi; omega) hm'
        · refine ⟨m, by simp, st, rfl, ?_⟩
          rw [hlen, show k + 1 - 1 = k by omega, hprev k (le_refl _), hcur]
          exact hs
      | none =>
        rw [hs] at h
        simp only at h
        cases ha : addTriples s rhf m.rows p n with
        | none => rw [ha] at h; simp at h
        | some q =>
          obtain ⟨p', n'⟩ := q
          rw [ha] at h
          simp only at h
          obtain ⟨g1, g2, g3, g4, g5⟩ := ih (k + 1) p' n' (hist ++ [m]) hlen (by omega) (by
              intro i m' hm'
              refine ⟨hall i m' hm', ?_⟩
              by_cases hi : i < k
              · exact hstops i m' hi hm'
              · have hik : i = k := by
                  by_contra hne
                  rw [hget, if_neg hi, if_neg hne] at hm'
                  exact absurd hm' (by simp)
                subst hik
                have : m' = m := by
                  rw [hget, if_neg hi, if_pos rfl] at hm'
                  exact (Option.some.inj hm').symm
                rw [this, hprev _ (le_refl _), hcur]
                exact hs)
            (by
              intro m' hm'
              have : m' = m := by simpa using hm'.symm
              rw [this, m5, m6]
              exact ha)
            (by omega) h
          refine ⟨g1, g2, g3, fun h => absurd h (by omega), fun _ => ?_⟩
          by_cases hf0 : fuel = 0
          · exfalso
            have : k + 1 = nmacro := by omega
            unfold stopTest at hs
            split at hs
            · split_ifs at hs
            · split_ifs at hs
          · exact g5 (by omega)

end Ccpy.Adaptive
