import Verif.Model.Jacobi
import Mathlib.Tactic.Push

/-! Helper lemmas for C21 and C23. -/

namespace Ccpy.Jacobi

open Ccpy.Diis (Slots push)

variable {V D K : Type} [Field K] [LinearOrder K]

/-- The vector an iteration hands to the next one. -/
def handOver (m : Method V D K) (r : Record V D K) : V :=
  let t := match r.buffer with
    | some b => m.extrapolate b
    | none => r.tOut
  match m.scale with
  | some f => (f t).2
  | none => t

/-- What is known of the loop. -/
structure LoopOk (m : Method V D K) (o : Options K) (fuel n : ℕ) (s : State V D K)
    (hist : List (V × D)) (rs : List (Record V D K)) (fin : Final V K) : Prop where
  length : rs.length ≤ fuel
  start : ∀ r, rs[0]? = some r → r.tIn = s.t ∧ r.dIn = s.d ∧ r.energyOld = s.energyOld
  next : ∀ (i : ℕ) (r r' : Record V D K), rs[i]? = some r → rs[i + 1]? = some r' →
    r'.tIn = handOver m r ∧ r'.dIn = r.dOut ∧ r'.energyOld = r.energy
  each : ∀ (i : ℕ) (r : Record V D K), rs[i]? = some r →
    (r.tOut, r.dOut) = m.update r.tIn r.dIn ∧ r.energy = m.energy r.tOut r.dOut
  stop : ∀ (i : ℕ) (r : Record V D K), rs[i]? = some r →
    exitTest m o r.dOut r.energy r.energyOld = true → i + 1 = rs.length ∧ fin.converged = true ∧
      fin.t = r.tOut ∧ fin.energy = r.energy
  conv : fin.converged = true → ∃ r, rs.getLast? = some r ∧
    exitTest m o r.dOut r.energy r.energyOld = true
  unconv : fin.converged = false → rs.length = fuel ∧
    (∀ r, rs.getLast? = some r → fin.t = handOver m r ∧ fin.energy = r.energy) ∧
    (rs = [] → fin.t = s.t ∧ fin.energy = s.energy)
  noDiis : o.diisSize = -1 → ∀ r ∈ rs, r.buffer = none
  extrap : o.diisSize ≠ -1 → ∀ (i : ℕ) (r : Record V D K), rs[i]? = some r →
    exitTest m o r.dOut r.energy r.energyOld = false → (r.buffer.isSome ↔ o.diisSize.toNat ≤ n + i)
  buffers : ∀ (i : ℕ) (r : Record V D K) (b : Slots V D), rs[i]? = some r → r.buffer = some b →
    ∀ k, k ≤ n + i → n + i < k + o.diisSize.toNat →
      b (k % o.diisSize.toNat) = (hist ++ rs.map fun q => (q.tOut, q.dOut))[k]?
  exitBuffer : ∀ (i : ℕ) (r : Record V D K), rs[i]? = some r →
    exitTest m o r.dOut r.energy r.energyOld = true → r.buffer = none

/-- The lists hold the last entries of the history. -/
def Held (size : ℕ) (hist : List (V × D)) (slots : Slots V D) : Prop :=
  ∀ k, k < hist.length → hist.length ≤ k + size → slots (k % size) = hist[k]?

theorem held_push {size : ℕ} {hist : List (V × D)} {slots slots' : Slots V D} {t : V} {d : D}
    (h : Held size hist slots) (hp : push size slots t d hist.length = some slots') :
    Held size (hist ++ [(t, d)]) slots' := by
  unfold push at hp
  split_ifs at hp with h0
  obtain rfl := Option.some.inj hp
  intro k hk hlen
  rw [List.length_append, List.length_singleton] at hk hlen
  by_cases hkl : k = hist.length
  · subst hkl
    simp
  · have hne : k % size ≠ hist.length % size := by
      intro he
      have hsize : 0 < size := Nat.pos_of_ne_zero h0
      have hdvd : size ∣ hist.length - k := Nat.dvd_of_mod_eq_zero (Nat.sub_mod_eq_zero_of_mod_eq he.symm)
      have := Nat.le_of_dvd (by omega) hdvd
      omega
    simp only
    rw [if_neg hne, h k (by omega) (by omega), List.getElem?_append_left (by omega)]

theorem loop_ok (m : Method V D K) (o : Options K) (ho : -1 ≤ o.diisSize) (fuel n : ℕ)
    (s : State V D K) (hist : List (V × D)) (hn : hist.length = n)
    (hh : o.diisSize ≠ -1 → Held o.diisSize.toNat hist s.slots)
    (rs : List (Record V D K)) (fin : Final V K) (h : loop m o fuel n s = .ok (rs, fin)) :
    LoopOk m o fuel n s hist rs fin := by
  induction fuel generalizing n s hist rs fin with
  | zero =>
    simp only [loop, Except.ok.injEq, Prod.mk.injEq] at h
    obtain ⟨rfl, rfl⟩ := h
    constructor <;> simp
  | succ fuel ih =>
    rw [loop] at h
    generalize hu : m.update s.t s.d = u at h
    obtain ⟨t, d⟩ := u
    simp only at h
    by_cases hx : exitTest m o d (m.energy t d) s.energyOld = true
    · rw [if_pos hx] at h
      simp only [Except.ok.injEq, Prod.mk.injEq] at h
      obtain ⟨rfl, rfl⟩ := h
      have one : ∀ (i : ℕ) (r q : Record V D K), [q][i]? = some r → i = 0 ∧ r = q := by
        intro i r q hi
        cases i with
        | zero => simp at hi; exact ⟨rfl, hi.symm⟩
        | succ i => simp at hi
      constructor
      · simp
      · intro r hr
        obtain ⟨-, rfl⟩ := one _ _ _ hr
        exact ⟨rfl, rfl, rfl⟩
      · intro i r r' hr hr'
        obtain ⟨h1, -⟩ := one _ _ _ hr'
        omega
      · intro i r hr
        obtain ⟨-, rfl⟩ := one _ _ _ hr
        exact ⟨hu.symm, rfl⟩
      · intro i r hr _
        obtain ⟨rfl, rfl⟩ := one _ _ _ hr
        exact ⟨rfl, rfl, rfl, rfl⟩
      · intro _
        exact ⟨_, rfl, hx⟩
      · intro hc
        cases hc
      · intro _ r hr
        rw [List.mem_singleton] at hr
        subst hr
        rfl
      · intro _ i r hr hx'
        obtain ⟨rfl, rfl⟩ := one _ _ _ hr
        simp only at hx'
        rw [hx] at hx'
        cases hx'
      · intro i r b hr hb
        obtain ⟨rfl, rfl⟩ := one _ _ _ hr
        cases hb
      · intro i r hr _
        obtain ⟨rfl, rfl⟩ := one _ _ _ hr
        rfl
    · rw [if_neg hx] at h
      have hx' : exitTest m o d (m.energy t d) s.energyOld = false := by
        simpa using hx
      -- the DIIS lists after the push
      cases hslots : save o s.slots t d n with
      | error e =>
        rw [hslots] at h
        simp [bind, Except.bind] at h
      | ok slots =>
      have hheld : o.diisSize ≠ -1 → Held o.diisSize.toNat (hist ++ [(t, d)]) slots := by
        intro h1
        unfold save at hslots
        rw [if_neg h1] at hslots
        cases hp : push o.diisSize.toNat s.slots t d n with
        | none =>
          rw [hp] at hslots
          cases hslots
        | some slots' =>
          rw [hp] at hslots
          simp only [Except.ok.injEq] at hslots
          subst hslots
          rw [← hn] at hp
          exact held_push (hh h1) hp
      rw [hslots] at h
      simp only [bind, Except.bind] at h
      generalize hbuf : bufferAt o slots n = buffer at h
      unfold bufferAt at hbuf
      set q : Record V D K := ⟨s.t, s.d, t, d, m.energy t d, s.energyOld, buffer⟩ with hq
      generalize hs' : finish m buffer t s.lr = pr at h
      have hpr : pr.2 = handOver m q := by
        rw [← hs']
        unfold handOver finish
        cases hsc : m.scale <;> cases hb : buffer <;> simp [hq, hb]
      obtain ⟨lr, t''⟩ := pr
      simp only at h hpr
      cases hl : loop m o fuel (n + 1) ⟨t'', d, m.energy t d, m.energy t d, lr, slots⟩ with
      | error e =>
        rw [hl] at h
        simp at h
      | ok res =>
        obtain ⟨rs', fin'⟩ := res
        rw [hl] at h
        simp only [Except.ok.injEq, Prod.mk.injEq] at h
        obtain ⟨rfl, rfl⟩ := h
        have L := ih (n + 1) _ (hist ++ [(t, d)]) (by simp [hn]) hheld rs' fin' hl
        constructor
        · simp only [List.length_cons]
          have := L.length
          omega
        · intro r hr
          simp only [List.getElem?_cons_zero, Option.some.injEq] at hr
          subst hr
          exact ⟨rfl, rfl, rfl⟩
        · intro i r r' hr hr'
          cases i with
          | zero =>
            simp only [List.getElem?_cons_zero, Option.some.injEq] at hr
            subst hr
            rw [List.getElem?_cons_succ] at hr'
            obtain ⟨h1, h2, h3⟩ := L.start r' hr'
            exact ⟨h1.trans hpr, h2, h3⟩
          | succ i =>
            rw [List.getElem?_cons_succ] at hr hr'
            exact L.next i r r' hr hr'
        · intro i r hr
          cases i with
          | zero =>
            simp only [List.getElem?_cons_zero, Option.some.injEq] at hr
            subst hr
            exact ⟨hu.symm, rfl⟩
          | succ i => exact L.each i r (by simpa using hr)
        · intro i r hr hxr
          cases i with
          | zero =>
            simp only [List.getElem?_cons_zero, Option.some.injEq] at hr
            subst hr
            exact absurd hxr hx
          | succ i =>
            obtain ⟨h1, h2⟩ := L.stop i r (by simpa using hr) hxr
            exact ⟨by simp only [List.length_cons]; omega, h2⟩
        · intro hc
          obtain ⟨r, h1, h2⟩ := L.conv hc
          refine ⟨r, ?_, h2⟩
          rw [List.getLast?_cons]
          rw [h1]
          rfl
        · intro hc
          obtain ⟨h1, h2, h3⟩ := L.unconv hc
          refine ⟨by simp [h1], fun r hr => ?_, fun he => by cases he⟩
          rw [List.getLast?_cons] at hr
          cases hlast : rs'.getLast? with
          | none =>
            rw [hlast] at hr
            simp only [Option.getD_none, Option.some.injEq] at hr
            subst hr
            rw [List.getLast?_eq_none_iff] at hlast
            obtain ⟨h4, h5⟩ := h3 hlast
            exact ⟨h4.trans hpr, h5⟩
          | some r0 =>
            rw [hlast] at hr
            simp only [Option.getD_some, Option.some.injEq] at hr
            subst hr
            exact h2 r0 hlast
        · intro h1 r hr
          rcases List.mem_cons.mp hr with rfl | hr
          · show buffer = none
            rw [← hbuf, if_neg (by tauto)]
          · exact L.noDiis h1 r hr
        · intro h1 i r hr hxr
          cases i with
          | zero =>
            simp only [List.getElem?_cons_zero, Option.some.injEq] at hr
            subst hr
            show buffer.isSome ↔ _
            rw [← hbuf]
            by_cases hle : o.diisSize ≤ (n : ℤ)
            · rw [if_pos ⟨hle, h1⟩]
              simp only [Option.isSome_some, true_iff]
              omega
            · rw [if_neg (by tauto)]
              simp only [Option.isSome_none, Bool.false_eq_true, false_iff]
              omega
          | succ i =>
            have := L.extrap h1 i r (by simpa using hr) hxr
            rw [this, show n + 1 + i = n + (i + 1) by omega]
        · intro i r b hr hb k hk hk'
          cases i with
          | zero =>
            simp only [List.getElem?_cons_zero, Option.some.injEq] at hr
            subst hr
            replace hb : buffer = some b := hb
            rw [← hbuf] at hb
            split_ifs at hb with hc
            obtain rfl := Option.some.inj hb
            have := hheld hc.2 k (by rw [List.length_append, List.length_singleton]; omega)
              (by rw [List.length_append, List.length_singleton]; omega)
            rw [this, List.map_cons]
            rw [show hist ++ (q.tOut, q.dOut) :: List.map (fun q => (q.tOut, q.dOut)) rs'
              = (hist ++ [(t, d)]) ++ List.map (fun q => (q.tOut, q.dOut)) rs' by simp [hq]]
            exact (List.getElem?_append_left (by rw [List.length_append, List.length_singleton]; omega)).symm
          | succ i =>
            have := L.buffers i r b (by simpa using hr) hb k (by omega) (by omega)
            rw [this]
            simp [hq]
        · intro i r hr hxr
          cases i with
          | zero =>
            simp only [List.getElem?_cons_zero, Option.some.injEq] at hr
            subst hr
            exact absurd hxr hx
          | succ i => exact L.exitBuffer i r (by simpa using hr) hxr

end Ccpy.Jacobi
