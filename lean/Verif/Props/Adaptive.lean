import Verif.Lemmas.AdaptiveLoop
import Verif.Props.Selection
import Verif.Props.Schedule

/-! # C20: the macro-iterations of the adaptive calculation -/

namespace Ccpy.Adaptive

open Ccpy.Excitations Ccpy.Spec

variable {E : Engine} {s : Sys} {h : ℕ} {rhf cholesky : Bool} {ref : ℚ} {d : Driver}
  {ms : List Macro} {r : Option Stop}

/-- The change of E(P;Q) from the macro-iteration before is below the tolerance. -/
def EnergyConverged (tol : ℚ) (ms : List Macro) (i : ℕ) : Prop :=
  ∃ m m', 0 < i ∧ ms[i - 1]? = some m ∧ ms[i]? = some m' ∧ |m'.eQ - m.eQ| < tol

/-- The P space has reached the cap, in a macro-iteration after the first. -/
def SizeReached (cap : ℕ) (ms : List Macro) (i : ℕ) : Prop :=
  ∃ m, 0 < i ∧ ms[i]? = some m ∧ (cap : ℤ) ≤ m.nDet

theorem run_spec (hd : 0 < d.nmacro) (hrun : run E s h rhf cholesky ref d = .ok (ms, r)) :
    ∃ plan, excitationCount s h rhf d = some plan ∧ ms.length ≤ d.nmacro ∧
    (∀ i m, ms[i]? = some m →
      MacroOk E s rhf cholesky d.options ref plan d.nmacro startPSpace (fun _ _ => 0) ms i m) ∧
    (∀ i m, i + 1 < ms.length → ms[i]? = some m →
      stopTest d.options d.nmacro i (prevEnergy ms i) m = none) ∧
    ∃ m, ms.getLast? = some m ∧ ∃ stop, r = some stop ∧
      stopTest d.options d.nmacro (ms.length - 1) (prevEnergy ms (ms.length - 1)) m = some stop := by
  unfold run at hrun
  cases hp : excitationCount s h rhf d with
  | none => rw [hp] at hrun; simp at hrun
  | some plan =>
    rw [hp] at hrun
    simp only at hrun
    obtain ⟨h1, h2, h3, -, h5⟩ := loop_spec startPSpace (fun _ _ => 0) d.nmacro 0 startPSpace
      (fun _ _ => 0) [] rfl (by omega) (by simp) (by simp) (fun _ => ⟨rfl, rfl⟩) hrun
    exact ⟨plan, rfl, h1, h2, h3, h5 hd⟩

theorem energy_iff {tol : ℚ} {i : ℕ} {m : Macro} (hm : ms[i]? = some m) :
    EnergyConverged tol ms i ↔ ∃ q, prevEnergy ms i = some q ∧ |m.eQ - q| < tol := by
  constructor
  · rintro ⟨a, b, hi, ha, hb, hlt⟩
    obtain rfl := Option.some.inj (hm.symm.trans hb)
    exact ⟨a.eQ, by rw [prevEnergy, if_neg (by omega), ha]; rfl, hlt⟩
  · rintro ⟨q, hq, hlt⟩
    unfold prevEnergy at hq
    split_ifs at hq with h0
    rw [Option.map_eq_some_iff] at hq
    obtain ⟨a, ha, rfl⟩ := hq
    exact ⟨a, m, by omega, ha, hm, hlt⟩

theorem prev_some {i : ℕ} (hi : 0 < i) {m : Macro} (hm : ms[i]? = some m) :
    ∃ q, prevEnergy ms i = some q := by
  have : i < ms.length := by
    by_contra hlt
    rw [List.getElem?_eq_none (by omega)] at hm
    simp at hm
  refine ⟨(ms[i - 1]'(by omega)).eQ, ?_⟩
  rw [prevEnergy, if_neg (by omega), List.getElem?_eq_getElem]
  rfl

theorem stopTest_none_iff {o : Options} {nmacro i : ℕ} {m : Macro} (hm : ms[i]? = some m) :
    stopTest o nmacro i (prevEnergy ms i) m = none ↔
      ¬ EnergyConverged o.energyTolerance ms i ∧ ¬ SizeReached o.nDetMax ms i ∧ i + 1 ≠ nmacro := by
  rw [energy_iff hm]
  have hs : SizeReached o.nDetMax ms i ↔ 0 < i ∧ (o.nDetMax : ℤ) ≤ m.nDet := by
    constructor
    · rintro ⟨a, hi, ha, hle⟩
      obtain rfl := Option.some.inj (hm.symm.trans ha)
      exact ⟨hi, hle⟩
    · rintro ⟨hi, hle⟩
      exact ⟨m, hi, hm, hle⟩
  rw [hs]
  rcases Nat.eq_zero_or_pos i with rfl | hi
  · simp [prevEnergy, stopTest]
  · obtain ⟨q, hq⟩ := prev_some hi hm
    simp only [hq, stopTest, Option.some.injEq, exists_eq_left', hi, true_and]
    split_ifs with h1 h2 h3 <;> simp_all

/-- C20: a run that does not raise performs at least one and at most the planned number of
macro-iterations; it stops at the first one where the change of E(P;Q) is below the tolerance, the
determinant cap is reached or the planned number is exhausted, and says which (in this order). -/
theorem C20_stops (hd : 0 < d.nmacro) (hrun : run E s h rhf cholesky ref d = .ok (ms, r)) :
    1 ≤ ms.length ∧ ms.length ≤ d.nmacro ∧
    (∀ i, i + 1 < ms.length → ¬ EnergyConverged d.options.energyTolerance ms i ∧
      ¬ SizeReached d.options.nDetMax ms i ∧ i + 1 ≠ d.nmacro) ∧
    (r = some .energy ∧ EnergyConverged d.options.energyTolerance ms (ms.length - 1) ∨
     r = some .size ∧ SizeReached d.options.nDetMax ms (ms.length - 1) ∧
       ¬ EnergyConverged d.options.energyTolerance ms (ms.length - 1) ∨
     r = some .iterations ∧ ms.length = d.nmacro ∧
       ¬ EnergyConverged d.options.energyTolerance ms (ms.length - 1) ∧
       ¬ SizeReached d.options.nDetMax ms (ms.length - 1)) := by
  obtain ⟨plan, -, h1, -, h3, m, hm, stop, rfl, hst⟩ := run_spec hd hrun
  have hne : ms ≠ [] := by rintro rfl; simp at hm
  have hpos : 1 ≤ ms.length := List.length_pos_iff.mpr hne
  rw [List.getLast?_eq_getElem?] at hm
  refine ⟨hpos, h1, ?_, ?_⟩
  · intro i hi
    obtain ⟨m', hm'⟩ : ∃ m', ms[i]? = some m' := ⟨ms[i], List.getElem?_eq_getElem (by omega)⟩
    exact (stopTest_none_iff hm').mp (h3 i m' hi hm')
  · rw [energy_iff hm]
    have hs : SizeReached d.options.nDetMax ms (ms.length - 1) ↔
        0 < ms.length - 1 ∧ (d.options.nDetMax : ℤ) ≤ m.nDet := by
      constructor
      · rintro ⟨a, hi, ha, hle⟩
        obtain rfl := Option.some.inj (hm.symm.trans ha)
        exact ⟨hi, hle⟩
      · rintro ⟨hi, hle⟩
        exact ⟨m, hi, hm, hle⟩
    rw [hs]
    rcases Nat.eq_zero_or_pos (ms.length - 1) with h0 | hi
    · rw [h0] at hst ⊢
      simp only [prevEnergy, if_true, stopTest] at hst ⊢
      split_ifs at hst with hn
      obtain rfl := (Option.some.inj hst).symm
      right; right
      exact ⟨rfl, by omega, by simp, by simp⟩
    · obtain ⟨q, hq⟩ := prev_some hi hm
      simp only [hq, stopTest] at hst
      simp only [hq, Option.some.injEq, exists_eq_left', hi, true_and]
      split_ifs at hst with e1 e2 e3
      · left
        exact ⟨(Option.some.inj hst).symm, e1⟩
      · right; left
        exact ⟨(Option.some.inj hst).symm, e2, e1⟩
      · right; right
        exact ⟨(Option.some.inj hst).symm, by omega, e1, by omega⟩

/-- C20: every macro-iteration but the planned last asks the selection for the planned number of
triples, and its E(P;Q) is the one of the selection; the planned last runs no selection. -/
theorem C20_selection (hd : 0 < d.nmacro) (hrun : run E s h rhf cholesky ref d = .ok (ms, r)) :
    ∃ plan, excitationCount s h rhf d = some plan ∧ ∀ i m, ms[i]? = some m →
      m.eP = E.ccp i m.pspace ∧
      (i + 1 < d.nmacro → ∃ x, plan.adds[i]? = some x ∧ m.asked = some (pyInt x) ∧
        E.select i m.pspace (pyInt x) = some (m.eQ, m.rows)) ∧
      (i + 1 = d.nmacro → m.asked = none ∧ m.rows = [] ∧ m.eQ = E.final i m.pspace) := by
  obtain ⟨plan, hp, -, hok, -⟩ := run_spec hd hrun
  refine ⟨plan, hp, fun i m hm => ?_⟩
  have hi := hok i m hm
  have h3 := hi.ccp3
  refine ⟨hi.ccp, fun hlt => ?_, fun heq => ?_⟩
  · unfold runCcp3 at h3
    rw [if_pos (by omega)] at h3
    split_ifs at h3
    split at h3
    · simp at h3
    · rename_i x hx
      split at h3
      · simp at h3
      · rename_i e rows hsel
        obtain ⟨rfl, h4⟩ := Prod.mk.inj (Except.ok.inj h3)
        obtain ⟨h5, rfl⟩ := Prod.mk.inj h4
        exact ⟨x, hx, h5.symm, hsel⟩
  · unfold runCcp3 at h3
    rw [if_neg (by omega)] at h3
    obtain ⟨h3, h4⟩ := Prod.mk.inj (Except.ok.inj h3)
    obtain ⟨h5, h6⟩ := Prod.mk.inj h4
    exact ⟨h5.symm, h6.symm, h3.symm⟩

/-- C20: a run does not depend on what a selection in the planned last macro-iteration would give. -/
theorem C20_last_selection_unused (E' : Engine) (hc : E'.ccp = E.ccp) (hf : E'.final = E.final)
    (hs : ∀ k, k + 1 < d.nmacro → E'.select k = E.select k) :
    run E' s h rhf cholesky ref d = run E s h rhf cholesky ref d := by
  have h3 : ∀ plan k p, runCcp3 E' d.options cholesky plan d.nmacro k p
      = runCcp3 E d.options cholesky plan d.nmacro k p := by
    intro plan k p
    unfold runCcp3
    by_cases hk : k < d.nmacro - 1
    · rw [if_pos hk, if_pos hk, hs k (by omega)]
    · rw [if_neg hk, if_neg hk, hf]
  have hm : ∀ plan k p n, macroIteration E' d.options cholesky ref plan d.nmacro k p n
      = macroIteration E d.options cholesky ref plan d.nmacro k p n := by
    intro plan k p n
    unfold macroIteration
    rw [h3, hc]
  have hl : ∀ plan fuel k p n hist, loop E' s rhf d.options cholesky ref plan d.nmacro fuel k p n hist
      = loop E s rhf d.options cholesky ref plan d.nmacro fuel k p n hist := by
    intro plan fuel
    induction fuel with
    | zero => intros; rfl
    | succ fuel ih =>
      intro k p n hist
      unfold loop
      rw [hm]
      simp only [ih]
  unfold run
  simp only [hl]

/-- The selection hands over ordered triples and unset rows. -/
def SelectsTriples (E : Engine) (s : Sys) : Prop :=
  ∀ k p n e rows, E.select k p n = some (e, rows) →
    ∃ sel : List (Option Triple), rows = sel.map encode ∧ ∀ t, some t ∈ sel → t.Ordered s

theorem wellKept (hd : 0 < d.nmacro) (hsel : SelectsTriples E s)
    (hrun : run E s h rhf cholesky ref d = .ok (ms, r)) (i : ℕ) {m : Macro} (hm : ms[i]? = some m) :
    (∃ sel : List (Option Triple), m.rows = sel.map encode ∧ ∀ t, some t ∈ sel → t.Ordered s) ∧
    ∀ c, m.pspace c ≠ [] ∧ ((m.pspace c).head? = some (List.replicate 6 1) → (m.pspace c).length = 1) ∧
      ∀ t, m.counts t c = (realRows 6 (m.pspace c)).countP fun x => decide (rowIrrep s c x = t) := by
  obtain ⟨plan, -, hlen, hok, -⟩ := run_spec hd hrun
  obtain ⟨plan', -, hS⟩ := C20_selection hd hrun
  have hrows : ∀ (i : ℕ) (m : Macro), ms[i]? = some m →
      ∃ sel : List (Option Triple), m.rows = sel.map encode ∧ ∀ t, some t ∈ sel → t.Ordered s := by
    intro i m hm
    have hlt : i < ms.length := by
      by_contra hlt
      rw [List.getElem?_eq_none (by omega)] at hm
      simp at hm
    by_cases hi : i + 1 < d.nmacro
    · obtain ⟨x, -, -, hx⟩ := (hS i m hm).2.1 hi
      exact hsel _ _ _ _ _ hx
    · obtain ⟨-, h2, -⟩ := (hS i m hm).2.2 (by omega)
      exact ⟨[], by rw [h2]; rfl, by simp⟩
  refine ⟨hrows i m hm, ?_⟩
  induction i generalizing m with
  | zero =>
    intro c
    obtain ⟨h1, h2⟩ := (hok 0 m hm).first rfl
    rw [h1, h2]
    refine ⟨by simp [startPSpace], fun _ => rfl, fun t => ?_⟩
    simp [startPSpace, realRows]
  | succ i ih =>
    have hlt : i + 1 < ms.length := by
      by_contra hlt
      rw [List.getElem?_eq_none (by omega)] at hm
      simp at hm
    obtain ⟨m', hm'⟩ : ∃ m', ms[i]? = some m' := ⟨ms[i], List.getElem?_eq_getElem (by omega)⟩
    have hprev := ih hm'
    have hadd := (hok i m' hm').next m hm
    obtain ⟨sel, hse, hord⟩ := hrows i m' hm'
    rw [hse] at hadd
    obtain ⟨new, counts', hg, hall⟩ := C17_history s rhf [sel] m'.pspace m'.counts
      (by simpa using hord) (fun c => (hprev c).1)
    obtain ⟨new2, counts2, hg2, hall2⟩ := C17_growth s rhf sel m'.pspace m'.counts hord
      (fun c => (hprev c).1)
    rw [hg2] at hadd
    obtain ⟨rfl, rfl⟩ := Prod.mk.inj (Option.some.inj hadd)
    have hsame : grow s rhf [sel] m'.pspace m'.counts = some (m.pspace, m.counts) := by
      simp only [grow, hg2]
      rfl
    rw [hsame] at hg
    obtain ⟨rfl, rfl⟩ := Prod.mk.inj (Option.some.inj hg)
    intro c
    refine ⟨(hall c).1, ?_, (hall c).2.2 (hprev c).2.2⟩
    intro hh
    by_cases hw : wanted rhf sel c = []
    · rw [(hall2 c).2.2.1 hw] at hh ⊢
      exact (hprev c).2.1 hh
    · have e := (hall2 c).1
      rw [realRows, if_pos hh] at e
      exact absurd (List.map_eq_nil_iff.mp (List.append_eq_nil_iff.mp e.symm).2) hw

/-- C20: the P space only grows: the next macro-iteration keeps every triple of this one and appends
the selected ones (with their spin mirrors under RHF symmetry). -/
theorem C20_grows (hd : 0 < d.nmacro) (hsel : SelectsTriples E s)
    (hrun : run E s h rhf cholesky ref d = .ok (ms, r)) (i : ℕ) {m m' : Macro}
    (hm : ms[i]? = some m) (hm' : ms[i + 1]? = some m') :
    ∃ sel : List (Option Triple), m.rows = sel.map encode ∧ ∀ c,
      realRows 6 (m'.pspace c) = realRows 6 (m.pspace c) ++ (wanted rhf sel c).map Triple.row := by
  obtain ⟨plan, -, -, hok, -⟩ := run_spec hd hrun
  obtain ⟨⟨sel, hse, hord⟩, hk⟩ := wellKept hd hsel hrun i hm
  have hadd := (hok i m hm).next m' hm'
  rw [hse] at hadd
  obtain ⟨new2, counts2, hg2, hall2⟩ := C17_growth s rhf sel m.pspace m.counts hord (fun c => (hk c).1)
  rw [hg2] at hadd
  obtain ⟨rfl, rfl⟩ := Prod.mk.inj (Option.some.inj hadd)
  exact ⟨sel, hse, fun c => (hall2 c).1⟩

/-- C20: the reported number of determinants is the base size plus the number of triples in the P
space, and the counters by irrep and spin case count its triples. -/
theorem C20_determinants (hd : 0 < d.nmacro) (hsel : SelectsTriples E s)
    (hrun : run E s h rhf cholesky ref d = .ok (ms, r)) :
    ∃ plan, excitationCount s h rhf d = some plan ∧ ∀ (i : ℕ) (m : Macro), ms[i]? = some m →
      m.nDet = plan.base + ((realRows 6 (m.pspace .aaa)).length + (realRows 6 (m.pspace .aab)).length
        + (realRows 6 (m.pspace .abb)).length + (realRows 6 (m.pspace .bbb)).length : ℤ) ∧
      ∀ t c, m.counts t c = (realRows 6 (m.pspace c)).countP fun x => decide (rowIrrep s c x = t) := by
  obtain ⟨plan, hp, -, hok, -⟩ := run_spec hd hrun
  refine ⟨plan, hp, fun i m hm => ?_⟩
  obtain ⟨-, hk⟩ := wellKept hd hsel hrun i hm
  refine ⟨?_, fun t c => (hk c).2.2 t⟩
  have hsz := (hok i m hm).size
  unfold nDet at hsz
  split_ifs at hsz with he
  have hl : ∀ c, ((realRows 6 (m.pspace c)).length : ℤ) = (m.pspace c).length
      - (if (m.pspace c).head? = some (List.replicate 6 1) then 1 else 0) := by
    intro c
    unfold realRows
    split_ifs with hh
    · rw [(hk c).2.1 hh]
      rfl
    · simp
  rw [hl, hl, hl, hl, ← Option.some.inj hsz]
  simp only [offset, List.map_cons, List.map_nil, List.sum_cons, List.sum_nil]
  ring

/-- The first macro-iteration starts from the P space without triples. -/
theorem C20_start (hd : 0 < d.nmacro) (hrun : run E s h rhf cholesky ref d = .ok (ms, r)) :
    ∃ m, ms[0]? = some m ∧ ∀ c, realRows 6 (m.pspace c) = [] := by
  obtain ⟨plan, hp, -, hok, -⟩ := run_spec hd hrun
  have h1 := (C20_stops hd hrun).1
  refine ⟨ms[0], List.getElem?_eq_getElem (by omega), fun c => ?_⟩
  rw [((hok 0 ms[0] (List.getElem?_eq_getElem (by omega))).first rfl).1]
  rfl

/-! ### Ways to fail -/

/-- A run that gets to the quadratic extrapolation with a correction of the same sign as, and more than
a quarter of, the correlation energy raises ValueError and returns nothing. -/
theorem C20_extrapolation_fails (plan : Plan) (hplan : excitationCount s h rhf d = some plan)
    (hd : 1 < d.nmacro) (hch : cholesky = false) {x : ℚ} (hx : plan.adds[0]? = some x) {e : ℚ}
    {rows : List (List ℕ)} (hsel : E.select 0 startPSpace (pyInt x) = some (e, rows))
    (hneg : E.ccp 0 startPSpace < ref)
    (hbig : e - E.ccp 0 startPSpace < (E.ccp 0 startPSpace - ref) / 4) :
    run E s h rhf cholesky ref d = .error .extrapolation := by
  have hn : ∀ b : ℕ, nDet b startPSpace = some (b : ℤ) := by
    intro b
    unfold nDet
    rw [if_neg (by simp [startPSpace])]
    simp [startPSpace, offset]
  have hr : runCcp3 E d.options cholesky plan d.nmacro 0 startPSpace = .ok (e, some (pyInt x), rows) := by
    unfold runCcp3
    rw [if_pos (by omega), hch]
    simp only [Bool.false_and, Bool.false_eq_true, if_false, hx, hsel]
  have hc : ccqRaises ref (E.ccp 0 startPSpace) e = true := by
    unfold ccqRaises
    simp only
    rw [if_neg (by linarith), decide_eq_true_eq, sub_neg, lt_div_iff_of_neg (by linarith)]
    linarith
  unfold run
  rw [hplan]
  simp only
  obtain ⟨n, hnn⟩ : ∃ n, d.nmacro = n + 1 := ⟨d.nmacro - 1, by omega⟩
  have hm : macroIteration E d.options cholesky ref plan d.nmacro 0 startPSpace (fun _ _ => 0)
      = .error .extrapolation := by
    unfold macroIteration
    rw [hn, hr]
    simp only [hc, if_true]
  rw [show loop E s rhf d.options cholesky ref plan d.nmacro d.nmacro 0 startPSpace (fun _ _ => 0) []
    = loop E s rhf d.options cholesky ref plan d.nmacro (n + 1) 0 startPSpace (fun _ _ => 0) [] by
    rw [← hnn]]
  unfold loop
  rw [hm]

/-- With Cholesky integrals and without the two-body approximation the driver always raises. -/
theorem C20_cholesky_error (plan : Plan) (hplan : excitationCount s h rhf d = some plan)
    (hd : 1 < d.nmacro) (ho : d.options.twoBodyApprox = false) :
    run E s h rhf true ref d = .error .unassigned := by
  have hn : ∀ b : ℕ, nDet b startPSpace = some (b : ℤ) := by
    intro b
    unfold nDet
    rw [if_neg (by simp [startPSpace])]
    simp [startPSpace, offset]
  have hr : runCcp3 E d.options true plan d.nmacro 0 startPSpace = .error .unassigned := by
    unfold runCcp3
    rw [if_pos (by omega), ho]
    rfl
  obtain ⟨n, hnn⟩ : ∃ n, d.nmacro = n + 1 := ⟨d.nmacro - 1, by omega⟩
  have hm : macroIteration E d.options true ref plan d.nmacro 0 startPSpace (fun _ _ => 0)
      = .error .unassigned := by
    unfold macroIteration
    rw [hn, hr]
  unfold run
  rw [hplan]
  simp only
  rw [show loop E s rhf d.options true ref plan d.nmacro d.nmacro 0 startPSpace (fun _ _ => 0) []
    = loop E s rhf d.options true ref plan d.nmacro (n + 1) 0 startPSpace (fun _ _ => 0) [] by
    rw [← hnn]]
  unfold loop
  rw [hm]

/-- The limit is read when the driver is made: whatever `maximum_iterations` is set to afterwards, a
run without percentages has up to 11 macro-iterations, and needs 11 to stop for that reason. -/
theorem C20_iteration_option_ignored_fails (o : Options)
    (hrun : run E s h rhf cholesky ref { Driver.init none with options := o } = .ok (ms, r)) :
    ms.length ≤ 11 ∧ (r = some .iterations → ms.length = 11) := by
  have hd : 0 < ({ Driver.init none with options := o } : Driver).nmacro := (by decide : 0 < 11)
  obtain ⟨-, h2, -, h4⟩ := C20_stops hd hrun
  refine ⟨h2, fun hr => ?_⟩
  rcases h4 with ⟨h, -⟩ | ⟨h, -⟩ | ⟨-, h, -⟩
  · rw [hr] at h; simp at h
  · rw [hr] at h; simp at h
  · exact h

/-! ### Concrete runs -/

/-- An engine that offers one triple and then none; E(P;Q) moves by 1/2, then by 1/100000. -/
def sampleEngine : Engine where
  ccp := fun k _ => -10 - (k : ℚ) / 2
  select := fun k _ _ =>
    if k = 0 then some (-11, [[1, 5, 4, 1, 3, 4], [0, 0, 0, 0, 0, 0]]) else some (-23/2 - k/100000, [])
  final := fun _ _ => -12

/-- Four percentages of the 62 triples of the right symmetry of the sample system. -/
def sampleDriver : Driver := Driver.init (some [0, 20, 40, 100])

example : (run sampleEngine sample 2 false false (-1) sampleDriver).toOption.map
      (fun x => (x.1.map fun m => (m.pspace .aab, m.nDet, m.asked), x.2)) =
    some ([([[1, 1, 1, 1, 1, 1]], 0, some 0), ([[1, 3, 2, 1, 2, 2]], 1, some 0),
      ([[1, 3, 2, 1, 2, 2]], 1, some 62)], some .energy) := by decide +kernel

theorem sampleEngine_selects : SelectsTriples sampleEngine sample := by
  intro k p n e rows hsel
  simp only [sampleEngine] at hsel
  split_ifs at hsel
  · obtain ⟨-, rfl⟩ := Prod.mk.inj (Option.some.inj hsel)
    refine ⟨sampleSelection, rfl, ?_⟩
    intro t ht
    simp only [sampleSelection, List.mem_cons, Option.some.injEq, reduceCtorEq, List.not_mem_nil,
      or_false] at ht
    subst ht
    exact ⟨⟨rfl, by decide, by decide⟩, ⟨rfl, by decide, by decide⟩⟩
  · obtain ⟨-, rfl⟩ := Prod.mk.inj (Option.some.inj hsel)
    exact ⟨[], rfl, by simp⟩

/-- A run that raises: reference 0, E(P) = -10, E(P;Q) = -13. -/
example : run { sampleEngine with select := fun _ _ _ => some (-13, []) } sample 2 false false 0
    sampleDriver = .error .extrapolation := by
  obtain ⟨adds, h1, h2⟩ := C19_plan sample 2 ⟨⟨1, rfl⟩, by decide, by decide, by decide, by decide⟩
    false [0, 20, 40, 100] (by simp) {} 4
  have hl : ∃ x, adds[0]? = some x := by
    have := (percentAdds_get h1).1
    exact ⟨_, List.getElem?_eq_getElem (by rw [this]; decide)⟩
  obtain ⟨x, hx⟩ := hl
  exact C20_extrapolation_fails _ h2 (by decide) rfl hx rfl (by norm_num [sampleEngine])
    (by norm_num [sampleEngine])

/-- The driver without percentages, made with the default limit and run with another. -/
example : (Driver.init none).nmacro = 11 ∧
    ({ Driver.init none with options := { maximumIterations := 50 } } : Driver).nmacro = 11 := by
  decide

example : (run sampleEngine sample 2 true true (-1)
    { sampleDriver with options := { twoBodyApprox := false } }) = .error .unassigned := by
  obtain ⟨adds, -, h2⟩ := C19_plan sample 2 ⟨⟨1, rfl⟩, by decide, by decide, by decide, by decide⟩
    true [0, 20, 40, 100] (by simp) { twoBodyApprox := false } 4
  exact C20_cholesky_error _ h2 (by decide) rfl

end Ccpy.Adaptive
