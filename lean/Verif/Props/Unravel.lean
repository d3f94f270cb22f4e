import Verif.Lemmas.Unravel

/-! C34: P-space amplitude vectors expand to the antisymmetric tensors they stand for. -/

namespace Ccpy.Unravel
open Ccpy.Spec Ccpy.Writes

variable {R : Type} [AddCommGroup R]

/-- virtual orbitals by spin -/
def Sizes.nv (z : Sizes) : Bool → ℕ := fun s => if s then z.nub else z.nua
/-- occupied orbitals by spin -/
def Sizes.no (z : Sizes) : Bool → ℕ := fun s => if s then z.nob else z.noa

/-- amplitudes of a list of excitations -/
def amps {m n : ℕ} (es : List ((Fin m → ℕ) × (Fin n → ℕ) × R)) : List R := es.map fun e => e.2.2
/-- rows of a list of excitations -/
def rows {m n : ℕ} (es : List ((Fin m → ℕ) × (Fin n → ℕ) × R)) : List (List ℕ) :=
  es.map fun e => rowOf e.1 e.2.1

theorem case_expands {m n : ℕ} {sp : Fin m → Bool} {sh : Fin n → Bool} {z : Sizes} {s : Shape m n}
    (hs : s = spinShape sp sh z)
    {block : List ℤ → Option (R → List (((Fin m → ℤ) × (Fin n → ℤ)) × R))} {pat : Pattern m n}
    (hb : Follows block pat) (hp : Enumerates sp sh pat)
    {es : List ((Fin m → ℕ) × (Fin n → ℕ) × R)} (hv : ValidExcitations sp sh z.nv z.no es)
    (rest : List R) :
    ∃ T, unravelCase s block true (rows es) (amps es ++ rest) = .ok T ∧ Expands sp sh es T := by
  subst hs
  exact unravelCase_expands _ hb hp (uniform_spinShape sp sh z) es rest hv.ordered hv.inRange hv.nodup

theorem expands_nil {m n : ℕ} (sp : Fin m → Bool) (sh : Fin n → Bool) :
    Expands (R := R) sp sh [] (fun _ => 0) :=
  ⟨fun _ h => by simp at h, fun g _ P H => by simp, fun _ _ _ => rfl⟩

/-- If the flag of a spin case says it is present, its list of triples expands; otherwise the tensor
is that of the empty list. -/
def Present {m n : ℕ} (flag : Bool) (es : List ((Fin m → ℕ) × (Fin n → ℕ) × R)) :
    List ((Fin m → ℕ) × (Fin n → ℕ) × R) := if flag then es else []

theorem case_flag {m n : ℕ} {sp : Fin m → Bool} {sh : Fin n → Bool} {z : Sizes} {s : Shape m n}
    (hs : s = spinShape sp sh z)
    {block : List ℤ → Option (R → List (((Fin m → ℤ) × (Fin n → ℤ)) × R))} {pat : Pattern m n}
    (hb : Follows block pat) (hp : Enumerates sp sh pat)
    {es : List ((Fin m → ℕ) × (Fin n → ℕ) × R)} (hv : ValidExcitations sp sh z.nv z.no es)
    (flag : Bool) (rest : List R) :
    ∃ T, unravelCase s block flag (rows es) (amps es ++ rest) = .ok T ∧
      Expands sp sh (Present flag es) T := by
  cases flag with
  | true => exact case_expands hs hb hp hv rest
  | false => exact ⟨_, rfl, expands_nil sp sh⟩

/-- C34.  For every choice of the presence flags and for valid lists of triples in the four spin
cases, `unravel_triples_amplitudes` keeps the one- and two-body amplitudes and returns, in each spin
case, the antisymmetric tensor that has the listed amplitudes and vanishes elsewhere.  Trailing
unused amplitudes in a vector are ignored. -/
theorem C34_triples {A : Type} (z : Sizes) (low : A)
    (aaa aab abb bbb : List ((Fin 3 → ℕ) × (Fin 3 → ℕ) × R)) (r1 r2 r3 r4 : List R) (d : Flags)
    (h1 : ValidExcitations ![false, false, false] ![false, false, false] z.nv z.no aaa)
    (h2 : ValidExcitations ![false, false, true] ![false, false, true] z.nv z.no aab)
    (h3 : ValidExcitations ![false, true, true] ![false, true, true] z.nv z.no abb)
    (h4 : ValidExcitations ![true, true, true] ![true, true, true] z.nv z.no bbb) :
    ∃ F, unravelTriples z ⟨low, amps aaa ++ r1, amps aab ++ r2, amps abb ++ r3, amps bbb ++ r4⟩
        ⟨rows aaa, rows aab, rows abb, rows bbb⟩ d = .ok F ∧ F.low = low ∧
      Expands ![false, false, false] ![false, false, false] (Present d.aaa aaa) F.aaa ∧
      Expands ![false, false, true] ![false, false, true] (Present d.aab aab) F.aab ∧
      Expands ![false, true, true] ![false, true, true] (Present d.abb abb) F.abb ∧
      Expands ![true, true, true] ![true, true, true] (Present d.bbb bbb) F.bbb := by
  obtain ⟨T1, e1, x1⟩ := case_flag (shape_aaa z) follows_aaa enum_aaa h1 d.aaa r1
  obtain ⟨T2, e2, x2⟩ := case_flag (shape_aab z) follows_aab enum_aab h2 d.aab r2
  obtain ⟨T3, e3, x3⟩ := case_flag (shape_abb z) follows_abb enum_abb h3 d.abb r3
  obtain ⟨T4, e4, x4⟩ := case_flag (shape_bbb z) follows_bbb enum_bbb h4 d.bbb r4
  refine ⟨⟨low, T1, T2, T3, T4⟩, ?_, rfl, x1, x2, x3, x4⟩
  simp only [unravelTriples, e1, e2, e3, e4, bind, Except.bind, pure, Except.pure]

/-- the first row of a nonempty valid list differs from the empty marker -/
theorem flag_of_valid {sp sh : Fin 3 → Bool} {z : Sizes}
    {es : List ((Fin 3 → ℕ) × (Fin 3 → ℕ) × R)} (hv : ValidExcitations sp sh z.nv z.no es) :
    caseFlag 6 (rowsOf es) = .ok (!es.isEmpty) ∧ (es ≠ [] → rowsOf es = rows es) := by
  match es, hv with
  | [], _ => exact ⟨rfl, fun h => absurd rfl h⟩
  | e :: es, hv =>
    refine ⟨?_, fun _ => rfl⟩
    have ho := (hv.ordered e (by simp)).1
    have : rowOf e.1 e.2.1 ≠ List.replicate 6 1 := by
      intro hc
      simp [rowOf, List.ofFn_succ, List.replicate_succ] at hc
      have hp : ∃ i j : Fin 3, i < j ∧ sp i = sp j := by
        generalize sp 0 = a, sp 1 = b, sp 2 = c at *
        by_cases h01 : sp 0 = sp 1
        · exact ⟨0, 1, by decide, h01⟩
        · by_cases h12 : sp 1 = sp 2
          · exact ⟨1, 2, by decide, h12⟩
          · refine ⟨0, 2, by decide, ?_⟩
            cases h0 : sp 0 <;> cases h1 : sp 1 <;> cases h2 : sp 2 <;> simp_all
      obtain ⟨i, j, hij, hsp⟩ := hp
      have := ho i j hij hsp
      have hz : ∀ i, e.1 i = 0 := by
        intro i
        match i with
        | 0 => exact hc.1
        | 1 => exact hc.2.1
        | 2 => exact hc.2.2.1
      rw [hz i, hz j] at this
      exact absurd this (lt_irrefl 0)
    simp only [rowsOf, caseFlag, List.map_cons, this, decide_false]
    rfl

/-- C34, the driver entry point.  `convert_t3_from_pspace` recognises empty spin cases by the marker
row and expands every other one: for all valid lists the result represents exactly those lists. -/
theorem C34_convert {A : Type} (z : Sizes) (low : A)
    (aaa aab abb bbb : List ((Fin 3 → ℕ) × (Fin 3 → ℕ) × R)) (r1 r2 r3 r4 : List R)
    (h1 : ValidExcitations ![false, false, false] ![false, false, false] z.nv z.no aaa)
    (h2 : ValidExcitations ![false, false, true] ![false, false, true] z.nv z.no aab)
    (h3 : ValidExcitations ![false, true, true] ![false, true, true] z.nv z.no abb)
    (h4 : ValidExcitations ![true, true, true] ![true, true, true] z.nv z.no bbb) :
    ∃ F, convertT3 z ⟨low, amps aaa ++ r1, amps aab ++ r2, amps abb ++ r3, amps bbb ++ r4⟩
        ⟨rowsOf aaa, rowsOf aab, rowsOf abb, rowsOf bbb⟩ = .ok F ∧ F.low = low ∧
      Expands ![false, false, false] ![false, false, false] aaa F.aaa ∧
      Expands ![false, false, true] ![false, false, true] aab F.aab ∧
      Expands ![false, true, true] ![false, true, true] abb F.abb ∧
      Expands ![true, true, true] ![true, true, true] bbb F.bbb := by
  have key : ∀ {sp sh : Fin 3 → Bool} {s : Shape 3 3} (_ : s = spinShape sp sh z)
      {block : List ℤ → Option (R → List (((Fin 3 → ℤ) × (Fin 3 → ℤ)) × R))} {pat : Pattern 3 3}
      (_ : Follows block pat) (_ : Enumerates sp sh pat)
      {es : List ((Fin 3 → ℕ) × (Fin 3 → ℕ) × R)} (_ : ValidExcitations sp sh z.nv z.no es)
      (rest : List R), ∃ T, unravelCase s block (!es.isEmpty) (rowsOf es) (amps es ++ rest) = .ok T ∧
        Expands sp sh es T := by
    intro sp sh s hs block pat hb hp es hv rest
    match es, hv with
    | [], _ => exact ⟨_, rfl, expands_nil sp sh⟩
    | e :: es, hv => exact case_expands hs hb hp hv rest
  obtain ⟨T1, e1, x1⟩ := key (shape_aaa z) follows_aaa enum_aaa h1 r1
  obtain ⟨T2, e2, x2⟩ := key (shape_aab z) follows_aab enum_aab h2 r2
  obtain ⟨T3, e3, x3⟩ := key (shape_abb z) follows_abb enum_abb h3 r3
  obtain ⟨T4, e4, x4⟩ := key (shape_bbb z) follows_bbb enum_bbb h4 r4
  refine ⟨⟨low, T1, T2, T3, T4⟩, ?_, rfl, x1, x2, x3, x4⟩
  simp only [convertT3, unravelTriples, (flag_of_valid h1).1, (flag_of_valid h2).1,
    (flag_of_valid h3).1, (flag_of_valid h4).1, e1, e2, e3, e4, bind, Except.bind, pure, Except.pure]

/-- C34 for electron-attached operators: `unravel_3p2h_amplitudes` expands all three spin cases. -/
theorem C34_3p2h {A : Type} (z : Sizes) (low : A)
    (aaa aab abb : List ((Fin 3 → ℕ) × (Fin 2 → ℕ) × R)) (r1 r2 r3 b : List R)
    (bl : List (List ℕ)) (d : Flags)
    (h1 : ValidExcitations ![false, false, false] ![false, false] z.nv z.no aaa)
    (h2 : ValidExcitations ![false, false, true] ![false, true] z.nv z.no aab)
    (h3 : ValidExcitations ![false, true, true] ![true, true] z.nv z.no abb) :
    ∃ T1 T2 T3, unravel3p2h z ⟨low, amps aaa ++ r1, amps aab ++ r2, amps abb ++ r3, b⟩
        ⟨rows aaa, rows aab, rows abb, bl⟩ d = .ok (low, T1, T2, T3) ∧
      Expands ![false, false, false] ![false, false] (Present d.aaa aaa) T1 ∧
      Expands ![false, false, true] ![false, true] (Present d.aab aab) T2 ∧
      Expands ![false, true, true] ![true, true] (Present d.abb abb) T3 := by
  obtain ⟨T1, e1, x1⟩ := case_flag (shape_eaAaa z) follows_eaAaa enum_eaAaa h1 d.aaa r1
  obtain ⟨T2, e2, x2⟩ := case_flag (shape_eaAab z) follows_eaAab enum_eaAab h2 d.aab r2
  obtain ⟨T3, e3, x3⟩ := case_flag (shape_eaAbb z) follows_eaAbb enum_eaAbb h3 d.abb r3
  refine ⟨T1, T2, T3, ?_, x1, x2, x3⟩
  simp only [unravel3p2h, e1, e2, e3, bind, Except.bind, pure, Except.pure]

/-- C34 for ionised operators, partial: `unravel_3h2p_amplitudes` expands the `aaa` and `aab` spin
cases correctly when the `abb` case is absent.  What is missing: the `abb` case, which the code
expands with the wrong pair of holes (`C34_3h2p_abb_fails`). -/
theorem C34_3h2p_partial {A : Type} (z : Sizes) (low : A)
    (aaa aab : List ((Fin 2 → ℕ) × (Fin 3 → ℕ) × R)) (r1 r2 b b' : List R)
    (bl bl' : List (List ℕ)) (d1 d2 d4 : Bool)
    (h1 : ValidExcitations ![false, false] ![false, false, false] z.nv z.no aaa)
    (h2 : ValidExcitations ![false, true] ![false, false, true] z.nv z.no aab) :
    ∃ T1 T2, unravel3h2p z ⟨low, amps aaa ++ r1, amps aab ++ r2, b, b'⟩
        ⟨rows aaa, rows aab, bl, bl'⟩ ⟨d1, d2, false, d4⟩ = .ok (low, T1, T2, fun _ => 0) ∧
      Expands ![false, false] ![false, false, false] (Present d1 aaa) T1 ∧
      Expands ![false, true] ![false, false, true] (Present d2 aab) T2 := by
  obtain ⟨T1, e1, x1⟩ := case_flag (shape_ipAaa z) follows_ipAaa enum_ipAaa h1 d1 r1
  obtain ⟨T2, e2, x2⟩ := case_flag (shape_ipAab z) follows_ipAab enum_ipAab h2 d2 r2
  refine ⟨T1, T2, ?_, x1, x2⟩
  have e3 : unravelCase (shapeIpAbb z) blockIpAbb false bl b = .ok fun _ => 0 := rfl
  simp only [unravel3h2p, e1, e2, e3, bind, Except.bind, pure, Except.pure]

/-- the single `abb` 3h2p excitation used as witness: beta particles 1,2, alpha hole 1, beta holes 1,2 -/
def ipWitness : List ((Fin 2 → ℕ) × (Fin 3 → ℕ) × ℤ) := [(![0, 1], ![0, 0, 1], 5)]

/-- C34 for ionised operators fails in the `abb` case: for the valid one-element list `ipWitness` the
result does not even hold the listed amplitude (5): its sign is flipped, because the second
assignment exchanges the alpha hole with the first beta hole. -/
theorem C34_3h2p_abb_fails :
    ValidExcitations ![true, true] ![false, true, true] (⟨2, 2, 2, 2⟩ : Sizes).nv
        (⟨2, 2, 2, 2⟩ : Sizes).no ipWitness ∧
      ∃ T1 T2 T3, unravel3h2p (R := ℤ) ⟨2, 2, 2, 2⟩ ⟨(), [], [], amps ipWitness, []⟩
          ⟨[], [], rows ipWitness, []⟩ ⟨false, false, true, false⟩ = .ok ((), T1, T2, T3) ∧
        T3 (![0, 1], ![0, 0, 1]) = -5 ∧
        ¬ Expands ![true, true] ![false, true, true] ipWitness T3 := by
  refine ⟨⟨?_, ?_, ?_⟩, ?_⟩
  · intro e he
    simp only [ipWitness, List.mem_singleton] at he
    subst he
    exact ⟨by unfold OrderedWithin; decide, by unfold OrderedWithin; decide⟩
  · intro e he
    simp only [ipWitness, List.mem_singleton] at he
    subst he
    exact ⟨by decide, by decide⟩
  · simp [ipWitness]
  · have h : ∃ T3, unravelCase (R := ℤ) (shapeIpAbb ⟨2, 2, 2, 2⟩) blockIpAbb true (rows ipWitness)
        (amps ipWitness) = .ok T3 ∧ T3 (![0, 1], ![0, 0, 1]) = -5 := by
      have hd : (unravelCase (R := ℤ) (shapeIpAbb ⟨2, 2, 2, 2⟩) blockIpAbb true (rows ipWitness)
        (amps ipWitness)).toOption.map (fun T => T (![0, 1], ![0, 0, 1])) = some (-5) := by
        decide +kernel
      cases hc : unravelCase (R := ℤ) (shapeIpAbb ⟨2, 2, 2, 2⟩) blockIpAbb true (rows ipWitness)
        (amps ipWitness) with
      | error e => rw [hc] at hd; simp [Except.toOption] at hd
      | ok T => rw [hc] at hd; exact ⟨T, rfl, by simpa [Except.toOption] using hd⟩
    obtain ⟨T3, h1, h2⟩ := h
    refine ⟨fun _ => 0, fun _ => 0, T3, ?_, h2, ?_⟩
    · simp only [unravel3h2p, bind, Except.bind, pure, Except.pure, h1]
      simp [unravelCase]
    · intro hx
      have := hx.stored (![0, 1], ![0, 0, 1], 5) (by simp [ipWitness])
      simp only at this
      rw [h2] at this
      exact absurd this (by decide)

/-- C34, errors.  When the amplitude vector is shorter than the list, or when the list goes on with a
row whose index exceeds an axis, the expansion of a spin case raises `IndexError` (shown for `aaa`;
the shapes of the other spin cases differ only in their axes). -/
theorem C34_errors (z : Sizes) (es : List ((Fin 3 → ℕ) × (Fin 3 → ℕ) × R))
    (hv : ValidExcitations ![false, false, false] ![false, false, false] z.nv z.no es)
    (P H : Fin 3 → ℕ) (more : List (List ℕ)) (vals : List R) :
    unravelCase (shapeAaa z) blockAaa true (rows es ++ rowOf P H :: more) (amps es) =
        .error .indexError ∧
      (((∃ i, z.nua ≤ P i) ∨ ∃ i, z.noa ≤ H i) →
        unravelCase (shapeAaa z) blockAaa true (rows es ++ rowOf P H :: more) (amps es ++ vals) =
          .error .indexError) := by
  rw [shape_aaa]
  have hf : ∀ i : Fin 3, (![false, false, false] : Fin 3 → Bool) i = false := by decide
  refine ⟨unravelCase_short _ follows_aaa enum_aaa (uniform_spinShape _ _ z) es hv.ordered hv.inRange
    hv.nodup P H more, fun hout => unravelCase_range _ follows_aaa enum_aaa (uniform_spinShape _ _ z)
    es hv.ordered hv.inRange hv.nodup P H ?_ more vals⟩
  rcases hout with ⟨i, hi⟩ | ⟨i, hi⟩
  · exact Or.inl ⟨i, by simp only [spinShape, hf]; exact hi⟩
  · exact Or.inr ⟨i, by simp only [spinShape, hf]; exact hi⟩

/- Duplicate-free lists are necessary: of two amplitudes for the same triple the last one wins. -/
example :
    (unravelCase (R := ℤ) (shapeAaa ⟨3, 3, 3, 3⟩) blockAaa true
      [[1, 2, 3, 1, 2, 3], [1, 2, 3, 1, 2, 3]] [5, 7]).toOption.map
        (fun T => T (![0, 1, 2], ![0, 1, 2])) = some 7 := by decide +kernel

/-! ### the hypotheses are satisfiable -/

/-- a two-element list of `aab` triples -/
def exAab : List ((Fin 3 → ℕ) × (Fin 3 → ℕ) × ℤ) :=
  [(![0, 2, 0], ![0, 1, 1], 3), (![1, 2, 1], ![0, 1, 0], -4)]

theorem exAab_valid : ValidExcitations ![false, false, true] ![false, false, true]
    (⟨2, 3, 2, 2⟩ : Sizes).nv (⟨2, 3, 2, 2⟩ : Sizes).no exAab where
  ordered := by
    intro e he
    simp only [exAab, List.mem_cons, List.not_mem_nil, or_false] at he
    rcases he with rfl | rfl <;> exact ⟨by unfold OrderedWithin; decide, by unfold OrderedWithin; decide⟩
  inRange := by
    intro e he
    simp only [exAab, List.mem_cons, List.not_mem_nil, or_false] at he
    rcases he with rfl | rfl <;> exact ⟨by decide, by decide⟩
  nodup := by simp only [exAab, List.map_cons, List.map_nil]; decide

theorem valid_nil {m n : ℕ} (sp : Fin m → Bool) (sh : Fin n → Bool) (nv no : Bool → ℕ) :
    ValidExcitations (R := ℤ) sp sh nv no [] :=
  ⟨fun _ h => by simp at h, fun _ h => by simp at h, by simp⟩

example : ∃ F, convertT3 (R := ℤ) ⟨2, 3, 2, 2⟩ ⟨(), [], [3, -4], [], []⟩
    ⟨[[1, 1, 1, 1, 1, 1]], [[1, 3, 1, 1, 2, 2], [2, 3, 2, 1, 2, 1]], [[1, 1, 1, 1, 1, 1]],
      [[1, 1, 1, 1, 1, 1]]⟩ = .ok F ∧ F.low = () ∧
    Expands ![false, false, true] ![false, false, true] exAab F.aab := by
  obtain ⟨F, h1, h2, _, h3, _⟩ := C34_convert (R := ℤ) ⟨2, 3, 2, 2⟩ () [] exAab [] [] [] [] [] []
    (valid_nil _ _ _ _) exAab_valid (valid_nil _ _ _ _) (valid_nil _ _ _ _)
  exact ⟨F, h1, h2, h3⟩

example : (convertT3 (R := ℤ) ⟨2, 3, 2, 2⟩ ⟨(), [], [3, -4], [], []⟩
    ⟨[[1, 1, 1, 1, 1, 1]], [[1, 3, 1, 1, 2, 2], [2, 3, 2, 1, 2, 1]], [[1, 1, 1, 1, 1, 1]],
      [[1, 1, 1, 1, 1, 1]]⟩).toOption.map
    (fun F => (F.aab (![2, 0, 0], ![0, 1, 1]), F.aab (![2, 1, 1], ![1, 0, 0]), F.aab (![0, 1, 0], ![0, 1, 0]))) =
    some (-3, -4, 0) := by decide +kernel

/-- a 3p2h list -/
def exEa : List ((Fin 3 → ℕ) × (Fin 2 → ℕ) × ℤ) := [(![0, 1, 2], ![0, 1], 6)]

theorem exEa_valid : ValidExcitations ![false, false, false] ![false, false]
    (⟨2, 3, 2, 2⟩ : Sizes).nv (⟨2, 3, 2, 2⟩ : Sizes).no exEa where
  ordered := by
    intro e he
    simp only [exEa, List.mem_singleton] at he
    subst he
    exact ⟨by unfold OrderedWithin; decide, by unfold OrderedWithin; decide⟩
  inRange := by
    intro e he
    simp only [exEa, List.mem_singleton] at he
    subst he
    exact ⟨by decide, by decide⟩
  nodup := by simp [exEa]

example : ∃ T1 T2 T3, unravel3p2h (R := ℤ) ⟨2, 3, 2, 2⟩ ⟨(), [6], [], [], []⟩
    ⟨[[1, 2, 3, 1, 2]], [], [], []⟩ ⟨true, true, true, true⟩ = .ok ((), T1, T2, T3) ∧
    Expands ![false, false, false] ![false, false] exEa T1 := by
  obtain ⟨T1, T2, T3, h, h1, _⟩ := C34_3p2h (R := ℤ) ⟨2, 3, 2, 2⟩ () exEa [] [] [] [] [] [] []
    ⟨true, true, true, true⟩ exEa_valid (valid_nil _ _ _ _) (valid_nil _ _ _ _)
  exact ⟨T1, T2, T3, h, h1⟩

/-- a 3h2p list -/
def exIp : List ((Fin 2 → ℕ) × (Fin 3 → ℕ) × ℤ) := [(![0, 1], ![0, 2, 1], 6)]

theorem exIp_valid : ValidExcitations ![false, true] ![false, false, true]
    (⟨3, 2, 2, 2⟩ : Sizes).nv (⟨3, 2, 2, 2⟩ : Sizes).no exIp where
  ordered := by
    intro e he
    simp only [exIp, List.mem_singleton] at he
    subst he
    exact ⟨by unfold OrderedWithin; decide, by unfold OrderedWithin; decide⟩
  inRange := by
    intro e he
    simp only [exIp, List.mem_singleton] at he
    subst he
    exact ⟨by decide, by decide⟩
  nodup := by simp [exIp]

example : ∃ T1 T2, unravel3h2p (R := ℤ) ⟨3, 2, 2, 2⟩ ⟨(), [], [6], [], []⟩
    ⟨[], [[1, 2, 1, 3, 2]], [], []⟩ ⟨false, true, false, false⟩ = .ok ((), T1, T2, fun _ => 0) ∧
    Expands ![false, true] ![false, false, true] exIp T2 := by
  obtain ⟨T1, T2, h, _, h2⟩ := C34_3h2p_partial (R := ℤ) ⟨3, 2, 2, 2⟩ () [] exIp [] [] [] [] [] []
    false true false (valid_nil _ _ _ _) exIp_valid
  exact ⟨T1, T2, h, h2⟩

example : unravelCase (R := ℤ) (shapeAaa ⟨3, 3, 3, 3⟩) blockAaa true [[1, 2, 4, 1, 2, 3]] [5] =
    .error .indexError :=
  (C34_errors (R := ℤ) ⟨3, 3, 3, 3⟩ [] (valid_nil _ _ _ _) ![0, 1, 3] ![0, 1, 2] [] [5]).2
    (Or.inl ⟨2, by decide⟩)

end Ccpy.Unravel
