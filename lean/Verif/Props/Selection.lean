import Verif.Lemmas.Selection
import Verif.Props.Excitations

/-! C17: growth of the P space by selected triples. -/

namespace Ccpy.Excitations
open Ccpy.Spec

theorem Triple.Ordered.lengths {s : Sys} {t : Triple} (h : t.Ordered s) :
    t.ps.length = 3 ∧ t.hs.length = 3 :=
  ⟨by rw [h.1.length_eq, spins_length], by rw [h.2.length_eq, spins_length]⟩

theorem Triple.Ordered.row_ne {s : Sys} {t : Triple} (h : t.Ordered s) :
    t.row ≠ List.replicate 6 1 := fun he =>
  ones_not_excitation s.space t.case.spins t.case.spins (Or.inl (spins_length _).ge) 6
    (he ▸ ⟨t.ps, t.hs, rfl, h.1, h.2⟩)

theorem mem_pick {sel : List (Option Triple)} {c : Case} {t : Triple} (h : t ∈ pick sel c) :
    some t ∈ sel ∧ t.case = c := by
  simp only [pick, List.mem_filterMap, Option.bind_eq_some_iff] at h
  obtain ⟨o, ho, t', rfl, h⟩ := h
  by_cases hc : t'.case = c
  · rw [if_pos hc] at h
    obtain rfl := Option.some.inj h
    exact ⟨ho, hc⟩
  · rw [if_neg hc] at h
    exact absurd h (by simp)

theorem wanted_ne_ones {s : Sys} {rhf : Bool} {sel : List (Option Triple)}
    (hsel : ∀ t, some t ∈ sel → t.Ordered s) (c : Case) :
    List.replicate 6 1 ∉ (wanted rhf sel c).map Triple.row := by
  have hpick : ∀ c, List.replicate 6 1 ∉ (pick sel c).map Triple.row := by
    intro c h
    obtain ⟨t, ht, he⟩ := List.mem_map.mp h
    exact (hsel t (mem_pick ht).1).row_ne he
  cases c
  · exact hpick _
  · exact hpick _
  · cases rhf
    · exact hpick _
    · intro h
      simp only [wanted, if_true, List.map_map] at h
      obtain ⟨t, ht, he⟩ := List.mem_map.mp h
      have hl := (hsel t (mem_pick ht).1).lengths
      refine (hsel t (mem_pick ht).1).row_ne ?_
      obtain ⟨k, ps, hs⟩ := t
      match ps, hs, hl with
      | [a, b, d], [i, j, m], _ =>
        simp [mirror, Triple.row, Spec.row, List.replicate] at he ⊢
        omega
  · cases rhf
    · exact hpick _
    · intro h
      simp only [wanted, if_true, List.map_map] at h
      obtain ⟨t, ht, he⟩ := List.mem_map.mp h
      exact (hsel t (mem_pick ht).1).row_ne he

/-- C17: given lists with at least one row each and a selection of ordered triples and unset rows,
growth succeeds; in every spin case the old excitations are kept and followed by exactly the wanted
ones; if nothing is wanted the list is unchanged (placeholder included); and every counter grows by
the number of added triples of its irrep. -/
theorem C17_growth (s : Sys) (rhf : Bool) (sel : List (Option Triple))
    (old : Case → List (List ℕ)) (counts : ℕ → Case → ℕ)
    (hsel : ∀ t, some t ∈ sel → t.Ordered s) (hold : ∀ c, old c ≠ []) :
    ∃ new counts', addTriples s rhf (sel.map encode) old counts = some (new, counts') ∧
      ∀ c, realRows 6 (new c) = realRows 6 (old c) ++ (wanted rhf sel c).map Triple.row ∧
        new c ≠ [] ∧ (wanted rhf sel c = [] → new c = old c) ∧
        ∀ t, counts' t c =
          counts t c + (wanted rhf sel c).countP fun x => decide (x.irrep s = t) := by
  have hlen : ∀ t, some t ∈ sel → t.ps.length = 3 ∧ t.hs.length = 3 :=
    fun t ht => (hsel t ht).lengths
  set g := pushAll s ⟨fun _ => [], counts⟩ (sel.flatMap fun o => (o.map (pushes rhf)).getD [])
    with hg
  have hrows : ∀ c, g.rows c = (wanted rhf sel c).map Triple.row := by
    intro c
    rw [hg, pushAll_rows, filter_pushes rhf sel c hlen]
    rfl
  have hcounts : ∀ c t, g.counts t c =
      counts t c + (wanted rhf sel c).countP fun x => decide (x.irrep s = t) := by
    intro c t
    rw [hg, pushAll_counts s _ _ c t (pushes_length rhf sel hlen), filter_pushes rhf sel c hlen]
  have hmerge : ∀ c, ∃ r, mergeRows (old c) (g.rows c) = some r ∧
      realRows 6 r = realRows 6 (old c) ++ (wanted rhf sel c).map Triple.row ∧ r ≠ [] ∧
      (wanted rhf sel c = [] → r = old c) := by
    intro c
    obtain ⟨r, h1, h2, h3, h4⟩ := mergeRows_spec (old c) (g.rows c) (hold c)
      (by rw [hrows]; exact wanted_ne_ones hsel c)
    rw [hrows] at h2
    exact ⟨r, h1, h2, h3, fun h => h4 (by rw [hrows, h]; rfl)⟩
  obtain ⟨r1, e1, p1⟩ := hmerge .aaa
  obtain ⟨r2, e2, p2⟩ := hmerge .aab
  obtain ⟨r3, e3, p3⟩ := hmerge .abb
  obtain ⟨r4, e4, p4⟩ := hmerge .bbb
  refine ⟨fun | .aaa => r1 | .aab => r2 | .abb => r3 | .bbb => r4, g.counts, ?_, ?_⟩
  · rw [addTriples, foldlM_addOne s rhf sel _ hlen, ← hg]
    simp only [Option.bind_eq_bind, Option.bind_some, e1, e2, e3, e4]
    rfl
  · intro c
    cases c
    · exact ⟨p1.1, p1.2.1, p1.2.2, hcounts _⟩
    · exact ⟨p2.1, p2.2.1, p2.2.2, hcounts _⟩
    · exact ⟨p3.1, p3.2.1, p3.2.2, hcounts _⟩
    · exact ⟨p4.1, p4.2.1, p4.2.2, hcounts _⟩

/-- An aab triple and an unset row. -/
def sampleSelection : List (Option Triple) := [some ⟨.aab, [0, 2, 1], [0, 1, 1]⟩, none]

example : (∀ t, some t ∈ sampleSelection → t.Ordered sample) ∧
    sampleSelection.map encode = [[1, 5, 4, 1, 3, 4], [0, 0, 0, 0, 0, 0]] ∧
    (wanted true sampleSelection .abb).map Triple.row = [[2, 1, 3, 2, 1, 2]] := by
  refine ⟨?_, by decide, by decide⟩
  intro t ht
  simp only [sampleSelection, List.mem_cons, Option.some.injEq, reduceCtorEq, List.not_mem_nil,
    or_false] at ht
  subst ht
  exact ⟨⟨rfl, by decide, by decide⟩, ⟨rfl, by decide, by decide⟩⟩

/-- Several rounds of growth. -/
def grow (s : Sys) (rhf : Bool) : List (List (Option Triple)) → (Case → List (List ℕ)) →
    (ℕ → Case → ℕ) → Option ((Case → List (List ℕ)) × (ℕ → Case → ℕ))
  | [], p, n => some (p, n)
  | sel :: rest, p, n => (addTriples s rhf (sel.map encode) p n).bind fun q =>
      grow s rhf rest q.1 q.2

/-- Irrep of the determinant a row of a spin case leads to. -/
def rowIrrep (s : Sys) (c : Case) (r : List ℕ) : ℕ :=
  s.ref ^^^ excitationIrrep s.space c.spins ((r.take 3).map (· - 1)) ((r.drop 3).map (· - 1))

theorem wanted_case {s : Sys} {rhf : Bool} {sel : List (Option Triple)}
    (hsel : ∀ t, some t ∈ sel → t.Ordered s) (c : Case) :
    ∀ t ∈ wanted rhf sel c, t.case = c ∧ t.ps.length = 3 ∧ t.hs.length = 3 := by
  have hpick : ∀ c, ∀ t ∈ pick sel c, t.case = c ∧ t.ps.length = 3 ∧ t.hs.length = 3 :=
    fun c t ht => ⟨(mem_pick ht).2, (hsel t (mem_pick ht).1).lengths⟩
  intro t ht
  cases c
  · exact hpick _ t ht
  · exact hpick _ t ht
  · cases rhf
    · exact hpick _ t ht
    · simp only [wanted, if_true, List.mem_map] at ht
      obtain ⟨x, hx, rfl⟩ := ht
      exact mirror_case x (hpick _ x hx).2.1 (hpick _ x hx).2.2
  · cases rhf
    · exact hpick _ t ht
    · simp only [wanted, if_true, List.mem_map] at ht
      obtain ⟨x, hx, rfl⟩ := ht
      exact ⟨rfl, (hpick _ x hx).2⟩

theorem rowIrrep_row (s : Sys) (t : Triple) (hp : t.ps.length = 3) :
    rowIrrep s t.case t.row = t.irrep s := by
  have h1 : (t.row.take 3).map (· - 1) = t.ps := by
    rw [Triple.row, Spec.row, List.map_append, List.take_left' (by simpa using hp)]
    simp [Function.comp_def]
  have h2 : (t.row.drop 3).map (· - 1) = t.hs := by
    rw [Triple.row, Spec.row, List.map_append, List.drop_left' (by simpa using hp)]
    simp [Function.comp_def]
  rw [rowIrrep, h1, h2, Triple.irrep]

/-- C17: over any number of rounds, from any lists with at least one row: growth never fails, the P
space of each spin case is the old one followed by all wanted triples in order, and counters that
agreed with the P space before (number of its triples of each irrep) agree with it afterwards. -/
theorem C17_history (s : Sys) (rhf : Bool) (rounds : List (List (Option Triple)))
    (old : Case → List (List ℕ)) (counts : ℕ → Case → ℕ)
    (hsel : ∀ sel ∈ rounds, ∀ t, some t ∈ sel → t.Ordered s) (hold : ∀ c, old c ≠ []) :
    ∃ new counts', grow s rhf rounds old counts = some (new, counts') ∧ ∀ c, new c ≠ [] ∧
      realRows 6 (new c) = realRows 6 (old c) ++
        (rounds.flatMap fun sel => wanted rhf sel c).map Triple.row ∧
      ((∀ t, counts t c = (realRows 6 (old c)).countP fun r => decide (rowIrrep s c r = t)) →
        ∀ t, counts' t c = (realRows 6 (new c)).countP fun r => decide (rowIrrep s c r = t)) := by
  induction rounds generalizing old counts with
  | nil => exact ⟨old, counts, rfl, fun c => ⟨hold c, by simp, fun h => h⟩⟩
  | cons sel rounds ih =>
    obtain ⟨n1, c1, e1, p1⟩ := C17_growth s rhf sel old counts (hsel sel List.mem_cons_self) hold
    obtain ⟨n2, c2, e2, p2⟩ := ih n1 c1 (fun x hx => hsel x (List.mem_cons_of_mem _ hx))
      fun c => (p1 c).2.1
    refine ⟨n2, c2, by rw [grow, e1]; exact e2, fun c => ⟨(p2 c).1, ?_, fun h => (p2 c).2.2 ?_⟩⟩
    · rw [(p2 c).2.1, (p1 c).1, List.flatMap_cons, List.map_append, List.append_assoc]
    · intro t
      rw [(p1 c).2.2.2 t, h t, (p1 c).1, List.countP_append, List.countP_map]
      congr 1
      apply List.countP_congr
      intro x hx
      obtain ⟨hc, hp, -⟩ := wanted_case (hsel sel List.mem_cons_self) c x hx
      simp only [Function.comp_apply, decide_eq_true_eq]
      rw [← rowIrrep_row s x hp, hc]

/-- Exchange of spins on rows. -/
def mirrorRow : List ℕ → List ℕ
  | [a, b, c, i, j, k] => [c, a, b, k, i, j]
  | r => r

/-- C17: with RHF symmetry growth keeps the spin mirror: abb stays the mirror of aab, bbb stays
equal to aaa. -/
theorem C17_rhf_mirror (s : Sys) (rounds : List (List (Option Triple)))
    (old : Case → List (List ℕ)) (counts : ℕ → Case → ℕ)
    (hsel : ∀ sel ∈ rounds, ∀ t, some t ∈ sel → t.Ordered s) (hold : ∀ c, old c ≠ [])
    (h1 : realRows 6 (old .abb) = (realRows 6 (old .aab)).map mirrorRow)
    (h2 : realRows 6 (old .bbb) = realRows 6 (old .aaa)) :
    ∃ new counts', grow s true rounds old counts = some (new, counts') ∧
      realRows 6 (new .abb) = (realRows 6 (new .aab)).map mirrorRow ∧
      realRows 6 (new .bbb) = realRows 6 (new .aaa) := by
  obtain ⟨new, counts', e, p⟩ := C17_history s true rounds old counts hsel hold
  refine ⟨new, counts', e, ?_, ?_⟩
  · rw [(p .abb).2.1, (p .aab).2.1, h1, List.map_append]
    congr 1
    clear e p h1 h2
    induction rounds with
    | nil => rfl
    | cons sel rounds ih =>
      simp only [List.flatMap_cons, List.map_append]
      rw [ih fun x hx => hsel x (List.mem_cons_of_mem _ hx)]
      congr 1
      simp only [wanted, if_true, List.map_map]
      apply List.map_congr_left
      intro t ht
      have hl := (hsel sel List.mem_cons_self t (mem_pick ht).1).lengths
      obtain ⟨k, ps, hs⟩ := t
      match ps, hs, hl with
      | [a, b, d], [i, j, m], _ => rfl
  · rw [(p .bbb).2.1, (p .aaa).2.1, h2]
    congr 1
    clear e p h1 h2
    induction rounds with
    | nil => rfl
    | cons sel rounds ih =>
      simp only [List.flatMap_cons, List.map_append]
      rw [ih fun x hx => hsel x (List.mem_cons_of_mem _ hx)]
      congr 1
      simp only [wanted, if_true, List.map_map]
      rfl

/-- Two rounds of RHF growth from empty lists: the placeholder goes when something is added and
stays otherwise. -/
example : ((grow sample true [sampleSelection, [some ⟨.aab, [0, 1, 3], [1, 2, 0]⟩]]
      (fun _ => [[1, 1, 1, 1, 1, 1]]) (fun _ _ => 0)).map fun r =>
      [r.1 .aaa, r.1 .aab, r.1 .abb, r.1 .bbb]) =
    some [[[1, 1, 1, 1, 1, 1]], [[1, 3, 2, 1, 2, 2], [1, 2, 4, 2, 3, 1]],
      [[2, 1, 3, 2, 1, 2], [4, 1, 2, 1, 2, 3]], [[1, 1, 1, 1, 1, 1]]] := by
  decide +kernel

/-- C17: adding to an array without any row (instead of the placeholder) raises an error. -/
theorem C17_no_rows_error (s : Sys) (counts : ℕ → Case → ℕ) (t : Triple) (h : t.Ordered s)
    (old : Case → List (List ℕ)) (he : old t.case = []) :
    addTriples s false [encode (some t)] old counts = none := by
  have hl := h.lengths
  have hf := foldlM_addOne s false [some t] ⟨fun _ => [], counts⟩ (by simpa using hl)
  simp only [List.map_cons, List.map_nil] at hf
  rw [addTriples, hf]
  obtain ⟨k, ps, hs⟩ := t
  change old k = [] at he
  cases k <;> simp [pushAll, pushes, Growing.push, mergeRows, he]

end Ccpy.Excitations
