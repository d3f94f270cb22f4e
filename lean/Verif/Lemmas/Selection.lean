import Verif.Model.Selection
import Verif.Spec.Selection
import Verif.Lemmas.Excitations

/-! Helper lemmas for P-space growth. -/

namespace Ccpy.Excitations
open Ccpy.Spec

/-- A triple with three ordered particles and three ordered holes of its spin case. -/
def Triple.Ordered (s : Sys) (t : Triple) : Prop :=
  OrderedIndices s.space.unocc t.case.spins t.ps ∧ OrderedIndices s.space.occ t.case.spins t.hs

@[simp] theorem spatialIdx_a (x : ℕ) : spatialIdx (2 * x + 1) = x + 1 := by
  unfold spatialIdx
  split <;> omega

@[simp] theorem spatialIdx_b (x : ℕ) : spatialIdx (2 * x + 2) = x + 1 := by
  unfold spatialIdx
  split <;> omega

@[simp] theorem odd_a (x : ℕ) : (2 * x + 1) % 2 = 1 := by omega
@[simp] theorem even_b (x : ℕ) : (2 * x + 2) % 2 = 0 := by omega

theorem excSym_eq (s : Sys) (c : Case) (p1 p2 p3 h1 h2 h3 : ℕ) :
    excSym s c [p1 + 1, p2 + 1, p3 + 1, h1 + 1, h2 + 1, h3 + 1] =
      Triple.irrep s ⟨c, [p1, p2, p3], [h1, h2, h3]⟩ := by
  cases c <;>
  · simp only [excSym, Triple.irrep, excitationIrrep, Case.spins, List.map_cons, List.map_nil,
      List.zip_cons_cons, List.zip_nil_right, List.cons_append, List.nil_append, List.foldl_cons,
      List.foldl_nil, space_occ_a, space_occ_b, space_irrep, Nat.add_sub_cancel]
    change _ = s.ref ^^^ (0 ^^^ _ ^^^ _ ^^^ _ ^^^ _ ^^^ _ ^^^ _)
    rw [Nat.zero_xor]
    ac_rfl

/-- Pushing a list of triples. -/
def pushAll (s : Sys) (g : Growing) (ts : List Triple) : Growing :=
  ts.foldl (fun g t => g.push s t.case t.row) g

/-- The pushes one selected triple causes. -/
def pushes (rhf : Bool) (t : Triple) : List Triple :=
  match t.case, rhf with
  | .aaa, true => [t, { t with case := .bbb }]
  | .aab, true => [t, mirror t]
  | .abb, true => []
  | .bbb, true => []
  | _, false => [t]

theorem addOne_encode (s : Sys) (rhf : Bool) (g : Growing) (t : Triple)
    (hp : t.ps.length = 3) (hh : t.hs.length = 3) :
    addOne s rhf g (encode (some t)) = some (pushAll s g (pushes rhf t)) := by
  obtain ⟨c, ps, hs⟩ := t
  match ps, hs, hp, hh with
  | [a, b, d], [i, j, k], _, _ =>
    cases c <;> cases rhf <;>
      simp [addOne, encode, Case.spins, spinOrbital, pushAll, pushes, Triple.row, Spec.row, mirror]

theorem addOne_none (s : Sys) (rhf : Bool) (g : Growing) :
    addOne s rhf g (encode none) = some g := by
  simp [addOne, encode, spatialIdx]

theorem pushAll_append (s : Sys) (g : Growing) (l l' : List Triple) :
    pushAll s g (l ++ l') = pushAll s (pushAll s g l) l' := List.foldl_append ..

theorem foldlM_addOne (s : Sys) (rhf : Bool) (sel : List (Option Triple)) (g : Growing)
    (h : ∀ t, some t ∈ sel → t.ps.length = 3 ∧ t.hs.length = 3) :
    (sel.map encode).foldlM (addOne s rhf) g =
      some (pushAll s g (sel.flatMap fun o => (o.map (pushes rhf)).getD [])) := by
  induction sel generalizing g with
  | nil => rfl
  | cons o sel ih =>
    rw [List.map_cons, List.foldlM_cons]
    have ih' := fun g => ih g fun t ht => h t (List.mem_cons_of_mem _ ht)
    cases o with
    | none =>
      rw [addOne_none]
      exact ih' g
    | some t =>
      obtain ⟨hp, hh⟩ := h t List.mem_cons_self
      rw [addOne_encode s rhf g t hp hh]
      change List.foldlM _ (pushAll s g (pushes rhf t)) _ = _
      rw [ih', List.flatMap_cons, pushAll_append]
      rfl

theorem pushAll_rows (s : Sys) (l : List Triple) (g : Growing) (c : Case) :
    (pushAll s g l).rows c =
      g.rows c ++ (l.filter fun t => t.case = c).map Triple.row := by
  induction l generalizing g with
  | nil => simp [pushAll]
  | cons t l ih =>
    change (pushAll s (g.push s t.case t.row) l).rows c = _
    rw [ih]
    by_cases h : t.case = c
    · subst h
      simp [Growing.push]
    · simp [Growing.push, h, Ne.symm h]

theorem pushAll_counts (s : Sys) (l : List Triple) (g : Growing) (c : Case) (t : ℕ)
    (hl : ∀ x ∈ l, x.ps.length = 3 ∧ x.hs.length = 3) :
    (pushAll s g l).counts t c =
      g.counts t c + (l.filter fun x => x.case = c).countP fun x => decide (x.irrep s = t) := by
  induction l generalizing g with
  | nil => simp [pushAll]
  | cons x l ih =>
    change (pushAll s (g.push s x.case x.row) l).counts t c = _
    rw [ih _ fun y hy => hl y (List.mem_cons_of_mem _ hy)]
    have hsym : excSym s x.case x.row = x.irrep s := by
      obtain ⟨hp, hh⟩ := hl x List.mem_cons_self
      obtain ⟨k, ps, hs⟩ := x
      match ps, hs, hp, hh with
      | [a, b, d], [i, j, m], _, _ => exact excSym_eq s k a b d i j m
    by_cases h : x.case = c
    · subst h
      simp only [Growing.push, hsym, List.filter_cons, decide_true, if_true, List.countP_cons,
        true_and]
      by_cases ht : t = x.irrep s
      · simp only [ht, if_true, decide_true]
        omega
      · simp [ht, Ne.symm ht]
    · simp [Growing.push, h, Ne.symm h]

theorem mirror_case (t : Triple) (hp : t.ps.length = 3) (hh : t.hs.length = 3) :
    (mirror t).case = .abb ∧ (mirror t).ps.length = 3 ∧ (mirror t).hs.length = 3 := by
  obtain ⟨c, ps, hs⟩ := t
  match ps, hs, hp, hh with
  | [a, b, d], [i, j, k], _, _ => exact ⟨rfl, rfl, rfl⟩

/-- The triples pushed to a case are the wanted ones. -/
theorem filter_pushes (rhf : Bool) (sel : List (Option Triple)) (c : Case)
    (h : ∀ t, some t ∈ sel → t.ps.length = 3 ∧ t.hs.length = 3) :
    ((sel.flatMap fun o => (o.map (pushes rhf)).getD []).filter fun t => t.case = c) =
      wanted rhf sel c := by
  induction sel with
  | nil => cases c <;> cases rhf <;> rfl
  | cons o sel ih =>
    rw [List.flatMap_cons, List.filter_append, ih fun t ht => h t (List.mem_cons_of_mem _ ht)]
    cases o with
    | none => cases c <;> cases rhf <;> simp [wanted, pick]
    | some t =>
      obtain ⟨hp, hh⟩ := h t List.mem_cons_self
      have hm := (mirror_case t hp hh).1
      obtain ⟨k, ps, hs⟩ := t
      cases k <;> cases c <;> cases rhf <;> simp [wanted, pick, pushes, hm]

theorem pushes_length (rhf : Bool) (sel : List (Option Triple))
    (h : ∀ t, some t ∈ sel → t.ps.length = 3 ∧ t.hs.length = 3) :
    ∀ x ∈ sel.flatMap fun o => (o.map (pushes rhf)).getD [], x.ps.length = 3 ∧ x.hs.length = 3 := by
  intro x hx
  rw [List.mem_flatMap] at hx
  obtain ⟨o, ho, hx⟩ := hx
  cases o with
  | none => simp at hx
  | some t =>
    obtain ⟨hp, hh⟩ := h t ho
    have hm := (mirror_case t hp hh).2
    obtain ⟨k, ps, hs⟩ := t
    cases k <;> cases rhf <;> simp [pushes] at hx <;> (try rcases hx with rfl | rfl) <;>
      (try subst hx) <;> first | exact ⟨hp, hh⟩ | exact hm

theorem mergeRows_spec (old new : List (List ℕ)) (hold : old ≠ [])
    (hnew : List.replicate 6 1 ∉ new) :
    ∃ r, mergeRows old new = some r ∧ realRows 6 r = realRows 6 old ++ new ∧ r ≠ [] ∧
      (new = [] → r = old) := by
  unfold mergeRows
  by_cases hn : new = []
  · subst hn
    exact ⟨old, by simp, by simp, hold, fun _ => rfl⟩
  · have : new.length > 0 := List.length_pos_iff.mpr hn
    obtain ⟨f, rest, rfl⟩ := List.exists_cons_of_ne_nil hold
    obtain ⟨g, new', rfl⟩ := List.exists_cons_of_ne_nil hn
    refine ⟨_, by rw [if_pos this], ?_, ?_, fun h => absurd h hn⟩
    · have hg : g ≠ List.replicate 6 1 := fun h => hnew (by rw [h]; exact List.mem_cons_self)
      by_cases hf : f = List.replicate 6 1
      · rw [if_pos hf]
        simp only [realRows, List.head?_cons, Option.some.injEq, if_neg hg, if_pos hf,
          List.nil_append]
      · rw [if_neg hf]
        simp only [realRows, List.cons_append, List.head?_cons, Option.some.injEq, if_neg hf]
    · split <;> simp

end Ccpy.Excitations
