import Verif.Model.FortranDeps
import Mathlib.Data.List.Basic
import Mathlib.Data.List.Perm.Basic
import Mathlib.Data.List.Infix
import Mathlib.Data.List.GetD
import Mathlib.Algebra.Order.Group.Nat
import Mathlib.Algebra.Order.Ring.Nat
import Mathlib.Tactic.Ring
import Mathlib.Tactic.Push

namespace Ccpy.FortranDeps
open Ccpy.Spec Relation

variable {V M : Type*} [DecidableEq V] [DecidableEq M]

/-- an edge of the graph -/
def Edge (g : V → Option (List V)) (v w : V) : Prop := ∃ ns, g v = some ns ∧ w ∈ ns

/-- finished vertices, last finished first: the successors of each are finished before it -/
inductive Topo (g : V → Option (List V)) : List V → Prop
  | nil : Topo g []
  | cons {v : V} {ns d : List V} : Topo g d → g v = some ns → (∀ w ∈ ns, w ∈ d) → v ∉ d →
      Topo g (v :: d)

omit [DecidableEq V] in
theorem Topo.closed {g : V → Option (List V)} {d : List V} (h : Topo g d) :
    ∀ x ∈ d, ∀ y, Edge g x y → y ∈ d := by
  induction h with
  | nil => intro x hx; simp at hx
  | @cons v ns d ht hg hs hv ih =>
    intro x hx y ⟨ns', h1, h2⟩
    rcases List.mem_cons.mp hx with rfl | hx
    · rw [hg] at h1; cases h1
      exact List.mem_cons_of_mem _ (hs y h2)
    · exact List.mem_cons_of_mem _ (ih x hx y ⟨ns', h1, h2⟩)

omit [DecidableEq V] in
theorem Topo.reaches {g : V → Option (List V)} {d : List V} (h : Topo g d) {x y : V}
    (hx : x ∈ d) (hr : ReflTransGen (Edge g) x y) : y ∈ d := by
  induction hr with
  | refl => exact hx
  | tail _ e ih => exact h.closed _ ih _ e

omit [DecidableEq V] in
theorem Topo.acyclic {g : V → Option (List V)} {d : List V} (h : Topo g d) :
    ∀ x ∈ d, ¬ TransGen (Edge g) x x := by
  induction h with
  | nil => intro x hx; simp at hx
  | @cons v ns d ht hg hs hv ih =>
    intro x hx hc
    rcases List.mem_cons.mp hx with rfl | hx
    · obtain ⟨w, ⟨ns', h1, h2⟩, hr⟩ := TransGen.head'_iff.mp hc
      rw [hg] at h1; cases h1
      exact hv (ht.reaches (hs w h2) hr)
    · exact ih x hx hc

omit [DecidableEq V] in
/-- positions in a finished list decrease along edges -/
theorem Topo.rank {g : V → Option (List V)} {d : List V} (h : Topo g d) :
    ∃ r : V → ℕ, (∀ v, r v ≤ d.length) ∧ ∀ x ∈ d, ∀ y, Edge g x y → r y < r x := by
  classical
  induction h with
  | nil => exact ⟨fun _ => 0, fun _ => le_refl _, fun x hx => by simp at hx⟩
  | @cons v ns d ht hg hs hv ih =>
    obtain ⟨r, hb, hr⟩ := ih
    refine ⟨fun x => if x = v then d.length + 1 else r x, ?_, ?_⟩
    · intro x
      show (if x = v then d.length + 1 else r x) ≤ d.length + 1
      split
      · exact le_refl _
      · exact Nat.le_succ_of_le (hb x)
    · intro x hx y he
      have hy : y ∈ d := by
        rcases List.mem_cons.mp hx with rfl | hx
        · obtain ⟨ns', h1, h2⟩ := he
          rw [hg] at h1; cases h1
          exact hs y h2
        · exact ht.closed x hx y he
      have hyv : y ≠ v := fun e => hv (e ▸ hy)
      show (if y = v then d.length + 1 else r y) < if x = v then d.length + 1 else r x
      rw [if_neg hyv]
      rcases List.mem_cons.mp hx with rfl | hx'
      · rw [if_pos rfl]; exact Nat.lt_succ_of_le (hb y)
      · rw [if_neg (fun e : x = v => hv (e ▸ hx'))]; exact hr x hx' y he

/-- state of the depth-first search: `d` are the finished vertices -/
structure Inv (g : V → Option (List V)) (s : Search V) (d : List V) : Prop where
  topo : Topo g d
  visited : ∀ x, x ∈ s.visited ↔ x ∈ d ∨ x ∈ s.path
  disj : ∀ x ∈ d, x ∉ s.path
  chain : s.path.IsChain (Edge g)

/-- outcome of a search step that has to finish the vertices `vs` -/
def Outcome (g : V → Option (List V)) (s : Search V) (d vs : List V) :
    Except (Err V M) (Option (List V) × Search V) → Prop
  | .error _ => True
  | .ok (some c, _) => ClosedWalk (Edge g) c
  | .ok (none, s') => s'.path = s.path ∧ (∀ x ∈ s.visited, x ∈ s'.visited) ∧
      ∃ d', Inv g s' d' ∧ (∀ x ∈ d, x ∈ d') ∧ ∀ v ∈ vs, v ∈ d'

theorem firstCycle_outcome {g : V → Option (List V)}
    {vis : V → Search V → Except (Err V M) (Option (List V) × Search V)}
    (hvis : ∀ v s d, Inv g s d → (∀ u ∈ s.path.getLast?, Edge g u v) → Outcome g s d [v] (vis v s))
    (vs : List V) : ∀ s d, Inv g s d → (∀ u ∈ s.path.getLast?, ∀ v ∈ vs, Edge g u v) →
      Outcome g s d vs (firstCycle vis vs s) := by
  induction vs with
  | nil => intro s d hi _; exact ⟨rfl, fun x h => h, d, hi, fun x h => h, fun v h => by simp at h⟩
  | cons v vs ih =>
    intro s d hi he
    unfold firstCycle
    have h1 := hvis v s d hi (fun u hu => he u hu v (by simp))
    match hr : vis v s with
    | .error e => trivial
    | .ok (some c, s') => rw [hr] at h1; exact h1
    | .ok (none, s') =>
      rw [hr] at h1
      obtain ⟨hp, hm, d', hi', hd, hv⟩ := h1
      have h2 := ih s' d' hi' (by rw [hp]; exact fun u hu w hw => he u hu w (List.mem_cons_of_mem _ hw))
      show Outcome g s d (v :: vs) (firstCycle vis vs s')
      match hr2 : firstCycle vis vs s' with
      | .error e => trivial
      | .ok (some c, s'') => rw [hr2] at h2; exact h2
      | .ok (none, s'') =>
        rw [hr2] at h2
        obtain ⟨hp2, hm2, d'', hi'', hd2, hv2⟩ := h2
        refine ⟨hp2.trans hp, fun x h => hm2 x (hm x h), d'', hi'', fun x h => hd2 x (hd x h), ?_⟩
        intro w hw
        rcases List.mem_cons.mp hw with rfl | hw
        · exact hd2 _ (hv _ (by simp))
        · exact hv2 w hw

theorem visit_outcome (g : V → Option (List V)) (n : ℕ) : ∀ v s d, Inv g s d →
    (∀ u ∈ s.path.getLast?, Edge g u v) →
    Outcome g s d [v] (visit (M := M) g n v s) := by
  induction n with
  | zero => intro v s d _ _; trivial
  | succ n ih =>
    intro v s d hi he
    unfold visit
    by_cases hp : v ∈ s.path
    · rw [if_pos hp]
      have hlt := List.idxOf_lt_length_of_mem hp
      have hdrop : s.path.drop (s.path.idxOf v) = v :: s.path.drop (s.path.idxOf v + 1) := by
        rw [List.drop_eq_getElem_cons hlt, List.getElem_idxOf hlt]
      refine ⟨v, s.path.drop (s.path.idxOf v + 1), by rw [hdrop], ?_⟩
      rw [List.isChain_append]
      refine ⟨hi.chain.drop _, List.isChain_singleton _, ?_⟩
      intro x hx y hy
      simp only [List.head?_cons, Option.mem_some_iff] at hy
      subst hy
      apply he
      rw [List.getLast?_drop] at hx
      rw [if_neg (by omega)] at hx
      exact hx
    · rw [if_neg hp]
      by_cases hv : v ∈ s.visited
      · rw [if_pos hv]
        refine ⟨rfl, fun x h => h, d, hi, fun x h => h, ?_⟩
        intro w hw
        rw [List.mem_singleton] at hw
        subst hw
        exact ((hi.visited w).mp hv).resolve_right hp
      · rw [if_neg hv]
        match hg : g v with
        | none => trivial
        | some ns =>
          have hvd : v ∉ d := fun h => hv ((hi.visited v).mpr (Or.inl h))
          have hi1 : Inv g ⟨v :: s.visited, s.path ++ [v]⟩ d := by
            refine ⟨hi.topo, ?_, ?_, ?_⟩
            · intro x
              simp only [List.mem_cons, List.mem_append, List.not_mem_nil, or_false, hi.visited x]
              tauto
            · intro x hx hxp
              rcases List.mem_append.mp hxp with h | h
              · exact hi.disj x hx h
              · rw [List.mem_singleton] at h; exact hvd (h ▸ hx)
            · rw [List.isChain_append]
              refine ⟨hi.chain, List.isChain_singleton _, ?_⟩
              intro x hx y hy
              simp only [List.head?_cons, Option.mem_some_iff] at hy
              subst hy
              exact he x hx
          have h1 := firstCycle_outcome (M := M) (g := g) (fun v s d => ih v s d) ns _ d hi1 (by
            intro u hu w hw
            simp only [List.getLast?_append, List.getLast?_singleton, Option.some_or,
              Option.mem_some_iff] at hu
            subst hu
            exact ⟨ns, hg, hw⟩)
          match hr : firstCycle (visit (M := M) g n) ns ⟨v :: s.visited, s.path ++ [v]⟩ with
          | .error e => simp only [hr]; trivial
          | .ok (some c, s') => rw [hr] at h1; simp only [hr]; exact h1
          | .ok (none, s') =>
            rw [hr] at h1
            simp only [hr]
            obtain ⟨hp', hm, d', hi', hd, hv'⟩ := h1
            have hpath : s'.path = s.path ++ [v] := hp'
            have hvd' : v ∉ d' := fun h => hi'.disj v h (by rw [hpath]; simp)
            refine ⟨?_, ?_, v :: d', ?_, fun x h => List.mem_cons_of_mem _ (hd x h), by simp⟩
            · show s'.path.dropLast = s.path
              rw [hpath, List.dropLast_concat]
            · intro x hx
              exact hm x (List.mem_cons_of_mem _ hx)
            · refine ⟨Topo.cons hi'.topo hg hv' hvd', ?_, ?_, ?_⟩
              · intro x
                show x ∈ s'.visited ↔ x ∈ v :: d' ∨ x ∈ s'.path.dropLast
                rw [hi'.visited x, hpath, List.dropLast_concat]
                simp only [List.mem_append, List.mem_cons, List.not_mem_nil, or_false]
                tauto
              · intro x hx
                show x ∉ s'.path.dropLast
                rw [hpath, List.dropLast_concat]
                rcases List.mem_cons.mp hx with rfl | hx
                · exact hp
                · intro h
                  exact hi'.disj x hx (by rw [hpath]; exact List.mem_append_left _ h)
              · show s'.path.dropLast.IsChain _
                rw [hpath, List.dropLast_concat]
                exact hi.chain

/-! ### no exception -/

/-- unvisited keys -/
def rest (keys : List V) (s : Search V) : ℕ := (keys.filter (· ∉ s.visited)).length

theorem rest_mono {keys : List V} {s s' : Search V} (h : ∀ x ∈ s.visited, x ∈ s'.visited) :
    rest keys s' ≤ rest keys s := by
  unfold rest
  refine List.Sublist.length_le ?_
  refine List.monotone_filter_right keys ?_
  intro x hx
  simp only [decide_eq_true_eq] at hx ⊢
  exact fun h' => hx (h x h')

theorem rest_lt {keys : List V} {s : Search V} {v : V} {p : List V} (hk : v ∈ keys) (hv : v ∉ s.visited) :
    rest keys ⟨v :: s.visited, p⟩ < rest keys s := by
  unfold rest
  have : (keys.filter (· ∉ v :: s.visited)) = (keys.filter (· ∉ s.visited)).filter (· ≠ v) := by
    rw [List.filter_filter]
    refine List.filter_congr ?_
    intro x _
    simp [List.mem_cons, not_or]
  show ((keys.filter (· ∉ v :: s.visited)).length) < _
  rw [this, List.length_filter_lt_length_iff_exists]
  exact ⟨v, by simp [hk, hv], by simp⟩

/-- the search step does not raise and only adds visited vertices -/
def Safe (s : Search V) : Except (Err V M) (Option (List V) × Search V) → Prop
  | .error _ => False
  | .ok (_, s') => ∀ x ∈ s.visited, x ∈ s'.visited

theorem firstCycle_safe {keys : List V} {n : ℕ}
    {vis : V → Search V → Except (Err V M) (Option (List V) × Search V)}
    (hvis : ∀ v ∈ keys, ∀ s, rest keys s < n → Safe s (vis v s)) (vs : List V)
    (hk : ∀ v ∈ vs, v ∈ keys) : ∀ s, rest keys s < n → Safe s (firstCycle vis vs s) := by
  induction vs with
  | nil => intro s _ x h; exact h
  | cons v vs ih =>
    intro s hs
    unfold firstCycle
    have h1 := hvis v (hk v (by simp)) s hs
    match hr : vis v s with
    | .error e => rw [hr] at h1; exact h1
    | .ok (some c, s') => rw [hr] at h1; exact h1
    | .ok (none, s') =>
      rw [hr] at h1
      have h2 := ih (fun w hw => hk w (List.mem_cons_of_mem _ hw)) s'
        (lt_of_le_of_lt (rest_mono h1) hs)
      show Safe s (firstCycle vis vs s')
      match hr2 : firstCycle vis vs s' with
      | .error e => rw [hr2] at h2; exact h2
      | .ok (c, s'') => rw [hr2] at h2; exact fun x hx => h2 x (h1 x hx)

theorem visit_safe {keys : List V} {g : V → Option (List V)}
    (hg : ∀ v ∈ keys, ∃ ns, g v = some ns ∧ ∀ w ∈ ns, w ∈ keys) (n : ℕ) :
    ∀ v ∈ keys, ∀ s, rest keys s < n → Safe s (visit (M := M) g n v s) := by
  induction n with
  | zero => intro v _ s h; exact absurd h (Nat.not_lt_zero _)
  | succ n ih =>
    intro v hv s hs
    unfold visit
    by_cases hp : v ∈ s.path
    · rw [if_pos hp]; exact fun x h => h
    · rw [if_neg hp]
      by_cases hvis : v ∈ s.visited
      · rw [if_pos hvis]; exact fun x h => h
      · rw [if_neg hvis]
        obtain ⟨ns, e, hns⟩ := hg v hv
        have hlt : rest keys ⟨v :: s.visited, s.path ++ [v]⟩ < n :=
          lt_of_lt_of_le (rest_lt hv hvis) (Nat.le_of_lt_succ hs)
        have h1 := firstCycle_safe (M := M) ih ns hns ⟨v :: s.visited, s.path ++ [v]⟩ hlt
        simp only [e]
        match hr : firstCycle (visit (M := M) g n) ns ⟨v :: s.visited, s.path ++ [v]⟩ with
        | .error e => rw [hr] at h1; exact absurd h1 id
        | .ok (some c, s') =>
          rw [hr] at h1; simp only [hr]; exact fun x hx => h1 x (List.mem_cons_of_mem _ hx)
        | .ok (none, s') =>
          rw [hr] at h1; simp only [hr]; exact fun x hx => h1 x (List.mem_cons_of_mem _ hx)

theorem hasCycle_some {limit : ℕ} {keys : List V} {g : V → Option (List V)} {c : List V}
    (h : hasCycle (M := M) limit keys g = .ok (some c)) : ClosedWalk (Edge g) c := by
  have := firstCycle_outcome (M := M) (visit_outcome g limit) keys ⟨[], []⟩ []
    ⟨Topo.nil, by simp, by simp, List.isChain_nil⟩ (by simp)
  unfold hasCycle at h
  match hr : firstCycle (visit (M := M) g limit) keys ⟨[], []⟩ with
  | .error e => rw [hr] at h; cases h
  | .ok (none, s) => rw [hr] at h; cases h
  | .ok (some c', s) => rw [hr] at h this; cases h; exact this

theorem hasCycle_none {limit : ℕ} {keys : List V} {g : V → Option (List V)}
    (h : hasCycle (M := M) limit keys g = .ok none) :
    ∃ d, Topo g d ∧ ∀ v ∈ keys, v ∈ d := by
  have := firstCycle_outcome (M := M) (visit_outcome g limit) keys ⟨[], []⟩ []
    ⟨Topo.nil, by simp, by simp, List.isChain_nil⟩ (by simp)
  unfold hasCycle at h
  match hr : firstCycle (visit (M := M) g limit) keys ⟨[], []⟩ with
  | .error e => rw [hr] at h; cases h
  | .ok (some c', s) => rw [hr] at h; cases h
  | .ok (none, s) =>
    rw [hr] at this
    obtain ⟨_, _, d, hi, _, hv⟩ := this
    exact ⟨d, hi.topo, hv⟩

theorem hasCycle_ok {limit : ℕ} {keys : List V} {g : V → Option (List V)}
    (hg : ∀ v ∈ keys, ∃ ns, g v = some ns ∧ ∀ w ∈ ns, w ∈ keys) (hl : keys.length < limit) :
    ∃ r, hasCycle (M := M) limit keys g = .ok r := by
  have := firstCycle_safe (M := M) (n := limit) (visit_safe hg limit) keys (fun v h => h) ⟨[], []⟩
    (lt_of_le_of_lt (List.length_filter_le _ _) hl)
  unfold hasCycle
  match hr : firstCycle (visit (M := M) g limit) keys ⟨[], []⟩ with
  | .error e => rw [hr] at this; exact absurd this id
  | .ok (r, s) => exact ⟨r, rfl⟩

omit [DecidableEq V] in
theorem closedWalk_trans {E : V → V → Prop} {c : List V} (h : ClosedWalk E c) :
    ∃ v ∈ c, TransGen E v v := by
  obtain ⟨v, mid, rfl, hc⟩ := h
  refine ⟨v, by simp, ?_⟩
  have key : ∀ (mid : List V) (u : V), (u :: mid ++ [v]).IsChain E → TransGen E u v := by
    intro mid
    induction mid with
    | nil => intro u hc; exact TransGen.single (by simpa using hc)
    | cons w mid ih =>
      intro u hc
      rw [List.cons_append, List.cons_append, List.isChain_cons_cons] at hc
      exact TransGen.head hc.1 (ih w hc.2)
  exact key mid v hc

end Ccpy.FortranDeps
