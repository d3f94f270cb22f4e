import Verif.Lemmas.FortranOrder

/-! The source scan of the build-order tool. -/

namespace Ccpy.FortranDeps
open Ccpy.Spec Relation

variable {V M : Type*} [DecidableEq V] [DecidableEq M]

omit [DecidableEq V] in
theorem lookup_isSome (l : List (M × V)) (m : M) : (l.lookup m).isSome = true ↔ m ∈ l.map Prod.fst := by
  induction l with
  | nil => simp
  | cons p l ih =>
    obtain ⟨k, v⟩ := p
    rw [List.lookup_cons]
    by_cases h : m = k
    · simp [h]
    · rw [show (m == k) = false from by simpa using h]
      simp [h, ih]

omit [DecidableEq V] in
theorem lookup_some {l : List (M × V)} (hn : (l.map Prod.fst).Nodup) (m : M) (v : V) :
    l.lookup m = some v ↔ (m, v) ∈ l := by
  induction l with
  | nil => simp
  | cons p l ih =>
    obtain ⟨k, w⟩ := p
    rw [List.map_cons, List.nodup_cons] at hn
    rw [List.lookup_cons]
    by_cases h : m = k
    · subst h
      simp only [beq_self_eq_true, List.mem_cons, Prod.mk.injEq, true_and]
      constructor
      · intro e; exact Or.inl (Option.some.inj e).symm
      · rintro (rfl | hm)
        · rfl
        · exact absurd (List.mem_map.mpr ⟨_, hm, rfl⟩) hn.1
    · rw [show (m == k) = false from by simpa using h]
      simp [h, ih hn.2]

theorem forEach_append {A S E : Type*} (b : S → A → Except E S) (xs ys : List A) : ∀ s,
    forEach b (xs ++ ys) s = match forEach b xs s with
      | .error e => .error e
      | .ok s => forEach b ys s := by
  induction xs with
  | nil => intro s; rfl
  | cons x xs ih =>
    intro s
    show forEach b (x :: (xs ++ ys)) s = _
    simp only [forEach]
    cases b s x with
    | error e => rfl
    | ok s => exact ih s

theorem forEach_map {A B S E : Type*} (b : S → B → Except E S) (f : A → B) (xs : List A) : ∀ s,
    forEach b (xs.map f) s = forEach (fun s a => b s (f a)) xs s := by
  induction xs with
  | nil => intro s; rfl
  | cons x xs ih =>
    intro s
    show forEach b (f x :: xs.map f) s = _
    simp only [forEach]
    cases b s (f x) with
    | error e => rfl
    | ok s => exact ih s

/-- all lines with their files -/
def lines (contents : V → List (SourceLine M)) (files : List V) : List (V × SourceLine M) :=
  files.flatMap fun f => (contents f).map fun l => (f, l)

theorem scanFiles_eq (contents : V → List (SourceLine M)) (files : List V) : ∀ s,
    forEach (scanFile contents) files s =
      forEach (fun s (p : V × SourceLine M) => scanLine p.1 s p.2) (lines contents files) s := by
  induction files with
  | nil => intro s; rfl
  | cons f fs ih =>
    intro s
    show _ = forEach _ ((contents f).map (fun l => (f, l)) ++ lines contents fs) s
    rw [forEach_append, forEach_map]
    show forEach (scanFile contents) (f :: fs) s = _
    have : forEach (scanFile contents) (f :: fs) s =
      (match scanFile contents s f with
      | .error e => Except.error e
      | .ok s => forEach (scanFile contents) fs s) := by
      rw [forEach]; cases scanFile contents s f <;> rfl
    rw [this]
    have h2 : scanFile contents s f =
        forEach (fun s a => scanLine (f, a).1 s (f, a).2) (contents f) s := rfl
    rw [h2]
    cases forEach (fun s a => scanLine (f, a).1 s (f, a).2) (contents f) s with
    | error e => rfl
    | ok s => exact ih s

/-- what a line exports -/
def export1 (p : V × SourceLine M) : Option (M × V) := p.2.defines.map fun m => (m, p.1)

theorem use_exports (f : V) (s : Scan V M) (l : SourceLine M) :
    (scanLine.use f l s).exports = s.exports := by
  unfold scanLine.use
  match l.uses with
  | none => rfl
  | some m => rfl

theorem use_needs (f : V) (s : Scan V M) (l : SourceLine M) (v : V) (m : M) :
    m ∈ (scanLine.use f l s).needsMod v ↔ m ∈ s.needsMod v ∨ (v = f ∧ l.uses = some m) := by
  unfold scanLine.use
  match hu : l.uses with
  | none => simp
  | some m' =>
    show m ∈ (if v = f then (if m' ∈ s.needsMod f then s.needsMod f else s.needsMod f ++ [m'])
      else s.needsMod v) ↔ _
    by_cases hv : v = f
    · subst hv
      rw [if_pos rfl]
      split
      · rename_i h
        constructor
        · exact Or.inl
        · rintro (h' | ⟨_, e⟩)
          · exact h'
          · rw [← Option.some.inj e]; exact h
      · simp [eq_comm]
    · rw [if_neg hv]; simp [hv]

theorem scanLines_ok (ls : List (V × SourceLine M)) : ∀ s : Scan V M,
    (s.exports.map Prod.fst ++ ls.filterMap (fun p => p.2.defines)).Nodup →
    ∃ s', forEach (fun s (p : V × SourceLine M) => scanLine p.1 s p.2) ls s = .ok s' ∧
      s'.exports = s.exports ++ ls.filterMap export1 ∧
      ∀ v m, m ∈ s'.needsMod v ↔ m ∈ s.needsMod v ∨ ∃ l, (v, l) ∈ ls ∧ l.uses = some m := by
  induction ls with
  | nil => intro s _; exact ⟨s, rfl, by simp, by simp⟩
  | cons p ls ih =>
    obtain ⟨f, l⟩ := p
    intro s hnd
    match hdef : l.defines with
    | none =>
      have hnd' : ((scanLine.use f l s).exports.map Prod.fst ++
          ls.filterMap (fun p => p.2.defines)).Nodup := by
        rw [use_exports]
        simpa [List.filterMap_cons, hdef] using hnd
      obtain ⟨s', e, h1, h2⟩ := ih _ hnd'
      refine ⟨s', ?_, ?_, ?_⟩
      · unfold forEach scanLine
        simp only [hdef]
        exact e
      · rw [h1, use_exports]
        simp [List.filterMap_cons, export1, hdef]
      · intro v m
        rw [h2, use_needs]
        simp only [List.mem_cons, Prod.mk.injEq]
        constructor
        · rintro ((h | ⟨rfl, h⟩) | ⟨l', h, h'⟩)
          · exact Or.inl h
          · exact Or.inr ⟨l, Or.inl ⟨rfl, rfl⟩, h⟩
          · exact Or.inr ⟨l', Or.inr h, h'⟩
        · rintro (h | ⟨l', ⟨rfl, rfl⟩ | h, h'⟩)
          · exact Or.inl (Or.inl h)
          · exact Or.inl (Or.inr ⟨rfl, h'⟩)
          · exact Or.inr ⟨l', h, h'⟩
    | some m0 =>
      have hnot : ¬ (s.exports.lookup m0).isSome = true := by
        rw [lookup_isSome]
        intro h
        rw [List.filterMap_cons] at hnd
        simp only [hdef] at hnd
        exact (List.nodup_append.mp hnd).2.2 m0 h m0 (by simp) rfl
      have hnd' : ((scanLine.use f l { s with exports := s.exports ++ [(m0, f)] }).exports.map Prod.fst ++
          ls.filterMap (fun p => p.2.defines)).Nodup := by
        rw [use_exports]
        simpa [List.filterMap_cons, hdef] using hnd
      obtain ⟨s', e, h1, h2⟩ := ih _ hnd'
      refine ⟨s', ?_, ?_, ?_⟩
      · unfold forEach scanLine
        simp only [hdef]
        rw [if_neg hnot]
        exact e
      · rw [h1, use_exports]
        simp [List.filterMap_cons, export1, hdef]
      · intro v m
        rw [h2, use_needs]
        simp only [List.mem_cons, Prod.mk.injEq]
        constructor
        · rintro ((h | ⟨rfl, h⟩) | ⟨l', h, h'⟩)
          · exact Or.inl h
          · exact Or.inr ⟨l, Or.inl ⟨rfl, rfl⟩, h⟩
          · exact Or.inr ⟨l', Or.inr h, h'⟩
        · rintro (h | ⟨l', ⟨rfl, rfl⟩ | h, h'⟩)
          · exact Or.inl (Or.inl h)
          · exact Or.inl (Or.inr ⟨rfl, h'⟩)
          · exact Or.inr ⟨l', h, h'⟩

theorem scanLines_err (ls : List (V × SourceLine M)) : ∀ s : Scan V M,
    (s.exports.map Prod.fst).Nodup →
    ¬ (s.exports.map Prod.fst ++ ls.filterMap (fun p => p.2.defines)).Nodup →
    ∃ m, forEach (fun s (p : V × SourceLine M) => scanLine p.1 s p.2) ls s = .error (.exportExists m) := by
  induction ls with
  | nil => intro s h hn; exact absurd (by simpa using h) hn
  | cons p ls ih =>
    obtain ⟨f, l⟩ := p
    intro s hs hnd
    match hdef : l.defines with
    | none =>
      obtain ⟨m, e⟩ := ih (scanLine.use f l s) (by rw [use_exports]; exact hs) (by
        rw [use_exports]
        simpa [List.filterMap_cons, hdef] using hnd)
      refine ⟨m, ?_⟩
      unfold forEach scanLine
      simp only [hdef]
      exact e
    | some m0 =>
      by_cases hlk : (s.exports.lookup m0).isSome = true
      · refine ⟨m0, ?_⟩
        unfold forEach scanLine
        simp only [hdef]
        rw [if_pos hlk]
      · have hmem : m0 ∉ s.exports.map Prod.fst := fun h => hlk ((lookup_isSome _ _).mpr h)
        obtain ⟨m, e⟩ := ih (scanLine.use f l { s with exports := s.exports ++ [(m0, f)] }) (by
            rw [use_exports]
            show ((s.exports ++ [(m0, f)]).map Prod.fst).Nodup
            rw [List.map_append, List.nodup_append]
            refine ⟨hs, by simp, ?_⟩
            intro a ha b hb
            simp only [List.map_cons, List.map_nil, List.mem_singleton] at hb
            subst hb
            exact fun e => hmem (e ▸ ha)) (by
          rw [use_exports]
          simpa [List.filterMap_cons, hdef] using hnd)
        refine ⟨m, ?_⟩
        unfold forEach scanLine
        simp only [hdef]
        rw [if_neg hlk]
        exact e

omit [DecidableEq V] [DecidableEq M] in
theorem lines_defines (contents : V → List (SourceLine M)) (files : List V) :
    (lines contents files).filterMap (fun p => p.2.defines) = definedModules contents files := by
  unfold lines definedModules
  induction files with
  | nil => rfl
  | cons f fs ih =>
    rw [List.flatMap_cons, List.flatMap_cons, List.filterMap_append, ih, List.filterMap_map]
    rfl

/-- the scan of well-formed input -/
theorem scan_ok {contents : V → List (SourceLine M)} {files : List V}
    (h : (definedModules contents files).Nodup) :
    ∃ s, forEach (scanFile contents) files ⟨[], fun _ => []⟩ = .ok s ∧
      ∀ f ∈ files, ∀ g, g ∈ mapNeeds s f ↔ UsesFile contents files f g := by
  obtain ⟨s, e, h1, h2⟩ := scanLines_ok (lines contents files) ⟨[], fun _ => []⟩ (by
    rw [lines_defines]; simpa using h)
  refine ⟨s, by rw [scanFiles_eq]; exact e, ?_⟩
  have hkeys : (s.exports.map Prod.fst).Nodup := by
    rw [h1, ← lines_defines] at *
    have : ((lines contents files).filterMap export1).map Prod.fst =
        (lines contents files).filterMap (fun p => p.2.defines) := by
      rw [List.map_filterMap]
      refine List.filterMap_congr ?_
      intro p _
      unfold export1
      cases p.2.defines <;> rfl
    simpa [this] using h
  intro f hf g
  unfold mapNeeds
  rw [List.mem_eraseDups, List.mem_filterMap]
  constructor
  · rintro ⟨m, hm, hl⟩
    rw [h2] at hm
    rw [lookup_some hkeys, h1] at hl
    simp only [List.nil_append, List.mem_filterMap, lines, List.mem_flatMap, List.mem_map] at hl
    obtain ⟨⟨g', l'⟩, ⟨g'', hg, l'', hl'', e'⟩, hx⟩ := hl
    cases e'
    unfold export1 at hx
    rw [Option.map_eq_some_iff] at hx
    obtain ⟨m', hd, e''⟩ := hx
    cases e''
    obtain ⟨l, hlm, hu⟩ := hm.resolve_left (by simp)
    simp only [lines, List.mem_flatMap, List.mem_map] at hlm
    obtain ⟨f', hf', l0, hl0, e0⟩ := hlm
    cases e0
    exact ⟨hf, hg, m, ⟨l, hl0, hu⟩, l', hl'', hd⟩
  · rintro ⟨_, hg, m, ⟨l, hl, hu⟩, l', hl', hd⟩
    refine ⟨m, ?_, ?_⟩
    · rw [h2]
      exact Or.inr ⟨l, List.mem_flatMap.mpr ⟨f, hf, List.mem_map.mpr ⟨l, hl, rfl⟩⟩, hu⟩
    · rw [lookup_some hkeys, h1]
      refine List.mem_append_right _ (List.mem_filterMap.mpr ⟨(g, l'), ?_, ?_⟩)
      · exact List.mem_flatMap.mpr ⟨g, hg, List.mem_map.mpr ⟨l', hl', rfl⟩⟩
      · unfold export1; rw [hd]; rfl

omit [DecidableEq V] in
theorem Topo.nodup {g : V → Option (List V)} {d : List V} (h : Topo g d) :
    d.Nodup ∧ ∀ x ∈ d, (g x).isSome = true := by
  induction h with
  | nil => exact ⟨List.nodup_nil, by simp⟩
  | @cons v ns d ht hg hs hv ih =>
    refine ⟨List.nodup_cons.mpr ⟨hv, ih.1⟩, ?_⟩
    intro x hx
    rcases List.mem_cons.mp hx with rfl | hx
    · rw [hg]; rfl
    · exact ih.2 x hx

theorem eraseDups_length (l : List V) : l.eraseDups.length ≤ l.length := by
  have key : ∀ n, ∀ l : List V, l.length ≤ n → l.eraseDups.length ≤ l.length := by
    intro n
    induction n with
    | zero => intro l h; rw [List.length_eq_zero_iff.mp (Nat.le_zero.mp h)]; simp
    | succ n ih =>
      intro l h
      match l with
      | [] => simp
      | a :: as =>
        rw [List.eraseDups_cons]
        have h1 : (as.filter fun b => !b == a).length ≤ as.length := List.length_filter_le _ _
        simp only [List.length_cons] at h ⊢
        have h2 := ih (as.filter fun b => !b == a) (by omega)
        omega
  exact key _ l (le_refl _)

/-- the order loop on an acyclic dependency relation -/
theorem order_ok {needs : V → List V} {files : List V} (hmem : ∀ f ∈ files, ∀ n ∈ needs f, n ∈ files)
    (hac : Acyclic fun f n => f ∈ files ∧ n ∈ needs f) {passes : ℕ}
    (hp : files.length * (files.length * files.length) < passes) :
    ∃ out, orderDependencies (M := M) passes needs files = .ok out ∧ out.Perm files ∧
      ∀ f ∈ files, ∀ n ∈ needs f, out.idxOf n ≤ out.idxOf f := by
  let g : V → Option (List V) := fun v => if v ∈ files then some (needs v) else none
  have hedge : ∀ x y, Edge g x y ↔ x ∈ files ∧ y ∈ needs x := by
    intro x y
    unfold Edge
    simp only [g]
    by_cases hx : x ∈ files
    · simp [hx]
    · simp [hx]
  have hE : Edge g = fun f n => f ∈ files ∧ n ∈ needs f := by
    funext x y; exact propext (hedge x y)
  obtain ⟨r, hr⟩ := hasCycle_ok (M := M) (limit := files.length + 1) (keys := files) (g := g)
    (fun v hv => ⟨needs v, by simp [g, hv], hmem v hv⟩) (Nat.lt_succ_self _)
  match r with
  | some c =>
    obtain ⟨v, _, hv⟩ := closedWalk_trans (hasCycle_some hr)
    rw [hE] at hv
    exact absurd hv (hac v)
  | none =>
    obtain ⟨d, ht, hd⟩ := hasCycle_none hr
    obtain ⟨rk, hb, hrk⟩ := ht.rank
    have hlen : d.length ≤ files.length := by
      refine (List.subperm_of_subset ht.nodup.1 ?_).length_le
      intro x hx
      have := ht.nodup.2 x hx
      by_contra hn
      simp [g, hn] at this
    have hb' : ∀ v, rk v ≤ files.length := fun v => le_trans (hb v) hlen
    have hN : Needs rk files needs := ⟨hmem, fun f hf n hn => hrk f (hd f hf) n ((hedge f n).mpr ⟨hf, hn⟩)⟩
    exact orderLoop_ok (M := M) hb' hN passes files (List.Perm.refl _) (by omega)

end Ccpy.FortranDeps
