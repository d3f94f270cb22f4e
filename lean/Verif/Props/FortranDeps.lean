import Verif.Lemmas.FortranScan
import Mathlib.Data.List.Duplicate
import Mathlib.Data.List.NodupEquivFin

/-! Build order of the Fortran sources: cycle detection (C47) and the order (C46). -/

namespace Ccpy.FortranDeps
open Ccpy.Spec Relation

variable {V M : Type*} [DecidableEq V] [DecidableEq M]

/-! ### C47: cycle detection -/

/-- A reported cycle is a genuine one, whatever the graph and the recursion limit. -/
theorem C47_sound {limit : ℕ} {keys : List V} {g : V → Option (List V)} {c : List V}
    (h : hasCycle (M := M) limit keys g = .ok (some c)) :
    ClosedWalk (fun v w => ∃ ns, g v = some ns ∧ w ∈ ns) c := hasCycle_some h

/-- If no cycle is reported, then nothing reachable from the listed vertices lies on a cycle, and all
of it has an entry in the graph; whatever the graph and the recursion limit. -/
theorem C47_none {limit : ℕ} {keys : List V} {g : V → Option (List V)}
    (h : hasCycle (M := M) limit keys g = .ok none) {v w : V} (hv : v ∈ keys)
    (hr : ReflTransGen (fun v w => ∃ ns, g v = some ns ∧ w ∈ ns) v w) :
    (g w).isSome = true ∧ ¬ TransGen (fun v w => ∃ ns, g v = some ns ∧ w ∈ ns) w w := by
  obtain ⟨d, ht, hd⟩ := hasCycle_none h
  have hw : w ∈ d := ht.reaches (hd v hv) hr
  exact ⟨ht.nodup.2 w hw, ht.acyclic w hw⟩

/-- Every graph whose edges stay among its vertices, with fewer vertices than the recursion limit, is
decided: `None` exactly if it is acyclic, and otherwise a genuine cycle. -/
theorem C47_decides {limit : ℕ} {keys : List V} {g : V → Option (List V)}
    (hkeys : ∀ v, (g v).isSome = true ↔ v ∈ keys)
    (hclosed : ∀ v ns, g v = some ns → ∀ w ∈ ns, w ∈ keys) (hl : keys.length < limit) :
    (Acyclic (fun v w => ∃ ns, g v = some ns ∧ w ∈ ns) ∧
        hasCycle (M := M) limit keys g = .ok none) ∨
      (¬ Acyclic (fun v w => ∃ ns, g v = some ns ∧ w ∈ ns) ∧
        ∃ c, hasCycle (M := M) limit keys g = .ok (some c) ∧
          ClosedWalk (fun v w => ∃ ns, g v = some ns ∧ w ∈ ns) c) := by
  obtain ⟨r, hr⟩ := hasCycle_ok (M := M) (limit := limit) (keys := keys) (g := g) (fun v hv => by
    obtain ⟨ns, h⟩ := Option.isSome_iff_exists.mp ((hkeys v).mpr hv)
    exact ⟨ns, h, hclosed v ns h⟩) hl
  match r with
  | some c =>
    refine Or.inr ⟨fun hac => ?_, c, hr, C47_sound hr⟩
    obtain ⟨v, _, hv⟩ := closedWalk_trans (C47_sound hr)
    exact hac v hv
  | none =>
    refine Or.inl ⟨fun v hv => ?_, hr⟩
    obtain ⟨w, ⟨ns, h1, _⟩, _⟩ := TransGen.head'_iff.mp hv
    have hk : v ∈ keys := (hkeys v).mp (by rw [h1]; rfl)
    exact (C47_none hr hk .refl).2 hv

/-- A chain of as many vertices as the recursion limit, plus one, raises `RecursionError`. -/
theorem C47_recursion_limit (limit : ℕ) :
    hasCycle (M := M) limit (List.range (limit + 1))
      (fun v : ℕ => if v < limit then some [v + 1] else if v = limit then some [] else none) =
      .error .recursionError := by
  have key : ∀ k v vis path, v + k = limit → (∀ x ∈ vis, x < v) → (∀ x ∈ path, x < v) →
      visit (M := M) (fun v : ℕ => if v < limit then some [v + 1] else if v = limit then some []
        else none) k v ⟨vis, path⟩ = .error .recursionError := by
    intro k
    induction k with
    | zero => intros; rfl
    | succ k ih =>
      intro v vis path hv h1 h2
      unfold visit
      rw [if_neg (fun h => lt_irrefl _ (h2 v h)), if_neg (fun h => lt_irrefl _ (h1 v h))]
      simp only [if_pos (show v < limit by omega), firstCycle]
      rw [ih (v + 1) _ _ (by omega) (by
        intro x hx
        rcases List.mem_cons.mp hx with rfl | hx
        · omega
        · have := h1 x hx; omega) (by
        intro x hx
        rcases List.mem_append.mp hx with hx | hx
        · have := h2 x hx; omega
        · rw [List.mem_singleton] at hx; omega)]
  unfold hasCycle
  rw [List.range_succ_eq_map, firstCycle]
  rw [key limit 0 [] [] (by omega) (by simp) (by simp)]

/-- An edge to a vertex that is not in the graph raises `KeyError`. -/
theorem C47_missing_vertex (v w : V) (h : v ≠ w) (n : ℕ) :
    hasCycle (M := M) (n + 2) [v] (fun x => if x = v then some [w] else none) =
      .error (.keyError w) := by
  simp [hasCycle, firstCycle, visit, h.symm]

-- a graph with a cycle that the first vertex only leads to
example : (hasCycle (M := ℕ) 10 [0, 1, 2, 3]
      (fun v : ℕ => [some [1], some [2], some [3, 1], some []].getD v none)).toOption =
    some (some [1, 2, 1]) := by decide +kernel

-- a diamond: vertex 3 is reached twice and is not a cycle
example : (hasCycle (M := ℕ) 10 [0, 1, 2, 3]
      (fun v : ℕ => [some [1, 2], some [3], some [3], some []].getD v none)).toOption =
    some none := by decide +kernel

-- the hypotheses of `C47_decides`
example : let keys := [0, 1, 2, 3]
    let g : ℕ → Option (List ℕ) := fun v => if v < 4 then some [(v + 1) % 4] else none
    (∀ v, (g v).isSome = true ↔ v ∈ keys) ∧ (∀ v ns, g v = some ns → ∀ w ∈ ns, w ∈ keys) ∧
      keys.length < 1000 := by
  refine ⟨?_, ?_, by decide⟩
  · intro v
    by_cases h : v < 4
    · simp [h]; omega
    · simp [h]; omega
  · intro v ns h w hw
    by_cases hv : v < 4
    · simp only [hv, if_true, Option.some.injEq] at h
      subst h
      simp only [List.mem_singleton] at hw
      simp only [List.mem_cons, List.not_mem_nil, or_false]
      omega
    · simp [hv] at h

/-! ### C46: the order -/

theorem unique_position {l : List V} {x : V} (h : l.count x ≤ 1) {i j : ℕ} (hi : l[i]? = some x)
    (hj : l[j]? = some x) : i = j := by
  obtain ⟨hi', hi⟩ := List.getElem?_eq_some_iff.mp hi
  obtain ⟨hj', hj⟩ := List.getElem?_eq_some_iff.mp hj
  by_contra hne
  have : l.Duplicate x := by
    rw [List.duplicate_iff_exists_distinct_get]
    rcases Nat.lt_or_gt_of_ne hne with h | h
    · exact ⟨⟨i, hi'⟩, ⟨j, hj'⟩, h, hi.symm, hj.symm⟩
    · exact ⟨⟨j, hj'⟩, ⟨i, hi'⟩, h, hj.symm, hi.symm⟩
  rw [List.duplicate_iff_two_le_count] at this
  omega

theorem buildOrder_of_idxOf {E : V → V → Prop} {files out : List V} (hp : out.Perm files)
    (hirr : ∀ f, ¬ E f f) (hone : ∀ f g, E f g → files.count g ≤ 1)
    (h : ∀ f g, E f g → out.idxOf g ≤ out.idxOf f) : BuildOrder E files out := by
  refine ⟨hp, ?_⟩
  intro f g he i j hi hj
  have hg : out.count g ≤ 1 := by rw [hp.count_eq]; exact hone f g he
  have hgm : g ∈ out := List.mem_of_getElem? hj
  have hfm : f ∈ out := List.mem_of_getElem? hi
  have hj' : j = out.idxOf g := unique_position hg hj (List.getElem?_idxOf hgm)
  have hi' : out.idxOf f ≤ i := by
    by_contra hlt
    have := List.not_of_lt_findIdx (p := (· == f)) (xs := out) (i := i) (by
      rw [not_le] at hlt; exact hlt)
    obtain ⟨hil, hi⟩ := List.getElem?_eq_some_iff.mp hi
    simp [hi] at this
  have hne : i ≠ j := by
    rintro rfl
    rw [hi] at hj
    exact hirr g (Option.some.inj hj ▸ he)
  have := h f g he
  omega

/-- The swapping loop terminates on every acyclic dependency relation among distinct files, within
`n³ + 1` passes, and returns a build order. -/
theorem C46_order {needs : V → List V} {files : List V} (hnd : files.Nodup)
    (hmem : ∀ f ∈ files, ∀ g ∈ needs f, g ∈ files)
    (hac : Acyclic fun f g => f ∈ files ∧ g ∈ needs f) {passes : ℕ}
    (hp : files.length * (files.length * files.length) < passes) :
    ∃ out, orderDependencies (M := M) passes needs files = .ok out ∧
      BuildOrder (fun f g => f ∈ files ∧ g ∈ needs f) files out := by
  obtain ⟨out, h1, h2, h3⟩ := order_ok (M := M) hmem hac hp
  exact ⟨out, h1, buildOrder_of_idxOf h2 (fun f h => hac f (.single h))
    (fun f g _ => List.nodup_iff_count_le_one.mp hnd g) fun f g h => h3 f h.1 g h.2⟩

/-- On two files that need each other the loop never terminates. -/
theorem C46_cycle_diverges (passes : ℕ) :
    orderDependencies (M := M) passes (fun f : Bool => [!f]) [false, true] = .error .noResult := by
  unfold orderDependencies
  induction passes with
  | zero => rfl
  | succ n ih =>
    unfold orderLoop
    have : forEach (moveFile (M := M) fun f : Bool => [!f]) [false, true] ([false, true], false) =
        .ok ([false, true], true) := by
      simp [forEach, moveFile, moveNeed, index, List.idxOf, List.findIdx_cons]
    rw [this]
    exact ih

theorem count_defining {contents : V → List (SourceLine M)} {files : List V}
    (h : (definedModules contents files).Nodup) {g : V} {l : SourceLine M} {m : M}
    (hl : l ∈ contents g) (hd : l.defines = some m) : files.count g ≤ 1 := by
  by_contra hc
  have hsub : [g, g].Sublist files := by
    have := (List.replicate_sublist_iff (n := 2) (a := g) (l := files)).mpr (by omega)
    simpa [List.replicate] using this
  unfold definedModules at h
  have hp := (List.nodup_flatMap.mp h).2
  have := (hp.sublist hsub)
  simp only [List.pairwise_cons, List.mem_singleton, forall_eq] at this
  have hm : m ∈ (contents g).filterMap (·.defines) := List.mem_filterMap.mpr ⟨l, hl, hd⟩
  exact this.1 hm hm

/-- The whole tool, for every set of source files: it reports a module defined twice; otherwise it
reports a genuine circular dependency if there is one; otherwise it returns a build order.  `enum` is
the order in which Python iterates over a set. -/
theorem C46_main {contents : V → List (SourceLine M)} {files : List V} {enum : List V → List V}
    (henum : ∀ l x, x ∈ enum l ↔ x ∈ l) {limit passes : ℕ} (hl : files.length < limit)
    (hp : files.length * (files.length * files.length) < passes) :
    (¬ (definedModules contents files).Nodup ∧
        ∃ m, main limit passes enum contents files = .error (.exportExists m)) ∨
    ((definedModules contents files).Nodup ∧ ¬ Acyclic (UsesFile contents files) ∧
        ∃ c, main limit passes enum contents files = .error (.circular c) ∧
          ClosedWalk (UsesFile contents files) c) ∨
    ((definedModules contents files).Nodup ∧ Acyclic (UsesFile contents files) ∧
        ∃ out, main limit passes enum contents files = .ok out ∧
          BuildOrder (UsesFile contents files) files out) := by
  by_cases hnd : (definedModules contents files).Nodup
  swap
  · refine Or.inl ⟨hnd, ?_⟩
    obtain ⟨m, e⟩ := scanLines_err (lines contents files) ⟨[], fun _ => []⟩ (by simp) (by
      rw [lines_defines]; simpa using hnd)
    refine ⟨m, ?_⟩
    unfold main scan
    rw [scanFiles_eq, e]
  refine Or.inr ?_
  obtain ⟨s, hs, hneed⟩ := scan_ok hnd
  have hedge : ∀ x y, (∃ ns, (if x ∈ files then some (enum (mapNeeds s x)) else none) = some ns ∧ y ∈ ns)
      ↔ UsesFile contents files x y := by
    intro x y
    by_cases hx : x ∈ files
    · simp only [if_pos hx, Option.some.injEq, exists_eq_left', henum, hneed x hx]
    · simp only [if_neg hx, reduceCtorEq, false_and, exists_false, false_iff]
      exact fun h => hx h.1
  have hE : (fun x y => ∃ ns, (if x ∈ files then some (enum (mapNeeds s x)) else none) = some ns ∧ y ∈ ns)
      = UsesFile contents files := by funext x y; exact propext (hedge x y)
  have hdec := C47_decides (M := M) (limit := limit) (keys := files.eraseDups)
    (g := fun v => if v ∈ files then some (enum (mapNeeds s v)) else none)
    (by intro v; by_cases h : v ∈ files <;> simp [h])
    (by
      intro v ns h w hw
      rw [List.mem_eraseDups]
      exact ((hedge v w).mp ⟨ns, h, hw⟩).2.1)
    (lt_of_le_of_lt (eraseDups_length files) hl)
  rw [hE] at hdec
  rcases hdec with ⟨hac, h⟩ | ⟨hac, c, h, hc⟩
  · refine Or.inr ⟨hnd, hac, ?_⟩
    have hE2 : (fun f g => f ∈ files ∧ g ∈ enum (mapNeeds s f)) = UsesFile contents files := by
      funext f g
      refine propext ⟨fun h => (hneed f h.1 g).mp ((henum _ _).mp h.2), fun h => ⟨h.1, ?_⟩⟩
      exact (henum _ _).mpr ((hneed f h.1 g).mpr h)
    obtain ⟨out, h1, h2, h3⟩ := order_ok (M := M) (needs := fun f => enum (mapNeeds s f)) (files := files)
      (by
        intro f hf g hg
        exact ((hneed f hf g).mp ((henum _ _).mp hg)).2.1) (by rw [hE2]; exact hac) hp
    refine ⟨out, ?_, ?_⟩
    · unfold main scan
      simp only [hs, h]
      exact h1
    · refine buildOrder_of_idxOf h2 (fun f h => hac f (.single h)) ?_ ?_
      · rintro f g ⟨_, _, m, _, l, hl, hd⟩
        exact count_defining hnd hl hd
      · intro f g h
        exact h3 f h.1 g ((henum _ _).mpr ((hneed f h.1 g).mpr h))
  · refine Or.inl ⟨hnd, hac, c, ?_, hc⟩
    unfold main scan
    simp only [hs, h]

/-- A file that uses a module it defines itself is always rejected as circular, although a compiler
accepts it when the module comes first. -/
theorem C46_own_module_rejected {contents : V → List (SourceLine M)} {files : List V}
    {enum : List V → List V} (henum : ∀ l x, x ∈ enum l ↔ x ∈ l) {limit passes : ℕ}
    (hl : files.length < limit) (hp : files.length * (files.length * files.length) < passes)
    (hnd : (definedModules contents files).Nodup) {f : V} (hf : UsesFile contents files f f) :
    ∃ c, main limit passes enum contents files = .error (.circular c) := by
  rcases C46_main (contents := contents) henum hl hp with h | ⟨_, _, c, h, _⟩ | ⟨_, h, _⟩
  · exact absurd hnd h.1
  · exact ⟨c, h⟩
  · exact absurd (.single hf) (h f)

-- three files in the wrong order
example : (main 10 40 id (fun f : ℕ =>
      [[⟨some 10, none⟩, ⟨none, some 11⟩, ⟨none, some 12⟩], [⟨some 11, none⟩, ⟨none, some 12⟩],
        [⟨some 12, none⟩, ⟨none, some 99⟩]].getD f []) [0, 1, 2] :
      Except (Err ℕ ℕ) (List ℕ)).toOption = some [2, 1, 0] := by decide +kernel

-- a module exported twice
example : (match (main 10 40 id (fun f : ℕ => if f < 2 then [⟨some 7, none⟩] else []) [0, 1] :
      Except (Err ℕ ℕ) (List ℕ)) with
    | .error (.exportExists m) => some m
    | _ => none) = some 7 := by decide +kernel

-- one file with two modules, the second using the first
example : (match (main 10 40 id (fun _ : ℕ => [⟨some 7, none⟩, ⟨some 8, none⟩, ⟨none, some 7⟩]) [0] :
      Except (Err ℕ ℕ) (List ℕ)) with
    | .error (.circular c) => some c
    | _ => none) = some [0, 0] := by decide +kernel

example : UsesFile (fun _ : ℕ => [⟨some 7, none⟩, ⟨some 8, none⟩, ⟨none, some 7⟩]) [0] 0 0 :=
  ⟨by simp, by simp, 7, ⟨⟨none, some 7⟩, by simp, rfl⟩, ⟨some 7, none⟩, by simp, rfl⟩

-- the hypotheses of `C46_order`
example : Acyclic fun f g : ℕ => f ∈ [3, 1, 2] ∧ g ∈ (if f = 3 then [1, 2] else if f = 2 then [1] else []) := by
  have h : ∀ f g : ℕ, (f ∈ [3, 1, 2] ∧ g ∈ (if f = 3 then [1, 2] else if f = 2 then [1] else [])) → g < f := by
    rintro f g ⟨hf, hg⟩
    simp only [List.mem_cons, List.not_mem_nil, or_false] at hf
    rcases hf with rfl | rfl | rfl <;> simp at hg <;> omega
  intro v hv
  have : ∀ w, TransGen (fun f g : ℕ => f ∈ [3, 1, 2] ∧
      g ∈ (if f = 3 then [1, 2] else if f = 2 then [1] else [])) v w → w < v := by
    intro w hw
    induction hw with
    | single h' => exact h _ _ h'
    | tail _ h' ih => exact lt_trans (h _ _ h') ih
  exact lt_irrefl _ (this v hv)

end Ccpy.FortranDeps
