import Verif.Model.Integrals
import Verif.Spec.SortedBlocks
import Verif.Spec.SpinOrbitalIntegrals
import Mathlib.Data.List.Nodup
import Mathlib.Data.List.Range
import Mathlib.Algebra.BigOperators.Group.Finset.Sigma

/-! Block names, slices and spin sums. -/

namespace Ccpy.Integrals
open Ccpy.Spec Ccpy.Operators

variable {K : Type*}

theorem mem_combinations {l c : List ℕ} : ∀ {k}, c ∈ combinations l k ↔ c.Sublist l ∧ c.length = k := by
  induction l generalizing c with
  | nil =>
    intro k
    match k with
    | 0 => simp [combinations]
    | k + 1 =>
      simp only [combinations, List.not_mem_nil, List.sublist_nil, false_iff, not_and]
      rintro rfl; simp
  | cons x xs ih =>
    intro k
    match k with
    | 0 =>
      simp only [combinations, List.mem_singleton, List.length_eq_zero_iff]
      constructor
      · rintro rfl; exact ⟨List.nil_sublist _, rfl⟩
      · exact fun h => h.2
    | k + 1 =>
      simp only [combinations, List.mem_append, List.mem_map, ih]
      constructor
      · rintro (⟨d, ⟨h1, h2⟩, rfl⟩ | ⟨h1, h2⟩)
        · exact ⟨h1.cons_cons x, by simp [h2]⟩
        · exact ⟨h1.cons x, h2⟩
      · rintro ⟨h1, h2⟩
        cases h1 with
        | cons _ h => exact Or.inr ⟨h, h2⟩
        | cons_cons _ h => exact Or.inl ⟨_, ⟨h, by simpa using h2⟩, rfl⟩

theorem nodup_combinations {l : List ℕ} (hl : l.Nodup) : ∀ k, (combinations l k).Nodup := by
  induction l with
  | nil => intro k; match k with
    | 0 => simp [combinations]
    | k + 1 => simp [combinations]
  | cons x xs ih =>
    intro k
    match k with
    | 0 => simp [combinations]
    | k + 1 =>
      have hx := List.nodup_cons.mp hl
      simp only [combinations]
      rw [List.nodup_append]
      refine ⟨(ih hx.2 k).map (fun a b h => by simpa using h), ih hx.2 (k + 1), ?_⟩
      intro a ha b hb
      rw [List.mem_map] at ha
      obtain ⟨d, _, rfl⟩ := ha
      rintro rfl
      exact hx.1 ((mem_combinations.mp hb).1.subset (List.mem_cons_self ..))

/-- the name given by a choice of virtual positions -/
def nameOf (n : ℕ) (c : List ℕ) : Name := (List.range n).map fun k => if k ∈ c then 'v' else 'o'

theorem nameOf_inj {n : ℕ} {c d : List ℕ} (hc : c.Sublist (List.range n)) (hd : d.Sublist (List.range n))
    (h : nameOf n c = nameOf n d) : c = d := by
  have hmem : ∀ k < n, k ∈ c ↔ k ∈ d := by
    intro k hk
    have := congrArg (fun l : Name => l[k]?) h
    simp only [nameOf, List.getElem?_map, List.getElem?_range hk, Option.map_some, Option.some.injEq] at this
    by_cases h1 : k ∈ c <;> by_cases h2 : k ∈ d <;> simp [h1, h2] at this ⊢
  have sorted : ∀ {c : List ℕ}, c.Sublist (List.range n) → c.Pairwise (· < ·) :=
    fun h => List.Pairwise.sublist h List.pairwise_lt_range
  refine List.Perm.eq_of_pairwise (le := (· < ·)) ?_ (sorted hc) (sorted hd) ?_
  · intro a b _ _ h1 h2; omega
  · refine (List.perm_ext_iff_of_nodup ?_ ?_).mpr ?_
    · exact List.nodup_range.sublist hc
    · exact List.nodup_range.sublist hd
    · intro k
      constructor
      · intro h; exact (hmem k (List.mem_range.mp (hc.subset h))).mp h
      · intro h; exact (hmem k (List.mem_range.mp (hd.subset h))).mpr h

theorem nodup_blockNames (order : ℕ) : (blockNames order).Nodup := by
  unfold blockNames
  rw [List.nodup_flatMap]
  constructor
  · intro i _
    refine List.Nodup.map_on ?_ (nodup_combinations List.nodup_range i)
    intro c hc d hd h
    exact nameOf_inj (mem_combinations.mp hc).1 (mem_combinations.mp hd).1 h
  · refine List.Pairwise.imp (R := fun i j => i ≠ j) ?_ (List.nodup_iff_pairwise_ne.mp List.nodup_range)
    intro i j hij x hx hy
    rw [List.mem_map] at hx hy
    obtain ⟨c, hc, rfl⟩ := hx
    obtain ⟨d, hd, h⟩ := hy
    have := nameOf_inj (mem_combinations.mp hd).1 (mem_combinations.mp hc).1 h
    subst this
    exact hij ((mem_combinations.mp hc).2.symm.trans (mem_combinations.mp hd).2)

theorem mem_blockNames {order : ℕ} {attr : Name} : attr ∈ blockNames order ↔ IsKinds (2 * order) attr := by
  unfold blockNames
  simp only [List.mem_flatMap, List.mem_range, List.mem_map]
  constructor
  · rintro ⟨i, hi, c, hc, rfl⟩
    refine ⟨by simp, ?_⟩
    intro x hx
    rw [List.mem_map] at hx
    obtain ⟨k, _, rfl⟩ := hx
    by_cases h : k ∈ c
    · right; simp [h]
    · left; simp [h]
  · rintro ⟨hlen, hk⟩
    let c := (List.range (2 * order)).filter fun k => attr[k]? = some 'v'
    have hs : c.Sublist (List.range (2 * order)) := List.filter_sublist
    refine ⟨c.length, ?_, c, mem_combinations.mpr ⟨hs, rfl⟩, ?_⟩
    · have := hs.length_le
      simp only [List.length_range] at this
      omega
    · refine List.ext_getElem? ?_
      intro k
      rw [List.getElem?_map]
      by_cases h : k < 2 * order
      · rw [List.getElem?_range h, Option.map_some, List.getElem?_eq_getElem (by omega)]
        have hmem : k ∈ c ↔ attr[k] = 'v' := by
          simp only [c, List.mem_filter, List.mem_range, h, true_and, decide_eq_true_eq]
          rw [List.getElem?_eq_getElem (by omega)]
          simp
        rcases hk attr[k] (List.getElem_mem _) with h' | h'
        · rw [if_neg (by rw [hmem, h']; decide), h']
        · rw [if_pos (hmem.mpr h'), h']
      · rw [List.getElem?_eq_none (by simpa using h), List.getElem?_eq_none (by omega)]
        rfl

/-- occupied count by spin letter -/
def occ (s : Orbitals) (c : Char) : ℕ := if c = 'a' then s.noa else s.nob

theorem sliceShape_eq (s : Orbitals) (ha : s.noa ≤ s.norb) (hb : s.nob ≤ s.norb) :
    ∀ (spins attr : List Char), spins.length = attr.length →
    sliceShape (List.zipWith (sliceTable s) spins attr) (List.replicate attr.length s.norb) =
      some (blockShape (occ s) s.norb spins attr)
  | [], [], _ => rfl
  | c :: cs, k :: ks, h => by
    have ih := sliceShape_eq s ha hb cs ks (by simpa using h)
    simp only [List.zipWith_cons_cons, List.length_cons, List.replicate_succ, sliceShape, blockShape] at ih ⊢
    rw [ih]
    simp only [Option.map_some, Option.some.injEq, List.cons.injEq, and_true]
    unfold sliceTable kindSize occ
    by_cases h1 : k = 'o' <;> by_cases h2 : c = 'a' <;> simp [h1, h2] <;> omega

theorem sliceIndex_eq (s : Orbitals) (ha : s.noa ≤ s.norb) (hb : s.nob ≤ s.norb) :
    ∀ (spins attr : List Char) (idx : List ℕ), spins.length = attr.length → idx.length = attr.length →
    sliceIndex (List.zipWith (sliceTable s) spins attr) (List.replicate attr.length s.norb) idx =
      blockOrbitals (occ s) spins attr idx
  | [], [], [], _, _ => rfl
  | c :: cs, k :: ks, i :: is, h, h' => by
    have ih := sliceIndex_eq s ha hb cs ks is (by simpa using h) (by simpa using h')
    simp only [List.zipWith_cons_cons, List.length_cons, List.replicate_succ, sliceIndex, blockOrbitals,
      List.zip_cons_cons] at ih ⊢
    rw [ih]
    simp only [List.cons.injEq, and_true]
    unfold sliceTable kindOrbital occ
    by_cases h1 : k = 'o' <;> by_cases h2 : c = 'a' <;> simp [h1, h2] <;> omega

theorem mapM_some {A B : Type*} (f : A → Option B) : ∀ (l : List A), (∀ x ∈ l, (f x).isSome = true) →
    ∃ r, l.mapM f = some r
  | [], _ => ⟨[], rfl⟩
  | x :: xs, h => by
    obtain ⟨y, hy⟩ := Option.isSome_iff_exists.mp (h x (List.mem_cons_self ..))
    obtain ⟨r, hr⟩ := mapM_some f xs fun z hz => h z (List.mem_cons_of_mem _ hz)
    exact ⟨y :: r, by simp [List.mapM_cons, hy, hr]⟩

theorem mapM_mem {A B : Type*} (f : A → Option B) : ∀ {l : List A} {r b}, l.mapM f = some r → b ∈ r →
    ∃ x ∈ l, f x = some b
  | [], r, b, h, hb => by cases (Option.some.inj h); simp at hb
  | x :: xs, r, b, h, hb => by
    rw [List.mapM_cons] at h
    match hg : f x with
    | none => simp [hg] at h
    | some y =>
      simp only [hg, Option.bind_eq_bind, Option.bind_some, Option.pure_def, Option.bind_eq_some_iff] at h
      obtain ⟨r', h1, h2⟩ := h
      cases Option.some.inj h2
      rcases List.mem_cons.mp hb with rfl | hb
      · exact ⟨x, List.mem_cons_self .., hg⟩
      · obtain ⟨z, hz, e⟩ := mapM_mem f h1 hb
        exact ⟨z, List.mem_cons_of_mem _ hz, e⟩

theorem mapM_keys {A B : Type*} (key : A → Name) (g : A → Option B) : ∀ {l : List A} {r},
    l.mapM (fun x => (g x).map fun b => (key x, b)) = some r → r.map Prod.fst = l.map key
  | [], r, h => by cases (Option.some.inj h); rfl
  | x :: xs, r, h => by
    rw [List.mapM_cons] at h
    match hg : g x with
    | none => simp [hg] at h
    | some y =>
      simp only [hg, Option.map_some, Option.bind_eq_bind, Option.bind_some, Option.pure_def,
        Option.bind_eq_some_iff] at h
      obtain ⟨r', h1, h2⟩ := h
      cases Option.some.inj h2
      simp [mapM_keys key g h1]

theorem mapM_lookup {A B : Type*} (key : A → Name) (g : A → Option B) : ∀ {l : List A} {r},
    l.mapM (fun x => (g x).map fun b => (key x, b)) = some r → (∀ x ∈ l, ∀ y ∈ l, key x = key y → x = y) →
    ∀ x ∈ l, r.lookup (key x) = g x
  | [], _, _, _, x, hx => by simp at hx
  | a :: as, r, h, hinj, x, hx => by
    rw [List.mapM_cons] at h
    match hg : g a with
    | none => simp [hg] at h
    | some y =>
      simp only [hg, Option.map_some, Option.bind_eq_bind, Option.bind_some, Option.pure_def,
        Option.bind_eq_some_iff] at h
      obtain ⟨r', h1, h2⟩ := h
      cases Option.some.inj h2
      rw [List.lookup_cons]
      by_cases hk : key x = key a
      · have : x = a := hinj x hx a (List.mem_cons_self ..) hk
        subst this
        simp [hg]
      · rw [show (key x == key a) = false from by simpa using hk]
        have hx' : x ∈ as := (List.mem_cons.mp hx).resolve_left fun e => hk (e ▸ rfl)
        exact mapM_lookup key g h1 (fun x hx y hy => hinj x (List.mem_cons_of_mem _ hx) y
          (List.mem_cons_of_mem _ hy)) x hx'

/-- the value stored under a block name -/
def blockValue (s : Orbitals) (name : Name) (m : Option (Tensor K)) (attr : Name) :
    Option (Option (Tensor K)) :=
  match m with
  | none => some none
  | some m => (m.slice (List.zipWith (sliceTable s) (name ++ name) attr)).map some

theorem sortedIntegral_eq (s : Orbitals) (name : Name) (m : Option (Tensor K)) :
    sortedIntegral s name m =
      (blockNames name.length).mapM fun attr => (blockValue s name m attr).map fun b => (attr, b) := by
  unfold sortedIntegral
  congr 1
  funext attr
  unfold blockValue
  match m with
  | none => rfl
  | some m =>
    show _ = ((m.slice _).map some).map _
    rw [Option.map_map]; rfl

theorem blockValue_eq (s : Orbitals) (ha : s.noa ≤ s.norb) (hb : s.nob ≤ s.norb) {name : Name}
    {m : Tensor K} (hm : m.shape = List.replicate (2 * name.length) s.norb) {attr : Name}
    (hattr : IsKinds (2 * name.length) attr) :
    ∃ t, blockValue s name (some m) attr = some (some t) ∧
      t.shape = blockShape (occ s) s.norb (name ++ name) attr ∧
      ∀ idx, idx.length = attr.length → t.entry idx = m.entry (blockOrbitals (occ s) (name ++ name) attr idx) := by
  have hlen : (name ++ name).length = attr.length := by rw [hattr.1, List.length_append]; omega
  have h1 := sliceShape_eq s ha hb (name ++ name) attr hlen
  rw [hattr.1, ← hm] at h1
  refine ⟨⟨blockShape (occ s) s.norb (name ++ name) attr, fun idx =>
    m.entry (sliceIndex (List.zipWith (sliceTable s) (name ++ name) attr) m.shape idx)⟩, ?_, rfl, ?_⟩
  · unfold blockValue Tensor.slice
    simp only [h1]
    rfl
  · intro idx hi
    have h2 := sliceIndex_eq s ha hb (name ++ name) attr idx hlen hi
    rw [hattr.1, ← hm] at h2
    show m.entry _ = _
    rw [h2]

/-- the element of the block decomposition that holds a given index -/
def kindsOf (s : Orbitals) (spins : List Char) (full : List ℕ) : Name :=
  List.zipWith (fun c p => if p < occ s c then 'o' else 'v') spins full

def localOf (s : Orbitals) (spins : List Char) (full : List ℕ) : List ℕ :=
  List.zipWith (fun c p => if p < occ s c then p else p - occ s c) spins full

theorem decompose (s : Orbitals) (ha : s.noa ≤ s.norb) (hb : s.nob ≤ s.norb) :
    ∀ (spins : List Char) (full : List ℕ), WithinShape (List.replicate spins.length s.norb) full →
    IsKinds spins.length (kindsOf s spins full) ∧
      WithinShape (blockShape (occ s) s.norb spins (kindsOf s spins full)) (localOf s spins full) ∧
      blockOrbitals (occ s) spins (kindsOf s spins full) (localOf s spins full) = full ∧
      ∀ attr idx, IsKinds spins.length attr → WithinShape (blockShape (occ s) s.norb spins attr) idx →
        blockOrbitals (occ s) spins attr idx = full → attr = kindsOf s spins full ∧ idx = localOf s spins full
  | [], full, h => by
    cases h
    refine ⟨⟨rfl, by simp [kindsOf]⟩, .nil, rfl, ?_⟩
    intro attr idx h1 h2 h3
    have : attr = [] := List.length_eq_zero_iff.mp h1.1
    subst this
    cases h2
    exact ⟨rfl, rfl⟩
  | c :: cs, full, h => by
    match full, h with
    | p :: ps, h =>
      have hp : p < s.norb := (List.forall₂_cons.mp h).1
      have hocc : occ s c ≤ s.norb := by unfold occ; split <;> assumption
      obtain ⟨i1, i2, i3, i4⟩ := decompose s ha hb cs ps (List.forall₂_cons.mp h).2
      refine ⟨⟨by simpa [kindsOf] using i1.1, ?_⟩, ?_, ?_, ?_⟩
      · intro x hx
        rcases List.mem_cons.mp hx with rfl | hx
        · by_cases hlt : p < occ s c
          · left; simp [hlt]
          · right; simp [hlt]
        · exact i1.2 x hx
      · refine List.forall₂_cons.mpr ⟨?_, i2⟩
        unfold kindSize
        by_cases hlt : p < occ s c
        · simp [hlt]
        · simp [hlt]; omega
      · show kindOrbital _ _ _ :: blockOrbitals (occ s) cs (kindsOf s cs ps) (localOf s cs ps) = _
        rw [i3]
        congr 1
        unfold kindOrbital
        by_cases hlt : p < occ s c
        · simp [hlt]
        · simp [hlt]; omega
      · intro attr idx h1 h2 h3
        match attr, idx, h1, h2, h3 with
        | k :: ks, i :: is, h1, h2, h3 =>
          obtain ⟨h2a, h2b⟩ := List.forall₂_cons.mp h2
          have h3' : kindOrbital (occ s c) k i :: blockOrbitals (occ s) cs ks is = p :: ps := h3
          obtain ⟨e1, e2⟩ := List.cons.inj h3'
          obtain ⟨r1, r2⟩ := i4 ks is ⟨by simpa using h1.1, fun x hx => h1.2 x (List.mem_cons_of_mem _ hx)⟩
            h2b e2
          show k :: ks = (if p < occ s c then 'o' else 'v') :: kindsOf s cs ps ∧
            i :: is = (if p < occ s c then p else p - occ s c) :: localOf s cs ps
          rw [← r1, ← r2]
          simp only [List.cons.injEq, and_true]
          unfold kindSize at h2a
          unfold kindOrbital at e1
          rcases h1.2 k (List.mem_cons_self ..) with rfl | rfl
          · simp only [if_true] at h2a e1
            subst e1
            simp [h2a]
          · simp only [show ('v' : Char) ≠ 'o' by decide, if_false] at h2a e1
            have : ¬ p < occ s c := by omega
            simp [this]; omega
        | [], _, h1, _, _ => simp [IsKinds] at h1
        | _ :: _, [], _, h2, _ => simp [WithinShape, blockShape] at h2

theorem sum_lowest [Field K] (na nb : ℕ) (f : ℕ × Bool → K) :
    ∑ x ∈ lowestOrbitals na nb, f x =
      ∑ i ∈ Finset.range na, f (i, false) + ∑ i ∈ Finset.range nb, f (i, true) := by
  unfold lowestOrbitals
  rw [Finset.sum_union]
  · simp [Finset.sum_product]
  · rw [Finset.disjoint_left]
    rintro ⟨i, b⟩ h1 h2
    simp only [Finset.mem_product, Finset.mem_singleton] at h1 h2
    rw [h1.2] at h2
    exact Bool.noConfusion h2.2

theorem integral_ok (s : Orbitals) (ha : s.noa ≤ s.norb) (hb : s.nob ≤ s.norb) (f : OneBody K)
    [Field K] (v : TwoBody K) :
    ∃ H, integral s 2 (matrices s f v) = some H ∧ ∀ name ∈ [['a'], ['b'], ['a', 'a'], ['a', 'b'], ['b', 'b']],
      ∀ attr, IsKinds (2 * name.length) attr → ∃ m t, matrices s f v name = some m ∧
        H.block name attr = some t ∧ t.shape = blockShape (occ s) s.norb (name ++ name) attr ∧
        ∀ idx, idx.length = attr.length →
          t.entry idx = m.entry (blockOrbitals (occ s) (name ++ name) attr idx) := by
  have hnames : (spinCases 2).map Prod.snd = [['a'], ['b'], ['a', 'a'], ['a', 'b'], ['b', 'b']] := by decide
  have hinj : ∀ x ∈ spinCases 2, ∀ y ∈ spinCases 2, x.2 = y.2 → x = y := by decide
  have hmat : ∀ name ∈ (spinCases 2).map Prod.snd, ∃ m, matrices s f v name = some m ∧
      m.shape = List.replicate (2 * name.length) s.norb := by
    rw [hnames]
    intro name h
    simp only [List.mem_cons, List.not_mem_nil, or_false] at h
    rcases h with rfl | rfl | rfl | rfl | rfl
    all_goals exact ⟨_, rfl, rfl⟩
  have hsorted : ∀ name ∈ (spinCases 2).map Prod.snd, ∃ b, sortedIntegral s name (matrices s f v name) = some b := by
    intro name h
    obtain ⟨m, h1, h2⟩ := hmat name h
    rw [sortedIntegral_eq]
    refine mapM_some _ _ ?_
    intro attr hattr
    obtain ⟨t, ht, _⟩ := blockValue_eq s ha hb h2 (mem_blockNames.mp hattr)
    rw [h1, ht]; rfl
  obtain ⟨H, hH⟩ := mapM_some (fun e : ℕ × Name => (sortedIntegral s e.2 (matrices s f v e.2)).map
    fun b => (e.2, b)) (spinCases 2) (by
      intro x hx
      obtain ⟨b, hb⟩ := hsorted x.2 (List.mem_map_of_mem hx)
      rw [hb]; rfl)
  refine ⟨H, hH, ?_⟩
  intro name hname attr hattr
  rw [← hnames] at hname
  obtain ⟨e, he, rfl⟩ := List.mem_map.mp hname
  obtain ⟨m, h1, h2⟩ := hmat _ hname
  obtain ⟨b, hb'⟩ := hsorted _ hname
  obtain ⟨t, ht, hs, hent⟩ := blockValue_eq s ha hb h2 hattr
  refine ⟨m, t, h1, ?_, hs, hent⟩
  have hl : H.lookup e.2 = some b := by
    rw [← hb']
    exact mapM_lookup (fun e : ℕ × Name => e.2) (fun e => sortedIntegral s e.2 (matrices s f v e.2)) hH hinj e he
  unfold Integral.block
  rw [hl]
  show (b.lookup attr).bind id = some t
  rw [sortedIntegral_eq] at hb'
  have := mapM_lookup (fun a : Name => a) (blockValue s e.2 (matrices s f v e.2)) hb'
    (fun _ _ _ _ h => h) attr (mem_blockNames.mpr hattr)
  rw [this, h1, ht]
  rfl

end Ccpy.Integrals
