import Verif.Model.CipsiReader
import Verif.Lemmas.ExternalCorrection
import Verif.Spec.CipsiReader
import Verif.Props.Symmetry

/-! Helper lemmas for the CIPSI reader. -/

namespace Ccpy.CipsiReader
open Ccpy.Determinants Ccpy.Excitations Ccpy.ExternalCorrection Ccpy.Spec

theorem zip_replicate (σ : Spin) : ∀ (a : ℕ) (xs : List ℕ), xs.length = a →
    (List.replicate a σ).zip xs = xs.map (fun x => (σ, x))
  | _, [], h => by simp
  | 0, _ :: _, h => by simp at h
  | a + 1, x :: xs, h => by
      simp only [List.replicate_succ, List.zip_cons_cons, List.map_cons]
      rw [zip_replicate σ a xs (by simpa using h)]

theorem zip_two (a b : ℕ) (xA xB : List ℕ) (hA : xA.length = a) (hB : xB.length = b) :
    (List.replicate a Spin.α ++ List.replicate b Spin.β).zip (xA ++ xB) =
      xA.map (fun x => (Spin.α, x)) ++ xB.map (fun x => (Spin.β, x)) := by
  rw [List.zip_append (by simp [hA]), zip_replicate _ a xA hA, zip_replicate _ b xB hB]

theorem ordered_split (n : Spin → ℕ) (a b : ℕ) (xs : List ℕ) :
    OrderedIndices n (List.replicate a Spin.α ++ List.replicate b Spin.β) xs ↔
      ∃ xA xB, xs = xA ++ xB ∧ xA.length = a ∧ xB.length = b ∧ xA.Pairwise (· < ·) ∧
        xB.Pairwise (· < ·) ∧ (∀ x ∈ xA, x < n .α) ∧ (∀ x ∈ xB, x < n .β) := by
  constructor
  · rintro ⟨h1, h2, h3⟩
    have hl : xs.length = a + b := by simpa using h1
    have hA : (xs.take a).length = a := by simp [hl]
    have hB : (xs.drop a).length = b := by simp [hl]
    rw [← List.take_append_drop a xs, zip_two a b _ _ hA hB] at h2 h3
    refine ⟨xs.take a, xs.drop a, (List.take_append_drop a xs).symm, hA, hB, ?_, ?_, ?_, ?_⟩
    · have := (List.pairwise_append.mp h3).1
      rw [List.pairwise_map] at this
      exact this.imp (fun h => h rfl)
    · have := (List.pairwise_append.mp h3).2.1
      rw [List.pairwise_map] at this
      exact this.imp (fun h => h rfl)
    · intro x hx
      exact h2 (.α, x) (List.mem_append_left _ (List.mem_map.mpr ⟨x, hx, rfl⟩))
    · intro x hx
      exact h2 (.β, x) (List.mem_append_right _ (List.mem_map.mpr ⟨x, hx, rfl⟩))
  · rintro ⟨xA, xB, rfl, hA, hB, pA, pB, bA, bB⟩
    refine ⟨by simp [hA, hB], ?_, ?_⟩
    · rw [zip_two a b _ _ hA hB]
      intro q hq
      rcases List.mem_append.mp hq with h | h <;> obtain ⟨x, hx, rfl⟩ := List.mem_map.mp h
      · exact bA x hx
      · exact bB x hx
    · rw [zip_two a b _ _ hA hB, List.pairwise_append]
      refine ⟨?_, ?_, ?_⟩
      · rw [List.pairwise_map]; refine pA.imp ?_; intro a b h _; exact h
      · rw [List.pairwise_map]; refine pB.imp ?_; intro a b h _; exact h
      · intro p hp q hq
        obtain ⟨x, _, rfl⟩ := List.mem_map.mp hp
        obtain ⟨y, _, rfl⟩ := List.mem_map.mp hq
        intro h; simp at h

theorem sorted_unique {l l' : List ℕ} (h1 : l.Pairwise (· < ·)) (h2 : l'.Pairwise (· < ·))
    (h : ∀ x, x ∈ l ↔ x ∈ l') : l = l' := by
  have hp : l.Perm l' := (List.perm_ext_iff_of_nodup (h1.imp (fun h => ne_of_lt h))
    (h2.imp (fun h => ne_of_lt h))).mpr h
  exact hp.eq_of_pairwise (le := (· < ·)) (fun _ _ _ _ h h' => absurd h' (lt_asymm h)) h1 h2

theorem alphaSorted_of {s : Finset ℕ} {l : List ℕ} (h : l.Pairwise (· < ·))
    (hm : ∀ x, x ∈ l ↔ x ∈ s ∧ x % 2 = 1) : alphaSorted s = l :=
  sorted_unique (by rw [alphaSorted_eq]; exact sort_pairwise _) h
    (fun x => by rw [mem_alphaSorted, hm])

theorem betaSorted_of {s : Finset ℕ} {l : List ℕ} (h : l.Pairwise (· < ·))
    (hm : ∀ x, x ∈ l ↔ x ∈ s ∧ x % 2 = 0) : betaSorted s = l :=
  sorted_unique (by rw [betaSorted_eq]; exact sort_pairwise _) h
    (fun x => by rw [mem_betaSorted, hm])

theorem spincase_of {f t : Finset ℕ} (hA : (alphaSorted f).length = (alphaSorted t).length)
    (hB : (betaSorted f).length = (betaSorted t).length) :
    getSpincase (fsort f) (fsort t) = some
      (List.replicate (alphaSorted f).length 'a' ++ List.replicate (betaSorted f).length 'b') := by
  have hf := alpha_add_beta_length f
  have ht := alpha_add_beta_length t
  unfold getSpincase
  rw [fsort_eq, fsort_eq, ← alphaSorted_length, ← alphaSorted_length]
  simp only [Finset.length_sort]
  rw [if_pos (by omega), if_pos hA]
  congr 3
  omega

theorem mem_reference (s : Sys) (x : ℕ) :
    x ∈ reference s.space ↔ (x % 2 = 1 ∧ x < 2 * s.noa) ∨ (x % 2 = 0 ∧ 1 ≤ x ∧ x ≤ 2 * s.nob) := by
  simp only [reference, Finset.mem_union, Finset.mem_image, Finset.mem_range, Sys.space, spinOrbital]
  constructor
  · rintro (⟨i, hi, rfl⟩ | ⟨i, hi, rfl⟩)
    · left; omega
    · right; omega
  · rintro (⟨h1, h2⟩ | ⟨h1, h2, h3⟩)
    · left; exact ⟨x / 2, by omega, by omega⟩
    · right; exact ⟨x / 2 - 1, by omega, by omega⟩

theorem hfDet_eq_reference (s : Sys) : (hfDet s.noa s.nob).toFinset = reference s.space := by
  ext x; rw [List.mem_toFinset, mem_hfDet, mem_reference]

/-- Split particle and hole lists of one excitation. -/
structure Parts (s : Sys) where
  pA : List ℕ
  pB : List ℕ
  hA : List ℕ
  hB : List ℕ
  pAs : pA.Pairwise (· < ·)
  pBs : pB.Pairwise (· < ·)
  hAs : hA.Pairwise (· < ·)
  hBs : hB.Pairwise (· < ·)
  pAb : ∀ x ∈ pA, x < s.nua
  pBb : ∀ x ∈ pB, x < s.nub
  hAb : ∀ x ∈ hA, x < s.noa
  hBb : ∀ x ∈ hB, x < s.nob
  lenA : pA.length = hA.length
  lenB : pB.length = hB.length
  len : hA.length + hB.length = 3

/-- The spin-orbitals of the particles. -/
def Parts.up {s : Sys} (P : Parts s) : Finset ℕ :=
  (P.pA.map (fun p => 2 * (p + s.noa) + 1) ++ P.pB.map (fun p => 2 * (p + s.nob) + 2)).toFinset

/-- The spin-orbitals of the holes. -/
def Parts.down {s : Sys} (P : Parts s) : Finset ℕ :=
  (P.hA.map (fun p => 2 * p + 1) ++ P.hB.map (fun p => 2 * p + 2)).toFinset

theorem excited_parts {s : Sys} (P : Parts s) (a b : ℕ) (ha : P.hA.length = a)
    (hb : P.hB.length = b) :
    excitedDeterminant s.space (List.replicate a .α ++ List.replicate b .β)
      (List.replicate a .α ++ List.replicate b .β) (P.pA ++ P.pB) (P.hA ++ P.hB) =
      (reference s.space \ P.down) ∪ P.up := by
  unfold excitedDeterminant
  rw [zip_two a b P.pA P.pB (by rw [P.lenA, ha]) (by rw [P.lenB, hb]), zip_two a b P.hA P.hB ha hb]
  simp only [List.map_append, List.map_map, Parts.up, Parts.down]
  rfl

theorem down_subset {s : Sys} (P : Parts s) : P.down ⊆ reference s.space := by
  intro x hx
  rw [mem_reference]
  simp only [Parts.down, List.mem_toFinset, List.mem_append, List.mem_map] at hx
  rcases hx with ⟨p, hp, rfl⟩ | ⟨p, hp, rfl⟩
  · left; have := P.hAb p hp; omega
  · right; have := P.hBb p hp; omega

theorem up_disjoint {s : Sys} (P : Parts s) : ∀ x ∈ P.up, x ∉ reference s.space := by
  intro x hx
  rw [mem_reference]
  simp only [Parts.up, List.mem_toFinset, List.mem_append, List.mem_map] at hx
  rcases hx with ⟨p, hp, rfl⟩ | ⟨p, hp, rfl⟩ <;> omega

theorem alpha_up {s : Sys} (P : Parts s) :
    alphaSorted P.up = P.pA.map (fun p => 2 * (p + s.noa) + 1) := by
  refine alphaSorted_of ?_ ?_
  · rw [List.pairwise_map]; exact P.pAs.imp (fun h => by omega)
  · intro x
    simp only [Parts.up, List.mem_toFinset, List.mem_append, List.mem_map]
    constructor
    · rintro ⟨p, hp, rfl⟩; exact ⟨Or.inl ⟨p, hp, rfl⟩, by omega⟩
    · rintro ⟨h | ⟨p, hp, rfl⟩, h2⟩
      · exact h
      · omega

theorem beta_up {s : Sys} (P : Parts s) :
    betaSorted P.up = P.pB.map (fun p => 2 * (p + s.nob) + 2) := by
  refine betaSorted_of ?_ ?_
  · rw [List.pairwise_map]; exact P.pBs.imp (fun h => by omega)
  · intro x
    simp only [Parts.up, List.mem_toFinset, List.mem_append, List.mem_map]
    constructor
    · rintro ⟨p, hp, rfl⟩; exact ⟨Or.inr ⟨p, hp, rfl⟩, by omega⟩
    · rintro ⟨⟨p, hp, rfl⟩ | h, h2⟩
      · omega
      · exact h

theorem alpha_down {s : Sys} (P : Parts s) :
    alphaSorted P.down = P.hA.map (fun p => 2 * p + 1) := by
  refine alphaSorted_of ?_ ?_
  · rw [List.pairwise_map]; exact P.hAs.imp (fun h => by omega)
  · intro x
    simp only [Parts.down, List.mem_toFinset, List.mem_append, List.mem_map]
    constructor
    · rintro ⟨p, hp, rfl⟩; exact ⟨Or.inl ⟨p, hp, rfl⟩, by omega⟩
    · rintro ⟨h | ⟨p, hp, rfl⟩, h2⟩
      · exact h
      · omega

theorem beta_down {s : Sys} (P : Parts s) :
    betaSorted P.down = P.hB.map (fun p => 2 * p + 2) := by
  refine betaSorted_of ?_ ?_
  · rw [List.pairwise_map]; exact P.hBs.imp (fun h => by omega)
  · intro x
    simp only [Parts.down, List.mem_toFinset, List.mem_append, List.mem_map]
    constructor
    · rintro ⟨p, hp, rfl⟩; exact ⟨Or.inr ⟨p, hp, rfl⟩, by omega⟩
    · rintro ⟨⟨p, hp, rfl⟩ | h, h2⟩
      · omega
      · exact h

theorem spatial_odd (p : ℕ) : spatialOrbIdx (2 * p + 1) = p + 1 := by
  unfold spatialOrbIdx; rw [if_pos (by omega)]; omega

theorem spatial_even (p : ℕ) : spatialOrbIdx (2 * p + 2) = p + 1 := by
  unfold spatialOrbIdx; rw [if_neg (by omega)]; omega

theorem zipWith_replicate_sub (n : ℤ) (k : ℕ) : ∀ (c : ℕ) (xs : List ℕ), xs.length = c →
    List.zipWith (fun x s : ℤ => x - s) (xs.map fun x => ((x + k + 1 : ℕ) : ℤ))
      (List.replicate c n) = xs.map (fun x => ((x + k + 1 : ℕ) : ℤ) - n)
  | _, [], _ => by simp
  | 0, _ :: _, h => by simp at h
  | c + 1, x :: xs, h => by
      simp only [List.map_cons, List.replicate_succ, List.zipWith_cons_cons]
      rw [zipWith_replicate_sub n k c xs (by simpa using h)]

/-- Reading the determinant of an excitation. -/
theorem line_parts {s : Sys} (h : ℕ) (hab : s.nob ≤ s.noa) (hn : s.noa ≤ s.norb) (P : Parts s)
    (det : List ℕ) (hd : det.toFinset = (reference s.space \ P.down) ∪ P.up) :
    cipsiLine s h det =
      match caseOf (List.replicate P.hA.length 'a' ++ List.replicate P.hB.length 'b') with
      | none => .raise .indexError
      | some c => record s h c ((P.pA ++ P.pB).map (· + 1)) ((P.hA ++ P.hB).map (· + 1)) := by
  have ho : getExcitsFrom det (hfDet s.noa s.nob) = P.down := by
    unfold getExcitsFrom
    rw [hfDet_eq_reference, hd]
    ext x
    have h1 := @down_subset s P x
    have h2 := up_disjoint P x
    simp only [Finset.mem_sdiff, Finset.mem_union]
    tauto
  have hu : getExcitsTo det (hfDet s.noa s.nob) = P.up := by
    unfold getExcitsTo
    rw [hfDet_eq_reference, hd]
    ext x
    have h1 := @down_subset s P x
    have h2 := up_disjoint P x
    simp only [Finset.mem_sdiff, Finset.mem_union]
    tauto
  have hr : getExcitRank det (hfDet s.noa s.nob) = 3 := by
    show (getExcitsTo det (hfDet s.noa s.nob)).card = 3
    rw [hu, ← alpha_add_beta_length, alpha_up, beta_up]
    simp [P.lenA, P.lenB, P.len]
  unfold cipsiLine
  simp only
  rw [if_neg (by rw [hr]; simp), ho, hu, spincase_of (by rw [alpha_up, alpha_down]; simp [P.lenA])
    (by rw [beta_up, beta_down]; simp [P.lenB])]
  simp only [alpha_up, beta_up, alpha_down, beta_down, List.length_map, List.map_append,
    List.map_replicate]
  have e1 : (P.hA.map (fun p => 2 * p + 1)).map (fun x => (spatialOrbIdx x : ℤ)) =
      P.hA.map (fun p => ((p + 1 : ℕ) : ℤ)) := by
    rw [List.map_map]; exact List.map_congr_left (fun p _ => by simp [spatial_odd])
  have e2 : (P.hB.map (fun p => 2 * p + 2)).map (fun x => (spatialOrbIdx x : ℤ)) =
      P.hB.map (fun p => ((p + 1 : ℕ) : ℤ)) := by
    rw [List.map_map]; exact List.map_congr_left (fun p _ => by simp [spatial_even])
  have e3 : (P.pA.map (fun p => 2 * (p + s.noa) + 1)).map (fun x => (spatialOrbIdx x : ℤ)) =
      P.pA.map (fun p => ((p + s.noa + 1 : ℕ) : ℤ)) := by
    rw [List.map_map]; exact List.map_congr_left (fun p _ => by simp [spatial_odd])
  have e4 : (P.pB.map (fun p => 2 * (p + s.nob) + 2)).map (fun x => (spatialOrbIdx x : ℤ)) =
      P.pB.map (fun p => ((p + s.nob + 1 : ℕ) : ℤ)) := by
    rw [List.map_map]; exact List.map_congr_left (fun p _ => by simp [spatial_even])
  rw [e1, e2, e3, e4]
  have hsa : orbTable s.noa s.nob 'a' = s.noa := rfl
  have hsb : orbTable s.noa s.nob 'b' = s.nob := rfl
  have e5 : List.zipWith (fun x s : ℤ => x - s)
      (P.pA.map (fun p => ((p + s.noa + 1 : ℕ) : ℤ)) ++ P.pB.map (fun p => ((p + s.nob + 1 : ℕ) : ℤ)))
      (List.replicate P.hA.length (orbTable s.noa s.nob 'a') ++
        List.replicate P.hB.length (orbTable s.noa s.nob 'b')) =
      (P.pA ++ P.pB).map (fun p => ((p + 1 : ℕ) : ℤ)) := by
    rw [List.zipWith_append (by simp [P.lenA]), hsa, hsb, zipWith_replicate_sub _ _ _ _ P.lenA,
      zipWith_replicate_sub _ _ _ _ P.lenB, List.map_append]
    congr 1 <;> exact List.map_congr_left (fun p _ => by push_cast; omega)
  rw [e5, ← List.map_append]
  have hnub : s.nua ≤ s.nub := by unfold Sys.nua Sys.nub; omega
  rw [if_neg, if_neg]
  · have ht : (Int.toNat ∘ fun p : ℕ => ((p + 1 : ℕ) : ℤ)) = (· + 1) := by
      funext p; simp only [Function.comp, Int.toNat_natCast]
    simp only [List.map_append, List.map_map, ht]
    cases caseOf (List.replicate P.hA.length 'a' ++ List.replicate P.hB.length 'b') <;> rfl
  · simp only [Bool.or_eq_true, List.any_eq_true, decide_eq_true_eq, not_or, not_exists, not_and]
    constructor
    · intro x hx
      obtain ⟨p, hp, rfl⟩ := List.mem_map.mp hx
      rcases List.mem_append.mp hp with hp | hp
      · have := P.pAb p hp; push_cast; omega
      · have := P.pBb p hp; push_cast; omega
    · intro x hx
      obtain ⟨p, hp, rfl⟩ := List.mem_map.mp hx
      push_cast; omega
  · simp only [Bool.or_eq_true, List.any_eq_true, decide_eq_true_eq, not_or, not_exists, not_and]
    constructor
    · intro x hx
      obtain ⟨p, hp, rfl⟩ := List.mem_map.mp hx
      rcases List.mem_append.mp hp with hp | hp
      · have := P.hAb p hp; push_cast; omega
      · have := P.hBb p hp; push_cast; omega
    · intro x hx
      obtain ⟨p, hp, rfl⟩ := List.mem_map.mp hx
      push_cast; omega

/-- A set of the right spin counts: holes and particles balance in each spin. -/
theorem balance (R D : Finset ℕ) (r : ℕ)
    (h : (D.filter (fun i => i % 2 = r)).card = (R.filter (fun i => i % 2 = r)).card) :
    ((D \ R).filter (fun i => i % 2 = r)).card = ((R \ D).filter (fun i => i % 2 = r)).card := by
  have e1 := Finset.card_sdiff_add_card_inter (D.filter (fun i => i % 2 = r))
    (R.filter (fun i => i % 2 = r))
  have e2 := Finset.card_sdiff_add_card_inter (R.filter (fun i => i % 2 = r))
    (D.filter (fun i => i % 2 = r))
  rw [Finset.inter_comm] at e2
  have s1 : (R \ D).filter (fun i => i % 2 = r) =
      (R.filter (fun i => i % 2 = r)) \ (D.filter (fun i => i % 2 = r)) := by
    ext x; simp only [Finset.mem_filter, Finset.mem_sdiff]; tauto
  have s2 : (D \ R).filter (fun i => i % 2 = r) =
      (D.filter (fun i => i % 2 = r)) \ (R.filter (fun i => i % 2 = r)) := by
    ext x; simp only [Finset.mem_filter, Finset.mem_sdiff]; tauto
  rw [s1, s2]; omega

theorem reference_alpha (s : Sys) : ((reference s.space).filter (fun i => i % 2 = 1)).card = s.noa := by
  have : (reference s.space).filter (fun i => i % 2 = 1) =
      (Finset.range s.noa).image (fun i => 2 * i + 1) := by
    ext x
    simp only [Finset.mem_filter, mem_reference, Finset.mem_image, Finset.mem_range]
    constructor
    · rintro ⟨h1, h3⟩; exact ⟨x / 2, by omega, by omega⟩
    · rintro ⟨i, hi, rfl⟩; omega
  rw [this, Finset.card_image_of_injective _ (fun a b h => by simpa using h)]; simp

theorem reference_beta (s : Sys) : ((reference s.space).filter (fun i => i % 2 = 0)).card = s.nob := by
  have : (reference s.space).filter (fun i => i % 2 = 0) =
      (Finset.range s.nob).image (fun i => 2 * i + 2) := by
    ext x
    simp only [Finset.mem_filter, mem_reference, Finset.mem_image, Finset.mem_range]
    constructor
    · rintro ⟨h1, h3⟩; exact ⟨x / 2 - 1, by omega, by omega⟩
    · rintro ⟨i, hi, rfl⟩; omega
  rw [this, Finset.card_image_of_injective _ (fun a b h => by simpa using h)]; simp

theorem map_back (l : List ℕ) (f g : ℕ → ℕ) (h : ∀ x ∈ l, g (f x) = x) : (l.map f).map g = l := by
  rw [List.map_map]
  exact (List.map_congr_left (fun x hx => h x hx)).trans (List.map_id _)

theorem pairwise_shift (l : List ℕ) (hl : l.Pairwise (· < ·)) (f : ℕ → ℕ)
    (hf : ∀ x ∈ l, ∀ y ∈ l, x < y → f x < f y) : (l.map f).Pairwise (· < ·) := by
  rw [List.pairwise_map]
  exact hl.imp_of_mem (fun hx hy h => hf _ hx _ hy h)

/-- Every physical determinant of rank three is described by some excitation. -/
theorem exists_parts (s : Sys) (D : Finset ℕ) (hP : Physical s.space s.norb D)
    (hr : (D \ reference s.space).card = 3) :
    ∃ P : Parts s, D = (reference s.space \ P.down) ∪ P.up := by
  have bA := balance (reference s.space) D 1 (by rw [hP.alpha, reference_alpha]; rfl)
  have bB := balance (reference s.space) D 0 (by rw [hP.beta, reference_beta]; rfl)
  have hsum := alpha_add_beta_length (D \ reference s.space)
  have lA : (alphaSorted (D \ reference s.space)).length =
      (alphaSorted (reference s.space \ D)).length := by simpa [alphaSorted_eq] using bA
  have lB : (betaSorted (D \ reference s.space)).length =
      (betaSorted (reference s.space \ D)).length := by simpa [betaSorted_eq] using bB
  have muA : ∀ x ∈ alphaSorted (D \ reference s.space), 2 * s.noa < x ∧ x ≤ 2 * s.norb ∧ x % 2 = 1 := by
    intro x hx
    rw [mem_alphaSorted, Finset.mem_sdiff, mem_reference] at hx
    have := hP.range x hx.1.1
    omega
  have muB : ∀ x ∈ betaSorted (D \ reference s.space), 2 * s.nob + 2 ≤ x ∧ x ≤ 2 * s.norb ∧ x % 2 = 0 := by
    intro x hx
    rw [mem_betaSorted, Finset.mem_sdiff, mem_reference] at hx
    have := hP.range x hx.1.1
    omega
  have mdA : ∀ x ∈ alphaSorted (reference s.space \ D), x < 2 * s.noa ∧ x % 2 = 1 := by
    intro x hx
    rw [mem_alphaSorted, Finset.mem_sdiff, mem_reference] at hx
    omega
  have mdB : ∀ x ∈ betaSorted (reference s.space \ D), 2 ≤ x ∧ x ≤ 2 * s.nob ∧ x % 2 = 0 := by
    intro x hx
    rw [mem_betaSorted, Finset.mem_sdiff, mem_reference] at hx
    omega
  have sA : ∀ F : Finset ℕ, (alphaSorted F).Pairwise (· < ·) :=
    fun F => by rw [alphaSorted_eq]; exact sort_pairwise _
  have sB : ∀ F : Finset ℕ, (betaSorted F).Pairwise (· < ·) :=
    fun F => by rw [betaSorted_eq]; exact sort_pairwise _
  obtain ⟨P, e1, e2, e3, e4⟩ : ∃ P : Parts s,
      P.pA = (alphaSorted (D \ reference s.space)).map (fun x => x / 2 - s.noa) ∧
      P.pB = (betaSorted (D \ reference s.space)).map (fun x => x / 2 - 1 - s.nob) ∧
      P.hA = (alphaSorted (reference s.space \ D)).map (fun x => x / 2) ∧
      P.hB = (betaSorted (reference s.space \ D)).map (fun x => x / 2 - 1) :=
    ⟨{      pA := (alphaSorted (D \ reference s.space)).map (fun x => x / 2 - s.noa)
            pB := (betaSorted (D \ reference s.space)).map (fun x => x / 2 - 1 - s.nob)
            hA := (alphaSorted (reference s.space \ D)).map (fun x => x / 2)
            hB := (betaSorted (reference s.space \ D)).map (fun x => x / 2 - 1)
            pAs := pairwise_shift _ (sA _) _ (fun x hx y hy _ => by
              have := muA x hx; have := muA y hy; omega)
            pBs := pairwise_shift _ (sB _) _ (fun x hx y hy _ => by
              have := muB x hx; have := muB y hy; omega)
            hAs := pairwise_shift _ (sA _) _ (fun x hx y hy _ => by
              have := mdA x hx; have := mdA y hy; omega)
            hBs := pairwise_shift _ (sB _) _ (fun x hx y hy _ => by
              have := mdB x hx; have := mdB y hy; omega)
            pAb := fun x hx => by
              obtain ⟨y, hy, rfl⟩ := List.mem_map.mp hx
              have := muA y hy; unfold Sys.nua; omega
            pBb := fun x hx => by
              obtain ⟨y, hy, rfl⟩ := List.mem_map.mp hx
              have := muB y hy; unfold Sys.nub; omega
            hAb := fun x hx => by
              obtain ⟨y, hy, rfl⟩ := List.mem_map.mp hx
              have := mdA y hy; omega
            hBb := fun x hx => by
              obtain ⟨y, hy, rfl⟩ := List.mem_map.mp hx
              have := mdB y hy; omega
            lenA := by simp [lA]
            lenB := by simp [lB]
            len := by simp only [List.length_map]; omega }, rfl, rfl, rfl, rfl⟩
  have eu : P.up = D \ reference s.space := by
    unfold Parts.up
    rw [e1, e2, map_back _ _ _ (fun x hx => by have := muA x hx; omega),
      map_back _ _ _ (fun x hx => by have := muB x hx; omega), toFinset_alpha_beta]
  have ed : P.down = reference s.space \ D := by
    unfold Parts.down
    rw [e3, e4, map_back _ _ _ (fun x hx => by have := mdA x hx; omega),
      map_back _ _ _ (fun x hx => by have := mdB x hx; omega), toFinset_alpha_beta]
  refine ⟨P, ?_⟩
  rw [eu, ed]
  ext x
  simp only [Finset.mem_union, Finset.mem_sdiff]
  tauto

/-- Number of alpha and beta excitations of a spin case. -/
def split : Case → ℕ × ℕ
  | .aaa => (3, 0)
  | .aab => (2, 1)
  | .abb => (1, 2)
  | .bbb => (0, 3)

theorem spins_split (c : Case) :
    c.spins = List.replicate (split c).1 .α ++ List.replicate (split c).2 .β := by
  cases c <;> rfl

theorem split_sum (c : Case) : (split c).1 + (split c).2 = 3 := by cases c <;> rfl

theorem caseOf_split (c : Case) :
    caseOf (List.replicate (split c).1 'a' ++ List.replicate (split c).2 'b') = some c := by
  cases c <;> rfl

theorem exists_split (a b : ℕ) (h : a + b = 3) : ∃ c, split c = (a, b) := by
  have : a ≤ 3 := by omega
  interval_cases a
  · exact ⟨.bbb, by simp [split]; omega⟩
  · exact ⟨.abb, by simp [split]; omega⟩
  · exact ⟨.aab, by simp [split]; omega⟩
  · exact ⟨.aaa, by simp [split]; omega⟩

/-- `Describes` through split lists. -/
theorem describes_iff (s : Sys) (c : Case) (r : List ℕ) (D : Finset ℕ) :
    Describes s c r D ↔ ∃ P : Parts s, split c = (P.hA.length, P.hB.length) ∧
      r = row (P.pA ++ P.pB) (P.hA ++ P.hB) ∧ D = (reference s.space \ P.down) ∪ P.up := by
  constructor
  · rintro ⟨ps, hs, rfl, h1, h2, h3⟩
    rw [spins_split] at h1 h2 h3
    obtain ⟨pA, pB, rfl, q1, q2, q3, q4, q5, q6⟩ := (ordered_split _ _ _ _).mp h1
    obtain ⟨hA, hB, rfl, r1, r2, r3, r4, r5, r6⟩ := (ordered_split _ _ _ _).mp h2
    have hs := split_sum c
    refine ⟨⟨pA, pB, hA, hB, q3, q4, r3, r4, q5, q6, r5, r6, q1.trans r1.symm, q2.trans r2.symm,
      by omega⟩, by simp [r1, r2], rfl, ?_⟩
    rw [h3]
    exact excited_parts ⟨pA, pB, hA, hB, q3, q4, r3, r4, q5, q6, r5, r6, q1.trans r1.symm,
      q2.trans r2.symm, by omega⟩ _ _ r1 r2
  · rintro ⟨P, h1, rfl, h3⟩
    have ha : P.hA.length = (split c).1 := by rw [h1]
    have hb : P.hB.length = (split c).2 := by rw [h1]
    refine ⟨_, _, rfl, ?_, ?_, ?_⟩
    · rw [spins_split, ordered_split]
      exact ⟨P.pA, P.pB, rfl, P.lenA.trans ha, P.lenB.trans hb, P.pAs, P.pBs, P.pAb, P.pBb⟩
    · rw [spins_split, ordered_split]
      exact ⟨P.hA, P.hB, rfl, ha, hb, P.hAs, P.hBs, P.hAb, P.hBb⟩
    · rw [h3, spins_split, excited_parts P _ _ ha hb]

theorem orbIrrep_lt {s : Sys} {p : ℕ} (h : p < s.norb) : orbIrrep s p = some (s.irrep p) := by
  unfold orbIrrep; rw [if_pos h]

theorem record_store (s : Sys) (h : ℕ) (hf : Fits s h) (c : Case) (ps hs : List ℕ)
    (h1 : OrderedIndices s.space.unocc c.spins ps) (h2 : OrderedIndices s.space.occ c.spins hs) :
    record s h c (ps.map (· + 1)) (hs.map (· + 1)) =
      .store c (row ps hs) (rowIrrep s c (row ps hs)) := by
  have l1 : ps.length = 3 := by rw [h1.length_eq]; cases c <;> rfl
  have l2 : hs.length = 3 := by rw [h2.length_eq]; cases c <;> rfl
  obtain ⟨a, b, d, rfl⟩ := List.length_eq_three.mp l1
  obtain ⟨i, j, k, rfl⟩ := List.length_eq_three.mp l2
  have bp := h1.bound
  have bh := h2.bound
  have hA := hf.occA
  have hB := hf.occB
  have key : tripleSym s c (a + 1) (b + 1) (d + 1) (i + 1) (j + 1) (k + 1) =
      some (rowIrrep s c (row [a, b, d] [i, j, k])) ∧
      rowIrrep s c (row [a, b, d] [i, j, k]) < h := by
    cases c <;>
    · simp only [Case.spins, List.zip_cons_cons, List.zip_nil_right, List.mem_cons,
        List.not_mem_nil, or_false, forall_eq_or_imp, forall_eq, Sys.space, Sys.nua, Sys.nub]
        at bp bh
      obtain ⟨p1, p2, p3⟩ := bp
      obtain ⟨q1, q2, q3⟩ := bh
      constructor
      · unfold tripleSym
        simp only [Nat.add_sub_cancel, offsets]
        rw [orbIrrep_lt (by omega), orbIrrep_lt (by omega), orbIrrep_lt (by omega),
          orbIrrep_lt (by omega), orbIrrep_lt (by omega), orbIrrep_lt (by omega)]
        simp only [Option.bind_eq_bind, Option.bind_some, Option.pure_def, Option.some.injEq]
        simp only [rowIrrep, row, List.cons_append, List.nil_append, List.map_cons, List.map_nil,
          List.take_succ_cons, List.take_zero, List.drop_succ_cons, List.drop_zero,
          Nat.add_sub_cancel, Case.spins, excitationIrrep, List.zip_cons_cons, List.zip_nil_right,
          List.foldl_cons, List.foldl_nil, Sys.space]
        change _ = s.ref ^^^ (0 ^^^ _ ^^^ _ ^^^ _ ^^^ _ ^^^ _ ^^^ _)
        rw [Nat.zero_xor]
        ac_rfl
      · simp only [rowIrrep, row, List.cons_append, List.nil_append, List.map_cons, List.map_nil,
          List.take_succ_cons, List.take_zero, List.drop_succ_cons, List.drop_zero,
          Nat.add_sub_cancel, Case.spins, excitationIrrep, List.zip_cons_cons, List.zip_nil_right,
          List.foldl_cons, List.foldl_nil, Sys.space]
        change s.ref ^^^ (0 ^^^ _ ^^^ _ ^^^ _ ^^^ _ ^^^ _ ^^^ _) < h
        rw [Nat.zero_xor]
        repeat' apply xor_fits hf.order
        all_goals first | exact hf.ref | exact hf.irrep _ (by omega)
  simp only [List.map_cons, List.map_nil, record]
  rw [key.1]
  simp only
  rw [if_pos key.2]
  rfl

/-- A described determinant is stored with exactly that row. -/
theorem line_describes (s : Sys) (h : ℕ) (hf : Fits s h) (hab : s.nob ≤ s.noa) (c : Case)
    (r : List ℕ) (det : List ℕ) (hd : Describes s c r det.toFinset) :
    cipsiLine s h det = .store c r (rowIrrep s c r) := by
  have hd' := hd
  obtain ⟨P, h1, h2, h3⟩ := (describes_iff s c r _).mp hd
  rw [line_parts h hab hf.occA P det h3]
  have e : List.replicate P.hA.length 'a' ++ List.replicate P.hB.length 'b' =
      List.replicate (split c).1 'a' ++ List.replicate (split c).2 'b' := by rw [h1]
  rw [e, caseOf_split]
  simp only
  have ha : P.hA.length = (split c).1 := by rw [h1]
  have hb : P.hB.length = (split c).2 := by rw [h1]
  rw [record_store s h hf c, h2]
  · rw [spins_split, ordered_split]
    exact ⟨P.pA, P.pB, rfl, P.lenA.trans ha, P.lenB.trans hb, P.pAs, P.pBs, P.pAb, P.pBb⟩
  · rw [spins_split, ordered_split]
    exact ⟨P.hA, P.hB, rfl, ha, hb, P.hAs, P.hBs, P.hAb, P.hBb⟩

/-- A physical determinant is either skipped and described by no row, or described by one. -/
theorem line_physical (s : Sys) (h : ℕ) (det : List ℕ)
    (hP : Physical s.space s.norb det.toFinset) :
    (∃ c r, Describes s c r det.toFinset) ∨ cipsiLine s h det = .skip := by
  by_cases hr : (det.toFinset \ reference s.space).card = 3
  · left
    obtain ⟨P, hP⟩ := exists_parts s _ hP hr
    obtain ⟨c, hc⟩ := exists_split _ _ P.len
    exact ⟨c, _, (describes_iff s c _ _).mpr ⟨P, hc, rfl, hP⟩⟩
  · right
    unfold cipsiLine
    simp only
    rw [if_pos]
    unfold getExcitRank
    rwa [hfDet_eq_reference]

/-- The loop over physical determinants. -/
theorem loop_physical (s : Sys) (h : ℕ) (hf : Fits s h) (hab : s.nob ≤ s.noa) :
    ∀ file : List (List ℕ), (∀ det ∈ file, Physical s.space s.norb det.toFinset) →
    ∃ l, cipsiLoop s h file = .ok l ∧
      (∀ e ∈ l, e.2.2 = rowIrrep s e.1 e.2.1 ∧ ∃ det ∈ file, Describes s e.1 e.2.1 det.toFinset) ∧
      (∀ c ps hs, OrderedIndices s.space.unocc c.spins ps → OrderedIndices s.space.occ c.spins hs →
        ((l.filter (fun e => e.1 = c)).map (fun e => e.2.1)).count (row ps hs) =
          file.countP (fun det => det.toFinset = excitedDeterminant s.space c.spins c.spins ps hs))
  | [], _ => ⟨[], rfl, by simp, by simp⟩
  | det :: rest, hall => by
      obtain ⟨l, h1, h2, h3⟩ := loop_physical s h hf hab rest
        (fun d hd => hall d (List.mem_cons_of_mem _ hd))
      have hno : ∀ c ps hs, OrderedIndices s.space.unocc c.spins ps →
          OrderedIndices s.space.occ c.spins hs →
          det.toFinset = excitedDeterminant s.space c.spins c.spins ps hs →
          cipsiLine s h det = .store c (row ps hs) (rowIrrep s c (row ps hs)) :=
        fun c ps hs o1 o2 e => line_describes s h hf hab c _ det ⟨ps, hs, rfl, o1, o2, e⟩
      rcases line_physical s h det (hall det (by simp)) with ⟨c, r, hd⟩ | hs
      · have hl := line_describes s h hf hab c r det hd
        refine ⟨(c, r, rowIrrep s c r) :: l, ?_, ?_, ?_⟩
        · unfold cipsiLoop; rw [hl]; simp only; rw [h1]
        · intro e he
          rcases List.mem_cons.mp he with rfl | he
          · exact ⟨rfl, det, by simp, hd⟩
          · obtain ⟨q1, d, q2, q3⟩ := h2 e he
            exact ⟨q1, d, List.mem_cons_of_mem _ q2, q3⟩
        · intro c' ps hs o1 o2
          have h3' := h3 c' ps hs o1 o2
          rw [List.countP_cons, ← h3']
          by_cases hE : det.toFinset = excitedDeterminant s.space c'.spins c'.spins ps hs
          · have := hno c' ps hs o1 o2 hE
            rw [hl] at this
            simp only [Line.store.injEq] at this
            obtain ⟨rfl, rfl, -⟩ := this
            simp [hE]
          · rw [if_neg (by simpa using hE), Nat.add_zero]
            by_cases hc : c = c'
            · subst hc
              have hne : r ≠ row ps hs := by
                rintro rfl
                obtain ⟨ps', hs', e1, o1', o2', e2⟩ := hd
                have l1 : ps.length = ps'.length := by rw [o1.length_eq, o1'.length_eq]
                have e1' : ps ++ hs = ps' ++ hs' :=
                  List.map_injective_iff.mpr (fun _ _ h => Nat.add_right_cancel h) e1
                obtain ⟨rfl, rfl⟩ := List.append_inj e1' l1
                exact hE e2
              simp [hne]
            · simp [hc]
      · refine ⟨l, ?_, ?_, ?_⟩
        · unfold cipsiLoop; rw [hs]; exact h1
        · intro e he
          obtain ⟨q1, d, q2, q3⟩ := h2 e he
          exact ⟨q1, d, List.mem_cons_of_mem _ q2, q3⟩
        · intro c' ps hs' o1 o2
          rw [List.countP_cons, ← h3 c' ps hs' o1 o2, if_neg, Nat.add_zero]
          intro hE
          have := hno c' ps hs' o1 o2 (by simpa using hE)
          rw [hs] at this
          cases this

/-- A row of ones describes nothing. -/
theorem describes_ne_ones (s : Sys) (c : Case) (r : List ℕ) (D : Finset ℕ)
    (h : Describes s c r D) : r ≠ [1, 1, 1, 1, 1, 1] := by
  rintro rfl
  obtain ⟨ps, hs, e, o1, o2, -⟩ := h
  have l1 : ps.length = 3 := by rw [o1.length_eq]; cases c <;> rfl
  have l2 : hs.length = 3 := by rw [o2.length_eq]; cases c <;> rfl
  obtain ⟨a, b, d, rfl⟩ := List.length_eq_three.mp l1
  obtain ⟨i, j, k, rfl⟩ := List.length_eq_three.mp l2
  have hp := o1.sorted
  simp [row] at e
  obtain ⟨rfl, rfl, rfl, rfl, rfl, rfl⟩ := e
  cases c <;> simp [Case.spins] at hp

theorem realRows_gather (l : List (Case × List ℕ × ℕ)) (c : Case)
    (h : ∀ e ∈ l, e.2.1 ≠ [1, 1, 1, 1, 1, 1]) :
    realRows 6 ((gather l).rows c) = (l.filter (fun e => e.1 = c)).map (fun e => e.2.1) := by
  unfold gather realRows
  simp only
  have hm : ∀ r ∈ (l.filter (fun e => e.1 = c)).map (fun e => e.2.1), r ≠ [1, 1, 1, 1, 1, 1] := by
    intro r hr
    obtain ⟨e, he, rfl⟩ := List.mem_map.mp hr
    exact h e (List.mem_filter.mp he).1
  generalize (l.filter (fun e => e.1 = c)).map (fun e => e.2.1) = L at hm
  match L with
  | [] => rfl
  | r :: L =>
    rw [if_neg]
    intro e
    exact hm r (by simp) (by simpa using e)

end Ccpy.CipsiReader
