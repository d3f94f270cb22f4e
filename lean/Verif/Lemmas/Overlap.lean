import Verif.Model.Overlap
import Verif.Lemmas.UniqueSums
import Verif.Lemmas.Sweep
import Verif.Spec.Exchange
import Mathlib.Tactic.FieldSimp
import Mathlib.Tactic.FinCases

namespace Ccpy.Amplitudes
open Finset Ccpy.Spec Ccpy.Writes

variable {K : Type*} [Field K] [CharZero K]

theorem contract_doubles (nv no : ℕ) {s t : ℕ → ℕ → ℕ → ℕ → K} (hs : AntisymD s) (ht : AntisymD t) :
    ∑ e ∈ range nv, ∑ f ∈ range nv, ∑ m ∈ range no, ∑ n ∈ range no, s e f m n * t e f m n =
      4 * ∑ p ∈ uniquePairs nv, ∑ h ∈ uniquePairs no, s p.1 p.2 h.1 h.2 * t p.1 p.2 h.1 h.2 := by
  simp only [fun e f => overlap_pairs no (hs.holes e f) (ht.holes e f)]
  rw [sum_pairs, mul_sum, mul_sum]
  · refine sum_congr rfl fun p _ => ?_; ring
  · intro a b
    have e1 := fun m n => hs.particles m n a b
    have e2 := fun m n => ht.particles m n a b
    simp only at e1 e2
    simp only [e1, e2, neg_mul_neg]
  · intro a
    have e1 := fun m n => (hs.particles m n).diag a
    simp [e1]

theorem contract_aaa (nv no : ℕ) {s t : Array6 K} (hs : AntisymT s) (ht : AntisymT t) :
    contract6 nv nv nv no no no s t =
      36 * ∑ p ∈ uniqueTriples nv, ∑ h ∈ uniqueTriples no,
        s p.1 p.2.1 p.2.2 h.1 h.2.1 h.2.2 * t p.1 p.2.1 p.2.2 h.1 h.2.1 h.2.2 := by
  unfold contract6
  simp only [fun e f g => overlap_triples no (hs.holes e f g) (ht.holes e f g)]
  rw [sum_triples, mul_sum, mul_sum]
  · refine sum_congr rfl fun p _ => ?_; ring
  · intro a b c
    have e1 := fun m n o => (hs.particles m n o a b c).1
    have e2 := fun m n o => (ht.particles m n o a b c).1
    simp only at e1 e2
    simp only [e1, e2, neg_mul_neg]
  · intro a b c
    have e1 := fun m n o => (hs.particles m n o a b c).2
    have e2 := fun m n o => (ht.particles m n o a b c).2
    simp only at e1 e2
    simp only [e1, e2, neg_mul_neg]
  · intro a b
    have e1 := fun m n o => (hs.particles m n o).diag a b
    simp [e1]

theorem contract_aab (va vb oa ob : ℕ) {s t : Array6 K} (hs : AntisymAab s) (ht : AntisymAab t) :
    contract6 va va vb oa oa ob s t =
      4 * ∑ p ∈ uniquePairs va, ∑ c ∈ range vb, ∑ h ∈ uniquePairs oa, ∑ k ∈ range ob,
        s p.1 p.2 c h.1 h.2 k * t p.1 p.2 c h.1 h.2 k := by
  unfold contract6
  have h1 : ∀ e f g, ∑ m ∈ range oa, ∑ n ∈ range oa, ∑ o ∈ range ob, s e f g m n o * t e f g m n o =
      2 * ∑ h ∈ uniquePairs oa, ∑ k ∈ range ob, s e f g h.1 h.2 k * t e f g h.1 h.2 k := by
    intro e f g
    refine sum_pairs ?_ ?_
    · intro a b
      have e1 := fun o => hs.holes e f g o a b
      have e2 := fun o => ht.holes e f g o a b
      simp only at e1 e2
      simp only [e1, e2, neg_mul_neg]
    · intro a
      have e1 := fun o => (hs.holes e f g o).diag a
      simp [e1]
  simp only [h1]
  rw [sum_pairs, mul_sum, mul_sum]
  · refine sum_congr rfl fun p _ => ?_
    rw [← mul_sum]; ring
  · intro a b
    have e1 := fun c m n o => hs.particles c m n o a b
    have e2 := fun c m n o => ht.particles c m n o a b
    simp only at e1 e2
    simp only [e1, e2, neg_mul_neg]
  · intro a
    have e1 := fun c m n o => (hs.particles c m n o).diag a
    simp [e1]

theorem contract_abb (va vb oa ob : ℕ) {s t : Array6 K} (hs : AntisymAbb s) (ht : AntisymAbb t) :
    contract6 va vb vb oa ob ob s t =
      4 * ∑ a ∈ range va, ∑ p ∈ uniquePairs vb, ∑ i ∈ range oa, ∑ h ∈ uniquePairs ob,
        s a p.1 p.2 i h.1 h.2 * t a p.1 p.2 i h.1 h.2 := by
  unfold contract6
  simp only [fun e f g m => overlap_pairs ob (hs.holes e f g m) (ht.holes e f g m)]
  rw [mul_sum]
  refine sum_congr rfl fun a _ => ?_
  rw [sum_pairs, mul_sum, mul_sum]
  · refine sum_congr rfl fun p _ => ?_
    rw [← mul_sum]; ring
  · intro b c
    have e1 := fun m n o => hs.particles a m n o b c
    have e2 := fun m n o => ht.particles a m n o b c
    simp only at e1 e2
    simp only [e1, e2, neg_mul_neg]
  · intro b
    have e1 := fun m n o => (hs.particles a m n o).diag b
    simp [e1]

omit [CharZero K] in
/-- A sum whose terms vanish outside a duplicate-free list is the sum along the list. -/
theorem sum_listed {ι : Type*} [DecidableEq ι] {S : Finset ι} {keys : List ι} (hn : keys.Nodup)
    (hs : ∀ k ∈ keys, k ∈ S) {F : ι → K} (h0 : ∀ x ∈ S, x ∉ keys → F x = 0) :
    ∑ x ∈ S, F x = (keys.map F).sum := by
  rw [← List.sum_toFinset F hn]
  symm
  refine sum_subset (fun x hx => hs x (List.mem_toFinset.mp hx)) fun x hx hx' => ?_
  exact h0 x hx fun h => hx' (List.mem_toFinset.mpr h)


omit [CharZero K] in
theorem antisym_particles {m n : ℕ} {sp : Fin m → Bool} {sh : Fin n → Bool}
    {T : (Fin m → ℕ) × (Fin n → ℕ) → K} (h : AntisymUnder (SpinExchange sp sh) T) {i j : Fin m}
    (hij : i ≠ j) (hs : sp i = sp j) (P : Fin m → ℕ) (H : Fin n → ℕ) :
    T (P ∘ Equiv.swap i j, H) = -T (P, H) := by
  have := h (Equiv.swap i j, 1) ⟨fun k => by
    by_cases h1 : k = i
    · subst h1; rw [Equiv.swap_apply_left, hs]
    · by_cases h2 : k = j
      · subst h2; rw [Equiv.swap_apply_right, hs]
      · rw [Equiv.swap_apply_of_ne_of_ne h1 h2], fun k => rfl⟩ P H
  simpa [Equiv.Perm.sign_swap hij] using this

omit [CharZero K] in
theorem antisym_holes {m n : ℕ} {sp : Fin m → Bool} {sh : Fin n → Bool}
    {T : (Fin m → ℕ) × (Fin n → ℕ) → K} (h : AntisymUnder (SpinExchange sp sh) T) {i j : Fin n}
    (hij : i ≠ j) (hs : sh i = sh j) (P : Fin m → ℕ) (H : Fin n → ℕ) :
    T (P, H ∘ Equiv.swap i j) = -T (P, H) := by
  have := h (1, Equiv.swap i j) ⟨fun k => rfl, fun k => by
    by_cases h1 : k = i
    · subst h1; rw [Equiv.swap_apply_left, hs]
    · by_cases h2 : k = j
      · subst h2; rw [Equiv.swap_apply_right, hs]
      · rw [Equiv.swap_apply_of_ne_of_ne h1 h2]⟩ P H
  simpa [Equiv.Perm.sign_swap hij] using this

theorem swap01 (a b c : ℕ) : ![b, a, c] = ![a, b, c] ∘ Equiv.swap 0 1 := by
  funext k; fin_cases k <;> rfl
theorem swap12 (a b c : ℕ) : ![a, c, b] = ![a, b, c] ∘ Equiv.swap 1 2 := by
  funext k; fin_cases k <;> rfl

/-- The six-axis array with the elements of a tensor. -/
def array6 (T : (Fin 3 → ℕ) × (Fin 3 → ℕ) → K) : Array6 K := fun a b c i j k => T (![a, b, c], ![i, j, k])

/-- Spins of the three particles and holes. -/
abbrev sAaa : Fin 3 → Bool := ![false, false, false]
abbrev sAab : Fin 3 → Bool := ![false, false, true]
abbrev sAbb : Fin 3 → Bool := ![false, true, true]
abbrev sBbb : Fin 3 → Bool := ![true, true, true]

omit [CharZero K] in
theorem antisymT_of {sp : Fin 3 → Bool} (h01 : sp 0 = sp 1) (h12 : sp 1 = sp 2)
    {T : (Fin 3 → ℕ) × (Fin 3 → ℕ) → K} (h : AntisymUnder (SpinExchange sp sp) T) :
    AntisymT (array6 T) where
  particles i j k a b c := by
    simp only [array6]
    rw [swap01 a b c, swap12 a b c]
    exact ⟨antisym_particles h (by decide) h01 _ _, antisym_particles h (by decide) h12 _ _⟩
  holes a b c i j k := by
    simp only [array6]
    rw [swap01 i j k, swap12 i j k]
    exact ⟨antisym_holes h (by decide) h01 _ _, antisym_holes h (by decide) h12 _ _⟩

omit [CharZero K] in
theorem antisymAab_of {T : (Fin 3 → ℕ) × (Fin 3 → ℕ) → K}
    (h : AntisymUnder (SpinExchange sAab sAab) T) : AntisymAab (array6 T) where
  particles c i j k a b := by
    simp only [array6]
    rw [swap01 a b c]
    exact antisym_particles h (show (0 : Fin 3) ≠ 1 by decide) rfl _ _
  holes a b c k i j := by
    simp only [array6]
    rw [swap01 i j k]
    exact antisym_holes h (show (0 : Fin 3) ≠ 1 by decide) rfl _ _

omit [CharZero K] in
theorem antisymAbb_of {T : (Fin 3 → ℕ) × (Fin 3 → ℕ) → K}
    (h : AntisymUnder (SpinExchange sAbb sAbb) T) : AntisymAbb (array6 T) where
  particles a i j k b c := by
    simp only [array6]
    rw [swap12 a b c]
    exact antisym_particles h (show (1 : Fin 3) ≠ 2 by decide) rfl _ _
  holes a b c i j k := by
    simp only [array6]
    rw [swap12 i j k]
    exact antisym_holes h (show (1 : Fin 3) ≠ 2 by decide) rfl _ _

/-- Amplitudes of the first (right) and second (left) vector along a common list of excitations. -/
def rightEntries {m n : ℕ} (es : List ((Fin m → ℕ) × (Fin n → ℕ) × (K × K))) :
    List ((Fin m → ℕ) × (Fin n → ℕ) × K) := es.map fun e => (e.1, e.2.1, e.2.2.1)
def leftEntries {m n : ℕ} (es : List ((Fin m → ℕ) × (Fin n → ℕ) × (K × K))) :
    List ((Fin m → ℕ) × (Fin n → ℕ) × K) := es.map fun e => (e.1, e.2.1, e.2.2.2)

omit [CharZero K] in
theorem unique_packed {m n : ℕ} {sp : Fin m → Bool} {sh : Fin n → Bool} {nv no : Bool → ℕ}
    {es : List ((Fin m → ℕ) × (Fin n → ℕ) × (K × K))} (hv : ValidExcitations sp sh nv no es)
    {TR TL : (Fin m → ℕ) × (Fin n → ℕ) → K} (hR : Expands sp sh (rightEntries es) TR)
    (hL : Expands sp sh (leftEntries es) TL) {ι : Type*} (S : Finset ι)
    (emb : ι → (Fin m → ℕ) × (Fin n → ℕ)) (hemb : Function.Injective emb)
    (hord : ∀ x ∈ S, OrderedWithin sp (emb x).1 ∧ OrderedWithin sh (emb x).2)
    (hcov : ∀ P H, OrderedWithin sp P → OrderedWithin sh H → (∀ i, P i < nv (sp i)) →
      (∀ i, H i < no (sh i)) → ∃ x ∈ S, emb x = (P, H)) :
    ∑ x ∈ S, TR (emb x) * TL (emb x) = (es.map fun e => e.2.2.2 * e.2.2.1).sum := by
  classical
  rw [← sum_image (s := S) (g := emb) (f := fun k => TR k * TL k) fun x _ y _ h => hemb h]
  rw [sum_listed hv.nodup]
  · rw [List.map_map]
    congr 1
    refine List.map_congr_left fun e he => ?_
    have e1 := hR.stored (e.1, e.2.1, e.2.2.1) (List.mem_map.mpr ⟨e, he, rfl⟩)
    have e2 := hL.stored (e.1, e.2.1, e.2.2.2) (List.mem_map.mpr ⟨e, he, rfl⟩)
    simp only at e1 e2
    simp only [Function.comp_apply, e1, e2]
    ring
  · intro k hk
    obtain ⟨e, he, rfl⟩ := List.mem_map.mp hk
    obtain ⟨x, hx, hxe⟩ := hcov e.1 e.2.1 (hv.ordered e he).1 (hv.ordered e he).2 (hv.inRange e he).1
      (hv.inRange e he).2
    exact mem_image.mpr ⟨x, hx, hxe⟩
  · intro k hk hnot
    obtain ⟨x, hx, rfl⟩ := mem_image.mp hk
    rw [hR.zero (emb x).1 (emb x).2, zero_mul]
    rintro e' he' g hg heq
    obtain ⟨e, he, rfl⟩ := List.mem_map.mp he'
    obtain ⟨e1, e2⟩ := Prod.mk.inj heq
    obtain ⟨u1, u2⟩ := ordered_unique (hv.ordered e he).1 (hv.ordered e he).2 (hord x hx).1 (hord x hx).2 hg e1 e2
    exact hnot (List.mem_map.mpr ⟨e, he, by simp only [← u1, ← u2]⟩)

/-- The rows of three ordered or unordered indices as a function. -/
def emb3 (x : (ℕ × ℕ × ℕ) × (ℕ × ℕ × ℕ)) : (Fin 3 → ℕ) × (Fin 3 → ℕ) :=
  (![x.1.1, x.1.2.1, x.1.2.2], ![x.2.1, x.2.2.1, x.2.2.2])

theorem emb3_injective : Function.Injective emb3 := by
  rintro ⟨⟨a, b, c⟩, i, j, k⟩ ⟨⟨a', b', c'⟩, i', j', k'⟩ h
  simp only [emb3, Prod.mk.injEq] at h ⊢
  have h1 := fun z => congrFun h.1 z
  have h2 := fun z => congrFun h.2 z
  exact ⟨⟨h1 0, h1 1, h1 2⟩, h2 0, h2 1, h2 2⟩

theorem vec3_eta (P : Fin 3 → ℕ) : ![P 0, P 1, P 2] = P := by
  funext k; fin_cases k <;> rfl

theorem ordered_like {s : Bool} (P : Fin 3 → ℕ) :
    OrderedWithin ![s, s, s] P ↔ P 0 < P 1 ∧ P 1 < P 2 := by
  constructor
  · intro h
    exact ⟨h 0 1 (by decide) rfl, h 1 2 (by decide) rfl⟩
  · rintro ⟨h1, h2⟩ i j hij _
    fin_cases i <;> fin_cases j <;> simp_all <;> omega

theorem ordered_aab (P : Fin 3 → ℕ) : OrderedWithin sAab P ↔ P 0 < P 1 := by
  constructor
  · intro h
    exact h 0 1 (by decide) rfl
  · rintro h1 i j hij hs
    fin_cases i <;> fin_cases j <;> simp_all

theorem ordered_abb (P : Fin 3 → ℕ) : OrderedWithin sAbb P ↔ P 1 < P 2 := by
  constructor
  · intro h
    exact h 1 2 (by decide) rfl
  · rintro h1 i j hij hs
    fin_cases i <;> fin_cases j <;> simp_all

/-- Orbital numbers by spin. -/
def Dims.nv (d : Dims) : Bool → ℕ := fun s => if s then d.nub else d.nua
def Dims.no (d : Dims) : Bool → ℕ := fun s => if s then d.nob else d.noa

theorem packed_like (s : Bool) (d : Dims) {es : List ((Fin 3 → ℕ) × (Fin 3 → ℕ) × (K × K))}
    (hv : ValidExcitations ![s, s, s] ![s, s, s] d.nv d.no es)
    {TR TL : (Fin 3 → ℕ) × (Fin 3 → ℕ) → K} (hR : Expands ![s, s, s] ![s, s, s] (rightEntries es) TR)
    (hL : Expands ![s, s, s] ![s, s, s] (leftEntries es) TL) :
    contract6 (d.nv s) (d.nv s) (d.nv s) (d.no s) (d.no s) (d.no s) (array6 TR) (array6 TL) =
      36 * (es.map fun e => e.2.2.2 * e.2.2.1).sum := by
  rw [contract_aaa _ _ (antisymT_of rfl rfl hR.antisym) (antisymT_of rfl rfl hL.antisym)]
  rw [← sum_product (f := fun x : (ℕ × ℕ × ℕ) × (ℕ × ℕ × ℕ) => array6 TR x.1.1 x.1.2.1 x.1.2.2 x.2.1 x.2.2.1 x.2.2.2 *
    array6 TL x.1.1 x.1.2.1 x.1.2.2 x.2.1 x.2.2.1 x.2.2.2)]
  rw [← unique_packed hv hR hL (uniqueTriples (d.nv s) ×ˢ uniqueTriples (d.no s)) emb3 emb3_injective]
  · rfl
  · rintro ⟨p, h⟩ hx
    simp only [uniqueTriples, mem_product, mem_filter] at hx
    rw [ordered_like, ordered_like]
    exact ⟨hx.1.2, hx.2.2⟩
  · intro P H hP hH rP rH
    rw [ordered_like] at hP hH
    refine ⟨((P 0, P 1, P 2), (H 0, H 1, H 2)), ?_, by simp only [emb3, vec3_eta]⟩
    simp only [uniqueTriples, mem_product, mem_filter, mem_range]
    exact ⟨⟨⟨rP 0, rP 1, rP 2⟩, hP⟩, ⟨rH 0, rH 1, rH 2⟩, hH⟩

theorem packed_aab (d : Dims) {es : List ((Fin 3 → ℕ) × (Fin 3 → ℕ) × (K × K))}
    (hv : ValidExcitations sAab sAab d.nv d.no es)
    {TR TL : (Fin 3 → ℕ) × (Fin 3 → ℕ) → K} (hR : Expands sAab sAab (rightEntries es) TR)
    (hL : Expands sAab sAab (leftEntries es) TL) :
    contract6 d.nua d.nua d.nub d.noa d.noa d.nob (array6 TR) (array6 TL) =
      4 * (es.map fun e => e.2.2.2 * e.2.2.1).sum := by
  rw [contract_aab _ _ _ _ (antisymAab_of hR.antisym) (antisymAab_of hL.antisym)]
  rw [← unique_packed hv hR hL ((uniquePairs d.nua ×ˢ range d.nub) ×ˢ (uniquePairs d.noa ×ˢ range d.nob))
    (fun x => (![x.1.1.1, x.1.1.2, x.1.2], ![x.2.1.1, x.2.1.2, x.2.2]))]
  · simp only [sum_product]
    rfl
  · rintro ⟨⟨⟨a, b⟩, c⟩, ⟨i, j⟩, k⟩ ⟨⟨⟨a', b'⟩, c'⟩, ⟨i', j'⟩, k'⟩ h
    simp only [Prod.mk.injEq] at h ⊢
    have h1 := fun z => congrFun h.1 z
    have h2 := fun z => congrFun h.2 z
    exact ⟨⟨⟨h1 0, h1 1⟩, h1 2⟩, ⟨h2 0, h2 1⟩, h2 2⟩
  · rintro ⟨p, h⟩ hx
    simp only [uniquePairs, mem_product, mem_filter] at hx
    rw [ordered_aab, ordered_aab]
    exact ⟨hx.1.1.2, hx.2.1.2⟩
  · intro P H hP hH rP rH
    rw [ordered_aab] at hP hH
    refine ⟨(((P 0, P 1), P 2), ((H 0, H 1), H 2)), ?_, by simp only [vec3_eta]⟩
    simp only [uniquePairs, mem_product, mem_filter, mem_range]
    exact ⟨⟨⟨⟨rP 0, rP 1⟩, hP⟩, rP 2⟩, ⟨⟨rH 0, rH 1⟩, hH⟩, rH 2⟩

theorem packed_abb (d : Dims) {es : List ((Fin 3 → ℕ) × (Fin 3 → ℕ) × (K × K))}
    (hv : ValidExcitations sAbb sAbb d.nv d.no es)
    {TR TL : (Fin 3 → ℕ) × (Fin 3 → ℕ) → K} (hR : Expands sAbb sAbb (rightEntries es) TR)
    (hL : Expands sAbb sAbb (leftEntries es) TL) :
    contract6 d.nua d.nub d.nub d.noa d.nob d.nob (array6 TR) (array6 TL) =
      4 * (es.map fun e => e.2.2.2 * e.2.2.1).sum := by
  rw [contract_abb _ _ _ _ (antisymAbb_of hR.antisym) (antisymAbb_of hL.antisym)]
  rw [← unique_packed hv hR hL ((range d.nua ×ˢ uniquePairs d.nub) ×ˢ (range d.noa ×ˢ uniquePairs d.nob))
    (fun x => (![x.1.1, x.1.2.1, x.1.2.2], ![x.2.1, x.2.2.1, x.2.2.2]))]
  · simp only [sum_product]
    rfl
  · exact emb3_injective
  · rintro ⟨p, h⟩ hx
    simp only [uniquePairs, mem_product, mem_filter] at hx
    rw [ordered_abb, ordered_abb]
    exact ⟨hx.1.2.2, hx.2.2.2⟩
  · intro P H hP hH rP rH
    rw [ordered_abb] at hP hH
    refine ⟨((P 0, P 1, P 2), (H 0, H 1, H 2)), ?_, by simp only [vec3_eta]⟩
    simp only [uniquePairs, mem_product, mem_filter, mem_range]
    exact ⟨⟨rP 0, ⟨rP 1, rP 2⟩, hP⟩, rH 0, ⟨rH 1, rH 2⟩, hH⟩

end Ccpy.Amplitudes
