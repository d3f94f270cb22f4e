import Verif.Lemmas.Overlap

/-! C35: overlaps of left and right vectors count every excitation once, in full and in packed storage. -/

namespace Ccpy.Amplitudes
open Finset Ccpy.Spec

variable {K : Type*} [Field K] [CharZero K]

/-- Overlap of one- and two-body amplitudes, each excitation counted once. -/
def uniqueDoubles (d : Dims) (R L : Vector K) : K :=
  (∑ e ∈ d.va, ∑ m ∈ d.oa, R.a e m * L.a e m) + (∑ e ∈ d.vb, ∑ m ∈ d.ob, R.b e m * L.b e m) +
    (∑ p ∈ uniquePairs d.nua, ∑ h ∈ uniquePairs d.noa, R.aa p.1 p.2 h.1 h.2 * L.aa p.1 p.2 h.1 h.2) +
    (∑ e ∈ d.va, ∑ f ∈ d.vb, ∑ m ∈ d.oa, ∑ n ∈ d.ob, R.ab e f m n * L.ab e f m n) +
    (∑ p ∈ uniquePairs d.nub, ∑ h ∈ uniquePairs d.nob, R.bb p.1 p.2 h.1 h.2 * L.bb p.1 p.2 h.1 h.2)

/-- Overlap of the three-body amplitudes, each excitation counted once. -/
def uniqueTriplesOverlap (d : Dims) (r l : Fin 4 → Array6 K) : K :=
  (∑ p ∈ uniqueTriples d.nua, ∑ h ∈ uniqueTriples d.noa,
      r 0 p.1 p.2.1 p.2.2 h.1 h.2.1 h.2.2 * l 0 p.1 p.2.1 p.2.2 h.1 h.2.1 h.2.2) +
    (∑ p ∈ uniquePairs d.nua, ∑ c ∈ d.vb, ∑ h ∈ uniquePairs d.noa, ∑ k ∈ d.ob,
      r 1 p.1 p.2 c h.1 h.2 k * l 1 p.1 p.2 c h.1 h.2 k) +
    (∑ a ∈ d.va, ∑ p ∈ uniquePairs d.nub, ∑ i ∈ d.oa, ∑ h ∈ uniquePairs d.nob,
      r 2 a p.1 p.2 i h.1 h.2 * l 2 a p.1 p.2 i h.1 h.2) +
    (∑ p ∈ uniqueTriples d.nub, ∑ h ∈ uniqueTriples d.nob,
      r 3 p.1 p.2.1 p.2.2 h.1 h.2.1 h.2.2 * l 3 p.1 p.2.1 p.2.2 h.1 h.2.1 h.2.2)

/-- The doubles of a vector are antisymmetric. -/
def Vector.AntisymDoubles (R : Vector K) : Prop := AntisymD R.aa ∧ AntisymD R.bb

theorem lrDoubles_eq (d : Dims) (R L : Vector K) (hR : R.AntisymDoubles) (hL : L.AntisymDoubles) :
    lrDoubles d R L = uniqueDoubles d R L := by
  have h4 : (4 : K) ≠ 0 := OfNat.ofNat_ne_zero 4
  unfold lrDoubles uniqueDoubles
  rw [contract_doubles _ _ hR.1 hL.1, contract_doubles _ _ hR.2 hL.2]
  field_simp

/-- C35.  Without triples, `get_LR` is the overlap over unique excitations. -/
theorem C35_doubles (d : Dims) (lists : Bool) (R L : Vector K) (hR : R.AntisymDoubles)
    (hL : L.AntisymDoubles) (ho : L.order ≠ 3 ∨ R.order ≠ 3) :
    getLR d lists R L = some (uniqueDoubles d R L) := by
  unfold getLR
  rw [if_neg (by tauto), lrDoubles_eq d R L hR hL]

/-- C35.  With full antisymmetric triples, `get_LR` is the overlap over unique excitations. -/
theorem C35_full (d : Dims) (R L : Vector K) (hR : R.AntisymDoubles) (hL : L.AntisymDoubles)
    (oR : R.order = 3) (oL : L.order = 3) (r l : Fin 4 → Array6 K)
    (r1 : R.aaa = .full (r 0)) (r2 : R.aab = .full (r 1)) (r3 : R.abb = .full (r 2))
    (r4 : R.bbb = .full (r 3)) (l1 : L.aaa = .full (l 0)) (l2 : L.aab = .full (l 1))
    (l3 : L.abb = .full (l 2)) (l4 : L.bbb = .full (l 3))
    (ar : AntisymT (r 0) ∧ AntisymAab (r 1) ∧ AntisymAbb (r 2) ∧ AntisymT (r 3))
    (al : AntisymT (l 0) ∧ AntisymAab (l 1) ∧ AntisymAbb (l 2) ∧ AntisymT (l 3)) :
    getLR d false R L = some (uniqueDoubles d R L + uniqueTriplesOverlap d r l) := by
  have h4 : (4 : K) ≠ 0 := OfNat.ofNat_ne_zero 4
  have h36 : (36 : K) ≠ 0 := OfNat.ofNat_ne_zero 36
  unfold getLR
  rw [if_pos ⟨oL, oR⟩, lrDoubles_eq d R L hR hL, r1, r2, r3, r4, l1, l2, l3, l4]
  simp only [einsumFull, Bool.not_false, if_true, Option.bind_eq_bind, Option.bind_some, Option.pure_def,
    Option.some.injEq]
  rw [contract_aaa _ _ ar.1 al.1, contract_aab _ _ _ _ ar.2.1 al.2.1, contract_abb _ _ _ _ ar.2.2.1 al.2.2.1,
    contract_aaa _ _ ar.2.2.2 al.2.2.2]
  unfold uniqueTriplesOverlap
  field_simp
  ring

/-- A vector with packed triples along the given lists of excitations. -/
def Vector.pack (R : Vector K) (amps : Fin 4 → List K) : Vector K :=
  { R with aaa := .packed (amps 0), aab := .packed (amps 1), abb := .packed (amps 2), bbb := .packed (amps 3) }

/-- A vector with full triples. -/
def Vector.unpack (R : Vector K) (T : Fin 4 → (Fin 3 → ℕ) × (Fin 3 → ℕ) → K) : Vector K :=
  { R with aaa := .full (array6 (T 0)), aab := .full (array6 (T 1)), abb := .full (array6 (T 2)),
           bbb := .full (array6 (T 3)) }

/-- Spins of particles and holes in the four three-body components. -/
def spins4 : Fin 4 → Fin 3 → Bool := ![sAaa, sAab, sAbb, sBbb]

/-- C35.  With the amplitudes of both vectors stored along the same valid lists of excitations, the packed
overlap is the overlap of the antisymmetric tensors the two vectors stand for. -/
theorem C35_packed (d : Dims) (R L : Vector K) (oR : R.order = 3) (oL : L.order = 3)
    (es : Fin 4 → List ((Fin 3 → ℕ) × (Fin 3 → ℕ) × (K × K)))
    (hv : ∀ c, ValidExcitations (spins4 c) (spins4 c) d.nv d.no (es c))
    (TR TL : Fin 4 → (Fin 3 → ℕ) × (Fin 3 → ℕ) → K)
    (hR : ∀ c, Expands (spins4 c) (spins4 c) (rightEntries (es c)) (TR c))
    (hL : ∀ c, Expands (spins4 c) (spins4 c) (leftEntries (es c)) (TL c)) :
    getLR d true (R.pack fun c => (es c).map fun e => e.2.2.1) (L.pack fun c => (es c).map fun e => e.2.2.2) =
      getLR d false (R.unpack TR) (L.unpack TL) := by
  have h4 : (4 : K) ≠ 0 := OfNat.ofNat_ne_zero 4
  have h36 : (36 : K) ≠ 0 := OfNat.ofNat_ne_zero 36
  have dot : ∀ es : List ((Fin 3 → ℕ) × (Fin 3 → ℕ) × (K × K)),
      List.zipWith (· * ·) (es.map fun e => e.2.2.2) (es.map fun e => e.2.2.1) =
        es.map fun e => e.2.2.2 * e.2.2.1 := by
    intro es
    induction es with
    | nil => rfl
    | cons e es ih => simp only [List.map_cons, List.zipWith_cons_cons, ih]
  have e0 := packed_like false d (hv 0) (hR 0) (hL 0)
  have e1 := packed_aab d (hv 1) (hR 1) (hL 1)
  have e2 := packed_abb d (hv 2) (hR 2) (hL 2)
  have e3 := packed_like true d (hv 3) (hR 3) (hL 3)
  unfold getLR
  rw [if_pos (show (L.pack _).order = 3 ∧ (R.pack _).order = 3 from ⟨oL, oR⟩),
    if_pos (show (L.unpack TL).order = 3 ∧ (R.unpack TR).order = 3 from ⟨oL, oR⟩)]
  simp only [Vector.pack, Vector.unpack, dotPacked, einsumFull, List.length_map, if_true, Bool.not_true,
    Bool.not_false, Bool.false_eq_true, if_false, Option.bind_eq_bind, Option.bind_some, Option.pure_def,
    Option.some.injEq, dot]
  simp only [Dims.nv, Dims.no, Bool.false_eq_true, if_false, if_true] at e0 e3
  rw [e0, e1, e2, e3]
  simp only [lrDoubles]
  field_simp
  ring

omit [CharZero K] in
/-- C35, error branches: full triples with an excitation list given, packed triples without one, and
packed vectors of different lengths raise an exception. -/
theorem C35_errors (d : Dims) (R L : Vector K) (oR : R.order = 3) (oL : L.order = 3) :
    (∀ (t : Array6 K), R.aaa = .full t → getLR d true R L = none) ∧
    (∀ (v : List K), R.aaa = .packed v → getLR d false R L = none) ∧
    (∀ (v w : List K), R.aaa = .packed v → L.aaa = .packed w → v.length ≠ w.length →
      getLR d true R L = none) := by
  unfold getLR
  simp only [if_pos (And.intro oL oR)]
  refine ⟨fun t h => ?_, fun v h => ?_, fun v w h1 h2 h3 => ?_⟩
  · simp only [h, Bool.not_true, Bool.false_eq_true, if_false]
    cases L.aaa <;> rfl
  · simp only [h, Bool.not_false, if_true]
    cases L.aaa <;> rfl
  · simp only [h1, h2, dotPacked, if_neg (Ne.symm h3), Bool.not_true, Bool.false_eq_true, if_false]
    rfl

/-! Ionised and attached states -/

/-- Antisymmetry of the holes `i, n` in arrays `ifn`. -/
def AntisymIp2 (t : ℕ → ℕ → ℕ → K) : Prop := ∀ f, Antisym2 fun i n => t i f n
/-- Antisymmetry of `ifgno` with three like-spin holes `i, n, o` and two like-spin particles. -/
structure AntisymIp3 (t : Array5 K) : Prop where
  holes : ∀ f g, Antisym3 fun i n o => t i f g n o
  particles : ∀ i n o, Antisym2 fun f g => t i f g n o
/-- Antisymmetry of `ifgno`, holes `i, n` alpha, `o` beta, particles alpha and beta. -/
def AntisymIpAab (t : Array5 K) : Prop := ∀ f g o, Antisym2 fun i n => t i f g n o
/-- Antisymmetry of `ifgno`, one alpha hole, two beta holes and particles. -/
structure AntisymIpAbb (t : Array5 K) : Prop where
  particles : ∀ i n o, Antisym2 fun f g => t i f g n o
  holes : ∀ i f g, Antisym2 fun n o => t i f g n o

/-- C35, ionised states: `get_LR_ipeom` with full antisymmetric arrays counts every excitation once. -/
theorem C35_ip (d : Dims) (R L : OpenVector K) (oR : R.order = 3) (oL : L.order = 3) (r l : Fin 3 → Array5 K)
    (r1 : R.aaa = .full (r 0)) (r2 : R.aab = .full (r 1)) (r3 : R.abb = .full (r 2))
    (l1 : L.aaa = .full (l 0)) (l2 : L.aab = .full (l 1)) (l3 : L.abb = .full (l 2))
    (ar : AntisymIp2 R.aa ∧ AntisymIp3 (r 0) ∧ AntisymIpAab (r 1) ∧ AntisymIpAbb (r 2))
    (al : AntisymIp2 L.aa ∧ AntisymIp3 (l 0) ∧ AntisymIpAab (l 1) ∧ AntisymIpAbb (l 2)) :
    getLRip d false R L = some
      ((∑ m ∈ d.oa, R.a m * L.a m) +
        (∑ f ∈ d.va, ∑ h ∈ uniquePairs d.noa, R.aa h.1 f h.2 * L.aa h.1 f h.2) +
        (∑ m ∈ d.oa, ∑ f ∈ d.vb, ∑ n ∈ d.ob, R.ab m f n * L.ab m f n) +
        (∑ p ∈ uniquePairs d.nua, ∑ h ∈ uniqueTriples d.noa,
          r 0 h.1 p.1 p.2 h.2.1 h.2.2 * l 0 h.1 p.1 p.2 h.2.1 h.2.2) +
        (∑ f ∈ d.va, ∑ g ∈ d.vb, ∑ h ∈ uniquePairs d.noa, ∑ o ∈ d.ob,
          r 1 h.1 f g h.2 o * l 1 h.1 f g h.2 o) +
        (∑ i ∈ d.oa, ∑ p ∈ uniquePairs d.nub, ∑ h ∈ uniquePairs d.nob,
          r 2 i p.1 p.2 h.1 h.2 * l 2 i p.1 p.2 h.1 h.2)) := by
  have n2 : (2 : K) ≠ 0 := OfNat.ofNat_ne_zero 2
  have n4 : (4 : K) ≠ 0 := OfNat.ofNat_ne_zero 4
  have n12 : (12 : K) ≠ 0 := OfNat.ofNat_ne_zero 12
  have s1 : ∑ m ∈ d.oa, ∑ f ∈ d.va, ∑ n ∈ d.oa, R.aa m f n * L.aa m f n =
      2 * ∑ f ∈ d.va, ∑ h ∈ uniquePairs d.noa, R.aa h.1 f h.2 * L.aa h.1 f h.2 := by
    rw [sum_comm, mul_sum]
    exact sum_congr rfl fun f _ => overlap_pairs d.noa (ar.1 f) (al.1 f)
  have s2 : contract5 d.noa d.nua d.nua d.noa d.noa (r 0) (l 0) =
      12 * ∑ p ∈ uniquePairs d.nua, ∑ h ∈ uniqueTriples d.noa,
          r 0 h.1 p.1 p.2 h.2.1 h.2.2 * l 0 h.1 p.1 p.2 h.2.1 h.2.2 := by
    unfold contract5
    rw [sum_comm]
    simp only [fun f => sum_comm (s := range d.noa) (t := range d.nua) (f := fun i g =>
      ∑ n ∈ range d.noa, ∑ o ∈ range d.noa, r 0 i f g n o * l 0 i f g n o)]
    simp only [fun f g => overlap_triples d.noa (ar.2.1.holes f g) (al.2.1.holes f g)]
    rw [sum_pairs, mul_sum, mul_sum]
    · refine sum_congr rfl fun p _ => ?_; ring
    · intro a b
      have e1 := fun i n o => ar.2.1.particles i n o a b
      have e2 := fun i n o => al.2.1.particles i n o a b
      simp only at e1 e2
      simp only [e1, e2, neg_mul_neg]
    · intro a
      have e1 := fun i n o => (ar.2.1.particles i n o).diag a
      simp [e1]
  have s3 : contract5 d.noa d.nua d.nub d.noa d.nob (r 1) (l 1) =
      2 * ∑ f ∈ d.va, ∑ g ∈ d.vb, ∑ h ∈ uniquePairs d.noa, ∑ o ∈ d.ob,
          r 1 h.1 f g h.2 o * l 1 h.1 f g h.2 o := by
    unfold contract5
    rw [sum_comm, mul_sum]
    refine sum_congr rfl fun f _ => ?_
    rw [sum_comm, mul_sum]
    refine sum_congr rfl fun g _ => ?_
    refine sum_pairs (F := fun i n => ∑ o ∈ d.ob, r 1 i f g n o * l 1 i f g n o) ?_ ?_
    · intro a b
      have e1 := fun o => ar.2.2.1 f g o a b
      have e2 := fun o => al.2.2.1 f g o a b
      simp only at e1 e2
      simp only [e1, e2, neg_mul_neg]
    · intro a
      have e1 := fun o => (ar.2.2.1 f g o).diag a
      simp [e1]
  have s4 : contract5 d.noa d.nub d.nub d.nob d.nob (r 2) (l 2) =
      4 * ∑ i ∈ d.oa, ∑ p ∈ uniquePairs d.nub, ∑ h ∈ uniquePairs d.nob,
          r 2 i p.1 p.2 h.1 h.2 * l 2 i p.1 p.2 h.1 h.2 := by
    unfold contract5
    rw [mul_sum]
    refine sum_congr rfl fun i _ => ?_
    refine contract_doubles d.nub d.nob (s := fun a b c e => r 2 i a b c e) (t := fun a b c e => l 2 i a b c e)
      ⟨fun n o => ar.2.2.2.particles i n o, fun f g => ar.2.2.2.holes i f g⟩
      ⟨fun n o => al.2.2.2.particles i n o, fun f g => al.2.2.2.holes i f g⟩
  unfold getLRip openTriples
  rw [if_pos ⟨oL, oR⟩, r1, r2, r3, l1, l2, l3]
  simp only [einsumFull, Bool.not_false, if_true, Option.bind_eq_bind, Option.bind_some, Option.pure_def,
    Option.some.injEq]
  rw [s1, s2, s3, s4]
  field_simp

/-- Antisymmetry of `efn` in the particles. -/
def AntisymEa2 (t : ℕ → ℕ → ℕ → K) : Prop := ∀ n, Antisym2 fun e f => t e f n
/-- Antisymmetry of `efgno` with three like-spin particles and two like-spin holes. -/
structure AntisymEa3 (t : Array5 K) : Prop where
  particles : ∀ n o, Antisym3 fun e f g => t e f g n o
  holes : ∀ e f g, Antisym2 fun n o => t e f g n o
/-- Antisymmetry of `efgno`, two alpha particles and a beta one, holes alpha and beta. -/
def AntisymEaAab (t : Array5 K) : Prop := ∀ g n o, Antisym2 fun e f => t e f g n o

/-- C35, attached states: `get_LR_eaeom` with full antisymmetric arrays counts every excitation once. -/
theorem C35_ea (d : Dims) (R L : OpenVector K) (oR : R.order = 3) (oL : L.order = 3) (r l : Fin 3 → Array5 K)
    (r1 : R.aaa = .full (r 0)) (r2 : R.aab = .full (r 1)) (r3 : R.abb = .full (r 2))
    (l1 : L.aaa = .full (l 0)) (l2 : L.aab = .full (l 1)) (l3 : L.abb = .full (l 2))
    (ar : AntisymEa2 R.aa ∧ AntisymEa3 (r 0) ∧ AntisymEaAab (r 1) ∧ AntisymIpAbb (r 2))
    (al : AntisymEa2 L.aa ∧ AntisymEa3 (l 0) ∧ AntisymEaAab (l 1) ∧ AntisymIpAbb (l 2)) :
    getLRea d false R L = some
      ((∑ e ∈ d.va, R.a e * L.a e) +
        (∑ p ∈ uniquePairs d.nua, ∑ n ∈ d.oa, R.aa p.1 p.2 n * L.aa p.1 p.2 n) +
        (∑ e ∈ d.va, ∑ f ∈ d.vb, ∑ n ∈ d.ob, R.ab e f n * L.ab e f n) +
        (∑ p ∈ uniqueTriples d.nua, ∑ h ∈ uniquePairs d.noa,
          r 0 p.1 p.2.1 p.2.2 h.1 h.2 * l 0 p.1 p.2.1 p.2.2 h.1 h.2) +
        (∑ p ∈ uniquePairs d.nua, ∑ g ∈ d.vb, ∑ n ∈ d.oa, ∑ o ∈ d.ob,
          r 1 p.1 p.2 g n o * l 1 p.1 p.2 g n o) +
        (∑ e ∈ d.va, ∑ p ∈ uniquePairs d.nub, ∑ h ∈ uniquePairs d.nob,
          r 2 e p.1 p.2 h.1 h.2 * l 2 e p.1 p.2 h.1 h.2)) := by
  have n2 : (2 : K) ≠ 0 := OfNat.ofNat_ne_zero 2
  have n4 : (4 : K) ≠ 0 := OfNat.ofNat_ne_zero 4
  have n12 : (12 : K) ≠ 0 := OfNat.ofNat_ne_zero 12
  have s1 : ∑ e ∈ d.va, ∑ f ∈ d.va, ∑ n ∈ d.oa, R.aa e f n * L.aa e f n =
      2 * ∑ p ∈ uniquePairs d.nua, ∑ n ∈ d.oa, R.aa p.1 p.2 n * L.aa p.1 p.2 n := by
    refine sum_pairs (F := fun e f => ∑ n ∈ d.oa, R.aa e f n * L.aa e f n) ?_ ?_
    · intro a b
      have e1 := fun n => ar.1 n a b
      have e2 := fun n => al.1 n a b
      simp only at e1 e2
      simp only [e1, e2, neg_mul_neg]
    · intro a
      have e1 := fun n => (ar.1 n).diag a
      simp [e1]
  have s2 : contract5 d.nua d.nua d.nua d.noa d.noa (r 0) (l 0) =
      12 * ∑ p ∈ uniqueTriples d.nua, ∑ h ∈ uniquePairs d.noa,
          r 0 p.1 p.2.1 p.2.2 h.1 h.2 * l 0 p.1 p.2.1 p.2.2 h.1 h.2 := by
    unfold contract5
    simp only [fun e f g => overlap_pairs d.noa (ar.2.1.holes e f g) (al.2.1.holes e f g)]
    rw [sum_triples, mul_sum, mul_sum]
    · refine sum_congr rfl fun p _ => ?_; ring
    · intro a b c
      have e1 := fun n o => (ar.2.1.particles n o a b c).1
      have e2 := fun n o => (al.2.1.particles n o a b c).1
      simp only at e1 e2
      simp only [e1, e2, neg_mul_neg]
    · intro a b c
      have e1 := fun n o => (ar.2.1.particles n o a b c).2
      have e2 := fun n o => (al.2.1.particles n o a b c).2
      simp only at e1 e2
      simp only [e1, e2, neg_mul_neg]
    · intro a b
      have e1 := fun n o => (ar.2.1.particles n o).diag a b
      simp [e1]
  have s3 : contract5 d.nua d.nua d.nub d.noa d.nob (r 1) (l 1) =
      2 * ∑ p ∈ uniquePairs d.nua, ∑ g ∈ d.vb, ∑ n ∈ d.oa, ∑ o ∈ d.ob,
          r 1 p.1 p.2 g n o * l 1 p.1 p.2 g n o := by
    unfold contract5
    refine sum_pairs (F := fun e f => ∑ g ∈ d.vb, ∑ n ∈ d.oa, ∑ o ∈ d.ob, r 1 e f g n o * l 1 e f g n o) ?_ ?_
    · intro a b
      have e1 := fun g n o => ar.2.2.1 g n o a b
      have e2 := fun g n o => al.2.2.1 g n o a b
      simp only at e1 e2
      simp only [e1, e2, neg_mul_neg]
    · intro a
      have e1 := fun g n o => (ar.2.2.1 g n o).diag a
      simp [e1]
  have s4 : contract5 d.nua d.nub d.nub d.nob d.nob (r 2) (l 2) =
      4 * ∑ i ∈ d.va, ∑ p ∈ uniquePairs d.nub, ∑ h ∈ uniquePairs d.nob,
          r 2 i p.1 p.2 h.1 h.2 * l 2 i p.1 p.2 h.1 h.2 := by
    unfold contract5
    rw [mul_sum]
    refine sum_congr rfl fun i _ => ?_
    refine contract_doubles d.nub d.nob (s := fun a b c e => r 2 i a b c e) (t := fun a b c e => l 2 i a b c e)
      ⟨fun n o => ar.2.2.2.particles i n o, fun f g => ar.2.2.2.holes i f g⟩
      ⟨fun n o => al.2.2.2.particles i n o, fun f g => al.2.2.2.holes i f g⟩
  unfold getLRea openTriples
  rw [if_pos ⟨oL, oR⟩, r1, r2, r3, l1, l2, l3]
  simp only [einsumFull, Bool.not_false, if_true, Option.bind_eq_bind, Option.bind_some, Option.pure_def,
    Option.some.injEq]
  rw [s1, s2, s3, s4]
  field_simp

/-! Examples -/

/-- An antisymmetric vector with full triples. -/
def exVec (k : ℚ) : Vector ℚ where
  order := 3
  a a i := k * a + i + 1
  b a i := a - k * i
  aa a b i j := (a - b) * (i - j) * (k + a + b)
  ab a b i j := k * a + b - i + 2 * j
  bb a b i j := (a - b) * (i - j) * (i + j)
  aaa := .full fun a b c i j l => (a - b) * (b - c) * (a - c) * (i - j) * (j - l) * (i - l) * k
  aab := .full fun a b c i j l => (a - b) * (i - j) * (c + l)
  abb := .full fun a b c i j l => (b - c) * (j - l) * (a + k * i)
  bbb := .full fun a b c i j l => (a - b) * (b - c) * (a - c) * (i - j) * (j - l) * (i - l)

example : (exVec 2).AntisymDoubles :=
  ⟨⟨fun i j a b => by simp only [exVec]; ring, fun i j a b => by simp only [exVec]; ring⟩,
    ⟨fun i j a b => by simp only [exVec]; ring, fun i j a b => by simp only [exVec]; ring⟩⟩
example : AntisymT (K := ℚ) fun a b c i j l => ((a : ℚ) - b) * (b - c) * (a - c) * (i - j) * (j - l) * (i - l) :=
  ⟨fun i j l a b c => ⟨by ring, by ring⟩, fun a b c i j l => ⟨by ring, by ring⟩⟩
example : AntisymAab (K := ℚ) fun a b c i j l => ((a : ℚ) - b) * (i - j) * (c + l) :=
  ⟨fun i j l a b c => by ring, fun a b c i j l => by ring⟩
example : AntisymAbb (K := ℚ) fun a b c i j l => ((b : ℚ) - c) * (j - l) * (a + 2 * i) :=
  ⟨fun i j l a b c => by ring, fun a b c i j l => by ring⟩
-- three electrons of each spin; a full vector with an excitation list raises
example : getLR ⟨3, 3, 3, 4⟩ false (exVec 2) (exVec 3) = some 27090 ∧
    getLR ⟨3, 3, 3, 4⟩ true (exVec 2) (exVec 3) = none := by decide +kernel

/-- Two excitations with amplitudes of a right and a left vector. -/
def exList : List ((Fin 3 → ℕ) × (Fin 3 → ℕ) × (ℚ × ℚ)) :=
  [(![0, 1, 0], ![0, 2, 1], (2, 3)), (![1, 2, 0], ![0, 1, 0], (-1, 5))]

example : ValidExcitations sAab sAab (Dims.nv ⟨3, 2, 3, 1⟩) (Dims.no ⟨3, 2, 3, 1⟩) exList where
  ordered := by unfold OrderedWithin; decide +kernel
  inRange := by decide +kernel
  nodup := by decide +kernel

/-- No one- and two-body amplitudes. -/
def exZero : Vector ℚ := { exVec 2 with a := 0, b := 0, aa := 0, ab := 0, bb := 0 }

-- the packed overlap adds `2 * 3 - 1 * 5`
example : getLR ⟨3, 2, 3, 1⟩ true (exZero.pack ![[], exList.map fun e => e.2.2.1, [], []])
    (exZero.pack ![[], exList.map fun e => e.2.2.2, [], []]) = some 1 := by decide +kernel
-- vectors of different lengths
example : dotPacked (K := ℚ) (F := Array6 ℚ) (.packed [3, 5]) (.packed [2]) = none := by decide +kernel

/-- Vectors of an ionisation calculation. -/
def exIp : OpenVector ℚ where
  order := 3
  a i := i + 1
  aa i f n := (i - n) * (f + 1)
  ab i f n := i + f * n
  aaa := .full fun i f g n o => (i - n) * (n - o) * (i - o) * (f - g)
  aab := .full fun i f g n o => (i - n) * (f + g + o)
  abb := .full fun i f g n o => (f - g) * (n - o) * (i + 1)

example : AntisymIp2 exIp.aa ∧ AntisymIp3 (K := ℚ) (fun i f g n o => ((i : ℚ) - n) * (n - o) * (i - o) * (f - g)) ∧
    AntisymIpAab (K := ℚ) (fun i f g n o => ((i : ℚ) - n) * (f + g + o)) ∧
    AntisymIpAbb (K := ℚ) (fun i f g n o => ((f : ℚ) - g) * (n - o) * (i + 1)) :=
  ⟨fun f i n => by simp only [exIp]; ring,
    ⟨fun f g i n o => ⟨by ring, by ring⟩, fun i n o f g => by ring⟩, fun f g o i n => by ring,
    ⟨fun i n o f g => by ring, fun i f g n o => by ring⟩⟩
example : getLRip ⟨3, 2, 2, 2⟩ false exIp exIp = some 235 := by decide +kernel

/-- Vectors of an attachment calculation. -/
def exEa : OpenVector ℚ where
  order := 3
  a e := e + 1
  aa e f n := (e - f) * (n + 1)
  ab e f n := e + f * n
  aaa := .full fun e f g n o => (e - f) * (f - g) * (e - g) * (n - o)
  aab := .full fun e f g n o => (e - f) * (g + n + o)
  abb := .full fun i f g n o => (f - g) * (n - o) * (i + 1)

example : AntisymEa2 exEa.aa ∧ AntisymEa3 (K := ℚ) (fun e f g n o => ((e : ℚ) - f) * (f - g) * (e - g) * (n - o)) ∧
    AntisymEaAab (K := ℚ) (fun e f g n o => ((e : ℚ) - f) * (g + n + o)) :=
  ⟨fun f i n => by simp only [exEa]; ring,
    ⟨fun f g i n o => ⟨by ring, by ring⟩, fun i n o f g => by ring⟩, fun f g o i n => by ring⟩
example : getLRea ⟨2, 2, 3, 2⟩ false exEa exEa = some 235 := by decide +kernel

end Ccpy.Amplitudes
