import Verif.Model.Operators
import Verif.Lemmas.Operators
import Mathlib.Logic.Relation

/-! C10 (flatten/unflatten round trips) and C11 (growing the P space). -/

namespace Ccpy.Operators
variable {α : Type*} [Zero α]

/-- What a solver may do to an operator between flattens: replace an amplitude array by one of the
same shape, or load a vector with `unflatten`. -/
inductive Use : Op α → Op α → Prop
  | assign (t : Op α) (n : Name) (a b : Arr α) (h : t.attrs n = some (.dense b))
      (hd : a.dims = b.dims) (hl : a.data.length = b.data.length) :
      Use t { t with attrs := Function.update t.attrs n (some (.dense a)) }
  | load (t t' : Op α) (w : List α) (ord : ℕ) (h : t.unflatten w ord = some t') : Use t t'

/-- The round-trip property of one operator object. -/
def RoundTrips (t : Op α) : Prop :=
  (∃ w, t.flatten = some w ∧ w.length = t.ndim ∧ t.unflatten w = some t) ∧
  ∀ w : List α, w.length = t.ndim → ∃ t', t.unflatten w = some t' ∧ t'.flatten = some w ∧
    t'.ndim = t.ndim

omit [Zero α] in
private theorem roundTrips_of_wf {t : Op α} (h : t.WF) : RoundTrips t := by
  obtain ⟨w, hw, hl⟩ := t.flatten_len h
  refine ⟨⟨w, hw, hl, t.id_flat h w hw⟩, ?_⟩
  intro w hw
  obtain ⟨t', h1, h2⟩ := t.set_flat h w hw
  refine ⟨t', h1, h2, ?_⟩
  unfold Op.unflatten at h1
  simp only [Option.map_eq_some_iff] at h1
  obtain ⟨_, _, rfl⟩ := h1
  rfl

omit [Zero α] in
private theorem wf_use {t t' : Op α} (h : t.WF) (hu : Relation.ReflTransGen Use t t') : t'.WF := by
  induction hu with
  | refl => exact h
  | tail _ hs ih =>
    cases hs with
    | assign n a b hb hd hl => exact Op.wf_assign ih n a b hb hd hl
    | load _ w ord h => exact Op.wf_unflatten ih w ord h

/-- C10 for cluster operators: in every state reached by assignments and loads, flattening gives a
vector of the advertised length, loading it back is the identity, and loading any vector of that
length and flattening again returns that vector.  Required: nonempty P-space blocks, active ranks
the highest ones, and no more active indices demanded than the rank has.
Partial: without these see `C10_empty_pspace_fails` and `C10_active_middle_fails`. -/
theorem C10_cluster_roundtrip_partial (s : Sizes) (order : ℕ) (pOrders : List ℕ)
    (pSizes : List (List ℕ)) (actOrders numActive : List ℕ) (t t' : Op α) (ho : 0 < order)
    (hpos : ∀ c ∈ pSizes, ∀ x ∈ c, 0 < x)
    (hup : ∀ k ∈ actOrders, 1 ≤ k ∧ ∀ j, k ≤ j → j ≤ order → j ∈ actOrders)
    (hact : ∀ k ∈ actOrders, ∀ n ∈ numActive, n ≤ k)
    (hbuild : clusterOperator s order pOrders pSizes actOrders numActive = some t)
    (huse : Relation.ReflTransGen Use t t') : RoundTrips t' :=
  roundTrips_of_wf (wf_use
    (clusterOperator_wf s order pOrders pSizes actOrders numActive t ho hpos hup hact hbuild) huse)

/-- C10 for full operators (no P space, no active space): unconditional. -/
theorem C10_full_roundtrip (s : Sizes) (order : ℕ) (ho : 0 < order) :
    ∃ t : Op α, clusterOperator s order [] [] [] [] = some t ∧
      ∀ t', Relation.ReflTransGen Use t t' → RoundTrips t' := by
  have hb : ∀ (is : List ℕ) (a p : ℕ) (t : Op α), ∃ t', addRanks s [] [] [] [] is a p t = some t' := by
    intro is
    induction is with
    | nil => intro a p t; exact ⟨t, rfl⟩
    | cons i is ih =>
      intro a p t
      have hr : ∀ (js : List ℕ) (t : Op α), ∃ t', addRank s i .full js t = some t' := by
        intro js
        induction js with
        | nil => intro t; exact ⟨t, rfl⟩
        | cons j js ihj => intro t; simp only [addRank]; exact ihj _
      obtain ⟨t1, h1⟩ := hr (List.range (i + 1)) t
      obtain ⟨t2, h2⟩ := ih a p t1
      exact ⟨t2, by simp [addRanks, h1, h2]⟩
  obtain ⟨t, ht⟩ := hb (List.range' 1 order) 0 0 ⟨order, [], [], fun _ => none, 0⟩
  exact ⟨t, ht, fun t' hu => C10_cluster_roundtrip_partial s order [] [] [] [] t t' ho (by simp)
    (by simp) (by simp) ht hu⟩

/-- C10 for electron attaching/removing operators (one or two electrons). -/
theorem C10_fock_roundtrip_partial (s : Sizes) (np nh : ℕ) (pOrders : List ℕ)
    (pSizes : List (List ℕ)) (t t' : Op α) (hpos : ∀ c ∈ pSizes, ∀ x ∈ c, 0 < x)
    (h1 : np ≤ nh + 2) (h2 : nh ≤ np + 2)
    (hbuild : fockOperator s np nh pOrders pSizes = some t)
    (huse : Relation.ReflTransGen Use t t') : RoundTrips t' :=
  roundTrips_of_wf (wf_use (fockOperator_wf s np nh pOrders pSizes t hpos h1 h2 hbuild) huse)

/-- C10 for spin-flip operators up to triples. -/
theorem C10_spinflip_roundtrip (s : Sizes) (order : ℕ) (ho : order ≤ 2) (t' : Op α)
    (huse : Relation.ReflTransGen Use (spinFlipOperator s order) t') : RoundTrips t' :=
  roundTrips_of_wf (wf_use (spinFlip_wf s order ho) huse)

/-- C10: loading only up to rank `ord` reads exactly those blocks, in order, from a vector of their
total size, and leaves the higher ranks alone. -/
theorem C10_partial_load (s : Sizes) (order : ℕ) (pOrders : List ℕ) (pSizes : List (List ℕ))
    (t : Op α) (ho : 0 < order) (hpos : ∀ c ∈ pSizes, ∀ x ∈ c, 0 < x)
    (hbuild : clusterOperator s order pOrders pSizes [] [] = some t) (ord : ℕ) (hord : 0 < ord)
    (w : List α) (w0 : List α)
    (hw0 : ((t.spinCases.filter (fun n => decide (n.length ≤ ord))).mapM
        (fun n => (t.attrs n).bind Val.flat)).map List.flatten = some w0)
    (hw : w.length = w0.length) :
    ∃ t', t.unflatten w ord = some t' ∧ (∀ n, ord < n.length → t'.attrs n = t.attrs n) ∧
      ((t.spinCases.filter (fun n => decide (n.length ≤ ord))).mapM
        (fun n => (t'.attrs n).bind Val.flat)).map List.flatten = some w := by
  have hwf := clusterOperator_wf s order pOrders pSizes [] [] t ho hpos (by simp) (by simp) hbuild
  obtain ⟨Ls, hL1, hL2⟩ := flat_len valLaws
    ((t.dimensions.zip t.spinCases).filter (fun e => decide (e.2.length ≤ ord))) t.attrs
    (fun e he => hwf.good e (List.mem_of_mem_filter he))
  have hnames : ((t.dimensions.zip t.spinCases).filter (fun e => decide (e.2.length ≤ ord))).map Prod.snd =
      t.spinCases.filter (fun n => decide (n.length ≤ ord)) := by
    conv_rhs => rw [← t.names hwf, List.filter_map]
    rfl
  rw [hnames] at hL1
  rw [hL1, Option.map_some, Option.some.injEq] at hw0
  subst hw0
  obtain ⟨t', h1, h2, Ls', h3, h4⟩ := Op.unflatten_order hwf w ord hord (by rw [hw, hL2])
  exact ⟨t', h1, h2, by rw [h3, Option.map_some, h4]⟩

/-- Shape of a full block: for the letters of its name, the numbers of unoccupied orbitals of these
spins, then the numbers of occupied ones. -/
def blockShape (s : Sizes) (n : Name) : List ℕ :=
  (n.map fun c => if c = 'a' then s.nua else s.nub) ++ (n.map fun c => if c = 'a' then s.noa else s.nob)

theorem blockShape_operatorName (s : Sizes) (i j : ℕ) :
    blockShape s (operatorName i j) = operatorDimension s i j := by
  simp [blockShape, operatorName, operatorDimension, List.map_replicate]

/-- Names of full blocks have full shape; every name registered so far has a value. -/
def Shaped (s : Sizes) (pOrders : List ℕ) (t : Op α) : Prop :=
  ∀ n a, t.attrs n = some (.dense a) → n.length ∉ pOrders → a.dims = blockShape s n

omit [Zero α] in
theorem Shaped.update {s : Sizes} {pOrders : List ℕ} {t t' : Op α} (h : Shaped s pOrders t) (n : Name)
    (v : Val α) (ht : t'.attrs = Function.update t.attrs n (some v))
    (hv : ∀ a, v = .dense a → n.length ∉ pOrders → a.dims = blockShape s n) : Shaped s pOrders t' := by
  intro m a hm hp
  rw [ht] at hm
  by_cases e : m = n
  · subst e
    rw [Function.update_self] at hm
    exact hv a (Option.some.inj hm) hp
  · rw [Function.update_of_ne e] at hm
    exact h m a hm hp

theorem addRank_shaped (s : Sizes) (pOrders : List ℕ) (i : ℕ) (r : Rank) (hr : ∀ c, r = .pspace c → i ∈ pOrders)
    (js : List ℕ) (hj : ∀ j ∈ js, j ≤ i) (t t' : Op α) (ht : Shaped s pOrders t)
    (h : addRank s i r js t = some t') :
    Shaped s pOrders t' ∧ (∀ n, t.attrs n ≠ none → t'.attrs n ≠ none) ∧
      ∀ j ∈ js, t'.attrs (operatorName i j) ≠ none := by
  induction js generalizing t with
  | nil =>
    obtain rfl := Option.some.inj h
    exact ⟨ht, fun _ h => h, by simp⟩
  | cons j js ih =>
    have step : ∀ t1 : Op α, ∀ v : Val α, t1.attrs = Function.update t.attrs (operatorName i j) (some v) →
        Shaped s pOrders t1 → addRank s i r js t1 = some t' →
        Shaped s pOrders t' ∧ (∀ n, t.attrs n ≠ none → t'.attrs n ≠ none) ∧
          ∀ k ∈ j :: js, t'.attrs (operatorName i k) ≠ none := by
      intro t1 v hv hs1 h1
      obtain ⟨g1, g2, g3⟩ := ih (fun k hk => hj k (List.mem_cons_of_mem _ hk)) t1 hs1 h1
      refine ⟨g1, fun n hn => g2 n ?_, fun k hk => ?_⟩
      · rw [hv]
        by_cases e : n = operatorName i j
        · rw [e, Function.update_self]; simp
        · rw [Function.update_of_ne e]; exact hn
      · rcases List.mem_cons.mp hk with rfl | hk
        · refine g2 _ ?_
          rw [hv, Function.update_self]
          simp
        · exact g3 k hk
    have hlen : (operatorName i j).length = i := by
      have := hj j List.mem_cons_self
      simp [operatorName]
      omega
    cases r with
    | full =>
      simp only [addRank] at h
      refine step _ _ rfl ?_ h
      refine ht.update (operatorName i j) _ rfl ?_
      intro a ha _
      rw [← Val.dense.inj ha, blockShape_operatorName]
      rfl
    | active nact =>
      simp only [addRank] at h
      refine step _ _ rfl ?_ h
      refine ht.update (operatorName i j) _ rfl ?_
      intro a ha
      cases ha
    | pspace counts =>
      simp only [addRank] at h
      cases hc : counts[j]? with
      | none => rw [hc] at h; simp at h
      | some c =>
        rw [hc] at h
        simp only [Option.bind_some] at h
        have hx : ∃ v, (t.addPspace (operatorName i j) c).attrs
            = Function.update t.attrs (operatorName i j) (some v) := by
          unfold Op.addPspace
          split <;> exact ⟨_, rfl⟩
        obtain ⟨v, hv⟩ := hx
        refine step _ v hv ?_ h
        refine ht.update (operatorName i j) v hv ?_
        intro a _ hp
        rw [hlen] at hp
        exact absurd (hr _ rfl) hp

theorem addRanks_shaped (s : Sizes) (pOrders : List ℕ) (pSizes : List (List ℕ))
    (actOrders numActive : List ℕ) (is : List ℕ) (a p : ℕ) (t t' : Op α) (ht : Shaped s pOrders t)
    (h : addRanks s pOrders pSizes actOrders numActive is a p t = some t') :
    Shaped s pOrders t' ∧ (∀ n, t.attrs n ≠ none → t'.attrs n ≠ none) ∧
      ∀ i ∈ is, ∀ j, j ≤ i → t'.attrs (operatorName i j) ≠ none := by
  induction is generalizing a p t with
  | nil =>
    obtain rfl := Option.some.inj h
    exact ⟨ht, fun _ h => h, by simp⟩
  | cons i is ih =>
    have step : ∀ (r : Rank) (a p : ℕ), (∀ c, r = .pspace c → i ∈ pOrders) →
        (addRank s i r (List.range (i + 1)) t).bind
          (addRanks s pOrders pSizes actOrders numActive is a p) = some t' →
        Shaped s pOrders t' ∧ (∀ n, t.attrs n ≠ none → t'.attrs n ≠ none) ∧
          ∀ k ∈ i :: is, ∀ j, j ≤ k → t'.attrs (operatorName k j) ≠ none := by
      intro r a p hr hb
      rw [Option.bind_eq_some_iff] at hb
      obtain ⟨t1, h1, h2⟩ := hb
      obtain ⟨g1, g2, g3⟩ := addRank_shaped s pOrders i r hr _ (fun j hj => by simp at hj; omega) t t1 ht h1
      obtain ⟨k1, k2, k3⟩ := ih a p t1 g1 h2
      refine ⟨k1, fun n hn => k2 n (g2 n hn), fun k hk j hjk => ?_⟩
      rcases List.mem_cons.mp hk with rfl | hk
      · exact k2 _ (g3 j (by simp; omega))
      · exact k3 k hk j hjk
    simp only [addRanks] at h
    split_ifs at h with c1 c2 c3
    · obtain ⟨x, -, h⟩ := Option.bind_eq_some_iff.mp h
      obtain ⟨y, -, h⟩ := Option.bind_eq_some_iff.mp h
      exact step _ _ _ (by simp) h
    · obtain ⟨x, -, h⟩ := Option.bind_eq_some_iff.mp h
      exact step _ _ _ (by simp) h
    · obtain ⟨x, -, h⟩ := Option.bind_eq_some_iff.mp h
      exact step _ _ _ (fun _ _ => c3) h
    · exact step _ _ _ (by simp) h

/-- C10: a cluster operator has a block for every rank up to its order and every number of beta
indices, and each block of a rank without P space that is stored as one array has the shape of its
spins. -/
theorem C10_shapes (s : Sizes) (order : ℕ) (pOrders : List ℕ) (pSizes : List (List ℕ))
    (actOrders numActive : List ℕ) (t : Op α)
    (hbuild : clusterOperator s order pOrders pSizes actOrders numActive = some t) :
    (∀ n a, t.attrs n = some (.dense a) → n.length ∉ pOrders → a.dims = blockShape s n) ∧
    ∀ i j, 1 ≤ i → i ≤ order → j ≤ i →
      t.attrs (List.replicate (i - j) 'a' ++ List.replicate j 'b') ≠ none := by
  obtain ⟨h1, -, h3⟩ := addRanks_shaped s pOrders pSizes actOrders numActive (List.range' 1 order) 0 0
    ⟨order, [], [], fun _ => none, 0⟩ t (by intro n a h; simp at h) hbuild
  exact ⟨h1, fun i j hi ho hj => h3 i (by rw [List.mem_range'_1]; omega) j hj⟩

example : blockShape ⟨2, 1, 2, 3, 1, 1, 1, 1, 0, 1, 2, 1⟩ ['a', 'b'] = [2, 3, 2, 1] := by decide

/-- Sizes for the examples: two alpha and one beta electron in four orbitals. -/
def exSizes : Sizes := ⟨2, 1, 2, 3, 1, 1, 1, 1, 0, 1, 2, 1⟩

example : ∃ t : Op ℤ, clusterOperator exSizes 3 [3] [[1, 4, 2, 1]] [] [] = some t ∧
    t.ndim = (4 + 3) + (16 + 12 + 9) + (1 + 4 + 2 + 1) := by
  refine ⟨_, rfl, by decide +kernel⟩

example : ∃ t : Op ℤ, clusterOperator exSizes 3 [] [] [3] [1] = some t :=
  ⟨_, rfl⟩

example : ∃ t : Op ℤ, fockOperator exSizes 3 2 [2] [[3, 5, 1]] = some t := ⟨_, rfl⟩

/-- C10: the storage of every block of a new cluster operator.  A rank among the active orders uses
the `num_active` entry whose position is the number of smaller active ranks; a rank among the P
orders uses the P-space sizes at the position given by the number of smaller P ranks, and inside them
the entry of its number of beta indices; any other rank is a full zero array. -/
theorem C10_storage (s : Sizes) (order : ℕ) (pOrders : List ℕ) (pSizes : List (List ℕ))
    (actOrders numActive : List ℕ) (t : Op α)
    (hbuild : clusterOperator s order pOrders pSizes actOrders numActive = some t)
    (i j : ℕ) (hi : 1 ≤ i ∧ i ≤ order) (hj : j ≤ i) :
    ∃ v, t.attrs (List.replicate (i - j) 'a' ++ List.replicate j 'b') = some v ∧
      (i ∈ actOrders → ∃ c, numActive[(List.range' 1 (i - 1)).countP (· ∈ actOrders)]? = some c ∧
        v = .active (ActiveOp.init s (i - j) j c)) ∧
      (i ∉ actOrders → i ∈ pOrders → ∃ l k,
        pSizes[(List.range' 1 (i - 1)).countP (· ∈ pOrders)]? = some l ∧ l[j]? = some k ∧
        v = .dense (zeros [max 1 k])) ∧
      (i ∉ actOrders → i ∉ pOrders → v = .dense (zeros (operatorDimension s i j))) := by
  have hsplit : List.range' 1 order = List.range' 1 (i - 1) ++ i :: List.range' (i + 1) (order - i) := by
    have e : order = (i - 1) + (order - i + 1) := by omega
    rw [e, ← List.range'_append_1, List.range'_succ]
    simp only [show 1 + (i - 1) = i by omega, show i - 1 + (order - i + 1) - i = order - i by omega]
  obtain ⟨r, hr, hs⟩ := addRanks_stored s pOrders pSizes actOrders numActive (List.range' 1 order)
    List.nodup_range' 0 0 _ t hbuild _ _ i j hj hsplit
  rw [Nat.zero_add, Nat.zero_add] at hr
  unfold Storage at hr
  change Stored s i j (t.attrs (List.replicate (i - j) 'a' ++ List.replicate j 'b')) r at hs
  split_ifs at hr with c1 c2
  · obtain ⟨c, hc, rfl⟩ := hr
    exact ⟨_, hs, fun _ => ⟨c, hc, rfl⟩, fun h => absurd c1 h, fun h => absurd c1 h⟩
  · obtain ⟨l, hl, rfl⟩ := hr
    obtain ⟨k, hk, hv⟩ := hs
    exact ⟨_, hv, fun h => absurd h c1, fun _ _ => ⟨l, k, hl, hk, rfl⟩, fun _ h => absurd c2 h⟩
  · subst hr
    exact ⟨_, hs, fun h => absurd h c1, fun _ h => absurd h c2, fun _ _ => rfl⟩

example : ∃ t : Op ℤ, clusterOperator exSizes 4 [2, 3] [[3, 4, 1], [1, 4, 2, 1]] [4] [1] = some t :=
  ⟨_, rfl⟩
/-- C10, the disagreement: a cluster operator with an empty P-space block (here no `aaa` triples, one
`aab` triple) flattens to a vector longer than the advertised length, and loading that vector back
moves amplitudes into the wrong block. -/
theorem C10_empty_pspace_fails :
    ∃ t : Op ℤ, clusterOperator ⟨1, 1, 1, 1, 0, 1, 1, 0, 0, 1, 1, 0⟩ 3 [3] [[0, 1, 1, 1]] [] [] = some t ∧
      (∃ w, t.flatten = some w ∧ w.length ≠ t.ndim) ∧
      ∃ t1, Use t t1 ∧ ∃ w t2, t1.flatten = some w ∧ t1.unflatten w = some t2 ∧
        (t1.attrs ['a', 'a', 'b']).bind Val.flat = some [7] ∧
        (t2.attrs ['a', 'a', 'b']).bind Val.flat = some [0] := by
  refine ⟨_, rfl, ⟨_, rfl, by decide +kernel⟩,
    _, Use.assign _ ['a', 'a', 'b'] ⟨[1], [7]⟩ ⟨[1], [0]⟩ rfl rfl rfl, _, _, rfl, rfl, rfl, rfl⟩

/-- C10, the disagreement for active operators below the top rank: the recorded dimensions and the
names no longer line up; loading back the flattened vector (of the advertised length) succeeds, but
the triples come out with the wrong sizes, so that flattening again gives another vector. -/
theorem C10_active_middle_fails :
    ∃ t : Op ℤ, clusterOperator exSizes 3 [] [] [2] [1] = some t ∧
      ∃ w, t.flatten = some w ∧ w.length = t.ndim ∧
        ∃ t', t.unflatten w = some t' ∧ t'.flatten.map List.length ≠ some t.ndim := by
  refine ⟨_, rfl, _, rfl, by decide +kernel, ?_⟩
  exact ⟨_, rfl, by decide +kernel⟩

/-- C10: removing or attaching three electrons gives an operator without amplitudes; flattening it
raises. -/
theorem C10_three_electrons_fails (s : Sizes) :
    ∃ t : Op α, fockOperator s 3 0 [] [] = some t ∧ t.flatten = none := by
  refine ⟨_, rfl, rfl⟩

/-! ### C11 -/

/-- Uses of the operator in an adaptive run: also growing the P space. -/
inductive GrowUse : Op α → Op α → Prop
  | use (t t' : Op α) (h : Use t t') : GrowUse t t'
  | grow (t t' : Op α) (counts : List ℕ) (h : extendPspace t counts = some t') : GrowUse t t'

private theorem wf_grow {t t' : Op α} (h : t.WF ∧ Triples t)
    (hu : Relation.ReflTransGen GrowUse t t') : t'.WF ∧ Triples t' := by
  induction hu with
  | refl => exact h
  | tail _ hs ih =>
    cases hs with
    | use h =>
      cases h with
      | assign n a b hb hd hl => exact ⟨Op.wf_assign ih.1 n a b hb hd hl, triples_assign ih.2 n a⟩
      | load _ w ord h => exact ⟨Op.wf_unflatten ih.1 w ord h, triples_unflatten ih.2 w ord h⟩
    | grow counts h =>
      obtain ⟨c0, c1, c2, c3, rfl⟩ := extendPspace_len h
      obtain ⟨t1, h1, h2, h3, _⟩ := extendPspace_spec ih.1 ih.2 c0 c1 c2 c3
      rw [h1, Option.some.injEq] at h
      subst h
      exact ⟨h2, h3⟩

/-- C11: start from a CC(P) operator whose four triples blocks are nonempty and use it in any way,
including any number of extensions.  Then the flat vector always has the advertised length and round
trips; and a further extension succeeds, keeps all old amplitudes in front, appends zeros up to the
requested count (never shrinking), touches nothing else and grows the vector by exactly what was
appended.
Partial: for a block that starts empty see `C11_empty_start_fails`. -/
theorem C11_extend_partial (s : Sizes) (c0 c1 c2 c3 : ℕ) (t0 t : Op α)
    (hpos : 0 < c0 ∧ 0 < c1 ∧ 0 < c2 ∧ 0 < c3)
    (hbuild : clusterOperator s 3 [3] [[c0, c1, c2, c3]] [] [] = some t0)
    (huse : Relation.ReflTransGen GrowUse t0 t) (d0 d1 d2 d3 : ℕ) :
    RoundTrips t ∧
    ∃ t', extendPspace t [d0, d1, d2, d3] = some t' ∧ RoundTrips t' ∧
      (∀ n, n ∉ tripleNames → t'.attrs n = t.attrs n) ∧
      ∃ a b : Fin 4 → Arr α,
        (∀ i : Fin 4, t.attrs (tripleNames[i]'(by simp [tripleNames])) = some (.dense (a i)) ∧
          t'.attrs (tripleNames[i]'(by simp [tripleNames])) = some (.dense (b i)) ∧
          (b i).data = (a i).data ++ List.replicate ((![d0, d1, d2, d3] i) - (a i).data.length) 0) ∧
        t'.ndim = t.ndim + ∑ i, ((![d0, d1, d2, d3] i) - (a i).data.length) := by
  have h0 := clusterOperator_wf s 3 [3] [[c0, c1, c2, c3]] [] [] t0 (by omega)
    (by simp; exact hpos) (by simp) (by simp) hbuild
  obtain ⟨h1, h2⟩ := wf_grow ⟨h0, triples_ccp s c0 c1 c2 c3 t0 hbuild⟩ huse
  obtain ⟨t', e1, e2, _, _, _, e4, e5⟩ := extendPspace_spec h1 h2 d0 d1 d2 d3
  exact ⟨roundTrips_of_wf h1, t', e1, roundTrips_of_wf e2, e4, e5⟩

example : ∃ t0 t1 : Op ℤ, clusterOperator exSizes 3 [3] [[1, 2, 1, 1]] [] [] = some t0 ∧
    extendPspace t0 [1, 4, 2, 1] = some t1 ∧ t1.ndim = t0.ndim + 3 := by
  refine ⟨_, _, rfl, rfl, by decide +kernel⟩

/-- C11: a list of counts that is not of length four is rejected. -/
theorem C11_wrong_length (t : Op α) (counts : List ℕ) (h : counts.length ≠ 4) :
    extendPspace t counts = none := by
  simp [extendPspace, h]

/-- C11, the disagreement: if the `aaa` block starts empty, extending it to two triples leaves the
advertised length one short of the vector. -/
theorem C11_empty_start_fails :
    ∃ t t' : Op ℤ, clusterOperator exSizes 3 [3] [[0, 1, 1, 1]] [] [] = some t ∧
      extendPspace t [2, 1, 1, 1] = some t' ∧
      ∃ w, t'.flatten = some w ∧ w.length = t'.ndim + 1 := by
  refine ⟨_, _, rfl, rfl, _, rfl, by decide +kernel⟩

end Ccpy.Operators
