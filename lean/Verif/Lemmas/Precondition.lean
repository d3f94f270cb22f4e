import Verif.Model.Precondition
import Verif.Spec.Precondition
import Verif.Lemmas.FortranLoop
import Mathlib.Algebra.GroupWithZero.Basic
import Mathlib.Algebra.Field.Basic

namespace Ccpy.Precondition
open Ccpy.Fortran Ccpy.Spec

variable {R : Type*} {n : ℕ}

/-- `prog` replaces `r k` by `f k (r k)` for the visited `k` and keeps the rest. -/
def Elem (prog : ((Fin n → ℕ) → R) → (Fin n → ℕ) → R) (V : (Fin n → ℕ) → Prop)
    (f : (Fin n → ℕ) → R → R) : Prop :=
  ∀ r k, (V k → prog r k = f k (r k)) ∧ (¬ V k → prog r k = r k)

theorem elem_skipIf {c : Prop} [Decidable c] {prog : ((Fin n → ℕ) → R) → (Fin n → ℕ) → R}
    {V : (Fin n → ℕ) → Prop} {f : (Fin n → ℕ) → R → R} (h : Elem prog V f) :
    Elem (skipIf c prog) (fun k => ¬ c ∧ V k) f := by
  intro r k
  unfold skipIf
  by_cases hc : c
  · rw [if_pos hc]
    exact ⟨fun hv => absurd hc hv.1, fun _ => rfl⟩
  · rw [if_neg hc]
    exact ⟨fun hv => (h r k).1 hv.2, fun hv => (h r k).2 fun v => hv ⟨hc, v⟩⟩

theorem elem_fold {f : (Fin n → ℕ) → R → R} {body : ℕ → ((Fin n → ℕ) → R) → (Fin n → ℕ) → R}
    {V : ℕ → (Fin n → ℕ) → Prop} (p : Fin n) (h : ∀ i, Elem (body i) (V i) f)
    (hp : ∀ i k, V i k → k p = i) (L : List ℕ) (hL : L.Nodup) :
    Elem (fun r => L.foldl (fun s i => body i s) r) (fun k => ∃ i ∈ L, V i k) f := by
  induction L with
  | nil => exact fun r k => ⟨fun ⟨_, h, _⟩ => absurd h List.not_mem_nil, fun _ => rfl⟩
  | cons i L ih =>
    rw [List.nodup_cons] at hL
    intro r k
    obtain ⟨ih1, ih2⟩ := ih hL.2 (body i r) k
    simp only [List.foldl_cons]
    by_cases hv : V i k
    · have hno : ¬ ∃ j ∈ L, V j k := by
        rintro ⟨j, hj, hvj⟩
        rw [← hp j k hvj, hp i k hv] at hj
        exact hL.1 hj
      refine ⟨fun _ => ?_, fun hn => absurd ⟨i, List.mem_cons_self, hv⟩ hn⟩
      exact (ih2 hno).trans ((h i r k).1 hv)
    · constructor
      · rintro ⟨j, hj, hvj⟩
        rcases List.mem_cons.mp hj with rfl | hj
        · exact absurd hvj hv
        · rw [← (h i r k).2 hv]
          exact ih1 ⟨j, hj, hvj⟩
      · intro hn
        rw [← (h i r k).2 hv]
        exact ih2 fun ⟨j, hj, hvj⟩ => hn ⟨j, List.mem_cons_of_mem _ hj, hvj⟩

theorem elem_do {f : (Fin n → ℕ) → R → R} {lo hi : ℕ}
    {body : ℕ → ((Fin n → ℕ) → R) → (Fin n → ℕ) → R}
    {V : ℕ → (Fin n → ℕ) → Prop} (p : Fin n) (h : ∀ i, Elem (body i) (V i) f)
    (hp : ∀ i k, V i k → k p = i) :
    Elem (doLoop lo hi body) (fun k => ∃ i, lo ≤ i ∧ i ≤ hi ∧ V i k) f := by
  intro r k
  have := elem_fold p h hp (List.range' lo (hi + 1 - lo)) nodup_do r k
  simp only [mem_do, and_assoc] at this
  exact this

variable [Field R]

theorem elem_divideAt {f : (Fin n → ℕ) → R} {key : Fin n → ℕ} {d : R} (hd : d = f key) :
    Elem (divideAt key d) (fun k => k = key) (fun k x => x / f k) := by
  intro r k
  unfold divideAt
  constructor
  · rintro rfl
    rw [Function.update_self, hd]
  · intro h
    rw [Function.update_of_ne h]

theorem preconditioned_of {kind : Fin n → Orb} {no nv : Bool → ℕ} {eo ev : Bool → ℕ → R} {omega : R}
    {prog : ((Fin n → ℕ) → R) → (Fin n → ℕ) → R} {V : (Fin n → ℕ) → Prop}
    (h : Elem prog V (fun k x => x / (omega - excitationEnergy kind eo ev k)))
    (h1 : ∀ k, V k → InBlock kind no nv k)
    (h2 : ∀ k, InBlock kind no nv k → Exclusion kind k →
      omega - excitationEnergy kind eo ev k ≠ 0 → V k) (r : (Fin n → ℕ) → R) :
    Preconditioned kind no nv eo ev omega r (prog r) := by
  refine ⟨fun k hk hx hd => ?_, fun k _ hr => ?_, fun k hk => (h r k).2 fun v => hk (h1 k v)⟩
  · rw [(h r k).1 (h2 k hk hx hd), mul_div_cancel₀ _ hd]
  · by_cases hv : V k
    · rw [(h r k).1 hv, hr]
      exact zero_div _
    · rw [(h r k).2 hv, hr]

end Ccpy.Precondition
