import Mathlib.Algebra.BigOperators.Group.List.Lemmas
import Mathlib.Algebra.Ring.Basic
import Verif.Lemmas.GridAdd
import Verif.Lemmas.NdArray
import Verif.Model.GridConv
import Verif.Spec.GridConv

/-!
# Sums of convolutions
-/

set_option linter.unusedSectionVars false

namespace Verif.Map

open Verif.Sim (Err)
open Spec

section
variable {V : Type} [AddCommMonoid V]

theorem sum_zero_list {α : Type} (l : List α) : (l.map (fun _ => (0 : V))).sum = 0 := by
  induction l with
  | nil => rfl
  | cons _ _ ih => simp

theorem sum_filterMap_if (l : List ℕ) (P : ℕ → Prop) [DecidablePred P] (h : ℕ → ℕ) (G : ℕ × ℕ → V) :
    ((l.filterMap (fun j => if P j then some (j, h j) else none)).map G).sum =
      (l.map (fun j => if P j then G (j, h j) else 0)).sum := by
  induction l with
  | nil => rfl
  | cons a l ih =>
    by_cases hP : P a
    · simp [hP, ih]
    · simp [hP, ih]

/-- The sum over the pairs of an axis of the convolution. -/
theorem pairs_sum (n s k : ℕ) (G : ℕ × ℕ → V) : ((convPairs true n s k).map G).sum =
    ((List.range n).map (fun j =>
      if j ≤ k + (s - 1) / 2 ∧ k + (s - 1) / 2 - j < s then G (j, k + (s - 1) / 2 - j) else 0)).sum := by
  unfold convPairs
  rw [if_pos rfl]
  exact sum_filterMap_if _ (fun j => j ≤ k + (s - 1) / 2 ∧ k + (s - 1) / 2 - j < s)
    (fun j => k + (s - 1) / 2 - j) G

theorem convSum_zero : ∀ (qs : List (Bool × ℕ × ℕ)) (ks : List ℕ) (f : List ℕ → List ℕ → V),
    (∀ x y, f x y = 0) → convSum qs ks f = 0
  | [], ks, f, h => by unfold convSum; exact h _ _
  | _ :: _, [], f, h => by unfold convSum; exact h _ _
  | q :: qs, k :: ks, f, h => by
    unfold convSum
    have : ∀ p : ℕ × ℕ, convSum qs ks (fun x y => f (p.1 :: x) (p.2 :: y)) = 0 :=
      fun p => convSum_zero qs ks _ (fun x y => h _ _)
    simp only [this]
    exact sum_zero_list _

theorem convSum_congr (qs : List (Bool × ℕ × ℕ)) (ks : List ℕ) (f g : List ℕ → List ℕ → V)
    (h : ∀ x y, f x y = g x y) : convSum qs ks f = convSum qs ks g := by
  have : f = g := by funext x y; exact h x y
  rw [this]

/-- A sum over a longer range of which only the middle counts. -/
theorem sum_range_mid (n p : ℕ) (H : ℕ → V) (h : ∀ j, ¬ (p ≤ j ∧ j < p + n) → H j = 0) :
    ((List.range (n + 2 * p)).map H).sum = ((List.range n).map (fun j => H (j + p))).sum := by
  have e : n + 2 * p = p + (n + p) := by omega
  rw [e, List.range_add, List.range_add]
  simp only [List.map_append, List.sum_append, List.map_map]
  have h1 : (List.map H (List.range p)).sum = 0 := by
    rw [List.map_congr_left (g := fun _ => (0 : V)) (fun j hj => h j (by
      have := List.mem_range.1 hj; omega))]
    exact sum_zero_list _
  have h2 : (List.map (H ∘ (fun x => p + x) ∘ fun x => n + x) (List.range p)).sum = 0 := by
    have : ∀ j ∈ List.range p, (H ∘ (fun x => p + x) ∘ fun x => n + x) j = (fun _ => (0 : V)) j := by
      intro j hj
      exact h _ (by simp)
    rw [List.map_congr_left this]
    exact sum_zero_list _
  rw [h1, h2, zero_add, add_zero]
  congr 1
  apply List.map_congr_left
  intro j _
  simp [Nat.add_comm]

/-- Cells of padding do not contribute. -/
theorem convSum_pad : ∀ (qs : List (Bool × ℕ × ℕ)) (ps ks : List ℕ) (f f' : List ℕ → List ℕ → V),
    List.Forall₂ (fun (q : Bool × ℕ × ℕ) p => q.1 = true ∨ p = 0) qs ps → Valid (qs.map (·.2.1)) ks →
    (∀ x y, x.length = qs.length → f' x y = match unshift (qs.map (·.2.1)) ps x with
      | some x' => f x' y
      | none => 0) →
    convSum (List.zipWith (fun (q : Bool × ℕ × ℕ) p => (q.1, q.2.1 + 2 * p, q.2.2)) qs ps)
      (List.zipWith (· + ·) ks ps) f' = convSum qs ks f
  | [], [], ks, f, f', _, _, hf => by
    simp only [List.zipWith_nil_right]
    unfold convSum
    have := hf [] [] rfl
    simpa [unshift] using this
  | q :: qs, p :: ps, k :: ks, f, f', h, hv, hf => by
    obtain ⟨b, n, s⟩ := q
    have h1 := (List.forall₂_cons.1 h).1
    have h2 := (List.forall₂_cons.1 h).2
    rw [List.map_cons, valid_cons] at hv
    simp only at h1 hv
    have hin : ∀ j o, p ≤ j ∧ j < p + n →
        convSum (List.zipWith (fun (q : Bool × ℕ × ℕ) p => (q.1, q.2.1 + 2 * p, q.2.2)) qs ps)
          (List.zipWith (· + ·) ks ps) (fun x y => f' (j :: x) (o :: y)) =
        convSum qs ks (fun x y => f ((j - p) :: x) (o :: y)) := by
      intro j o hj
      apply convSum_pad qs ps ks _ _ h2 hv.2
      intro x y hx
      rw [hf (j :: x) (o :: y) (by simp [hx])]
      simp only [List.map_cons, unshift]
      rw [if_pos hj]
      cases unshift (qs.map (·.2.1)) ps x <;> rfl
    have hout : ∀ j o, ¬ (p ≤ j ∧ j < p + n) → ∀ x y, x.length = qs.length → f' (j :: x) (o :: y) = 0 := by
      intro j o hj x y hx
      rw [hf (j :: x) (o :: y) (by simp [hx])]
      simp only [List.map_cons, unshift]
      rw [if_neg hj]
    have hout' : ∀ j o, ¬ (p ≤ j ∧ j < p + n) →
        convSum (List.zipWith (fun (q : Bool × ℕ × ℕ) p => (q.1, q.2.1 + 2 * p, q.2.2)) qs ps)
          (List.zipWith (· + ·) ks ps) (fun x y => f' (j :: x) (o :: y)) = 0 := by
      intro j o hj
      have h3 := convSum_pad qs ps ks (fun _ _ => (0 : V)) (fun x y => f' (j :: x) (o :: y)) h2 hv.2 (by
        intro x y hx
        rw [hout j o hj x y hx]
        split <;> rfl)
      rw [h3]
      exact convSum_zero _ _ _ (fun _ _ => rfl)
    simp only [List.zipWith_cons_cons]
    unfold convSum
    cases b with
    | true =>
      rw [pairs_sum, pairs_sum]
      rw [sum_range_mid n p _ (by
        intro j hj
        split
        · exact hout' j _ hj
        · rfl)]
      congr 1
      apply List.map_congr_left
      intro j hj
      have hj' := List.mem_range.1 hj
      have e1 : (j + p ≤ k + p + (s - 1) / 2 ∧ k + p + (s - 1) / 2 - (j + p) < s) ↔
          (j ≤ k + (s - 1) / 2 ∧ k + (s - 1) / 2 - j < s) := by
        constructor <;> rintro ⟨a1, a2⟩ <;> constructor <;> omega
      have e2 : k + p + (s - 1) / 2 - (j + p) = k + (s - 1) / 2 - j := by omega
      simp only [e1]
      split
      · rw [e2, hin (j + p) _ (by omega), Nat.add_sub_cancel]
      · rfl
    | false =>
      have hp : p = 0 := by simpa using h1
      subst hp
      simp only [Nat.mul_zero, Nat.add_zero]
      congr 1
      apply List.map_congr_left
      intro q hq
      have hj : 0 ≤ q.1 ∧ q.1 < 0 + n := by
        unfold convPairs at hq
        simp only [Bool.false_eq_true, if_false] at hq
        split at hq
        · simp at hq; subst hq; simpa using hv.1
        · split at hq
          · simp at hq; subst hq; simpa using hv.1
          · simp at hq; subst hq; simp only; omega
      rw [hin q.1 q.2 hj, Nat.sub_zero]

theorem sum_flatMap_map {α β : Type} (l : List α) (g : α → List β) (h : β → V) :
    ((l.flatMap g).map h).sum = (l.map (fun a => ((g a).map h).sum)).sum := by
  induction l with
  | nil => rfl
  | cons a l ih => simp [List.flatMap_cons, ih]

/-- Along the axes of the convolution: the sum over all cells of what arrives. -/
theorem convSum_true : ∀ (ns ss c : List ℕ) (rest : List (Bool × ℕ × ℕ)) (e : List ℕ) (f : List ℕ → List ℕ → V),
    ss.length = ns.length → Valid ns c →
    convSum ((ns.zip ss).map (fun q => (true, q.1, q.2)) ++ rest) (c ++ e) f =
      ((allCells ns).map (fun c' => match spreads ss c c' with
        | some o => convSum rest e (fun x y => f (c' ++ x) (o ++ y))
        | none => 0)).sum
  | [], [], [], rest, e, f, _, _ => by simp [allCells, spreads]
  | n :: ns, s :: ss, k :: c, rest, e, f, hl, hv => by
    rw [valid_cons] at hv
    simp only [List.zip_cons_cons, List.map_cons, List.cons_append]
    rw [convSum, pairs_sum]
    simp only [allCells]
    rw [sum_flatMap_map]
    congr 1
    apply List.map_congr_left
    intro j hj
    rw [List.map_map]
    split
    · rename_i hc
      rw [convSum_true ns ss c rest e _ (by simpa using hl) hv.2]
      congr 1
      apply List.map_congr_left
      intro c' _
      simp only [Function.comp_apply, spreads]
      rw [if_pos hc]
      cases spreads ss c c' <;> rfl
    · rename_i hc
      have : ((fun c' => match spreads (s :: ss) (k :: c) c' with
          | some o => convSum rest e (fun x y => f (c' ++ x) (o ++ y))
          | none => 0) ∘ fun c' => j :: c') = fun _ => (0 : V) := by
        funext c'
        simp only [Function.comp_apply, spreads]
        rw [if_neg hc]
      rw [this]
      exact (sum_zero_list _).symm
  | [], _ :: _, _, _, _, _, h, _ => by simp at h
  | _ :: _, [], _, _, _, _, h, _ => by simp at h
  | [], [], _ :: _, _, _, _, _, h => by simp [Valid] at h
  | _ :: _, _ :: _, [], _, _, _, _, h => by simp [Valid] at h

/-- Along axes on which the source has one cell. -/
theorem convSum_one : ∀ (ns e : List ℕ) (rest : List (Bool × ℕ × ℕ)) (r : List ℕ) (f : List ℕ → List ℕ → V),
    Valid ns e →
    convSum (ns.map (fun n => (false, n, 1)) ++ rest) (e ++ r) f =
      convSum rest r (fun x y => f (e ++ x) (List.replicate ns.length 0 ++ y))
  | [], [], rest, r, f, _ => by simp
  | n :: ns, k :: e, rest, r, f, hv => by
    rw [valid_cons] at hv
    simp only [List.map_cons, List.cons_append]
    rw [convSum]
    have : convPairs false n 1 k = [(k, 0)] := by
      unfold convPairs
      simp only [Bool.false_eq_true, if_false, if_true]
      split
      · have : k = 0 := by omega
        rw [this]
      · rfl
    simp only [this, List.map_cons, List.map_nil, List.sum_cons, List.sum_nil, add_zero]
    rw [convSum_one ns e rest r _ hv.2]
    rfl
  | [], _ :: _, _, _, _, h => by simp [Valid] at h
  | _ :: _, [], _, _, _, h => by simp [Valid] at h

end

end Verif.Map
