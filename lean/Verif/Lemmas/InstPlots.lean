import Verif.Spec.InstPlots
import Mathlib.Tactic.Linarith
import Mathlib.Tactic.Ring
import Mathlib.Tactic.Positivity
import Mathlib.Tactic.FieldSimp

/-!
# Lemmas for the search of reference frequencies
-/

set_option linter.unusedSectionVars false

namespace Verif.InstPlot

open Verif.InstPlot.Spec

variable {K : Type} [Field K] [LinearOrder K] [IsStrictOrderedRing K]

theorem best_mem (y : K → K) (x : K) (l : List K) : best y x l ∈ x :: l := by
  induction l generalizing x with
  | nil => simp [best]
  | cons z l ih =>
    unfold best
    split
    · exact List.mem_cons_of_mem _ (ih z)
    · have := ih x
      simp only [List.mem_cons] at this ⊢
      tauto

theorem best_max (y : K → K) (x : K) (l : List K) : ∀ z ∈ x :: l, y z ≤ y (best y x l) := by
  induction l generalizing x with
  | nil => intro z hz; simp at hz; simp [best, hz]
  | cons w l ih =>
    intro z hz
    unfold best
    split
    · rename_i h
      simp only [List.mem_cons] at hz
      rcases hz with rfl | hz
      · exact h.le.trans (ih w w (by simp))
      · exact ih w z (by simpa using hz)
    · rename_i h
      simp only [List.mem_cons] at hz
      rcases hz with rfl | rfl | hz
      · exact ih _ _ (by simp)
      · exact (not_lt.1 h).trans (ih x x (by simp))
      · exact ih x z (by simp [hz])

/-- Nothing in front of the point found is as good, if the list is increasing. -/
theorem best_first (y : K → K) (x : K) (l : List K) (hs : (x :: l).Pairwise (· < ·)) :
    ∀ z ∈ x :: l, z < best y x l → y z < y (best y x l) := by
  induction l generalizing x with
  | nil =>
    intro z hz hlt
    simp only [List.mem_singleton] at hz
    simp [best, hz] at hlt
  | cons w l ih =>
    intro z hz hlt
    unfold best at hlt ⊢
    have hsw : (w :: l).Pairwise (· < ·) := (List.pairwise_cons.1 hs).2
    have hsx : (x :: l).Pairwise (· < ·) := by
      rw [List.pairwise_cons] at hs ⊢
      exact ⟨fun a ha => hs.1 a (by simp [ha]), (List.pairwise_cons.1 hs.2).2⟩
    split
    · rename_i h
      rw [if_pos h] at hlt
      simp only [List.mem_cons] at hz
      rcases hz with rfl | hz
      · exact h.trans_le (best_max y w l w (by simp))
      · exact ih w hsw z (by simpa using hz) hlt
    · rename_i h
      rw [if_neg h] at hlt
      simp only [List.mem_cons] at hz
      rcases hz with rfl | rfl | hz
      · exact ih _ hsx _ (by simp) hlt
      · have hb := best_mem y x l
        have hxw : x < z := (List.pairwise_cons.1 hs).1 z (by simp)
        have hxlt : x < best y x l := hxw.trans hlt
        exact (not_lt.1 h).trans_lt (ih x hsx x (by simp) hxlt)
      · exact ih x hsx z (by simp [hz]) hlt

theorem points_cons (n : ℕ) (a b : K) (hn : 0 < n) : ∃ l, points n a b = a :: l ∧
    (a < b → (a :: l).Pairwise (· < ·)) := by
  have e : points n a b = a :: ((List.range n).map (fun k : ℕ => a + ((k : K) + 1) * ((b - a) / n))) := by
    unfold points
    rw [List.range_succ_eq_map, List.map_cons, List.map_map]
    simp only [Nat.cast_zero, zero_mul, add_zero, List.cons.injEq, true_and]
    apply List.map_congr_left
    intro k _
    simp [Function.comp]
  refine ⟨_, e, fun hab => ?_⟩
  rw [← e]
  unfold points
  have hs : 0 < (b - a) / (n : K) := div_pos (by linarith) (by exact_mod_cast hn)
  rw [List.pairwise_map]
  refine List.Pairwise.imp ?_ List.pairwise_lt_range
  intro i j hij
  have : (i : K) < j := by exact_mod_cast hij
  have := mul_lt_mul_of_pos_right this hs
  linarith

/-- The point found: one of the points, at least as good as all others and better than those in front of it. -/
theorem chosen (y : K → K) (n : ℕ) (a b : K) (hn : 0 < n) (hab : a < b) :
    ∃ k, k ≤ n ∧ best y a (points n a b) = a + k * ((b - a) / n) ∧
      (∀ j ≤ n, y (a + j * ((b - a) / n)) ≤ y (best y a (points n a b))) ∧
      ∀ j < k, y (a + j * ((b - a) / n)) < y (best y a (points n a b)) := by
  obtain ⟨l, e, hs⟩ := points_cons n a b hn
  have hbest : best y a (points n a b) = best y a l := by
    rw [e]
    show (if y a < y a then best y a l else best y a l) = _
    simp
  rw [hbest]
  have hst : 0 < (b - a) / (n : K) := div_pos (by linarith) (by exact_mod_cast hn)
  have hmem : ∀ x, x ∈ a :: l ↔ ∃ k ≤ n, a + (k : ℕ) * ((b - a) / (n : K)) = x := by
    intro x
    rw [← e]
    unfold points
    simp only [List.mem_map, List.mem_range]
    constructor
    · rintro ⟨k, hk, h⟩; exact ⟨k, by omega, h⟩
    · rintro ⟨k, hk, h⟩; exact ⟨k, by omega, h⟩
  obtain ⟨k, hk, hkx⟩ := (hmem _).1 (best_mem y a l)
  refine ⟨k, hk, hkx.symm, ?_, ?_⟩
  · intro j hj
    exact best_max y a l _ ((hmem _).2 ⟨j, hj, rfl⟩)
  · intro j hj
    refine best_first y a l (hs hab) _ ((hmem _).2 ⟨j, by omega, rfl⟩) ?_
    rw [← hkx]
    have : (j : K) < k := by exact_mod_cast hj
    have := mul_lt_mul_of_pos_right this hst
    linarith

end Verif.InstPlot
