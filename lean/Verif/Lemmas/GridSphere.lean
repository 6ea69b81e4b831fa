import Verif.Model.GridSphere
import Verif.Spec.GridSphere
import Verif.Lemmas.GridReduce

/-!
# Lemmas about spherical averages
-/

set_option linter.unusedSectionVars false

namespace Verif.Map

open Verif.Sim (Err)
open Spec

variable {K V : Type}

theorem indices_eq (s : List ℕ) : indices s = allCells s := by
  induction s with
  | nil => rfl
  | cons n s ih => unfold indices allCells; rw [ih]

theorem allCells_snoc (s : List ℕ) (m : ℕ) : allCells (s ++ [m]) =
    (allCells s).flatMap (fun c => (List.range m).map (fun q => c ++ [q])) := by
  induction s with
  | nil =>
    simp [allCells]
    rw [← List.map_eq_flatMap]
  | cons n s ih =>
    rw [List.cons_append]
    show (List.range n).flatMap (fun i => (allCells (s ++ [m])).map (fun c => i :: c)) =
      ((List.range n).flatMap (fun i => (allCells s).map (fun c => i :: c))).flatMap _
    rw [List.flatMap_assoc]
    congr 1
    funext i
    rw [ih, List.map_flatMap, List.flatMap_map]
    congr 1
    funext c
    rw [List.map_map]
    rfl

theorem range_filter_eq (m p : ℕ) (hp : p < m) :
    (List.range m).filter (fun q => decide (q = p)) = [p] := by
  induction m with
  | zero => omega
  | succ m ih =>
    rw [List.range_succ, List.filter_append]
    by_cases h : p = m
    · subst h
      have : (List.range p).filter (fun q => decide (q = p)) = [] := by
        rw [List.filter_eq_nil_iff]
        intro q hq
        have := List.mem_range.1 hq
        simp; omega
      rw [this]
      simp
    · rw [ih (by omega)]
      have : ¬ m = p := fun e => h e.symm
      simp [this]

/-- The entries of property `p` that satisfy a condition on their cell. -/
theorem filter_snoc (s : List ℕ) (m p : ℕ) (hp : p < m) (P : List ℕ → Prop) [DecidablePred P] :
    (allCells (s ++ [m])).filter (fun i => decide (P i.dropLast ∧ i.getLastD 0 = p)) =
      ((allCells s).filter (fun c => decide (P c))).map (fun c => c ++ [p]) := by
  rw [allCells_snoc, List.filter_flatMap]
  have h1 : ∀ c : List ℕ, ((List.range m).map (fun q => c ++ [q])).filter
      (fun i => decide (P i.dropLast ∧ i.getLastD 0 = p)) = if P c then [c ++ [p]] else [] := by
    intro c
    rw [List.filter_map]
    have h2 : (List.range m).filter ((fun i : List ℕ => decide (P i.dropLast ∧ i.getLastD 0 = p)) ∘
        (fun q => c ++ [q])) = (List.range m).filter (fun q => decide (P c ∧ q = p)) := by
      apply List.filter_congr
      intro q _
      simp
    rw [h2]
    by_cases hc : P c
    · simp only [hc, true_and, if_true]
      rw [range_filter_eq m p hp]
      rfl
    · simp [hc]
  have h3 : (fun c : List ℕ => ((List.range m).map (fun q => c ++ [q])).filter
      (fun i => decide (P i.dropLast ∧ i.getLastD 0 = p))) =
      (fun c => if P c then [c ++ [p]] else []) := funext h1
  rw [h3]
  induction allCells s with
  | nil => rfl
  | cons c l ih =>
    rw [List.flatMap_cons, ih, List.filter_cons]
    by_cases hc : P c <;> simp [hc]

theorem keepAxes_eq {α : Type} (ax : List ℕ) (l : List α) : keepAxes ax l = rest ax l := by
  unfold keepAxes rest
  have : l.zipIdx = (List.range l.length).filterMap (fun i => l[i]?.map (fun x => (x, i))) := by
    induction l using List.reverseRecOn with
    | nil => rfl
    | append_singleton l x ih =>
      rw [List.zipIdx_append, List.length_append, List.length_singleton, List.range_succ,
        List.filterMap_append]
      congr 1
      · rw [ih]
        apply List.filterMap_congr
        intro i hi
        rw [List.getElem?_append_left (List.mem_range.1 hi)]
      · simp
  rw [this, List.filter_filterMap, List.map_filterMap]
  apply List.filterMap_congr
  intro i _
  cases l[i]? with
  | none => simp
  | some x => by_cases h : i ∈ ax <;> simp [h]

section
variable [Field K] [LinearOrder K] [IsStrictOrderedRing K]

theorem digitize_cons (s : K) (l : List K) (r : K) :
    digitize (s :: l) r = if s ≤ r then digitize l r + 1 else digitize l r := by
  unfold digitize
  rw [List.filter_cons]
  by_cases h : s ≤ r <;> simp [h]

theorem digitize_zero (l : List K) (r : K) (h : ∀ s ∈ l, r < s) : digitize l r = 0 := by
  unfold digitize
  rw [List.length_eq_zero_iff, List.filter_eq_nil_iff]
  intro s hs
  have := h s hs
  simp [this]

/-- The bin of a value is the shell that contains it. -/
theorem digitize_iff (l : List K) (hl : l.Pairwise (· < ·)) (r : K) (k : ℕ) (hk : k + 1 < l.length) :
    digitize l r = k + 1 ↔ InShell l k r := by
  induction l generalizing k with
  | nil => simp at hk
  | cons s l ih =>
    obtain ⟨h1, h2⟩ := List.pairwise_cons.1 hl
    rw [digitize_cons]
    cases k with
    | zero =>
      cases l with
      | nil => simp at hk
      | cons t l =>
        simp only [InShell, List.getElem?_cons_zero, Option.mem_def, Option.some.injEq,
          Nat.zero_add, List.getElem?_cons_succ, exists_eq_left']
        by_cases hs : s ≤ r
        · rw [if_pos hs]
          constructor
          · intro h
            refine ⟨hs, ?_⟩
            by_contra hc
            rw [digitize_cons, if_pos (not_lt.1 hc)] at h
            omega
          · rintro ⟨-, hr⟩
            rw [digitize_zero]
            intro x hx
            rcases List.mem_cons.1 hx with rfl | hx
            · exact hr
            · exact lt_trans hr ((List.pairwise_cons.1 h2).1 x hx)
        · rw [if_neg hs, digitize_zero]
          · simp [hs]
          · intro x hx
            exact lt_trans (not_le.1 hs) (h1 x hx)
    | succ k =>
      have hk' : k + 1 < l.length := by simpa using hk
      have := ih h2 k hk'
      simp only [InShell, List.getElem?_cons_succ]
      by_cases hs : s ≤ r
      · rw [if_pos hs]
        rw [show digitize l r + 1 = k + 1 + 1 ↔ digitize l r = k + 1 by omega]
        exact this
      · rw [if_neg hs, digitize_zero l r (fun x hx => lt_trans (not_le.1 hs) (h1 x hx))]
        constructor
        · intro h; omega
        · rintro ⟨lo, hlo, hi, -, hr, -⟩
          exact absurd (le_trans (le_of_lt (h1 lo (List.mem_of_getElem? hlo))) hr) hs

theorem steps_increasing (l : List K) (h : ¬ ∃ p ∈ l.zip l.tail, p.2 - p.1 ≤ 0) :
    l.Pairwise (· < ·) := by
  induction l with
  | nil => exact .nil
  | cons x l ih =>
    have hl : l.Pairwise (· < ·) := by
      apply ih
      rintro ⟨p, hp, h0⟩
      refine h ⟨p, ?_, h0⟩
      cases l with
      | nil => simp at hp
      | cons y l => exact List.mem_cons_of_mem _ hp
    refine List.pairwise_cons.2 ⟨?_, hl⟩
    intro z hz
    cases l with
    | nil => simp at hz
    | cons y l =>
      have hxy : x < y := by
        by_contra hc
        exact h ⟨(x, y), by simp, by simp only; linarith [not_lt.1 hc]⟩
      rcases List.mem_cons.1 hz with rfl | hz
      · exact hxy
      · exact lt_trans hxy ((List.pairwise_cons.1 hl).1 z hz)

theorem increasing_steps (l : List K) (h : l.Pairwise (· < ·)) :
    ¬ ∃ p ∈ l.zip l.tail, p.2 - p.1 ≤ 0 := by
  rintro ⟨⟨x, y⟩, hp, h0⟩
  obtain ⟨i, hi⟩ := List.mem_iff_getElem?.1 hp
  rw [List.getElem?_zip_eq_some] at hi
  obtain ⟨h1, h2⟩ := hi
  rw [List.getElem?_tail] at h2
  rw [List.getElem?_eq_some_iff] at h1 h2
  obtain ⟨a1, b1⟩ := h1
  obtain ⟨a2, b2⟩ := h2
  have := List.pairwise_iff_getElem.1 h i (i + 1) a1 a2 (by omega)
  rw [b1, b2] at this
  simp only at h0
  linarith

variable [FloorRing K]

theorem trunc_int (z : ℤ) : trunc (z : K) = z := by
  unfold trunc
  split <;> simp

theorem addTrunc_int (a : Arr K) (l : List (List ℕ × K)) (ha : ∀ j, ∃ z : ℤ, a.get j = z)
    (hl : ∀ p ∈ l, ∃ z : ℤ, p.2 = z) : addTrunc a l = a.addAll l := by
  induction l generalizing a with
  | nil => rfl
  | cons q l ih =>
    obtain ⟨w, hw⟩ := hl q (List.mem_cons_self ..)
    have e : (⟨a.shape, fun j => if j = q.1 then trunc (a.get j + q.2) else a.get j⟩ : Arr K) =
        a.addAt q.1 q.2 := by
      unfold Arr.addAt
      congr
      funext j
      by_cases hj : j = q.1
      · rw [if_pos hj, if_pos hj]
        obtain ⟨z, hz⟩ := ha j
        rw [hz, hw, ← Int.cast_add, trunc_int]
      · rw [if_neg hj, if_neg hj]
    show addTrunc (⟨a.shape, fun j => if j = q.1 then trunc (a.get j + q.2) else a.get j⟩ : Arr K) l =
      (a.addAt q.1 q.2).addAll l
    rw [e, ih _ ?_ (fun p hp => hl p (List.mem_cons_of_mem _ hp))]
    intro j
    unfold Arr.addAt
    simp only
    by_cases hj : j = q.1
    · rw [if_pos hj]
      obtain ⟨z, hz⟩ := ha j
      exact ⟨z + w, by rw [hz, hw, Int.cast_add]⟩
    · rw [if_neg hj]; exact ha j

/-- Weights below one are lost one by one. -/
theorem addTrunc_small (a : Arr K) (l : List (List ℕ × K)) (ha : ∀ j, a.get j = 0)
    (hl : ∀ p ∈ l, 0 ≤ p.2 ∧ p.2 < 1) : ∀ j, (addTrunc a l).get j = 0 := by
  induction l generalizing a with
  | nil => exact ha
  | cons q l ih =>
    apply ih
    · intro j
      simp only
      obtain ⟨h0, h1⟩ := hl q (List.mem_cons_self ..)
      by_cases hj : j = q.1
      · rw [if_pos hj, ha j, zero_add]
        unfold trunc
        rw [if_pos h0, Int.floor_eq_zero_iff.2 ⟨h0, h1⟩]
        simp
      · rw [if_neg hj, ha j]
    · exact fun p hp => hl p (List.mem_cons_of_mem _ hp)

end

end Verif.Map
