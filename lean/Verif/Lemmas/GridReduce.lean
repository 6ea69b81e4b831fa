import Verif.Model.GridReduce
import Verif.Lemmas.GridFT
import Verif.Lemmas.GridAdd

/-!
# Lemmas about broadcasting and collapsing
-/

set_option linter.unusedSectionVars false

namespace Verif.Map

open Verif.Sim (Err)
open Spec

variable {K V : Type}

theorem bshape_length (s t r : List ℕ) (h : bshape s t = some r) :
    r.length = s.length ∧ r.length = t.length := by
  induction s generalizing t r with
  | nil =>
    cases t with
    | nil => simp [bshape] at h; subst h; simp
    | cons => simp [bshape] at h
  | cons n s ih =>
    cases t with
    | nil => simp [bshape] at h
    | cons m t =>
      unfold bshape at h
      have key : ∀ k, (bshape s t).map (fun r => k :: r) = some r →
          r.length = s.length + 1 ∧ r.length = t.length + 1 := by
        intro k hk
        rcases hb : bshape s t with _ | q
        · rw [hb] at hk; cases hk
        · rw [hb] at hk
          have := Option.some.inj hk
          subst this
          have := ih t q hb
          simp [this.1, ← this.2]
      split_ifs at h
      · exact key _ h
      · exact key _ h
      · exact key _ h

theorem lpad_length (n : ℕ) (s : List ℕ) (h : s.length ≤ n) : (lpad n s).length = n := by
  simp [lpad]; omega

theorem lpad_self (s : List ℕ) : lpad s.length s = s := by simp [lpad]

/-- The result of an operation with broadcasting has as many axes as the operand with more. -/
theorem broadcast_dims {α β γ : Type} (f : α → β → γ) (a : Arr α) (b : Arr β) (c : Arr γ)
    (h : broadcast f a b = .ok c) : c.shape.length = max a.shape.length b.shape.length := by
  unfold broadcast at h
  simp only at h
  split at h
  · cases h
  · rename_i s hs
    simp only [Except.ok.injEq] at h
    subst h
    have := (bshape_length _ _ _ hs).1
    rw [lpad_length _ _ (le_max_left _ _)] at this
    exact this

/-- A shape that fits to another without enlarging it. -/
def BFits (s t : List ℕ) : Prop := List.Forall₂ (fun n m => m = n ∨ m = 1) s t

theorem bshape_fits (s t : List ℕ) (h : BFits s t) : bshape s t = some s := by
  unfold BFits at h
  induction h with
  | nil => rfl
  | @cons n m s t h _ ih =>
    unfold bshape
    rw [ih]
    by_cases h1 : n = m
    · rw [if_pos h1]; rfl
    · rw [if_neg h1]
      have hm : m = 1 := h.resolve_left (fun e => h1 e.symm)
      have hn : ¬ n = 1 := fun e => h1 (by omega)
      rw [if_neg hn, if_pos hm]
      rfl

/-- An operation with an array that fits. -/
theorem broadcast_fits {α β γ : Type} (f : α → β → γ) (a : Arr α) (b : Arr β)
    (hl : b.shape.length ≤ a.shape.length) (h : BFits a.shape (lpad a.shape.length b.shape)) :
    ∃ c, broadcast f a b = .ok c ∧ c.shape = a.shape ∧
      ∀ i, Valid a.shape i → c.get i = f (a.get i)
        (b.get ((bindex (lpad a.shape.length b.shape) i).drop (a.shape.length - b.shape.length))) := by
  unfold broadcast
  simp only [max_eq_left hl, lpad_self, bshape_fits _ _ h]
  refine ⟨_, rfl, rfl, ?_⟩
  intro i hi
  simp only
  rw [Nat.sub_self, List.drop_zero, bindex_self _ _ hi]

theorem fits_ones (s : List ℕ) : BFits s (List.replicate s.length 1) := by
  unfold BFits
  induction s with
  | nil => exact .nil
  | cons n s ih => exact .cons (.inr rfl) ih

theorem fits_refl (s : List ℕ) : BFits s s := by
  unfold BFits
  induction s with
  | nil => exact .nil
  | cons n s ih => exact .cons (.inl rfl) ih

theorem fits_append {s t u v : List ℕ} (h : BFits s t) (k : BFits u v) : BFits (s ++ u) (t ++ v) := by
  unfold BFits at *
  induction h with
  | nil => exact k
  | cons h _ ih => exact .cons h ih

theorem fits_set (s : List ℕ) (ax n : ℕ) (h : s[ax]? = some n) :
    BFits s ((List.replicate s.length 1).set ax n) := by
  unfold BFits
  induction s generalizing ax with
  | nil => simp at h
  | cons m s ih =>
    cases ax with
    | zero =>
      simp only [List.getElem?_cons_zero, Option.some.injEq] at h
      subst h
      exact .cons (.inl rfl) (fits_ones s)
    | succ ax =>
      simp only [List.getElem?_cons_succ] at h
      exact .cons (.inr rfl) (ih ax h)

/-- Inserting an index into a valid one. -/
theorem valid_insert {s i : List ℕ} (ax n j : ℕ) (hn : s[ax]? = some n) (hj : j < n)
    (h : Valid (s.eraseIdx ax) i) : Valid s (i.insertIdx ax j) := by
  unfold Valid at *
  induction s generalizing ax i with
  | nil => simp at hn
  | cons m s ih =>
    cases ax with
    | zero =>
      simp only [List.getElem?_cons_zero, Option.some.injEq] at hn
      subst hn
      simp only [List.eraseIdx_cons_zero] at h
      exact .cons hj h
    | succ ax =>
      simp only [List.getElem?_cons_succ] at hn
      simp only [List.eraseIdx_cons_succ] at h
      cases h with
      | cons h1 h2 =>
        rw [List.insertIdx_succ_cons]
        exact .cons h1 (ih ax hn h2)

theorem bindex_insert (s i : List ℕ) (ax n j : ℕ) (hn : s[ax]? = some n) (hj : j < n)
    (hi : i.length + 1 = s.length) :
    (bindex (s.eraseIdx ax) i).insertIdx ax j = bindex s (i.insertIdx ax j) := by
  induction s generalizing ax i with
  | nil => simp at hn
  | cons m s ih =>
    cases ax with
    | zero =>
      simp only [List.getElem?_cons_zero, Option.some.injEq] at hn
      subst hn
      simp only [List.eraseIdx_cons_zero, List.insertIdx_zero, bindex, List.zipWith_cons_cons]
      congr 1
      split <;> omega
    | succ ax =>
      simp only [List.getElem?_cons_succ] at hn
      cases i with
      | nil =>
        simp only [List.length_nil, List.length_cons] at hi
        have : s = [] := List.length_eq_zero_iff.1 (by omega)
        subst this
        simp at hn
      | cons k i =>
        simp only [List.eraseIdx_cons_succ, List.insertIdx_succ_cons, bindex,
          List.zipWith_cons_cons]
        congr 1
        exact ih i ax hn (by simpa using hi)

theorem fits_erase {s t : List ℕ} (h : BFits s t) (ax : ℕ) : BFits (s.eraseIdx ax) (t.eraseIdx ax) :=
  forall₂_erase h ax

theorem getD_of_some {α : Type} {l : List α} {i : ℕ} {x d : α} (h : l[i]? = some x) :
    l.getD i d = x := by
  rw [List.getD_eq_getElem?_getD, h]; rfl

section
variable [Field K] [AddCommGroup V] [Module K V]

/-- One step of collapsing with weights `wt` and normalisation `nm`. -/
theorem collapseStep_fits (a : Arr V) (ax n : ℕ) (han : a.shape[ax]? = some n) (w nrm : Arr K)
    (hwl : w.shape.length = a.shape.length) (hw : BFits a.shape w.shape) (wt : List ℕ → K)
    (hwt : ∀ i, Valid a.shape i → w.get (bindex w.shape i) = wt i)
    (hnl : nrm.shape.length ≤ (a.shape.eraseIdx ax).length)
    (hn : BFits (a.shape.eraseIdx ax) (lpad (a.shape.eraseIdx ax).length nrm.shape))
    (nm : List ℕ → K)
    (hnm : ∀ i, Valid (a.shape.eraseIdx ax) i → nrm.get ((bindex
      (lpad (a.shape.eraseIdx ax).length nrm.shape) i).drop
      ((a.shape.eraseIdx ax).length - nrm.shape.length)) = nm i) :
    ∃ b, collapseStep a ax w nrm = .ok b ∧ b.shape = a.shape.eraseIdx ax ∧
      ∀ i, Valid b.shape i → b.get i = (nm i)⁻¹ • ((List.range n).map (fun j : ℕ =>
        wt (i.insertIdx ax j) • a.get (i.insertIdx ax j))).sum := by
  have hlt : ax < a.shape.length := by
    by_contra h
    rw [List.getElem?_eq_none (by omega)] at han
    cases han
  have hlw : lpad a.shape.length w.shape = w.shape := by rw [← hwl, lpad_self]
  obtain ⟨b, hb, hbs, hbv⟩ := broadcast_fits (fun (x : V) (c : K) => c • x) a w (le_of_eq hwl)
    (by rw [hlw]; exact hw)
  rw [hlw] at hbv
  have hs : b.sumAxis ax = .ok ⟨b.shape.eraseIdx ax,
      fun i => ((List.range (b.shape.getD ax 0)).map (fun j : ℕ => b.get (i.insertIdx ax j))).sum⟩ := by
    unfold Arr.sumAxis
    rw [if_pos (by rw [hbs]; exact hlt)]
  obtain ⟨c, hc, hcs, hcv⟩ := broadcast_fits (fun (x : V) (n : K) => n⁻¹ • x)
    (⟨b.shape.eraseIdx ax, fun i => ((List.range (b.shape.getD ax 0)).map
      (fun j : ℕ => b.get (i.insertIdx ax j))).sum⟩ : Arr V) nrm (by simpa [hbs] using hnl)
    (by simpa [hbs] using hn)
  refine ⟨c, ?_, by rw [hcs, hbs], ?_⟩
  · unfold collapseStep
    rw [hb]
    simp only [hs]
    exact hc
  · intro i hi
    have hi : Valid (a.shape.eraseIdx ax) i := by rw [hcs] at hi; simpa [hbs] using hi
    rw [hcv i (by simpa [hbs] using hi)]
    simp only [hbs]
    rw [hnm i hi, getD_of_some han]
    congr 2
    apply List.map_congr_left
    intro j hj
    have hv := valid_insert ax n j han (List.mem_range.1 hj) hi
    rw [hbv _ hv, Nat.sub_eq_zero_of_le (le_of_eq hwl.symm), List.drop_zero, hwt _ hv]

/-- The normalisations. -/
theorem collapseNorm_fits (a : Arr V) (mode : Mode) (ax n : ℕ) (han : a.shape[ax]? = some n)
    (w : Arr K) (hwl : w.shape.length = a.shape.length) (hw : BFits a.shape w.shape)
    (hwn : w.shape[ax]? = some n) (wt : List ℕ → K)
    (hwt : ∀ i, Valid a.shape i → w.get (bindex w.shape i) = wt i) :
    ∃ nrm, collapseNorm mode w ax = .ok nrm ∧ nrm.shape.length ≤ (a.shape.eraseIdx ax).length ∧
      BFits (a.shape.eraseIdx ax) (lpad (a.shape.eraseIdx ax).length nrm.shape) ∧
      ∀ i, Valid (a.shape.eraseIdx ax) i → nrm.get ((bindex
        (lpad (a.shape.eraseIdx ax).length nrm.shape) i).drop
        ((a.shape.eraseIdx ax).length - nrm.shape.length)) =
        match mode with
        | .sum => 1
        | .average => ((List.range n).map (fun j : ℕ => wt (i.insertIdx ax j))).sum := by
  have hlt : ax < a.shape.length := by
    by_contra h
    rw [List.getElem?_eq_none (by omega)] at han
    cases han
  cases mode with
  | sum =>
    refine ⟨_, rfl, by simp, ?_, fun i _ => rfl⟩
    have : lpad (a.shape.eraseIdx ax).length [] = List.replicate (a.shape.eraseIdx ax).length 1 := by
      simp [lpad]
    rw [this]
    exact fits_ones _
  | average =>
    have hl : (w.shape.eraseIdx ax).length = (a.shape.eraseIdx ax).length := by
      rw [List.length_eraseIdx, List.length_eraseIdx, hwl]
    have hp : lpad (a.shape.eraseIdx ax).length (w.shape.eraseIdx ax) = w.shape.eraseIdx ax := by
      rw [← hl, lpad_self]
    refine ⟨⟨w.shape.eraseIdx ax, fun i => ((List.range (w.shape.getD ax 0)).map
      (fun j : ℕ => w.get (i.insertIdx ax j))).sum⟩, ?_, le_of_eq hl, ?_, ?_⟩
    · unfold collapseNorm Arr.sumAxis
      rw [if_pos (by rw [hwl]; exact hlt)]
    · simp only
      rw [hp]
      exact fits_erase hw ax
    · intro i hi
      simp only
      rw [hp, Nat.sub_eq_zero_of_le (le_of_eq hl.symm), List.drop_zero, getD_of_some hwn]
      congr 1
      apply List.map_congr_left
      intro j hj
      have hil : i.length + 1 = w.shape.length := by
        have := Valid.length hi
        rw [List.length_eraseIdx, if_pos hlt] at this
        omega
      rw [bindex_insert _ _ _ n j hwn (List.mem_range.1 hj) hil,
        hwt _ (valid_insert ax n j han (List.mem_range.1 hj) hi)]

end

end Verif.Map
