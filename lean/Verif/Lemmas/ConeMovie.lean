import Verif.Spec.ConeMovie
import Verif.Lemmas.Handler2
import Mathlib.Tactic.Linarith
import Mathlib.Tactic.Ring
import Mathlib.Tactic.Positivity
import Mathlib.Tactic.FieldSimp
import Mathlib.Algebra.Order.Floor.Ring

/-!
# Lemmas for the animations of lightcones
-/

set_option linter.unusedSectionVars false

namespace Verif.Cone

open Verif.Handler (Name V State Err returnProperty)
open Verif.Plot (logOf)
open Verif.Cone.Spec

variable {K : Type} [Field K] [LinearOrder K] [IsStrictOrderedRing K]

theorem numbers_map (ks : List K) : numbers (ks.map (fun k => some (some k))) = some ks := by
  induction ks with
  | nil => rfl
  | cons k ks ih => simp [numbers, ih]

theorem numbers_usable {log10 : K → K} {sc : Scale} {vs : List (V K)} {ks : List K} (h : Usable log10 sc vs ks) :
    (sc = .linear → numbers (vs.map some) = some ks) ∧ (sc = .log → numbers (vs.map (logOf log10)) = some ks) := by
  have key : ∀ f : V K → Option (V K),
      (∀ (j : ℕ) (k : K), ks[j]? = some k → ∃ v, vs[j]? = some v ∧ f v = some (some k)) → numbers (vs.map f) = some ks := by
    intro f hf
    have e : vs.map f = ks.map (fun k => some (some k)) := by
      apply List.ext_getElem?
      intro j
      rw [List.getElem?_map, List.getElem?_map]
      rcases hk : ks[j]? with _ | k
      · rw [List.getElem?_eq_none_iff] at hk
        have : vs[j]? = none := List.getElem?_eq_none_iff.2 (by rw [h.numbers]; exact hk)
        rw [this]; rfl
      · obtain ⟨v, h1, h2⟩ := hf j k hk
        rw [h1]
        simp [h2]
    rw [e, numbers_map]
  constructor
  · intro hs
    exact key _ (fun j k hk => ⟨_, h.linear hs j k hk, rfl⟩)
  · intro hs
    refine key _ (fun j k hk => ?_)
    obtain ⟨x, h1, h2, h3⟩ := h.log hs j k hk
    refine ⟨_, h1, ?_⟩
    unfold logOf
    simp only
    rw [if_neg h2.ne', if_neg (not_lt.2 h2.le), h3]

theorem least_le (x : K) (l : List K) : ∀ y ∈ x :: l, least x l ≤ y := by
  induction l with
  | nil => intro y hy; simp at hy; simp [least, hy]
  | cons a l ih =>
    intro y hy
    have : least x (a :: l) = min a (least x l) := rfl
    rw [this]
    simp only [List.mem_cons] at hy
    rcases hy with rfl | rfl | hy
    · exact (min_le_right _ _).trans (ih _ (by simp))
    · exact min_le_left _ _
    · exact (min_le_right _ _).trans (ih _ (by simp [hy]))

theorem le_largest (x : K) (l : List K) : ∀ y ∈ x :: l, y ≤ largest x l := by
  induction l with
  | nil => intro y hy; simp at hy; simp [largest, hy]
  | cons a l ih =>
    intro y hy
    have : largest x (a :: l) = max a (largest x l) := rfl
    rw [this]
    simp only [List.mem_cons] at hy
    rcases hy with rfl | rfl | hy
    · exact (ih _ (by simp)).trans (le_max_right _ _)
    · exact le_max_left _ _
    · exact (ih _ (by simp [hy])).trans (le_max_right _ _)

theorem least_mem (x : K) (l : List K) : least x l ∈ x :: l := by
  induction l with
  | nil => simp [least]
  | cons a l ih =>
    have : least x (a :: l) = min a (least x l) := rfl
    rw [this]
    rcases min_choice a (least x l) with h | h <;> rw [h]
    · simp
    · simp only [List.mem_cons] at ih ⊢
      tauto

theorem largest_mem (x : K) (l : List K) : largest x l ∈ x :: l := by
  induction l with
  | nil => simp [largest]
  | cons a l ih =>
    have : largest x (a :: l) = max a (largest x l) := rfl
    rw [this]
    rcases max_choice a (largest x l) with h | h <;> rw [h]
    · simp
    · simp only [List.mem_cons] at ih ⊢
      tauto

/-- The values between zero and one that colours and sizes are made from. -/
theorem scaled_ok {log10 : K → K} {sc : Scale} {vs : List (V K)} {ks : List K} (h : Usable log10 sc vs ks) :
    ∃ lo hi, lo ∈ ks ∧ hi ∈ ks ∧ lo < hi ∧ (∀ k ∈ ks, lo ≤ k ∧ k ≤ hi) ∧
      scaled log10 sc vs = .ok (ks.map (fun k => some ((k - lo) / (hi - lo)))) := by
  obtain ⟨a, ha, b, hb, hab⟩ := h.different
  match ks, h, ha, hb with
  | k :: ks, h, ha, hb =>
    obtain ⟨h1, h2⟩ := numbers_usable h
    have l1 := least_le k ks
    have l2 := le_largest k ks
    have hlt : least k ks < largest k ks := by
      rcases lt_or_gt_of_ne hab with hlt | hlt
      · exact (l1 a ha).trans_lt (hlt.trans_le (l2 b hb))
      · exact (l1 b hb).trans_lt (hlt.trans_le (l2 a ha))
    refine ⟨least k ks, largest k ks, least_mem _ _, largest_mem _ _, hlt, fun x hx => ⟨l1 x hx, l2 x hx⟩, ?_⟩
    have hne : vs ≠ [] := by
      intro e
      have := h.numbers
      rw [e] at this
      simp at this
    obtain ⟨v, vs', rfl⟩ := List.exists_cons_of_ne_nil hne
    unfold scaled
    match hsc : sc with
    | .linear =>
      simp only [h1 rfl]
      rw [if_neg (sub_pos.2 hlt).ne']
    | .log =>
      simp only [h2 rfl]
      rw [if_neg (sub_pos.2 hlt).ne']
    | .other => exact absurd rfl h.known

theorem slides_ok [FloorRing K] (len : K) (h : 0 < len) : ∃ n step, slides len = some (n, step) ∧ Slides len n step := by
  have h50 : (0 : K) < 50 := by norm_num
  have hc : 0 < ⌈len / 50⌉ := Int.ceil_pos.2 (div_pos h h50)
  obtain ⟨n, hn⟩ : ∃ n : ℕ, ⌈len / 50⌉ = n := ⟨_, (Int.toNat_of_nonneg hc.le).symm⟩
  have hn0 : 0 < n := by omega
  have hnK : (0 : K) < n := by exact_mod_cast hn0
  have hc2 : 0 < ⌈len / (n : K)⌉ := Int.ceil_pos.2 (div_pos h hnK)
  obtain ⟨st, hst⟩ : ∃ st : ℕ, ⌈len / (n : K)⌉ = st := ⟨_, (Int.toNat_of_nonneg hc2.le).symm⟩
  have a1 := Int.ceil_lt_add_one (len / 50)
  have a2 := Int.le_ceil (len / 50)
  have b1 := Int.ceil_lt_add_one (len / (n : K))
  have b2 := Int.le_ceil (len / (n : K))
  rw [hn] at a1 a2
  rw [hst] at b1 b2
  simp only [Int.cast_natCast] at a1 a2 b1 b2
  refine ⟨n, st, ?_, hn0, ?_, ?_, ?_, ?_⟩
  · unfold slides
    simp only
    rw [if_neg (by omega), hn]
    simp only [Int.cast_natCast, hst, Int.toNat_natCast]
  · have : (n : K) - 1 < len / 50 := by linarith
    rw [lt_div_iff₀ h50] at this
    linarith
  · rw [div_le_iff₀ h50] at a2
    linarith
  · rw [div_le_iff₀ hnK] at b2
    linarith
  · have : (st : K) - 1 < len / n := by linarith
    rw [lt_div_iff₀ hnK] at this
    linarith

end Verif.Cone
