import Verif.Props.RelationTable

/-!
# Values between and outside the values of the table
-/

set_option linter.unusedSectionVars false

namespace Verif.Rel

open Verif.AM Spec
open Verif.Sim (Err)
open Verif.Gal (Fn)

variable {K : Type} [Field K] [LinearOrder K] [IsStrictOrderedRing K]

theorem cell_below : ∀ (l : List K) (a x : K), l.head? = some a → x < a → cell l x = none
  | [], _, _, h, _ => by simp at h
  | [_], _, _, _, _ => by simp [cell]
  | a' :: b :: rest, a, x, h, hx => by
    simp only [List.head?_cons, Option.some.injEq] at h
    subst h
    simp [cell, hx]

theorem cell_above : ∀ (l : List K) (a x : K), ascending l = true → l.getLast? = some a → a < x →
    cell l x = none
  | [], _, _, _, h, _ => by simp at h
  | [_], _, _, _, _, _ => by simp [cell]
  | [a', b], a, x, hl, h, hx => by
    simp at h
    subst h
    have hab : a' < b := by simpa [ascending] using hl
    simp [cell, not_lt.2 (hab.trans hx).le, not_le.2 hx]
  | a' :: b :: c :: rest, a, x, hl, h, hx => by
    simp only [ascending, Bool.and_eq_true, decide_eq_true_eq] at hl
    have hl' : ascending (b :: c :: rest) = true := by simp [ascending, hl.2]
    have hlast : (b :: c :: rest).getLast? = some a := by simpa using h
    have ih := cell_above (b :: c :: rest) a x hl' hlast hx
    unfold cell
    split
    · rfl
    · split
      · rw [ih]
      · split
        · rename_i hn hle
          exfalso
          apply hn
          refine ⟨by simp, ?_⟩
          have hb : b ≤ a := by
            rw [List.getLast?_cons_cons] at hlast
            have hm := List.mem_of_getLast? hlast
            have hp : (b :: c :: rest).Pairwise (· < ·) := ascending_pairwise _ hl'
            exact ((List.pairwise_cons.1 hp).1 a hm).le
          exact hb.trans hx.le
        · rfl

/-- **C94**: outside the halo masses (or velocities) of the table and the redshifts of the snapshots there is
no value. -/
theorem C94_outside (p : Interp K) (hx : ascending p.axis = true) (hz : ascending p.redshifts = true) (x z : K)
    (h : (∃ a, p.axis.head? = some a ∧ x < a) ∨ (∃ a, p.axis.getLast? = some a ∧ a < x) ∨
      (∃ a, p.redshifts.head? = some a ∧ z < a) ∨ (∃ a, p.redshifts.getLast? = some a ∧ a < z)) :
    value (some p) x z = .ok none := by
  unfold value Interp.eval
  rcases h with ⟨a, h1, h2⟩ | ⟨a, h1, h2⟩ | ⟨a, h1, h2⟩ | ⟨a, h1, h2⟩
  · simp only [cell_below _ a x h1 h2]
  · simp only [cell_above _ a x hx h1 h2]
  · simp only [cell_below _ a z h1 h2]
    rcases cell p.axis x with _ | ⟨j, s⟩ <;> rfl
  · simp only [cell_above _ a z hz h1 h2]
    rcases cell p.axis x with _ | ⟨j, s⟩ <;> rfl

theorem mix_between (t u v lo hi : K) (h0 : 0 ≤ t) (h1 : t ≤ 1) (hu : lo ≤ u ∧ u ≤ hi) (hv : lo ≤ v ∧ v ≤ hi) :
    lo ≤ (1 - t) * u + t * v ∧ (1 - t) * u + t * v ≤ hi := by
  have ht : 0 ≤ 1 - t := by linarith
  refine ⟨?_, ?_⟩
  · nlinarith [mul_le_mul_of_nonneg_left hu.1 ht, mul_le_mul_of_nonneg_left hv.1 h0]
  · nlinarith [mul_le_mul_of_nonneg_left hu.2 ht, mul_le_mul_of_nonneg_left hv.2 h0]

/-- **C94**: between the values of the table and between two snapshots the value is linear in the halo mass
and linear in the redshift, and so between the four neighbouring values of the table. -/
theorem C94_between (p : Interp K) (hx : ascending p.axis = true) (hz : ascending p.redshifts = true)
    (j i : ℕ) (a b c d x z : K) (ha : p.axis[j]? = some a) (hb : p.axis[j + 1]? = some b)
    (hc : p.redshifts[i]? = some c) (hd : p.redshifts[i + 1]? = some d) (h1 : a ≤ x) (h2 : x < b)
    (h3 : c ≤ z) (h4 : z < d) (v00 v01 v10 v11 : K) (e00 : p.entry i j = some v00)
    (e01 : p.entry i (j + 1) = some v01) (e10 : p.entry (i + 1) j = some v10)
    (e11 : p.entry (i + 1) (j + 1) = some v11) :
    ∃ v, value (some p) x z = .ok (some v) ∧
      v * ((b - a) * (d - c)) = (b - x) * (d - z) * v00 + (x - a) * (d - z) * v01 +
        (b - x) * (z - c) * v10 + (x - a) * (z - c) * v11 ∧
      ∀ lo hi, lo ≤ v00 → lo ≤ v01 → lo ≤ v10 → lo ≤ v11 → v00 ≤ hi → v01 ≤ hi → v10 ≤ hi → v11 ≤ hi →
        lo ≤ v ∧ v ≤ hi := by
  have hab : 0 < b - a := by linarith
  have hcd : 0 < d - c := by linarith
  refine ⟨_, by
    unfold value Interp.eval
    simp only [cell_mid p.axis hx j a b x ha hb h1 h2, cell_mid p.redshifts hz i c d z hc hd h3 h4,
      e00, e01, e10, e11, mix]
    rfl, ?_, ?_⟩
  · field_simp
    ring
  · intro lo hi l0 l1 l2 l3 u0 u1 u2 u3
    have s0 : 0 ≤ (x - a) / (b - a) := div_nonneg (by linarith) hab.le
    have s1 : (x - a) / (b - a) ≤ 1 := (div_le_one hab).2 (by linarith)
    have t0 : 0 ≤ (z - c) / (d - c) := div_nonneg (by linarith) hcd.le
    have t1 : (z - c) / (d - c) ≤ 1 := (div_le_one hcd).2 (by linarith)
    exact mix_between _ _ _ lo hi t0 t1 (mix_between _ _ _ lo hi s0 s1 ⟨l0, u0⟩ ⟨l1, u1⟩)
      (mix_between _ _ _ lo hi s0 s1 ⟨l2, u2⟩ ⟨l3, u3⟩)

/-- **C95**: the star formation rate is the luminosity times the factor given, or else times that of the
object. -/
theorem C95_sfr (o : Option (Interp K)) (own : K) (lirToSfr : Option K) (x z : K) :
    (o = none → sfr o own lirToSfr x z = .error .valueError ∧ value o x z = .error .valueError) ∧
    (value o x z = .ok none → sfr o own lirToSfr x z = .ok none) ∧
    ∀ l, value o x z = .ok (some l) →
      sfr o own none x z = .ok (some (l * own)) ∧ ∀ k, sfr o own (some k) x z = .ok (some (l * k)) := by
  cases o with
  | none => exact ⟨fun _ => ⟨rfl, rfl⟩, fun h => (by simp [value] at h), fun l h => (by simp [value] at h)⟩
  | some p =>
    refine ⟨fun h => (by cases h), ?_, ?_⟩
    · intro h
      simp only [value, Except.ok.injEq] at h
      simp [sfr, h]
    · intro l h
      simp only [value, Except.ok.injEq] at h
      simp [sfr, h]

/-- A small table. -/
def smallTable : Interp ℚ := ⟨[1, 2, 4], [0, 1], [[some 1, some 3, some 5], [some 3, some 5, some 9]]⟩

example : value (some smallTable) 3 (1 / 2) = .ok (some (11 / 2)) ∧ value (some smallTable) 5 0 = .ok none ∧
    sfr (some smallTable) 10 none 3 (1 / 2) = .ok (some 55) := by
  refine ⟨?_, ?_, ?_⟩
  · obtain ⟨v, h1, h2, h3⟩ := C94_between smallTable (by decide +kernel) (by decide +kernel) 1 0 2 4 0 1 3 (1 / 2)
      rfl rfl rfl rfl (by norm_num) (by norm_num) (by norm_num) (by norm_num) 3 5 5 9 rfl rfl rfl rfl
    have : v = 11 / 2 := by linarith
    rw [h1, this]
  · exact C94_outside smallTable (by decide +kernel) (by decide +kernel) 5 0
      (Or.inr (Or.inl ⟨4, rfl, by norm_num⟩))
  · obtain ⟨v, h1, h2, h3⟩ := C94_between smallTable (by decide +kernel) (by decide +kernel) 1 0 2 4 0 1 3 (1 / 2)
      rfl rfl rfl rfl (by norm_num) (by norm_num) (by norm_num) (by norm_num) 3 5 5 9 rfl rfl rfl rfl
    have : v = 11 / 2 := by linarith
    rw [((C95_sfr (some smallTable) 10 none 3 (1 / 2)).2.2 v h1).1, this]
    norm_num

end Verif.Rel
