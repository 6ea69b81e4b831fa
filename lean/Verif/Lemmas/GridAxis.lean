import Verif.Spec.Grid
import Mathlib.Tactic.Ring
import Mathlib.Tactic.FieldSimp
import Mathlib.Tactic.Linarith
import Mathlib.Tactic.Positivity

/-!
# One axis of a grid
-/

namespace Verif.Map

open Verif.Sim (Err)
open Spec

variable {K V : Type} [Field K]

theorem edgesOf_eq (n : ℕ) (pix center : K) : edgesOf n pix (n * pix) center = edges n pix center := by
  unfold edgesOf edges
  refine List.map_congr_left (fun j _ => ?_)
  ring

theorem centersOf_eq (n : ℕ) (pix center : K) :
    centersOf (edges n pix center) pix = middles n pix center := by
  unfold centersOf edges middles
  rw [List.range_succ, List.map_append]
  simp only [List.map_cons, List.map_nil, List.dropLast_concat, List.map_map]
  refine List.map_congr_left (fun j _ => ?_)
  simp only [Function.comp_apply]
  ring

theorem fftfreq_length [LinearOrder K] [FloorRing K] (n : ℕ) (d : K) : (fftfreq n d).length = n := by simp [fftfreq]

theorem fcentersOf_eq [LinearOrder K] [FloorRing K] (n : ℕ) (pix : K) : fcentersOf n pix = freqs n pix := by
  unfold fcentersOf fftshift freqs
  rw [fftfreq_length]
  refine List.map_congr_left (fun k hk => ?_)
  have hk' : k < n := List.mem_range.1 hk
  have hlt : (k + (n - n / 2)) % n < n := Nat.mod_lt _ (by omega)
  have hget : (fftfreq n pix).getD ((k + (n - n / 2)) % n) 0 =
      (if (k + (n - n / 2)) % n < (n - 1) / 2 + 1 then (((k + (n - n / 2)) % n : ℕ) : K)
        else (((k + (n - n / 2)) % n : ℕ) : K) - n) * (1 / (n * pix)) := by
    unfold fftfreq
    rw [List.getD_eq_getElem?_getD, List.getElem?_map, List.getElem?_range hlt]
    rfl
  rw [hget]
  by_cases h : k < n / 2
  · have e : (k + (n - n / 2)) % n = k + (n - n / 2) := Nat.mod_eq_of_lt (by omega)
    rw [e, if_neg (by omega)]
    have : ((k + (n - n / 2) : ℕ) : K) = (k : K) + ((n : K) - ((n / 2 : ℕ) : K)) := by
      rw [Nat.cast_add, Nat.cast_sub (Nat.div_le_self n 2)]
    rw [this]
    rw [div_eq_mul_one_div]
    ring
  · have e : (k + (n - n / 2)) % n = k - n / 2 := by
      have : k + (n - n / 2) = (k - n / 2) + n := by omega
      rw [this, Nat.add_mod_right, Nat.mod_eq_of_lt (by omega)]
    rw [e, if_pos (by omega), Nat.cast_sub (by omega)]
    ring

theorem axisEdges_freqs [LinearOrder K] [IsStrictOrderedRing K] [FloorRing K] (n : ℕ) (pix : K) (hn : 2 ≤ n) :
    axisEdges (freqs n pix) = .ok (fedges n pix) := by
  obtain ⟨m, rfl⟩ : ∃ m, n = m + 2 := ⟨n - 2, by omega⟩
  have hlen : (freqs (m + 2) pix).length = m + 2 := by simp [freqs]
  set f : ℕ → K := fun k => ((k : K) - (((m + 2) / 2 : ℕ) : K)) / (((m + 2 : ℕ) : K) * pix) with hf
  have hfr : freqs (m + 2) pix = (List.range (m + 2)).map f := rfl
  have hdiff : List.zipWith (fun b a => b - a) (freqs (m + 2) pix).tail (freqs (m + 2) pix) =
      (List.range (m + 1)).map (fun k => f (k + 1) - f k) := by
    apply List.ext_getElem
    · simp [hlen]
    · intro k h1 h2
      simp [hfr]
  have hstep : ∀ k, f (k + 1) - f k = 1 / (((m + 2 : ℕ) : K) * pix) := by
    intro k
    simp only [hf]
    push_cast
    rw [← sub_div]
    congr 1
    ring
  unfold axisEdges
  simp only [hdiff]
  have h1 : (freqs (m + 2) pix).head? = some (f 0) := by
    rw [hfr, List.range_succ_eq_map]; rfl
  have h2 : (freqs (m + 2) pix).getLast? = some (f (m + 1)) := by
    rw [hfr, List.range_succ, List.map_append]; simp
  have h3 : ((List.range (m + 1)).map (fun k => f (k + 1) - f k)).head? = some (f 1 - f 0) := by
    rw [List.range_succ_eq_map]; rfl
  have h4 : ((List.range (m + 1)).map (fun k => f (k + 1) - f k)).getLast? =
      some (f (m + 1) - f m) := by
    rw [List.range_succ, List.map_append]; simp
  rw [h1, h2, h3, h4]
  simp only [Except.ok.injEq]
  apply List.ext_getElem
  · simp [hlen, fedges]
  · intro k k1 k2
    have hk : k < m + 3 := by simpa [fedges] using k2
    have hr : (fedges (m + 2) pix)[k] =
      (if k = 0 then (-(((m + 2) / 2 : ℕ) : K) - 1 / 2) / (((m + 2 : ℕ) : K) * pix)
       else if k = m + 2 then
        (((m + 2 : ℕ) : K) - (((m + 2) / 2 : ℕ) : K) - 1 / 2) / (((m + 2 : ℕ) : K) * pix)
       else f k) := by
      simp [fedges, hf]
    rw [hr]
    cases k with
    | zero =>
      simp only [List.cons_append, List.nil_append, List.getElem_cons_zero, if_true, hstep]
      simp only [hf]
      rw [Nat.cast_zero]
      ring
    | succ k =>
      rw [if_neg (by omega)]
      simp only [List.cons_append, List.nil_append, List.getElem_cons_succ]
      by_cases hkm : k < m + 1
      · rw [if_neg (by omega), List.getElem_append_left (by simp [hlen]; omega)]
        simp [hfr]
      · have hkm' : k = m + 1 := by omega
        subst hkm'
        rw [if_pos rfl, List.getElem_append_right (by simp [hlen])]
        simp only [List.getElem_singleton, hstep]
        simp only [hf]
        have : ((m + 2 : ℕ) : K) = ((m + 1 : ℕ) : K) + 1 := by push_cast; ring
        generalize hD : ((m + 2 : ℕ) : K) * pix = D
        rw [this]
        ring

end Verif.Map
