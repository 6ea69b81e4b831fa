import Verif.Spec.Relation
import Verif.Props.Match
import Mathlib.Tactic.Linarith
import Mathlib.Tactic.FieldSimp
import Mathlib.Tactic.Ring

/-!
# Lemmas about the tabulated relations
-/

set_option linter.unusedSectionVars false

namespace Verif.Rel

open Verif.AM Spec
open Verif.Sim (Err)

variable {K : Type} [Field K] [LinearOrder K] [IsStrictOrderedRing K]

/-! ## Missing fractions -/

theorem missing_bounds (n : ℕ) (hn : 0 < n) (T : K) (hT : 0 < T) :
    0 ≤ (missing n T).1 ∧ (missing n T).1 < 1 ∧ 0 ≤ (missing n T).2 ∧ (missing n T).2 < 1 := by
  have hn' : (0 : K) < (n : K) := by exact_mod_cast hn
  unfold missing
  by_cases h : (n : K) > T
  · rw [if_pos h]
    refine ⟨le_refl _, zero_lt_one, ?_, ?_⟩
    · have : T / (n : K) ≤ 1 := by rw [div_le_one hn']; exact h.le
      simp only; linarith
    · have : 0 < T / (n : K) := div_pos hT hn'
      simp only; linarith
  · rw [if_neg h]
    refine ⟨?_, ?_, le_refl _, zero_lt_one⟩
    · have : (n : K) / T ≤ 1 := by rw [div_le_one hT]; exact not_lt.1 h
      simp only; linarith
    · have : 0 < (n : K) / T := div_pos hn' hT
      simp only; linarith

/-- The fraction of the galaxies below a value and the fraction of the halos below a value fit if the
numbers above them do. -/
theorem missing_number (n : ℕ) (hn : 0 < n) (T : K) (hT : 0 < T) (f c : K)
    (h : c = ((missing n T).1 + f * (1 - (missing n T).1) - (missing n T).2) / (1 - (missing n T).2)) :
    T * (1 - c) = (n : K) * (1 - f) := by
  have hn' : (0 : K) < (n : K) := by exact_mod_cast hn
  subst h
  unfold missing
  by_cases h : (n : K) > T
  · rw [if_pos h]
    simp only
    have h1 : (1 - (1 - T / (n : K))) = T / (n : K) := by ring
    rw [h1]
    have := hn'.ne'; have := hT.ne'
    field_simp
    ring
  · rw [if_neg h]
    simp only
    have := hn'.ne'; have := hT.ne'
    field_simp
    ring

/-! ## Rows -/

theorem row_ok (law : Law K) (s : Snap K) (u : Bool) (mm : K) (grid : List K) (rs : List (Option K))
    (cat : List K) (hs : selected s u mm = .ok cat) (hc : cat ≠ []) (h : row law s u mm grid = .ok rs) :
    ∃ m, amDfcat cat law.dist 0 ⊤ (options (missing cat.length (law.total * s.edge ^ 3))) = .ok m ∧
      rs = (m.p2s grid).map finite := by
  unfold row at h
  rw [hs] at h
  rcases cat with _ | ⟨v, vs⟩
  · exact absurd rfl hc
  · simp only at h
    rcases hm : amDfcat (v :: vs) law.dist 0 ⊤
      (options (missing (v :: vs).length (law.total * s.edge ^ 3))) with e | m
    · rw [hm] at h; cases h
    · rw [hm] at h
      simp only [Except.ok.injEq] at h
      exact ⟨m, rfl, h.symm⟩

theorem row_entry (law : Law K) (s : Snap K) (u : Bool) (mm : K) (grid : List K) (rs : List (Option K))
    (cat : List K) (hs : selected s u mm = .ok cat) (hc : cat ≠ []) (h : row law s u mm grid = .ok rs)
    (j : ℕ) (x : K) (hj : grid[j]? = some x) :
    ∃ m q qs top, DfcatOk cat law.dist 0 ⊤ (options (missing cat.length (law.total * s.edge ^ 3))) m q qs top ∧
      rs[j]? = some (finite (ppfElem law.dist (missing cat.length (law.total * s.edge ^ 3)).2 0 0 ⊤ none none
        (cdfCat (q, qs) x))) := by
  obtain ⟨m, hm, e⟩ := row_ok law s u mm grid rs cat hs hc h
  obtain ⟨q, qs, top, H⟩ := amDfcat_ok _ _ _ _ _ _ hm
  refine ⟨m, q, qs, top, H, ?_⟩
  rw [e, H.p2s, List.map_map, List.getElem?_map, hj]
  rfl

theorem row_length (law : Law K) (s : Snap K) (u : Bool) (mm : K) (grid : List K) (rs : List (Option K))
    (h : row law s u mm grid = .ok rs) : rs.length = grid.length := by
  unfold row at h
  rcases hs : selected s u mm with e | cat
  · rw [hs] at h; cases h
  · rw [hs] at h
    rcases cat with _ | ⟨v, vs⟩
    · simp only [Except.ok.injEq] at h
      rw [← h, List.length_map]
    · simp only at h
      rcases hm : amDfcat (v :: vs) law.dist 0 ⊤
        (options (missing (v :: vs).length (law.total * s.edge ^ 3))) with e | m
      · rw [hm] at h; cases h
      · rw [hm] at h
        simp only [Except.ok.injEq] at h
        obtain ⟨q, qs, top, H⟩ := amDfcat_ok _ _ _ _ _ _ hm
        rw [← h, H.p2s]
        simp

/-! ## Cells of an axis -/

theorem ascending_tail (a b : K) (rest : List K) (h : ascending (a :: b :: rest) = true) :
    a < b ∧ ascending (b :: rest) = true := by
  unfold ascending at h
  rw [Bool.and_eq_true, decide_eq_true_iff] at h
  exact h

theorem ascending_le (xs : List K) : ∀ (a : K), ascending (a :: xs) = true → ∀ x ∈ xs, a < x := by
  induction xs with
  | nil => intro a _ x hx; cases hx
  | cons b rest ih =>
    intro a h x hx
    obtain ⟨h1, h2⟩ := ascending_tail a b rest h
    rcases List.mem_cons.1 hx with rfl | hx
    · exact h1
    · exact h1.trans (ih b h2 x hx)

theorem ascending_pairwise (zs : List K) (hz : ascending zs = true) : zs.Pairwise (· < ·) := by
  induction zs with
  | nil => exact List.Pairwise.nil
  | cons a rest ih =>
    refine List.pairwise_cons.2 ⟨ascending_le rest a hz, ?_⟩
    rcases rest with _ | ⟨b, rest⟩
    · exact List.Pairwise.nil
    · exact ih (ascending_tail a b rest hz).2

/-- The cell of a value between two neighbours. -/
theorem cell_mid (xs : List K) (hx : ascending xs = true) (j : ℕ) (a b x : K) (ha : xs[j]? = some a)
    (hb : xs[j + 1]? = some b) (h1 : a ≤ x) (h2 : x < b) : cell xs x = some (j, (x - a) / (b - a)) := by
  induction xs generalizing j with
  | nil => cases ha
  | cons c rest ih =>
    rcases rest with _ | ⟨e, rest⟩
    · rcases j with _ | j
      · cases hb
      · cases ha
    · obtain ⟨hce, hr⟩ := ascending_tail c e rest hx
      unfold cell
      rcases j with _ | j
      · simp only [List.getElem?_cons_zero, Option.some.injEq, zero_add, List.getElem?_cons_succ] at ha hb
        subst ha; subst hb
        rw [if_neg (not_lt.2 h1), if_neg (by rintro ⟨_, h⟩; exact absurd h (not_le.2 h2)), if_pos h2.le]
      · have hea : e ≤ a := by
          rcases j with _ | j
          · simp only [zero_add, List.getElem?_cons_succ, List.getElem?_cons_zero, Option.some.injEq] at ha
            exact ha.le
          · refine (ascending_le rest e hr a ?_).le
            exact List.mem_of_getElem? (by simpa using ha)
        have hne : rest ≠ [] := by
          rintro rfl
          rw [List.getElem?_cons_succ] at hb
          simp at hb
        rw [if_neg (not_lt.2 ((hce.le.trans hea).trans h1)), if_pos ⟨hne, hea.trans h1⟩]
        have := ih hr j (by simpa using ha) (by simpa using hb)
        rw [this]

/-- The cell of the last value. -/
theorem cell_last (xs : List K) (hx : ascending xs = true) (j : ℕ) (a b : K) (ha : xs[j]? = some a)
    (hb : xs[j + 1]? = some b) (hl : xs.length = j + 2) : cell xs b = some (j, 1) := by
  induction xs generalizing j with
  | nil => cases ha
  | cons c rest ih =>
    rcases rest with _ | ⟨e, rest⟩
    · rcases j with _ | j
      · cases hb
      · cases ha
    · obtain ⟨hce, hr⟩ := ascending_tail c e rest hx
      unfold cell
      rcases j with _ | j
      · simp only [List.getElem?_cons_zero, Option.some.injEq, zero_add, List.getElem?_cons_succ] at ha hb
        subst ha; subst hb
        have hnil : rest = [] := by simpa using hl
        subst hnil
        rw [if_neg (not_lt.2 hce.le), if_neg (by simp), if_pos (le_refl _),
          div_self (sub_ne_zero.2 hce.ne')]
      · have hne : rest ≠ [] := by
          rintro rfl
          simp at hl
        have heb : e < b := by
          refine ascending_le rest e hr b ?_
          exact List.mem_of_getElem? (by simpa using hb)
        rw [if_neg (not_lt.2 (hce.trans heb).le), if_pos ⟨hne, heb.le⟩]
        have := ih hr j (by simpa using ha) (by simpa using hb) (by simpa using hl)
        rw [this]

theorem mix_zero (u v : Option K) (w : K) (h : mix 0 u v = some w) : u = some w := by
  unfold mix at h
  rcases u with _ | u
  · cases h
  · rcases v with _ | v
    · cases h
    · simp only [Option.some.injEq] at h
      rw [← h]; congr 1; ring

theorem mix_one (u v : Option K) (w : K) (h : mix 1 u v = some w) : v = some w := by
  unfold mix at h
  rcases u with _ | u
  · cases h
  · rcases v with _ | v
    · cases h
    · simp only [Option.some.injEq] at h
      rw [← h]; congr 1; ring

/-- At a value of an ascending axis, the cell picks it. -/
theorem cell_at (zs : List K) (hz : ascending zs = true) (h2 : 2 ≤ zs.length) (k : ℕ) (z : K)
    (hk : zs[k]? = some z) :
    (cell zs z = some (k, 0) ∧ k + 1 < zs.length) ∨ ∃ i, k = i + 1 ∧ cell zs z = some (i, 1) := by
  obtain ⟨hlt, _⟩ := List.getElem?_eq_some_iff.1 hk
  by_cases h : k + 1 < zs.length
  · left
    have hb := List.getElem?_eq_getElem h
    refine ⟨?_, h⟩
    have := cell_mid zs hz k z _ z hk hb (le_refl _) ?_
    · rw [this, sub_self, zero_div]
    · obtain ⟨_, e⟩ := List.getElem?_eq_some_iff.1 hk
      have hp := ascending_pairwise zs hz
      have := List.pairwise_iff_getElem.1 hp k (k + 1) hlt h (Nat.lt_succ_self k)
      rw [e] at this
      exact this
  · right
    rcases k with _ | i
    · omega
    · refine ⟨i, rfl, ?_⟩
      have hi : i < zs.length := by omega
      exact cell_last zs hz i _ z (List.getElem?_eq_getElem hi) hk (by omega)

theorem eval_at (p : Interp K) (hz : ascending p.redshifts = true) (h2 : 2 ≤ p.redshifts.length) (k : ℕ)
    (z : K) (hk : p.redshifts[k]? = some z) (x v : K) (j : ℕ) (s : K) (hc : cell p.axis x = some (j, s))
    (h : p.eval x z = some v) : mix s (p.entry k j) (p.entry k (j + 1)) = some v := by
  unfold Interp.eval at h
  rw [hc] at h
  rcases cell_at p.redshifts hz h2 k z hk with ⟨e, -⟩ | ⟨i, rfl, e⟩
  · rw [e] at h
    exact mix_zero _ _ _ h
  · rw [e] at h
    exact mix_one _ _ _ h

/-- The interpolator is the table, perhaps turned round. -/
theorem interpolator_ok (x z : List K) (t : List (List (Option K))) (p : Interp K)
    (h : interpolator x z t = .ok p) :
    p.axis = x ∧ ascending x = true ∧ ascending p.redshifts = true ∧ p.redshifts.length = z.length ∧
      t.length = z.length ∧ (∀ r ∈ t, r.length = x.length) ∧
      ∀ (k : ℕ) (zk : K) (r : List (Option K)), z[k]? = some zk → t[k]? = some r →
        ∃ k' : ℕ, p.redshifts[k']? = some zk ∧ p.table[k']? = some r := by
  unfold interpolator at h
  by_cases hs : t.length = z.length ∧ t.all (fun r => decide (r.length = x.length)) = true
  · rw [if_pos hs] at h
    have hall : ∀ r ∈ t, r.length = x.length := by
      intro r hr
      have := List.all_eq_true.1 hs.2 r hr
      simpa using this
    by_cases hx : ascending x = true
    · rw [if_pos hx] at h
      by_cases hz : ascending z = true
      · rw [if_pos hz] at h
        simp only [Except.ok.injEq] at h
        subst h
        exact ⟨rfl, hx, hz, rfl, hs.1, hall, fun k zk r h1 h2 => ⟨k, h1, h2⟩⟩
      · rw [if_neg hz] at h
        by_cases hz' : ascending z.reverse = true
        · rw [if_pos hz'] at h
          simp only [Except.ok.injEq] at h
          subst h
          refine ⟨rfl, hx, hz', by simp, hs.1, hall, fun k zk r h1 h2 => ⟨z.length - 1 - k, ?_, ?_⟩⟩
          · obtain ⟨hk, _⟩ := List.getElem?_eq_some_iff.1 h1
            show z.reverse[z.length - 1 - k]? = some zk
            rw [List.getElem?_reverse (by omega)]
            rw [show z.length - 1 - (z.length - 1 - k) = k by omega]
            exact h1
          · obtain ⟨hk, _⟩ := List.getElem?_eq_some_iff.1 h2
            show t.reverse[z.length - 1 - k]? = some r
            rw [List.getElem?_reverse (by omega)]
            rw [show t.length - 1 - (z.length - 1 - k) = k by omega]
            exact h2
        · rw [if_neg hz'] at h; cases h
    · rw [if_neg hx] at h; cases h
  · rw [if_neg hs] at h; cases h

end Verif.Rel
