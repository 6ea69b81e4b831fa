import Verif.Model.Match
import Mathlib.Tactic.Ring
import Mathlib.Tactic.FieldSimp
import Mathlib.Tactic.Linarith
import Mathlib.Algebra.Order.Field.Basic

set_option linter.unusedSectionVars false

/-!
# Interpolation
-/

namespace Verif.AM

variable {K : Type} [Field K] [LinearOrder K] [IsStrictOrderedRing K]

/-- Points with increasing coordinates. -/
def Incr (l : List (K × K)) : Prop := l.Pairwise (fun a b => a.1 ≤ b.1 ∧ a.2 ≤ b.2)

/-- A value on a segment lies between the ends. -/
theorem segment_bounds (a b c d x : K) (h1 : a < x) (h2 : x < b) (h : c ≤ d) :
    c ≤ (d - c) / (b - a) * (x - a) + c ∧ (d - c) / (b - a) * (x - a) + c ≤ d := by
  have hb : 0 < b - a := by linarith
  have hx : 0 < x - a := by linarith
  have hs : 0 ≤ (d - c) / (b - a) := div_nonneg (by linarith) hb.le
  refine ⟨by nlinarith [mul_nonneg hs hx.le], ?_⟩
  have : (d - c) / (b - a) * (x - a) ≤ (d - c) / (b - a) * (b - a) :=
    mul_le_mul_of_nonneg_left (by linarith) hs
  rw [div_mul_cancel₀ _ hb.ne'] at this
  linarith

/-- Strictly between the ends if the ends differ. -/
theorem segment_strict (a b c d x : K) (h1 : a < x) (h2 : x < b) (h : c < d) :
    c < (d - c) / (b - a) * (x - a) + c ∧ (d - c) / (b - a) * (x - a) + c < d := by
  have hb : 0 < b - a := by linarith
  have hx : 0 < x - a := by linarith
  have hs : 0 < (d - c) / (b - a) := div_pos (by linarith) hb
  refine ⟨by nlinarith [mul_pos hs hx], ?_⟩
  have : (d - c) / (b - a) * (x - a) < (d - c) / (b - a) * (b - a) :=
    mul_lt_mul_of_pos_left (by linarith) hs
  rw [div_mul_cancel₀ _ hb.ne'] at this
  linarith

section generic
variable {α : Type} (emb : K → α) (R : α → α → Prop) (right : α)

theorem interpFrom_ge (hemb : ∀ a b, a ≤ b → R (emb a) (emb b))
    (htr : ∀ a b c, R a b → R b c → R a c) (x : K) (p : K × K) (rest : List (K × K))
    (hl : Incr (p :: rest)) (hr : ∀ q ∈ p :: rest, R (emb q.2) right) (hx : p.1 ≤ x) :
    R (emb p.2) (interpFrom emb right x p rest) := by
  induction rest generalizing p with
  | nil =>
    unfold interpFrom
    split
    · exact hr p (by simp)
    · exact hemb _ _ le_rfl
  | cons q rest ih =>
    unfold interpFrom
    have hpq : p.1 ≤ q.1 ∧ p.2 ≤ q.2 := (List.pairwise_cons.1 hl).1 q (by simp)
    have hl' : Incr (q :: rest) := (List.pairwise_cons.1 hl).2
    split
    · rename_i hq
      exact htr _ _ _ (hemb _ _ hpq.2) (ih q hl' (fun a ha => hr a (by simp [List.mem_cons.1 ha])) hq)
    · split
      · exact hemb _ _ le_rfl
      · rename_i hq hne
        exact hemb _ _ (segment_bounds p.1 q.1 p.2 q.2 x (lt_of_le_of_ne hx hne) (not_le.1 hq) hpq.2).1

theorem interpFrom_mono (hemb : ∀ a b, a ≤ b → R (emb a) (emb b))
    (htr : ∀ a b c, R a b → R b c → R a c) (hrr : R right right) (x y : K) (hxy : x ≤ y)
    (p : K × K) (rest : List (K × K))
    (hl : Incr (p :: rest)) (hr : ∀ q ∈ p :: rest, R (emb q.2) right) (hx : p.1 ≤ x) :
    R (interpFrom emb right x p rest) (interpFrom emb right y p rest) := by
  induction rest generalizing p with
  | nil =>
    unfold interpFrom
    split
    · rename_i h
      rw [if_pos (lt_of_lt_of_le h hxy)]
      exact hrr
    · split
      · exact hr p (by simp)
      · exact hemb _ _ le_rfl
  | cons q rest ih =>
    have hpq : p.1 ≤ q.1 ∧ p.2 ≤ q.2 := (List.pairwise_cons.1 hl).1 q (by simp)
    have hl' : Incr (q :: rest) := (List.pairwise_cons.1 hl).2
    have hr' : ∀ a ∈ q :: rest, R (emb a.2) right := fun a ha => hr a (by simp [List.mem_cons.1 ha])
    unfold interpFrom
    by_cases hq : q.1 ≤ x
    · rw [if_pos hq, if_pos (hq.trans hxy)]
      exact ih q hl' hr' hq
    · rw [if_neg hq]
      have hqx := not_le.1 hq
      by_cases hq' : q.1 ≤ y
      · rw [if_pos hq']
        have hge := interpFrom_ge emb R right hemb htr y q rest hl' hr' hq'
        split
        · exact htr _ _ _ (hemb _ _ hpq.2) hge
        · rename_i hne
          exact htr _ _ _ (hemb _ _
            (segment_bounds p.1 q.1 p.2 q.2 x (lt_of_le_of_ne hx hne) hqx hpq.2).2) hge
      · rw [if_neg hq']
        have hqy := not_le.1 hq'
        have hb : 0 < q.1 - p.1 := by linarith
        by_cases hpx : p.1 = x
        · rw [if_pos hpx]
          split
          · exact hemb _ _ le_rfl
          · rename_i hne
            exact hemb _ _ (segment_bounds p.1 q.1 p.2 q.2 y (lt_of_le_of_ne (hx.trans hxy) hne)
              hqy hpq.2).1
        · have hlt := lt_of_le_of_ne hx hpx
          have hne : p.1 ≠ y := by intro h; linarith
          rw [if_neg hpx, if_neg hne]
          apply hemb
          have hs : 0 ≤ (q.2 - p.2) / (q.1 - p.1) := div_nonneg (by linarith [hpq.2]) hb.le
          have := mul_le_mul_of_nonneg_left (show x - p.1 ≤ y - p.1 by linarith) hs
          linarith

theorem interp_mono (hemb : ∀ a b, a ≤ b → R (emb a) (emb b))
    (htr : ∀ a b c, R a b → R b c → R a c) (hrr : R right right) (left : α) (hll : R left left)
    (hlr : R left right) (x y : K) (hxy : x ≤ y) (p : K × K) (rest : List (K × K))
    (hl : Incr (p :: rest)) (hr : ∀ q ∈ p :: rest, R (emb q.2) right) (hlp : R left (emb p.2)) :
    R (interp emb left right p rest x) (interp emb left right p rest y) := by
  unfold interp
  by_cases hx : x < p.1
  · rw [if_pos hx]
    by_cases hy : y < p.1
    · rw [if_pos hy]; exact hll
    · rw [if_neg hy]
      exact htr _ _ _ hlp (interpFrom_ge emb R right hemb htr y p rest hl hr (not_lt.1 hy))
  · rw [if_neg hx, if_neg (not_lt.2 ((not_lt.1 hx).trans hxy))]
    exact interpFrom_mono emb R right hemb htr hrr x y hxy p rest hl hr (not_lt.1 hx)

/-- At a point of the table: the value of the last point with this coordinate. -/
theorem interpFrom_at (x : K) (p : K × K) (rest : List (K × K)) (hl : Incr (p :: rest))
    (hx : x ∈ (p :: rest).map Prod.fst) :
    ∃ v, ((p :: rest)[(p :: rest).countP (fun q => decide (q.1 ≤ x)) - 1]?) = some v ∧
      interpFrom emb right x p rest = emb v.2 := by
  induction rest generalizing p with
  | nil =>
    simp only [List.map_cons, List.map_nil, List.mem_singleton] at hx
    subst hx
    exact ⟨p, by simp, by simp [interpFrom]⟩
  | cons q rest ih =>
    have hpq : p.1 ≤ q.1 ∧ p.2 ≤ q.2 := (List.pairwise_cons.1 hl).1 q (by simp)
    have hl' : Incr (q :: rest) := (List.pairwise_cons.1 hl).2
    unfold interpFrom
    by_cases hq : q.1 ≤ x
    · rw [if_pos hq]
      have hx' : x ∈ (q :: rest).map Prod.fst := by
        rw [List.map_cons, List.mem_cons] at hx
        rcases hx with rfl | hx
        · rw [List.map_cons, List.mem_cons]; left; exact le_antisymm hpq.1 hq
        · exact hx
      obtain ⟨v, h1, h2⟩ := ih q hl' hx'
      refine ⟨v, ?_, h2⟩
      have hc : (q :: rest).countP (fun q => decide (q.1 ≤ x)) ≥ 1 := by
        rw [List.countP_cons]; simp [hq]
      rw [List.countP_cons, if_pos (by simpa using hpq.1.trans hq)]
      obtain ⟨m, hm⟩ : ∃ m, (q :: rest).countP (fun q => decide (q.1 ≤ x)) = m + 1 :=
        ⟨_, (Nat.sub_add_cancel hc).symm⟩
      rw [hm] at h1 ⊢
      simpa using h1
    · rw [if_neg hq]
      have hpx : p.1 = x := by
        rw [List.map_cons, List.mem_cons] at hx
        rcases hx with h | h
        · exact h.symm
        · exfalso
          obtain ⟨a, ha, rfl⟩ := List.mem_map.1 h
          rcases List.mem_cons.1 ha with rfl | ha
          · exact hq le_rfl
          · exact hq ((List.pairwise_cons.1 hl').1 a ha).1
      rw [if_pos hpx]
      refine ⟨p, ?_, rfl⟩
      have h0 : (q :: rest).countP (fun q => decide (q.1 ≤ x)) = 0 := by
        rw [List.countP_eq_zero]
        intro a ha
        simp only [decide_eq_true_eq]
        rcases List.mem_cons.1 ha with rfl | ha
        · exact hq
        · intro h; exact hq (((List.pairwise_cons.1 hl').1 a ha).1.trans h)
      rw [List.countP_cons, if_pos (by simp [hpx]), h0]
      rfl

end generic

/-- Points with strictly increasing second coordinates. -/
def Strict2 (l : List (K × K)) : Prop := l.Pairwise (fun a b => a.2 < b.2)

theorem interpFrom_gt (right x : K) (p : K × K) (rest : List (K × K)) (hl : Incr (p :: rest))
    (hs : Strict2 (p :: rest)) (hr : ∀ q ∈ p :: rest, q.2 ≤ right) (hp : p.2 < right) (hx : p.1 < x) :
    p.2 < interpFrom id right x p rest := by
  induction rest generalizing p with
  | nil => unfold interpFrom; rw [if_pos hx]; exact hp
  | cons q rest ih =>
    have hpq : p.1 ≤ q.1 ∧ p.2 ≤ q.2 := (List.pairwise_cons.1 hl).1 q (by simp)
    have hl' : Incr (q :: rest) := (List.pairwise_cons.1 hl).2
    have hpq' : p.2 < q.2 := (List.pairwise_cons.1 hs).1 q (by simp)
    unfold interpFrom
    by_cases hq : q.1 ≤ x
    · rw [if_pos hq]
      exact lt_of_lt_of_le hpq' (interpFrom_ge id (· ≤ ·) right (fun a b h => h)
        (fun a b c => le_trans) x q rest hl' (fun a ha => hr a (by simp [List.mem_cons.1 ha])) hq)
    · rw [if_neg hq, if_neg hx.ne]
      exact (segment_strict p.1 q.1 p.2 q.2 x hx (not_le.1 hq) hpq').1

theorem interpFrom_lt (right x : K) (p : K × K) (rest : List (K × K)) (hl : Incr (p :: rest))
    (hs : Strict2 (p :: rest)) (last : K × K) (hlast : (p :: rest).getLast? = some last)
    (hp : p.1 ≤ x) (hx : x < last.1) : interpFrom id right x p rest < last.2 := by
  induction rest generalizing p with
  | nil =>
    simp only [List.getLast?_singleton, Option.some.injEq] at hlast
    subst hlast
    exact absurd hx (not_lt.2 hp)
  | cons q rest ih =>
    have hl' : Incr (q :: rest) := (List.pairwise_cons.1 hl).2
    have hs' : Strict2 (q :: rest) := (List.pairwise_cons.1 hs).2
    have hpq' : p.2 < q.2 := (List.pairwise_cons.1 hs).1 q (by simp)
    have hlast' : (q :: rest).getLast? = some last := by rw [← hlast, List.getLast?_cons_cons]
    have hql : q.2 ≤ last.2 := by
      have hm := List.mem_of_getLast? hlast'
      rcases List.mem_cons.1 hm with rfl | hm
      · exact le_rfl
      · exact ((List.pairwise_cons.1 hs').1 _ hm).le
    unfold interpFrom
    by_cases hq : q.1 ≤ x
    · rw [if_pos hq]; exact ih q hl' hs' hlast' hq
    · rw [if_neg hq]
      split
      · exact lt_of_lt_of_le hpq' hql
      · rename_i hne
        exact lt_of_lt_of_le
          (segment_strict p.1 q.1 p.2 q.2 x (lt_of_le_of_ne hp hne) (not_le.1 hq) hpq').2 hql

/-- Interpolating back gives the original number. -/
theorem interpFrom_inverse {α : Type} (emb : K → α) (right : K) (right' : α) (x : K) (p : K × K)
    (rest : List (K × K)) (h1 : (p :: rest).Pairwise (fun a b => a.1 < b.1))
    (h2 : Strict2 (p :: rest)) (hr : ∀ q ∈ p :: rest, q.2 ≤ right) (last : K × K)
    (hlast : (p :: rest).getLast? = some last) (hp : p.1 ≤ x)
    (hx : x ≤ last.1) :
    interpFrom emb right' (interpFrom id right x p rest) p.swap (rest.map Prod.swap) = emb x := by
  have hl : ∀ (l : List (K × K)), l.Pairwise (fun a b => a.1 < b.1) → Strict2 l → Incr l := by
    intro l a b
    exact (a.and b).imp (fun h => ⟨h.1.le, h.2.le⟩)
  induction rest generalizing p with
  | nil =>
    simp only [List.getLast?_singleton, Option.some.injEq] at hlast
    subst hlast
    have : p.1 = x := le_antisymm hp hx
    simp [interpFrom, this]
  | cons q rest ih =>
    have h1' := (List.pairwise_cons.1 h1).2
    have h2' : Strict2 (q :: rest) := (List.pairwise_cons.1 h2).2
    have hpq1 : p.1 < q.1 := (List.pairwise_cons.1 h1).1 q (by simp)
    have hpq2 : p.2 < q.2 := (List.pairwise_cons.1 h2).1 q (by simp)
    have hr' : ∀ a ∈ q :: rest, a.2 ≤ right := fun a ha => hr a (by simp [List.mem_cons.1 ha])
    have hlast' : (q :: rest).getLast? = some last := by rw [← hlast, List.getLast?_cons_cons]
    by_cases hq : q.1 ≤ x
    · have hge : q.2 ≤ interpFrom id right x q rest :=
        interpFrom_ge id (· ≤ ·) right (fun a b h => h) (fun a b c => le_trans) x q rest
          (hl _ h1' h2') hr' hq
      have e : interpFrom id right x p (q :: rest) = interpFrom id right x q rest := by
        rw [interpFrom, if_pos hq]
      rw [e, List.map_cons, interpFrom, if_pos (by simpa using hge)]
      exact ih q h1' h2' hr' hlast' hq
    · have hqx := not_le.1 hq
      by_cases hpx : p.1 = x
      · have e : interpFrom id right x p (q :: rest) = p.2 := by
          rw [interpFrom, if_neg hq, if_pos hpx]; rfl
        rw [e, List.map_cons, interpFrom, if_neg (by simpa using hpq2), if_pos (by simp)]
        simp [hpx]
      · have hlt := lt_of_le_of_ne hp hpx
        have e : interpFrom id right x p (q :: rest)
            = (q.2 - p.2) / (q.1 - p.1) * (x - p.1) + p.2 := by
          rw [interpFrom, if_neg hq, if_neg hpx]; rfl
        obtain ⟨b1, b2⟩ := segment_strict p.1 q.1 p.2 q.2 x hlt hqx hpq2
        rw [e, List.map_cons, interpFrom, if_neg (by simpa using b2), if_neg (by simpa using b1.ne)]
        congr 1
        have n1 : q.1 - p.1 ≠ 0 := by intro h; linarith
        have n2 : q.2 - p.2 ≠ 0 := by intro h; linarith
        simp only [Prod.fst_swap, Prod.snd_swap]
        field_simp
        ring

/-! ## The table of a catalogue -/

theorem linspace_length (a b : K) (n : ℕ) : (linspace a b n).length = n := by simp [linspace]

theorem linspace_get (a b : K) (n i : ℕ) (h : i < n) :
    (linspace a b n)[i]? = some (a + (i : K) * ((b - a) / ((n : K) - 1))) := by
  simp [linspace, h]

theorem linspace_bounds (a b : K) (n : ℕ) (hab : a ≤ b) : ∀ v ∈ linspace a b n, a ≤ v ∧ v ≤ b := by
  intro v hv
  obtain ⟨i, hi, rfl⟩ := List.mem_map.1 hv
  rw [List.mem_range] at hi
  by_cases h1 : n = 1
  · subst h1
    have : i = 0 := by omega
    subst this
    simp [hab]
  · have hn : (0 : K) < (n : K) - 1 := by
      have : (2 : K) ≤ n := by exact_mod_cast (by omega : 2 ≤ n)
      linarith
    have hi' : (i : K) ≤ (n : K) - 1 := by
      have : (i : K) + 1 ≤ n := by exact_mod_cast hi
      linarith
    have hs : 0 ≤ (b - a) / ((n : K) - 1) := div_nonneg (by linarith) hn.le
    have hi0 : (0 : K) ≤ i := Nat.cast_nonneg i
    refine ⟨by nlinarith [mul_nonneg hi0 hs], ?_⟩
    have := mul_le_mul_of_nonneg_right hi' hs
    rw [mul_div_cancel₀ _ hn.ne'] at this
    linarith

theorem linspace_sorted (a b : K) (n : ℕ) (hab : a ≤ b) : (linspace a b n).Pairwise (· ≤ ·) := by
  unfold linspace
  rw [List.pairwise_map]
  refine (List.pairwise_lt_range).imp_of_mem ?_
  intro i j hi hj hij
  rw [List.mem_range] at hi hj
  have hn : (0 : K) < (n : K) - 1 := by
    have : (2 : K) ≤ n := by exact_mod_cast (by omega : 2 ≤ n)
    linarith
  have hs : 0 ≤ (b - a) / ((n : K) - 1) := div_nonneg (by linarith) hn.le
  have hij' : (i : K) ≤ j := by exact_mod_cast hij.le
  have := mul_le_mul_of_nonneg_right hij' hs
  linarith

theorem linspace_strict (a b : K) (n : ℕ) (hab : a < b) : (linspace a b n).Pairwise (· < ·) := by
  unfold linspace
  rw [List.pairwise_map]
  refine (List.pairwise_lt_range).imp_of_mem ?_
  intro i j hi hj hij
  rw [List.mem_range] at hi hj
  have hn : (0 : K) < (n : K) - 1 := by
    have : (2 : K) ≤ n := by exact_mod_cast (by omega : 2 ≤ n)
    linarith
  have hs : 0 < (b - a) / ((n : K) - 1) := div_pos (by linarith) hn
  have hij' : (i : K) < j := by exact_mod_cast hij
  have := mul_lt_mul_of_pos_right hij' hs
  linarith

theorem points_fst (cat : List K) (low high : K) :
    (points cat low high).map Prod.fst = cat.insertionSort (· ≤ ·) := by
  unfold points
  rw [List.map_fst_zip]
  simp [linspace_length]

theorem points_snd (cat : List K) (low high : K) :
    (points cat low high).map Prod.snd = linspace low (1 - high) cat.length := by
  unfold points
  rw [List.map_snd_zip]
  simp [linspace_length]

theorem pairwise_of_maps {l : List (K × K)} {P Q : K → K → Prop} (h1 : (l.map Prod.fst).Pairwise P)
    (h2 : (l.map Prod.snd).Pairwise Q) : l.Pairwise (fun a b => P a.1 b.1 ∧ Q a.2 b.2) := by
  rw [List.pairwise_map] at h1 h2
  exact h1.and h2

theorem points_incr (cat : List K) (low high : K) (h : low ≤ 1 - high) :
    Incr (points cat low high) := by
  refine pairwise_of_maps (P := (· ≤ ·)) (Q := (· ≤ ·)) ?_ ?_
  · rw [points_fst]; exact List.pairwise_insertionSort _ _
  · rw [points_snd]; exact linspace_sorted _ _ _ h

theorem points_strict2 (cat : List K) (low high : K) (h : low < 1 - high) :
    Strict2 (points cat low high) := by
  have := linspace_strict low (1 - high) cat.length h
  rw [← points_snd cat low high, List.pairwise_map] at this
  exact this

theorem points_bounds (cat : List K) (low high : K) (h : low ≤ 1 - high) :
    ∀ q ∈ points cat low high, low ≤ q.2 ∧ q.2 ≤ 1 - high := by
  intro q hq
  apply linspace_bounds low (1 - high) cat.length h
  rw [← points_snd cat low high]
  exact List.mem_map.2 ⟨q, hq, rfl⟩

end Verif.AM
