import Verif.Model.LumFun
import Verif.Lemmas.Match
import Mathlib.Algebra.BigOperators.Group.List.Basic
import Mathlib.Algebra.Order.BigOperators.Group.List
import Mathlib.Tactic.Linarith
import Mathlib.Tactic.Ring
import Mathlib.Tactic.FieldSimp

/-!
# Interpolation in tables and sums
-/

set_option linter.unusedSectionVars false

namespace Verif.LF

open Verif.AM (interp interpFrom Incr)

variable {K : Type} [Field K] [LinearOrder K] [IsStrictOrderedRing K]

/-- The first numbers increase. -/
abbrev Strict1 (l : List (K × K)) : Prop := l.Pairwise (fun a b => a.1 < b.1)

theorem strict1_get {l : List (K × K)} (h : Strict1 l) {i j : ℕ} {a b : K × K} (ha : l[i]? = some a)
    (hb : l[j]? = some b) (hij : i < j) : a.1 < b.1 := by
  obtain ⟨hi, rfl⟩ := List.getElem?_eq_some_iff.1 ha
  obtain ⟨hj, rfl⟩ := List.getElem?_eq_some_iff.1 hb
  exact List.pairwise_iff_getElem.1 h i j hi hj hij

theorem strict1_get_le {l : List (K × K)} (h : Strict1 l) {i j : ℕ} {a b : K × K} (ha : l[i]? = some a)
    (hb : l[j]? = some b) (hij : i ≤ j) : a.1 ≤ b.1 := by
  rcases Nat.lt_or_ge i j with hlt | hge
  · exact (strict1_get h ha hb hlt).le
  · have : i = j := by omega
    subst this
    rw [ha] at hb; cases hb; exact le_refl _

theorem interpFrom_seg (right x : K) (p : K × K) (rest : List (K × K)) (hl : Strict1 (p :: rest))
    (i : ℕ) (a b : K × K) (ha : (p :: rest)[i]? = some a) (hb : (p :: rest)[i + 1]? = some b)
    (h1 : a.1 ≤ x) (h2 : x < b.1) :
    interpFrom id right x p rest = (b.2 - a.2) / (b.1 - a.1) * (x - a.1) + a.2 := by
  induction rest generalizing p i with
  | nil => simp at hb
  | cons q rest ih =>
    unfold interpFrom
    cases i with
    | zero =>
      simp at ha hb
      subst ha; subst hb
      rw [if_neg (not_le.2 h2)]
      by_cases hx : p.1 = x
      · rw [if_pos hx, ← hx]; simp
      · rw [if_neg hx]; rfl
    | succ j =>
      have hq : q.1 ≤ x := by
        have h0 : (q :: rest)[0]? = some q := rfl
        have ha' : (q :: rest)[j]? = some a := by simpa using ha
        exact le_trans (strict1_get_le (List.Pairwise.of_cons hl) h0 ha' (Nat.zero_le _)) h1
      rw [if_pos hq]
      exact ih q (List.Pairwise.of_cons hl) j (by simpa using ha) (by simpa using hb)

theorem interpFrom_last (right x : K) (p : K × K) (rest : List (K × K)) (hl : Strict1 (p :: rest))
    (hr : right = ((p :: rest).getLast (by simp)).2) (hx : ((p :: rest).getLast (by simp)).1 ≤ x) :
    interpFrom id right x p rest = right := by
  induction rest generalizing p with
  | nil =>
    unfold interpFrom
    by_cases h : p.1 < x
    · rw [if_pos h]
    · rw [if_neg h, hr]; rfl
  | cons q rest ih =>
    have e : (p :: q :: rest).getLast (by simp) = (q :: rest).getLast (by simp) := by
      rw [List.getLast_cons (by simp)]
    unfold interpFrom
    have hq : q.1 ≤ x := by
      refine le_trans ?_ (e ▸ hx)
      have h0 : (q :: rest)[0]? = some q := rfl
      have h9 : (q :: rest)[rest.length]? = some ((q :: rest).getLast (by simp)) := by
        have := List.getLast?_eq_getElem? (l := q :: rest)
        rw [List.getLast?_eq_some_getLast (by simp)] at this
        simpa using this.symm
      exact strict1_get_le (List.Pairwise.of_cons hl) h0 h9 (Nat.zero_le _)
    rw [if_pos hq]
    exact ih q (List.Pairwise.of_cons hl) (by rw [hr, e]) (by rw [← e]; exact hx)

theorem interpD_seg (l : List (K × K)) (x : K) (hl : Strict1 l) (i : ℕ) (a b : K × K)
    (ha : l[i]? = some a) (hb : l[i + 1]? = some b) (h1 : a.1 ≤ x) (h2 : x < b.1) :
    interpD l x = (b.2 - a.2) / (b.1 - a.1) * (x - a.1) + a.2 := by
  match l, hl, ha, hb with
  | [], _, ha, _ => simp at ha
  | p :: rest, hl, ha, hb =>
    have h0 : (p :: rest)[0]? = some p := rfl
    have hp : p.1 ≤ x := le_trans (strict1_get_le hl h0 ha (Nat.zero_le _)) h1
    unfold interpD interp
    simp only
    rw [if_neg (not_lt.2 hp)]
    exact interpFrom_seg _ x p rest hl i a b ha hb h1 h2

theorem getLast_get {α : Type} (l : List α) (h : l ≠ []) : l[l.length - 1]? = some (l.getLast h) := by
  rw [← List.getLast?_eq_getElem?, List.getLast?_eq_some_getLast h]

theorem interpD_last (l : List (K × K)) (x : K) (hl : Strict1 l) (a : K × K)
    (ha : l[l.length - 1]? = some a) (h1 : a.1 ≤ x) : interpD l x = a.2 := by
  match l, hl, ha with
  | [], _, ha => simp at ha
  | p :: rest, hl, ha =>
    rw [getLast_get (p :: rest) (by simp)] at ha
    simp only [Option.some.injEq] at ha
    have h0 : (p :: rest)[0]? = some p := rfl
    have hp : p.1 ≤ a.1 := by
      rw [← ha]
      exact strict1_get_le hl h0 (getLast_get (p :: rest) (by simp)) (Nat.zero_le _)
    unfold interpD interp
    simp only
    rw [if_neg (not_lt.2 (le_trans hp h1)), interpFrom_last _ x p rest hl rfl (by rw [ha]; exact h1), ha]

theorem interpD_below (p : K × K) (l : List (K × K)) (x : K) (h0 : l[0]? = some p)
    (hx : x < p.1) : interpD l x = p.2 := by
  match l, h0 with
  | [], h0 => simp at h0
  | q :: rest, h0 =>
    simp at h0; subst h0
    unfold interpD interp
    simp only
    rw [if_pos hx]

theorem interpD_at (l : List (K × K)) (hl : Strict1 l) (i : ℕ) (a : K × K) (ha : l[i]? = some a) :
    interpD l a.1 = a.2 := by
  obtain ⟨hi, _⟩ := List.getElem?_eq_some_iff.1 ha
  by_cases h : i + 1 < l.length
  · have hb : l[i + 1]? = some l[i + 1] := List.getElem?_eq_getElem h
    rw [interpD_seg l a.1 hl i a _ ha hb (le_refl _) (strict1_get hl ha hb (Nat.lt_succ_self i))]
    simp
  · have : i = l.length - 1 := by omega
    subst this
    exact interpD_last l a.1 hl a ha (le_refl _)

theorem interpFrom_affine (c d right x : K) (p : K × K) (rest : List (K × K)) :
    interpFrom id (c * right + d) x (p.1, c * p.2 + d) (rest.map (fun p => (p.1, c * p.2 + d))) =
      c * interpFrom id right x p rest + d := by
  induction rest generalizing p with
  | nil =>
    simp only [List.map_nil]
    unfold interpFrom
    by_cases h : p.1 < x
    · simp [h]
    · simp [h]
  | cons q rest ih =>
    rw [List.map_cons]
    unfold interpFrom
    by_cases h : q.1 ≤ x
    · rw [if_pos h, if_pos h]; exact ih q
    · rw [if_neg h, if_neg h]
      by_cases hx : p.1 = x
      · rw [if_pos hx, if_pos hx]; rfl
      · rw [if_neg hx, if_neg hx]; simp only [id]; ring

theorem interpD_affine (c d x : K) (l : List (K × K)) (h : l ≠ []) :
    interpD (l.map (fun p => (p.1, c * p.2 + d))) x = c * interpD l x + d := by
  match l, h with
  | p :: rest, _ =>
    rw [List.map_cons]
    have e : (((p.1, c * p.2 + d) :: rest.map (fun p => (p.1, c * p.2 + d))).getLast (by simp)).2 =
        c * ((p :: rest).getLast (by simp)).2 + d := by
      have : (p.1, c * p.2 + d) :: rest.map (fun p => (p.1, c * p.2 + d)) =
          (p :: rest).map (fun p => (p.1, c * p.2 + d)) := rfl
      simp only [this, List.getLast_map]
    unfold interpD interp
    simp only
    by_cases hx : x < p.1
    · rw [if_pos hx, if_pos hx]
    · rw [if_neg hx, if_neg hx, e]; exact interpFrom_affine c d _ x p rest

theorem interpD_mono (l : List (K × K)) (hl : Incr l) (x y : K) (hxy : x ≤ y) :
    interpD l x ≤ interpD l y := by
  match l, hl with
  | [], _ => exact le_refl _
  | p :: rest, hl =>
    have h0 : ∀ q ∈ p :: rest, p.2 ≤ q.2 := by
      intro q hq
      rcases List.mem_cons.1 hq with rfl | hq
      · exact le_refl _
      · exact (List.rel_of_pairwise_cons hl hq).2
    have h9 : ∀ q ∈ p :: rest, q.2 ≤ ((p :: rest).getLast (by simp)).2 := by
      intro q hq
      obtain ⟨i, hi, rfl⟩ := List.getElem_of_mem hq
      rw [List.getLast_eq_getElem]
      rcases Nat.lt_or_ge i ((p :: rest).length - 1) with hlt | hge
      · exact (List.pairwise_iff_getElem.1 hl i _ hi (by omega) hlt).2
      · have : i = (p :: rest).length - 1 := by omega
        subst this; exact le_refl _
    have := AM.interp_mono (emb := id) (right := ((p :: rest).getLast (by simp)).2) (R := fun a b : K => a ≤ b)
      (fun _ _ h => h) (fun _ _ _ h h' => le_trans h h')
      (le_refl _) p.2 (le_refl _) (h9 p (by simp)) x y hxy p rest hl h9 (le_refl _)
    exact this

/-- Between two points of an increasing table the value is between theirs. -/
theorem interpD_between (l : List (K × K)) (hl : Strict1 l) (hi : Incr l) (x : K) (i j : ℕ) (a b : K × K)
    (ha : l[i]? = some a) (hb : l[j]? = some b) (h1 : a.1 ≤ x) (h2 : x ≤ b.1) :
    a.2 ≤ interpD l x ∧ interpD l x ≤ b.2 := by
  constructor
  · rw [← interpD_at l hl i a ha]; exact interpD_mono l hi _ _ h1
  · rw [← interpD_at l hl j b hb]; exact interpD_mono l hi _ _ h2

/-! ## Sums -/

theorem cumsum_length (s : K) (xs : List K) : (cumsum s xs).length = xs.length := by
  induction xs generalizing s with
  | nil => rfl
  | cons x xs ih => simp [cumsum, ih]

theorem cumsum_get (s : K) (xs : List K) (i : ℕ) (h : i < xs.length) :
    (cumsum s xs)[i]? = some (s + (xs.take (i + 1)).sum) := by
  induction xs generalizing s i with
  | nil => simp at h
  | cons x xs ih =>
    cases i with
    | zero => simp [cumsum]
    | succ j =>
      simp only [cumsum, List.getElem?_cons_succ]
      rw [ih (s + x) j (by simpa using h)]
      simp [add_assoc]

theorem tailsum_get (xs : List K) (i : ℕ) (h : i < xs.length) :
    ((cumsum 0 xs.reverse).reverse)[i]? = some (xs.drop i).sum := by
  rw [List.getElem?_reverse (by rw [cumsum_length]; simpa using h), cumsum_length,
    cumsum_get _ _ _ (by simp; omega)]
  rw [List.length_reverse, List.take_reverse, zero_add, List.sum_reverse]
  congr 3
  omega

theorem take_sum_add_drop (xs : List K) (i : ℕ) : (xs.take i).sum + (xs.drop i).sum = xs.sum := by
  rw [← List.sum_append, List.take_append_drop]

theorem take_sum_succ (xs : List K) (i : ℕ) (x : K) (h : xs[i]? = some x) :
    (xs.take (i + 1)).sum = (xs.take i).sum + x := by
  rw [List.take_add_one, h]; simp

theorem take_sum_mono (xs : List K) (hx : ∀ x ∈ xs, 0 ≤ x) (i j : ℕ) (h : i ≤ j) :
    (xs.take i).sum ≤ (xs.take j).sum := by
  obtain ⟨k, rfl⟩ := Nat.exists_eq_add_of_le h
  rw [List.take_add, List.sum_append]
  have : 0 ≤ ((xs.drop i).take k).sum :=
    List.sum_nonneg (fun y hy => hx y (List.mem_of_mem_drop (List.mem_of_mem_take hy)))
  linarith

theorem take_sum_nonneg (xs : List K) (hx : ∀ x ∈ xs, 0 ≤ x) (i : ℕ) : 0 ≤ (xs.take i).sum :=
  List.sum_nonneg (fun y hy => hx y (List.mem_of_mem_take hy))

theorem take_sum_lt (xs : List K) (hx : ∀ x ∈ xs, 0 < x) (i j : ℕ) (h : i < j) (hj : j ≤ xs.length) :
    (xs.take i).sum < (xs.take j).sum := by
  have h1 : i < xs.length := by omega
  have h2 := take_sum_succ xs i _ (List.getElem?_eq_getElem h1)
  have h3 := take_sum_mono xs (fun x hm => (hx x hm).le) (i + 1) j h
  have h4 := hx _ (List.getElem_mem h1)
  linarith

theorem sum_eq_take (xs : List K) : xs.sum = (xs.take xs.length).sum := by rw [List.take_length]

end Verif.LF
