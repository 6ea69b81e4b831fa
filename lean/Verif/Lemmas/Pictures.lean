import Verif.Spec.Pictures
import Verif.Lemmas.GridAxis
import Verif.Lemmas.GridAdd

/-!
# Lemmas for pictures of grids
-/

set_option linter.unusedSectionVars false

namespace Verif.Pic

open Verif.Map (Grid Arr axisEdges sum_map_single)
open Verif.Map.Spec (Regular AxisIs edges middles freqs)
open Verif.Pic.Spec

variable {K V W : Type}

/-! ## Sums over cells -/

/-- Does the cell agree with the indices that are prescribed? -/
def agree : List (Option ℕ) → List ℕ → Bool
  | [], [] => true
  | none :: con, _ :: c => agree con c
  | some k :: con, j :: c => decide (j = k) && agree con c
  | _, _ => false

inductive Fill : List (ℕ × Sel) → List ℕ → List (Option ℕ) → Prop
  | nil (i : List ℕ) : Fill [] i []
  | all (n : ℕ) (l : List (ℕ × Sel)) (i : List ℕ) (con : List (Option ℕ)) : Fill l i con →
      Fill ((n, .all n) :: l) i (none :: con)
  | one (n k : ℕ) (l : List (ℕ × Sel)) (i : List ℕ) (con : List (Option ℕ)) : k < n → Fill l i con →
      Fill ((n, .one k) :: l) i (some k :: con)
  | keep (n k : ℕ) (l : List (ℕ × Sel)) (i : List ℕ) (con : List (Option ℕ)) : k < n → Fill l i con →
      Fill ((n, .keep) :: l) (k :: i) (some k :: con)

theorem filter_flatMap' {α β : Type} (l : List α) (f : α → List β) (p : β → Bool) :
    (l.flatMap f).filter p = l.flatMap (fun x => (f x).filter p) := by
  induction l with
  | nil => rfl
  | cons a l ih => simp [List.flatMap_cons, List.filter_append, ih]

theorem sum_flatMap' [AddCommMonoid V] {α β : Type} (l : List α) (g : α → List β) (h : β → V) :
    ((l.flatMap g).map h).sum = (l.map (fun a => ((g a).map h).sum)).sum := by
  induction l with
  | nil => rfl
  | cons a l ih => simp [List.flatMap_cons, ih]

theorem sum_prescribed [AddCommMonoid V] (n k : ℕ) (hk : k < n) (ns : List ℕ) (con : List (Option ℕ))
    (f : List ℕ → V) :
    (((cells (n :: ns)).filter (agree (some k :: con))).map f).sum =
      (((cells ns).filter (agree con)).map (fun r => f (k :: r))).sum := by
  simp only [cells]
  rw [filter_flatMap', sum_flatMap']
  have h : ∀ j ∈ List.range n,
      ((((cells ns).map (fun c => j :: c)).filter (agree (some k :: con))).map f).sum =
        if j = k then (((cells ns).filter (agree con)).map (fun r => f (k :: r))).sum else 0 := by
    intro j _
    rw [List.filter_map, List.map_map]
    by_cases e : j = k
    · subst e
      rw [if_pos rfl]
      have : (agree (some j :: con) ∘ fun c => j :: c) = agree con := by
        funext c; simp [agree]
      rw [this]
      rfl
    · rw [if_neg e]
      have : ((cells ns).filter (agree (some k :: con) ∘ fun c => j :: c)) = [] := by
        rw [List.filter_eq_nil_iff]
        intro c _
        simp [agree, e]
      rw [this]
      rfl
  rw [List.map_congr_left h, sum_map_single _ List.nodup_range, if_pos (List.mem_range.2 hk)]

theorem look_sum [AddCommMonoid V] (l : List (ℕ × Sel)) (i : List ℕ) (con : List (Option ℕ)) (h : Fill l i con) :
    ∀ f : List ℕ → V, look (l.map (·.2)) i f = (((cells (l.map (·.1))).filter (agree con)).map f).sum := by
  induction h with
  | nil i =>
    intro f
    have e : List.filter (agree []) [([] : List ℕ)] = [[]] := rfl
    simp [look, cells, e]
  | all n l i con h ih =>
    intro f
    simp only [List.map_cons, look, cells]
    rw [filter_flatMap', sum_flatMap']
    congr 1
    apply List.map_congr_left
    intro k _
    rw [ih, List.filter_map, List.map_map]
    rfl
  | one n k l i con hk h ih =>
    intro f
    simp only [List.map_cons, look]
    rw [ih, sum_prescribed n k hk]
  | keep n k l i con hk h ih =>
    intro f
    simp only [List.map_cons, look]
    rw [ih, sum_prescribed n k hk]

theorem look_last [AddCommMonoid V] : ∀ (l : List Sel) (p : ℕ) (i : List ℕ) (f : List ℕ → V),
    look (l ++ [.one p]) i f = look l i (fun r => f (r ++ [p]))
  | [], p, i, f => by simp [look]
  | .all n :: l, p, i, f => by
    simp only [List.cons_append, look]
    congr 1
    apply List.map_congr_left
    intro k _
    rw [look_last l p i]
  | .one k :: l, p, i, f => by
    simp only [List.cons_append, look]
    rw [look_last l p i]
  | .keep :: l, p, [], f => by simp [look]
  | .keep :: l, p, k :: i, f => by
    simp only [List.cons_append, look]
    rw [look_last l p i]

theorem agree_iff : ∀ (con : List (Option ℕ)) (c : List ℕ),
    agree con c = true ↔ con.length = c.length ∧ ∀ (d k : ℕ), con[d]? = some (some k) → c[d]? = some k
  | [], [] => by simp [agree]
  | [], _ :: _ => by simp [agree]
  | o :: con, [] => by cases o <;> simp [agree]
  | none :: con, j :: c => by
    rw [agree, agree_iff con c]
    simp only [List.length_cons, Nat.add_right_cancel_iff]
    constructor
    · rintro ⟨h1, h2⟩
      refine ⟨h1, ?_⟩
      intro d k hd
      cases d with
      | zero => simp at hd
      | succ d => simpa using h2 d k (by simpa using hd)
    · rintro ⟨h1, h2⟩
      exact ⟨h1, fun d k hd => by simpa using h2 (d+1) k (by simpa using hd)⟩
  | some k :: con, j :: c => by
    rw [agree, Bool.and_eq_true, decide_eq_true_eq, agree_iff con c]
    simp only [List.length_cons, Nat.add_right_cancel_iff]
    constructor
    · rintro ⟨h0, h1, h2⟩
      refine ⟨h1, ?_⟩
      intro d k' hd
      cases d with
      | zero =>
        simp only [List.getElem?_cons_zero, Option.some.injEq] at hd ⊢
        rw [h0, hd]
      | succ d => simpa using h2 d k' (by simpa using hd)
    · rintro ⟨h1, h2⟩
      exact ⟨by simpa using h2 0 k (by simp), h1, fun d k hd => by simpa using h2 (d+1) k (by simpa using hd)⟩

theorem cells_length : ∀ (ns : List ℕ) (c : List ℕ), c ∈ cells ns → c.length = ns.length
  | [], c, h => by simp only [cells, List.mem_singleton] at h; simp [h]
  | n :: ns, c, h => by
    simp only [cells, List.mem_flatMap, List.mem_map] at h
    obtain ⟨k, -, c', hc', rfl⟩ := h
    simp [cells_length ns c' hc']

/-- What is taken along each axis, as an instance of `Fill`. -/
theorem fill_zipIdx (other : ℕ → ℕ → Sel) : ∀ (ns : List ℕ) (s : ℕ) (kept idx : List ℕ),
    kept.Pairwise (· < ·) → (∀ d ∈ kept, s ≤ d ∧ d < s + ns.length) → idx.length = kept.length →
    (∀ (m d i n : ℕ), kept[m]? = some d → idx[m]? = some i → ns[d - s]? = some n → i < n) →
    (∀ (d n : ℕ), ns[d]? = some n → s + d ∉ kept → other (s + d) n = .all n ∨ ∃ k < n, other (s + d) n = .one k) →
    ∃ con, Fill ((ns.zipIdx s).map (fun q => (q.1, if q.2 ∈ kept then Sel.keep else other q.2 q.1))) idx con ∧
      con.length = ns.length ∧
      ∀ (d k : ℕ), con[d]? = some (some k) ↔ (s + d, k) ∈ kept.zip idx ∨
        (s + d ∉ kept ∧ ∃ n, ns[d]? = some n ∧ other (s + d) n = .one k)
  | [], s, kept, idx, hk, hb, hl, hi, ho => by
    have hk0 : kept = [] := by
      rcases kept with _ | ⟨d, l⟩
      · rfl
      · have := hb d (by simp)
        simp only [List.length_nil] at this
        omega
    subst hk0
    exact ⟨[], .nil _, rfl, by simp⟩
  | n :: ns, s, kept, idx, hk, hb, hl, hi, ho => by
    by_cases hs : s ∈ kept
    · obtain ⟨kept', rfl⟩ : ∃ kept', kept = s :: kept' := by
        rcases kept with _ | ⟨d, l⟩
        · cases hs
        · rw [List.pairwise_cons] at hk
          rcases List.mem_cons.1 hs with rfl | h
          · exact ⟨l, rfl⟩
          · have h1 := hk.1 s h
            have h2 := (hb d (by simp)).1
            omega
      obtain ⟨i, idx', rfl⟩ : ∃ i idx', idx = i :: idx' := by
        rcases idx with _ | ⟨i, l⟩
        · cases hl
        · exact ⟨i, l, rfl⟩
      rw [List.pairwise_cons] at hk
      have hlow : ∀ d ∈ kept', s + 1 ≤ d := fun d hd => hk.1 d hd
      obtain ⟨con, c1, c2, c3⟩ := fill_zipIdx other ns (s+1) kept' idx' hk.2
        (by
          intro d hd
          have := hb d (List.mem_cons_of_mem _ hd)
          simp only [List.length_cons] at this
          exact ⟨hlow d hd, by omega⟩)
        (by simpa using hl)
        (by
          intro m d j n' h1 h2 h3
          have hd := hlow d (List.mem_of_getElem? h1)
          refine hi (m+1) d j n' (by simpa using h1) (by simpa using h2) ?_
          have e : d - s = (d - (s + 1)) + 1 := by omega
          rw [e, List.getElem?_cons_succ]
          exact h3)
        (by
          intro d n' h1 h2
          have e : s + 1 + d = s + (d + 1) := by omega
          rw [e] at h2 ⊢
          refine ho (d+1) n' (by simpa using h1) ?_
          rw [List.mem_cons, not_or]
          exact ⟨by omega, h2⟩)
      refine ⟨some i :: con, ?_, by simp [c2], ?_⟩
      · simp only [List.zipIdx_cons, List.map_cons, List.mem_cons_self, if_true]
        have hin : i < n := hi 0 s i n (by simp) (by simp) (by simp)
        have e : (ns.zipIdx (s + 1)).map (fun q => (q.1, if q.2 ∈ s :: kept' then Sel.keep else other q.2 q.1)) =
            (ns.zipIdx (s + 1)).map (fun q => (q.1, if q.2 ∈ kept' then Sel.keep else other q.2 q.1)) := by
          apply List.map_congr_left
          intro q hq
          have hq2 : s + 1 ≤ q.2 := by
            have := List.mem_zipIdx (x := q.1) (i := q.2) hq
            omega
          have hne : q.2 ≠ s := by omega
          simp only [List.mem_cons, hne, false_or]
        rw [e]
        exact .keep n i _ _ _ hin c1
      · intro d k
        cases d with
        | zero =>
          simp only [List.getElem?_cons_zero, Option.some.injEq, Nat.add_zero, List.zip_cons_cons, List.mem_cons,
            Prod.mk.injEq, true_and, true_or, not_true, false_and, or_false]
          constructor
          · intro h; exact .inl h.symm
          · rintro (h | h)
            · exact h.symm
            · have := hlow s (List.of_mem_zip h).1
              omega
        | succ d =>
          rw [List.getElem?_cons_succ, c3 d k]
          have e : s + 1 + d = s + (d + 1) := by omega
          have hne : s + (d + 1) ≠ s := by omega
          rw [e]
          simp only [List.zip_cons_cons, List.mem_cons, Prod.mk.injEq, hne, false_and, false_or,
            List.getElem?_cons_succ]
    · have hlow : ∀ d ∈ kept, s + 1 ≤ d := by
        intro d hd
        have h1 := (hb d hd).1
        have h2 : d ≠ s := fun e => hs (e ▸ hd)
        omega
      obtain ⟨con, c1, c2, c3⟩ := fill_zipIdx other ns (s+1) kept idx hk
        (by
          intro d hd
          have := hb d hd
          simp only [List.length_cons] at this
          exact ⟨hlow d hd, by omega⟩)
        hl
        (by
          intro m d j n' h1 h2 h3
          have hd := hlow d (List.mem_of_getElem? h1)
          refine hi m d j n' h1 h2 ?_
          have e : d - s = (d - (s + 1)) + 1 := by omega
          rw [e, List.getElem?_cons_succ]
          exact h3)
        (by
          intro d n' h1 h2
          have e : s + 1 + d = s + (d + 1) := by omega
          rw [e] at h2 ⊢
          exact ho (d+1) n' (by simpa using h1) h2)
      have hzip : ∀ k, (s, k) ∉ kept.zip idx := fun k h => hs (List.of_mem_zip h).1
      have tail : ∀ (d k : ℕ), con[d]? = some (some k) ↔ (s + (d + 1), k) ∈ kept.zip idx ∨
          (s + (d + 1) ∉ kept ∧ ∃ n', (n :: ns)[d+1]? = some n' ∧ other (s + (d + 1)) n' = .one k) := by
        intro d k
        rw [c3 d k]
        have e : s + 1 + d = s + (d + 1) := by omega
        rw [e, List.getElem?_cons_succ]
      rcases ho 0 n (by simp) (by simpa using hs) with h | ⟨k0, hk0, h⟩
      · rw [Nat.add_zero] at h
        refine ⟨none :: con, ?_, by simp [c2], ?_⟩
        · simp only [List.zipIdx_cons, List.map_cons, hs, if_false, h]
          exact .all n _ _ _ c1
        · intro d k
          cases d with
          | zero => simp [hs, h, hzip]
          | succ d => rw [List.getElem?_cons_succ]; exact tail d k
      · rw [Nat.add_zero] at h
        refine ⟨some k0 :: con, ?_, by simp [c2], ?_⟩
        · simp only [List.zipIdx_cons, List.map_cons, hs, if_false, h]
          exact .one n k0 _ _ _ hk0 c1
        · intro d k
          cases d with
          | zero => simp [hs, h, hzip]
          | succ d => rw [List.getElem?_cons_succ]; exact tail d k

/-- An image is the sum over the cells that are there. -/
theorem image_eq [AddCommMonoid V] [AddCommMonoid W] (re : V →+ W) (a : Arr V) (ns kept idx : List ℕ)
    (other : ℕ → ℕ → Sel) (p : ℕ) (at' : List (ℕ × ℕ)) (hk : kept.Pairwise (· < ·))
    (hb : ∀ d ∈ kept, d < ns.length) (hl : idx.length = kept.length)
    (hi : ∀ (m d i n : ℕ), kept[m]? = some d → idx[m]? = some i → ns[d]? = some n → i < n)
    (ho : ∀ (d n : ℕ), ns[d]? = some n → d ∉ kept → other d n = .all n ∨ ∃ k < n, other d n = .one k)
    (hat : ∀ (d k : ℕ), (d, k) ∈ at' ↔ (d, k) ∈ kept.zip idx ∨
      (d ∉ kept ∧ ∃ n, ns[d]? = some n ∧ other d n = .one k)) :
    (image re a ns kept other p).get idx = sumAt re a ns at' p := by
  obtain ⟨con, c1, c2, c3⟩ := fill_zipIdx other ns 0 kept idx hk (fun d hd => ⟨Nat.zero_le _, by simpa using hb d hd⟩)
    hl (by simpa using hi) (by simpa using ho)
  simp only [image, sels]
  rw [look_last]
  have e1 : (ns.zipIdx.map (fun q => if q.2 ∈ kept then Sel.keep else other q.2 q.1)) =
      (((ns.zipIdx 0).map (fun q => (q.1, if q.2 ∈ kept then Sel.keep else other q.2 q.1))).map (·.2)) := by
    rw [List.map_map]; rfl
  have e2 : (((ns.zipIdx 0).map (fun q => (q.1, if q.2 ∈ kept then Sel.keep else other q.2 q.1))).map (·.1)) = ns := by
    rw [List.map_map]
    exact List.zipIdx_map_fst 0 ns
  rw [e1, look_sum _ _ _ c1, e2, map_list_sum, List.map_map]
  unfold sumAt
  have e3 : (cells ns).filter (agree con) = (cells ns).filter (fun c => decide (At at' c)) := by
    apply List.filter_congr
    intro c hc
    rw [Bool.eq_iff_iff, agree_iff, decide_eq_true_eq, c2, cells_length ns c hc]
    simp only [true_and]
    constructor
    · rintro h ⟨d, k⟩ hq
      exact h d k ((c3 d k).2 (by simpa using (hat d k).1 hq))
    · intro h d k hd
      exact h (d, k) ((hat d k).2 (by simpa using (c3 d k).1 hd))
  rw [e3]
  rfl

/-! ## Lists of axes -/

theorem shownAxes_eq (dim : ℕ) (ax l : List ℕ) (hs : l.Pairwise (· < ·)) (hm : ∀ d, d ∈ l ↔ d < dim ∧ d ∈ ax) :
    shownAxes dim ax = l := by
  have h1 : (shownAxes dim ax).Pairwise (· < ·) := List.pairwise_lt_range.filter _
  have n1 : (shownAxes dim ax).Nodup := h1.imp (fun h => Nat.ne_of_lt h)
  have n2 : l.Nodup := hs.imp (fun h => Nat.ne_of_lt h)
  have hp : (shownAxes dim ax).Perm l := by
    rw [List.perm_ext_iff_of_nodup n1 n2]
    intro d
    rw [hm]
    simp [shownAxes]
  exact hp.eq_of_pairwise (le := (· < ·)) (fun a b _ _ h1 h2 => absurd h1 (Nat.lt_asymm h2)) h1 hs

theorem mem_shownAxes (dim : ℕ) (ax : List ℕ) (d : ℕ) : d ∈ shownAxes dim ax ↔ d < dim ∧ d ∈ ax := by
  simp [shownAxes]

/-! ## Edges -/

theorem axisEdges_even [Field K] [LinearOrder K] [IsStrictOrderedRing K] [FloorRing K] (n : ℕ) (x0 w : K) (hn : 2 ≤ n) :
    axisEdges ((List.range n).map (fun k : ℕ => x0 + (k : K) * w)) = .ok (drawn n x0 w) := by
  obtain ⟨m, rfl⟩ : ∃ m, n = m + 2 := ⟨n - 2, by omega⟩
  obtain ⟨f, hf⟩ : ∃ f : ℕ → K, f = fun k : ℕ => x0 + (k : K) * w := ⟨_, rfl⟩
  rw [← hf]
  have hdiff : List.zipWith (fun b a => b - a) ((List.range (m + 2)).map f).tail ((List.range (m + 2)).map f) =
      (List.range (m + 1)).map (fun k => f (k + 1) - f k) := by
    apply List.ext_getElem
    · simp
    · intro k h1 h2
      simp
  have hstep : ∀ k, f (k + 1) - f k = w := by
    intro k
    simp only [hf]
    push_cast
    ring
  unfold axisEdges
  simp only [hdiff]
  have h1 : ((List.range (m + 2)).map f).head? = some (f 0) := by
    rw [List.range_succ_eq_map]; rfl
  have h2 : ((List.range (m + 2)).map f).getLast? = some (f (m + 1)) := by
    rw [List.range_succ, List.map_append]; simp
  have h3 : ((List.range (m + 1)).map (fun k => f (k + 1) - f k)).head? = some (f 1 - f 0) := by
    rw [List.range_succ_eq_map]; rfl
  have h4 : ((List.range (m + 1)).map (fun k => f (k + 1) - f k)).getLast? =
      some (f (m + 1) - f m) := by
    rw [List.range_succ, List.map_append]; simp
  rw [h1, h2, h3, h4]
  simp only [Except.ok.injEq]
  apply List.ext_getElem
  · simp [drawn]
  · intro k k1 k2
    have hk : k < m + 3 := by simpa [drawn] using k2
    have hr : (drawn (m + 2) x0 w)[k] =
      (if k = 0 then x0 - w / 2
       else if k = m + 2 then x0 + (((m + 2 : ℕ) : K) - 1 / 2) * w
       else x0 + (k : K) * w) := by
      simp [drawn]
    rw [hr]
    cases k with
    | zero =>
      simp only [List.cons_append, List.nil_append, List.getElem_cons_zero, if_true, hstep]
      simp only [hf]
      rw [Nat.cast_zero]
      ring
    | succ k =>
      rw [if_neg (by omega)]
      by_cases hlast : k + 1 = m + 2
      · rw [if_pos hlast]
        have hk' : k = m + 1 := by omega
        subst hk'
        rw [List.getElem_append_right (by simp)]
        simp only [List.length_append, List.length_singleton, List.length_zipWith, List.length_dropLast,
          List.length_map, List.length_range, List.getElem_singleton, hstep]
        simp only [hf]
        push_cast
        ring
      · rw [if_neg hlast]
        rw [List.getElem_append_left (by simp; omega)]
        rw [List.getElem_append_right (by simp)]
        simp only [List.length_singleton, Nat.add_sub_cancel, List.getElem_zipWith, List.getElem_dropLast,
          List.getElem_map, List.getElem_range]
        simp only [hf]
        push_cast
        ring

theorem drawn_length [Field K] (n : ℕ) (x0 w : K) : (drawn n x0 w).length = n + 1 := by simp [drawn]

end Verif.Pic
