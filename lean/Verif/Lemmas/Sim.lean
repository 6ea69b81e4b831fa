import Mathlib.Tactic.Linarith
import Verif.Spec.Sim

/-! # Lemmas about snapshot tables and lookups -/

namespace Verif.Sim
open Spec

variable {K : Type}

section sorting
variable [LinearOrder K]

theorem insertByZ_perm (s : SnapMeta K) (l : List (SnapMeta K)) :
    (insertByZ s l).Perm (s :: l) := by
  induction l with
  | nil => simp [insertByZ]
  | cons t rest ih =>
    unfold insertByZ
    split
    · exact List.Perm.refl _
    · exact (List.Perm.cons t ih).trans (List.Perm.swap s t rest)

theorem sortByZ_perm (l : List (SnapMeta K)) : (sortByZ l).Perm l := by
  induction l with
  | nil => simp [sortByZ]
  | cons s rest ih =>
    have : sortByZ (s :: rest) = insertByZ s (sortByZ rest) := rfl
    rw [this]
    exact (insertByZ_perm s _).trans (List.Perm.cons s ih)

theorem insertByZ_sorted (s : SnapMeta K) (l : List (SnapMeta K))
    (h : l.Pairwise (fun a b => a.redshift ≤ b.redshift)) :
    (insertByZ s l).Pairwise (fun a b => a.redshift ≤ b.redshift) := by
  induction l with
  | nil => simp [insertByZ]
  | cons t rest ih =>
    unfold insertByZ
    rw [List.pairwise_cons] at h
    split
    · rename_i hlt
      rw [List.pairwise_cons]
      refine ⟨?_, List.pairwise_cons.2 h⟩
      intro b hb
      rcases List.mem_cons.1 hb with rfl | hb
      · exact le_of_lt hlt
      · exact le_trans (le_of_lt hlt) (h.1 b hb)
    · rename_i hge
      rw [List.pairwise_cons]
      refine ⟨?_, ih h.2⟩
      intro b hb
      have := (insertByZ_perm s rest).mem_iff.1 hb
      rcases List.mem_cons.1 this with rfl | hb
      · exact not_lt.1 hge
      · exact h.1 b hb

theorem sortByZ_sorted (l : List (SnapMeta K)) :
    (sortByZ l).Pairwise (fun a b => a.redshift ≤ b.redshift) := by
  induction l with
  | nil => simp [sortByZ]
  | cons s rest ih => exact insertByZ_sorted s _ ih

theorem sortByZ_eq (l l' : List (SnapMeta K)) (hp : l'.Perm l)
    (hs : l'.Pairwise (fun a b => a.redshift < b.redshift)) : sortByZ l = l' := by
  have hperm : (sortByZ l).Perm l' := (sortByZ_perm l).trans hp.symm
  refine List.Perm.eq_of_pairwise (le := fun a b => a.redshift ≤ b.redshift) ?_
    (sortByZ_sorted l) (hs.imp le_of_lt) hperm
  intro a b ha hb hab hba
  have ha' : a ∈ l' := hperm.mem_iff.1 ha
  by_contra hne
  have heq : a.redshift = b.redshift := le_antisymm hab hba
  -- two different members of a strictly sorted list have different redshifts
  have key : ∀ (l : List (SnapMeta K)), l.Pairwise (fun a b => a.redshift < b.redshift) →
      ∀ a ∈ l, ∀ b ∈ l, a.redshift = b.redshift → a = b := by
    intro l hl
    induction hl with
    | nil => intro a ha; cases ha
    | @cons x l hx _ ih =>
      intro a ha b hb hab
      rcases List.mem_cons.1 ha with ha1 | ha1
      · rcases List.mem_cons.1 hb with hb1 | hb1
        · rw [ha1, hb1]
        · exact absurd hab (ne_of_lt (ha1 ▸ hx b hb1))
      · rcases List.mem_cons.1 hb with hb1 | hb1
        · exact absurd hab.symm (ne_of_lt (hb1 ▸ hx a ha1))
        · exact ih a ha1 b hb1 hab
  exact hne (key l' hs a ha' b hb heq)

/-! ## Tilings -/

theorem Spec.Tiles.le {l : List (SnapMeta K)} : ∀ {lo hi : K}, Tiles l lo hi → lo ≤ hi := by
  induction l with
  | nil => intro lo hi h; exact le_of_eq h
  | cons s rest ih =>
    intro lo hi h
    obtain ⟨h1, h2, h3⟩ := h
    exact le_trans (le_of_eq h1.symm) (le_trans (le_of_lt h2) (ih h3))

theorem Spec.Tiles.zmin_ge {l : List (SnapMeta K)} : ∀ {lo hi : K}, Tiles l lo hi →
    ∀ s ∈ l, lo ≤ s.zmin := by
  induction l with
  | nil => intro lo hi h s hs; cases hs
  | cons t rest ih =>
    intro lo hi h s hs
    obtain ⟨h1, h2, h3⟩ := h
    rcases List.mem_cons.1 hs with rfl | hs
    · exact le_of_eq h1.symm
    · exact le_trans (le_of_eq h1.symm) (le_trans (le_of_lt h2) (ih h3 s hs))

theorem Spec.Tiles.lt_hi {l : List (SnapMeta K)} : ∀ {lo hi : K}, Tiles l lo hi →
    ∀ s ∈ l, s.zmax ≤ hi := by
  induction l with
  | nil => intro lo hi h s hs; cases hs
  | cons t rest ih =>
    intro lo hi h s hs
    obtain ⟨h1, h2, h3⟩ := h
    rcases List.mem_cons.1 hs with rfl | hs
    · exact h3.le
    · exact ih h3 s hs

theorem Spec.Tiles.zmin_lt_zmax {l : List (SnapMeta K)} : ∀ {lo hi : K}, Tiles l lo hi →
    ∀ s ∈ l, s.zmin < s.zmax := by
  induction l with
  | nil => intro lo hi h s hs; cases hs
  | cons t rest ih =>
    intro lo hi h s hs
    obtain ⟨h1, h2, h3⟩ := h
    rcases List.mem_cons.1 hs with rfl | hs
    · exact h2
    · exact ih h3 s hs

theorem Spec.Tiles.edges_sorted {l : List (SnapMeta K)} : ∀ {lo hi : K}, Tiles l lo hi →
    (l.map (·.zmin) ++ [hi]).Pairwise (· ≤ ·) := by
  induction l with
  | nil => intro lo hi h; simp
  | cons t rest ih =>
    intro lo hi h
    obtain ⟨h1, h2, h3⟩ := h
    simp only [List.map_cons, List.cons_append, List.pairwise_cons]
    refine ⟨?_, ih h3⟩
    intro e he
    rcases List.mem_append.1 he with he | he
    · obtain ⟨s, hs, rfl⟩ := List.mem_map.1 he
      exact le_trans (le_of_lt h2) (h3.zmin_ge s hs)
    · rw [List.mem_singleton.1 he]; exact le_trans (le_of_lt h2) h3.le

/-- The number of edges `≤ z` is the position of the interval containing `z`, plus one. -/
theorem Spec.Tiles.count {l : List (SnapMeta K)} : ∀ {lo hi : K}, Tiles l lo hi → ∀ z, lo ≤ z → z < hi →
    ∃ (i : ℕ) (s : SnapMeta K), l[i]? = some s ∧ Covers s z ∧
      (l.map (·.zmin) ++ [hi]).countP (fun e => decide (e ≤ z)) = i + 1 ∧
      ∀ (j : ℕ) (s' : SnapMeta K), l[j]? = some s' → Covers s' z → j = i := by
  induction l with
  | nil =>
    intro lo hi h z h1 h2
    have h' : lo = hi := h
    exact absurd (lt_of_le_of_lt h1 h2) (by rw [h']; exact lt_irrefl _)
  | cons t rest ih =>
    intro lo hi h z hlo hhi
    obtain ⟨h1, h2, h3⟩ := h
    by_cases hz : z < t.zmax
    · refine ⟨0, t, rfl, ⟨by rw [h1]; exact hlo, hz⟩, ?_, ?_⟩
      · have h0 : t.zmin ≤ z := by rw [h1]; exact hlo
        have : (rest.map (·.zmin) ++ [hi]).countP (fun e => decide (e ≤ z)) = 0 := by
          rw [List.countP_eq_zero]
          intro e he
          simp only [decide_eq_true_eq, not_le]
          rcases List.mem_append.1 he with he | he
          · obtain ⟨s, hs, rfl⟩ := List.mem_map.1 he
            exact lt_of_lt_of_le hz (h3.zmin_ge s hs)
          · rw [List.mem_singleton.1 he]; exact hhi
        simp only [List.map_cons, List.cons_append, List.countP_cons, this, h0, decide_true,
          if_true]
      · intro j s' hj hc
        cases j with
        | zero => rfl
        | succ j =>
          have hm : s' ∈ rest := List.mem_of_getElem? (by simpa using hj)
          exact absurd hc.1 (not_le.2 (lt_of_lt_of_le hz (h3.zmin_ge s' hm)))
    · obtain ⟨i, s, e1, e2, e3, e4⟩ := ih h3 z (not_lt.1 hz) hhi
      refine ⟨i + 1, s, by simpa using e1, e2, ?_, ?_⟩
      · have h0 : t.zmin ≤ z := by rw [h1]; exact hlo
        simp only [List.map_cons, List.cons_append, List.countP_cons, e3, h0, decide_true,
          if_true]
      · intro j s' hj hc
        cases j with
        | zero =>
          have : t = s' := by simpa using hj
          subst this
          exact absurd hc.2 hz
        | succ j =>
          rw [e4 j s' (by simpa using hj) hc]

theorem max?_append_last (l : List K) (hi : K) (h : ∀ e ∈ l, e ≤ hi) :
    (l ++ [hi]).max? = some hi := by
  rw [List.max?_eq_some_iff]
  refine ⟨by simp, ?_⟩
  intro b hb
  rcases List.mem_append.1 hb with hb | hb
  · exact h b hb
  · rw [List.mem_singleton.1 hb]

/-- The tables of a handler on a tiling metadata table. -/
theorem zTables_of_table (l l' : List (SnapMeta K)) (lo hi : K) (hp : l'.Perm l)
    (hs : l'.Pairwise (fun a b => a.redshift < b.redshift)) (hne : l' ≠ []) (ht : Tiles l' lo hi) :
    zTables l = .ok (l'.map (·.zmin) ++ [hi], l'.map (·.index)) := by
  unfold zTables
  rw [sortByZ_eq l l' hp hs]
  have key : ∀ (l : List (SnapMeta K)) (lo : K), l ≠ [] → Tiles l lo hi →
      ∃ r, l.getLast? = some r ∧ r.zmax = hi := by
    intro l
    induction l with
    | nil => intro lo h; exact absurd rfl h
    | cons t rest ih =>
      intro lo _ h
      obtain ⟨h1, h2, h3⟩ := h
      cases rest with
      | nil => exact ⟨t, rfl, h3⟩
      | cons u rest =>
        obtain ⟨r, hr, e⟩ := ih t.zmax (by simp) h3
        exact ⟨r, by rw [List.getLast?_cons_cons]; exact hr, e⟩
  obtain ⟨r, hr, e⟩ := key l' lo hne ht
  simp only [hr, e]

/-! ## Counting in sorted lists -/

/-- The first `count` rows of masses in decreasing order are those at or above the limit. -/
theorem lt_countP_of_sorted (ms : List K) (hs : ms.Pairwise (· ≥ ·)) (c : K) (i : ℕ) (m : K)
    (hi : ms[i]? = some m) : i < ms.countP (fun x => decide (c ≤ x)) ↔ c ≤ m := by
  induction ms generalizing i with
  | nil => simp at hi
  | cons x rest ih =>
    rw [List.pairwise_cons] at hs
    cases i with
    | zero =>
      have hx : x = m := by simpa using hi
      subst hx
      by_cases hc : c ≤ x
      · simp [hc]
      · have : rest.countP (fun y => decide (c ≤ y)) = 0 := by
          rw [List.countP_eq_zero]
          intro y hy
          simp only [decide_eq_true_eq, not_le]
          exact lt_of_le_of_lt (hs.1 y hy) (not_le.1 hc)
        simp [hc, this]
    | succ i =>
      have hi' : rest[i]? = some m := by simpa using hi
      have hm := List.mem_of_getElem? hi'
      rw [List.countP_cons]
      by_cases hc : c ≤ x
      · simp only [hc, decide_true, if_true]
        rw [Nat.add_lt_add_iff_right, ih hs.2 i hi']
      · have hcm : ¬ c ≤ m := not_le.2 (lt_of_le_of_lt (hs.1 m hm) (not_le.1 hc))
        have h0 : rest.countP (fun y => decide (c ≤ y)) = 0 := by
          rw [List.countP_eq_zero]
          intro y hy
          simp only [decide_eq_true_eq, not_le]
          exact lt_of_le_of_lt (hs.1 y hy) (not_le.1 hc)
        simp [hc, hcm, h0]

/-- In a decreasing table the number of cuts above a limit is the position of the first cut at or
below the limit. -/
theorem first_cut (cuts : List (K × ℕ)) (hd : cuts.Pairwise (fun a b => a.1 > b.1)) (m : K)
    (hlow : ∃ c ∈ cuts, c.1 ≤ m) :
    ∃ c, cuts[cuts.countP (fun c => decide (m < c.1))]? = some c ∧ c.1 ≤ m ∧
      ∀ d ∈ cuts, d.1 ≤ m → d.1 ≤ c.1 := by
  induction cuts with
  | nil => obtain ⟨c, hc, -⟩ := hlow; cases hc
  | cons x rest ih =>
    rw [List.pairwise_cons] at hd
    by_cases hx : m < x.1
    · have : ∃ c ∈ rest, c.1 ≤ m := by
        obtain ⟨c, hc, hcm⟩ := hlow
        rcases List.mem_cons.1 hc with rfl | hc
        · exact absurd hcm (not_le.2 hx)
        · exact ⟨c, hc, hcm⟩
      obtain ⟨c, e1, e2, e3⟩ := ih hd.2 this
      refine ⟨c, by simpa [List.countP_cons, hx] using e1, e2, ?_⟩
      intro d hdm hd2
      rcases List.mem_cons.1 hdm with rfl | hdm
      · exact absurd hd2 (not_le.2 hx)
      · exact e3 d hdm hd2
    · have h0 : rest.countP (fun c => decide (m < c.1)) = 0 := by
        rw [List.countP_eq_zero]
        intro y hy
        simp only [decide_eq_true_eq, not_lt]
        exact le_trans (le_of_lt (hd.1 y hy)) (not_lt.1 hx)
      refine ⟨x, by simp [hx, h0], not_lt.1 hx, ?_⟩
      intro d hdm _
      rcases List.mem_cons.1 hdm with rfl | hdm
      · exact le_refl _
      · exact le_of_lt (hd.1 d hdm)

end sorting

theorem pyIndex_nat {α : Type} (xs : List α) (k : ℕ) (x : α) (h : xs[k]? = some x) :
    pyIndex xs (k : ℤ) = .ok x := by
  unfold pyIndex
  have h0 : ¬ ((k : ℤ) < 0) := by omega
  simp [h0, h]

end Verif.Sim
