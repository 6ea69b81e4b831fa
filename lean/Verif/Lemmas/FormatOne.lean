import Verif.Lemmas.Format

/-!
# Formatting one snapshot: the arrays and the datasets made from them
-/

namespace Verif.Format

open Verif.Sim (Err SnapMeta pick)
open Spec

variable {K : Type} [LinearOrder K]

/-! ## Mass cuts -/

theorem cutIndex_eq (ms : List K) (hs : ms.Pairwise (· ≥ ·)) (c : K) :
    cutIndex ms c = ms.countP (fun m => decide (c ≤ m)) := by
  have hle : ms.countP (fun m => decide (c ≤ m)) ≤ ms.length := List.countP_le_length
  have hmem : ∀ i, i ∈ (List.range ms.length).filter
      (fun i => match ms[i]? with | some m => decide (c ≤ m) | none => false) ↔
      i < ms.countP (fun m => decide (c ≤ m)) := by
    intro i
    rw [List.mem_filter, List.mem_range]
    constructor
    · rintro ⟨h1, h2⟩
      have hi := List.getElem?_eq_getElem h1
      rw [hi] at h2
      exact (Verif.Sim.lt_countP_of_sorted ms hs c i _ hi).2 (by simpa using h2)
    · intro h
      have h1 : i < ms.length := by omega
      have hi := List.getElem?_eq_getElem h1
      refine ⟨h1, ?_⟩
      rw [hi]
      simpa using (Verif.Sim.lt_countP_of_sorted ms hs c i _ hi).1 h
  unfold cutIndex
  simp only
  split
  · rename_i h
    rw [List.max?_eq_none_iff] at h
    rcases Nat.eq_zero_or_pos (ms.countP (fun m => decide (c ≤ m))) with h0 | h0
    · exact h0.symm
    · have : 0 ∈ ([] : List ℕ) := by rw [← h]; exact (hmem 0).2 h0
      cases this
  · rename_i i h
    rw [List.max?_eq_some_iff] at h
    have h1 := (hmem i).1 h.1
    rcases Nat.lt_or_ge (i + 1) (ms.countP (fun m => decide (c ≤ m))) with h2 | h2
    · have := h.2 _ ((hmem (i + 1)).2 h2)
      omega
    · omega

/-! ## The arrays -/

/-- What formatting computes for a snapshot. -/
structure FormattedOK (cat : Cat K) (other : Fields) (raw : Raw K) (f : Formatted K)
    (inds : List ℕ) : Prop where
  perm : inds.Perm (List.range raw.n)
  names : (f.basic.map (·.1.name)).Nodup
  basicMem : ∀ p ∈ f.basic, ∃ e, Promised cat.basic e ∧ p.1 = e.sub ∧ p.2.length = raw.n ∧
    ∀ (k j : ℕ), inds[k]? = some j → ∃ v, row (.one p.2) k = some v ∧ value cat raw e j = some v
  basicAll : ∀ e, Promised cat.basic e → ∃ p ∈ f.basic, p.1 = e.sub ∧ p.2.length = raw.n ∧
    ∀ (k j : ℕ), inds[k]? = some j → ∃ v, row (.one p.2) k = some v ∧ value cat raw e j = some v
  other : ∀ key ∈ other.keys, ∃ c', f.other.get? key = some c' ∧ size c' = raw.n ∧
    ∀ (k j : ℕ), inds[k]? = some j → ∃ c v, converted cat raw key = some c ∧ row c j = some v ∧
      row c' k = some v
  mass : ∃ s ms, f.basic.find? (fun p => p.1.name = "mass") = some (s, ms) ∧
    ms.Pairwise (· ≥ ·) ∧ f.cuts = massCuts cat.cuts ms

omit [LinearOrder K] in
theorem val_eq_value (cat : Cat K) (other : Fields) (raw : Raw K) (s : PyDict Name (Col K))
    (h : prepared cat other raw = .ok s) (hn : raw.n > 0) (e : Entry)
    (he : e.key ∈ cat.basic.keys ++ other.keys) (j : ℕ) : val s e j = value cat raw e j := by
  unfold val value
  rw [prepared_get cat other raw s h hn e.key he]
  rfl

omit [LinearOrder K] in
theorem right_pick (cat : Cat K) (other : Fields) (raw : Raw K) (s : PyDict Name (Col K))
    (h : prepared cat other raw = .ok s) (inds : List ℕ) (hp : inds.Perm (List.range raw.n))
    (e : Entry) (he : Promised cat.basic e) (p : Sub × List K) (hR : Right s raw.n e p)
    (ys : List K) (hy : pick p.2 inds = .ok ys) :
    ys.length = raw.n ∧ ∀ (k j : ℕ), inds[k]? = some j →
      ∃ v, row (.one ys) k = some v ∧ value cat raw e j = some v := by
  obtain ⟨h1, h2⟩ := pick_ok p.2 inds ys hy
  refine ⟨by rw [h1, hp.length_eq]; simp, ?_⟩
  intro k j hk
  have hj : j < raw.n := by
    have := hp.mem_iff.1 (List.mem_of_getElem? hk)
    simpa using this
  obtain ⟨v, hv1, hv2⟩ := hR.2.2 j hj
  refine ⟨v, ?_, ?_⟩
  · have := h2 k
    rw [hk] at this
    simp only [Option.bind_some] at this
    simp only [row] at hv1 ⊢
    rw [this, hv1]
  · rw [← val_eq_value cat other raw s h (by omega) e
      (List.mem_append_left _ (promised_mem he)) j]
    exact hv2

theorem sorted_pick (f : List K → List ℕ) (hf : IsArgsort f) (ms ys : List K)
    (h : pick ms (f ms).reverse = .ok ys) : ys.Pairwise (· ≥ ·) := by
  obtain ⟨h1, h2⟩ := pick_ok ms _ ys h
  have hs := (hf ms).2
  rw [List.pairwise_iff_getElem]
  intro a b ha hb hab
  have hrev : (f ms).reverse.Pairwise
      (fun a b => ∀ x y, ms[b]? = some x → ms[a]? = some y → x ≤ y) := List.pairwise_reverse.2 hs
  rw [List.pairwise_iff_getElem] at hrev
  have hA := h2 a
  have hB := h2 b
  rw [List.getElem?_eq_getElem ha, List.getElem?_eq_getElem (by omega)] at hA
  rw [List.getElem?_eq_getElem hb, List.getElem?_eq_getElem (by omega)] at hB
  simp only [Option.bind_some] at hA hB
  exact hrev a b (by omega) (by omega) hab _ _ hB.symm hA.symm

theorem formatOne_ok (cat : Cat K) (harg : IsArgsort cat.argsort) (other : Fields) (raw : Raw K)
    (f : Formatted K) (h : formatOne cat other raw = .ok f) :
    ∃ inds, FormattedOK cat other raw f inds := by
  unfold formatOne at h
  split at h
  · cases h
  · rename_i s0 hs0
    have hprep : prepared cat other raw = .ok (if raw.n > 0 then convert cat s0 else s0) := by
      unfold prepared; rw [hs0]
    generalize hs : (if raw.n > 0 then convert cat s0 else s0) = s at hprep h
    simp only at h
    split at h
    · cases h
    · rename_i basic hb
      split at h
      · cases h
      · rename_i hnd
        rw [not_not] at hnd
        split at h
        · cases h
        · rename_i sm ms hm
          split at h
          · cases h
          · rename_i basic' hb'
            split at h
            · cases h
            · rename_i other' ho'
              split at h
              · cases h
              · rename_i sm' ms' hm'
                simp only [Except.ok.injEq] at h
                obtain ⟨hb1, hb2⟩ := basicAll_ok s raw.n cat.basic basic hb
                obtain ⟨hs1, hs2, hs3, hs4⟩ := sortBasic_ok _ basic basic' hb'
                have hmem := List.mem_of_find?_eq_some hm
                obtain ⟨em, hem, hRm⟩ := hb1 _ hmem
                have hperm : (cat.argsort ms).reverse.Perm (List.range raw.n) := by
                  refine (List.reverse_perm _).trans ?_
                  have := (harg ms).1
                  rw [hRm.2.1] at this
                  exact this
                refine ⟨(cat.argsort ms).reverse, ?_⟩
                subst h
                refine ⟨hperm, ?_, ?_, ?_, ?_, ?_⟩
                · have : basic'.map (·.1.name) = basic.map (·.1.name) := by
                    have := congrArg (List.map Sub.name) hs1
                    simpa [List.map_map, Function.comp_def] using this
                  simp only [this]
                  exact hnd
                · intro p hp
                  obtain ⟨xs, hx1, hx2⟩ := hs3 p hp
                  obtain ⟨e, he, hR⟩ := hb1 _ hx1
                  obtain ⟨r1, r2⟩ := right_pick cat other raw s hprep _ hperm e he _ hR p.2 hx2
                  exact ⟨e, he, hR.1, r1, r2⟩
                · intro e he
                  obtain ⟨p, hp, hR⟩ := hb2 e he
                  obtain ⟨ys, hy1, hy2⟩ := hs2 p hp
                  obtain ⟨r1, r2⟩ := right_pick cat other raw s hprep _ hperm e he _ hR ys hy2
                  exact ⟨_, hy1, hR.1, r1, r2⟩
                · intro key hkey
                  have := sortOther_ok s raw.n _ other other' ho' key hkey
                  by_cases hn : raw.n > 0
                  · simp only [hn, if_true] at this
                    obtain ⟨c, c', hc, hc', hout⟩ := this
                    obtain ⟨t1, t2⟩ := take_ok c c' _ hc'
                    refine ⟨c', hout, by rw [t1, hperm.length_eq]; simp, ?_⟩
                    intro k j hk
                    obtain ⟨t3, t4⟩ := t2 k j hk
                    obtain ⟨v, hv⟩ := Option.isSome_iff_exists.1 t4
                    refine ⟨c, v, ?_, hv, by rw [t3, hv]⟩
                    rw [← prepared_get cat other raw s hprep hn key
                      (List.mem_append_right _ hkey)]
                    exact hc
                  · simp only [hn, if_false] at this
                    refine ⟨_, this, by simp [size]; omega, ?_⟩
                    intro k j hk
                    have := hperm.mem_iff.1 (List.mem_of_getElem? hk)
                    simp at this
                    omega
                · obtain ⟨ys, hy1, hy2⟩ := hs4 "mass" _ hm
                  rw [hm'] at hy1
                  simp only [Option.some.injEq, Prod.mk.injEq] at hy1
                  refine ⟨sm', ms', hm', ?_, rfl⟩
                  rw [hy1.2]
                  exact sorted_pick cat.argsort harg ms ys hy2

/-! ## The datasets -/

omit [LinearOrder K] in
theorem writeData_ok (i : ℕ) (its : List (Except Err (Item K))) :
    ∀ (used : List Name) (es : List (Eff K)), writeData i used its = (es, .ok ()) →
    ∃ xs : List (Item K), its = xs.map .ok ∧ (∀ x ∈ xs, x.name ∉ used) ∧
      (xs.map (·.name)).Nodup ∧
      es = xs.flatMap (fun x => [.newData i x.name x.col, .setUnits i x.name x.units,
        .setHdep i x.name x.hdep]) := by
  induction its with
  | nil =>
    intro used es h
    simp only [writeData, Prod.mk.injEq] at h
    exact ⟨[], rfl, by simp, by simp, by simp [← h.1]⟩
  | cons it its ih =>
    intro used es h
    cases it with
    | error e => simp [writeData] at h
    | ok x =>
      unfold writeData at h
      by_cases hx : x.name ∈ used
      · simp [hx] at h
      · simp only [hx, if_false, Prod.mk.injEq] at h
        obtain ⟨h1, h2⟩ := h
        obtain ⟨xs, e1, e2, e3, e4⟩ := ih (x.name :: used) (writeData i (x.name :: used) its).1
          (by rw [← h2])
        refine ⟨x :: xs, by simp [e1], ?_, ?_, ?_⟩
        · intro y hy
          rcases List.mem_cons.1 hy with rfl | hy
          · exact hx
          · exact fun hu => e2 y hy (List.mem_cons_of_mem _ hu)
        · rw [List.map_cons, List.nodup_cons]
          refine ⟨?_, e3⟩
          intro hm
          obtain ⟨y, hy, hyn⟩ := List.mem_map.1 hm
          exact e2 y hy (by rw [hyn]; exact List.mem_cons_self)
        · rw [← h1, e4]; rfl

/-- A dataset to be written is right. -/
def ItemOK (cat : Cat K) (raw : Raw K) (inds : List ℕ) (e : Entry) (x : Item K) : Prop :=
  x.name = e.sub.name ∧ x.units = e.sub.units ∧ x.hdep = e.sub.hdep ∧ size x.col = raw.n ∧
    ∀ (k j : ℕ), inds[k]? = some j → ∃ v, row x.col k = some v ∧ value cat raw e j = some v

theorem otherItems_part (cat : Cat K) (other : Fields) (raw : Raw K) (f : Formatted K)
    (inds : List ℕ) (hf : FormattedOK cat other raw f inds) (key : Name) (hkey : key ∈ other.keys)
    (w : ℕ) (hw : w > 1) (s : Sub) (c : ℕ) (x : Item K)
    (h : (match f.other.get? key with
      | none => .error .keyError
      | some col =>
        match col.part c with
        | .error e => .error e
        | .ok xs => .ok { name := s.name, col := .one xs, units := s.units, hdep := s.hdep } :
          Except Err (Item K)) = .ok x) : ItemOK cat raw inds ⟨key, w, c, s⟩ x := by
  obtain ⟨c', hc', hsz, hrow⟩ := hf.other key hkey
  rw [hc'] at h
  simp only at h
  split at h
  · cases h
  · rename_i xs hxs
    simp only [Except.ok.injEq] at h
    subst h
    obtain ⟨rows, rfl, hl, hr⟩ := part_ok c' c xs hxs
    refine ⟨rfl, rfl, rfl, ?_, ?_⟩
    · simpa [size, hl] using hsz
    · intro k j hk
      obtain ⟨col, v, h1, h2, h3⟩ := hrow k j hk
      simp only [row] at h3
      cases hrk : rows[k]? with
      | none => rw [hrk] at h3; cases h3
      | some r =>
        rw [hrk] at h3
        simp only [Option.map_some, Option.some.injEq] at h3
        obtain ⟨y, hy1, hy2⟩ := hr k r hrk
        refine ⟨.num y, by simp [row, hy2], ?_⟩
        simp only [value, h1, hw, if_true, h2, ← h3, hy1, Option.map_some]

theorem otherItems_single (cat : Cat K) (other : Fields) (raw : Raw K) (f : Formatted K)
    (inds : List ℕ) (hf : FormattedOK cat other raw f inds) (key : Name) (hkey : key ∈ other.keys)
    (s : Sub) : ∃ c', f.other.get? key = some c' ∧
      ItemOK cat raw inds ⟨key, 1, 0, s⟩
        { name := s.name, col := c', units := s.units, hdep := s.hdep } := by
  obtain ⟨c', hc', hsz, hrow⟩ := hf.other key hkey
  refine ⟨c', hc', rfl, rfl, rfl, hsz, ?_⟩
  intro k j hk
  obtain ⟨col, v, h1, h2, h3⟩ := hrow k j hk
  exact ⟨v, h3, by simp [value, h1, h2]⟩

theorem items_ok (cat : Cat K) (other : Fields) (raw : Raw K) (f : Formatted K)
    (inds : List ℕ) (hf : FormattedOK cat other raw f inds) (xs : List (Item K))
    (h : items f other = xs.map .ok) :
    (∀ x ∈ xs, ∃ e, Stored cat.basic other e ∧ ItemOK cat raw inds e x) ∧
    (∀ e, Stored cat.basic other e → ∃ x ∈ xs, ItemOK cat raw inds e x) := by
  have hmem : ∀ y, y ∈ items f other → ∃ x ∈ xs, y = .ok x := by
    intro y hy
    rw [h] at hy
    obtain ⟨x, hx, rfl⟩ := List.mem_map.1 hy
    exact ⟨x, hx, rfl⟩
  constructor
  · intro x hx
    have : (.ok x : Except Err (Item K)) ∈ items f other := by
      rw [h]; exact List.mem_map.2 ⟨x, hx, rfl⟩
    unfold items at this
    rcases List.mem_append.1 this with hm | hm
    · obtain ⟨p, hp, hpx⟩ := List.mem_map.1 hm
      simp only [Except.ok.injEq] at hpx
      subst hpx
      obtain ⟨e, he, h1, h2, h3⟩ := hf.basicMem p hp
      exact ⟨e, Or.inl he, by simp [h1], by simp [h1], by simp [h1], h2, h3⟩
    · obtain ⟨g, hg, hgx⟩ := List.mem_flatMap.1 hm
      have hkey : g.1 ∈ other.keys := List.mem_map.2 ⟨g, hg, rfl⟩
      unfold otherItems at hgx
      by_cases hw : g.2.length > 1
      · simp only [hw, if_true] at hgx
        obtain ⟨q, hq, hqx⟩ := List.mem_map.1 hgx
        rw [List.mem_filter] at hq
        refine ⟨⟨g.1, g.2.length, q.2, q.1⟩, Or.inr ⟨⟨g.2, hg, rfl, ?_⟩, ?_⟩,
          otherItems_part cat other raw f inds hf g.1 hkey _ hw q.1 q.2 x hqx⟩
        · exact List.mk_mem_zipIdx_iff_getElem?.1 (by simpa using hq.1)
        · rintro ⟨_, hnone⟩
          have := hq.2
          simp only [decide_eq_true_eq] at this
          exact this hnone
      · simp only [hw, if_false] at hgx
        obtain ⟨gk, gs⟩ := g
        cases gs with
        | nil => simp at hgx
        | cons s rest =>
          have hr : rest = [] := by
            cases rest with
            | nil => rfl
            | cons b r => simp at hw
          subst hr
          obtain ⟨c', hc', hI⟩ := otherItems_single cat other raw f inds hf gk hkey s
          simp only [hc', List.mem_singleton, Except.ok.injEq] at hgx
          subst hgx
          exact ⟨_, Or.inr ⟨⟨[s], hg, rfl, rfl⟩, by simp⟩, hI⟩
  · rintro e (he | ⟨he, hnone⟩)
    · obtain ⟨p, hp, h1, h2, h3⟩ := hf.basicAll e he
      obtain ⟨x, hx, hpx⟩ := hmem (.ok ⟨p.1.name, .one p.2, p.1.units, p.1.hdep⟩) (by
        unfold items
        exact List.mem_append_left _ (List.mem_map.2 ⟨p, hp, rfl⟩))
      simp only [Except.ok.injEq] at hpx
      subst hpx
      exact ⟨_, hx, by simp [h1], by simp [h1], by simp [h1], h2, h3⟩
    · have hkey : e.key ∈ other.keys := promised_mem he
      obtain ⟨key, w, c, sub⟩ := e
      obtain ⟨subs, hm, hw', hc⟩ := he
      simp only at hw' hc hkey hm hnone
      by_cases hw : subs.length > 1
      · obtain ⟨x, hx, hpx⟩ := hmem (match f.other.get? key with
          | none => .error .keyError
          | some col =>
            match col.part c with
            | .error e => .error e
            | .ok xs => .ok ⟨sub.name, .one xs, sub.units, sub.hdep⟩) (by
          unfold items
          refine List.mem_append_right _ (List.mem_flatMap.2 ⟨_, hm, ?_⟩)
          unfold otherItems
          simp only [hw, if_true]
          refine List.mem_map.2 ⟨(sub, c), ?_, rfl⟩
          rw [List.mem_filter]
          refine ⟨List.mk_mem_zipIdx_iff_getElem?.2 hc, ?_⟩
          simp only [decide_eq_true_eq]
          intro hn
          exact hnone ⟨by omega, hn⟩)
        exact ⟨x, hx, otherItems_part cat other raw f inds hf key hkey w (by omega) sub c x hpx⟩
      · cases subs with
        | nil => simp at hc
        | cons s rest =>
          have hr : rest = [] := by
            cases rest with
            | nil => rfl
            | cons b r => simp at hw
          subst hr
          have hc0 : c = 0 := by
            cases c with
            | zero => rfl
            | succ c => simp at hc
          subst hc0
          have : s = sub := by simpa using hc
          subst this
          simp only [List.length_singleton] at hw'
          subst hw'
          obtain ⟨c', hc', hI⟩ := otherItems_single cat other raw f inds hf key hkey s
          obtain ⟨x, hx, hpx⟩ := hmem (.ok ⟨s.name, c', s.units, s.hdep⟩) (by
            unfold items
            refine List.mem_append_right _ (List.mem_flatMap.2 ⟨_, hm, ?_⟩)
            unfold otherItems
            simp [hc'])
          simp only [Except.ok.injEq] at hpx
          subst hpx
          exact ⟨_, hx, hI⟩

end Verif.Format
