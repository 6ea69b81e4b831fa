import Verif.Lemmas.FormatRun

/-!
# Usable raw data are formatted without an exception
-/

namespace Verif.Format

open Verif.Sim (Err SnapMeta pick)
open Spec

variable {K : Type}

theorem part_total (rows : List (List K)) (j : ℕ) (h : ∀ r ∈ rows, j < r.length) :
    ∃ xs, (Col.many rows).part j = .ok xs ∧ xs.length = rows.length := by
  obtain ⟨ys, hy⟩ := mapE_total (fun r : List K => match r[j]? with
      | none => (.error .indexError : Except Err K)
      | some x => .ok x) rows (by
    intro r hr
    rw [List.getElem?_eq_getElem (h r hr)]
    exact ⟨_, rfl⟩)
  exact ⟨ys, hy, mapE_length hy⟩

theorem converted_loaded (cat : Cat K) (raw : Raw K) (k : Name) (c : Col K)
    (h : converted cat raw k = some c) : ∃ c0, raw.fields.get? k = some c0 := by
  unfold converted at h
  cases hc : raw.fields.get? k with
  | none => rw [hc] at h; cases h
  | some c0 => exact ⟨c0, rfl⟩

theorem prepared_total (cat : Cat K) (other : Fields) (raw : Raw K) (hU : Usable cat other raw) :
    ∃ s, prepared cat other raw = .ok s := by
  unfold prepared
  by_cases hn : raw.n > 0
  · simp only [hn, if_true]
    obtain ⟨s, hs⟩ : ∃ s, loadFields raw (cat.basic.keys ++ other.keys) = .ok s := by
      refine mapE_total _ _ ?_
      intro k hk
      have : ∃ c, converted cat raw k = some c := by
        rcases List.mem_append.1 hk with hk | hk
        · obtain ⟨f, hf, rfl⟩ := List.mem_map.1 hk
          obtain ⟨c, hc, _⟩ := (hU.basic f hf).2 hn
          exact ⟨c, hc⟩
        · obtain ⟨f, hf, rfl⟩ := List.mem_map.1 hk
          obtain ⟨c, hc, _⟩ := (hU.extra f hf).2 hn
          exact ⟨c, hc⟩
      obtain ⟨c, hc⟩ := this
      obtain ⟨c0, hc0⟩ := converted_loaded cat raw k c hc
      exact ⟨(k, c0), by rw [hc0]⟩
    rw [hs]
    exact ⟨_, rfl⟩
  · simp only [hn, if_false]
    exact ⟨_, rfl⟩

theorem basicOne_total (cat : Cat K) (other : Fields) (raw : Raw K) (hU : Usable cat other raw)
    (s : PyDict Name (Col K)) (hs : prepared cat other raw = .ok s) (f : Name × List Sub)
    (hf : f ∈ cat.basic) : ∃ l, basicOne s raw.n f = .ok l ∧ l.map (·.1) = f.2 := by
  obtain ⟨hne, hc⟩ := hU.basic f hf
  have hkey : f.1 ∈ cat.basic.keys ++ other.keys :=
    List.mem_append_left _ (List.mem_map.2 ⟨f, hf, rfl⟩)
  unfold basicOne
  by_cases hw : f.2.length > 1
  · simp only [hw, if_true]
    have step : ∀ q ∈ f.2.zipIdx, ∃ xs, basicPart s raw.n f.1 q = .ok (q.1, xs) := by
      intro q hq
      unfold basicPart
      by_cases hn : raw.n > 0
      · simp only [hn, if_true]
        obtain ⟨c, h1, h2, _⟩ := hc hn
        obtain ⟨rows, rfl, hl, hr⟩ := h2 hw
        rw [prepared_get cat other raw s hs hn f.1 hkey, h1]
        have hlt : q.2 < f.2.length := by
          have := List.snd_lt_of_mem_zipIdx hq
          simpa using this
        obtain ⟨xs, hx, hxl⟩ := part_total rows q.2 (fun r hr' => lt_of_lt_of_le hlt (hr r hr'))
        simp only [hx, assign, hxl, hl, if_true]
        exact ⟨xs, rfl⟩
      · simp only [hn, if_false]
        exact ⟨[], rfl⟩
    obtain ⟨l, hl⟩ := mapE_total (basicPart s raw.n f.1) f.2.zipIdx (fun q hq => by
      obtain ⟨xs, h⟩ := step q hq
      exact ⟨_, h⟩)
    refine ⟨l, hl, ?_⟩
    apply List.ext_getElem?
    intro k
    have hlen := mapE_length hl
    rw [List.getElem?_map]
    cases hk : l[k]? with
    | none =>
      rw [List.getElem?_eq_none_iff] at hk
      have : f.2[k]? = none := by
        rw [List.getElem?_eq_none_iff]
        simpa [hlen] using hk
      simp [this]
    | some p =>
      obtain ⟨q, hq, hqp⟩ := mapE_get hl k p hk
      obtain ⟨xs, hxs⟩ := step q (List.mem_of_getElem? hq)
      rw [hxs] at hqp
      simp only [Except.ok.injEq] at hqp
      subst hqp
      rw [List.getElem?_zipIdx] at hq
      cases hfk : f.2[k]? with
      | none => rw [hfk] at hq; cases hq
      | some sb =>
        rw [hfk] at hq
        simp only [Option.map_some, Option.some.injEq] at hq
        simp [← hq]
  · simp only [hw, if_false]
    obtain ⟨key, subs⟩ := f
    cases subs with
    | nil => exact absurd rfl hne
    | cons a rest =>
      have hr : rest = [] := by
        cases rest with
        | nil => rfl
        | cons b r => simp at hw
      subst hr
      simp only
      by_cases hn : raw.n > 0
      · simp only [hn, if_true]
        obtain ⟨c, h1, _, h2⟩ := hc hn
        obtain ⟨v, rfl, hv⟩ := h2 hw
        rw [prepared_get cat other raw s hs hn key hkey, h1]
        simp only [assign, hv, if_true]
        exact ⟨_, rfl, rfl⟩
      · simp only [hn, if_false]
        exact ⟨_, rfl, rfl⟩

theorem namesOf_false (fs : Fields) : namesOf false fs = fs.flatMap (fun f => f.2.map (·.name)) := by
  unfold namesOf
  congr 1
  funext f
  simp

theorem basicAll_total (cat : Cat K) (other : Fields) (raw : Raw K) (hU : Usable cat other raw)
    (s : PyDict Name (Col K)) (hs : prepared cat other raw = .ok s) :
    ∃ l, basicAll s raw.n cat.basic = .ok l ∧ l.map (·.1.name) = namesOf false cat.basic := by
  have key : ∀ fs : Fields, (∀ f ∈ fs, f ∈ cat.basic) →
      ∃ ls, mapE (basicOne s raw.n) fs = .ok ls ∧
        ls.flatten.map (·.1.name) = fs.flatMap (fun f => f.2.map (·.name)) := by
    intro fs
    induction fs with
    | nil => intro _; exact ⟨[], rfl, rfl⟩
    | cons f fs ih =>
      intro hfs
      obtain ⟨l, hl, hl2⟩ := basicOne_total cat other raw hU s hs f (hfs f (by simp))
      obtain ⟨ls, hls, hls2⟩ := ih (fun g hg => hfs g (List.mem_cons_of_mem _ hg))
      refine ⟨l :: ls, by simp only [mapE, hl, hls], ?_⟩
      rw [List.flatten_cons, List.map_append, hls2, List.flatMap_cons, ← hl2]
      simp [Function.comp_def]
  obtain ⟨ls, h1, h2⟩ := key cat.basic (fun f hf => hf)
  refine ⟨ls.flatten, by unfold basicAll; rw [h1], ?_⟩
  rw [h2, namesOf_false]

theorem take_total (c : Col K) (inds : List ℕ) (h : ∀ i ∈ inds, i < size c) :
    ∃ c', c.take inds = .ok c' ∧ (∀ rows, c = .many rows → ∃ rows', c' = .many rows' ∧
      ∀ r ∈ rows', r ∈ rows) := by
  cases c with
  | one v =>
    obtain ⟨out, h1, _⟩ := Verif.Sim.pick_range v inds h
    exact ⟨.one out, by simp [Col.take, h1], fun rows hr => by cases hr⟩
  | many rows =>
    obtain ⟨out, h1, h2, h3⟩ := Verif.Sim.pick_range rows inds h
    refine ⟨.many out, by simp [Col.take, h1], ?_⟩
    intro rows' hr
    simp only [Col.many.injEq] at hr
    subst hr
    refine ⟨out, rfl, ?_⟩
    intro r hr
    obtain ⟨k, hk⟩ := List.getElem?_of_mem hr
    rw [h3] at hk
    cases hi : inds[k]? with
    | none => rw [hi] at hk; cases hk
    | some i =>
      rw [hi] at hk
      exact List.mem_of_getElem? hk

variable [LinearOrder K]

/-- Formatting usable raw data succeeds, and so does making the datasets. -/
theorem formatOne_total (cat : Cat K) (harg : IsArgsort cat.argsort) (other : Fields) (raw : Raw K)
    (hU : Usable cat other raw) : ∃ (f : Formatted K) (xs : List (Item K)), formatOne cat other raw = .ok f ∧
      items f other = xs.map .ok ∧
      xs.map (·.name) = namesOf false cat.basic ++ namesOf true other := by
  obtain ⟨s, hs⟩ := prepared_total cat other raw hU
  obtain ⟨basic, hb, hbn⟩ := basicAll_total cat other raw hU s hs
  obtain ⟨hb1, _⟩ := basicAll_ok s raw.n cat.basic basic hb
  have hnd : (basic.map (·.1.name)).Nodup := by
    rw [hbn]; exact (List.nodup_append.1 hU.names).1
  -- the masses
  obtain ⟨⟨sm, ms⟩, hm⟩ : ∃ p, basic.find? (fun p => p.1.name = "mass") = some p := by
    rw [← Option.isSome_iff_exists, List.find?_isSome]
    have := hU.mass
    rw [← hbn] at this
    obtain ⟨p, hp, hpn⟩ := List.mem_map.1 this
    exact ⟨p, hp, by simpa using hpn⟩
  have hml : ms.length = raw.n := by
    obtain ⟨e, _, hR⟩ := hb1 _ (List.mem_of_find?_eq_some hm)
    exact hR.2.1
  have hin : ∀ i ∈ (cat.argsort ms).reverse, i < raw.n := by
    intro i hi
    have := (harg ms).1.mem_iff.1 (List.mem_reverse.1 hi)
    rw [hml] at this
    simpa using this
  obtain ⟨basic', hb'⟩ : ∃ b, sortBasic (cat.argsort ms).reverse basic = .ok b := by
    refine mapE_total _ _ ?_
    intro p hp
    obtain ⟨e, _, hR⟩ := hb1 p hp
    obtain ⟨out, ho, _⟩ := Verif.Sim.pick_range p.2 (cat.argsort ms).reverse
      (fun i hi => by rw [hR.2.1]; exact hin i hi)
    exact ⟨(p.1, out), by rw [ho]⟩
  obtain ⟨hsn, _, _, hs4⟩ := sortBasic_ok _ basic basic' hb'
  obtain ⟨ms', hm', _⟩ := hs4 "mass" _ hm
  obtain ⟨other', ho'⟩ : ∃ ot, sortOther s raw.n (cat.argsort ms).reverse other = .ok ot := by
    refine mapE_total _ _ ?_
    intro f hf
    by_cases hn : raw.n > 0
    · simp only [hn, if_true]
      obtain ⟨c, h1, h2, _⟩ := (hU.extra f hf).2 hn
      rw [prepared_get cat other raw s hs hn f.1
        (List.mem_append_right _ (List.mem_map.2 ⟨f, hf, rfl⟩)), h1]
      obtain ⟨c', hc', _⟩ := take_total c (cat.argsort ms).reverse
        (fun i hi => by rw [h2]; exact hin i hi)
      exact ⟨(f.1, c'), by simp only [hc']⟩
    · simp only [hn, if_false]
      exact ⟨_, rfl⟩
  have hform : formatOne cat other raw =
      .ok { cuts := massCuts cat.cuts ms', basic := basic', other := other' } := by
    unfold prepared at hs
    unfold formatOne
    split at hs
    · cases hs
    · rename_i s0 hs0
      simp only [Except.ok.injEq] at hs
      rw [hs0]
      simp only [hs, hb, hnd, not_true, if_false, hm, hb', ho', hm']
  -- each other field gives its datasets
  have hone : ∀ f ∈ other, ∃ ys : List (Item K), otherItems other' f = ys.map .ok ∧
      ys.map (·.name) = (f.2.map (·.name)).filter (fun n =>
        !(true && decide (f.2.length > 1) && decide (n.toList.take 4 = ['n', 'o', 'n', 'e']))) := by
    intro f hf
    have hkey : f.1 ∈ other.keys := List.mem_map.2 ⟨f, hf, rfl⟩
    have hso := sortOther_ok s raw.n _ other other' ho' f.1 hkey
    obtain ⟨hne, hc⟩ := hU.extra f hf
    unfold otherItems
    by_cases hw : f.2.length > 1
    · simp only [hw, if_true]
      -- the sorted field has rows that are long enough
      have hrows : ∃ rows, other'.get? f.1 = some (.many rows) ∧
          ∀ r ∈ rows, f.2.length ≤ r.length := by
        by_cases hn : raw.n > 0
        · simp only [hn, if_true] at hso
          obtain ⟨c, c', h1, h2, h3⟩ := hso
          obtain ⟨c0, h4, h5, h6⟩ := hc hn
          rw [prepared_get cat other raw s hs hn f.1 (List.mem_append_right _ hkey), h4] at h1
          simp only [Option.some.injEq] at h1
          subst h1
          obtain ⟨rows, rfl, hr⟩ := h6 hw
          obtain ⟨c1, h7, h8⟩ := take_total (.many rows) (cat.argsort ms).reverse
            (fun i hi => by rw [h5]; exact hin i hi)
          rw [h2] at h7
          simp only [Except.ok.injEq] at h7
          subst h7
          obtain ⟨rows', rfl, h9⟩ := h8 rows rfl
          exact ⟨rows', h3, fun r hr' => hr r (h9 r hr')⟩
        · simp only [hn, if_false] at hso
          exact ⟨[], hso, by simp⟩
      obtain ⟨rows, hget, hrl⟩ := hrows
      rw [hget]
      simp only
      have hlt : ∀ q ∈ f.2.zipIdx.filter (fun p =>
          decide (p.1.name.toList.take 4 ≠ "none".toList)), q.2 < f.2.length := by
        intro q hq
        have := List.snd_lt_of_mem_zipIdx (List.mem_filter.1 hq).1
        simpa using this
      generalize hZ : f.2.zipIdx.filter (fun p =>
          decide (p.1.name.toList.take 4 ≠ "none".toList)) = Z at hlt
      have hZn : Z.map (·.1.name) = (f.2.map (·.name)).filter (fun n =>
          !(true && true && decide (n.toList.take 4 = ['n', 'o', 'n', 'e']))) := by
        rw [← hZ]
        conv_rhs => rw [← List.zipIdx_map_fst 0 f.2]
        rw [List.filter_map, List.filter_map]
        rw [List.map_map]
        congr 1
        refine List.filter_congr ?_
        intro q _
        simp [Function.comp_def]
      simp only [decide_true]
      rw [← hZn]
      clear hZ hZn
      induction Z with
      | nil => exact ⟨[], rfl, rfl⟩
      | cons q Z ih =>
        obtain ⟨ys, hy1, hy2⟩ := ih (fun x hx => hlt x (List.mem_cons_of_mem _ hx))
        obtain ⟨xs, hx, _⟩ := part_total rows q.2 (fun r hr =>
          lt_of_lt_of_le (hlt q (by simp)) (hrl r hr))
        refine ⟨⟨q.1.name, .one xs, q.1.units, q.1.hdep⟩ :: ys, ?_, ?_⟩
        · rw [List.map_cons, List.map_cons, hx, hy1]
        · rw [List.map_cons, List.map_cons, hy2]
    · simp only [hw, if_false]
      obtain ⟨key, subs⟩ := f
      cases subs with
      | nil => exact absurd rfl hne
      | cons a rest =>
        have hr : rest = [] := by
          cases rest with
          | nil => rfl
          | cons b r => simp at hw
        subst hr
        simp only
        have : ∃ c, other'.get? key = some c := by
          by_cases hn : raw.n > 0
          · simp only [hn, if_true] at hso
            obtain ⟨c, c', _, _, h3⟩ := hso
            exact ⟨c', h3⟩
          · simp only [hn, if_false] at hso
            exact ⟨_, hso⟩
        obtain ⟨c, hc'⟩ := this
        rw [hc']
        exact ⟨[⟨a.name, c, a.units, a.hdep⟩], rfl, by simp⟩
  have hall : ∀ fs : Fields, (∀ f ∈ fs, f ∈ other) → ∃ ys : List (Item K),
      fs.flatMap (otherItems other') = ys.map .ok ∧ ys.map (·.name) = namesOf true fs := by
    intro fs
    induction fs with
    | nil => intro _; exact ⟨[], rfl, rfl⟩
    | cons f fs ih =>
      intro hfs
      obtain ⟨ys, h1, h2⟩ := hone f (hfs f (by simp))
      obtain ⟨zs, h3, h4⟩ := ih (fun g hg => hfs g (List.mem_cons_of_mem _ hg))
      refine ⟨ys ++ zs, by rw [List.flatMap_cons, h1, h3, List.map_append], ?_⟩
      rw [List.map_append, h2, h4]
      unfold namesOf
      rw [List.flatMap_cons]
  obtain ⟨ys, hy1, hy2⟩ := hall other (fun f hf => hf)
  refine ⟨_, basic'.map (fun p => ⟨p.1.name, .one p.2, p.1.units, p.1.hdep⟩) ++ ys, hform, ?_, ?_⟩
  · unfold items
    simp only
    rw [hy1, List.map_append, List.map_map]
    rfl
  · rw [List.map_append, hy2, List.map_map]
    congr 1
    rw [← hbn]
    have := congrArg (List.map Sub.name) hsn
    simpa [List.map_map, Function.comp_def] using this

omit [LinearOrder K] in
theorem writeData_total (i : ℕ) (xs : List (Item K)) : ∀ used : List Name,
    (∀ x ∈ xs, x.name ∉ used) → (xs.map (·.name)).Nodup →
    (writeData i used (xs.map .ok)).2 = .ok () := by
  induction xs with
  | nil => intro _ _ _; rfl
  | cons x xs ih =>
    intro used h1 h2
    rw [List.map_cons, List.nodup_cons] at h2
    rw [List.map_cons]
    unfold writeData
    simp only [h1 x (by simp), if_false]
    refine ih _ ?_ h2.2
    intro y hy hm
    rcases List.mem_cons.1 hm with hm | hm
    · exact h2.1 (List.mem_map.2 ⟨y, hy, hm⟩)
    · exact h1 y (List.mem_cons_of_mem _ hy) hm

theorem writeOne_total (cat : Cat K) (harg : IsArgsort cat.argsort) (other : Fields)
    (raw : Raw K) (hU : Usable cat other raw) (clean present : Bool) (i : ℕ) :
    ∃ f, formatOne cat other raw = .ok f ∧ (writeOne cat other clean present i f).2 = .ok () := by
  obtain ⟨f, xs, h1, h2, h3⟩ := formatOne_total cat harg other raw hU
  refine ⟨f, h1, ?_⟩
  have := writeData_total i xs ["mass_cuts"] (by
    intro x hx hm
    simp only [List.mem_singleton] at hm
    refine hU.cuts ?_
    rw [← h3, ← hm]
    exact List.mem_map.2 ⟨x, hx, rfl⟩) (by rw [h3]; exact hU.names)
  unfold writeOne
  rw [h2]
  cases hw : writeData i ["mass_cuts"] (xs.map .ok) with
  | mk es r =>
    rw [hw] at this
    simp only at this
    subst this
    rfl

theorem formatLoop_total (cat : Cat K) (harg : IsArgsort cat.argsort) (other : Fields)
    (clean : Bool) (todo : List ℕ) (hnd : todo.Nodup) : ∀ d : Disk K, d.file.isSome →
    (∀ i ∈ todo, ∃ raw, d.raw.get? i = some raw ∧ Usable cat other raw) →
    (formatLoop cat other clean d todo).2 = .ok () := by
  induction todo with
  | nil => intro _ _ _; rfl
  | cons i rest ih =>
    intro d hd h
    rw [List.nodup_cons] at hnd
    obtain ⟨raw, hr, hU⟩ := h i (by simp)
    obtain ⟨f, hf, hw⟩ := writeOne_total cat harg other raw hU clean (hasGroup d i) i
    obtain ⟨fr, _⟩ := writeOne_prefix cat other clean (hasGroup d i) i f _ List.prefix_rfl d hd
    unfold formatLoop
    simp only [hr, hf]
    cases hwo : writeOne cat other clean (hasGroup d i) i f with
    | mk es r =>
      rw [hwo] at hw fr
      simp only at hw
      subst hw
      simp only
      refine ih hnd.2 _ (by rw [fr.file]; exact hd) ?_
      intro j hj
      obtain ⟨raw', h1, h2⟩ := h j (List.mem_cons_of_mem _ hj)
      refine ⟨raw', ?_, h2⟩
      rw [fr.raw j (fun e => hnd.1 (e ▸ hj))]
      exact h1

end Verif.Format
