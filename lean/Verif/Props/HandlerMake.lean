import Mathlib.Tactic.FieldSimp
import Verif.Props.HandlerRead

/-!
# C07, C09, C44: creating properties
-/

namespace Verif.Handler
open Spec

variable {K : Type}

/-! ## Lemmas -/

theorem collectArgs_ok [DivisionRing K] (s : State K) (remap : PyDict Name Name) (u g : Bool)
    (cols : Name → List (V K)) (kws : List Name)
    (h : ∀ kw ∈ kws, (remap.get? kw).getD kw ∈ s.all ∧
      returnProperty s ((remap.get? kw).getD kw) u (some g) = .ok (some (cols kw)))
    (acc : PyDict Name (Arg K)) :
    ∃ out, collectArgs s remap u g acc kws = .ok out ∧
      (∀ kw ∈ kws, out.get? kw = some (.arr (cols kw))) ∧
      (∀ q, q ∉ kws → out.get? q = acc.get? q) := by
  induction kws generalizing acc with
  | nil => exact ⟨acc, rfl, by simp, by simp⟩
  | cons kw kws ih =>
    obtain ⟨h1, h2⟩ := h kw (by simp)
    obtain ⟨out, o1, o2, o3⟩ := ih (fun k hk => h k (by simp [hk])) (acc.set kw (.arr (cols kw)))
    refine ⟨out, ?_, ?_, ?_⟩
    · unfold collectArgs
      dsimp only
      rw [if_pos (by simp [hasProperty, h1]), h2]
      exact o1
    · intro q hq
      by_cases hqk : q ∈ kws
      · exact o2 q hqk
      · rcases List.mem_cons.1 hq with rfl | hq
        · rw [o3 q hqk]; simp
        · exact absurd hq hqk
    · intro q hq
      simp only [List.mem_cons, not_or] at hq
      rw [o3 q hq.2]
      have hne : ¬ kw = q := fun e => hq.1 e.symm
      simp [hne]

/-- A function value as stored: in h units. -/
def Spec.stored [DivisionRing K] (returnH : Bool) (h : K) (e : ℤ) (v : V K) : V K :=
  if returnH then v else v.map (fun x => x / h ^ e)

theorem toHUnits_ok [DivisionRing K] (h : K) (hd : PyDict Name ℤ) (tup : Bool) (l : List (Name × Arr K))
    (hh : ∀ p ∈ l, (hd.get? p.1).isSome) (hint : ∀ p ∈ l, p.2.isInt = false)
    (ht : tup = true → ∀ p ∈ l, ∀ e, hd.get? p.1 = some e → e = 0) :
    ∃ out, toHUnits h hd tup l = .ok out ∧ out.length = l.length ∧
      ∀ (k : ℕ) (n : Name) (a : Arr K) (e : ℤ), l[k]? = some (n, a) → hd.get? n = some e →
        ∃ b : Arr K, out[k]? = some b ∧ b.isInt = false ∧
          b.vals = a.vals.map (stored false h e) := by
  induction l with
  | nil => exact ⟨[], rfl, rfl, by simp⟩
  | cons p l ih =>
    obtain ⟨n, a⟩ := p
    obtain ⟨out, o1, o2, o3⟩ := ih (fun p hp => hh p (by simp [hp])) (fun p hp => hint p (by simp [hp]))
      (fun h p hp => ht h p (by simp [hp]))
    obtain ⟨e, he⟩ := Option.isSome_iff_exists.1 (hh (n, a) (by simp))
    simp only at he
    have hne : ¬ (e ≠ 0 ∧ tup = true) := fun hc => hc.1 (ht hc.2 (n, a) (by simp) e he)
    refine ⟨(if e ≠ 0 then { isInt := false, vals := a.vals.map (fun v => v.map (fun x => x / h ^ e)) }
      else a) :: out, by simp only [toHUnits, he, o1, if_neg hne], by simp [o2], ?_⟩
    intro k n' a' e' hk he'
    cases k with
    | zero =>
      simp only [List.getElem?_cons_zero, Option.some.injEq, Prod.mk.injEq] at hk
      obtain ⟨rfl, rfl⟩ := hk
      rw [he] at he'; cases he'
      refine ⟨_, rfl, ?_, ?_⟩
      · split
        · rfl
        · exact hint (n, a) (by simp)
      · split
        · simp only [List.map_inj_left]
          intro v _; simp [stored]
        · rename_i h0
          simp only [ne_eq, not_not] at h0
          subst h0
          symm
          rw [List.map_congr_left (g := id)]
          · simp
          · intro v _; cases v <;> simp [stored]
    | succ k =>
      simp only [List.getElem?_cons_succ] at hk ⊢
      exact o3 k n' a' e' hk he'

/-! ## C07 -/

/-- C07, any property function.  If `make_property` succeeds then for every new property the returned array has one
row per object; the rows of the selected objects hold what the function returned
for them, in order; all other rows are NaN; and no other property reads
differently. -/
theorem C07_values [DivisionRing K] [LE K] [DecidableLE K] (s s' : State K) (hr : Reachable s)
    (m : MultiProp K) (o : MakeOpts K) (hdisk : o.writeDisk = false)
    (hnd : (o.rename.getD m.names).Nodup) (hmc : "mass_cuts" ∉ o.rename.getD m.names)
    (hm : make s m o = (s', .ok ())) :
    (∃ vals, evaluateAll m s o.useAll o.remap o.otherKws = .ok vals ∧
      vals.length = (o.rename.getD m.names).length ∧
      ∀ (k : ℕ) (name : Name) (arr : Arr K), (o.rename.getD m.names)[k]? = some name →
        vals[k]? = some arr →
        ∃ full, returnProperty s' name true (some true) = .ok (some full) ∧ full.length = s.nAll ∧
          (arr.vals.length = (selection s o.useAll).length →
            ∀ (j i : ℕ), (selection s o.useAll)[j]? = some i → full[i]? = arr.vals[j]?) ∧
          (∀ i < s.nAll, i ∉ selection s o.useAll → full[i]? = some none)) ∧
    (∀ q, q ∉ o.rename.getD m.names → ∀ u b, returnProperty s' q u b = returnProperty s q u b) ∧
    s'.active = s.active ∧ s'.file = s.file := by
  have hI := reachable_inv hr
  have hI' : Inv s' := by have := make_inv s m o hI; rw [hm] at this; exact this
  obtain ⟨exist, vals, hl, hex, hev, hst⟩ := make_ok s s' m o hdisk hm
  obtain ⟨x1, x2⟩ := checkNames_ok s _ _ _ hex
  have hvl := evaluateAll_length _ _ _ _ _ _ hev
  have hnames := items_names m.names (o.rename.getD m.names) exist vals hl (by omega) hvl
  obtain ⟨b1, b2, b3, b4⟩ := storeAll_ok _ _ _ _ s s' (by rw [hnames]; exact hnd) (by
    intro it hit hite
    obtain ⟨k, hk⟩ := List.getElem?_of_mem hit
    rw [items_get] at hk
    simp only [Option.bind_eq_some_iff, Option.map_eq_some_iff] at hk
    obtain ⟨n, -, nm, hnm, b, hb, a, -, rfl⟩ := hk
    exact (x2 k nm b hnm hb).1 hite) hst
  refine ⟨⟨vals, hev, by omega, ?_⟩, ?_, b1.active, b1.file⟩
  · intro k name arr hk hv
    have hkl : k < (o.rename.getD m.names).length := by
      by_contra hc; rw [List.getElem?_eq_none (by omega)] at hk; simp at hk
    have hit : (items m.names (o.rename.getD m.names) exist vals)[k]? =
        some ⟨m.names[k]'(by omega), name, exist[k]'(by omega), arr⟩ := by
      rw [items_get, hk, hv, List.getElem?_eq_getElem (by omega : k < m.names.length),
        List.getElem?_eq_getElem (by omega : k < exist.length)]
      rfl
    obtain ⟨-, hin, out, un, hd', e, c1, -, -, -, c5, -, -⟩ := b4 _ (List.mem_of_getElem? hit)
    simp only at hin c1 c5
    have hne : name ≠ "mass_cuts" := fun e => hmc (e ▸ List.mem_of_getElem? hk)
    have hheld : held s' name = some out := by simp [held, c5]
    refine ⟨out, return_all_h s' hI' name hin hne out hheld, ?_, ?_, ?_⟩
    · rw [scatter_length _ _ _ _ c1]; simp
    · intro hlen
      obtain ⟨out', d1, -, d3, -⟩ := scatter_spec (List.replicate s.nAll (none : V K))
        (inds s o.useAll) arr.vals hlen (inds_nodup s hI _) (by
          intro i hi; simpa using inds_bound s hI _ i hi)
      rw [c1] at d1; cases d1
      exact d3
    · intro i hi hni
      rw [selection_eq] at hni
      have hrep : (List.replicate s.nAll (none : V K))[i]? = some none := by simp [hi]
      rw [← hrep]
      unfold scatter at c1
      split at c1
      · rename_i hlen
        simp only [Except.ok.injEq] at c1; subst c1
        apply foldl_set_get_notin
        rw [List.map_fst_zip (by omega)]; exact hni
      · split at c1
        · rename_i v _
          simp only [Except.ok.injEq] at c1; subst c1
          have := foldl_set_get_notin ((inds s o.useAll).map (fun i => (i, v)))
            (List.replicate s.nAll (none : V K)) i (by
              rw [List.map_map]
              have he : (Prod.fst ∘ fun i : ℕ => (i, v)) = id := rfl
              rw [he, List.map_id]
              exact hni)
          rw [List.foldl_map] at this
          exact this
        · simp at c1
  · intro q hq u b
    obtain ⟨c1, c2, -, c4⟩ := b2 q (by rw [hnames]; exact hq)
    exact returnProperty_congr s s' b1 q c1 c2 c4 u b

/-- C07, C09, functions working object by object.  Such a property can be made, unless values returned
as a tuple have to be converted (`C09_tuple_fails`): for every
selected object the new property is the function of that object's own inputs, every other object
gets NaN.  Read in h units the value is `stored`, i.e. divided by `h^e` unless the function returns
h units. -/
theorem C07_rowwise [DivisionRing K] [LE K] [DecidableLE K] (s : State K) (hr : Reachable s)
    (m : MultiProp K) (g : ℕ → List (V K) → V K) (hg : RowWise m g) (o : MakeOpts K)
    (hdisk : o.writeDisk = false) (hkw : o.otherKws = [])
    (hlen : (o.rename.getD m.names).length = m.names.length)
    (hnd : (o.rename.getD m.names).Nodup) (hmc : "mass_cuts" ∉ o.rename.getD m.names)
    (hfree : o.overwrite = true ∨ ∀ name ∈ o.rename.getD m.names, hasProperty s name = false)
    (hd : PyDict Name ℤ) (hhd : m.hdep = some hd) (hdall : ∀ name ∈ m.names, (hd.get? name).isSome)
    (huall : ∀ name ∈ m.names, (m.units.get? name).isSome) (htup : ¬ TupleToConvert m hd)
    (col : Name → List (V K))
    (hcol : ∀ kw ∈ m.kwargs, (o.remap.get? kw).getD kw ≠ "mass_cuts" ∧
      returnProperty s ((o.remap.get? kw).getD kw) true (some m.giveH) = .ok (some (col kw))) :
    ∃ s', make s m o = (s', .ok ()) ∧
      ∀ (k : ℕ) (orig name : Name) (e : ℤ), m.names[k]? = some orig →
        (o.rename.getD m.names)[k]? = some name → hd.get? orig = some e →
        s'.hdep.get? name = some e ∧
        ∃ full, returnProperty s' name true (some true) = .ok (some full) ∧ full.length = s.nAll ∧
          ∀ i < s.nAll, full[i]? = some (if i ∈ selection s o.useAll then
            stored m.returnH s.h e (g k (m.kwargs.map (fun kw => ((col kw)[i]?).getD none)))
            else none) := by
  classical
  have hI := reachable_inv hr
  -- the arguments for the selected objects
  have hsel : ∀ kw ∈ m.kwargs, ∃ c, returnProperty s ((o.remap.get? kw).getD kw) o.useAll
      (some m.giveH) = .ok (some c) ∧ c.length = (inds s o.useAll).length ∧
      (o.remap.get? kw).getD kw ∈ s.all ∧
      ∀ (j i : ℕ), (inds s o.useAll)[j]? = some i → c[j]? = (col kw)[i]? := by
    intro kw hk
    obtain ⟨h1, h2⟩ := hcol kw hk
    obtain ⟨hall, e, arr, he, ha, -, -, -, hget⟩ := returnProperty_inv s hI _ true _ _ h2
    obtain ⟨c, c1, c2, c3⟩ := returnProperty_ok s hI _ o.useAll (some m.giveH) hall h1 e he arr ha
    refine ⟨c, c1, c2, hall, ?_⟩
    intro j i hj
    have hi : i < s.nAll := inds_bound s hI _ i (List.mem_of_getElem? hj)
    rw [c3 j, hj, hget i]
    simp [inds, hi]
  choose! c hc1 hc2 hc3 hc4 using hsel
  obtain ⟨args, a1, a2, -⟩ := collectArgs_ok s o.remap o.useAll m.giveH c m.kwargs
    (fun kw hk => ⟨hc3 kw hk, hc1 kw hk⟩) []
  obtain ⟨arrs, r1, r2, r3⟩ := hg args c (inds s o.useAll).length
    (fun kw hk => ⟨a2 kw hk, hc2 kw hk⟩)
  -- evaluation
  have hev : ∃ vals, evaluateAll m s o.useAll o.remap o.otherKws = .ok vals ∧
      vals.length = m.names.length ∧
      ∀ (k : ℕ) (orig : Name) (a : Arr K) (e : ℤ), m.names[k]? = some orig → arrs[k]? = some a →
        hd.get? orig = some e → ∃ b : Arr K, vals[k]? = some b ∧ b.isInt = false ∧
          b.vals = a.vals.map (stored m.returnH s.h e) := by
    have hany : (args.keys.any fun k => PyDict.has (α := K) ([] : PyDict Name K) k) = false := by
      simp [PyDict.has]
    unfold evaluateAll
    simp only [a1, hkw, hany, Bool.false_eq_true, if_false, r1, r2, ne_eq, not_true_eq_false]
    cases hret : m.returnH with
    | true =>
      refine ⟨arrs, by simp, r2, ?_⟩
      intro k orig a e _ ha _
      refine ⟨a, ha, (r3 k a ha).1, ?_⟩
      symm
      rw [List.map_congr_left (g := id)]
      · simp
      · intro v _; simp [stored]
    | false =>
      simp only [Bool.false_eq_true, if_false, hhd]
      obtain ⟨out, o1, o2, o3⟩ := toHUnits_ok s.h hd m.tuple (m.names.zip arrs)
        (fun p hp => hdall _ (List.of_mem_zip hp).1) (by
          intro p hp
          obtain ⟨k, hk⟩ := List.getElem?_of_mem (List.of_mem_zip hp).2
          exact (r3 k _ hk).1) (by
          intro ht p hp e he
          by_contra hne
          exact htup ⟨ht, hret, p.1, (List.of_mem_zip hp).1, e, he, hne⟩)
      refine ⟨out, o1, by rw [o2, List.length_zip, r2, Nat.min_self], ?_⟩
      intro k orig a e hk ha he
      exact o3 k orig a e (List.getElem?_zip_eq_some.2 ⟨hk, ha⟩) he
  obtain ⟨vals, v1, v2, v3⟩ := hev
  obtain ⟨exist, e1⟩ := checkNames_succeeds s o.overwrite (o.rename.getD m.names)
    (hfree.imp id (fun h n hn => by simpa [hasProperty] using h n hn))
  obtain ⟨e2, e3⟩ := checkNames_ok _ _ _ _ e1
  have hmk : makeNames m o.rename = .ok (o.rename.getD m.names) := by
    unfold makeNames
    cases hro : o.rename with
    | none => rfl
    | some r => rw [hro] at hlen; simp only [Option.getD_some] at hlen ⊢; simp [hlen]
  -- the storing loop succeeds
  have hloop : ∀ (its : List (Item K)) (t : State K), t.nAll = s.nAll →
      (∀ it ∈ its, it.arr.isInt = false ∧ it.arr.vals.length = (inds s o.useAll).length ∧
        it.name ∈ m.names) →
      ∃ t', forEach (storeOne m.units (some hd) (inds s o.useAll)) t its = (t', .ok ()) := by
    intro its
    induction its with
    | nil => intro t _ _; exact ⟨t, rfl⟩
    | cons it its ih =>
      intro t htn hits
      obtain ⟨h1, h2, h3⟩ := hits it (by simp)
      obtain ⟨out, d1, -⟩ := scatter_spec (List.replicate t.nAll (none : V K))
        (inds s o.useAll) it.arr.vals h2 (inds_nodup s hI _) (by
          intro i hi; simpa [htn] using inds_bound s hI _ i hi)
      obtain ⟨t1, ht1⟩ := storeOne_succeeds m.units hd (inds s o.useAll) t it h1 out d1
        (huall _ h3) (hdall _ h3)
      have hb := storeOne_base m.units (some hd) (inds s o.useAll) t it
      rw [ht1] at hb
      obtain ⟨t2, ht2⟩ := ih t1 (by rw [hb.nAll, htn]) (fun x hx => hits x (by simp [hx]))
      exact ⟨t2, by simp only [forEach, ht1]; exact ht2⟩
  have harr : ∀ k, k < m.names.length → ∃ a, arrs[k]? = some a := fun k hk =>
    ⟨arrs[k]'(by omega), List.getElem?_eq_getElem (by omega)⟩
  obtain ⟨s', hs'⟩ := hloop (items m.names (o.rename.getD m.names) exist vals) s rfl (by
    intro it hit
    obtain ⟨k, hk⟩ := List.getElem?_of_mem hit
    rw [items_get] at hk
    simp only [Option.bind_eq_some_iff, Option.map_eq_some_iff] at hk
    obtain ⟨n, hn, nm, hnm, b, hb, a, ha, rfl⟩ := hk
    have hkl : k < m.names.length := by
      by_contra hcc; rw [List.getElem?_eq_none (by omega)] at hn; simp at hn
    obtain ⟨a0, ha0⟩ := harr k hkl
    obtain ⟨e, he⟩ := Option.isSome_iff_exists.1 (hdall n (List.mem_of_getElem? hn))
    obtain ⟨b', g1, g2, g3⟩ := v3 k n a0 e hn ha0 he
    rw [ha] at g1; cases g1
    refine ⟨g2, ?_, List.mem_of_getElem? hn⟩
    simp only
    rw [g3, List.length_map]
    exact (r3 k a0 ha0).2.1)
  have hmake : make s m o = (s', .ok ()) := by
    unfold make
    simp only [hdisk, Bool.and_false, Bool.false_and, Bool.false_eq_true, if_false, hmk, e1, v1,
      hhd, hs']
  refine ⟨s', hmake, ?_⟩
  intro k orig name e hk hn he
  have hkl : k < m.names.length := by
    by_contra hcc; rw [List.getElem?_eq_none (by omega)] at hk; simp at hk
  obtain ⟨a0, ha0⟩ := harr k hkl
  obtain ⟨b', g1, g2, g3⟩ := v3 k orig a0 e hk ha0 he
  obtain ⟨⟨vals', w1, -, w2⟩, -⟩ := C07_values s s' hr m o hdisk hnd hmc hmake
  rw [v1] at w1; cases w1
  obtain ⟨full, f1, f2, f3, f4⟩ := w2 k name b' hn g1
  refine ⟨?_, full, f1, f2, ?_⟩
  · obtain ⟨-, -, -, b4⟩ := storeAll_ok _ _ _ _ s s' (by
      rw [items_names m.names (o.rename.getD m.names) exist vals hlen (by omega) v2]; exact hnd) (by
      intro it hit hite
      obtain ⟨k, hk⟩ := List.getElem?_of_mem hit
      rw [items_get] at hk
      simp only [Option.bind_eq_some_iff, Option.map_eq_some_iff] at hk
      obtain ⟨n, -, nm, hnm, b, hb, a, -, rfl⟩ := hk
      exact (e3 k nm b hnm hb).1 hite) hs'
    have hit : (items m.names (o.rename.getD m.names) exist vals)[k]? =
        some ⟨orig, name, exist[k]'(by omega), b'⟩ := by
      rw [items_get, hk, hn, g1, List.getElem?_eq_getElem (by omega : k < exist.length)]
      rfl
    obtain ⟨-, -, out, un, hd', e', -, -, c3, c4, -, -, c7⟩ := b4 _ (List.mem_of_getElem? hit)
    simp only [Option.some.injEq] at c3 c4 c7
    subst c3
    rw [he] at c4; cases c4
    exact c7
  · intro i hi
    by_cases his : i ∈ selection s o.useAll
    · simp only [his, if_true]
      obtain ⟨j, hj⟩ := List.getElem?_of_mem his
      have hjl : j < (inds s o.useAll).length := by
        by_contra hcc
        rw [selection_eq, List.getElem?_eq_none (by omega)] at hj; simp at hj
      obtain ⟨q1, q2, q3⟩ := r3 k a0 ha0
      rw [f3 (by rw [g3, List.length_map, q2, selection_eq]) j i hj, g3, List.getElem?_map, q3 j hjl]
      simp only [Option.map_some, Option.some.injEq]
      congr 2
      apply List.map_congr_left
      intro kw hkw
      rw [hc4 kw hkw j i hj]
    · simp only [his, if_false]
      exact f4 i hi his

/-! ## C09 units -/

/-- C09, reading: in every reachable state the value without h is the value in h units times
`h^e`, `e` being the property's h dependence. -/
theorem C09_units [DivisionRing K] [LE K] [DecidableLE K] (s : State K) (hr : Reachable s) (p : Name)
    (u : Bool) (hp : p ≠ "mass_cuts") (vh : List (V K))
    (h1 : returnProperty s p u (some true) = .ok (some vh)) :
    ∃ e vp, s.hdep.get? p = some e ∧ returnProperty s p u (some false) = .ok (some vp) ∧
      vp = vh.map (fun v => v.map (fun x => x * s.h ^ e)) := by
  have hI := reachable_inv hr
  obtain ⟨hall, e, arr, he, ha, -, -, -, hget⟩ := returnProperty_inv s hI p u _ _ h1
  obtain ⟨out, o1, o2, o3⟩ := returnProperty_ok s hI p u (some false) hall hp e he arr ha
  refine ⟨e, out, he, o1, ?_⟩
  apply List.ext_getElem?
  intro j
  rw [o3 j, List.getElem?_map, hget j]
  cases hj : (inds s u)[j]? with
  | none => rfl
  | some i =>
    simp only [Option.bind_some, Option.getD_some]
    cases arr[i]? <;> simp [seen]

/-- C09, round trip: a property made by a function that returns physical units
reads back, without h, as exactly what the function returned; a function that
returns h units reads back in h units exactly. -/
theorem C09_roundtrip_partial [Field K] [LE K] [DecidableLE K] (s : State K) (hr : Reachable s)
    (hh : s.h ≠ 0)
    (m : MultiProp K) (g : ℕ → List (V K) → V K) (hg : RowWise m g) (o : MakeOpts K)
    (hdisk : o.writeDisk = false) (hkw : o.otherKws = [])
    (hlen : (o.rename.getD m.names).length = m.names.length)
    (hnd : (o.rename.getD m.names).Nodup) (hmc : "mass_cuts" ∉ o.rename.getD m.names)
    (hfree : o.overwrite = true ∨ ∀ name ∈ o.rename.getD m.names, hasProperty s name = false)
    (hd : PyDict Name ℤ) (hhd : m.hdep = some hd) (hdall : ∀ name ∈ m.names, (hd.get? name).isSome)
    (huall : ∀ name ∈ m.names, (m.units.get? name).isSome) (htup : ¬ TupleToConvert m hd)
    (col : Name → List (V K))
    (hcol : ∀ kw ∈ m.kwargs, (o.remap.get? kw).getD kw ≠ "mass_cuts" ∧
      returnProperty s ((o.remap.get? kw).getD kw) true (some m.giveH) = .ok (some (col kw))) :
    ∃ s', make s m o = (s', .ok ()) ∧
      ∀ (k : ℕ) (name : Name), (o.rename.getD m.names)[k]? = some name →
        ∃ full, returnProperty s' name true (some m.returnH) = .ok (some full) ∧
          ∀ i ∈ selection s o.useAll,
            full[i]? = some (g k (m.kwargs.map (fun kw => ((col kw)[i]?).getD none))) := by
  obtain ⟨s', h1, h2⟩ := C07_rowwise s hr m g hg o hdisk hkw hlen hnd hmc hfree hd hhd hdall huall htup
    col hcol
  refine ⟨s', h1, ?_⟩
  intro k name hn
  have hkl : k < m.names.length := by
    by_contra hcc; rw [List.getElem?_eq_none (by omega)] at hn; simp at hn
  have hk := List.getElem?_eq_getElem hkl
  obtain ⟨e, he⟩ := Option.isSome_iff_exists.1 (hdall _ (List.getElem_mem hkl))
  obtain ⟨q0, full, q1, q2, q3⟩ := h2 k _ name e hk hn he
  have hbd : ∀ i ∈ selection s o.useAll, i < s.nAll := inds_bound s (reachable_inv hr) o.useAll
  have hr' : Reachable s' := by
    obtain ⟨file, n, h, inH, s0, extra, ops, a, b, rfl⟩ := hr
    refine ⟨file, n, h, inH, s0, extra, ops ++ [.make m o], a, b, ?_⟩
    simp [run, step] at h1 ⊢
    rw [h1]
  cases hret : m.returnH with
  | true =>
    refine ⟨full, q1, ?_⟩
    intro i hi
    rw [q3 i (hbd i hi)]
    simp [hi, stored, hret]
  | false =>
    obtain ⟨e', vp, u1, u2, u3⟩ := C09_units s' hr' name true
      (fun e => hmc (e ▸ List.mem_of_getElem? hn)) full q1
    rw [q0] at u1; cases u1
    refine ⟨vp, u2, ?_⟩
    have hsh : s'.h = s.h := by
      obtain ⟨exist, vals, _, hex, _, hst⟩ := make_ok s s' m o hdisk h1
      have hb := forEach_preserves (storeOne m.units m.hdep (inds s o.useAll)) (SameBase s)
        (items m.names (o.rename.getD m.names) exist vals)
        (fun t x _ ht => ht.trans (storeOne_base _ _ _ t x)) s (SameBase.refl s)
      rw [hst] at hb
      exact hb.h
    intro i hi
    rw [u3, List.getElem?_map, q3 i (hbd i hi), hsh]
    simp only [hi, if_true, hret, stored, Option.map_some]
    cases g k (m.kwargs.map (fun kw => ((col kw)[i]?).getD none)) with
    | none => rfl
    | some x =>
      have : s.h ^ e ≠ 0 := zpow_ne_zero e hh
      simp [this]

/-! ## Examples and negative results -/

/-- Doubles the mass; returns physical units. -/
def doubleMass : MultiProp ℚ where
  names := ["mass2"]
  fn := fun args _ => match args.get? "mass" with
    | some (.arr vs) => .ok [⟨false, vs.map (fun v => v.map (2 * ·))⟩]
    | _ => .error .typeError
  kwargs := ["mass"]
  giveH := true
  returnH := false
  units := [("mass2", "Msun")]
  hdep := some [("mass2", -1)]

def plainOpts : MakeOpts ℚ :=
  { rename := none, remap := [], otherKws := [], overwrite := false, useAll := false,
    writeDisk := false, overwriteDisk := false, unloadDisk := false }

example : RowWise doubleMass (fun _ row => (row.head?.getD none).map (2 * ·)) := by
  intro args cols n h
  obtain ⟨h1, h2⟩ := h "mass" (by simp [doubleMass])
  refine ⟨_, by simp only [doubleMass, h1]; rfl, rfl, ?_⟩
  intro k arr hk
  cases k with
  | zero =>
    simp only [List.getElem?_cons_zero, Option.some.injEq] at hk
    subst hk
    refine ⟨rfl, by simpa using h2, ?_⟩
    intro j hj
    have : j < (cols "mass").length := by omega
    simp [doubleMass, this]
  | succ k => simp at hk

/-- The state used below: four objects, 1 and 2 active. -/
example : ∃ s0, init demoFile (1/2) true = .ok s0 ∧
    let s := run s0 [.range (some "mass") (some 2) (some 3) true none]
    (selection s false) = [1, 2] ∧
    returnProperty s "mass" true (some true) = .ok (some [some 4, some 3, some 2, some 1]) ∧
    returnProperty (make s doubleMass plainOpts).1 "mass2" true (some false)
      = .ok (some [none, some 6, some 4, none]) := by
  exact ⟨_, rfl, by decide +kernel, by decide +kernel, by decide +kernel⟩

/-- C07 as stated for every property function: a made property can be made, and read back. -/
def C07_full : Prop :=
  ∀ (s : State ℚ) (m : MultiProp ℚ) (o : MakeOpts ℚ), Reachable s → o.writeDisk = false →
    o.rename = none → m.names.Nodup → (∀ n ∈ m.names, n ∉ s.all) → m.hdep.isSome →
    (∀ n ∈ m.names, (m.units.get? n).isSome ∧ ∀ hd, m.hdep = some hd → (hd.get? n).isSome) →
    (∃ vals, evaluateAll m s o.useAll o.remap o.otherKws = .ok vals ∧
      ∀ a ∈ vals, a.vals.length = (selection s o.useAll).length) →
    (make s m o).2 = .ok ()

/-- A flag computed for every object, as an integer array. -/
def flagProp : MultiProp ℚ where
  names := ["flag"]
  fn := fun args _ => match args.get? "mass" with
    | some (.arr vs) => .ok [⟨true, vs.map (fun _ => some 1)⟩]
    | _ => .error .typeError
  kwargs := ["mass"]
  giveH := true
  returnH := true
  units := [("flag", "")]
  hdep := some [("flag", 0)]

/-- C07 fails for functions that return integers: the NaN fill of line 327 raises. -/
theorem C07_full_false : ¬ C07_full := by
  intro H
  have h0 : ∃ s0, init demoFile (1/2) true = .ok s0 := ⟨_, rfl⟩
  obtain ⟨s0, h0⟩ := h0
  have := H s0 flagProp plainOpts ⟨demoFile, 4, 1/2, true, s0, s0.extra, [], demoFile_wf, h0, rfl⟩ rfl
    rfl
    (by simp [flagProp]) (by
      cases h0
      decide +kernel) rfl (by
      intro n hn
      simp only [flagProp, List.mem_singleton] at hn
      subst hn
      refine ⟨rfl, ?_⟩
      rintro hd ⟨⟩
      rfl) (by
      cases h0
      refine ⟨[⟨true, [some 1, some 1, some 1, some 1]⟩], rfl, ?_⟩
      intro a ha
      simp only [List.mem_singleton] at ha
      subst ha
      rfl)
  cases h0
  exact absurd this (by decide +kernel)

/-- C09: values that are returned as a tuple and have to be converted to h units cannot be stored: for every
catalogue, whatever the function returns, making such a property fails, and nothing is changed. -/
theorem C09_tuple_fails [DivisionRing K] [LE K] [DecidableLE K] (s : State K) (m : MultiProp K) (o : MakeOpts K)
    (hd : PyDict Name ℤ) (hhd : m.hdep = some hd) (ht : TupleToConvert m hd) :
    (make s m o).1 = s ∧ ∃ e, (make s m o).2 = .error e := by
  have hev : ∀ vals, evaluateAll m s o.useAll o.remap o.otherKws ≠ .ok vals := by
    intro vals hc
    obtain ⟨t1, t2, nm, hnm, e, he, hne⟩ := ht
    unfold evaluateAll at hc
    split at hc
    · simp at hc
    · split at hc
      · simp at hc
      · split at hc
        · simp at hc
        · rename_i vals0 _
          split at hc
          · simp at hc
          · rename_i hl
            simp only [ne_eq, not_not] at hl
            simp only [t2, Bool.false_eq_true, if_false, hhd, t1] at hc
            have key : ∀ (l : List (Name × Arr K)) out, toHUnits s.h hd true l = .ok out →
                ∀ p ∈ l, ∀ e, hd.get? p.1 = some e → e = 0 := by
              intro l
              induction l with
              | nil => intro out _ p hp; simp at hp
              | cons x l ih =>
                intro out h p hp e' he'
                obtain ⟨n, a⟩ := x
                unfold toHUnits at h
                split at h
                · simp at h
                · rename_i e0 h0
                  split at h
                  · simp at h
                  · rename_i hz
                    simp only [ne_eq, and_true, not_not] at hz
                    split at h
                    · simp at h
                    · rename_i out' ho
                      rcases List.mem_cons.1 hp with rfl | hp
                      · simp only [h0, Option.some.injEq] at he'
                        rw [← he', hz]
                      · exact ih _ ho p hp e' he'
            obtain ⟨k, hk, hke⟩ := List.getElem_of_mem hnm
            have hkv : k < vals0.length := by omega
            have hmem : (nm, vals0[k]) ∈ m.names.zip vals0 :=
              List.mem_of_getElem? (i := k) (List.getElem?_zip_eq_some.2
                ⟨by rw [List.getElem?_eq_getElem hk, hke], List.getElem?_eq_getElem hkv⟩)
            exact hne (key _ _ hc _ hmem e he)
  unfold make
  dsimp only
  split
  · exact ⟨rfl, _, rfl⟩
  · split
    · exact ⟨rfl, _, rfl⟩
    · split
      · exact ⟨rfl, _, rfl⟩
      · split
        · exact ⟨rfl, _, rfl⟩
        · rename_i vals hv
          exact absurd hv (hev vals)

/-- C09 as stated: every function working object by object gives a property that reads back as its values. -/
def C09_full : Prop :=
  ∀ (s : State ℚ) (m : MultiProp ℚ) (g : ℕ → List (V ℚ) → V ℚ) (o : MakeOpts ℚ) (hd : PyDict Name ℤ)
    (col : Name → List (V ℚ)),
    Reachable s → s.h ≠ 0 → RowWise m g → o.writeDisk = false → o.otherKws = [] → o.rename = none →
    m.names.Nodup → "mass_cuts" ∉ m.names → (∀ name ∈ m.names, hasProperty s name = false) →
    m.hdep = some hd → (∀ name ∈ m.names, (hd.get? name).isSome) → (∀ name ∈ m.names, (m.units.get? name).isSome) →
    (∀ kw ∈ m.kwargs, (o.remap.get? kw).getD kw ≠ "mass_cuts" ∧
      returnProperty s ((o.remap.get? kw).getD kw) true (some m.giveH) = .ok (some (col kw))) →
    ∃ s', make s m o = (s', .ok ()) ∧
      ∀ (k : ℕ) (name : Name), m.names[k]? = some name →
        ∃ full, returnProperty s' name true (some m.returnH) = .ok (some full) ∧
          ∀ i ∈ selection s o.useAll,
            full[i]? = some (g k (m.kwargs.map (fun kw => ((col kw)[i]?).getD none)))

/-- Two masses, in physical units, returned as a tuple: `return 2*mass, 3*mass`. -/
def twoMasses : MultiProp ℚ where
  names := ["m2", "m3"]
  fn := fun args _ => match args.get? "mass" with
    | some (.arr vs) => .ok [⟨false, vs.map (fun v => v.map (2 * ·))⟩, ⟨false, vs.map (fun v => v.map (3 * ·))⟩]
    | _ => .error .typeError
  kwargs := ["mass"]
  giveH := true
  returnH := false
  units := [("m2", "Msun"), ("m3", "Msun")]
  hdep := some [("m2", -1), ("m3", -1)]
  tuple := true

theorem twoMasses_convert : TupleToConvert twoMasses [("m2", -1), ("m3", -1)] :=
  ⟨rfl, rfl, "m2", by decide, -1, rfl, by decide⟩

/-- The object is what `MultiProp(['m2','m3'], …, units=['Msun'], h_dependence=[-1])` makes. -/
example : mkMultiProp twoMasses.names twoMasses.fn ["mass"] true false ["Msun"] [-1] true = .ok twoMasses := rfl

/-- With a list instead of a tuple the same function works. -/
example : ∃ s0, init demoFile (1/2) true = .ok s0 ∧
    (make s0 twoMasses plainOpts).2 = .error .typeError ∧
    returnProperty (make s0 { twoMasses with tuple := false } plainOpts).1 "m3" true (some false)
      = .ok (some [some 12, some 9, some 6, some 3]) := by
  exact ⟨_, rfl, by decide +kernel, by decide +kernel⟩

/-- C09 fails for functions that return several properties as a tuple. -/
theorem C09_full_false : ¬ C09_full := by
  intro H
  have h0 : ∃ s0, init demoFile (1/2) true = .ok s0 := ⟨_, rfl⟩
  obtain ⟨s0, h0⟩ := h0
  obtain ⟨s', h1, -⟩ := H s0 twoMasses (fun k row => (row.head?.getD none).map (fun x => (k + 2 : ℚ) * x)) plainOpts
    [("m2", -1), ("m3", -1)] (fun _ => [some 4, some 3, some 2, some 1])
    ⟨demoFile, 4, 1/2, true, s0, s0.extra, [], demoFile_wf, h0, rfl⟩ (by cases h0; decide +kernel) (by
      intro args cols n h
      obtain ⟨h1, h2⟩ := h "mass" (by simp [twoMasses])
      refine ⟨_, by simp only [twoMasses, h1]; rfl, rfl, ?_⟩
      intro k arr hk
      match k, hk with
      | 0, hk =>
        simp only [List.getElem?_cons_zero, Option.some.injEq] at hk
        subst hk
        refine ⟨rfl, by simpa using h2, ?_⟩
        intro j hj
        have : j < (cols "mass").length := by omega
        simp [twoMasses, this]
      | 1, hk =>
        simp only [List.getElem?_cons_succ, List.getElem?_cons_zero, Option.some.injEq] at hk
        subst hk
        refine ⟨rfl, by simpa using h2, ?_⟩
        intro j hj
        have : j < (cols "mass").length := by omega
        have h3 : (1 + 2 : ℚ) = 3 := by decide +kernel
        simp [twoMasses, this, h3]
      | k + 2, hk => simp at hk)
    rfl rfl rfl (by decide) (by decide) (by cases h0; decide +kernel) rfl (by decide) (by decide)
    (by cases h0; decide +kernel)
  have := (C09_tuple_fails s0 twoMasses plainOpts _ rfl twoMasses_convert).2
  rw [h1] at this
  obtain ⟨e, he⟩ := this
  simp at he

/-! ## C44 multi-property functions -/

/-- C44 as stated: a multi-property function declared with one h power per property
evaluates and each property gets its own power. -/
def C44_full : Prop :=
  ∀ (names : List Name) (fn : PyDict Name (Arg ℚ) → PyDict Name ℚ → Except Err (List (Arr ℚ)))
    (kwargs : List Name) (giveH returnH : Bool) (units : List String) (hdep : List ℤ),
    names.Nodup → units.length = names.length → hdep.length = names.length →
    ∃ m, mkMultiProp names fn kwargs giveH returnH units hdep = .ok m ∧
      ∀ (k : ℕ) (n : Name), names[k]? = some n →
        m.hdep.bind (fun d => d.get? n) = hdep[k]? ∧ m.units.get? n = units[k]?

/-- C44 fails: with one power per property (two or more), `h_dependence` is never set and the
units are replaced by the powers (`galprops.py:67-68`). -/
theorem C44_full_false : ¬ C44_full := by
  intro H
  obtain ⟨m, h1, h2⟩ := H ["a", "b"] (fun _ _ => .ok []) [] true true ["Msun", "Mpc"] [0, 1]
    (by decide) rfl rfl
  simp only [mkMultiProp, List.length_cons, List.length_nil, if_true, Except.ok.injEq] at h1
  subst h1
  have := (h2 0 "a" rfl).1
  simp at this

/-- Every such function that returns physical units (and at least one value) then fails
to evaluate, on every catalogue. -/
theorem C44_per_property_powers_fail [DivisionRing K] (names : List Name)
    (fn : PyDict Name (Arg K) → PyDict Name K → Except Err (List (Arr K)))
    (kwargs : List Name) (giveH : Bool) (units : List String) (hdep : List ℤ)
    (h2 : 2 ≤ names.length) (hl : hdep.length = names.length) (m : MultiProp K)
    (hm : mkMultiProp names fn kwargs giveH false units hdep = .ok m) (s : State K) (u : Bool)
    (remap : PyDict Name Name) (kw : PyDict Name K) (vals : List (Arr K)) :
    evaluateAll m s u remap kw ≠ .ok vals := by
  have hmn : m.names = names ∧ m.hdep = none ∧ m.returnH = false := by
    unfold mkMultiProp at hm
    dsimp only at hm
    split at hm
    · simp at hm
    · split at hm
      · simp only [List.length_singleton] at hl; omega
      · rw [if_pos hl] at hm
        simp only [Except.ok.injEq] at hm
        subst hm
        exact ⟨rfl, rfl, rfl⟩
  intro hc
  have hlen := evaluateAll_length _ _ _ _ _ _ hc
  unfold evaluateAll at hc
  split at hc
  · simp at hc
  · split at hc
    · simp at hc
    · split at hc
      · simp at hc
      · split at hc
        · simp at hc
        · simp only [hmn.2.1, hmn.2.2, Bool.false_eq_true, if_false] at hc
          split at hc
          · rename_i he
            simp only [Except.ok.injEq] at hc
            subst hc
            rw [hmn.1] at hlen
            simp only [List.length_nil] at hlen
            omega
          · simp at hc

/-- The part of C44 that holds: with a single power for all properties, every property gets
that power and its own unit. -/
theorem C44_common_power_partial (names : List Name)
    (fn : PyDict Name (Arg K) → PyDict Name K → Except Err (List (Arr K)))
    (kwargs : List Name) (giveH returnH : Bool) (units : List String) (e : ℤ)
    (hnd : names.Nodup) (hu : units.length = names.length) :
    ∃ m, mkMultiProp names fn kwargs giveH returnH units [e] = .ok m ∧ m.names = names ∧
      ∀ (k : ℕ) (n : Name), names[k]? = some n →
        m.hdep.bind (fun d => d.get? n) = some e ∧ m.units.get? n = units[k]? := by
  have dict_spec : ∀ {α : Type} (l : List (Name × α)) (acc : PyDict Name α) (n : Name),
      n ∉ l.map Prod.fst → (l.foldl (fun d p => d.set p.1 p.2) acc).get? n = acc.get? n := by
    intro α l
    induction l with
    | nil => intro acc n _; rfl
    | cons p l ih =>
      intro acc n hn
      simp only [List.map_cons, List.mem_cons, not_or] at hn
      rw [List.foldl_cons, ih _ _ hn.2]
      have : ¬ p.1 = n := fun e => hn.1 e.symm
      simp [this]
  have dict_get : ∀ {α : Type} (l : List (Name × α)), (l.map Prod.fst).Nodup →
      ∀ (acc : PyDict Name α) (n : Name) (v : α), (n, v) ∈ l →
      (l.foldl (fun d p => d.set p.1 p.2) acc).get? n = some v := by
    intro α l
    induction l with
    | nil => intro _ acc n v h; simp at h
    | cons p l ih =>
      intro hl acc n v h
      simp only [List.map_cons, List.nodup_cons] at hl
      rw [List.foldl_cons]
      rcases List.mem_cons.1 h with rfl | h
      · rw [dict_spec l _ _ hl.1]; simp
      · exact ih hl.2 _ n v h
  have hmapfst : ∀ {α : Type} (x : α), (names.map (fun n => (n, x))).map Prod.fst = names := by
    intro α x
    rw [List.map_map]
    exact List.map_id names
  have hdep : ∀ n ∈ names, (dictOf (names.map (fun n => (n, e)))).get? n = some e := by
    intro n hn
    exact dict_get _ (by rw [hmapfst]; exact hnd) [] n e (by simpa using hn)
  have hzip : (names.zip units).map Prod.fst = names := List.map_fst_zip (by omega)
  unfold mkMultiProp
  dsimp only
  split
  · rename_i er heq
    exfalso
    split at heq
    · simp at heq
    · rw [if_pos hu] at heq; simp at heq
  · rename_i un heq
    refine ⟨_, rfl, rfl, ?_⟩
    intro k n hk
    refine ⟨hdep n (List.mem_of_getElem? hk), ?_⟩
    dsimp only
    split at heq
    · rename_i u0
      simp only [Except.ok.injEq] at heq
      subst heq
      simp only [List.length_singleton] at hu
      have hk0 : k = 0 := by
        by_contra hc
        rw [List.getElem?_eq_none (by omega)] at hk; simp at hk
      subst hk0
      exact dict_get _ (by rw [hmapfst]; exact hnd) [] n u0 (by
        simpa using List.mem_of_getElem? hk)
    · rw [if_pos hu] at heq
      simp only [Except.ok.injEq] at heq
      subst heq
      have hkl : k < units.length := by
        by_contra hc
        rw [List.getElem?_eq_none (by omega)] at hk; simp at hk
      rw [List.getElem?_eq_getElem hkl]
      refine dict_get _ (by rw [hzip]; exact hnd) [] n _ ?_
      exact List.mem_of_getElem? (List.getElem?_zip_eq_some.2 ⟨hk, List.getElem?_eq_getElem hkl⟩)

/-- C44: for a function declared to return h units, `evaluate_all` calls the function with each
keyword bound to the values of its own property (and the extra keywords), returns exactly
what the function returns, and refuses a wrong number of results. -/
theorem C44_evaluate_all [DivisionRing K] (m : MultiProp K) (hret : m.returnH = true) (s : State K)
    (u : Bool) (remap : PyDict Name Name) (kw : PyDict Name K) (cols : Name → List (V K))
    (hcols : ∀ k ∈ m.kwargs, hasProperty s ((remap.get? k).getD k) = true ∧
      returnProperty s ((remap.get? k).getD k) u (some m.giveH) = .ok (some (cols k)))
    (hdisj : ∀ k ∈ m.kwargs, kw.has k = false) :
    ∃ args : PyDict Name (Arg K), (∀ k ∈ m.kwargs, args.get? k = some (.arr (cols k))) ∧
      (∀ k, k ∉ m.kwargs → args.get? k = none) ∧
      ∀ vals, m.fn args kw = .ok vals →
        evaluateAll m s u remap kw =
          if vals.length = m.names.length then .ok vals else .error .valueError := by
  obtain ⟨args, a1, a2, a3⟩ := collectArgs_ok s remap u m.giveH cols m.kwargs
    (fun k hk => ⟨by simpa [hasProperty] using (hcols k hk).1, (hcols k hk).2⟩) []
  refine ⟨args, a2, fun k hk => by rw [a3 k hk]; rfl, ?_⟩
  intro vals hv
  have hany : (args.keys.any fun k => kw.has k) = false := by
    rw [List.any_eq_false]
    intro k hk
    rw [PyDict.mem_keys_iff] at hk
    by_cases hkm : k ∈ m.kwargs
    · simp [hdisj k hkm]
    · rw [a3 k hkm] at hk; simp at hk
  unfold evaluateAll
  simp only [a1, hany, Bool.false_eq_true, if_false, hv, hret, if_true]
  by_cases hl : vals.length = m.names.length <;> simp [hl]

/-- C44: `evaluate` ignores the extra keyword arguments it is given (`galprops.py:139`), so a
function that needs one gives a different result from `evaluate_all`. -/
theorem C44_evaluate_drops_keywords [DivisionRing K] (m : MultiProp K) (s : State K) (u : Bool)
    (remap : PyDict Name Name) (kw kw' : PyDict Name K) :
    evaluate m s u remap kw = evaluate m s u remap kw' := rfl

end Verif.Handler
