import Verif.Lemmas.SimAll

set_option linter.unusedSectionVars false

/-!
# C53, C77, C78: creating properties for all snapshots of a simulation
-/

namespace Verif.SimAll
open Verif.Handler Verif.SimAll.Spec
open Verif.Handler.Spec (stored seen RowWise selection Reachable WF)

variable {K : Type} [DivisionRing K]

/-! ## Lemmas -/

theorem find_snap (snaps : List (ℕ × K)) (hnd : (snaps.map Prod.fst).Nodup) (r : ℕ × K)
    (hr : r ∈ snaps) : snaps.find? (fun q => decide (q.1 = r.1)) = some r := by
  induction snaps with
  | nil => simp at hr
  | cons q qs ih =>
    simp only [List.map_cons, List.nodup_cons] at hnd
    rcases List.mem_cons.1 hr with rfl | hr
    · simp
    · have hne : ¬ q.1 = r.1 := fun e => hnd.1 (e ▸ List.mem_map_of_mem hr)
      simp [hne, ih hnd.2 hr]

theorem getSnap_fresh (S : Sim K) (hnd : (S.snaps.map Prod.fst).Nodup) (hh : S.handlers = none)
    (r : ℕ × K) (hr : r ∈ S.snaps) (g : PyDict Name (Dataset K)) (hg : S.disk.get? r.1 = some g) :
    getSnap S r.1 = snapInit g r.2 S.h S.boxH false := by
  simp only [getSnap, extractMeta, find_snap S.snaps hnd r hr, hg, hh]

theorem mem_loopOver (snaps : List (ℕ × K)) (r : ℕ × K) (hr : r ∈ snaps) :
    ∃ b, (b, r.1) ∈ loopOver snaps := by
  have : r.1 ∈ (loopOver snaps).map Prod.snd := by
    rw [loopOver_snd]; exact List.mem_map_of_mem hr
  obtain ⟨x, hx, he⟩ := List.mem_map.1 this
  exact ⟨x.1, by rw [← he]; exact hx⟩

variable [LE K] [DecidableLE K]

/-! ## C53 -/

/-- C53.  After a successful `make_property(..., write=True)` on a simulation every snapshot's group
holds the new properties with the values computed from that snapshot alone (opened as
it was before the call), in every row; nothing else in the group changed, groups of no
listed snapshot did not change, and without `overwrite` the names were unused before. -/
theorem C53_written (S S' : Sim K) (hF : Formatted S.snaps S.disk) (hh : S.handlers = none)
    (m : MultiProp K) (o : MakeOpts K) (hnd : (o.rename.getD m.names).Nodup)
    (hm : makeProperty S m o true = (S', .ok ())) :
    S'.snaps = S.snaps ∧ S'.handlers = none ∧
    (∀ i, i ∉ S.snaps.map Prod.fst → S'.disk.get? i = S.disk.get? i) ∧
    ∀ r ∈ S.snaps, ∀ g n, S.disk.get? r.1 = some g → WF g n →
      ∃ s vals g', snapInit g r.2 S.h S.boxH false = .ok s ∧
        evaluateAll m s o.useAll o.remap o.otherKws = .ok vals ∧
        S'.disk.get? r.1 = some g' ∧
        Stored g g' m (o.rename.getD m.names) vals n (List.range n) ∧
        (o.overwrite = false → ∀ p ∈ o.rename.getD m.names, p ≠ "mass_cuts" → g.get? p = none) := by
  unfold makeProperty at hm
  simp only [hh, Option.isNone_none, Bool.not_true, Bool.and_false, Bool.false_eq_true, if_false]
    at hm
  obtain ⟨⟨a1, -, -, -, a5⟩, a6, a7⟩ := loop_spec _ _ (by rw [loopOver_snd]; exact hF.distinct) _ _ _ hm
  refine ⟨a1, ?_, ?_, ?_⟩
  · rw [hh] at a5; simpa using a5
  · intro i hi
    exact (a6 i (by rw [loopOver_snd]; exact hi)).2
  · intro r hr g n hg hwf
    obtain ⟨b, hb⟩ := mem_loopOver S.snaps r hr
    rcases a7 with ⟨-, a7⟩ | ⟨e, pre, x, post, he, -⟩
    · obtain ⟨s, s', c1, c2, c3, -⟩ := a7 _ hb
      simp only at c1 c2 c3
      rw [getSnap_fresh S hF.distinct hh r hr g hg] at c1
      obtain ⟨s0, d1, d2, d3, -, -, -, d7, d8, -, -, -⟩ := snapInit_ok g n hwf r.2 S.h S.boxH false
      rw [c1] at d1; cases d1
      have hI := reachable_inv (snapInit_reachable g n hwf r.2 S.h S.boxH false s c1)
      obtain ⟨e1, -, vals, e3, e4⟩ := makeSnap_ok s s' hI m o b hnd c2
      have hsel : selection s o.useAll = List.range n := by
        unfold selection; rw [d3, d7]; simp
      rw [d2, d3, hsel] at e4
      refine ⟨s, vals, s'.file, c1, e3, c3, e4, ?_⟩
      intro hov p hp hne
      have := e1 hov p hp
      rw [d8] at this
      simpa [hne] using this
    · simp at he

/-- C53, C78.  Whether or not the call succeeds, every snapshot is either completely written or not
touched at all, and the written ones are the first `k` in the order of the file;
the call succeeds exactly if all are written. -/
theorem C53_prefix (S S' : Sim K) (hF : Formatted S.snaps S.disk) (hh : S.handlers = none)
    (m : MultiProp K) (o : MakeOpts K) (hnd : (o.rename.getD m.names).Nodup)
    (hmc : "mass_cuts" ∉ o.rename.getD m.names) (res : Except Err Unit)
    (hm : makeProperty S m o true = (S', res)) :
    ∃ k ≤ S.snaps.length, (res = .ok () ↔ k = S.snaps.length) ∧
      (∀ i, i ∉ S.snaps.map Prod.fst → S'.disk.get? i = S.disk.get? i) ∧
      ∀ (j : ℕ) (r : ℕ × K), S.snaps[j]? = some r →
        (k ≤ j → S'.disk.get? r.1 = S.disk.get? r.1) ∧
        (j < k → ∀ g n, S.disk.get? r.1 = some g → WF g n →
          ∃ s vals g', snapInit g r.2 S.h S.boxH false = .ok s ∧
            evaluateAll m s o.useAll o.remap o.otherKws = .ok vals ∧
            S'.disk.get? r.1 = some g' ∧
            Stored g g' m (o.rename.getD m.names) vals n (List.range n) ∧
            (o.overwrite = false → ∀ p ∈ o.rename.getD m.names, g.get? p = none)) := by
  unfold makeProperty at hm
  simp only [hh, Option.isNone_none, Bool.not_true, Bool.and_false, Bool.false_eq_true, if_false]
    at hm
  obtain ⟨-, a6, a7⟩ := loop_spec _ _ (by rw [loopOver_snd]; exact hF.distinct) _ _ _ hm
  have hsnd := loopOver_snd S.snaps
  have hat : ∀ (j : ℕ) (r : ℕ × K), S.snaps[j]? = some r →
      ∃ b, (loopOver S.snaps)[j]? = some (b, r.1) := by
    intro j r hj
    have : ((loopOver S.snaps).map Prod.snd)[j]? = some r.1 := by
      rw [hsnd, List.getElem?_map, hj]; rfl
    rw [List.getElem?_map, Option.map_eq_some_iff] at this
    obtain ⟨x, hx, he⟩ := this
    exact ⟨x.1, by rw [hx, ← he]⟩
  have hdone : ∀ b (r : ℕ × K), r ∈ S.snaps → Done (makeSnap m o true) S S' (b, r.1) →
      ∀ g n, S.disk.get? r.1 = some g → WF g n →
          ∃ s vals g', snapInit g r.2 S.h S.boxH false = .ok s ∧
            evaluateAll m s o.useAll o.remap o.otherKws = .ok vals ∧
            S'.disk.get? r.1 = some g' ∧
            Stored g g' m (o.rename.getD m.names) vals n (List.range n) ∧
            (o.overwrite = false → ∀ p ∈ o.rename.getD m.names, g.get? p = none) := by
    rintro b r hr ⟨s, s', c1, c2, c3, -⟩ g n hg hwf
    simp only at c1 c2 c3
    rw [getSnap_fresh S hF.distinct hh r hr g hg] at c1
    obtain ⟨s0, d1, d2, d3, -, -, -, d7, d8, -, -, -⟩ := snapInit_ok g n hwf r.2 S.h S.boxH false
    rw [c1] at d1; cases d1
    have hI := reachable_inv (snapInit_reachable g n hwf r.2 S.h S.boxH false s c1)
    obtain ⟨e1, -, vals, e3, e4⟩ := makeSnap_ok s s' hI m o b hnd c2
    have hsel : selection s o.useAll = List.range n := by
      unfold selection; rw [d3, d7]; simp
    rw [d2, d3, hsel] at e4
    refine ⟨s, vals, s'.file, c1, e3, c3, e4, ?_⟩
    intro hov p hp
    have := e1 hov p hp
    have hne : p ≠ "mass_cuts" := fun e => hmc (e ▸ hp)
    rw [d8] at this
    simpa [hne] using this
  have hout : ∀ i, i ∉ S.snaps.map Prod.fst → S'.disk.get? i = S.disk.get? i :=
    fun i hi => (a6 i (by rw [hsnd]; exact hi)).2
  have hlen : (loopOver S.snaps).length = S.snaps.length := by
    have := congrArg List.length hsnd; simpa using this
  rcases a7 with ⟨rfl, a7⟩ | ⟨e, pre, x, post, rfl, hx, h1, h2, h3⟩
  · refine ⟨S.snaps.length, le_refl _, by simp, hout, ?_⟩
    intro j r hj
    have hjl : j < S.snaps.length := by
      by_contra hc; rw [List.getElem?_eq_none (by omega)] at hj; simp at hj
    refine ⟨fun hk => by omega, fun _ => ?_⟩
    obtain ⟨b, hb⟩ := hat j r hj
    exact hdone b r (List.mem_of_getElem? hj) (a7 _ (List.mem_of_getElem? hb))
  · have hpl : pre.length < S.snaps.length := by rw [← hlen, hx]; simp
    refine ⟨pre.length, by omega, ?_, hout, ?_⟩
    · constructor
      · intro h; simp at h
      · intro h; omega
    · intro j r hj
      have hmem := List.mem_of_getElem? hj
      obtain ⟨b, hb⟩ := hat j r hj
      rw [hx] at hb
      constructor
      · intro hk
        rw [List.getElem?_append_right hk] at hb
        by_cases hjk : j = pre.length
        · subst hjk
          simp only [Nat.sub_self, List.getElem?_cons_zero, Option.some.injEq] at hb
          subst hb
          rcases h2 with ⟨-, h2⟩ | ⟨s, s', c1, c2, c3, -⟩
          · exact h2.2
          · simp only at c1 c2 c3
            obtain ⟨g, n, hg, hwf⟩ := hF.groups r hmem
            rw [getSnap_fresh S hF.distinct hh r hmem g hg] at c1
            obtain ⟨s0, d1, d2, d3, -, -, -, d7, d8, d9, -, -⟩ :=
              snapInit_ok g n hwf r.2 S.h S.boxH false
            rw [c1] at d1; cases d1
            have hI := reachable_inv (snapInit_reachable g n hwf r.2 S.h S.boxH false s c1)
            obtain ⟨e1, -⟩ := makeSnap_error s s' hI m o b hnd hmc
              (fun p hp => (d8 p).2 ((d9 p).1 hp)) e c2
            rw [c3, e1, d2, hg]
        · have : j - pre.length = (j - pre.length - 1) + 1 := by omega
          rw [this, List.getElem?_cons_succ] at hb
          exact (h3 _ (List.mem_of_getElem? hb)).2
      · intro hk
        rw [List.getElem?_append_left hk] at hb
        exact hdone b r hmem (h1 _ (List.mem_of_getElem? hb))

/-- C53, functions working object by object.  If every snapshot has the input properties and the
names are unused (or, with `overwrite`, user-defined in the first snapshot), the call
succeeds, and in every snapshot the new value of each object is the function of that
object's own inputs in that snapshot. -/
theorem C53_rowwise (S : Sim K) (hF : Formatted S.snaps S.disk) (hh : S.handlers = none)
    (m : MultiProp K) (f : ℕ → List (V K) → V K) (hf : RowWise m f) (o : MakeOpts K)
    (hkw : o.otherKws = []) (hlen : (o.rename.getD m.names).length = m.names.length)
    (hnd : (o.rename.getD m.names).Nodup) (hmc : "mass_cuts" ∉ o.rename.getD m.names)
    (hd : PyDict Name ℤ) (hhd : m.hdep = some hd) (hdall : ∀ name ∈ m.names, (hd.get? name).isSome)
    (huall : ∀ name ∈ m.names, (m.units.get? name).isSome) (htup : ¬ Handler.Spec.TupleToConvert m hd)
    (hfree : ∀ r ∈ S.snaps, ∀ g, S.disk.get? r.1 = some g → ∀ name ∈ o.rename.getD m.names,
      g.get? name = none ∨ o.overwrite = true ∧ ∃ d, g.get? name = some d ∧ d.userdefined = true)
    (hin : ∀ r ∈ S.snaps, ∀ g, S.disk.get? r.1 = some g → ∀ kw ∈ m.kwargs,
      (o.remap.get? kw).getD kw ≠ "mass_cuts" ∧ (g.get? ((o.remap.get? kw).getD kw)).isSome) :
    ∃ S', makeProperty S m o true = (S', .ok ()) ∧
      ∀ r ∈ S.snaps, ∀ g n, S.disk.get? r.1 = some g → WF g n →
        ∀ (k : ℕ) (orig name : Name) (e : ℤ), m.names[k]? = some orig →
          (o.rename.getD m.names)[k]? = some name → hd.get? orig = some e →
          ∃ g' d, S'.disk.get? r.1 = some g' ∧ g'.get? name = some d ∧ d.hdep = some e ∧
            d.units = m.units.get? orig ∧ d.userdefined = true ∧ d.vals.length = n ∧
            ∀ i < n, d.vals[i]? = some (stored m.returnH S.h e (f k (m.kwargs.map (fun kw =>
              match g.get? ((o.remap.get? kw).getD kw) with
              | none => none
              | some c => seen S.h (c.hdep.getD 0) m.giveH ((c.vals[i]?).getD none))))) := by
  -- what happens in one snapshot
  have one : ∀ r ∈ S.snaps, ∀ g n, S.disk.get? r.1 = some g → WF g n →
      ∃ s s1, snapInit g r.2 S.h S.boxH false = .ok s ∧
        make s m { o with writeDisk := false } = (s1, .ok ()) ∧ s.nAll = n ∧
        ∀ (k : ℕ) (orig name : Name) (e : ℤ), m.names[k]? = some orig →
          (o.rename.getD m.names)[k]? = some name → hd.get? orig = some e →
          s1.hdep.get? name = some e ∧
          ∃ full, s1.loaded.get? name = some full ∧ full.length = n ∧
            ∀ i < n, full[i]? = some (stored m.returnH S.h e (f k (m.kwargs.map (fun kw =>
              match g.get? ((o.remap.get? kw).getD kw) with
              | none => none
              | some c => seen S.h (c.hdep.getD 0) m.giveH ((c.vals[i]?).getD none))))) := by
    intro r hr g n hg hwf
    obtain ⟨s, d1, d2, d3, d4, -, d6, d7, d8, d9, d10, -⟩ := snapInit_ok g n hwf r.2 S.h S.boxH false
    have hre := snapInit_reachable g n hwf r.2 S.h S.boxH false s d1
    have hI := reachable_inv hre
    have hcol : ∀ kw ∈ m.kwargs, ∃ c out, g.get? ((o.remap.get? kw).getD kw) = some c ∧
        returnProperty s ((o.remap.get? kw).getD kw) true (some m.giveH) = .ok (some out) ∧
        ∀ i < n, out[i]? = some (seen S.h (c.hdep.getD 0) m.giveH ((c.vals[i]?).getD none)) := by
      intro kw hk
      obtain ⟨h1, h2⟩ := hin r hr g hg kw hk
      obtain ⟨c, hc⟩ := Option.isSome_iff_exists.1 h2
      obtain ⟨e, he⟩ := Option.isSome_iff_exists.1
        (hwf.hdep _ c (get?_mem _ _ _ hc) h1)
      have hheld : held s ((o.remap.get? kw).getD kw) = some c.vals := by
        have hs := (d9 ((o.remap.get? kw).getD kw)).2 ⟨h1, h2⟩
        simp [held, d6, hs, d2, hc]
      obtain ⟨out, o1, o2, o3⟩ := returnProperty_ok s hI _ true (some m.giveH)
        ((d8 _).2 ⟨h1, h2⟩) h1 e (by rw [d10 _ h1, hc]; exact he) c.vals hheld
      refine ⟨c, out, hc, o1, ?_⟩
      intro i hi
      have hcl := hwf.lengths _ c hc h1
      rw [o3 i, he]
      simp [inds, d3, hi, d4, hcl]
    choose! c out hc1 hc2 hc3 using hcol
    obtain ⟨s1, m1, m2⟩ := C07_rowwise s hre m f hf { o with writeDisk := false } rfl hkw hlen hnd hmc
      (by
        rcases Bool.eq_false_or_eq_true o.overwrite with h | h
        · exact Or.inl h
        · right
          intro name hn
          rcases hfree r hr g hg name hn with h' | ⟨h', -⟩
          · have : name ∉ s.all := by rw [d8]; simp [h']
            simp [hasProperty, this]
          · rw [h] at h'; simp at h')
      hd hhd hdall huall htup out (fun kw hk => ⟨(hin r hr g hg kw hk).1, hc2 kw hk⟩)
    refine ⟨s, s1, d1, m1, d3, ?_⟩
    intro k orig name e ho hn he
    obtain ⟨q1, full, q2, q3, q4⟩ := m2 k orig name e ho hn he
    have hI1 : Inv s1 := by
      have := make_inv s m { o with writeDisk := false } hI; rw [m1] at this; exact this
    obtain ⟨-, -, -, vals, -, hvl, -, hfacts⟩ := make_facts s s1 hI m o hnd m1
    have hkl : k < (o.rename.getD m.names).length := by
      by_contra hcc; rw [List.getElem?_eq_none (by omega)] at hn; simp at hn
    obtain ⟨full', un, hd', e', -, -, f3, f4, f5, f6, f7⟩ := hfacts k orig name _ ho hn
      (List.getElem?_eq_getElem (by omega))
    have hin1 : name ∈ s1.all := by
      by_contra hcc
      simp [returnProperty, hcc] at q2
    have hne : name ≠ "mass_cuts" := fun e => hmc (e ▸ List.mem_of_getElem? hn)
    have := return_all_h s1 hI1 name hin1 hne full' (by simp [held, f5])
    rw [this] at q2
    simp only [Except.ok.injEq, Option.some.injEq] at q2
    subst q2
    refine ⟨q1, full', f5, by rw [q3, d3], ?_⟩
    intro i hi
    rw [q4 i (by rw [d3]; exact hi)]
    have hsel : i ∈ selection s o.useAll := by
      unfold selection; rw [d3, d7]; simp [hi]
    simp only [hsel, if_true, d4]
    congr 3
    apply List.map_congr_left
    intro kw hk
    rw [hc3 kw hk i hi, hc1 kw hk]
    rfl
  rcases hm : makeProperty S m o true with ⟨S', res⟩
  obtain ⟨k, hk, hres, -, hall⟩ := C53_prefix S S' hF hh m o hnd hmc res hm
  have hk' : k = S.snaps.length := by
    by_contra hcon
    -- the loop failed at some snapshot
    have hm' := hm
    unfold makeProperty at hm'
    simp only [hh, Option.isNone_none, Bool.not_true, Bool.and_false, Bool.false_eq_true, if_false]
      at hm'
    obtain ⟨-, -, a7⟩ := loop_spec _ _ (by rw [loopOver_snd]; exact hF.distinct) _ _ _ hm'
    rcases a7 with ⟨h, -⟩ | ⟨e, pre, x, post, -, hx, -, h2, -⟩
    · exact hcon (hres.1 h)
    · have hxm : x.2 ∈ S.snaps.map Prod.fst := by
        rw [← loopOver_snd, hx]; simp
      obtain ⟨r, hr, hrx⟩ := List.mem_map.1 hxm
      obtain ⟨g, n, hg, hwf⟩ := hF.groups r hr
      obtain ⟨s, s1, c1, c2, -⟩ := one r hr g n hg hwf
      have hget := getSnap_fresh S hF.distinct hh r hr g hg
      rw [hrx, c1] at hget
      rcases h2 with ⟨h2, -⟩ | ⟨s', s'', h2, h3, -⟩
      · rw [h2] at hget; simp at hget
      · rw [h2] at hget
        simp only [Except.ok.injEq] at hget
        subst hget
        have hI := reachable_inv (snapInit_reachable g n hwf r.2 S.h S.boxH false s' c1)
        obtain ⟨s0, d1, d2, -, -, -, -, -, d8, d9, -, -⟩ := snapInit_ok g n hwf r.2 S.h S.boxH false
        rw [c1] at d1; cases d1
        obtain ⟨-, h4⟩ := makeSnap_error s' s'' hI m o x.1 hnd hmc
          (fun p hp => (d8 p).2 ((d9 p).1 hp)) e h3
        rcases h4 with h4 | ⟨-, h4⟩
        · rw [c2] at h4; simp at h4
        · rw [d2] at h4
          have key : ∀ l, (∀ name ∈ l, name ∈ o.rename.getD m.names) →
              checkFirst o.overwrite g l = .ok () := by
            intro l
            induction l with
            | nil => intro _; rfl
            | cons y l ih =>
              intro hl
              unfold checkFirst
              rcases hfree r hr g hg y (hl y (by simp)) with h | ⟨ho, d, hd1, hd2⟩
              · rw [h]; exact ih (fun z hz => hl z (by simp [hz]))
              · rw [hd1]
                have := ih (fun z hz => hl z (by simp [hz]))
                rw [ho] at this
                simp [ho, hd2, this]
          rw [key _ (fun _ h => h)] at h4
          simp at h4
  have hok := hres.2 hk'
  subst hok
  refine ⟨S', rfl, ?_⟩
  intro r hr g n hg hwf k2 orig name e ho hn he
  obtain ⟨j, hj⟩ := List.getElem?_of_mem hr
  have hjl : j < S.snaps.length := by
    by_contra hc; rw [List.getElem?_eq_none (by omega)] at hj; simp at hj
  obtain ⟨s, vals, g', b1, b2, b3, b4, -⟩ := (hall j r hj).2 (by omega) g n hg hwf
  obtain ⟨s', s1, c1, c2, c3, c4⟩ := one r hr g n hg hwf
  rw [b1] at c1; cases c1
  have hI := reachable_inv (snapInit_reachable g n hwf r.2 S.h S.boxH false s b1)
  obtain ⟨-, -, -, vals', hv, -, -, hfacts⟩ := make_facts s s1 hI m o hnd c2
  rw [b2] at hv; cases hv
  have hkl : k2 < (o.rename.getD m.names).length := by
    by_contra hcc; rw [List.getElem?_eq_none (by omega)] at hn; simp at hn
  have hv2 : vals[k2]? = some (vals[k2]'(by have := b4.count; omega)) :=
    List.getElem?_eq_getElem _
  obtain ⟨d, hd2, p1, p2, p3, p4, p5, p6, p7, p8⟩ := b4.each k2 orig name _ ho hn hv2
  obtain ⟨out, un, hd', e', f1, -, f3, f4, f5, -, -⟩ := hfacts k2 orig name _ ho hn hv2
  obtain ⟨q1, full, q2, q3, q4⟩ := c4 k2 orig name e ho hn he
  rw [f5] at q2; cases q2
  rw [hhd] at p6; cases p6
  refine ⟨g', d, b3, p1, by rw [← p7, he], by rw [p4], p3, p2.1, ?_⟩
  intro i hi
  rw [← q4 i hi]
  -- both arrays hold the returned values in every row
  have hsel : selection s o.useAll = List.range n := by
    obtain ⟨s0, d1, -, d3, -, -, -, d7, -⟩ := snapInit_ok g n hwf r.2 S.h S.boxH false
    rw [b1] at d1; cases d1
    unfold selection; rw [d3, d7]; simp
  rw [c3, hsel] at f1
  have hir : (List.range n)[i]? = some i := by simp [hi]
  rcases p2.2.2 with ⟨u1, u2⟩ | ⟨v, u1, u2⟩ <;> rcases f1.2.2 with ⟨w1, w2⟩ | ⟨v', w1, w2⟩
  · rw [u2 i i hir, w2 i i hir]
  · rw [u2 i i hir, w2 i (by simp [hi]), w1]
    rw [w1] at u1
    simp only [List.length_cons, List.length_nil, zero_add, List.length_range] at u1
    have : i = 0 := by omega
    subst this; rfl
  · rw [w2 i i hir, u2 i (by simp [hi]), u1]
    rw [u1] at w1
    simp only [List.length_cons, List.length_nil, zero_add, List.length_range] at w1
    have : i = 0 := by omega
    subst this; rfl
  · rw [u1] at w1
    simp only [List.cons.injEq, and_true] at w1
    subst w1
    rw [u2 i (by simp [hi]), w2 i (by simp [hi])]

end Verif.SimAll
