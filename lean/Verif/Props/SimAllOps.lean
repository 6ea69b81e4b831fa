import Verif.Props.SimAll

set_option linter.unusedSectionVars false

/-!
# C54, C77-C82: initialising, protecting, deleting, restricting and evaluating all snapshots
-/

namespace Verif.SimAll
open Verif.Handler Verif.SimAll.Spec
open Verif.Handler.Spec (stored seen RowWise selection Reachable WF Inside)

variable {K : Type} [DivisionRing K]

/-! ## C54 -/

/-- C54: asking for initialised snapshots when opening a simulation always fails. -/
theorem C54_never (snaps : List (ℕ × K)) (disk : PyDict ℕ (PyDict Name (Dataset K))) (h box : K)
    (inH : Bool) (S : Sim K) : openSim snaps disk h box true inH ≠ .ok S := by
  unfold openSim
  split <;> simp

/-- C54 in full: opening a formatted simulation with initialised snapshots works. -/
def C54_full : Prop :=
  ∀ (snaps : List (ℕ × ℚ)) (disk : PyDict ℕ (PyDict Name (Dataset ℚ))) (h box : ℚ) (inH : Bool),
    snaps ≠ [] → Formatted snaps disk → ∃ S, openSim snaps disk h box true inH = .ok S

theorem initLoop (S : Sim K) (rs : List (ℕ × K)) (hnd : (rs.map Prod.fst).Nodup)
    (hg : ∀ r ∈ rs, ∃ g n, S.disk.get? r.1 = some g ∧ WF g n) (d : PyDict ℕ (State K)) :
    ∃ d', forEach (initOne S) d rs = (d', .ok ()) ∧
      (∀ r ∈ rs, ∀ g, S.disk.get? r.1 = some g →
        ∃ s, snapInit g r.2 S.h S.boxH S.inH = .ok s ∧ d'.get? r.1 = some s) ∧
      ∀ j, j ∉ rs.map Prod.fst → d'.get? j = d.get? j := by
  induction rs generalizing d with
  | nil => exact ⟨d, rfl, by simp, by simp⟩
  | cons r rs ih =>
    simp only [List.map_cons, List.nodup_cons] at hnd
    obtain ⟨g, n, h1, h2⟩ := hg r (by simp)
    obtain ⟨s, s1, -⟩ := snapInit_ok g n h2 r.2 S.h S.boxH S.inH
    obtain ⟨d', e1, e2, e3⟩ := ih hnd.2 (fun q hq => hg q (by simp [hq])) (d.set r.1 s)
    refine ⟨d', ?_, ?_, ?_⟩
    · simp only [forEach, initOne, h1, s1]
      exact e1
    · intro q hq g' hg'
      rcases List.mem_cons.1 hq with rfl | hq
      · rw [h1] at hg'; cases hg'
        refine ⟨s, s1, ?_⟩
        rw [e3 _ hnd.1]; simp
      · exact e2 q hq g' hg'
    · intro j hj
      simp only [List.map_cons, List.mem_cons, not_or] at hj
      have hne : ¬ r.1 = j := fun e => hj.1 e.symm
      rw [e3 j hj.2]; simp [hne]

/-- C54, partial: a simulation opened without handlers can be initialised afterwards; then every
snapshot has a handler on its own group, with all objects selected and the simulation's
unit convention, and the file is unchanged.  Missing: doing so when opening
(`C54_full_false`). -/
theorem C54_initialize_partial (S : Sim K) (hF : Formatted S.snaps S.disk) (hh : S.handlers = none)
    (remake : Bool) :
    ∃ S', initializeAll S remake = (S', .ok ()) ∧ S'.disk = S.disk ∧ S'.snaps = S.snaps ∧
      S'.handlers.isSome ∧
      ∀ r ∈ S.snaps, ∀ g n, S.disk.get? r.1 = some g → WF g n →
        ∃ s, getSnap S' r.1 = .ok s ∧ s.file = g ∧ s.nAll = n ∧ s.active = List.range n ∧
          s.inH = S.inH ∧ s.extra.get? "redshift" = some r.2 := by
  obtain ⟨d', e1, e2, -⟩ := initLoop S S.snaps hF.distinct hF.groups []
  refine ⟨{ S with handlers := some d' }, ?_, rfl, rfl, rfl, ?_⟩
  · simp only [initializeAll, hh, Option.isSome_none, Bool.false_and, Bool.false_eq_true, if_false, e1]
  · intro r hr g n hg hwf
    obtain ⟨s, c1, c2⟩ := e2 r hr g hg
    obtain ⟨s0, d1, d2, d3, -, d5, -, d7, -⟩ := snapInit_ok g n hwf r.2 S.h S.boxH S.inH
    have hex : s.extra.get? "redshift" = some r.2 := by
      unfold snapInit at c1
      rcases hi : init g S.h S.inH with e | s1
      · rw [hi] at c1; simp at c1
      · rw [hi] at c1
        simp only [Except.ok.injEq] at c1
        subst c1
        simp
    rw [c1] at d1; cases d1
    refine ⟨s, ?_, d2, d3, d7, d5, hex⟩
    simp only [getSnap, extractMeta, find_snap S.snaps hF.distinct r hr, hg, c2]
    rw [← d2]

/-- Initialising twice is refused, unless asked for, and changes nothing. -/
theorem C54_twice (S : Sim K) (hh : S.handlers.isSome) :
    initializeAll S false = (S, .error .valueError) := by
  simp [initializeAll, hh]

/-! ## C77: properties that came with the simulation -/

variable [LE K] [DecidableLE K]

/-- C77, partial: if the first snapshot has a property of that name that is not user-defined, no call
of `make_property` that writes to the file changes anything in the file, in
any snapshot, with or without `overwrite`.  Missing: properties that the first snapshot does
not have (`C77_full_false`). -/
theorem C77_make_partial (S S' : Sim K) (hF : Formatted S.snaps S.disk) (hh : S.handlers = none)
    (m : MultiProp K) (o : MakeOpts K) (hnd : (o.rename.getD m.names).Nodup)
    (hmc : "mass_cuts" ∉ o.rename.getD m.names) (res : Except Err Unit)
    (hm : makeProperty S m o true = (S', res)) (r0 : ℕ × K) (rs : List (ℕ × K))
    (h0 : S.snaps = r0 :: rs) (g0 : PyDict Name (Dataset K)) (hg0 : S.disk.get? r0.1 = some g0)
    (p : Name) (hp : p ∈ o.rename.getD m.names) (d : Dataset K) (hd : g0.get? p = some d)
    (hu : d.userdefined = false) :
    res ≠ .ok () ∧ ∀ i, S'.disk.get? i = S.disk.get? i := by
  have hm' := hm
  unfold makeProperty at hm
  simp only [hh, Option.isNone_none, Bool.not_true, Bool.and_false, Bool.false_eq_true, if_false]
    at hm
  obtain ⟨-, a6, a7⟩ := loop_spec _ _ (by rw [loopOver_snd]; exact hF.distinct) _ _ _ hm
  have hl : loopOver S.snaps = (true, r0.1) :: rs.map (fun r => (false, r.1)) := by rw [h0]; rfl
  have hr0 : r0 ∈ S.snaps := by rw [h0]; simp
  have hnot : ¬ Done (makeSnap m o true) S S' (true, r0.1) := by
    rintro ⟨s, s', c1, c2, -⟩
    simp only at c1 c2
    rw [getSnap_fresh S hF.distinct hh r0 hr0 g0 hg0] at c1
    obtain ⟨g, n, hg, hwf⟩ := hF.groups r0 hr0
    rw [hg0] at hg; cases hg
    obtain ⟨s0, d1, d2, -⟩ := snapInit_ok g0 n hwf r0.2 S.h S.boxH false
    rw [c1] at d1; cases d1
    have hI := reachable_inv (snapInit_reachable g0 n hwf r0.2 S.h S.boxH false s c1)
    obtain ⟨-, e2, -⟩ := makeSnap_ok s s' hI m o true hnd c2
    have := e2 rfl p hp d (by rw [d2]; exact hd)
    rw [hu] at this; simp at this
  obtain ⟨k, -, hk2, hk3, hk4⟩ := C53_prefix S S' hF hh m o hnd hmc res hm'
  have hpre : res ≠ .ok () ∧ S'.disk.get? r0.1 = S.disk.get? r0.1 ∧
      ∀ r ∈ rs, S'.disk.get? r.1 = S.disk.get? r.1 := by
    rcases a7 with ⟨-, a7⟩ | ⟨e, pre, x, post, rfl, hx, b1, b2, b3⟩
    · exact absurd (a7 _ (by rw [hl]; simp)) hnot
    · cases pre with
      | cons y pre =>
        rw [hl] at hx
        simp only [List.cons_append, List.cons.injEq] at hx
        exact absurd (hx.1 ▸ b1 y (by simp)) hnot
      | nil =>
        rw [hl] at hx
        simp only [List.nil_append, List.cons.injEq] at hx
        obtain ⟨rfl, rfl⟩ := hx
        refine ⟨by simp, ?_, ?_⟩
        · rcases b2 with ⟨-, b2⟩ | ⟨s, s', c1, c2, c3, -⟩
          · exact b2.2
          · simp only at c1 c2 c3
            rw [getSnap_fresh S hF.distinct hh r0 hr0 g0 hg0] at c1
            obtain ⟨g, n, hg, hwf⟩ := hF.groups r0 hr0
            rw [hg0] at hg; cases hg
            obtain ⟨s0, d1, d2, -, -, -, -, -, d8, d9, -, -⟩ :=
              snapInit_ok g0 n hwf r0.2 S.h S.boxH false
            rw [c1] at d1; cases d1
            have hI := reachable_inv (snapInit_reachable g0 n hwf r0.2 S.h S.boxH false s c1)
            obtain ⟨e1, -⟩ := makeSnap_error s s' hI m o true hnd hmc
              (fun p hp => (d8 p).2 ((d9 p).1 hp)) e c2
            rw [c3, e1, d2, hg0]
        · intro r hr
          exact (b3 (false, r.1) (List.mem_map_of_mem (f := fun r : ℕ × K => (false, r.1)) hr)).2
  refine ⟨hpre.1, ?_⟩
  intro i
  by_cases hi : i ∈ S.snaps.map Prod.fst
  · rw [h0] at hi
    simp only [List.map_cons, List.mem_cons] at hi
    rcases hi with rfl | hi
    · exact hpre.2.1
    · obtain ⟨r, hr, rfl⟩ := List.mem_map.1 hi
      exact hpre.2.2 r hr
  · exact hk3 i hi

/-- C77, partial, deleting: likewise a call naming a property the first snapshot has and that is not
user-defined is refused and changes nothing. -/
theorem C77_delete_partial (S S' : Sim K) (hF : Formatted S.snaps S.disk) (hh : S.handlers = none)
    (names : List Name) (res : Except Err Unit) (hm : deleteProperty S names = (S', res))
    (r0 : ℕ × K) (rs : List (ℕ × K)) (h0 : S.snaps = r0 :: rs) (g0 : PyDict Name (Dataset K))
    (hg0 : S.disk.get? r0.1 = some g0) (p : Name) (hp : p ∈ names) (d : Dataset K)
    (hd : g0.get? p = some d) (hu : d.userdefined = false) :
    res = .error .valueError ∧ ∀ i, S'.disk.get? i = S.disk.get? i := by
  have hr0 : r0 ∈ S.snaps := by rw [h0]; simp
  have hl : loopOver S.snaps = (true, r0.1) :: rs.map (fun r => (false, r.1)) := by rw [h0]; rfl
  obtain ⟨g, n, hg, hwf⟩ := hF.groups r0 hr0
  rw [hg0] at hg; cases hg
  obtain ⟨s, d1, d2, -⟩ := snapInit_ok g0 n hwf r0.2 S.h S.boxH false
  have hget := getSnap_fresh S hF.distinct hh r0 hr0 g0 hg0
  rw [d1] at hget
  have hchk : checkDelete g0 names = .error .valueError := by
    clear hm
    induction names with
    | nil => simp at hp
    | cons x xs ih =>
      unfold checkDelete
      by_cases hx : p = x
      · subst hx
        rw [hd]; simp [hu]
      · have hp' : p ∈ xs := by
          rcases List.mem_cons.1 hp with h | h
          · exact absurd h hx
          · exact h
        have := ih hp'
        rcases hgx : g0.get? x with _ | d'
        · exact this
        · simp only
          split
          · rfl
          · exact this
  unfold deleteProperty at hm
  rw [hl] at hm
  have hone : onSnap (deleteSnap names) S (true, r0.1) =
      (putSnap S r0.1 s, .error .valueError) := by
    simp only [onSnap, hget, deleteSnap, d2, hchk, if_true]
  simp only [forEach, hone, Prod.mk.injEq] at hm
  obtain ⟨rfl, rfl⟩ := hm
  refine ⟨rfl, ?_⟩
  intro i
  rw [putSnap_disk]
  split
  · rename_i h; rw [← h, d2, hg0]
  · rfl

/-! ## C78: after a failure -/

theorem init_all (file : PyDict Name (Dataset K)) (h : K) (b : Bool) (s : State K)
    (hs : init file h b = .ok s) (p : Name) :
    p ∈ s.all ↔ (p ≠ "mass_cuts" ∧ (file.get? p).isSome) := by
  unfold init at hs
  dsimp only at hs
  split at hs
  · simp at hs
  · split at hs
    · simp at hs
    · split at hs
      · simp at hs
      · simp only [Except.ok.injEq] at hs
        subst hs
        have := PyDict.mem_keys_iff (file.filter (fun q => decide (q.1 ≠ "mass_cuts"))) p
        unfold PyDict.keys at this
        simp only
        rw [this, get?_props]
        by_cases hp : p = "mass_cuts" <;> simp [hp]

/-- C78: once the first snapshot has the property, for instance because an earlier call failed at a
later snapshot, the call cannot be completed by repeating it: without `overwrite`
it is refused and changes nothing. -/
theorem C78_stuck (S S' : Sim K) (hh : S.handlers = none) (m : MultiProp K) (o : MakeOpts K)
    (hov : o.overwrite = false) (res : Except Err Unit) (r0 : ℕ × K) (rs : List (ℕ × K))
    (h0 : S.snaps = r0 :: rs) (g0 : PyDict Name (Dataset K)) (hg0 : S.disk.get? r0.1 = some g0)
    (p : Name) (hp : p ∈ o.rename.getD m.names) (hpm : p ≠ "mass_cuts") (hd : (g0.get? p).isSome)
    (hm : makeProperty S m o true = (S', res)) :
    res ≠ .ok () ∧ ∀ i, S'.disk.get? i = S.disk.get? i := by
  unfold makeProperty at hm
  simp only [hh, Option.isNone_none, Bool.not_true, Bool.and_false, Bool.false_eq_true, if_false]
    at hm
  have hl : loopOver S.snaps = (true, r0.1) :: rs.map (fun r => (false, r.1)) := by rw [h0]; rfl
  have hget : getSnap S r0.1 = snapInit g0 r0.2 S.h S.boxH false := by
    have hf : S.snaps.find? (fun r => decide (r.1 = r0.1)) = some r0 := by rw [h0]; simp
    simp only [getSnap, extractMeta, hf, hg0, hh]
  rw [hl] at hm
  rcases hsi : snapInit g0 r0.2 S.h S.boxH false with e | s
  · rw [hsi] at hget
    simp only [forEach, onSnap, hget, Prod.mk.injEq] at hm
    obtain ⟨rfl, rfl⟩ := hm
    exact ⟨by simp, fun _ => rfl⟩
  · rw [hsi] at hget
    have hfa : s.file = g0 ∧ p ∈ s.all := by
      unfold snapInit at hsi
      rcases hi : init g0 S.h false with e | s1
      · rw [hi] at hsi; simp at hsi
      · rw [hi] at hsi
        simp only [Except.ok.injEq] at hsi
        subst hsi
        refine ⟨?_, (init_all g0 S.h false s1 hi p).2 ⟨hpm, hd⟩⟩
        simp only [snapSetInH]
        unfold init at hi
        dsimp only at hi
        split at hi
        · simp at hi
        · split at hi
          · simp at hi
          · split at hi
            · simp at hi
            · simp only [Except.ok.injEq] at hi
              subst hi; rfl
    have hbad : ∀ s', makeSnap m o true true s ≠ (s', .ok ()) := by
      intro s' hms
      unfold makeSnap at hms
      rcases h1 : make s m { o with writeDisk := false } with ⟨s1, e | ⟨⟩⟩
      · rw [h1] at hms; simp at hms
      · obtain ⟨ex, vals, -, hc, -⟩ := make_ok s s1 m _ rfl h1
        simp only [hov] at hc
        have key : ∀ (l : List Name) bs, checkNames s false l = .ok bs → p ∈ l → False := by
          intro l
          induction l with
          | nil => intro bs _ h; simp at h
          | cons x l ih =>
            intro bs hc hmem
            unfold checkNames at hc
            by_cases hx : x ∈ s.all
            · rw [if_pos hx] at hc; simp at hc
            · rw [if_neg hx] at hc
              rcases hc' : checkNames s false l with e | bs'
              · rw [hc'] at hc; simp at hc
              · rcases List.mem_cons.1 hmem with rfl | hmem
                · exact hx hfa.2
                · exact ih bs' hc' hmem
        exact key _ _ hc hp
    rcases hr : makeSnap m o true true s with ⟨s', e | ⟨⟩⟩
    · have hfile : s'.file = s.file := by
        unfold makeSnap at hr
        rcases h1 : make s m { o with writeDisk := false } with ⟨s1, e1 | ⟨⟩⟩
        · rw [h1] at hr
          simp only [Prod.mk.injEq] at hr
          obtain ⟨rfl, -⟩ := hr
          have := step_file_same s (.make m { o with writeDisk := false })
            (by simp [Handler.Spec.writesFile])
          simp only [step, h1] at this
          exact this
        · exfalso
          obtain ⟨ex, vals, -, hc, -⟩ := make_ok s s1 m _ rfl h1
          simp only [hov] at hc
          have key : ∀ (l : List Name) bs, checkNames s false l = .ok bs → p ∈ l → False := by
            intro l
            induction l with
            | nil => intro bs _ h; simp at h
            | cons x l ih =>
              intro bs hc hmem
              unfold checkNames at hc
              by_cases hx : x ∈ s.all
              · rw [if_pos hx] at hc; simp at hc
              · rw [if_neg hx] at hc
                rcases hc' : checkNames s false l with e | bs'
                · rw [hc'] at hc; simp at hc
                · rcases List.mem_cons.1 hmem with rfl | hmem
                  · exact hx hfa.2
                  · exact ih bs' hc' hmem
          exact key _ _ hc hp
      have hone : onSnap (makeSnap m o true) S (true, r0.1) = (putSnap S r0.1 s', .error e) := by
        simp only [onSnap, hget, hr]
      simp only [forEach, hone, Prod.mk.injEq] at hm
      obtain ⟨rfl, rfl⟩ := hm
      refine ⟨by simp, ?_⟩
      intro i
      rw [putSnap_disk]
      split
      · rename_i h; rw [← h, hfile, hfa.1, hg0]
      · rfl
    · exact absurd hr (hbad s')

/-! ## C81: deleting -/

/-- C81, one handler: a successful `delete_property` removes exactly the named properties, from the
file and from the handler's list. -/
theorem C81_handler (names : List Name) (s s' : State K) (h : delete s names = (s', .ok ())) :
    (∀ p ∈ names, (s.file.get? p).isSome ∧ s'.file.get? p = none ∧ p ∉ s'.all) ∧
    (∀ q, q ∉ names → s'.file.get? q = s.file.get? q ∧ (q ∈ s'.all ↔ q ∈ s.all)) := by
  unfold delete at h
  induction names generalizing s with
  | nil =>
    simp only [forEach, Prod.mk.injEq, and_true] at h
    subst h; simp
  | cons x xs ih =>
    obtain ⟨s1, h1, h2⟩ := forEach_ok_cons _ _ _ _ _ h
    obtain ⟨i1, i2⟩ := ih s1 h2
    have hx : (s.file.get? x).isSome ∧ (∀ q, s1.file.get? q = if x = q then none else s.file.get? q) ∧
        ∀ q, q ∈ s1.all ↔ (q ∈ s.all ∧ q ≠ x) := by
      unfold deleteOne at h1
      split at h1
      · split at h1
        · simp at h1
        · rename_i d hd
          simp only [Prod.mk.injEq, and_true] at h1
          subst h1
          refine ⟨by simp [hd], ?_, ?_⟩
          · intro q; simp
          · intro q; simp
      · simp at h1
    obtain ⟨x1, x2, x3⟩ := hx
    constructor
    · intro p hp
      by_cases hpx : x = p
      · subst hpx
        refine ⟨x1, ?_, ?_⟩
        · by_cases hxx : x ∈ xs
          · exact (i1 x hxx).2.1
          · rw [(i2 x hxx).1, x2]; simp
        · by_cases hxx : x ∈ xs
          · exact (i1 x hxx).2.2
          · rw [(i2 x hxx).2, x3]; simp
      · have hp' : p ∈ xs := by
          rcases List.mem_cons.1 hp with h | h
          · exact absurd h.symm hpx
          · exact h
        obtain ⟨c1, c2, c3⟩ := i1 p hp'
        rw [x2, if_neg hpx] at c1
        exact ⟨c1, c2, c3⟩
    · intro q hq
      simp only [List.mem_cons, not_or] at hq
      have hne : ¬ x = q := fun e => hq.1 e.symm
      obtain ⟨c1, c2⟩ := i2 q hq.2
      rw [c1, c2, x2, if_neg hne, x3]
      exact ⟨rfl, by simp [hq.1]⟩

/-- C81: a successful `delete_property` on a simulation removes exactly the named properties from
every snapshot, and they were user-defined in the first one. -/
theorem C81_deleted (S S' : Sim K) (hF : Formatted S.snaps S.disk) (hh : S.handlers = none)
    (names : List Name) (hm : deleteProperty S names = (S', .ok ())) :
    (∀ i, i ∉ S.snaps.map Prod.fst → S'.disk.get? i = S.disk.get? i) ∧
    ∀ r ∈ S.snaps, ∀ g, S.disk.get? r.1 = some g →
      ∃ g', S'.disk.get? r.1 = some g' ∧
        (∀ p ∈ names, (g.get? p).isSome ∧ g'.get? p = none) ∧
        (∀ q, q ∉ names → g'.get? q = g.get? q) := by
  obtain ⟨-, a6, a7⟩ := loop_spec _ _ (by rw [loopOver_snd]; exact hF.distinct) _ _ _ hm
  refine ⟨fun i hi => (a6 i (by rw [loopOver_snd]; exact hi)).2, ?_⟩
  intro r hr g hg
  rcases a7 with ⟨-, a7⟩ | ⟨e, pre, x, post, he, -⟩
  · obtain ⟨b, hb⟩ := mem_loopOver S.snaps r hr
    obtain ⟨s, s', c1, c2, c3, -⟩ := a7 _ hb
    simp only at c1 c2 c3
    rw [getSnap_fresh S hF.distinct hh r hr g hg] at c1
    obtain ⟨g', n, hg', hwf⟩ := hF.groups r hr
    rw [hg] at hg'; cases hg'
    obtain ⟨s0, d1, d2, -⟩ := snapInit_ok g n hwf r.2 S.h S.boxH false
    rw [c1] at d1; cases d1
    have hdel : delete s names = (s', .ok ()) := by
      unfold deleteSnap at c2
      split at c2
      · simp at c2
      · exact c2
    obtain ⟨e1, e2⟩ := C81_handler names s s' hdel
    rw [d2] at e1 e2
    exact ⟨s'.file, c3, fun p hp => ⟨(e1 p hp).1, (e1 p hp).2.1⟩, fun q hq => (e2 q hq).1⟩
  · simp at he

/-! ## C82: restricting -/

/-- C82: after a successful `set_property_range` on an initialised simulation the selected objects
of every snapshot are those within the bounds by that snapshot's own values (and, without
reset, selected before); the file is unchanged. -/
theorem C82_restricted (S S' : Sim K) (hnd : (S.snaps.map Prod.fst).Nodup)
    (hr : ∀ r ∈ S.snaps, ∀ s, getSnap S r.1 = .ok s → Reachable s)
    (p : Name) (hp : p ≠ "mass_cuts") (lo hi : Option K) (reset : Bool) (b : Option Bool)
    (hm : setPropertyRange S (some p) lo hi reset b = (S', .ok ())) :
    S.handlers.isSome ∧ (∀ i, S'.disk.get? i = S.disk.get? i) ∧
    ∀ r ∈ S.snaps, ∃ s s' full, getSnap S r.1 = .ok s ∧ getSnap S' r.1 = .ok s' ∧
      returnProperty s p true (some (b.getD S.inH)) = .ok (some full) ∧
      s'.nActive = s'.active.length ∧
      ∀ i, i ∈ s'.active ↔ i < s.nAll ∧ (reset = true ∨ i ∈ s.active) ∧
        ∃ v, full[i]? = some v ∧ Inside { prop := p, lo := lo, hi := hi, inH := b.getD S.inH } v := by
  unfold setPropertyRange at hm
  rcases hh : S.handlers with _ | d
  · rw [hh] at hm; simp at hm
  · rw [hh] at hm
    simp only [Option.isNone_some, Bool.false_eq_true, if_false] at hm
    obtain ⟨⟨-, -, -, -, a5⟩, a6, a7⟩ := loop_spec _ _ (by rw [loopOver_snd]; exact hnd) _ _ _ hm
    rcases a7 with ⟨-, a7⟩ | ⟨e, pre, x, post, he, -⟩
    · have hdisk : ∀ r ∈ S.snaps, S'.disk.get? r.1 = S.disk.get? r.1 := by
        intro r hrm
        obtain ⟨c, hc⟩ := mem_loopOver S.snaps r hrm
        obtain ⟨s, s', c1, c2, c3, -⟩ := a7 _ hc
        simp only at c1 c2 c3
        rw [c3]
        have hf : s'.file = s.file := by
          have := step_file_same s (.range (some p) lo hi reset (some (b.getD S.inH)))
            (by simp [Handler.Spec.writesFile])
          simp only [step] at this
          simp only [rangeSnap] at c2
          rw [c2] at this
          exact this
        rw [hf]
        unfold getSnap at c1
        simp only [extractMeta, find_snap S.snaps hnd r hrm] at c1
        rcases hg : S.disk.get? r.1 with _ | g
        · rw [hg] at c1; simp at c1
        · rw [hg, hh] at c1
          simp only at c1
          rcases hd : d.get? r.1 with _ | s0
          · rw [hd] at c1; simp at c1
          · rw [hd] at c1
            simp only [Except.ok.injEq] at c1
            rw [← c1]
      refine ⟨rfl, ?_, ?_⟩
      · intro i
        by_cases hi : i ∈ S.snaps.map Prod.fst
        · obtain ⟨r, hrm, rfl⟩ := List.mem_map.1 hi
          exact hdisk r hrm
        · exact (a6 i (by rw [loopOver_snd]; exact hi)).2
      · intro r hrm
        obtain ⟨c, hc⟩ := mem_loopOver S.snaps r hrm
        obtain ⟨s, s', c1, c2, -, c4⟩ := a7 _ hc
        simp only at c1 c2 c4
        have hre := hr r hrm s c1
        simp only [rangeSnap] at c2
        have hfull : ∃ full, returnProperty s p true (some (b.getD S.inH)) = .ok (some full) := by
          unfold setRange at c2
          simp only [Option.getD_some] at c2
          split at c2
          · simp at c2
          · simp at c2
          · exact ⟨_, by assumption⟩
        obtain ⟨full, hfull⟩ := hfull
        obtain ⟨-, e2, -, e4⟩ := C03_restrict_step s hre p lo hi reset (some (b.getD S.inH)) hp full hfull
        rw [c2] at e2 e4
        exact ⟨s, s', full, c1, c4 (by rw [a5, hh]; rfl), hfull, e2, e4⟩
    · simp at he

/-- C82: without initialised snapshots the call is refused. -/
theorem C82_refused (S : Sim K) (hh : S.handlers = none) (p : Option Name) (lo hi : Option K)
    (reset : Bool) (b : Option Bool) :
    setPropertyRange S p lo hi reset b = (S, .error .valueError) := by
  simp [setPropertyRange, hh]

/-! ## C80: statistics -/

theorem statLoop_ok {α : Type} (S : Sim K) (f : PyDict Name (Arg K) → Except Err α)
    (kwargs : List Name) (remap : PyDict Name Name) (other : PyDict Name (Arg K))
    (useAll giveH : Bool) (is : List ℤ) (out : List (α × K))
    (h : statLoop S f kwargs remap other useAll giveH is = .ok out) :
    out.length = is.length ∧ ∀ (k : ℕ) (i : ℤ), is[k]? = some i →
      ∃ r s v, rowAt S.snaps i = .ok r ∧ getSnap S r.1 = .ok s ∧
        evalStat s f kwargs remap other useAll (some giveH) = .ok v ∧ out[k]? = some (v, r.2) := by
  induction is generalizing out with
  | nil => simp only [statLoop, Except.ok.injEq] at h; subst h; simp
  | cons i is ih =>
    unfold statLoop at h
    rcases h1 : rowAt S.snaps i with e | r
    · rw [h1] at h; simp at h
    · rw [h1] at h
      simp only at h
      rcases h2 : getSnap S r.1 with e | s
      · rw [h2] at h; simp at h
      · rw [h2] at h
        simp only at h
        rcases h3 : evalStat s f kwargs remap other useAll (some giveH) with e | v
        · rw [h3] at h; simp at h
        · rw [h3] at h
          simp only at h
          rcases h4 : statLoop S f kwargs remap other useAll giveH is with e | out'
          · rw [h4] at h; simp at h
          · rw [h4] at h
            simp only [Except.ok.injEq] at h
            subst h
            obtain ⟨i1, i2⟩ := ih out' h4
            refine ⟨by simp [i1], ?_⟩
            intro k j hk
            cases k with
            | zero =>
              simp only [List.getElem?_cons_zero, Option.some.injEq] at hk
              subst hk
              exact ⟨r, s, v, h1, h2, h3, rfl⟩
            | succ k =>
              simp only [List.getElem?_cons_succ] at hk ⊢
              exact i2 k j hk

/-- C80, all snapshots: the values are those of each snapshot's own handler and the redshifts those
of the same snapshots, both in the order of the file. -/
theorem C80_all_snapshots {α : Type} (S : Sim K) (f : PyDict Name (Arg K) → Except Err α)
    (kwargs : List Name) (remap : PyDict Name Name) (other : PyDict Name (Arg K))
    (giveH : Option Bool) (useAll : Bool) (vs : List α) (zs : List K)
    (h : snapStat S f kwargs remap other giveH useAll none = .ok (vs, zs)) :
    zs = S.snaps.map Prod.snd ∧ vs.length = S.snaps.length ∧
    ∀ (k : ℕ) (r : ℕ × K), S.snaps[k]? = some r → ∃ s v, getSnap S r.1 = .ok s ∧
      evalStat s f kwargs remap other useAll (some (giveH.getD S.inH)) = .ok v ∧
      vs[k]? = some v := by
  unfold snapStat at h
  simp only [Option.getD_none] at h
  rcases h1 : statLoop S f kwargs remap other useAll (giveH.getD S.inH)
    ((List.range S.snaps.length).map Int.ofNat) with e | l
  · rw [h1] at h; simp at h
  · rw [h1] at h
    simp only [Except.ok.injEq, Prod.mk.injEq] at h
    obtain ⟨rfl, rfl⟩ := h
    obtain ⟨a1, a2⟩ := statLoop_ok S f kwargs remap other useAll _ _ l h1
    simp only [List.length_map, List.length_range] at a1
    have key : ∀ (k : ℕ) (r : ℕ × K), S.snaps[k]? = some r → ∃ s v, getSnap S r.1 = .ok s ∧
        evalStat s f kwargs remap other useAll (some (giveH.getD S.inH)) = .ok v ∧
        l[k]? = some (v, r.2) := by
      intro k r hk
      have hkl : k < S.snaps.length := by
        by_contra hc; rw [List.getElem?_eq_none (by omega)] at hk; simp at hk
      obtain ⟨r', s, v, b1, b2, b3, b4⟩ := a2 k (Int.ofNat k) (by simp [hkl])
      have : rowAt S.snaps (Int.ofNat k) = .ok r := by
        have h0 : ¬ ((k : ℤ) < 0) := by omega
        simp only [rowAt, Int.ofNat_eq_natCast, if_neg h0, Int.toNat_natCast, hk]
      rw [this] at b1; cases b1
      exact ⟨s, v, b2, b3, b4⟩
    refine ⟨?_, by simp [a1], ?_⟩
    · apply List.ext_getElem?
      intro k
      simp only [List.getElem?_map]
      rcases hk : S.snaps[k]? with _ | r
      · have : S.snaps.length ≤ k := by simpa using hk
        rw [List.getElem?_eq_none (by omega)]; rfl
      · obtain ⟨s, v, -, -, b4⟩ := key k r hk
        rw [b4]; rfl
    · intro k r hk
      obtain ⟨s, v, b2, b3, b4⟩ := key k r hk
      exact ⟨s, v, b2, b3, by simp [b4]⟩

/-- C80, partial: a list of snapshots.  If the snapshots are numbered 0, 1, 2, ... in the order of
the file, asking for a list of snapshot numbers gives the values of these snapshots.  Missing:
any other numbering (`C80_full_false`). -/
theorem C80_listed_partial {α : Type} (S : Sim K) (f : PyDict Name (Arg K) → Except Err α)
    (kwargs : List Name) (remap : PyDict Name Name) (other : PyDict Name (Arg K))
    (giveH : Option Bool) (useAll : Bool) (ns : List ℕ) (vs : List α) (zs : List K)
    (hnum : ∀ (k : ℕ) (r : ℕ × K), S.snaps[k]? = some r → r.1 = k)
    (h : snapStat S f kwargs remap other giveH useAll (some (ns.map Int.ofNat)) = .ok (vs, zs)) :
    vs.length = ns.length ∧ zs.length = ns.length ∧
    ∀ (k n : ℕ), ns[k]? = some n → ∃ z s v, (n, z) ∈ S.snaps ∧ getSnap S n = .ok s ∧
      evalStat s f kwargs remap other useAll (some (giveH.getD S.inH)) = .ok v ∧
      vs[k]? = some v ∧ zs[k]? = some z := by
  unfold snapStat at h
  simp only [Option.getD_some] at h
  rcases h1 : statLoop S f kwargs remap other useAll (giveH.getD S.inH)
    (ns.map Int.ofNat) with e | l
  · rw [h1] at h; simp at h
  · rw [h1] at h
    simp only [Except.ok.injEq, Prod.mk.injEq] at h
    obtain ⟨rfl, rfl⟩ := h
    obtain ⟨a1, a2⟩ := statLoop_ok S f kwargs remap other useAll _ _ l h1
    simp only [List.length_map] at a1
    refine ⟨by simp [a1], by simp [a1], ?_⟩
    intro k n hk
    obtain ⟨r, s, v, b1, b2, b3, b4⟩ := a2 k (Int.ofNat n) (by simp [hk])
    have hr : S.snaps[n]? = some r := by
      unfold rowAt at b1
      simp only [Int.ofNat_eq_natCast, Int.toNat_natCast] at b1
      have h0 : ¬ ((n : ℤ) < 0) := by omega
      simp only [if_neg h0, Int.toNat_natCast] at b1
      split at b1
      · simp at b1
      · rename_i x hx
        simp only [Except.ok.injEq] at b1
        subst b1; exact hx
    have hn := hnum n r hr
    refine ⟨r.2, s, v, ?_, by rw [← hn]; exact b2, b3, by simp [b4], by simp [b4]⟩
    have : (n, r.2) = r := by rw [← hn]
    rw [this]
    exact List.mem_of_getElem? hr

end Verif.SimAll
