import Verif.Props.SimAllUnits

set_option linter.unusedSectionVars false

/-!
# C53, C54, C77-C82: concrete cases and counterexamples
-/

namespace Verif.SimAll
open Verif.Handler Verif.SimAll.Spec
open Verif.Handler.Spec (stored seen RowWise selection Reachable WF Inside)

/-- A second snapshot with two objects. -/
def smallFile : PyDict Name (Dataset ℚ) :=
  [("mass", ⟨[some 6, some 5], some "Msun/h", some (-1), false⟩)]

/-- The same, with a property `mass2` that came with the simulation. -/
def ownFile : PyDict Name (Dataset ℚ) :=
  [("mass", ⟨[some 6, some 5], some "Msun/h", some (-1), false⟩),
   ("mass2", ⟨[some 1, some 1], some "Msun/h", some (-1), false⟩)]

theorem smallFile_wf : WF smallFile 2 where
  nodup := by decide
  mass := ⟨_, rfl, rfl⟩
  lengths := by
    intro p d hd _
    simp only [smallFile, PyDict.get?_cons, PyDict.get?_nil] at hd
    split at hd
    · cases hd; rfl
    · simp at hd
  units := by
    intro p d hd _
    simp only [smallFile, List.mem_cons, Prod.mk.injEq, List.not_mem_nil, or_false] at hd
    obtain ⟨-, rfl⟩ := hd; rfl
  hdep := by
    intro p d hd _
    simp only [smallFile, List.mem_cons, Prod.mk.injEq, List.not_mem_nil, or_false] at hd
    obtain ⟨-, rfl⟩ := hd; rfl

theorem ownFile_wf : WF ownFile 2 where
  nodup := by decide
  mass := ⟨_, rfl, rfl⟩
  lengths := by
    intro p d hd _
    simp only [ownFile, PyDict.get?_cons, PyDict.get?_nil] at hd
    split at hd
    · cases hd; rfl
    · split at hd
      · cases hd; rfl
      · simp at hd
  units := by
    intro p d hd _
    simp only [ownFile, List.mem_cons, Prod.mk.injEq, List.not_mem_nil, or_false] at hd
    rcases hd with ⟨-, rfl⟩ | ⟨-, rfl⟩ <;> rfl
  hdep := by
    intro p d hd _
    simp only [ownFile, List.mem_cons, Prod.mk.injEq, List.not_mem_nil, or_false] at hd
    rcases hd with ⟨-, rfl⟩ | ⟨-, rfl⟩ <;> rfl

/-- Snapshots 3 (four objects) and 1 (two objects). -/
def twoSnaps : Sim ℚ := ⟨[(3, 0), (1, 2)], [(3, demoFile), (1, smallFile)], 1/2, 10, true, none⟩

/-- The same, but snapshot 1 already has a property `mass2`. -/
def oddSnaps : Sim ℚ := ⟨[(3, 0), (1, 2)], [(3, demoFile), (1, ownFile)], 1/2, 10, true, none⟩

theorem twoSnaps_formatted : Formatted twoSnaps.snaps twoSnaps.disk where
  distinct := by decide
  groups := by
    intro r hr
    simp only [twoSnaps, List.mem_cons, List.not_mem_nil, or_false] at hr
    rcases hr with rfl | rfl
    · exact ⟨demoFile, 4, rfl, demoFile_wf⟩
    · exact ⟨smallFile, 2, rfl, smallFile_wf⟩

theorem oddSnaps_formatted : Formatted oddSnaps.snaps oddSnaps.disk where
  distinct := by decide
  groups := by
    intro r hr
    simp only [oddSnaps, List.mem_cons, List.not_mem_nil, or_false] at hr
    rcases hr with rfl | rfl
    · exact ⟨demoFile, 4, rfl, demoFile_wf⟩
    · exact ⟨ownFile, 2, rfl, ownFile_wf⟩

theorem twoSnaps_open : openSim twoSnaps.snaps twoSnaps.disk (1/2) 10 false true = .ok twoSnaps := rfl

/-- The values of a property in the file. -/
def onDisk (S : Sim ℚ) (i : ℕ) (p : Name) : Option (List (V ℚ)) :=
  (S.disk.get? i).bind (fun g => (g.get? p).map (·.vals))

/-- Something read off a snapshot's handler. -/
def look {β : Type} (S : Sim ℚ) (i : ℕ) (f : State ℚ → β) : Option β :=
  match getSnap S i with
  | .ok s => some (f s)
  | .error _ => none

/-- Concrete case of C53: the masses are doubled in both snapshots, each from its own values. -/
example : (makeProperty twoSnaps doubleMass plainOpts true).2 = .ok () ∧
    onDisk (makeProperty twoSnaps doubleMass plainOpts true).1 3 "mass2"
      = some [some 4, some 3, some 2, some 1] ∧
    onDisk (makeProperty twoSnaps doubleMass plainOpts true).1 1 "mass2" = some [some 6, some 5] ∧
    ((makeProperty twoSnaps doubleMass plainOpts true).1.disk.map (·.1)) = [3, 1] := by
  decide +kernel

theorem doubleMass_rowwise : RowWise doubleMass (fun _ row => (row.head?.getD none).map (2 * ·)) := by
  intro args cols n h
  obtain ⟨h1, h2⟩ := h "mass" (by simp [doubleMass])
  refine ⟨_, by simp only [doubleMass, h1]; rfl, rfl, ?_⟩
  intro k arr hk
  cases k with
  | zero =>
    simp only [List.getElem?_cons_zero, Option.some.injEq] at hk
    subst hk
    refine ⟨rfl, by simpa using h2, ?_⟩
    intro j hj
    have : j < (cols "mass").length := by omega
    simp [doubleMass, this]
  | succ k => simp at hk

/-- The hypotheses of `C53_rowwise` hold for it. -/
example : ∃ S', makeProperty twoSnaps doubleMass plainOpts true = (S', .ok ()) := by
  obtain ⟨S', h, -⟩ := C53_rowwise twoSnaps twoSnaps_formatted rfl doubleMass _ doubleMass_rowwise
    plainOpts rfl rfl (by decide) (by decide) _ rfl (by decide) (by decide) (fun h => Bool.noConfusion h.1)
    (by
      intro r hr g hg name hn
      left
      simp only [twoSnaps, List.mem_cons, List.not_mem_nil, or_false] at hr
      simp only [plainOpts, doubleMass, Option.getD_none, List.mem_cons, List.not_mem_nil,
        or_false] at hn
      subst hn
      rcases hr with rfl | rfl
      · have : g = demoFile := by
          have := hg; simp [twoSnaps, PyDict.get?_cons] at this; exact this.symm
        subst this; decide
      · have : g = smallFile := by
          have := hg; simp [twoSnaps, PyDict.get?_cons] at this; exact this.symm
        subst this; decide)
    (by
      intro r hr g hg kw hk
      simp only [twoSnaps, List.mem_cons, List.not_mem_nil, or_false] at hr
      simp only [doubleMass, List.mem_cons, List.not_mem_nil, or_false] at hk
      subst hk
      rcases hr with rfl | rfl
      · have : g = demoFile := by
          have := hg; simp [twoSnaps, PyDict.get?_cons] at this; exact this.symm
        subst this; decide
      · have : g = smallFile := by
          have := hg; simp [twoSnaps, PyDict.get?_cons] at this; exact this.symm
        subst this; decide)
  exact ⟨S', h⟩

/-! ## C54 -/

theorem C54_full_false : ¬ C54_full := by
  intro H
  obtain ⟨S, hS⟩ := H twoSnaps.snaps twoSnaps.disk (1/2) 10 true (by decide) twoSnaps_formatted
  exact C54_never _ _ _ _ _ S hS

/-- `twoSnaps`, initialised. -/
def twoInit : Sim ℚ := (initializeAll twoSnaps false).1

example : (initializeAll twoSnaps false).2 = .ok () ∧ twoInit.handlers.isSome ∧
    look twoInit 1 (fun s => (s.nAll, s.inH)) = some (2, true) := by
  decide +kernel

/-! ## C77 -/

/-- C77 in full: whatever is made or deleted, in every snapshot, properties that are not user-defined
stay as they are in the file. -/
def C77_full : Prop :=
  ∀ (S : Sim ℚ), Formatted S.snaps S.disk → S.handlers = none →
    ∀ (m : MultiProp ℚ) (o : MakeOpts ℚ) (r : ℕ × ℚ), r ∈ S.snaps → ∀ g p d,
      S.disk.get? r.1 = some g → g.get? p = some d → d.userdefined = false →
      (onDisk (makeProperty S m o true).1 r.1 p = some d.vals) ∧
      (onDisk (deleteProperty S [p]).1 r.1 p = some d.vals)

/-- The second snapshot's own property `mass2` is overwritten, because only the first one is
checked. -/
theorem C77_full_false : ¬ C77_full := by
  intro H
  have := (H oddSnaps oddSnaps_formatted rfl doubleMass { plainOpts with overwrite := true } (1, 2)
    (by decide) ownFile "mass2" _ rfl rfl rfl).1
  revert this
  decide +kernel

/-- Concrete case of `C77_make_partial`: overwriting `mass` is refused. -/
example : (makeProperty twoSnaps doubleMass { plainOpts with overwrite := true, rename := some ["mass"] }
    true).2 = .error .valueError := by decide +kernel

/-- With initialised snapshots the refused call has nevertheless replaced the property in memory:
the first snapshot now reports other masses than the file. -/
theorem C77_memory_replaced :
    ∃ (m : MultiProp ℚ) (o : MakeOpts ℚ), (makeProperty twoInit m o true).2 = .error .valueError ∧
      look (makeProperty twoInit m o true).1 3 (fun s => returnProperty s "mass" true (some true))
        = some (.ok (some [some 8, some 6, some 4, some 2])) ∧
      onDisk (makeProperty twoInit m o true).1 3 "mass" = some [some 4, some 3, some 2, some 1] :=
  ⟨{ doubleMass with returnH := true },
   { plainOpts with overwrite := true, rename := some ["mass"] }, by decide +kernel⟩

/-- Concrete case of `C77_delete_partial`. -/
example : (deleteProperty twoSnaps ["mass"]).2 = .error .valueError := by decide +kernel

/-! ## C78 -/

/-- C78 in full: a call that fails leaves the file as it was. -/
def C78_full : Prop :=
  ∀ (S S' : Sim ℚ), Formatted S.snaps S.disk → S.handlers = none →
    ∀ (m : MultiProp ℚ) (o : MakeOpts ℚ) (e : Err), makeProperty S m o true = (S', .error e) →
      ∀ r ∈ S.snaps, ∀ p, onDisk S' r.1 p = onDisk S r.1 p

theorem C78_full_false : ¬ C78_full := by
  intro H
  have := H oddSnaps _ oddSnaps_formatted rfl doubleMass plainOpts .valueError
    (Prod.ext rfl (by decide +kernel)) (3, 0) (by decide) "mass2"
  revert this
  decide +kernel

/-- After that failure the call is refused (`C78_stuck`). -/
example : (makeProperty (makeProperty oddSnaps doubleMass plainOpts true).1 doubleMass plainOpts
    true).2 = .error .valueError := by decide +kernel

/-! ## C79 -/

/-- C79 in full: a snapshot obtained from a simulation uses the simulation's units. -/
def C79_full : Prop :=
  ∀ (snaps : List (ℕ × ℚ)) (disk : PyDict ℕ (PyDict Name (Dataset ℚ))) (h box : ℚ) (inH : Bool)
    (S : Sim ℚ), Formatted snaps disk → openSim snaps disk h box false inH = .ok S →
    ∀ i s, getSnap S i = .ok s → s.inH = inH

theorem C79_full_false : ¬ C79_full := by
  intro H
  have hs : ∃ s, getSnap twoSnaps 3 = .ok s := ⟨_, rfl⟩
  obtain ⟨s, hs⟩ := hs
  have h1 := H _ _ _ _ true twoSnaps twoSnaps_formatted twoSnaps_open 3 s hs
  rw [C79_not_initialised twoSnaps rfl 3 s hs] at h1
  simp at h1

/-- Concrete case of `C79_initialised_partial`. -/
example : look (([.setInH false, .initAll false, .make doubleMass plainOpts false,
      .setInH true] : List (SimOp ℚ)).foldl simStep twoSnaps) 1
      (fun s => (s.inH, s.extra.get? "box_edge")) = some (true, some 10) := by decide +kernel

/-! ## C80 -/

/-- The number of objects. -/
def count (args : PyDict Name (Arg ℚ)) : Except Err ℕ :=
  match args.get? "mass" with
  | some (.arr vs) => .ok vs.length
  | _ => .error .keyError

example : snapStat twoSnaps count ["mass"] [] [] none true none = .ok ([4, 2], [0, 2]) := by
  decide +kernel

/-- C80 in full: the values and redshifts returned for a list of snapshots are those of the
snapshots with these numbers. -/
def C80_full : Prop :=
  ∀ (S : Sim ℚ), Formatted S.snaps S.disk → S.handlers = none → ∀ (ns : List ℕ),
    (∀ n ∈ ns, n ∈ S.snaps.map Prod.fst) →
    ∃ vs zs, snapStat S count ["mass"] [] [] none true (some (ns.map Int.ofNat)) = .ok (vs, zs) ∧
      ∀ (k n : ℕ), ns[k]? = some n → ∃ z, (n, z) ∈ S.snaps ∧ zs[k]? = some z

/-- Snapshot 3 of two is out of range. -/
theorem C80_full_false : ¬ C80_full := by
  intro H
  obtain ⟨vs, zs, h, -⟩ := H twoSnaps twoSnaps_formatted rfl [3] (by decide)
  have hne : snapStat twoSnaps count ["mass"] [] [] none true (some ([3].map Int.ofNat))
      = .error .indexError := by decide +kernel
  rw [hne] at h
  simp at h

/-- Worse: with snapshots numbered 1 and 0, asking for snapshot 0 returns snapshot 1. -/
def reversed : Sim ℚ := ⟨[(1, 0), (0, 2)], [(1, demoFile), (0, smallFile)], 1/2, 10, true, none⟩

theorem C80_other_snapshot :
    snapStat reversed count ["mass"] [] [] none true (some [0]) = .ok ([4], [0]) ∧
    onDisk reversed 0 "mass" = some [some 6, some 5] := by decide +kernel

/-- Concrete case of `C80_listed_partial`. -/
def inOrder : Sim ℚ := ⟨[(0, 0), (1, 2)], [(0, demoFile), (1, smallFile)], 1/2, 10, true, none⟩

example : snapStat inOrder count ["mass"] [] [] none true (some [1, 0]) = .ok ([2, 4], [2, 0]) ∧
    ∀ (k : ℕ) (r : ℕ × ℚ), inOrder.snaps[k]? = some r → r.1 = k := by
  refine ⟨by decide +kernel, ?_⟩
  intro k r h
  match k with
  | 0 => simp [inOrder] at h; subst h; rfl
  | 1 => simp [inOrder] at h; subst h; rfl
  | k + 2 => simp [inOrder] at h

/-! ## C81, C82 -/

/-- Concrete case of C81: make, then delete. -/
example : (deleteProperty (makeProperty twoSnaps doubleMass plainOpts true).1 ["mass2"]).2 = .ok () ∧
    onDisk (deleteProperty (makeProperty twoSnaps doubleMass plainOpts true).1 ["mass2"]).1 1 "mass2"
      = none := by decide +kernel

/-- Concrete case of C82. -/
example : (setPropertyRange twoInit (some "mass") (some 3) (some 5) true none).2 = .ok () ∧
    look (setPropertyRange twoInit (some "mass") (some 3) (some 5) true none).1 3 (·.active)
      = some [0, 1] ∧
    look (setPropertyRange twoInit (some "mass") (some 3) (some 5) true none).1 1 (·.active)
      = some [1] := by decide +kernel

/-- The handlers of `twoInit` satisfy the hypothesis of C82. -/
example : ∀ r ∈ twoInit.snaps, ∀ s, getSnap twoInit r.1 = .ok s → Reachable s := by
  intro r hr s hs
  have hr' : r ∈ twoSnaps.snaps := hr
  simp only [twoSnaps, List.mem_cons, List.not_mem_nil, or_false] at hr'
  rcases hr' with rfl | rfl
  · exact snapInit_reachable demoFile 4 demoFile_wf 0 (1/2) 10 true s hs
  · exact snapInit_reachable smallFile 2 smallFile_wf 2 (1/2) 10 true s hs

end Verif.SimAll
