import Verif.Props.HandlerMake

/-!
# C06, C08, C50, C51: what the handler has, and what it does to the file
-/

namespace Verif.Handler
open Spec

variable {K : Type}

/-! ## C06 -/

/-- C06 as stated. -/
def C06_full : Prop :=
  ∀ (s : State ℚ), Reachable s → ∀ (p : Name), p ≠ "mass_cuts" → hasProperty s p = true →
    ∀ u b, ∃ out, returnProperty s p u b = .ok (some out)

/-- C06 fails: make a property, unload it; the handler still reports it but returns nothing. -/
theorem C06_full_false : ¬ C06_full := by
  intro H
  obtain ⟨out, ho⟩ := H (run demo0 [.make doubleMass plainOpts, .unload ["mass2"]])
    (demo0_reachable _) "mass2" (by decide) (by decide +kernel) true none
  have h1 : returnProperty (run demo0 [.make doubleMass plainOpts, .unload ["mass2"]]) "mass2" true none
    = .ok none := by decide +kernel
  rw [h1] at ho
  cases ho

/-- Everything listed is in memory or on disk. -/
def Backed (s : State K) : Prop := ∀ p ∈ s.all, p ∈ s.saved ∨ (s.loaded.get? p).isSome

theorem loadOne_backed (s : State K) (q : Name) (H : Backed s) : Backed (loadOne s q).1 := by
  unfold loadOne
  split
  · split
    · exact H
    · intro p hp
      refine (H p hp).imp id (fun h => ?_)
      simp only [PyDict.get?_set]; split
      · rfl
      · exact h
  · exact H

theorem storeOne_backed (u : PyDict Name String) (hd : Option (PyDict Name ℤ)) (is : List ℕ)
    (s : State K) (it : Item K) (H : Backed s) : Backed (storeOne u hd is s it).1 := by
  have hl : ∀ vals : List (V K), ∀ p ∈ s.all, p ∈ s.saved ∨
      ((s.loaded.set it.newName vals).get? p).isSome := by
    intro vals p hp
    refine (H p hp).imp id (fun h => ?_)
    simp only [PyDict.get?_set]; split
    · rfl
    · exact h
  unfold storeOne
  split
  · exact H
  · split
    · exact H
    · rename_i vals _
      dsimp only
      split
      · exact hl vals
      · split
        · exact hl vals
        · split
          · exact hl vals
          · split
            · exact hl vals
            · intro p hp
              simp only [List.mem_append, List.mem_singleton] at hp
              rcases hp with hp | rfl
              · exact hl vals p hp
              · right; simp

theorem writeOne_backed (ov : Bool) (s : State K) (q : Name) (H : Backed s) :
    Backed (writeOne ov s q).1 := by
  unfold writeOne
  split
  · exact H
  · split
    · exact H
    · dsimp only
      split
      · exact H
      · split
        · exact H
        · split
          · exact H
          · intro p hp
            refine (H p hp).imp (fun h => ?_) id
            dsimp only; split
            · exact h
            · simp [h]

theorem deleteOne_backed (s : State K) (q : Name) (hI : Inv s) (H : Backed s) :
    Backed (deleteOne s q).1 := by
  unfold deleteOne
  split
  · split
    · exact H
    · intro p hp
      simp only [List.mem_filter, decide_eq_true_eq] at hp
      refine (H p hp.1).imp (fun h => ?_) id
      dsimp only
      rw [PyDict.mem_keys_iff, PyDict.get?_erase]
      have hne : ¬ q = p := fun e => hp.2 e.symm
      simpa [hne] using hI.savedFile p h
  · exact H

theorem writeOne_ok_saved (ov : Bool) (s s' : State K) (q : Name)
    (h : writeOne ov s q = (s', .ok ())) :
    q ∈ s'.saved ∧ (∀ p ∈ s.saved, p ∈ s'.saved) ∧ s'.all = s.all ∧ s'.loaded = s.loaded := by
  unfold writeOne at h
  split at h
  · simp at h
  · split at h
    · simp at h
    · dsimp only at h
      split at h
      · simp at h
      · split at h
        · simp at h
        · split at h
          · simp at h
          · simp only [Prod.mk.injEq, and_true] at h
            subst h
            refine ⟨?_, ?_, rfl, rfl⟩
            · dsimp only; split
              · assumption
              · simp
            · intro p hp
              dsimp only; split
              · exact hp
              · simp [hp]

theorem write_ok_saved (ov : Bool) (ns : List Name) (s s' : State K)
    (h : write s ns ov = (s', .ok ())) :
    (∀ q ∈ ns, q ∈ s'.saved) ∧ (∀ p ∈ s.saved, p ∈ s'.saved) ∧ s'.all = s.all := by
  unfold write at h
  induction ns generalizing s with
  | nil => simp only [forEach, Prod.mk.injEq, and_true] at h; subst h; simp
  | cons n ns ih =>
    obtain ⟨s1, h1, h2⟩ := forEach_ok_cons _ _ _ _ _ h
    obtain ⟨a1, a2, a3, -⟩ := writeOne_ok_saved _ _ _ _ h1
    obtain ⟨b1, b2, b3⟩ := ih s1 h2
    refine ⟨?_, fun p hp => b2 p (a2 p hp), by rw [b3, a3]⟩
    intro q hq
    rcases List.mem_cons.1 hq with rfl | hq
    · exact b2 _ a1
    · exact b1 q hq

theorem unload_backed (s : State K) (ps : List Name) (H : Backed s)
    (hs : ∀ p ∈ ps, p ∈ s.all → p ∈ s.saved) : Backed (unload s ps) := by
  intro p hp
  by_cases hm : p ∈ ps
  · left; exact hs p hm hp
  · refine (H p hp).imp id (fun h => ?_)
    simp only [unload, foldl_erase_get, hm, if_false]
    exact h

theorem make_backed [DivisionRing K] (s : State K) (m : MultiProp K) (o : MakeOpts K)
    (H : Backed s) : Backed (make s m o).1 := by
  unfold make
  dsimp only
  split
  · exact H
  · split
    · exact H
    · split
      · exact H
      · split
        · exact H
        · rename_i _ names hnames _ exist _ _ vals _
          have h1 := forEach_preserves (storeOne m.units m.hdep (inds s o.useAll)) Backed
            (items m.names names exist vals)
            (fun s x _ hs => storeOne_backed _ _ _ s x hs) s H
          split
          · rename_i s1 e hs1; rw [hs1] at h1; exact h1
          · rename_i s1 hs1
            rw [hs1] at h1
            split
            · have h2 : Backed (write s1 names o.overwriteDisk).1 :=
                forEach_preserves _ Backed names (fun s x _ hs => writeOne_backed _ s x hs) s1 h1
              split
              · rename_i s2 e hs2; rw [hs2] at h2; exact h2
              · rename_i s2 hs2
                rw [hs2] at h2
                dsimp only
                split
                · refine unload_backed s2 names h2 ?_
                  intro p hp _
                  exact (write_ok_saved _ _ _ _ hs2).1 p hp
                · exact h2
            · exact h1

theorem run_backed [DivisionRing K] [LE K] [DecidableLE K] (s0 : State K) (hI0 : Inv s0)
    (hB0 : Backed s0) (ops : List (Op K))
    (hun : ∀ (done todo : List (Op K)) (ps : List Name), ops = done ++ .unload ps :: todo →
      ∀ p ∈ ps, p ∈ (run s0 done).all → p ∈ (run s0 done).saved) : Backed (run s0 ops) := by
  induction ops using List.reverseRecOn with
  | nil => exact hB0
  | append_singleton ops op ih =>
    have hb := ih (fun done todo ps e => hun done (todo ++ [op]) ps (by rw [e]; simp))
    have hI : Inv (run s0 ops) := run_inv _ _ hI0
    have hrun : run s0 (ops ++ [op]) = step (run s0 ops) op := by simp [run]
    rw [hrun]
    cases op with
    | load ps => exact forEach_preserves _ _ ps (fun s x _ hs => loadOne_backed s x hs) _ hb
    | unload ps => exact unload_backed _ ps hb (hun ops [] ps rfl)
    | ret q u i => exact hb
    | make m o => exact make_backed _ m o hb
    | write ps ov =>
      exact forEach_preserves _ _ ps (fun s x _ hs => writeOne_backed ov s x hs) _ hb
    | delete ps =>
      exact (forEach_preserves deleteOne (fun s => Inv s ∧ Backed s) ps
        (fun s x _ hs => ⟨deleteOne_inv s x hs.1, deleteOne_backed s x hs.1 hs.2⟩) _ ⟨hI, hb⟩).2
    | range q lo hi r i =>
      obtain ⟨a, c, hac⟩ := setRange_fields (run s0 ops) q lo hi r i
      simp only [step, hac]
      exact hb
    | setInH b => exact hb

/-- C06 for the histories in which only properties that are saved on disk are unloaded: every
property the handler reports can be returned. -/
theorem C06_claimed_returned_partial [DivisionRing K] [LE K] [DecidableLE K]
    (file : PyDict Name (Dataset K)) (n : ℕ) (hwf : WF file n) (h : K) (inH : Bool) (s0 : State K)
    (h0 : init file h inH = .ok s0) (ops : List (Op K))
    (hun : ∀ (done todo : List (Op K)) (ps : List Name), ops = done ++ .unload ps :: todo →
      ∀ p ∈ ps, p ∈ (run s0 done).all → p ∈ (run s0 done).saved)
    (p : Name) (hp : p ≠ "mass_cuts") (hhas : hasProperty (run s0 ops) p = true)
    (u : Bool) (b : Option Bool) :
    ∃ out, returnProperty (run s0 ops) p u b = .ok (some out) ∧
      out.length = (selection (run s0 ops) u).length := by
  have hI0 := inv_init file n hwf h inH s0 h0
  have hI : Inv (run s0 ops) := run_inv _ _ hI0
  have hB : Backed (run s0 ops) := by
    refine run_backed s0 hI0 ?_ ops hun
    obtain ⟨s', hs', -, -, -, -, -, -, -, -, -, -, -, -, has⟩ := init_ok file n hwf h inH
    rw [h0] at hs'; cases hs'
    intro q hq
    left; rw [← has]; exact hq
  have hall : p ∈ (run s0 ops).all := by simpa [hasProperty] using hhas
  obtain ⟨e, he⟩ := Option.isSome_iff_exists.1 (hI.hdepAll p hall)
  have hheld : ∃ arr, held (run s0 ops) p = some arr := by
    unfold held
    cases hl : (run s0 ops).loaded.get? p with
    | some a => exact ⟨a, rfl⟩
    | none =>
      have hs : p ∈ (run s0 ops).saved := by
        rcases hB p hall with h | h
        · exact h
        · rw [hl] at h; simp at h
      obtain ⟨d, hd⟩ := Option.isSome_iff_exists.1 (hI.savedFile p hs)
      exact ⟨d.vals, by simp [hs, hd]⟩
  obtain ⟨arr, ha⟩ := hheld
  obtain ⟨out, o1, o2, -⟩ := returnProperty_ok _ hI p u b hall hp e he arr ha
  exact ⟨out, o1, o2⟩

/-- A history meeting the hypothesis, with a generated property. -/
example : ∀ (s0 : State ℚ), init demoFile (1/2) true = .ok s0 →
    hasProperty (run s0 [.make doubleMass plainOpts, .unload ["mass"]]) "mass2" = true ∧
    ∀ (done todo : List (Op ℚ)) (ps : List Name),
      [Op.make doubleMass plainOpts, .unload ["mass"]] = done ++ .unload ps :: todo →
      ∀ p ∈ ps, p ∈ (run s0 done).all → p ∈ (run s0 done).saved := by
  intro s0 h0
  cases h0
  refine ⟨by decide +kernel, ?_⟩
  intro done todo ps e p hp _
  match done, e with
  | [], e => cases e
  | [_], e =>
    cases e
    simp only [List.mem_singleton] at hp
    subst hp
    decide +kernel
  | [_, _], e => cases e
  | _ :: _ :: _ :: _, e => cases e

/-! ## C08 -/

theorem step_file_same [DivisionRing K] [LE K] [DecidableLE K] (s : State K) (op : Op K)
    (h : ¬ writesFile op) : (step s op).file = s.file := by
  cases op with
  | load ps =>
    exact forEach_preserves loadOne (fun t => t.file = s.file) ps
      (fun t x _ ht => by unfold loadOne; split; split; exact ht; exact ht; exact ht) s rfl
  | unload ps => rfl
  | ret q u i => rfl
  | make m o =>
    have hdisk : o.writeDisk = false := by simpa [writesFile] using h
    simp only [step, make, hdisk, Bool.and_false, Bool.false_and, Bool.false_eq_true, if_false]
    split
    · rfl
    · split
      · rfl
      · split
        · rfl
        · rename_i _ names _ _ exist _ _ vals _
          have hb := forEach_preserves (storeOne m.units m.hdep (inds s o.useAll)) (SameBase s)
            (items m.names names exist vals)
            (fun t x _ ht => ht.trans (storeOne_base _ _ _ t x)) s (SameBase.refl s)
          split
          · rename_i s1 e hs1; rw [hs1] at hb; exact hb.file
          · rename_i s1 hs1; rw [hs1] at hb; exact hb.file
  | write ps ov => exact absurd trivial h
  | delete ps => exact absurd trivial h
  | range q lo hi r i =>
    obtain ⟨a, c, hac⟩ := setRange_fields s q lo hi r i
    simp only [step, hac]
  | setInH b => rfl

/-- C08: any history of loading, unloading, reading, restricting and making properties in memory
leaves the file exactly as it was. -/
theorem C08_no_write_no_change [DivisionRing K] [LE K] [DecidableLE K] (s : State K)
    (ops : List (Op K)) (h : ∀ op ∈ ops, ¬ writesFile op) : (run s ops).file = s.file := by
  unfold run
  induction ops generalizing s with
  | nil => rfl
  | cons op ops ih =>
    rw [List.foldl_cons, ih _ (fun o ho => h o (by simp [ho])), step_file_same s op (h op (by simp))]

theorem writeOne_file (ov : Bool) (s : State K) (p q : Name) (hne : p ≠ q) :
    (writeOne ov s p).1.file.get? q = s.file.get? q := by
  unfold writeOne
  split
  · rfl
  · split
    · rfl
    · dsimp only
      split
      · rfl
      · split
        · simp [hne]
        · split
          · simp [hne]
          · simp [hne]

theorem write_file (ov : Bool) (s : State K) (ps : List Name) (q : Name) (hne : q ∉ ps) :
    (write s ps ov).1.file.get? q = s.file.get? q :=
  forEach_preserves _ (fun t => t.file.get? q = s.file.get? q) ps
    (fun t x hx ht => by rw [writeOne_file ov t x q (fun e => hne (e ▸ hx)), ht]) s rfl

theorem make_file [DivisionRing K] (s : State K) (m : MultiProp K) (o : MakeOpts K) :
    (make s m o).1.file = s.file ∨ ∃ s1, SameBase s s1 ∧
      (make s m o).1.file = (write s1 (o.rename.getD m.names) o.overwriteDisk).1.file := by
  unfold make
  dsimp only
  split
  · left; rfl
  · split
    · left; rfl
    · split
      · left; rfl
      · split
        · left; rfl
        · rename_i _ names hnames _ exist _ _ vals _
          have hb := forEach_preserves (storeOne m.units m.hdep (inds s o.useAll)) (SameBase s)
            (items m.names names exist vals)
            (fun t x _ ht => ht.trans (storeOne_base _ _ _ t x)) s (SameBase.refl s)
          rw [(makeNames_eq m o.rename names hnames).1] at *
          split
          · rename_i s1 e hs1; rw [hs1] at hb; left; exact hb.file
          · rename_i s1 hs1
            rw [hs1] at hb
            split
            · right
              refine ⟨s1, hb, ?_⟩
              split
              · rename_i s2 e hs2; rw [hs2]
              · rename_i s2 hs2
                rw [hs2]
                dsimp only
                split
                · rfl
                · rfl
            · left; exact hb.file

/-- C08: every call, whether it succeeds or fails, changes only the datasets it
names. -/
theorem C08_touches_only_named [DivisionRing K] [LE K] [DecidableLE K] (s : State K) (op : Op K)
    (q : Name) (h : ¬ changes q op) : (step s op).file.get? q = s.file.get? q := by
  cases op with
  | make m o =>
    simp only [step]
    rcases make_file s m o with h1 | ⟨s1, hb, h1⟩
    · rw [h1]
    · rw [h1, write_file _ _ _ _ h, hb.file]
  | write ps ov => exact write_file ov s ps q h
  | delete ps =>
    refine forEach_preserves deleteOne (fun t => t.file.get? q = s.file.get? q) ps
      (fun t x hx ht => ?_) s rfl
    unfold deleteOne
    split
    · split
      · exact ht
      · have hne : ¬ x = q := fun e => h (by subst e; exact hx)
        simp [hne, ht]
    · exact ht
  | load ps => rw [step_file_same s _ (by simp [writesFile])]
  | unload ps => rw [step_file_same s _ (by simp [writesFile])]
  | ret q u i => rw [step_file_same s _ (by simp [writesFile])]
  | range q lo hi r i => rw [step_file_same s _ (by simp [writesFile])]
  | setInH b => rw [step_file_same s _ (by simp [writesFile])]

theorem write_saved_file (s : State K) (ps : List Name) (q : Name) (hq : q ∈ s.saved) :
    (write s ps false).1.file.get? q = s.file.get? q :=
  (forEach_preserves _ (fun t => t.file.get? q = s.file.get? q ∧ q ∈ t.saved) ps
    (fun t x hx ht => by
      by_cases hxq : x = q
      · subst hxq
        unfold writeOne
        split
        · exact ht
        · simp [ht.2, ht.1]
      · refine ⟨by rw [writeOne_file false t x q hxq, ht.1], ?_⟩
        unfold writeOne
        split
        · exact ht.2
        · split
          · exact ht.2
          · dsimp only
            split
            · exact ht.2
            · split
              · exact ht.2
              · split
                · exact ht.2
                · dsimp only; split
                  · exact ht.2
                  · simp [ht.2]) s ⟨rfl, hq⟩).1

/-- C08: a write (or make-and-write) without permission to overwrite never changes a dataset
the handler knows to be in the file, neither values nor attributes, not even when the call fails half
way. -/
theorem C08_no_silent_overwrite_partial [DivisionRing K] [LE K] [DecidableLE K] (s : State K)
    (q : Name) (hq : q ∈ s.saved) :
    (∀ ps, (step s (.write ps false)).file.get? q = s.file.get? q) ∧
    (∀ m o, o.overwriteDisk = false → (step s (.make m o)).file.get? q = s.file.get? q) := by
  refine ⟨fun ps => write_saved_file s ps q hq, ?_⟩
  intro m o ho
  simp only [step]
  rcases make_file s m o with h1 | ⟨s1, hb, h1⟩
  · rw [h1]
  · rw [h1, ho, write_saved_file _ _ _ (by rw [hb.saved]; exact hq), hb.file]

/-- A handler whose file was meanwhile changed through another handler. -/
def Spec.seeing (s : State K) (file : PyDict Name (Dataset K)) : State K := { s with file := file }

/-- C08 as stated: no dataset that exists in the file is changed by a write without
permission; two handlers may have been opened on the file. -/
def C08_full : Prop :=
  ∀ (file : PyDict Name (Dataset ℚ)) (n : ℕ) (h : ℚ) (s0 : State ℚ) (ops ops' : List (Op ℚ))
    (ps : List Name) (q : Name), WF file n → init file h true = .ok s0 →
    (∀ op ∈ ops', ¬ writesFile op) →
    let current := (run s0 ops).file
    let other := seeing (run s0 ops') current
    (current.get? q).isSome → ((write other ps false).1.file.get? q).map Dataset.vals
      = (current.get? q).map Dataset.vals

/-- Makes a constant property. -/
def constProp (x : ℚ) : MultiProp ℚ where
  names := ["c"]
  fn := fun args _ => match args.get? "mass" with
    | some (.arr vs) => .ok [⟨false, vs.map (fun _ => some x)⟩]
    | _ => .error .typeError
  kwargs := ["mass"]
  giveH := true
  returnH := true
  units := [("c", "")]
  hdep := some [("c", 0)]

/-- C08 fails with two handlers on one file: the list of saved properties is read once, when the
handler is opened, so a second handler overwrites silently what the first one
wrote. -/
theorem C08_full_false : ¬ C08_full := by
  intro H
  have h0 : ∃ s0, init demoFile (1/2) true = .ok s0 := ⟨_, rfl⟩
  obtain ⟨s0, h0⟩ := h0
  have := H demoFile 4 (1/2) s0 [.make (constProp 1) plainOpts, .write ["c"] false]
    [.make (constProp 2) plainOpts] ["c"] "c" demoFile_wf h0 (by simp [writesFile, plainOpts])
    (by cases h0; decide +kernel)
  cases h0
  exact absurd this (by decide +kernel)

theorem bcast_range (a : List ℕ) (n : ℕ) (hbd : ∀ i ∈ a, i < n)
    (h : bcastAllEq a (List.range n) = true) : a = List.range n ∨ n = 1 := by
  unfold bcastAllEq at h
  split at h
  · left; simpa using h
  · rename_i hl
    simp only [List.length_range] at hl
    split at h
    · rename_i x
      simp only [List.all_eq_true, List.mem_range, decide_eq_true_eq] at h
      exfalso
      match n, hl with
      | 0, _ => exact absurd (hbd x (by simp)) (by omega)
      | 1, hl => simp at hl
      | n + 2, _ =>
        have h0 := h 0 (by omega)
        have h1 := h 1 (by omega)
        omega
    · rename_i y hy
      right
      have := congrArg List.length hy; simpa using this
    · simp at h

/-- C08 as stated for make-and-write: refused on every restricted selection. -/
def C08_restricted_full : Prop :=
  ∀ (s : State ℚ) (m : MultiProp ℚ) (o : MakeOpts ℚ), Reachable s → o.writeDisk = true →
    o.useAll = false → s.active ≠ List.range s.nAll → (make s m o).2 ≠ .ok ()

/-- C08: make-and-write on a restricted selection is refused and changes nothing, for every
catalogue with at least two objects (or none). -/
theorem C08_restricted_refused_partial [DivisionRing K] [LE K] [DecidableLE K] (s : State K)
    (hr : Reachable s) (m : MultiProp K) (o : MakeOpts K) (hw : o.writeDisk = true) (hu : o.useAll = false)
    (hsel : s.active ≠ List.range s.nAll) (h1 : s.nAll ≠ 1) :
    make s m o = (s, .error .valueError) := by
  have hb : bcastAllEq s.active (List.range s.nAll) = false := by
    by_contra hc
    rcases bcast_range s.active s.nAll (reachable_inv hr).bound (by simpa using hc) with h | h
    · exact hsel h
    · exact h1 h
  unfold make
  simp [inds, hw, hu, hb]

def oneFile : PyDict Name (Dataset ℚ) :=
  [("mass", ⟨[some 4], some "Msun/h", some (-1), false⟩)]

theorem oneFile_wf : WF oneFile 1 where
  nodup := by decide
  mass := ⟨_, rfl, rfl⟩
  lengths := by
    intro p d hd hp
    simp only [oneFile, PyDict.get?_cons, PyDict.get?_nil] at hd
    split at hd
    · cases hd; rfl
    · simp at hd
  units := by
    intro p d hd hp
    simp only [oneFile, List.mem_cons, Prod.mk.injEq, List.not_mem_nil, or_false] at hd
    rcases hd with ⟨-, rfl⟩
    rfl
  hdep := by
    intro p d hd hp
    simp only [oneFile, List.mem_cons, Prod.mk.injEq, List.not_mem_nil, or_false] at hd
    rcases hd with ⟨-, rfl⟩
    rfl

/-- With one object, none active, the comparison broadcasts to an empty array, `np.all` of which
is true: the restricted make-and-write goes through (and writes NaN). -/
theorem C08_restricted_full_false : ¬ C08_restricted_full := by
  intro H
  have h0 : ∃ s0, init oneFile (1/2) true = .ok s0 := ⟨_, rfl⟩
  obtain ⟨s0, h0⟩ := h0
  have := H (run s0 [.range (some "mass") (some 5) none true none]) doubleMass
    { plainOpts with writeDisk := true } ⟨oneFile, 1, 1/2, true, s0, s0.extra, _, oneFile_wf, h0,
      rfl⟩ rfl rfl
    (by cases h0; decide +kernel)
  cases h0
  exact absurd (by decide +kernel) this

/-! ## C50 the file stays readable -/

/-- C50 as stated. -/
def C50_full : Prop :=
  ∀ (file : PyDict Name (Dataset ℚ)) (n : ℕ) (h : ℚ) (s0 : State ℚ) (ops : List (Op ℚ)),
    WF file n → init file h true = .ok s0 → (∀ op ∈ ops, ¬ (∃ ps, op = .delete ps ∧ "mass" ∈ ps)) →
    ∃ s, init (run s0 ops).file h true = .ok s

/-- C50 fails: load a property, delete it from the file, write it back.  The write creates the
dataset, then raises a `KeyError` because delete dropped the units; the dataset is left
without attributes and the file cannot be opened any more. -/
theorem C50_full_false : ¬ C50_full := by
  intro H
  obtain ⟨s, hs⟩ := H demoFile 4 (1/2) demo0 [.load ["sfr"], .delete ["sfr"], .write ["sfr"] false]
    demoFile_wf demo0_init (by
      intro op hop
      simp only [List.mem_cons, List.not_mem_nil, or_false] at hop
      rcases hop with rfl | rfl | rfl
      · rintro ⟨ps, h, -⟩; cases h
      · rintro ⟨ps, h, hm⟩; cases h; simp at hm
      · rintro ⟨ps, h, -⟩; cases h)
  have h1 : (match init (run demo0 [Op.load ["sfr"], .delete ["sfr"], .write ["sfr"] false]).file
      (1/2 : ℚ) true with | .ok _ => true | .error _ => false) = false := by decide +kernel
  rw [hs] at h1
  cases h1

theorem mem_set (d : PyDict Name (Dataset K)) (k : Name) (v : Dataset K) (x : Name × Dataset K)
    (h : x ∈ d.set k v) : x ∈ d ∨ x = (k, v) := by
  induction d with
  | nil => simpa [PyDict.set] using h
  | cons p d ih =>
    obtain ⟨k', v'⟩ := p
    unfold PyDict.set at h
    split at h
    · rcases List.mem_cons.1 h with h | h
      · exact Or.inr h
      · exact Or.inl (by simp [h])
    · rcases List.mem_cons.1 h with h | h
      · exact Or.inl (by simp [h])
      · exact (ih h).imp (fun h => by simp [h]) id

/-- What `init` needs from the file. -/
structure FileOk (s : State K) : Prop where
  mass : (s.file.get? "mass").isSome
  attrs : ∀ p d, (p, d) ∈ s.file → p ≠ "mass_cuts" → d.units.isSome ∧ d.hdep.isSome

theorem writeOne_fileOk (ov : Bool) (s : State K) (p : Name) (H : FileOk s)
    (hu : (s.units.get? p).isSome) (he : (s.hdep.get? p).isSome) : FileOk (writeOne ov s p).1 := by
  obtain ⟨u, hu⟩ := Option.isSome_iff_exists.1 hu
  obtain ⟨e, he⟩ := Option.isSome_iff_exists.1 he
  unfold writeOne
  split
  · exact H
  · split
    · exact H
    · dsimp only
      split
      · exact H
      · simp only [hu, he]
        refine ⟨?_, ?_⟩
        · simp only [PyDict.get?_set]; split
          · rfl
          · exact H.mass
        · intro q d hq hne
          rcases mem_set _ _ _ _ hq with hq | hq
          · exact H.attrs q d hq hne
          · cases hq; exact ⟨rfl, rfl⟩

theorem writeOne_unitsHdep (ov : Bool) (s : State K) (p : Name) :
    (writeOne ov s p).1.units = s.units ∧ (writeOne ov s p).1.hdep = s.hdep := by
  unfold writeOne
  split
  · exact ⟨rfl, rfl⟩
  · split
    · exact ⟨rfl, rfl⟩
    · dsimp only
      split
      · exact ⟨rfl, rfl⟩
      · split
        · exact ⟨rfl, rfl⟩
        · split
          · exact ⟨rfl, rfl⟩
          · exact ⟨rfl, rfl⟩

theorem write_fileOk (ov : Bool) (s : State K) (ps : List Name) (H : FileOk s)
    (hps : ∀ p ∈ ps, (s.units.get? p).isSome ∧ (s.hdep.get? p).isSome) :
    FileOk (write s ps ov).1 :=
  (forEach_preserves (writeOne ov) (fun t => FileOk t ∧ t.units = s.units ∧ t.hdep = s.hdep) ps
    (fun t x hx ht => ⟨writeOne_fileOk ov t x ht.1 (by rw [ht.2.1]; exact (hps x hx).1)
        (by rw [ht.2.2]; exact (hps x hx).2),
      by rw [(writeOne_unitsHdep ov t x).1, ht.2.1], by rw [(writeOne_unitsHdep ov t x).2, ht.2.2]⟩)
    s ⟨H, rfl, rfl⟩).1

theorem storeOne_has (u : PyDict Name String) (hd : Option (PyDict Name ℤ)) (is : List ℕ)
    (s s' : State K) (it : Item K) (h : storeOne u hd is s it = (s', .ok ())) :
    ((s'.units.get? it.newName).isSome ∧ (s'.hdep.get? it.newName).isSome) ∧
    ∀ q, (s.units.get? q).isSome ∧ (s.hdep.get? q).isSome →
      (s'.units.get? q).isSome ∧ (s'.hdep.get? q).isSome := by
  obtain ⟨-, vals, un, hd', e, a1, a2, a3, a4, a5, a6, a7, a8⟩ := storeOne_ok _ _ _ _ _ _ h
  rw [a6, a7]
  refine ⟨by simp, ?_⟩
  intro q ⟨h1, h2⟩
  simp only [PyDict.get?_set]
  split
  · exact ⟨rfl, rfl⟩
  · exact ⟨h1, h2⟩

theorem storeAll_has (u : PyDict Name String) (hd : Option (PyDict Name ℤ)) (is : List ℕ)
    (its : List (Item K)) (s s' : State K)
    (h : forEach (storeOne u hd is) s its = (s', .ok ())) :
    (∀ it ∈ its, (s'.units.get? it.newName).isSome ∧ (s'.hdep.get? it.newName).isSome) ∧
    ∀ q, (s.units.get? q).isSome ∧ (s.hdep.get? q).isSome →
      (s'.units.get? q).isSome ∧ (s'.hdep.get? q).isSome := by
  induction its generalizing s with
  | nil => simp only [forEach, Prod.mk.injEq, and_true] at h; subst h; simp
  | cons it its ih =>
    obtain ⟨s1, h1, h2⟩ := forEach_ok_cons _ _ _ _ _ h
    obtain ⟨a1, a2⟩ := storeOne_has _ _ _ _ _ _ h1
    obtain ⟨b1, b2⟩ := ih s1 h2
    refine ⟨?_, fun q hq => b2 q (a2 q hq)⟩
    intro x hx
    rcases List.mem_cons.1 hx with rfl | hx
    · exact b2 _ a1
    · exact b1 x hx

theorem make_fileOk [DivisionRing K] (s : State K) (m : MultiProp K) (o : MakeOpts K)
    (H : FileOk s) : FileOk (make s m o).1 := by
  unfold make
  dsimp only
  split
  · exact H
  · split
    · exact H
    · split
      · exact H
      · split
        · exact H
        · rename_i _ names hnames _ exist hex _ vals hev
          have hb := forEach_preserves (storeOne m.units m.hdep (inds s o.useAll)) (SameBase s)
            (items m.names names exist vals)
            (fun t x _ ht => ht.trans (storeOne_base _ _ _ t x)) s (SameBase.refl s)
          split
          · rename_i s1 e hs1
            rw [hs1] at hb
            exact ⟨by dsimp only; rw [hb.file]; exact H.mass, by dsimp only; rw [hb.file]; exact H.attrs⟩
          · rename_i s1 hs1
            rw [hs1] at hb
            have H1 : FileOk s1 := ⟨by rw [hb.file]; exact H.mass, by rw [hb.file]; exact H.attrs⟩
            split
            · have hnm := items_names m.names names exist vals (makeNames_eq _ _ _ hnames).2
                (by rw [(checkNames_ok _ _ _ _ hex).1, (makeNames_eq _ _ _ hnames).2])
                (evaluateAll_length _ _ _ _ _ _ hev)
              have h2 := write_fileOk o.overwriteDisk s1 names H1 (by
                intro p hp
                rw [← hnm] at hp
                obtain ⟨it, hit, rfl⟩ := List.mem_map.1 hp
                exact (storeAll_has _ _ _ _ _ _ hs1).1 it hit)
              split
              · rename_i s2 e hs2; rw [hs2] at h2; exact h2
              · rename_i s2 hs2
                rw [hs2] at h2
                dsimp only
                split
                · exact ⟨h2.mass, h2.attrs⟩
                · exact h2
            · exact H1

/-- C50 for the histories that do not delete the mass and write only properties the handler
reports to have: the file can always be opened again. -/
theorem C50_reopen_partial [DivisionRing K] [LE K] [DecidableLE K]
    (file : PyDict Name (Dataset K)) (n : ℕ) (hwf : WF file n) (h : K) (inH : Bool) (s0 : State K)
    (h0 : init file h inH = .ok s0) (ops : List (Op K))
    (hdel : ∀ ps, Op.delete ps ∈ ops → "mass" ∉ ps)
    (hwr : ∀ (done todo : List (Op K)) (ps : List Name) (ov : Bool),
      ops = done ++ .write ps ov :: todo → ∀ p ∈ ps, hasProperty (run s0 done) p = true)
    (h' : K) (inH' : Bool) : ∃ s, init (run s0 ops).file h' inH' = .ok s := by
  have hI0 := inv_init file n hwf h inH s0 h0
  have hF : FileOk (run s0 ops) := by
    induction ops using List.reverseRecOn with
    | nil =>
      obtain ⟨s', hs', hf, -⟩ := init_ok file n hwf h inH
      rw [h0] at hs'; cases hs'
      obtain ⟨m, hm, -⟩ := hwf.mass
      exact ⟨by simp only [run, List.foldl_nil]; rw [hf, hm]; rfl, by
        simp only [run, List.foldl_nil]; rw [hf]
        exact fun p d hp hne => ⟨hwf.units p d hp hne, hwf.hdep p d hp hne⟩⟩
    | append_singleton ops op ih =>
      have hb := ih (fun ps hps => hdel ps (by simp [hps]))
        (fun done todo ps ov e => hwr done (todo ++ [op]) ps ov (by rw [e]; simp))
      have hI : Inv (run s0 ops) := run_inv _ _ hI0
      have hrun : run s0 (ops ++ [op]) = step (run s0 ops) op := by simp [run]
      rw [hrun]
      have hsame : ∀ op : Op K, ¬ writesFile op → FileOk (step (run s0 ops) op) := fun op hop =>
        ⟨by rw [step_file_same _ _ hop]; exact hb.mass, by rw [step_file_same _ _ hop]; exact hb.attrs⟩
      cases op with
      | load ps => exact hsame _ (by simp [writesFile])
      | unload ps => exact hsame _ (by simp [writesFile])
      | ret q u i => exact hsame _ (by simp [writesFile])
      | make m o => exact make_fileOk _ m o hb
      | write ps ov =>
        refine write_fileOk ov _ ps hb ?_
        intro p hp
        have := hwr ops [] ps ov rfl p hp
        simp only [hasProperty, decide_eq_true_eq] at this
        exact ⟨hI.unitsAll p this, hI.hdepAll p this⟩
      | delete ps =>
        have hm := hdel ps (by simp)
        refine forEach_preserves deleteOne FileOk ps (fun t x hx ht => ?_) _ hb
        unfold deleteOne
        split
        · split
          · exact ht
          · refine ⟨?_, ?_⟩
            · have hne : ¬ x = "mass" := fun e => hm (e ▸ hx)
              simpa [hne] using ht.mass
            · intro q d hq
              exact ht.attrs q d (by
                simp only [PyDict.erase, List.mem_filter] at hq; exact hq.1)
        · exact ht
      | range q lo hi r i => exact hsame _ (by simp [writesFile])
      | setInH b => exact hsame _ (by simp [writesFile])
  obtain ⟨u, hu, -⟩ := readAttrs_ok Dataset.units
    ((run s0 ops).file.filter (fun q => decide (q.1 ≠ "mass_cuts")))
    (by intro q hq; simp only [List.mem_filter, decide_eq_true_eq] at hq
        exact (hF.attrs q.1 q.2 hq.1 hq.2).1)
  obtain ⟨e, he, -⟩ := readAttrs_ok Dataset.hdep
    ((run s0 ops).file.filter (fun q => decide (q.1 ≠ "mass_cuts")))
    (by intro q hq; simp only [List.mem_filter, decide_eq_true_eq] at hq
        exact (hF.attrs q.1 q.2 hq.1 hq.2).2)
  obtain ⟨m, hm⟩ := Option.isSome_iff_exists.1 hF.mass
  exact ⟨_, by simp only [init, hu, he, hm]; rfl⟩

/-! ## C51 written properties persist -/

theorem readAttrs_get {α : Type} (attr : Dataset K → Option α) (l : PyDict Name (Dataset K))
    (out : PyDict Name α) (h : readAttrs attr l = .ok out) (p : Name) :
    out.get? p = (l.get? p).bind attr := by
  induction l generalizing out with
  | nil => simp only [readAttrs, Except.ok.injEq] at h; subst h; rfl
  | cons q l ih =>
    obtain ⟨k, d⟩ := q
    unfold readAttrs at h
    split at h
    · simp at h
    · rename_i a ha
      split at h
      · simp at h
      · rename_i out' ho
        simp only [Except.ok.injEq] at h; subst h
        rw [PyDict.get?_cons, PyDict.get?_cons, ih out' ho]
        by_cases hp : k = p <;> simp [hp, ha]

/-- What opening any file gives for one property. -/
theorem init_reads [DivisionRing K] (file : PyDict Name (Dataset K)) (h : K) (inH : Bool)
    (s : State K) (h0 : init file h inH = .ok s) (p : Name) (d : Dataset K) (hp : p ≠ "mass_cuts")
    (hd : file.get? p = some d) (hlen : ∀ m, file.get? "mass" = some m → d.vals.length = m.vals.length) :
    ∃ e, d.hdep = some e ∧ ∀ b, returnProperty s p true (some b)
      = .ok (some (scaleH h (if b then 0 else e) d.vals)) := by
  unfold init at h0
  dsimp only at h0
  split at h0
  · simp at h0
  · rename_i u hu
    split at h0
    · simp at h0
    · rename_i hd' hhd
      split at h0
      · simp at h0
      · rename_i m hm
        simp only [Except.ok.injEq] at h0
        subst h0
        have hget := readAttrs_get _ _ _ hhd p
        rw [get?_props, if_neg hp, hd] at hget
        simp only [Option.bind_some] at hget
        have hmem : p ∈ (file.filter (fun q => decide (q.1 ≠ "mass_cuts"))).map (·.1) := by
          have := PyDict.mem_keys_iff (file.filter (fun q => decide (q.1 ≠ "mass_cuts"))) p
          unfold PyDict.keys at this
          rw [this, get?_props, if_neg hp, hd]
          rfl
        have he : ∃ e, d.hdep = some e := by
          have : ∀ (l : PyDict Name (Dataset K)) out, readAttrs Dataset.hdep l = .ok out →
              ∀ x ∈ l, ∃ e, x.2.hdep = some e := by
            intro l
            induction l with
            | nil => intro out _ x hx; simp at hx
            | cons q l ih =>
              intro out ho x hx
              obtain ⟨k, dd⟩ := q
              unfold readAttrs at ho
              split at ho
              · simp at ho
              · rename_i a ha
                split at ho
                · simp at ho
                · rename_i out' ho'
                  rcases List.mem_cons.1 hx with rfl | hx
                  · exact ⟨a, ha⟩
                  · exact ih out' ho' x hx
          exact this _ _ hhd (p, d) (get?_mem _ _ _ (by rw [get?_props, if_neg hp, hd]))
        obtain ⟨e, he⟩ := he
        rw [he] at hget
        refine ⟨e, he, ?_⟩
        intro b
        unfold returnProperty
        simp only [hmem, if_true, Option.getD_some, PyDict.get?_nil, hd, hget, inds]
        rw [gather_all d.vals m.vals.length (hlen m hm)]
        cases b <;> simp

/-- A successful write leaves in the file exactly what the handler holds. -/
theorem write_ok_file (ov : Bool) (ps : List Name) (s s' : State K)
    (h : write s ps ov = (s', .ok ())) (p : Name) (hp : p ∈ ps) :
    ∃ d vals e u, s'.file.get? p = some d ∧ s.loaded.get? p = some vals ∧ d.vals = vals ∧
      s.hdep.get? p = some e ∧ d.hdep = some e ∧ s.units.get? p = some u ∧ d.units = some u ∧
      d.userdefined = true := by
  unfold write at h
  induction ps generalizing s with
  | nil => simp at hp
  | cons x xs ih =>
    obtain ⟨s1, h1, h2⟩ := forEach_ok_cons _ _ _ _ _ h
    by_cases hx : p ∈ xs
    · obtain ⟨a1, a2⟩ := writeOne_unitsHdep ov s x
      obtain ⟨-, -, -, a3⟩ := writeOne_ok_saved _ _ _ _ h1
      rw [h1] at a1 a2
      obtain ⟨d, vals, e, u, b⟩ := ih s1 h2 hx
      rw [a3, a1, a2] at b
      exact ⟨d, vals, e, u, b⟩
    · have hpx : p = x := by
        rcases List.mem_cons.1 hp with h | h
        · exact h
        · exact absurd h hx
      subst hpx
      have hf := write_file ov s1 xs p hx
      unfold write at hf
      rw [h2] at hf
      simp only at hf
      rw [hf]
      unfold writeOne at h1
      split at h1
      · simp at h1
      · rename_i vals hv
        split at h1
        · simp at h1
        · dsimp only at h1
          split at h1
          · simp at h1
          · rename_i d0 hd0
            split at h1
            · simp at h1
            · rename_i u hu
              split at h1
              · simp at h1
              · rename_i e he
                simp only [Prod.mk.injEq, and_true] at h1
                subst h1
                refine ⟨{ vals := d0.vals, units := some u, hdep := some e, userdefined := true },
                  vals, e, u, by simp, hv, ?_, he, rfl, hu, rfl, rfl⟩
                split at hd0
                · cases hd0; rfl
                · split at hd0
                  · cases hd0; rfl
                  · simp at hd0

/-- C51.  After a successful write, a new handler opened on the file reads for every written
property exactly what the old handler reads, in both unit systems; a make-and-write is
a make followed by such a write. -/
theorem C51_written_persists [DivisionRing K] [LE K] [DecidableLE K] (s s' : State K)
    (hr : Reachable s) (ps : List Name) (ov : Bool) (hw : write s ps ov = (s', .ok ()))
    (inH : Bool) (s2 : State K) (h2 : init s'.file s'.h inH = .ok s2) (p : Name) (hp : p ∈ ps)
    (hne : p ≠ "mass_cuts") (hall : p ∈ s.all) (b : Bool) :
    ∃ out, returnProperty s' p true (some b) = .ok (some out) ∧
      returnProperty s2 p true (some b) = .ok (some out) := by
  have hI' : Inv s' := by
    have := step_inv s (.write ps ov) (reachable_inv hr)
    simp only [step, hw] at this
    exact this
  obtain ⟨d, vals, e, u, f1, f2, f3, f4, f5, -⟩ := write_ok_file ov ps s s' hw p hp
  obtain ⟨e', he', hread⟩ := init_reads s'.file s'.h inH s2 h2 p d hne f1 (by
    intro m hm
    rw [hI'.fileLen p d f1 hne, hI'.fileLen "mass" m hm (by decide)])
  rw [f5] at he'; cases he'
  refine ⟨_, ?_, hread b⟩
  have hpres : s'.loaded = s.loaded ∧ s'.hdep = s.hdep ∧ s'.all = s.all := by
    have hgen : ∀ (xs : List Name) (t t' : State K), forEach (writeOne ov) t xs = (t', .ok ()) →
        t'.loaded = t.loaded ∧ t'.hdep = t.hdep ∧ t'.all = t.all := by
      intro xs
      induction xs with
      | nil => intro t t' h; simp only [forEach, Prod.mk.injEq, and_true] at h; subst h; simp
      | cons x xs ih =>
        intro t t' h
        obtain ⟨t1, h1, h2⟩ := forEach_ok_cons _ _ _ _ _ h
        obtain ⟨-, -, a3, a4⟩ := writeOne_ok_saved _ _ _ _ h1
        have a5 := (writeOne_unitsHdep ov t x).2
        rw [h1] at a5
        obtain ⟨b1, b2, b3⟩ := ih t1 t' h2
        exact ⟨by rw [b1, a4], by rw [b2]; exact a5, by rw [b3, a3]⟩
    exact hgen ps s s' hw
  have hheld : held s' p = some d.vals := by simp [held, hpres.1, f2, f3]
  rw [returnProperty_held s' p true (some b) (by rw [hpres.2.2]; exact hall) e
    (by rw [hpres.2.1]; exact f4) hI'.savedFile, hheld]
  simp only [inds, if_true, gather_all d.vals s'.nAll (hI'.fileLen p d f1 hne), Option.getD_some]

/-- Concrete case of C51 (and of C50): make, write, reopen, read. -/
example : ∃ s2, init (run demo0 [.make doubleMass plainOpts, .write ["mass2"] false]).file (1/2)
    true = .ok s2 ∧ (write (run demo0 [.make doubleMass plainOpts]) ["mass2"] false).2 = .ok () ∧
    returnProperty s2 "mass2" true (some false)
      = .ok (some [some 8, some 6, some 4, some 2]) :=
  ⟨_, rfl, by decide +kernel, by decide +kernel⟩

end Verif.Handler
