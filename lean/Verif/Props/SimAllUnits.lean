import Verif.Props.SimAllOps

set_option linter.unusedSectionVars false

/-!
# C79: the unit convention of a simulation
-/

namespace Verif.SimAll
open Verif.Handler Verif.SimAll.Spec
open Verif.Handler.Spec (WF)

variable {K : Type} [DivisionRing K] [LE K] [DecidableLE K]

/-- What no call on the objects of a snapshot changes. -/
def Keeps (s s' : State K) : Prop := s'.inH = s.inH ∧ s'.h = s.h ∧ s'.extra = s.extra

theorem Keeps.trans {a b c : State K} (h : Keeps a b) (g : Keeps b c) : Keeps a c :=
  ⟨g.1.trans h.1, g.2.1.trans h.2.1, g.2.2.trans h.2.2⟩

theorem write_keeps (ov : Bool) (ns : List Name) (s : State K) : Keeps s (write s ns ov).1 := by
  apply forEach_preserves (writeOne ov) (fun t => Keeps s t) ns ?_ s ⟨rfl, rfl, rfl⟩
  intro t x _ ht
  refine ht.trans ?_
  unfold writeOne
  split
  · exact ⟨rfl, rfl, rfl⟩
  · split
    · exact ⟨rfl, rfl, rfl⟩
    · dsimp only
      split
      · exact ⟨rfl, rfl, rfl⟩
      · split
        · exact ⟨rfl, rfl, rfl⟩
        · split <;> exact ⟨rfl, rfl, rfl⟩

theorem make_keeps (s : State K) (m : MultiProp K) (o : MakeOpts K) : Keeps s (make s m o).1 := by
  have hst : ∀ its, Keeps s (forEach (storeOne m.units m.hdep (inds s o.useAll)) s its).1 := by
    intro its
    apply forEach_preserves _ (fun t => Keeps s t) its ?_ s ⟨rfl, rfl, rfl⟩
    intro t x _ ht
    have hb := storeOne_base m.units m.hdep (inds s o.useAll) t x
    exact ht.trans ⟨hb.inH, hb.h, hb.extra⟩
  unfold make
  dsimp only
  split
  · exact ⟨rfl, rfl, rfl⟩
  · split
    · exact ⟨rfl, rfl, rfl⟩
    · split
      · exact ⟨rfl, rfl, rfl⟩
      · split
        · exact ⟨rfl, rfl, rfl⟩
        · rename_i names _ _ exist _ _ vals _
          have h1 := hst (items m.names names exist vals)
          rcases hf : forEach (storeOne m.units m.hdep (inds s o.useAll)) s
            (items m.names names exist vals) with ⟨s1, e | ⟨⟩⟩
          · rw [hf] at h1; exact h1
          · rw [hf] at h1
            simp only
            split
            · have h2 := write_keeps o.overwriteDisk names s1
              rcases hw : write s1 names o.overwriteDisk with ⟨s2, e | ⟨⟩⟩
              · rw [hw] at h2; exact h1.trans h2
              · rw [hw] at h2
                simp only
                split
                · exact h1.trans ⟨h2.1, h2.2.1, h2.2.2⟩
                · exact h1.trans h2
            · exact h1

theorem makeSnap_keeps (m : MultiProp K) (o : MakeOpts K) (w b : Bool) (s : State K) :
    Keeps s (makeSnap m o w b s).1 := by
  unfold makeSnap
  have h1 := make_keeps s m { o with writeDisk := false }
  rcases hf : make s m { o with writeDisk := false } with ⟨s1, e | ⟨⟩⟩
  · rw [hf] at h1; exact h1
  · rw [hf] at h1
    simp only
    split
    · exact h1
    · split
      · exact h1
      · rename_i names _
        split
        · exact h1
        · have h2 := write_keeps o.overwrite names s1
          rcases hw : write s1 names o.overwrite with ⟨s2, e | ⟨⟩⟩
          · rw [hw] at h2; exact h1.trans h2
          · rw [hw] at h2; exact h1.trans ⟨h2.1, h2.2.1, h2.2.2⟩

theorem deleteSnap_keeps (names : List Name) (b : Bool) (s : State K) :
    Keeps s (deleteSnap names b s).1 := by
  unfold deleteSnap
  split
  · exact ⟨rfl, rfl, rfl⟩
  · apply forEach_preserves deleteOne (fun t => Keeps s t) names ?_ s ⟨rfl, rfl, rfl⟩
    intro t x _ ht
    refine ht.trans ?_
    unfold deleteOne
    split
    · split <;> exact ⟨rfl, rfl, rfl⟩
    · exact ⟨rfl, rfl, rfl⟩

theorem rangeSnap_keeps (p : Option Name) (lo hi : Option K) (r b c : Bool) (s : State K) :
    Keeps s (rangeSnap p lo hi r b c s).1 := by
  obtain ⟨a, n, h⟩ := setRange_fields s p lo hi r (some b)
  simp only [rangeSnap, h]
  exact ⟨rfl, rfl, rfl⟩

/-- Every persistent handler follows the simulation's setting. -/
def Follows (S : Sim K) : Prop :=
  ∀ d, S.handlers = some d → ∀ i s, d.get? i = some s → s.inH = S.inH ∧ s.h = S.h ∧
    s.extra.get? "box_edge" = some (if S.inH then S.boxH else S.boxH / S.h)

theorem onSnap_follows (f : Bool → State K → State K × Except Err Unit)
    (hf : ∀ b s, Keeps s (f b s).1) (S : Sim K) (x : Bool × ℕ) (h : Follows S) :
    Follows (onSnap f S x).1 := by
  unfold onSnap
  rcases hg : getSnap S x.2 with e | s
  · exact h
  · simp only
    intro d hd i t ht
    have e1 : (putSnap S x.2 (f x.1 s).1).handlers = S.handlers.map (fun d => d.set x.2 (f x.1 s).1) :=
      rfl
    rw [e1] at hd
    rcases hS : S.handlers with _ | d0
    · rw [hS] at hd; simp at hd
    · rw [hS] at hd
      simp only [Option.map_some, Option.some.injEq] at hd
      subst hd
      rw [PyDict.get?_set] at ht
      show t.inH = S.inH ∧ t.h = S.h ∧
        t.extra.get? "box_edge" = some (if S.inH then S.boxH else S.boxH / S.h)
      by_cases hi : x.2 = i
      · rw [if_pos hi] at ht
        cases ht
        obtain ⟨k1, k2, k3⟩ := hf x.1 s
        rw [k1, k2, k3]
        unfold getSnap at hg
        rcases hm : extractMeta S x.2 with e | r
        · rw [hm] at hg; simp at hg
        · rw [hm] at hg
          simp only at hg
          rcases hdk : S.disk.get? r.1 with _ | g
          · rw [hdk] at hg; simp at hg
          · rw [hdk, hS] at hg
            simp only at hg
            rcases hdr : d0.get? r.1 with _ | s0
            · rw [hdr] at hg; simp at hg
            · rw [hdr] at hg
              simp only [Except.ok.injEq] at hg
              subst hg
              exact h d0 hS r.1 s0 hdr
      · rw [if_neg hi] at ht
        exact h d0 hS i t ht

theorem loop_follows (f : Bool → State K → State K × Except Err Unit)
    (hf : ∀ b s, Keeps s (f b s).1) (xs : List (Bool × ℕ)) (S : Sim K) (h : Follows S) :
    Follows (forEach (onSnap f) S xs).1 :=
  forEach_preserves (onSnap f) Follows xs (fun t x _ ht => onSnap_follows f hf t x ht) S h

theorem initOne_follows (S : Sim K) (rs : List (ℕ × K)) (d d' : PyDict ℕ (State K))
    (r : Except Err Unit)
    (hd : ∀ i s, d.get? i = some s → s.inH = S.inH ∧ s.h = S.h ∧
      s.extra.get? "box_edge" = some (if S.inH then S.boxH else S.boxH / S.h))
    (h : forEach (initOne S) d rs = (d', r)) :
    ∀ i s, d'.get? i = some s → s.inH = S.inH ∧ s.h = S.h ∧
      s.extra.get? "box_edge" = some (if S.inH then S.boxH else S.boxH / S.h) := by
  have := forEach_preserves (initOne S) (fun d => ∀ i s, d.get? i = some s → s.inH = S.inH ∧
      s.h = S.h ∧ s.extra.get? "box_edge" = some (if S.inH then S.boxH else S.boxH / S.h)) rs
    (by
      intro t x _ ht
      unfold initOne
      rcases hg : S.disk.get? x.1 with _ | g
      · exact ht
      · simp only
        rcases hs : snapInit g x.2 S.h S.boxH S.inH with e | s
        · exact ht
        · simp only
          intro i s' hi
          rw [PyDict.get?_set] at hi
          by_cases hx : x.1 = i
          · rw [if_pos hx] at hi
            cases hi
            unfold snapInit at hs
            rcases hin : init g S.h S.inH with e | s1
            · rw [hin] at hs; simp at hs
            · rw [hin] at hs
              simp only [Except.ok.injEq] at hs
              have hh : s1.h = S.h := by
                unfold init at hin
                dsimp only at hin
                split at hin
                · simp at hin
                · split at hin
                  · simp at hin
                  · split at hin
                    · simp at hin
                    · simp only [Except.ok.injEq] at hin
                      subst hin; rfl
              subst hs
              refine ⟨rfl, hh, ?_⟩
              simp [snapSetInH, hh]
          · rw [if_neg hx] at hi
            exact ht i s' hi) d hd
  rw [h] at this
  exact this

theorem get_map {α β : Type} (d : PyDict ℕ α) (f : α → β) (i : ℕ) :
    PyDict.get? (d.map (fun p => (p.1, f p.2)) : PyDict ℕ β) i = (d.get? i).map f := by
  induction d with
  | nil => rfl
  | cons p d ih =>
    obtain ⟨k, v⟩ := p
    rw [List.map_cons, PyDict.get?_cons, PyDict.get?_cons, ih]
    by_cases h : k = i <;> simp [h]

theorem simStep_follows (S : Sim K) (op : SimOp K) (h : Follows S) : Follows (simStep S op) := by
  cases op with
  | initAll remake =>
    simp only [simStep, initializeAll]
    split
    · exact h
    · rcases hf : forEach (initOne S) [] S.snaps with ⟨d, e | ⟨⟩⟩
      · intro d1 hd1
        simp only [Option.map_eq_some_iff] at hd1
        obtain ⟨-, -, rfl⟩ := hd1
        exact initOne_follows S S.snaps [] d _ (by simp) hf
      · intro d1 hd1
        simp only [Option.some.injEq] at hd1
        subst hd1
        exact initOne_follows S S.snaps [] d _ (by simp) hf
  | setInH b =>
    intro d hd i s hs
    simp only [simStep, setInH, Option.map_eq_some_iff] at hd
    obtain ⟨d0, h0, rfl⟩ := hd
    rw [get_map d0 (fun t => snapSetInH S.boxH t b) i, Option.map_eq_some_iff] at hs
    obtain ⟨s0, hs0, rfl⟩ := hs
    obtain ⟨-, h2, -⟩ := h d0 h0 i s0 hs0
    refine ⟨rfl, h2, ?_⟩
    simp only [snapSetInH, simStep, setInH, h2, PyDict.get?_set, if_true]
    cases b <;> rfl
  | make m o w =>
    simp only [simStep, makeProperty]
    split
    · exact h
    · exact loop_follows _ (fun b s => makeSnap_keeps m o w b s) _ S h
  | delete names =>
    exact loop_follows _ (fun b s => deleteSnap_keeps names b s) _ S h
  | range p lo hi reset inH =>
    simp only [simStep, setPropertyRange]
    split
    · exact h
    · exact loop_follows _ (fun b s => rangeSnap_keeps p lo hi reset _ b s) _ S h

/-- The last setting chosen in a history. -/
def Spec.lastSetting (inH : Bool) (ops : List (SimOp K)) : Bool :=
  ops.foldl (fun b op => match op with | .setInH c => c | _ => b) inH

theorem simStep_inH (S : Sim K) (op : SimOp K) :
    (simStep S op).inH = (match op with | .setInH c => c | _ => S.inH) := by
  have hl : ∀ (f : Bool → State K → State K × Except Err Unit) (xs : List (Bool × ℕ)),
      (forEach (onSnap f) S xs).1.inH = S.inH := fun f xs =>
    forEach_preserves (onSnap f) (fun t => t.inH = S.inH) xs
      (fun t x _ ht => by rw [(onSnap_same f t x).2.2.2.1]; exact ht) S rfl
  cases op with
  | initAll remake =>
    simp only [simStep, initializeAll]
    split
    · rfl
    · split <;> rfl
  | setInH b => rfl
  | make m o w =>
    simp only [simStep, makeProperty]
    split
    · rfl
    · exact hl _ _
  | delete names => exact hl _ _
  | range p lo hi reset inH =>
    simp only [simStep, setPropertyRange]
    split
    · rfl
    · exact hl _ _

/-- C79, partial: after any history of calls on a simulation, a snapshot obtained from it while the
snapshots are initialised uses the unit convention last chosen for the simulation, and
its box edge is given in these units.  Missing: snapshots that are not
initialised (`C79_not_initialised`). -/
theorem C79_initialised_partial (S : Sim K) (hh : S.handlers = none) (ops : List (SimOp K)) (i : ℕ)
    (s : State K) (hI : (ops.foldl simStep S).handlers.isSome)
    (hs : getSnap (ops.foldl simStep S) i = .ok s) :
    s.inH = lastSetting S.inH ops ∧
    s.extra.get? "box_edge" = some (if lastSetting S.inH ops then (ops.foldl simStep S).boxH
      else (ops.foldl simStep S).boxH / (ops.foldl simStep S).h) := by
  have hF : ∀ (ops : List (SimOp K)) (T : Sim K), Follows T → Follows (ops.foldl simStep T) := by
    intro ops
    induction ops with
    | nil => intro T h; exact h
    | cons op ops ih => intro T h; exact ih _ (simStep_follows T op h)
  have hset : ∀ (ops : List (SimOp K)) (T : Sim K),
      (ops.foldl simStep T).inH = lastSetting T.inH ops := by
    intro ops
    induction ops with
    | nil => intro T; rfl
    | cons op ops ih =>
      intro T
      rw [List.foldl_cons, ih, simStep_inH]
      simp only [lastSetting, List.foldl_cons]
  have h1 := hF ops S (by intro d hd; rw [hh] at hd; simp at hd)
  rw [← hset ops S]
  generalize ops.foldl simStep S = T at *
  unfold getSnap at hs
  rcases hm : extractMeta T i with e | r
  · rw [hm] at hs; simp at hs
  · rw [hm] at hs
    simp only at hs
    rcases hdk : T.disk.get? r.1 with _ | g
    · rw [hdk] at hs; simp at hs
    · rw [hdk] at hs
      simp only at hs
      rcases hd : T.handlers with _ | d
      · rw [hd] at hI; simp at hI
      · rw [hd] at hs
        simp only at hs
        rcases hdr : d.get? r.1 with _ | s0
        · rw [hdr] at hs; simp at hs
        · rw [hdr] at hs
          simp only [Except.ok.injEq] at hs
          subst hs
          obtain ⟨a, -, c⟩ := h1 d hd r.1 s0 hdr
          exact ⟨a, c⟩

/-- C79: as long as the snapshots are not initialised, every snapshot is returned without h units,
whatever was chosen for the simulation. -/
theorem C79_not_initialised (S : Sim K) (hh : S.handlers = none) (i : ℕ) (s : State K)
    (hs : getSnap S i = .ok s) : s.inH = false := by
  unfold getSnap at hs
  rcases hm : extractMeta S i with e | r
  · rw [hm] at hs; simp at hs
  · rw [hm] at hs
    simp only at hs
    rcases hdk : S.disk.get? r.1 with _ | g
    · rw [hdk] at hs; simp at hs
    · rw [hdk, hh] at hs
      simp only at hs
      unfold snapInit at hs
      rcases hi : init g S.h false with e | s1
      · rw [hi] at hs; simp at hs
      · rw [hi] at hs
        simp only [Except.ok.injEq] at hs
        subst hs; rfl

end Verif.SimAll
