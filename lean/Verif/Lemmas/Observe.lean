import Verif.Lemmas.InstrumentGroups

/-!
# When sampling succeeds
-/

set_option linter.unusedSectionVars false

namespace Verif.Inst
open Spec
variable {F D O X G B H M P V T S Q K : Type}

theorem noiseOf_of (ph : Phys F D O X G B H M P V T S Q K) (s : State F D O X G M K)
    (a : SampleArgs P T S) (f d : Name) (nz : List V) (h : Noise ph s f a d nz) :
    noiseOf ph s a f d = .ok nz := by
  unfold Noise at h
  unfold noiseOf
  split at h
  · rename_i hw
    obtain ⟨det, r, dt, h1, h2, h3, h4⟩ := h
    rw [if_pos hw, h1, h3]
    simp only [Option.bind_some, h2]
    exact h4
  · rename_i hw
    rw [if_neg hw, h]
    simp

theorem addGroup_total (ph : Phys F D O X G B H M P V T S Q K) (n : ℕ) (L : List (ℕ × List V))
    (acc : List (List V)) (hacc : ∀ x ∈ acc, x.length = n)
    (hL : ∀ p ∈ L, p.1 < acc.length ∧ p.2.length = n) :
    ∃ acc', addGroup ph acc L = .ok acc' ∧ acc'.length = acc.length ∧ ∀ x ∈ acc', x.length = n := by
  induction L generalizing acc with
  | nil => exact ⟨acc, rfl, rfl, hacc⟩
  | cons p L ih =>
    obtain ⟨i, ys⟩ := p
    obtain ⟨h1, h2⟩ := hL (i, ys) (by simp)
    simp only at h1 h2
    simp only [addGroup]
    rw [List.getElem?_eq_getElem h1]
    have hl : (acc[i]).length = n := hacc _ (List.getElem_mem h1)
    simp only [addArrays, hl, h2, if_true]
    obtain ⟨acc', e1, e2, e3⟩ := ih (acc.set i (List.zipWith ph.add acc[i] ys))
      (fun x hx => by
        rcases List.mem_or_eq_of_mem_set hx with h | h
        · exact hacc x h
        · rw [h, List.length_zipWith, hl, h2, Nat.min_self])
      (fun q hq => by
        obtain ⟨k1, k2⟩ := hL q (List.mem_cons_of_mem _ hq)
        exact ⟨by simpa using k1, k2⟩)
    exact ⟨acc', e1, by rw [e2]; simp, e3⟩

theorem signalLoop_total [DecidableEq O] (ph : Phys F D O X G B H M P V T S Q K)
    (s : State F D O X G M K) (md : MapData X M) (a : SampleArgs P T S)
    (hcols : md.cols.length = s.detNames.length)
    (hsamp : ∀ d ∈ s.detNames, ∀ det, s.detectors.get? d = some det → ∀ c ∈ md.cols,
      ∃ out, ph.sample md.axes c (a.positions.map fun p => ph.shift p det.pointing) = .ok out ∧
        out.length = a.positions.length)
    (groups : List (List Name))
    (hg : ∀ gr ∈ groups, gr ≠ [] ∧ ∀ d ∈ gr, d ∈ s.detNames ∧ (s.detectors.get? d).isSome)
    (acc : List (List V)) (hacc : ∀ x ∈ acc, x.length = a.positions.length)
    (hl : acc.length = s.detNames.length) :
    ∃ acc', signalLoop ph s md a acc groups = .ok acc' ∧ acc'.length = s.detNames.length ∧
      ∀ x ∈ acc', x.length = a.positions.length := by
  induction groups generalizing acc with
  | nil => exact ⟨acc, rfl, hl, hacc⟩
  | cons gr rest ih =>
    obtain ⟨h1, h2⟩ := hg gr (by simp)
    cases gr with
    | nil => exact absurd rfl h1
    | cons d ds =>
      obtain ⟨hd, hs⟩ := h2 d (by simp)
      obtain ⟨det, hdet⟩ := Option.isSome_iff_exists.1 hs
      have hidx : ∀ i ∈ groupIdxs s.detNames (d :: ds), i < s.detNames.length := by
        intro i hi
        have := (List.perm_insertionSort _ _).mem_iff.1 hi
        obtain ⟨e, he, rfl⟩ := List.mem_map.1 this
        exact List.idxOf_lt_length_iff.2 (h2 e he).1
      have hone : ∀ i ∈ groupIdxs s.detNames (d :: ds), ∃ out, (match md.cols[i]? with
          | none => .error .value
          | some c => ph.sample md.axes c (a.positions.map fun p => ph.shift p det.pointing)) =
            (.ok out : Except Err (List V)) ∧ out.length = a.positions.length := by
        intro i hi
        have := hidx i hi
        rw [List.getElem?_eq_getElem (by omega)]
        exact hsamp d hd det hdet _ (List.getElem_mem _)
      obtain ⟨cols, hc⟩ := mapE_total (fun i => (match md.cols[i]? with
          | none => .error .value
          | some c => ph.sample md.axes c (a.positions.map fun p => ph.shift p det.pointing) : Except Err (List V)))
        (groupIdxs s.detNames (d :: ds)) (fun i hi => by
          obtain ⟨out, h, -⟩ := hone i hi; exact ⟨out, h⟩)
      obtain ⟨acc1, b1, b2, b3⟩ := addGroup_total ph a.positions.length
        ((groupIdxs s.detNames (d :: ds)).zip cols) acc hacc (by
          intro p hp
          obtain ⟨k, hk⟩ := List.getElem?_of_mem hp
          obtain ⟨k1, k2⟩ := List.getElem?_zip_eq_some.1 hk
          refine ⟨by rw [hl]; exact hidx _ (List.mem_of_getElem? k1), ?_⟩
          obtain ⟨i, i1, i2⟩ := mapE_get hc k p.2 k2
          obtain ⟨out, o1, o2⟩ := hone i (List.mem_of_getElem? i1)
          rw [o1] at i2
          simp only [Except.ok.injEq] at i2
          rw [← i2]; exact o2)
      obtain ⟨acc', c1, c2, c3⟩ := ih (fun x hx => hg x (List.mem_cons_of_mem _ hx)) acc1 b3 (by rw [b2, hl])
      refine ⟨acc', ?_, c2, c3⟩
      simp only [signalLoop, hdet]
      have : sampleCols ph md (a.positions.map fun p => ph.shift p det.pointing)
        (groupIdxs s.detNames (d :: ds)) = .ok cols := hc
      rw [this]
      simp only
      rw [b1]
      exact c1

/-- Sampling one mapped field succeeds if every detector has noise of the right length and its map can be sampled. -/
theorem sampleFields_total [DecidableEq O] (ph : Phys F D O X G B H M P V T S Q K)
    (s : State F D O X G M K) (ho : Ordered s) (f : Name) (a : SampleArgs P T S) (hne : s.detNames ≠ [])
    (hf : (s.fields.get? f).isSome) (hcons : s.consistent.get? f = some true) (md : MapData X M)
    (hmd : s.maps.get? f = some md) (hcols : md.cols.length = s.detNames.length)
    (hshape : a.shapeOk = true) (hsig : a.signal = true) (hdt : a.withNoise = true → a.dt ≠ none)
    (hnoise : ∀ d ∈ s.detNames, ∃ nz, Noise ph s f a d nz ∧ nz.length = a.positions.length)
    (hsamp : ∀ d ∈ s.detNames, ∀ det, s.detectors.get? d = some det → ∀ c ∈ md.cols,
      ∃ out, ph.sample md.axes c (a.positions.map fun p => ph.shift p det.pointing) = .ok out ∧
        out.length = a.positions.length) :
    ∃ cols, sampleFields ph s [f] a = .ok [(f, cols)] := by
  have hdets : ∀ d ∈ s.detNames, (s.detectors.get? d).isSome := fun d hd => (ho.dets d).1 hd
  obtain ⟨groups, hgr⟩ : ∃ groups, cloneGroups (samePointing s) s.detNames = .ok groups := by
    refine groupLoop_total _ _ _ (fun d hd d0 hd0 => ?_)
    obtain ⟨x, hx⟩ := Option.isSome_iff_exists.1 (hdets d hd)
    obtain ⟨y, hy⟩ := Option.isSome_iff_exists.1 (hdets d0 hd0)
    unfold samePointing
    rw [hx, hy]
    exact ⟨_, rfl⟩
  obtain ⟨hp, hg⟩ := cloneGroups_spec _ _ (samePointing_refl s) groups hgr
  obtain ⟨start, hstart⟩ := mapE_total (noiseOf ph s a f) s.detNames (fun d hd => by
    obtain ⟨nz, h1, -⟩ := hnoise d hd
    exact ⟨nz, noiseOf_of ph s a f d nz h1⟩)
  have hsl : ∀ x ∈ start, x.length = a.positions.length := by
    intro x hx
    obtain ⟨d, hd, h1⟩ := mapE_mem hstart x hx
    obtain ⟨nz, h2, h3⟩ := hnoise d hd
    rw [noiseOf_of ph s a f d nz h2] at h1
    simp only [Except.ok.injEq] at h1
    rw [← h1]; exact h3
  obtain ⟨out, o1, o2, o3⟩ := signalLoop_total ph s md a hcols hsamp groups (by
    intro gr hgr
    obtain ⟨d0, ds, rfl, -⟩ := hg gr hgr
    refine ⟨by simp, fun d hd => ?_⟩
    have : d ∈ s.detNames := hp.mem_iff.1 (List.mem_flatten.2 ⟨_, hgr, hd⟩)
    exact ⟨this, hdets d this⟩) start hsl (mapE_length hstart)
  have hsf : sampleField ph s groups a f = .ok out := by
    unfold sampleField
    rw [hmd]
    simp only
    rw [hstart]
    simp only
    rw [if_pos hsig, o1]
    cases out with
    | nil => exact absurd (List.length_eq_zero_iff.1 o2.symm) hne
    | cons c cs =>
      simp only
      rw [if_pos]
      rw [List.all_eq_true]
      intro x hx
      simp [o3 x (List.mem_cons_of_mem _ hx), o3 c (by simp)]
  refine ⟨out, ?_⟩
  have hk : f ∈ s.fields.keys := by rw [PyDict.mem_keys_iff]; exact hf
  unfold sampleFields
  have hch : chosenFields s [f] = .ok [f] := by
    unfold chosenFields checkNames
    simp [hk]
  rw [hch]
  simp only [mapE, checkConsistent, hcons]
  rw [if_neg (by simp [hshape]), if_neg, if_neg (by simp [hsig]), hgr]
  · simp only [hsf]
  · intro h
    rw [Bool.and_eq_true] at h
    exact hdt h.2 (Option.isNone_iff_eq_none.1 h.1)

end Verif.Inst
