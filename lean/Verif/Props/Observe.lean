import Verif.Spec.Observe
import Verif.Lemmas.Observe
import Verif.Props.InstMap
import Verif.Props.DetectorMap
import Verif.Props.GridAdd

/-!
# C125: what an instrument records of a sky
-/

set_option linter.unusedSectionVars false

namespace Verif.Inst

open Spec
open Verif.Map (Grid Arr BeamNorm PadArg KernelArg)
open Verif.Map.Spec (Sky MapOf Regular AxisIs InCell InGrid cell Responds Weights Normalises beamValues freq edges)

variable {F D T S K : Type} [_root_.Field K] [LinearOrder K] [IsStrictOrderedRing K] [FloorRing K]

section
variable {g : Grid K K} {a : Arr K} {nx ny nz : ℕ} {wx wy wz cx cy cz : K}

theorem edges_at (n : ℕ) (w c : K) (i : ℕ) (hi : i ≤ n) : (edges n w c)[i]? = some (c - n * w / 2 + i * w) := by
  unfold edges
  rw [List.getElem?_map, List.getElem?_range (by omega)]
  rfl

theorem edges_none (n : ℕ) (w c : K) (i : ℕ) (hi : n < i) : (edges n w c)[i]? = none := by
  unfold edges
  rw [List.getElem?_eq_none]
  simp; omega

theorem inSpan_iff (n : ℕ) (w c x : K) (i : ℕ) :
    (∃ lo ∈ (edges n w c)[i]?, ∃ hi ∈ (edges n w c)[i + 1]?, lo ≤ x ∧ x < hi) ↔ InSpan n w c x i := by
  unfold InSpan
  by_cases h : i < n
  · rw [edges_at n w c i (by omega), edges_at n w c (i + 1) (by omega)]
    simp [h]
  · rw [edges_none n w c (i + 1) (by omega)]
    simp [h]

/-- The map of a detector is a regular grid. -/
theorem regular_map {M : Grid K K} {R : K → K → K → K} {W : K → K} {N : ℕ → K} {m n : ℕ}
    (h : Sky g a nx ny nz wx wy wz cx cy cz) (hM : MapOf g M a R W N nx ny nz m n wx wy wz cz) :
    Regular M ∧ M.dim = 2 ∧ M.nProps = 1 ∧ M.axes = [edges nx wx cx, edges ny wy cy] := by
  have hw := hM.axes
  have hd : M.dim = 2 := by
    unfold Grid.dim
    rw [hw.center, List.length_eraseIdx_of_lt (by have := h.dim; unfold Grid.dim at this; omega)]
    have := h.dim; unfold Grid.dim at this; omega
  have hl : ∀ {α : Type} (l : List α), l.length = 3 → (l.eraseIdx 2).length = 2 := by
    intro α l e
    rw [List.length_eraseIdx_of_lt (by omega), e]
  have hr := h.regular
  have hdim := h.dim
  have haxes : M.axes = [edges nx wx cx, edges ny wy cy] := by
    rw [hw.axes]
    have h1 := h.x.axes
    have h2 := h.y.axes
    have h3 : g.axes.length = 3 := by rw [hr.axes, hdim]
    match hh : g.axes with
    | [u, v, w] =>
      rw [hh] at h1 h2
      simp only [List.getElem?_cons_zero, List.getElem?_cons_succ, Option.some.injEq] at h1 h2
      rw [h1, h2]; rfl
    | [] => rw [hh] at h3; cases h3
    | [_] => rw [hh] at h3; cases h3
    | [_, _] => rw [hh] at h3; cases h3
    | _ :: _ :: _ :: _ :: _ => rw [hh] at h3; simp at h3
  have hax : ∀ i k w c, i < 2 → AxisIs g i k w c → AxisIs M i k w c := by
    intro i k w c hi hA
    refine ⟨?_, ?_, ?_, ?_, ?_, ?_, ?_, ?_⟩
    · rw [hw.nPix, List.getElem?_eraseIdx_of_lt hi]; exact hA.nPix
    · rw [hw.pix, List.getElem?_eraseIdx_of_lt hi]; exact hA.pix
    · rw [hw.center, List.getElem?_eraseIdx_of_lt hi]; exact hA.center
    · rw [hw.side, List.getElem?_eraseIdx_of_lt hi]; exact hA.side
    · rw [hw.axes, List.getElem?_eraseIdx_of_lt hi]; exact hA.axes
    · rw [hw.centers, List.getElem?_eraseIdx_of_lt hi]; exact hA.centers
    · rw [hw.fcenters, List.getElem?_eraseIdx_of_lt hi]; exact hA.fcenters
    · rw [hw.faxes, List.getElem?_eraseIdx_of_lt hi]; exact hA.faxes
  have hnp : M.nProps = 1 := by rw [hw.nProps, h.nProps]
  have hnpix : M.nPix = [nx, ny] := by
    rw [hw.nPix]
    have h1 := h.x.nPix
    have h2 := h.y.nPix
    have h3 : g.nPix.length = 3 := by rw [hr.nPix, hdim]
    match hh : g.nPix with
    | [u, v, w] =>
      rw [hh] at h1 h2
      simp only [List.getElem?_cons_zero, List.getElem?_cons_succ, Option.some.injEq] at h1 h2
      rw [h1, h2]; rfl
    | [] => rw [hh] at h3; cases h3
    | [_] => rw [hh] at h3; cases h3
    | [_, _] => rw [hh] at h3; cases h3
    | _ :: _ :: _ :: _ :: _ => rw [hh] at h3; simp at h3
  refine ⟨⟨?_, ?_, ?_, ?_, ?_, ?_, ?_, ?_, ?_, ?_⟩, hd, hnp, haxes⟩
  · rw [hnpix, hd]; rfl
  · rw [hw.pix, hd]; exact hl _ (by rw [hr.pix, hdim])
  · rw [hw.side, hd]; exact hl _ (by rw [hr.side, hdim])
  · rw [haxes, hd]; rfl
  · rw [hw.centers, hd]; exact hl _ (by rw [hr.centers, hdim])
  · rw [hw.fcenters, hd]; exact hl _ (by rw [hr.fcenters, hdim])
  · rw [hw.faxes, hd]; exact hl _ (by rw [hr.faxes, hdim])
  · rw [hw.fourier, hd]; exact hl _ (by rw [hr.fourier, hdim])
  · intro i hi
    rw [hd] at hi
    obtain ⟨k, w, c, h1, h2, h3⟩ := hr.axis i (by omega)
    exact ⟨k, w, c, h1, h2, hax i k w c hi h3⟩
  · intro b hb
    obtain ⟨b', e1, e2, -⟩ := hM.values
    rw [hb] at e1
    simp only [Option.some.injEq] at e1
    rw [e1, e2, hnpix, hnp]
    rfl

/-- Samples of the map of a detector. -/
theorem sampleMap_ok {M : Grid K K} {R : K → K → K → K} {W : K → K} {N : ℕ → K} {m n : ℕ}
    (h : Sky g a nx ny nz wx wy wz cx cy cz) (hM : MapOf g M a R W N nx ny nz m n wx wy wz cz)
    (ps : List (Point K)) (hps : ∀ p ∈ ps, p.isInt = false) :
    ∃ out, sampleMap M ps = .ok out ∧ out.length = ps.length ∧
      ∀ (t : ℕ) (p : Point K) (v : Option K), ps[t]? = some p → out[t]? = some v →
        (∀ i j, InSpan nx wx cx p.x i → InSpan ny wy cy p.y j →
          v = some (seen a R W N nx ny nz m n wx wy wz cz i j)) ∧
        ((∀ i j, ¬ (InSpan nx wx cx p.x i ∧ InSpan ny wy cy p.y j)) → v = none) := by
  obtain ⟨hr, hd, hnp, hax⟩ := regular_map h hM
  obtain ⟨b, b1, b2, b3⟩ := hM.values
  have hint : (!ps.isEmpty && ps.all (·.isInt)) = false := by
    cases ps with
    | nil => rfl
    | cons p ps => simp [hps p (by simp)]
  obtain ⟨out, o1, o2⟩ := Map.C20_sample_partial M hr b b1 (ps.map fun p => [p.x, p.y]) [0]
    (by simp [hd]) (by simp [hnp])
  refine ⟨out.map (fun r => r.headD none), ?_, ?_, ?_⟩
  · unfold sampleMap
    rw [hint, o1]
  · have := o2.length_eq
    simp only [List.length_map] at this ⊢
    exact this.symm
  · intro t p v hp hv
    rw [List.getElem?_map] at hv
    obtain ⟨r, hr1, hr2⟩ := Option.map_eq_some_iff.1 hv
    have hrow : (ps.map fun p => [p.x, p.y])[t]? = some [p.x, p.y] := by rw [List.getElem?_map, hp]; rfl
    obtain ⟨r', e1, e2, e3⟩ := forall₂_get o2 t _ hrow
    rw [hr1] at e1
    simp only [Option.some.injEq] at e1
    subst e1
    rw [hax] at e2 e3
    have hcell : ∀ i j, InCell [edges nx wx cx, edges ny wy cy] [i, j] [p.x, p.y] ↔
        (InSpan nx wx cx p.x i ∧ InSpan ny wy cy p.y j) := by
      intro i j
      simp only [InCell, inSpan_iff, and_true]
    refine ⟨?_, ?_⟩
    · intro i j hi hj
      have := e2 [i, j] ((hcell i j).2 ⟨hi, hj⟩)
      rw [← hr2, this]
      simp only [List.map_cons, List.map_nil, List.headD_cons]
      rw [b3 i j hi.1 hj.1]
      rfl
    · intro hno
      have := e3 (by
        rintro ⟨c, hc⟩
        match c, hc with
        | [i, j], hc => exact hno i j ((hcell i j).1 hc)
        | [], hc => exact hc
        | [_], hc => exact hc.2
        | _ :: _ :: _ :: _, hc => exact hc.2.2)
      rw [← hr2, this]
      rfl

end

/-- The map that one detector makes of a sky. -/
theorem single_sky (lib : Lib F D T S K) (s : State F D (Point K) (Grid K K) (Arr K) (Grid K K) K)
    {g : Grid K K} {a : Arr K} {nx ny nz : ℕ} {wx wy wz cx cy cz : K} (h : Sky g a nx ny nz wx wy wz cx cy cz)
    (d : Name) (det : Det F D (Point K)) (hd : s.detectors.get? d = some det) (R : K → K → K → K) (W : K → K)
    (hdet : Detects lib det R W) (m n : ℕ) (hm : 2 ≤ m) (hn : 2 ≤ n) (norm : BeamNorm) (hnorm : norm ≠ .other)
    (hN : ∀ k < nz, ∀ N, Normalises norm (beamValues R m n wx wy (freq nz wz cz k)) N → N ≠ 0)
    (pad : PadArg) (hpad : pad = .none ∨ ∃ p : ℕ, pad = .int p)
    (hsum : ((List.range nz).map (fun k => W (freq nz wz cz k))).sum ≠ 0) :
    ∃ (M : Grid K K) (N : ℕ → K),
      single (grids lib) s (asField g a) { kernel := some (.pair m n), opts := (norm, pad) } d = .ok [M] ∧
      (∀ k < nz, Normalises norm (beamValues R m n wx wy (freq nz wz cz k)) (N k)) ∧
      MapOf g M a R W N nx ny nz m n wx wy wz cz := by
  obtain ⟨⟨r, hr, hR⟩, ⟨q, hq, hW⟩⟩ := hdet
  obtain ⟨M, N, e1, e2, e3⟩ := Map.C105_values h s.bestSpatial (lib.spatial r.fn r.kw) R hR (lib.spectral q.fn q.kw)
    W hW norm hnorm m n hm hn hN pad hpad hsum
  refine ⟨M, N, ?_, e2, e3⟩
  unfold Map.detectorMap at e1
  rcases hb : Map.setupBeam g s.bestSpatial (lib.spatial r.fn r.kw) norm (.pair m n) with e | b
  · rw [hb] at e1; cases e1
  rw [hb] at e1
  simp only at e1
  unfold Map.mapWithBeam at e1
  have hg : ({ g with grid := some a } : Grid K K) = g := by
    have := h.active
    cases g
    simp only at this
    subst this
    rfl
  rcases hc : g.convolveNew b (some [0, 1]) pad with e | c
  · rw [hc] at e1; cases e1
  rw [hc] at e1
  simp only at e1
  unfold single groupBeam
  simp only [hd, Option.bind_some, hr]
  have hbeam : setupBeam (grids lib) s (asField g a) r (some (.pair m n)) (norm, pad) = .ok b := by
    unfold setupBeam
    have hu : (asField g a).gridunits.length = 1 := h.units
    simp only [hu, if_true]
    have : (grids lib).beam (asField g a).axes r.fn r.kw (norm, pad) (some ((m : ℤ), (n : ℤ))) s.bestSpatial =
      lift (Map.setupBeam g s.bestSpatial (lib.spatial r.fn r.kw) norm (.pair m n)) := rfl
    rw [this, hb]
    rfl
  rw [hbeam]
  simp only
  have hconv : (grids lib).conv (asField g a).axes a b (norm, pad) = .ok c := by
    have : (grids lib).conv (asField g a).axes a b (norm, pad) = lift (convolveMap g a b pad) := rfl
    rw [this]
    unfold convolveMap
    rw [hg, hc]
    rfl
  have hcol : (grids lib).collapse (asField g a).axes c q.fn q.kw = .ok M := by
    have : (grids lib).collapse (asField g a).axes c q.fn q.kw = lift (averageMap c (lib.spectral q.fn q.kw)) := rfl
    have e : averageMap c (lib.spectral q.fn q.kw) = .ok M := e1
    rw [this, e]
    rfl
  have hprops : (asField g a).props = [a] := rfl
  rw [hprops]
  simp only [mapE, hconv]
  unfold detectorMap
  simp only [hd, Option.bind_some, hq]
  simp only [mapE, hcol]

variable [DecidableEq F] [DecidableEq D]

/-- Mapping succeeds, and what is held afterwards is each detector's map of the sky. -/
theorem mapped_sky (lib : Lib F D T S K) (s : State F D (Point K) (Grid K K) (Arr K) (Grid K K) K) (ho : Ordered s)
    (f : Name) (g : Grid K K) (a : Arr K) (nx ny nz m n : ℕ) (wx wy wz cx cy cz : K) (norm : BeamNorm) (pad : PadArg)
    (R : Name → K → K → K → K) (W : Name → K → K) (E : Name → List K) (sa : SampleArgs (Point K) T S)
    (h : Observing lib s f g a nx ny nz m n wx wy wz cx cy cz norm pad R W E sa) :
    ∃ s' M, ∃ N : Name → ℕ → K,
      mapFields (grids lib) s [f] { kernel := some (.pair m n), opts := (norm, pad) } = (s', .ok ()) ∧
      Ordered s' ∧ s'.detectors = s.detectors ∧ s'.detNames = s.detNames ∧ s'.fields = s.fields ∧
      s'.consistent.get? f = some true ∧ s'.maps.get? f = some ⟨g, s.detNames.map M⟩ ∧
      ∀ d ∈ s.detNames, (∀ k < nz, Normalises norm (beamValues (R d) m n wx wy (freq nz wz cz k)) (N d k)) ∧
        MapOf g (M d) a (R d) (W d) (N d) nx ny nz m n wx wy wz cz := by
  have hone : ∀ d ∈ s.detNames, ∃ (M : Grid K K) (N : ℕ → K),
      single (grids lib) s (asField g a) { kernel := some (.pair m n), opts := (norm, pad) } d = .ok [M] ∧
      (∀ k < nz, Normalises norm (beamValues (R d) m n wx wy (freq nz wz cz k)) (N k)) ∧
      MapOf g M a (R d) (W d) N nx ny nz m n wx wy wz cz := by
    intro d hd
    obtain ⟨det, hdet⟩ := Option.isSome_iff_exists.1 ((ho.dets d).1 hd)
    exact single_sky lib s h.sky d det hdet (R d) (W d) (h.detects d hd det hdet) m n h.kernelX h.kernelY norm h.known
      (h.beam d hd) pad h.padding (h.weights d hd)
  have : Nonempty (Grid K K) := ⟨g⟩
  choose! M N hM1 hM2 hM3 using hone
  have hcur : Cur (grids lib) s { kernel := some (.pair m n), opts := (norm, pad) } f
      ⟨g, s.detNames.map M⟩ := by
    rw [cur_iff (grids lib) s ho.detNodup _ f (asField g a) h.field]
    refine ⟨⟨by simp, by simp⟩, h.nonempty, rfl, ?_⟩
    rw [List.forall₂_map_right_iff, List.forall₂_same]
    intro d hd
    exact ⟨[], hM1 d hd⟩
  have hmapped := hcur.mapFields
  have ho' := step_ordered (grids lib) s (.mapFields [f] { kernel := some (.pair m n), opts := (norm, pad) }) ho
  simp only [step, hmapped] at ho'
  exact ⟨_, M, N, hmapped, ho', rfl, rfl, rfl, by simp [PyDict.get?_set], by simp [PyDict.get?_set],
    fun d hd => ⟨hM2 d hd, hM3 d hd⟩⟩

/-- **C125**, for positions or offsets that are not integers: after any history of an instrument, mapping a field that
is a sky and sampling it gives for each detector, at each position shifted by the detector's pointing offset, its noise
plus the mean over the channels, weighted by its spectral response, of the sky smeared by its beam, in the cell of that
position; NaN off the map. -/
theorem C125_observed_partial (lib : Lib F D T S K) (x : Setup F D K)
    (ops : List (Op F D (Point K) (Grid K K) (Arr K) (Grid K K) K (BeamNorm × PadArg)))
    (s : State F D (Point K) (Grid K K) (Arr K) (Grid K K) K) (hs : s = run (grids lib) (fresh x) ops)
    (f : Name) (g : Grid K K) (a : Arr K) (nx ny nz m n : ℕ) (wx wy wz cx cy cz : K) (norm : BeamNorm) (pad : PadArg)
    (R : Name → K → K → K → K) (W : Name → K → K) (E : Name → List K) (sa : SampleArgs (Point K) T S)
    (h : Observing lib s f g a nx ny nz m n wx wy wz cx cy cz norm pad R W E sa)
    (hfloat : ∀ p ∈ sa.positions, ∀ d det, s.detectors.get? d = some det → (p.isInt && det.pointing.isInt) = false) :
    ∃ s' cols, mapFields (grids lib) s [f] { kernel := some (.pair m n), opts := (norm, pad) } = (s', .ok ()) ∧
      sampleFields (grids lib) s' [f] sa = .ok [(f, cols)] ∧
      List.Forall₂ (Observed s a nx ny nz m n wx wy wz cx cy cz norm R W E sa.positions) s.detNames cols := by
  have ho : Ordered s := hs ▸ run_ordered (grids lib) ops _ (fresh_ordered x)
  obtain ⟨s', M, N, hmapped, ho', hdets, hnames, hfields, hcons, hmd, hM⟩ :=
    mapped_sky lib s ho f g a nx ny nz m n wx wy wz cx cy cz norm pad R W E sa h
  have hM2 := fun d hd => (hM d hd).1
  have hM3 := fun d hd => (hM d hd).2
  have hnoise : ∀ d nz, Noise (grids lib) s' f sa d nz ↔ Noise (grids lib) s f sa d nz := by
    intro d nz; unfold Noise; rw [hdets]
  have hfl : ∀ d det, s.detectors.get? d = some det →
      ∀ p ∈ sa.positions.map (fun p => (grids lib).shift p det.pointing), p.isInt = false := by
    intro d det hdet p hp
    obtain ⟨q, hq, rfl⟩ := List.mem_map.1 hp
    exact hfloat q hq d det hdet
  obtain ⟨cols, hcols⟩ := sampleFields_total (grids lib) s' ho' f sa (by rw [hnames]; exact h.nonempty)
    (by rw [hfields, h.field]; rfl) hcons _ hmd (by simp [hnames]) h.shape h.signal h.time
    (fun d hd => ⟨_, (hnoise d _).2 (h.noise d (hnames ▸ hd)).1, by
      rw [List.length_map]; exact (h.noise d (hnames ▸ hd)).2⟩)
    (fun d hd det hdet c hc => by
      rw [hdets] at hdet
      obtain ⟨d', hd', rfl⟩ := List.mem_map.1 hc
      obtain ⟨out, o1, o2, -⟩ := sampleMap_ok h.sky (hM3 d' hd') _ (hfl d det hdet)
      refine ⟨out, ?_, ?_⟩
      · change lift (sampleMap (M d') _) = _
        rw [o1]; rfl
      · rw [o2]; simp)
  refine ⟨s', cols, hmapped, hcols, ?_⟩
  obtain ⟨fs, groups, q1, -, q3, q4, q5⟩ := sampleFields_ok (grids lib) s' [f] sa _ hcols
  obtain ⟨-, r2, r3⟩ := sampleField_spec (grids lib) s' ho'.detNodup sa f groups q3 _ hmd cols (q5 (f, cols) (by simp))
  rw [hnames] at r2 r3
  refine forall₂_of_get r2.symm ?_
  intro k d col hd hcol
  have hdm : d ∈ s.detNames := List.mem_of_getElem? hd
  obtain ⟨det, hdet⟩ := Option.isSome_iff_exists.1 ((ho.dets d).1 hdm)
  obtain ⟨nz', n1, n2⟩ := r3 k d col hd hcol
  rw [if_pos h.signal] at n2
  obtain ⟨c, sg, c1, c2, c3, c4⟩ := n2
  have hc : c = M d := by
    simp only [List.getElem?_map, hd, Option.map_some, Option.some.injEq] at c1
    exact c1.symm
  subst hc
  have hE := noiseOf_of (grids lib) s' sa f d _ ((hnoise d _).2 (h.noise d hdm).1)
  rw [hE] at n1
  simp only [Except.ok.injEq] at n1
  subst n1
  obtain ⟨det', hdet', hsg⟩ := c2
  rw [hdets, hdet] at hdet'
  simp only [Option.some.injEq] at hdet'
  subst hdet'
  obtain ⟨out, o1, o2, o3⟩ := sampleMap_ok h.sky (hM3 d hdm) _ (hfl d det hdet)
  have hsg' : lift (sampleMap (M d) (sa.positions.map fun p => (grids lib).shift p det.pointing)) = .ok sg := hsg
  rw [o1] at hsg'
  simp only [lift, Except.ok.injEq] at hsg'
  subst hsg'
  have hlen := (h.noise d hdm).2
  refine ⟨det, N d, hdet, hM2 d hdm, ?_, ?_⟩
  · rw [c4, List.length_zipWith, o2]
    simp [hlen]
  · intro t p e v hp he hv
    rw [c4, List.getElem?_zipWith, List.getElem?_map, he] at hv
    rcases hw : out[t]? with _ | w
    · rw [hw] at hv; cases hv
    rw [hw] at hv
    simp only [Option.map_some, Option.some.injEq] at hv
    obtain ⟨w1, w2⟩ := o3 t (shiftPoint p det.pointing) w (by rw [List.getElem?_map, hp]; rfl) hw
    refine ⟨?_, ?_⟩
    · intro i j hi hj
      rw [← hv, w1 i j hi hj]
      rfl
    · intro hno
      rw [← hv, w2 hno]
      rfl

/-- C125, against: at integer positions a field cannot be sampled if the pointing offset of some detector is made of
integers, as it is when none is given: `TypeError`. -/
theorem C125_integer_fails (lib : Lib F D T S K) (x : Setup F D K)
    (ops : List (Op F D (Point K) (Grid K K) (Arr K) (Grid K K) K (BeamNorm × PadArg)))
    (s : State F D (Point K) (Grid K K) (Arr K) (Grid K K) K) (hs : s = run (grids lib) (fresh x) ops)
    (f : Name) (g : Grid K K) (a : Arr K) (nx ny nz m n : ℕ) (wx wy wz cx cy cz : K) (norm : BeamNorm) (pad : PadArg)
    (R : Name → K → K → K → K) (W : Name → K → K) (E : Name → List K) (sa : SampleArgs (Point K) T S)
    (h : Observing lib s f g a nx ny nz m n wx wy wz cx cy cz norm pad R W E sa)
    (hsome : sa.positions ≠ []) (hint : ∀ p ∈ sa.positions, p.isInt = true) (d : Name) (hd : d ∈ s.detNames)
    (det : Det F D (Point K)) (hdet : s.detectors.get? d = some det) (hoff : det.pointing.isInt = true) :
    ∃ s' e, mapFields (grids lib) s [f] { kernel := some (.pair m n), opts := (norm, pad) } = (s', .ok ()) ∧
      sampleFields (grids lib) s' [f] sa = .error e := by
  have ho : Ordered s := hs ▸ run_ordered (grids lib) ops _ (fresh_ordered x)
  obtain ⟨s', M, N, hmapped, ho', hdets, hnames, hfields, hcons, hmd, hM⟩ :=
    mapped_sky lib s ho f g a nx ny nz m n wx wy wz cx cy cz norm pad R W E sa h
  rcases hout : sampleFields (grids lib) s' [f] sa with e | out
  · exact ⟨s', e, hmapped, hout⟩
  exfalso
  obtain ⟨fs, groups, q1, -, q3, q4, q5⟩ := sampleFields_ok (grids lib) s' [f] sa _ hout
  have hfs : fs = [f] := by
    unfold chosenFields at q1
    rw [if_neg (by simp)] at q1
    split at q1
    · cases q1
    · simp only [Except.ok.injEq] at q1; exact q1.symm
  have hf : f ∈ out.map Prod.fst := by rw [q4, hfs]; simp
  obtain ⟨p, hp, rfl⟩ := List.mem_map.1 hf
  obtain ⟨-, r2, r3⟩ := sampleField_spec (grids lib) s' ho'.detNodup sa p.1 groups q3 _ hmd p.2 (q5 p hp)
  rw [hnames] at r2 r3
  obtain ⟨k, hk⟩ := List.getElem?_of_mem hd
  have hk' : k < p.2.length := by rw [r2]; exact (List.getElem?_eq_some_iff.1 hk).1
  obtain ⟨nz', -, n2⟩ := r3 k d _ hk (List.getElem?_eq_getElem hk')
  rw [if_pos h.signal] at n2
  obtain ⟨c, sg, c1, ⟨det', c2, c3⟩, -⟩ := n2
  have hc : c = M d := by
    simp only [List.getElem?_map, hk, Option.map_some, Option.some.injEq] at c1
    exact c1.symm
  subst hc
  rw [hdets, hdet] at c2
  simp only [Option.some.injEq] at c2
  subst c2
  obtain ⟨hr, hdim, hnp, -⟩ := regular_map h.sky (hM d hd).2
  obtain ⟨b, b1, -⟩ := (hM d hd).2.values
  have hsg : lift (sampleMap (M d) (sa.positions.map fun p => (grids lib).shift p det.pointing)) = .ok sg := c3
  have hflag : (!(sa.positions.map fun p => (grids lib).shift p det.pointing).isEmpty &&
      (sa.positions.map fun p => (grids lib).shift p det.pointing).all (·.isInt)) = true := by
    rw [Bool.and_eq_true]
    refine ⟨by simpa using hsome, ?_⟩
    rw [List.all_eq_true]
    intro q hq
    obtain ⟨p', hp', rfl⟩ := List.mem_map.1 hq
    change (p'.isInt && det.pointing.isInt) = true
    rw [hint p' hp', hoff]
    rfl
  unfold sampleMap at hsg
  rw [hflag, Map.C20_integer_positions_fail (M d) b b1 _ [0] (by simp [hdim]) (by simp [hnp])] at hsg
  cases hsg

/-- C125, the default kernel: it has `10 r + 1` cells along each axis, `r` being the resolution of the instrument in
cells, rounded. -/
theorem C125_default (lib : Lib F D T S K) (s : State F D (Point K) (Grid K K) (Arr K) (Grid K K) K) (f : Name)
    (g : Grid K K) (a : Arr K) (nx ny nz : ℕ) (wx wy wz cx cy cz : K) (h : Sky g a nx ny nz wx wy wz cx cy cz)
    (hf : s.fields.get? f = some (asField g a)) (b : K) (hb : s.bestSpatial = some b) (hx : wx ≤ b) (hy : wy ≤ b)
    (norm : BeamNorm) (pad : PadArg) :
    ∃ (rx ry : ℕ), 1 ≤ rx ∧ 1 ≤ ry ∧ |b / wx - rx| ≤ 1 / 2 ∧ |b / wy - ry| ≤ 1 / 2 ∧
      mapFields (grids lib) s [f] { opts := (norm, pad) } =
        mapFields (grids lib) s [f]
          { kernel := some (.pair (10 * rx + 1 : ℕ) (10 * ry + 1 : ℕ)), opts := (norm, pad) } := by
  obtain ⟨⟨-, px⟩, ⟨-, py⟩, -⟩ := Map.sky_pos h
  have hpix := Map.sky_pixels h
  have key : ∀ w : K, 0 < w → w ≤ b → ∃ r : ℕ, 1 ≤ r ∧ (Map.rint (b / w) : ℤ) = r ∧ |b / w - r| ≤ 1 / 2 := by
    intro w hw hb
    have h1 : 1 ≤ b / w := by rwa [le_div_iff₀ hw, one_mul]
    have hn := Map.rint_near (b / w)
    have : (0 : K) < Map.rint (b / w) := by
      have := (abs_le.1 hn).2
      linarith
    have hpos : 0 < Map.rint (b / w) := by exact_mod_cast this
    refine ⟨(Map.rint (b / w)).toNat, by omega, by omega, ?_⟩
    have e : (((Map.rint (b / w)).toNat : ℕ) : K) = Map.rint (b / w) := by
      have : (((Map.rint (b / w)).toNat : ℤ) : K) = Map.rint (b / w) := by
        rw [Int.toNat_of_nonneg hpos.le]
      exact_mod_cast this
    rw [e]
    exact hn
  obtain ⟨rx, x1, x2, x3⟩ := key wx px hx
  obtain ⟨ry, y1, y2, y3⟩ := key wy py hy
  refine ⟨rx, ry, x1, y1, x3, y3, ?_⟩
  have hbeam : ∀ sp : List K → List K → List K → Except Sim.Err (Arr K),
      Map.setupBeam g (some b) sp norm .none =
        Map.setupBeam g (some b) sp norm (.pair (10 * rx + 1 : ℕ) (10 * ry + 1 : ℕ)) := by
    intro sp
    unfold Map.setupBeam
    have c1 : ¬ (KernelArg.none = KernelArg.none ∧ some b = none) := by simp
    have c2 : ¬ (KernelArg.pair (10 * rx + 1 : ℕ) (10 * ry + 1 : ℕ) = KernelArg.none ∧ some b = none) := by simp
    rw [if_neg c1, if_neg c2]
    have : Map.kernelCells (some b) g.pix.vals .none =
        Map.kernelCells (some b) g.pix.vals (.pair (10 * rx + 1 : ℕ) (10 * ry + 1 : ℕ)) := by
      simp only [Map.kernelCells, hpix, List.getD_cons_zero, List.getD_cons_succ, x2, y2]
      push_cast
      simp [mul_comm]
    rw [this]
  have hgb : ∀ gr, groupBeam (grids lib) s (asField g a) { opts := (norm, pad) } gr =
      groupBeam (grids lib) s (asField g a)
        { kernel := some (.pair (10 * rx + 1 : ℕ) (10 * ry + 1 : ℕ)), opts := (norm, pad) } gr := by
    intro gr
    unfold groupBeam
    simp only
    cases gr with
    | nil => rfl
    | cons d ds =>
      simp only
      rcases (s.detectors.get? d).bind (·.spatial) with _ | r
      · rfl
      simp only [setupBeam, hb]
      split
      · exact congrArg lift (hbeam (lib.spatial r.fn r.kw))
      · rfl
  have hgm : groupMaps (grids lib) s (asField g a) { opts := (norm, pad) } =
      groupMaps (grids lib) s (asField g a)
        { kernel := some (.pair (10 * rx + 1 : ℕ) (10 * ry + 1 : ℕ)), opts := (norm, pad) } := by
    funext gr
    unfold groupMaps
    rw [hgb]
  unfold mapFields
  rcases hc : chosenFields s [f] with e | fs
  · rfl
  have hfs : fs = [f] := by
    unfold chosenFields at hc
    rw [if_neg (by simp)] at hc
    split at hc
    · cases hc
    · simp only [Except.ok.injEq] at hc; exact hc.symm
  subst hfs
  simp only [hb, Option.isNone_some, Option.isSome_none, Bool.and_false, Bool.false_and, Bool.false_eq_true, if_false]
  have hbg : ∀ k, beamGroups s ({ kernel := k, opts := (norm, pad) } : MapArgs (Grid K K) (BeamNorm × PadArg)) =
    cloneGroups (sameSpatial s) s.detNames := fun _ => rfl
  rw [hbg, hbg]
  rcases cloneGroups (sameSpatial s) s.detNames with e | groups
  · rfl
  simp only [mapLoop, hf, mapField, hgm]

/-- C125 in full: whatever the type of the positions. -/
def C125_full (F D T S K : Type) [_root_.Field K] [LinearOrder K] [FloorRing K] [DecidableEq F] [DecidableEq D] :
    Prop :=
  ∀ (lib : Lib F D T S K) (x : Setup F D K)
    (ops : List (Op F D (Point K) (Grid K K) (Arr K) (Grid K K) K (BeamNorm × PadArg)))
    (s : State F D (Point K) (Grid K K) (Arr K) (Grid K K) K), s = run (grids lib) (fresh x) ops →
    ∀ (f : Name) (g : Grid K K) (a : Arr K) (nx ny nz m n : ℕ) (wx wy wz cx cy cz : K) (norm : BeamNorm) (pad : PadArg)
      (R : Name → K → K → K → K) (W : Name → K → K) (E : Name → List K) (sa : SampleArgs (Point K) T S),
      Observing lib s f g a nx ny nz m n wx wy wz cx cy cz norm pad R W E sa →
      ∃ s' cols, mapFields (grids lib) s [f] { kernel := some (.pair m n), opts := (norm, pad) } = (s', .ok ()) ∧
        sampleFields (grids lib) s' [f] sa = .ok [(f, cols)] ∧
        List.Forall₂ (Observed s a nx ny nz m n wx wy wz cx cy cz norm R W E sa.positions) s.detNames cols

/-! ### An example -/

/-- Responses that are the same everywhere, no noise. -/
def flatLib : Lib Unit Unit Unit Unit ℚ where
  emptyKw := ()
  spatial _ _ := Map.flatBeam
  spectral _ _ := Map.flatBand
  noise _ _ n _ _ := .ok (List.replicate n 0)

/-- An instrument with two detectors (one pointed off centre) and the field with one point. -/
def pointOps : List (Op Unit Unit (Point ℚ) (Grid ℚ ℚ) (Arr ℚ) (Grid ℚ ℚ) ℚ (BeamNorm × PadArg)) :=
  [.addDetector { name := some "a", spatial := .fn (), spectral := .fn (), noise := .fn () },
   .addDetector { name := some "b", spatial := .fn (), spectral := .fn (), noise := .fn (),
                  offsets := .pair ⟨false, 2, 0⟩ },
   .addField { grid := asField Map.pointField ⟨[5, 5, 2, 1], fun i => if i = [2, 2, 1, 0] then 3 else 0⟩,
               name := some "sky" }]

/-- No defaults, no units. -/
def plainSetup : Setup Unit Unit ℚ := ⟨{}, {}, {}, none, none, none, none, none⟩

def pointState : State Unit Unit (Point ℚ) (Grid ℚ ℚ) (Arr ℚ) (Grid ℚ ℚ) ℚ :=
  run (grids flatLib) (fresh plainSetup) pointOps

theorem pointState_dets : pointState.detNames = ["a", "b"] ∧
    pointState.detectors = [("a", ⟨some ⟨(), ()⟩, some ⟨(), ()⟩, some ⟨(), ()⟩, ⟨true, 0, 0⟩⟩),
      ("b", ⟨some ⟨(), ()⟩, some ⟨(), ()⟩, some ⟨(), ()⟩, ⟨false, 2, 0⟩⟩)] ∧
    pointState.fields = [("sky", asField Map.pointField ⟨[5, 5, 2, 1], fun i => if i = [2, 2, 1, 0] then 3 else 0⟩)] :=
  ⟨by rfl, by rfl, by rfl⟩

theorem point_observing (ps : List (Point ℚ)) : Observing flatLib pointState "sky" Map.pointField
    ⟨[5, 5, 2, 1], fun i => if i = [2, 2, 1, 0] then 3 else 0⟩ 5 5 2 3 3 1 1 1 0 0 0 .peak .none
    (fun _ _ _ _ => 1) (fun _ _ => 1) (fun _ => List.replicate ps.length 0)
    { positions := ps, withNoise := false, seed := fun _ _ => () } := by
  obtain ⟨h1, h2, h3⟩ := pointState_dets
  refine ⟨Map.pointField_sky, ?_, ?_, ?_, by decide, by decide, by decide, ?_, .inl rfl, ?_, rfl, rfl, ?_, ?_⟩
  · rw [h3]; rfl
  · rw [h1]; simp
  · intro d hd det hdet
    rw [h2] at hdet
    rw [h1] at hd
    simp only [List.mem_cons, List.not_mem_nil, or_false] at hd
    rcases hd with rfl | rfl
    · simp only [PyDict.get?, Option.some.injEq] at hdet
      simp at hdet
      subst hdet
      exact ⟨⟨_, rfl, Map.flatBeam_responds⟩, ⟨_, rfl, Map.flatBand_weights⟩⟩
    · simp [PyDict.get?] at hdet
      subst hdet
      exact ⟨⟨_, rfl, Map.flatBeam_responds⟩, ⟨_, rfl, Map.flatBand_weights⟩⟩
  · intro d _ k _ N hN
    exact Map.flat_peak _ _ _ _ _ N hN
  · intro d _; simp
  · intro h; cases h
  · intro d _
    refine ⟨?_, by simp⟩
    unfold Noise
    rw [if_neg (by simp)]
    simp only [List.map_replicate]
    rfl

/-- The point is in the middle: the first detector, pointed there, reads half its value, as one of two channels has
it; the second is pointed two cells further, where its beam does not reach the point; a position off the map reads
NaN. -/
example : (match mapFields (grids flatLib) pointState ["sky"] { kernel := some (.pair 3 3), opts := (.peak, .none) } with
    | (s', .ok ()) =>
      (match sampleFields (grids flatLib) s' ["sky"]
        { positions := [⟨false, 0, 0⟩, ⟨false, 7, 0⟩], withNoise := false, seed := fun _ _ => () } with
      | .ok out => decide (out = [("sky", [[some (3 / 2), none], [some 0, none]])])
      | .error _ => false)
    | _ => false) = true := by
  decide +kernel

/-- C125 is false in full: integer positions. -/
theorem C125_full_false : ¬ C125_full Unit Unit Unit Unit ℚ := by
  intro h
  obtain ⟨s', cols, h1, h2, -⟩ := h flatLib plainSetup pointOps pointState rfl "sky" _ _ _ _ _ _ _ _ _ _ _ _ _ _ _ _
    _ _ _ (point_observing [⟨true, 0, 0⟩])
  obtain ⟨s'', e, g1, g2⟩ := C125_integer_fails flatLib plainSetup pointOps pointState rfl "sky" _ _ _ _ _ _ _ _ _ _ _
    _ _ _ _ _ _ _ _ (point_observing [⟨true, 0, 0⟩]) (by simp) (by simp) "a" (by rw [pointState_dets.1]; simp) _
    (by rw [pointState_dets.2.1]; rfl) rfl
  rw [h1] at g1
  simp only [Prod.mk.injEq, and_true] at g1
  subst g1
  rw [h2] at g2
  cases g2

end Verif.Inst
