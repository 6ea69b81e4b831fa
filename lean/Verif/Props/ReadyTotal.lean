import Verif.Props.ReadyNoise
import Verif.Props.TotalNoise

/-!
# C151: ready-made properties observed with white noise
-/

set_option linter.unusedSectionVars false

namespace Verif.Ready

open Verif.Gal (Rng World realFn)
open Verif.Gal.Spec (Random Fraction)
open Verif.Handler (Name MakeOpts MultiProp hasProperty make)
open Verif.Map (Grid Arr NArr BeamNorm PadArg)
open Verif.HGrid (lcGrid)
open Verif.HGrid.Spec
open Verif.Inst (Lib Setup Op Point SampleArgs run grids fresh addField mapFields sampleFields asField)
open Verif.Inst.Spec (Source RecordedOf Equipped NoNaN plainGrid White Fresh Sampled noisy)
open MeasureTheory ProbabilityTheory
open Spec

variable {Ω G : Type} [MeasurableSpace Ω] {P : Measure Ω} {R : Ω → Rng ℝ G}

/-- Samples that are numbers with noise are numbers without. -/
theorem sample_of_noisy (dets : List Name) (z : Name → Name → ℕ → ℝ) (f : Name) (cols cols' : List (List (Option ℝ)))
    (h : noisy dets z [(f, cols)] = [(f, cols')]) (i t : ℕ) (x : ℝ) (hx : SampleIs cols' i t x) :
    ∃ d y, dets[i]? = some d ∧ SampleIs cols i t y := by
  simp only [noisy, List.map_cons, List.map_nil, List.cons.injEq, Prod.mk.injEq, true_and, and_true] at h
  obtain ⟨c, h1, h2⟩ := hx
  rw [← h, List.getElem?_map] at h1
  obtain ⟨q, q1, rfl⟩ := Option.map_eq_some_iff.1 h1
  obtain ⟨q2, q3⟩ := List.getElem?_zip_eq_some.1 q1
  rw [List.getElem?_map] at h2
  obtain ⟨e, e1, e2⟩ := Option.map_eq_some_iff.1 h2
  rw [List.getElem?_zipIdx] at e1
  obtain ⟨y, y1, rfl⟩ := Option.map_eq_some_iff.1 e1
  obtain ⟨v, rfl, -⟩ := Option.map_eq_some_iff.1 e2
  exact ⟨q.1, v, q2, q.2, q3, y1⟩

/-- The detectors stay as they are when a field is added and mapped. -/
theorem detectors_kept {F D N : Type} [DecidableEq F] [DecidableEq D] (lib : Lib F D ℝ N ℝ)
    (ins s1 s2 : Inst.State F D (Point ℝ) (Grid ℝ ℝ) (Arr ℝ) (Grid ℝ ℝ) ℝ) (fa : Inst.FieldArgs (Grid ℝ ℝ) (Arr ℝ) ℝ)
    (fld : Name) (names : List Name) (ma : Inst.MapArgs (Grid ℝ ℝ) (BeamNorm × PadArg))
    (h1 : addField ins fa = (s1, .ok fld)) (h2 : mapFields (grids lib) s1 names ma = (s2, .ok ())) :
    s2.detectors = ins.detectors ∧ s2.detNames = ins.detNames := by
  obtain ⟨ms, cs, e, -⟩ := Inst.mapFields_shape (grids lib) s1 names ma
  rw [h2] at e
  simp only at e
  rcases Inst.addField_cases ins fa with ⟨er, h⟩ | ⟨n, g, j, h, -⟩
  · rw [h] at h1; cases h1
  · rw [h] at h1
    simp only [Prod.mk.injEq] at h1
    rw [e, ← h1.1]
    exact ⟨rfl, rfl⟩

/-- **C151**: maps of a ready-made property observed with white noise.  The covariance of two samples is the sum over
the objects of what is recorded of one unit of their light in the one and the other, times the variance of their light;
for a sample with itself, the variance of the noise is added. -/
theorem C151_total {F D N Ω' : Type} [DecidableEq F] [DecidableEq D] [MeasurableSpace Ω'] (Q : Measure Ω')
    [IsProbabilityMeasure Q] (hR : Random P R) (hS : Separate P R)
    (hT : Unrelated P R) (E : Env ℝ) (erf : ℝ → ℝ)
    (hE : E.fn = realFn erf)
    (w : World G) (p : Which) (hp : p ≠ .coSled)
    (hset : p = .behrooziSfr ∨ p = .behrooziMass → E.setUp = true)
    (s : Handler.State ℝ) (hr : Handler.Spec.Reachable s) (o : MakeOpts ℝ) (hdisk : o.writeDisk = false)
    (hkw : o.otherKws = []) (name : Name) (hn : o.rename = some [name] ∨ o.rename = none ∧ name = (label p).1)
    (hmc : name ≠ "mass_cuts") (hfree : o.overwrite = true ∨ hasProperty s name = false)
    (mass sfr redshift : List ℝ)
    (hi : Inputs s o.useAll o.remap (Handler.Spec.selection s o.useAll).length p mass sfr redshift)
    (hpul : p = .pullenCo → (Handler.Spec.selection s o.useAll).length ≤ 100 ∨ ∃ z0, ∀ z ∈ redshift, z = z0)
    (hage : p = .pullenCo → ∀ z ∈ redshift, 0 < E.age z) (hmass : p = .yangCii → ∀ m ∈ mass, 0 ≤ m)
    (hpos : name ∉ ["ra", "dec", "redshift"]) (inH : Option Bool) (pos : List (ℝ × ℝ × ℝ))
    (hcat : Catalogue s o.useAll inH ["ra", "dec", "redshift"] [] (pos.map (fun q => ([q.1, q.2.1, q.2.2], []))))
    (hne : pos ≠ [])
    (meta' : LCH.Meta ℝ) (line : Option ℝ) (hz : line ≠ none → ∀ q ∈ pos, 1 + q.2.2 ≠ 0)
    (res ralim declim zlim : Option (NArr ℝ)) (norm : Option ℝ) (a b c d e f wx wy wz : ℝ)
    (h1 : Interval (raDefault meta') ralim a b) (h2 : Interval (decDefault meta') declim c d)
    (h3 : Interval (zDefault meta' line) zlim e f)
    (hpix : pixels [b - a, d - c, f - e] res = [wx, wy, wz]) (hx : 0 < wx) (hy : 0 < wy) (hw : 0 < wz)
    (hxa : (1 + 1 / 20) * wx < b - a) (hyc : (1 + 1 / 20) * wy < d - c) (hze : (1 + 1 / 20) * wz < f - e)
    (hres : ∀ r, res = some r → r.isInt = false)
    (hlim : ∃ l ∈ [ralim, declim, zlim], ∀ r, l = some r → r.isInt = false) :
    ∃ (s' : Ω → Handler.State ℝ) (g : Ω → Grid ℝ (WithTop ℝ)) (sky : Ω → Arr ℝ) (nx ny nz : ℕ),
      (b - a - wx / 20 ≤ nx * wx ∧ nx * wx < b - a + 19 / 20 * wx) ∧
      (d - c - wy / 20 ≤ ny * wy ∧ ny * wy < d - c + 19 / 20 * wy) ∧
      (f - e - wz / 20 ≤ nz * wz ∧ nz * wz < f - e + 19 / 20 * wz) ∧
      (∀ ω, (∃ m, prop E (R ω) w p = .ok m ∧ make s m o = (s' ω, .ok ())) ∧
        lcGrid (s' ω) meta' [name] line inH o.useAll res ralim declim zlim norm = some (.ok (g ω)) ∧
        NoNaN (g ω) 1 ∧ (plainGrid (g ω)).grid = some (sky ω)) ∧
      ∀ (lib : Lib F D ℝ N ℝ) (x : Setup F D ℝ)
        (iops : List (Op F D (Point ℝ) (Grid ℝ ℝ) (Arr ℝ) (Grid ℝ ℝ) ℝ (BeamNorm × PadArg)))
        (ins : Inst.State F D (Point ℝ) (Grid ℝ ℝ) (Arr ℝ) (Grid ℝ ℝ) ℝ) (fld : Name) (m n : ℕ) (beam : BeamNorm)
        (pad : PadArg) (B : Name → ℝ → ℝ → ℝ → ℝ) (W : Name → ℝ → ℝ)
        (sa : SampleArgs (Point ℝ) ℝ N) (next : N → ℝ × N) (seed : Ω' → Name → Name → N) (rms bias : Name → ℝ) (dt : ℝ),
        ins = run (grids lib) (fresh x) iops → ins.fields.has fld = false →
        (∀ r, ins.bestSpatial = some r → wx ≤ r ∧ wy ≤ r) → (∀ r, ins.bestSpectral = some r → wz ≤ r) →
        Equipped lib ins fld nz m n wx wy wz ((e + f) / 2) beam pad B W
          (fun _ => List.replicate sa.positions.length 0) { sa with signal := true, withNoise := false } →
        (∀ u ∈ sa.positions, ∀ d det, ins.detectors.get? d = some det → (u.isInt && det.pointing.isInt) = false) →
        Fresh Q next seed → 0 < dt → (∀ d ∈ ins.detNames, 0 ≤ rms d ∧ White lib ins next d (rms d) (bias d)) →
        ∃ (s1 s2 : Ω → Inst.State F D (Point ℝ) (Grid ℝ ℝ) (Arr ℝ) (Grid ℝ ℝ) ℝ)
          (cols : Ω × Ω' → List (List (Option ℝ))) (unit : ℕ → List (List (Option ℝ))),
          (∀ ω, addField ins { grid := asField (plainGrid (g ω)) (sky ω), name := some fld } = (s1 ω, .ok fld) ∧
            mapFields (grids lib) (s1 ω) [fld] { kernel := some (.pair m n), opts := (beam, pad) } = (s2 ω, .ok ())) ∧
          (∀ p, sampleFields (grids lib) (s2 p.1) [fld]
            { sa with signal := true, withNoise := true, dt := some dt, seed := seed p.2 } = .ok [(fld, cols p)]) ∧
          (∀ k < pos.length, List.Forall₂ (RecordedOf ins (sources line [pos.getD k 0] (fun _ => 1)) (norm.getD 1)
            nx ny nz m n wx wy wz ((a + b) / 2) ((c + d) / 2) ((e + f) / 2) beam B W
            (fun _ => List.replicate sa.positions.length 0) sa.positions) ins.detNames (unit k)) ∧
          (∀ k < pos.length, ∀ (i t : ℕ) (x : ℝ), SampleIs (unit k) i t x →
            ∃ v : Ω × Ω' → ℝ, ∀ p, SampleIs (cols p) i t (v p)) ∧
          ∀ (i t i' t' : ℕ) (dn : Name) (v v' : Ω × Ω' → ℝ), ins.detNames[i]? = some dn →
            (∀ p, SampleIs (cols p) i t (v p)) → (∀ p, SampleIs (cols p) i' t' (v' p)) →
            ∃ γ γ' : ℕ → ℝ, (∀ k < pos.length, SampleIs (unit k) i t (γ k)) ∧
              (∀ k < pos.length, SampleIs (unit k) i' t' (γ' k)) ∧
              cov[v, v'; P.prod Q] = (∑ k ∈ Finset.range pos.length,
                γ k * γ' k * spread E p (mass.getD k 0) (sfr.getD k 0) (redshift.getD k 0)) +
                  if i = i' ∧ t = t' then rms dn ^ 2 / dt else 0 := by
  have hP : IsProbabilityMeasure P := (normals_random hR w 1 p 0 one_pos).isProbabilityMeasure
  have hΩ' : Nonempty Ω' := nonempty_of_isProbabilityMeasure Q
  obtain ⟨s', g, sky, nx, ny, nz, g1, g2, g3, g4, g5⟩ := C148_noise (F := F) (D := D) (T := ℝ) (S := N) hR hS hT E erf hE
    w p hp hset s hr o hdisk hkw name hn hmc hfree
    mass sfr redshift hi hpul hage hmass hpos inH pos hcat hne meta' line hz res ralim declim zlim norm a b c d e f wx wy wz
    h1 h2 h3 hpix hx hy hw hxa hyc hze hres hlim
  refine ⟨s', g, sky, nx, ny, nz, g1, g2, g3, g4, ?_⟩
  intro lib x iops ins fld m n beam pad B W sa next seed rms bias dt i1 i2 i3 i4 i5 i6 hseed hdt hwh
  obtain ⟨s1, s2, cols0, unit, o1, o2, o3, o4, o5⟩ := g5 lib x iops ins fld m n beam pad B W _ _ i1 i2 i3 i4 i5 i6
  have kept := fun ω => detectors_kept lib ins (s1 ω) (s2 ω) _ fld _ _ (o1 ω).1 (o1 ω).2.1
  have hnd : ins.detNames.Nodup := by
    have := Inst.run_ordered (grids lib) iops _ (Inst.fresh_ordered x)
    rw [← i1] at this
    exact this.detNodup
  have hrun : ∀ ω, ∃ (x : Setup F D ℝ)
      (ops : List (Op F D (Point ℝ) (Grid ℝ ℝ) (Arr ℝ) (Grid ℝ ℝ) ℝ (BeamNorm × PadArg))),
      s2 ω = run (grids lib) (fresh x) ops := by
      intro ω
      refine ⟨x, iops ++ [.addField { grid := asField (plainGrid (g ω)) (sky ω), name := some fld },
        .mapFields [fld] { kernel := some (.pair m n), opts := (beam, pad) }], ?_⟩
      have e1 := congrArg Prod.fst (o1 ω).1
      have e2 := congrArg Prod.fst (o1 ω).2.1
      unfold run at i1 ⊢
      rw [List.foldl_append, ← i1]
      simp only [List.foldl_cons, List.foldl_nil, Inst.step]
      rw [e1, e2]
  have hwhite : ∀ ω, ∀ d ∈ ins.detNames, 0 ≤ rms d ∧ White lib (s2 ω) next d (rms d) (bias d) := by
      intro ω dn hdn
      refine ⟨(hwh dn hdn).1, ?_⟩
      obtain ⟨det, r, w1, w2⟩ := (hwh dn hdn).2
      exact ⟨det, r, by rw [(kept ω).1]; exact w1, w2⟩
  obtain ⟨out, q1, q2⟩ := Inst.C150_covariance P Q lib s2 hrun ins.detNames (fun ω => (kept ω).2) next seed hseed rms bias
    hwhite dt hdt [fld] sa _ (fun ω => (o1 ω).2.2)
  have hout : ∀ p, ∃ cols', out p = [(fld, cols')] ∧
      noisy ins.detNames (Inst.level next dt rms bias (seed p.2)) [(fld, cols0 p.1)] = [(fld, cols')] := by
    intro p
    obtain ⟨x', ops', hx'⟩ := hrun p.1
    have := Inst.samples_level lib x' ops' (s2 p.1) hx' next (seed p.2) rms bias (by rw [(kept p.1).2]; exact hwhite p.1)
      dt hdt [fld] sa _ (o1 p.1).2.2
    rw [q1 p, (kept p.1).2] at this
    exact ⟨_, Except.ok.inj this, rfl⟩
  choose cols c1 c2 using hout
  have lift : ∀ cols : List (List (Option ℝ)), ∀ i t x, SampleIs cols i t x → Sampled [(fld, cols)] 0 fld i t x :=
    fun cols i t x ⟨c, h1, h2⟩ => ⟨cols, c, rfl, h1, h2⟩
  have low : ∀ cols : List (List (Option ℝ)), ∀ i t x, Sampled [(fld, cols)] 0 fld i t x → SampleIs cols i t x := by
    rintro cols i t x ⟨cs, c, h0, h1, h2⟩
    cases h0
    exact ⟨c, h1, h2⟩
  have back : ∀ i t (v : Ω × Ω' → ℝ), (∀ p, SampleIs (cols p) i t (v p)) →
      ∃ (dn : Name) (y : Ω → ℝ), ins.detNames[i]? = some dn ∧ ∀ ω, SampleIs (cols0 ω) i t (y ω) := by
    intro i t v hv
    obtain ⟨ω'⟩ := hΩ'
    have : ∀ ω, ∃ y, SampleIs (cols0 ω) i t y := fun ω => by
      obtain ⟨dn, y, -, h⟩ := sample_of_noisy _ _ _ _ _ (c2 (ω, ω')) i t _ (hv (ω, ω'))
      exact ⟨y, h⟩
    choose y hy using this
    obtain ⟨ω⟩ := nonempty_of_isProbabilityMeasure P
    obtain ⟨dn, -, h, -⟩ := sample_of_noisy _ _ _ _ _ (c2 (ω, ω')) i t _ (hv (ω, ω'))
    exact ⟨dn, y, h, hy⟩
  refine ⟨s1, s2, cols, unit, fun ω => ⟨(o1 ω).1, (o1 ω).2.1⟩, fun p => by rw [q1, c1], o2, ?_, ?_⟩
  · intro k hk i t y hy
    have hy' := hy
    obtain ⟨cu, u1, u2⟩ := hy'
    obtain ⟨dn, hdn, -⟩ := Inst.forall₂_right (o2 k hk) i cu u1
    obtain ⟨v, hv⟩ := o3 k hk i t y hy
    obtain ⟨u, u', r1, -⟩ := q2 0 0 fld fld i i dn dn t t v v hdn hdn (fun ω => lift _ _ _ _ (hv ω))
      (fun ω => lift _ _ _ _ (hv ω)) (o4 i t v hv) (o4 i t v hv)
    exact ⟨u, fun p => low _ _ _ _ (by rw [← c1]; exact r1 p)⟩
  · intro i t i' t' dn v v' hdn hv hv'
    obtain ⟨_, y, -, hy⟩ := back i t v hv
    obtain ⟨dn', y', hdn', hy'⟩ := back i' t' v' hv'
    obtain ⟨u, u', r1, r2, -, r4⟩ := q2 0 0 fld fld i i' dn dn' t t' y y' hdn hdn' (fun ω => lift _ _ _ _ (hy ω))
      (fun ω => lift _ _ _ _ (hy' ω)) (o4 i t y hy) (o4 i' t' y' hy')
    obtain ⟨γ, γ', γ1, γ2, γ3⟩ := o5 i t i' t' y y' hy hy'
    have e1 : u = v := funext (fun p => Inst.sampled_unique _ _ _ _ _ _ _ (r1 p) (by
      rw [c1]; exact lift _ _ _ _ (hv p)))
    have e2 : u' = v' := funext (fun p => Inst.sampled_unique _ _ _ _ _ _ _ (r2 p) (by
      rw [c1]; exact lift _ _ _ _ (hv' p)))
    refine ⟨γ, γ', γ1, γ2, ?_⟩
    rw [← e1, ← e2, r4, γ3]
    congr 1
    have hii : dn = dn' ↔ i = i' := by
      constructor
      · rintro rfl
        exact (List.getElem?_inj (List.getElem?_eq_some_iff.1 hdn).1 hnd).1 (hdn.trans hdn'.symm)
      · rintro rfl
        exact Option.some.inj (hdn.symm.trans hdn')
    simp only [true_and, hii]

/-- The detector of the example of C148, with the white noise of that of C149. -/
noncomputable def loudState : Inst.State Unit Unit (Point ℝ) (Grid ℝ ℝ) (Arr ℝ) (Grid ℝ ℝ) ℝ :=
  run (grids Inst.hissLib) (fresh evenSetup) evenOps

theorem loudState_facts : loudState.detNames = ["a"] ∧
    loudState.detectors = [("a", ⟨some ⟨(), ()⟩, some ⟨(), ()⟩, some ⟨(), ()⟩, ⟨false, 0, 0⟩⟩)] ∧
    loudState.fields = [] ∧ loudState.bestSpatial = none ∧ loudState.bestSpectral = none :=
  ⟨by rfl, by rfl, by rfl, by rfl, by rfl⟩

theorem loud_white : White Inst.hissLib loudState Inst.tape "a" 2 (1 / 2) := by
  refine ⟨_, _, by rw [loudState_facts.2.1]; rfl, rfl, ?_⟩
  intro n dt g l hl
  simp only [Inst.hissLib, hl, List.map_map]
  congr 1
  simp [Function.comp_def]

theorem loud_equipped (f : Name) (nz : ℕ) (hnz : nz ≠ 0) (wx wy wz cz : ℝ) (ps : List (Point ℝ)) :
    Equipped Inst.hissLib loudState f nz 3 3 wx wy wz cz .peak .none (fun _ _ _ _ => 1) (fun _ _ => 1)
      (fun _ => List.replicate ps.length 0)
      { positions := ps, signal := true, withNoise := false, seed := fun _ _ _ => 0 } := by
  obtain ⟨h1, h2, -⟩ := loudState_facts
  refine ⟨by rw [h1]; simp, ?_, by decide, by decide, by decide, ?_, .inl rfl, ?_, rfl, rfl, ?_, ?_⟩
  · intro d hd det hdet
    rw [h2] at hdet
    rw [h1] at hd
    simp only [List.mem_cons, List.not_mem_nil, or_false] at hd
    subst hd
    simp [PyDict.get?] at hdet
    subst hdet
    exact ⟨⟨_, rfl, fun _ _ _ => ⟨_, rfl, rfl, fun _ _ _ _ _ _ _ _ _ => rfl⟩⟩,
      ⟨_, rfl, fun _ => ⟨_, rfl, rfl, fun _ _ _ => rfl⟩⟩⟩
  · intro d _ k _ N hN
    rw [even_peak _ _ _ _ _ N hN]
    exact one_ne_zero
  · intro d _
    simpa using hnz
  · intro h; cases h
  · intro d _
    refine ⟨?_, by simp⟩
    unfold Inst.Spec.Noise
    rw [if_neg (by simp)]
    simp only [List.map_replicate]
    rfl

/-- The example of C148 with white noise of 2 in one second, in samples of a quarter of a second: the two samples have in
common the variance of the light of the first object, the noise adds 16 to the variance of each. -/
example (erf : ℝ → ℝ) (w : World ℕ) (E : Env ℝ) (hE : E.fn = realFn erf) :
    ∃ (s' : (ℕ → ℝ) × (ℕ → ℝ) → Handler.State ℝ) (g : (ℕ → ℝ) × (ℕ → ℝ) → Grid ℝ (WithTop ℝ))
      (sky : (ℕ → ℝ) × (ℕ → ℝ) → Arr ℝ)
      (s1 s2 : (ℕ → ℝ) × (ℕ → ℝ) → Inst.State Unit Unit (Point ℝ) (Grid ℝ ℝ) (Arr ℝ) (Grid ℝ ℝ) ℝ)
      (cols : ((ℕ → ℝ) × (ℕ → ℝ)) × (Name × Name × ℕ → ℝ) → List (List (Option ℝ)))
      (v v' : ((ℕ → ℝ) × (ℕ → ℝ)) × (Name × Name × ℕ → ℝ) → ℝ),
      (∀ ω, (∃ m, prop E (Gal.streams ω) w .lidzCo = .ok m ∧
        make skyState m ⟨none, [], [], false, false, false, false, false⟩ = (s' ω, .ok ())) ∧
        lcGrid (s' ω) skyMeta ["LCO"] none none false (some ⟨false, [1 / 4]⟩) none none none (some 3) =
          some (.ok (g ω)) ∧ (plainGrid (g ω)).grid = some (sky ω) ∧
        addField loudState { grid := asField (plainGrid (g ω)) (sky ω), name := some "sky" } = (s1 ω, .ok "sky") ∧
        mapFields (grids Inst.hissLib) (s1 ω) ["sky"] { kernel := some (.pair 3 3), opts := (.peak, .none) } =
          (s2 ω, .ok ())) ∧
      (∀ p, sampleFields (grids Inst.hissLib) (s2 p.1) ["sky"]
          { positions := [⟨false, 1 / 20, 1 / 20⟩, ⟨false, 1 / 20, -(1 / 8)⟩], dt := some (1 / 4),
            seed := fun f d t => p.2 (f, d, t) } = .ok [("sky", cols p)] ∧
        SampleIs (cols p) 0 0 (v p) ∧ SampleIs (cols p) 0 1 (v' p)) ∧
      cov[v, v'; Gal.chance.prod Inst.hiss] = (3 / 4) ^ 2 * (0.09 * (2800 * (2 * 10 ^ 11 / 10 ^ 8)) ^ 2) ∧
      cov[v, v; Gal.chance.prod Inst.hiss] = (3 / 4) ^ 2 * (0.09 * (2800 * (2 * 10 ^ 11 / 10 ^ 8)) ^ 2) +
        (3 / 4) ^ 2 * (0.09 * (2800 * (2 * 10 ^ 12 / 10 ^ 8)) ^ 2) + 16 := by
  have hprob : IsProbabilityMeasure Inst.hiss := (Inst.hiss_fresh.law "" "" 0).isProbabilityMeasure
  obtain ⟨s', g, sky, nx, ny, nz, hx, hy, hz, h1, h2⟩ := C151_total (F := Unit) (D := Unit)
    (N := ℕ → ℝ) Inst.hiss Gal.streams_random streams_separate streams_unrelated E erf hE w
    .lidzCo (by decide) (by simp) skyState skyReachable ⟨none, [], [], false, false, false, false, false⟩ rfl rfl
    "LCO" (.inr ⟨rfl, rfl⟩) (by decide) (.inr rfl) _ _ _ (skyInputs .lidzCo) (by simp) (by simp) (by simp)
    (by decide) none [(1 / 20, 1 / 20, 11 / 10), (1 / 20, 1 / 3, 8 / 5)] skyCatalogue (by simp) skyMeta none (by simp)
    (some ⟨false, [1 / 4]⟩) none none
    none (some 3) (-(1 / 2)) (1 / 2) (-(1 / 2)) (1 / 2) 1 2 (1 / 4) (1 / 4) (1 / 4)
    ⟨by norm_num, by norm_num [raDefault, skyMeta]⟩ ⟨by norm_num, by norm_num [decDefault, skyMeta]⟩
    ⟨by norm_num, by norm_num [zDefault, skyMeta]⟩ rfl (by norm_num) (by norm_num) (by norm_num) (by norm_num)
    (by norm_num) (by norm_num) (by simp) ⟨none, by simp, by simp⟩
  have four : ∀ (n : ℕ) (s : ℝ), s = 1 → s - 1 / 4 / 20 ≤ n * (1 / 4) → n * (1 / 4) < s + 19 / 20 * (1 / 4) →
      n = 4 := fun n s hs h1 h2 => cells_unique n 4 s (1 / 4) (by norm_num) h1 h2
        (by rw [hs]; norm_num) (by rw [hs]; norm_num)
  obtain rfl := four nx _ (by norm_num) hx.1 hx.2
  obtain rfl := four ny _ (by norm_num) hy.1 hy.2
  obtain rfl := four nz _ (by norm_num) hz.1 hz.2
  obtain ⟨d1, d2, d3, d4, d5⟩ := loudState_facts
  obtain ⟨s1, s2, cols, unit, a0, a1, a2, a3, a4⟩ := h2 Inst.hissLib evenSetup evenOps loudState "sky" 3 3 .peak .none
    (fun _ _ _ _ => 1) (fun _ _ => 1)
    { positions := [⟨false, 1 / 20, 1 / 20⟩, ⟨false, 1 / 20, -(1 / 8)⟩], seed := fun _ _ _ => 0 } Inst.tape
    (fun ω f d t => ω (f, d, t)) (fun _ => 2) (fun _ => 1 / 2) (1 / 4) rfl
    (by rw [d3]; rfl) (by rw [d4]; simp) (by rw [d5]; simp) (loud_equipped "sky" 4 (by decide) _ _ _ _
      [⟨false, 1 / 20, 1 / 20⟩, ⟨false, 1 / 20, -(1 / 8)⟩]) (by simp) Inst.hiss_fresh (by norm_num) (by
      intro d hd
      rw [d1] at hd
      simp only [List.mem_cons, List.not_mem_nil, or_false] at hd
      subst hd
      exact ⟨by norm_num, loud_white⟩)
  rw [d1] at a2
  have gain := even_gains loudState d2 unit a2
  obtain ⟨v, hv⟩ := a3 0 (by decide) 0 0 (3 / 4) ⟨_, by rw [gain 0 (by decide)]; rfl, rfl⟩
  obtain ⟨v', hv'⟩ := a3 0 (by decide) 0 1 (3 / 4) ⟨_, by rw [gain 0 (by decide)]; rfl, by simp⟩
  have same := even_same unit gain
  refine ⟨s', g, sky, s1, s2, cols, v, v', fun ω => ⟨(h1 ω).1, (h1 ω).2.1, (h1 ω).2.2.2, (a0 ω).1, (a0 ω).2⟩,
    fun p => ⟨a1 p, hv p, hv' p⟩, ?_, ?_⟩
  · obtain ⟨x, y, x1, y1, e⟩ := a4 0 0 0 1 "a" v v' (by rw [d1]; rfl) hv hv'
    rw [e]
    simp only [List.length_cons, List.length_nil, Finset.sum_range_succ, Finset.sum_range_zero, zero_add]
    rw [(same 0 (by decide) _).1 (x1 0 (by decide)), (same 1 (by decide) _).1 (x1 1 (by decide)),
      (same 0 (by decide) _).2 (y1 0 (by decide)), (same 1 (by decide) _).2 (y1 1 (by decide))]
    simp only [List.getD_cons_zero, List.getD_cons_succ, spread, squareOnAverage, onAverage, switchedOn, published,
      medianScatter, scatter, show keepsMean .lidzCo = false from rfl, Bool.false_eq_true, if_false]
    norm_num
  · obtain ⟨x, y, x1, y1, e⟩ := a4 0 0 0 0 "a" v v (by rw [d1]; rfl) hv hv
    rw [e]
    simp only [List.length_cons, List.length_nil, Finset.sum_range_succ, Finset.sum_range_zero, zero_add]
    rw [(same 0 (by decide) _).1 (x1 0 (by decide)), (same 1 (by decide) _).1 (x1 1 (by decide)),
      (same 0 (by decide) _).1 (y1 0 (by decide)), (same 1 (by decide) _).1 (y1 1 (by decide))]
    simp only [List.getD_cons_zero, List.getD_cons_succ, spread, squareOnAverage, onAverage, switchedOn, published,
      medianScatter, scatter, show keepsMean .lidzCo = false from rfl, Bool.false_eq_true, if_false]
    norm_num

end Verif.Ready
