import Verif.Spec.ReadyObserve
import Verif.Props.ReadyMap
import Verif.Props.ConeObserve
import Mathlib.Tactic.Choose

/-!
# C146: what detectors record of ready-made properties, on average
-/

set_option linter.unusedSectionVars false

namespace Verif.Ready

open Verif.Gal (Rng World realFn)
open Verif.Gal.Spec (Random Fraction)
open Verif.Handler (Name MakeOpts MultiProp hasProperty make)
open Verif.Map (Grid Arr NArr BeamNorm PadArg)
open Verif.HGrid (lcGrid)
open Verif.HGrid.Spec
open Verif.Inst (Lib Setup Op Point SampleArgs run grids fresh addField mapFields sampleFields asField)
open Verif.Inst.Spec (Source atLine received share spot InSpan RecordedOf Equipped NoNaN plainGrid Reads)
open MeasureTheory ProbabilityTheory
open Spec

/-! ## Samples -/

section samples
variable {K : Type} [_root_.Field K] [LinearOrder K] [IsStrictOrderedRing K] [FloorRing K]

theorem spot_some (n : ℕ) (w c x : K) (hw : 0 < w) (i : ℕ) : spot n w c x = some i ↔ InSpan n w c x i := by
  constructor
  · intro h
    simpa using List.find?_some h
  · intro h
    unfold spot
    rcases hf : (List.range n).find? (fun i => decide (InSpan n w c x i)) with - | j
    · have := List.find?_eq_none.1 hf i (List.mem_range.2 h.1)
      simp [h] at this
    · have hj := List.find?_some hf
      simp only [decide_eq_true_eq] at hj
      rw [Inst.inSpan_unique n w c x i j hw h hj]

/-- The sample at a position. -/
def sampleAt (nx ny : ℕ) (wx wy cx cy : K) (val : ℕ → ℕ → K) (x y e : K) : Option K :=
  match spot nx wx cx x, spot ny wy cy y with
  | some i, some j => some (e + val i j)
  | _, _ => none

theorem reads_iff (nx ny : ℕ) (wx wy cx cy : K) (hx : 0 < wx) (hy : 0 < wy) (val : ℕ → ℕ → K) (x y e : K)
    (v : Option K) : Reads nx ny wx wy cx cy val x y e v ↔ v = sampleAt nx ny wx wy cx cy val x y e := by
  unfold Reads sampleAt
  rcases h1 : spot nx wx cx x with - | i
  · have hno : ∀ i, ¬ InSpan nx wx cx x i := fun i hi => by
      rw [(spot_some nx wx cx x hx i).2 hi] at h1; cases h1
    exact ⟨fun h => h.2 (fun i j hij => hno i hij.1), fun h => ⟨fun i j hi _ => absurd hi (hno i), fun _ => h⟩⟩
  · have hi := (spot_some nx wx cx x hx i).1 h1
    rcases h2 : spot ny wy cy y with - | j
    · have hno : ∀ j, ¬ InSpan ny wy cy y j := fun j hj => by
        rw [(spot_some ny wy cy y hy j).2 hj] at h2; cases h2
      exact ⟨fun h => h.2 (fun i j hij => hno j hij.2), fun h => ⟨fun i j _ hj => absurd hj (hno j), fun _ => h⟩⟩
    · have hj := (spot_some ny wy cy y hy j).1 h2
      refine ⟨fun h => h.1 i j hi hj, fun h => ⟨fun i' j' hi' hj' => ?_, fun hc => absurd ⟨hi, hj⟩ (hc i j)⟩⟩
      rw [h, Inst.inSpan_unique nx wx cx x i i' hx hi hi', Inst.inSpan_unique ny wy cy y j j' hy hj hj']

/-- The light of an object is a factor. -/
theorem share_v (R : K → K → K → K) (W : K → K) (N : ℕ → K) (nx ny nz m n : ℕ) (wx wy wz cx cy cz : K) (i j : ℕ)
    (x y z v : K) : share R W N nx ny nz m n wx wy wz cx cy cz i j ⟨x, y, z, v⟩ =
      v * share R W N nx ny nz m n wx wy wz cx cy cz i j ⟨x, y, z, 1⟩ := by
  unfold share
  dsimp only
  rcases spot nx wx cx x with - | i'
  · simp
  rcases spot ny wy cy y with - | j'
  · simp
  rcases spot nz wz cz z with - | k
  · simp
  dsimp only
  split
  · ring
  · simp

theorem received_congr (R : K → K → K → K) (W : K → K) (N N' : ℕ → K) (nx ny nz m n : ℕ) (wx wy wz cx cy cz : K)
    (hw : 0 < wz) (h : ∀ k < nz, N k = N' k) (objs : List (Source K)) (q : K) :
    received objs q R W N nx ny nz m n wx wy wz cx cy cz = received objs q R W N' nx ny nz m n wx wy wz cx cy cz := by
  funext i j
  unfold received
  congr 3
  refine List.map_congr_left (fun o _ => ?_)
  unfold share
  rcases spot nx wx cx o.x with - | i'
  · rfl
  rcases spot ny wy cy o.y with - | j'
  · rfl
  rcases hk : spot nz wz cz o.z with - | k
  · rfl
  dsimp only
  rw [h k ((spot_some nz wz cz o.z hw k).1 hk).1]

end samples

variable {Ω G : Type} [MeasurableSpace Ω] {P : Measure Ω} {R : Ω → Rng ℝ G}

/-- What is received on average is what is received of the average light. -/
theorem received_mean (B : ℝ → ℝ → ℝ → ℝ) (W : ℝ → ℝ) (N : ℕ → ℝ) (nx ny nz m n : ℕ) (wx wy wz cx cy cz q : ℝ)
    (i j : ℕ) (line : Option ℝ) (pos : List (ℝ × ℝ × ℝ)) (v : Ω → ℕ → ℝ) (a : ℕ → ℝ)
    (h : ∀ j < pos.length, Integrable (fun ω => v ω j) P ∧ ∫ ω, v ω j ∂P = a j) :
    Integrable (fun ω => received (sources line pos (v ω)) q B W N nx ny nz m n wx wy wz cx cy cz i j) P ∧
      ∫ ω, received (sources line pos (v ω)) q B W N nx ny nz m n wx wy wz cx cy cz i j ∂P =
        received (sources line pos a) q B W N nx ny nz m n wx wy wz cx cy cz i j := by
  have key : ∀ l : List ℕ, (∀ k ∈ l, k < pos.length) → ∀ f : ℕ → ℝ,
      Integrable (fun ω => (l.map (fun k => v ω k * f k)).sum) P ∧
        ∫ ω, (l.map (fun k => v ω k * f k)).sum ∂P = (l.map (fun k => a k * f k)).sum := by
    intro l hl f
    induction l with
    | nil => simp
    | cons k l ih =>
      obtain ⟨i1, i2⟩ := ih (fun k' hk' => hl k' (List.mem_cons_of_mem _ hk'))
      obtain ⟨j1, j2⟩ := h k (hl k List.mem_cons_self)
      simp only [List.map_cons, List.sum_cons]
      refine ⟨(j1.mul_const _).add i1, ?_⟩
      rw [integral_add (j1.mul_const _) i1, integral_mul_const, j2, i2]
  have e : ∀ u : ℕ → ℝ, received (sources line pos u) q B W N nx ny nz m n wx wy wz cx cy cz i j =
      q * ((List.range pos.length).map (fun k => u k * share B W N nx ny nz m n wx wy wz cx cy cz i j
        ⟨(pos.getD k 0).1, (pos.getD k 0).2.1,
          line.elim (pos.getD k 0).2.2 (fun f => f / (1 + (pos.getD k 0).2.2)), 1⟩)).sum /
        ((List.range nz).map (fun k => W (Map.Spec.freq nz wz cz k))).sum := by
    intro u
    unfold received sources
    rw [List.map_map]
    congr 3
    refine List.map_congr_left (fun k _ => ?_)
    exact share_v _ _ _ _ _ _ _ _ _ _ _ _ _ _ _ _ _ _ _ _
  obtain ⟨k1, k2⟩ := key (List.range pos.length) (fun k hk => List.mem_range.1 hk) (fun k =>
    share B W N nx ny nz m n wx wy wz cx cy cz i j ⟨(pos.getD k 0).1, (pos.getD k 0).2.1,
      line.elim (pos.getD k 0).2.2 (fun f => f / (1 + (pos.getD k 0).2.2)), 1⟩)
  simp only [e]
  refine ⟨(k1.const_mul q).div_const _, ?_⟩
  rw [integral_div, integral_const_mul, k2]

/-- The average of what is recorded, sample by sample. -/
theorem recorded_mean {F D : Type} [Nonempty Ω] (hP : IsProbabilityMeasure P)
    (s : Inst.State F D (Point ℝ) (Grid ℝ ℝ) (Arr ℝ) (Grid ℝ ℝ) ℝ) (line : Option ℝ) (pos : List (ℝ × ℝ × ℝ))
    (v : Ω → ℕ → ℝ) (a : ℕ → ℝ) (h : ∀ j < pos.length, Integrable (fun ω => v ω j) P ∧ ∫ ω, v ω j ∂P = a j) (q : ℝ)
    (nx ny nz m n : ℕ) (wx wy wz cx cy cz : ℝ) (hx : 0 < wx) (hy : 0 < wy) (hw : 0 < wz) (norm : BeamNorm)
    (B : Name → ℝ → ℝ → ℝ → ℝ) (W : Name → ℝ → ℝ) (E : Name → List ℝ) (ps : List (Point ℝ)) (ds : List Name)
    (hE : ∀ d ∈ ds, (E d).length = ps.length) (cols : Ω → List (List (Option ℝ)))
    (hc : ∀ ω, List.Forall₂ (RecordedOf s (sources line pos (v ω)) q nx ny nz m n wx wy wz cx cy cz norm B W E ps)
      ds (cols ω)) :
    ∃ mean, List.Forall₂ (RecordedOf s (sources line pos a) q nx ny nz m n wx wy wz cx cy cz norm B W E ps) ds mean ∧
      SamplesAverage P cols mean := by
  induction ds generalizing cols with
  | nil =>
    refine ⟨[], .nil, ?_, ?_⟩
    · intro ω
      rw [List.forall₂_nil_left_iff.1 (hc ω)]
    · intro i t c hi; simp at hi
  | cons d ds ih =>
    have hcons : ∀ ω, ∃ c cs, cols ω = c :: cs ∧
        RecordedOf s (sources line pos (v ω)) q nx ny nz m n wx wy wz cx cy cz norm B W E ps d c ∧
        List.Forall₂ (RecordedOf s (sources line pos (v ω)) q nx ny nz m n wx wy wz cx cy cz norm B W E ps) ds cs := by
      intro ω
      obtain ⟨c, cs, h1, h2, h3⟩ := List.forall₂_cons_left_iff.1 (hc ω)
      exact ⟨c, cs, h3, h1, h2⟩
    choose c cs e1 e2 e3 using hcons
    obtain ⟨mean, m1, m2, m3⟩ := ih (fun d' hd' => hE d' (List.mem_cons_of_mem _ hd')) cs e3
    choose det N r1 r2 r3 r4 using e2
    obtain ⟨ω0⟩ := ‹Nonempty Ω›
    have hdet : ∀ ω, det ω = det ω0 := fun ω => Option.some.inj ((r1 ω).symm.trans (r1 ω0))
    have hN : ∀ ω, ∀ k < nz, N ω k = N ω0 k := fun ω k hk =>
      Map.normalises_unique norm _ _ _ (r2 ω k hk) (r2 ω0 k hk)
    have hEd := hE d List.mem_cons_self
    -- one sample
    have sample : ∀ ω t, (c ω)[t]? = if t < ps.length then some (sampleAt nx ny wx wy cx cy
        (received (sources line pos (v ω)) q (B d) (W d) (N ω0) nx ny nz m n wx wy wz cx cy cz)
        ((ps.getD t ⟨false, 0, 0⟩).x + (det ω0).pointing.x) ((ps.getD t ⟨false, 0, 0⟩).y + (det ω0).pointing.y)
        ((E d).getD t 0)) else none := by
      intro ω t
      by_cases ht : t < ps.length
      · rw [if_pos ht]
        have hp : ps[t]? = some (ps.getD t ⟨false, 0, 0⟩) := by
          rw [List.getD_eq_getElem?_getD, List.getElem?_eq_getElem ht]; rfl
        have he : (E d)[t]? = some ((E d).getD t 0) := by
          rw [List.getD_eq_getElem?_getD, List.getElem?_eq_getElem (by omega)]; rfl
        have hv : (c ω)[t]? = some ((c ω)[t]'(by rw [r3]; exact ht)) := List.getElem?_eq_getElem _
        have := (reads_iff nx ny wx wy cx cy hx hy _ _ _ _ _).1 (r4 ω t _ _ _ hp he hv)
        rw [hv, this, hdet ω, received_congr (B d) (W d) (N ω) (N ω0) nx ny nz m n wx wy wz cx cy cz hw (hN ω)]
      · rw [if_neg ht]
        exact List.getElem?_eq_none (by rw [r3]; omega)
    obtain ⟨mc, hmc⟩ : ∃ mc, mc = (List.range ps.length).map (fun t => sampleAt nx ny wx wy cx cy
        (received (sources line pos a) q (B d) (W d) (N ω0) nx ny nz m n wx wy wz cx cy cz)
        ((ps.getD t ⟨false, 0, 0⟩).x + (det ω0).pointing.x) ((ps.getD t ⟨false, 0, 0⟩).y + (det ω0).pointing.y)
        ((E d).getD t 0)) := ⟨_, rfl⟩
    refine ⟨mc :: mean, .cons ⟨det ω0, N ω0, r1 ω0, r2 ω0, by rw [hmc]; simp, ?_⟩ m1, ?_, ?_⟩
    · intro t p e u hp he hu
      rw [reads_iff nx ny wx wy cx cy hx hy]
      have ht : t < ps.length := by
        by_contra hc
        rw [List.getElem?_eq_none (by omega)] at hp; cases hp
      rw [hmc, List.getElem?_map, List.getElem?_range ht] at hu
      simp only [Option.map_some, Option.some.injEq] at hu
      rw [← hu, List.getD_eq_getElem?_getD, hp, List.getD_eq_getElem?_getD, he]
      rfl
    · intro ω
      rw [e1 ω, List.map_cons, List.map_cons, m2 ω, r3 ω, hmc]
      simp
    · intro i t c0 hi
      rcases i with _ | i
      · simp only [List.getElem?_cons_zero, Option.some.injEq] at hi
        subst hi
        by_cases ht : t < ps.length
        · have hmt : mc[t]? = some (sampleAt nx ny wx wy cx cy
              (received (sources line pos a) q (B d) (W d) (N ω0) nx ny nz m n wx wy wz cx cy cz)
              ((ps.getD t ⟨false, 0, 0⟩).x + (det ω0).pointing.x)
              ((ps.getD t ⟨false, 0, 0⟩).y + (det ω0).pointing.y) ((E d).getD t 0)) := by
            rw [hmc, List.getElem?_map, List.getElem?_range ht]; rfl
          have hct := fun ω => (sample ω t).trans (if_pos ht)
          unfold sampleAt at hmt hct
          rcases s1 : spot nx wx cx ((ps.getD t ⟨false, 0, 0⟩).x + (det ω0).pointing.x) with - | i
          · rw [s1] at hmt
            simp only [s1] at hct
            refine ⟨fun _ ω => ⟨c ω, by rw [e1 ω]; rfl, hct ω⟩, fun x hx' => ?_⟩
            rw [hmt] at hx'; simp at hx'
          rcases s2 : spot ny wy cy ((ps.getD t ⟨false, 0, 0⟩).y + (det ω0).pointing.y) with - | j
          · rw [s1, s2] at hmt
            simp only [s1, s2] at hct
            refine ⟨fun _ ω => ⟨c ω, by rw [e1 ω]; rfl, hct ω⟩, fun x hx' => ?_⟩
            rw [hmt] at hx'; simp at hx'
          rw [s1, s2] at hmt
          simp only [s1, s2] at hct
          refine ⟨fun hx' => by rw [hmt] at hx'; simp at hx', fun x hx' => ?_⟩
          rw [hmt] at hx'
          simp only [Option.some.injEq] at hx'
          obtain ⟨g1, g2⟩ := received_mean (P := P) (B d) (W d) (N ω0) nx ny nz m n wx wy wz cx cy cz q i j line pos v a h
          refine ⟨_, fun ω => ⟨c ω, by rw [e1 ω]; rfl, hct ω⟩, (integrable_const _).add g1, ?_⟩
          rw [integral_add (integrable_const _) g1, g2, integral_const, probReal_univ, one_smul]
          exact hx'
        · have : mc[t]? = none := List.getElem?_eq_none (by rw [hmc]; simp; omega)
          rw [this]
          exact ⟨fun hc => by simp at hc, fun x hc => by simp at hc⟩
      · simp only [List.getElem?_cons_succ] at hi
        obtain ⟨k1, k2⟩ := m3 i t c0 hi
        refine ⟨fun hn ω => ?_, fun x hx' => ?_⟩
        · obtain ⟨c', q1, q2⟩ := k1 hn ω
          exact ⟨c', by rw [e1 ω]; exact q1, q2⟩
        · obtain ⟨u, q1, q2, q3⟩ := k2 x hx'
          refine ⟨u, fun ω => ?_, q2, q3⟩
          obtain ⟨c', w1, w2⟩ := q1 ω
          exact ⟨c', by rw [e1 ω]; exact w1, w2⟩

/-- What is recorded of each outcome. -/
theorem observed_values {F D T S : Type} [DecidableEq F] [DecidableEq D] (hR : Random P R) (E : Env ℝ)
    (w : World G) (p : Which) (hp : p ≠ .coSled)
    (hset : p = .behrooziSfr ∨ p = .behrooziMass → E.setUp = true)
    (s : Handler.State ℝ) (hr : Handler.Spec.Reachable s) (o : MakeOpts ℝ) (hdisk : o.writeDisk = false)
    (hkw : o.otherKws = []) (name : Name) (hn : o.rename = some [name] ∨ o.rename = none ∧ name = (label p).1)
    (hmc : name ≠ "mass_cuts") (hfree : o.overwrite = true ∨ hasProperty s name = false)
    (mass sfr redshift : List ℝ)
    (hi : Inputs s o.useAll o.remap (Handler.Spec.selection s o.useAll).length p mass sfr redshift)
    (hpul : p = .pullenCo → (Handler.Spec.selection s o.useAll).length ≤ 100 ∨ ∃ z0, ∀ z ∈ redshift, z = z0)
    (hpos : name ∉ ["ra", "dec", "redshift"]) (inH : Option Bool) (pos : List (ℝ × ℝ × ℝ))
    (hcat : Catalogue s o.useAll inH ["ra", "dec", "redshift"] [] (pos.map (fun q => ([q.1, q.2.1, q.2.2], []))))
    (hne : pos ≠ [])
    (meta' : LCH.Meta ℝ) (line : Option ℝ) (hz : line ≠ none → ∀ q ∈ pos, 1 + q.2.2 ≠ 0)
    (res ralim declim zlim : Option (NArr ℝ)) (norm : Option ℝ) (a b c d e f wx wy wz : ℝ)
    (h1 : Interval (raDefault meta') ralim a b) (h2 : Interval (decDefault meta') declim c d)
    (h3 : Interval (zDefault meta' line) zlim e f)
    (hpix : pixels [b - a, d - c, f - e] res = [wx, wy, wz]) (hx : 0 < wx) (hy : 0 < wy) (hw : 0 < wz)
    (hxa : (1 + 1 / 20) * wx < b - a) (hyc : (1 + 1 / 20) * wy < d - c) (hze : (1 + 1 / 20) * wz < f - e)
    (hres : ∀ r, res = some r → r.isInt = false)
    (hlim : ∃ l ∈ [ralim, declim, zlim], ∀ r, l = some r → r.isInt = false) :
    ∃ (s' : Ω → Handler.State ℝ) (g : Ω → Grid ℝ (WithTop ℝ)) (sky : Ω → Arr ℝ) (nx ny nz : ℕ),
      (b - a - wx / 20 ≤ nx * wx ∧ nx * wx < b - a + 19 / 20 * wx) ∧
      (d - c - wy / 20 ≤ ny * wy ∧ ny * wy < d - c + 19 / 20 * wy) ∧
      (f - e - wz / 20 ≤ nz * wz ∧ nz * wz < f - e + 19 / 20 * wz) ∧
      (∀ ω, (∃ m, prop E (R ω) w p = .ok m ∧ make s m o = (s' ω, .ok ())) ∧
        lcGrid (s' ω) meta' [name] line inH o.useAll res ralim declim zlim norm = some (.ok (g ω)) ∧
        NoNaN (g ω) 1 ∧ (plainGrid (g ω)).grid = some (sky ω)) ∧
      ∀ (lib : Lib F D T S ℝ) (x : Setup F D ℝ)
        (iops : List (Op F D (Point ℝ) (Grid ℝ ℝ) (Arr ℝ) (Grid ℝ ℝ) ℝ (BeamNorm × PadArg)))
        (ins : Inst.State F D (Point ℝ) (Grid ℝ ℝ) (Arr ℝ) (Grid ℝ ℝ) ℝ) (fld : Name) (m n : ℕ) (beam : BeamNorm)
        (pad : PadArg) (B : Name → ℝ → ℝ → ℝ → ℝ) (W : Name → ℝ → ℝ) (N : Name → List ℝ)
        (sa : SampleArgs (Point ℝ) T S),
        ins = run (grids lib) (fresh x) iops → ins.fields.has fld = false →
        (∀ r, ins.bestSpatial = some r → wx ≤ r ∧ wy ≤ r) → (∀ r, ins.bestSpectral = some r → wz ≤ r) →
        Equipped lib ins fld nz m n wx wy wz ((e + f) / 2) beam pad B W N sa →
        (∀ u ∈ sa.positions, ∀ d det, ins.detectors.get? d = some det → (u.isInt && det.pointing.isInt) = false) →
        ∃ (s1 s2 : Ω → Inst.State F D (Point ℝ) (Grid ℝ ℝ) (Arr ℝ) (Grid ℝ ℝ) ℝ) (cols : Ω → List (List (Option ℝ))),
          (∀ ω, addField ins { grid := asField (plainGrid (g ω)) (sky ω), name := some fld } = (s1 ω, .ok fld) ∧
            mapFields (grids lib) (s1 ω) [fld] { kernel := some (.pair m n), opts := (beam, pad) } = (s2 ω, .ok ()) ∧
            sampleFields (grids lib) (s2 ω) [fld] sa = .ok [(fld, cols ω)]) ∧
          ∀ ω, List.Forall₂ (RecordedOf ins (sources line pos (fun j => value E p (halo (R ω) w
              (Handler.Spec.selection s o.useAll).length p mass sfr redshift j))) (norm.getD 1) nx ny nz m n wx wy wz
            ((a + b) / 2) ((c + d) / 2) ((e + f) / 2) beam B W N sa.positions) ins.detNames (cols ω) := by
  have hP : IsProbabilityMeasure P := (normals_random hR w 1 p 0 one_pos).isProbabilityMeasure
  have hΩ : Nonempty Ω := nonempty_of_isProbabilityMeasure P
  obtain ⟨hlen, mp, s', m1, m2, m3⟩ := made_catalogue hR E w p hp hset s hr o hdisk hkw name hn hmc hfree mass sfr
    redshift hi hpul hpos inH _ hcat
  rw [List.length_map] at hlen
  obtain ⟨val, hval⟩ : ∃ val : Ω → ℕ → ℝ, val = fun ω j => value E p (halo (R ω) w
    (Handler.Spec.selection s o.useAll).length p mass sfr redshift j) := ⟨_, rfl⟩
  have hcat' : ∀ ω, Catalogue (s' ω) o.useAll inH ["ra", "dec", "redshift"] [name]
      ((sources none pos (val ω)).map (fun o => ([o.x, o.y, o.z], [some o.v]))) := by
    intro ω
    have := m3 ω
    rw [List.length_map] at this
    unfold sources
    rw [List.map_map]
    have e : (List.range pos.length).map (fun j => (((pos.map (fun q => ([q.1, q.2.1, q.2.2],
        ([] : List (Handler.V ℝ))))).getD j ([], [])).1, [some (value E p (halo (R ω) w
        (Handler.Spec.selection s o.useAll).length p mass sfr redshift j))])) =
        (List.range pos.length).map ((fun o : Source ℝ => ([o.x, o.y, o.z], [some o.v])) ∘ fun j =>
          ⟨(pos.getD j 0).1, (pos.getD j 0).2.1,
            (none : Option ℝ).elim (pos.getD j 0).2.2 (fun f => f / (1 + (pos.getD j 0).2.2)), val ω j⟩) := by
      refine List.map_congr_left (fun j hj => ?_)
      have hj' := List.mem_range.1 hj
      simp only [Function.comp, List.getD_eq_getElem?_getD, List.getElem?_map, List.getElem?_eq_getElem hj',
        Option.map_some, Option.getD_some, Option.elim_none, hval]
    rw [e] at this
    exact this
  have hat : ∀ ω, (sources none pos (val ω)).map (atLine line) = sources line pos (val ω) := by
    intro ω
    unfold sources
    rw [List.map_map]
    rfl
  have hsky := fun ω => Inst.sky_of (s' ω) name o.useAll inH (sources none pos (val ω)) (hcat' ω) (by
      unfold sources
      simp [hne]) meta' line (by
      intro hl q hq
      unfold sources at hq
      obtain ⟨j, hj, rfl⟩ := List.mem_map.1 hq
      have hj' := List.mem_range.1 hj
      have : pos.getD j 0 ∈ pos := by
        rw [List.getD_eq_getElem?_getD, List.getElem?_eq_getElem hj']
        exact List.getElem_mem hj'
      exact hz hl _ this) res ralim declim zlim norm a b c d e f wx wy wz h1 h2 h3 hpix hx hy hw hxa hyc hze hres hlim
  choose g sky kx ky kz g1 g2 g3 g4 g5 g6 g7 g8 g9 using hsky
  obtain ⟨ω0⟩ := id hΩ
  have ex : ∀ ω, kx ω = kx ω0 := fun ω => cells_unique _ _ _ _ hx (g3 ω).1 (g3 ω).2 (g3 ω0).1 (g3 ω0).2
  have ey : ∀ ω, ky ω = ky ω0 := fun ω => cells_unique _ _ _ _ hy (g4 ω).1 (g4 ω).2 (g4 ω0).1 (g4 ω0).2
  have ez : ∀ ω, kz ω = kz ω0 := fun ω => cells_unique _ _ _ _ hw (g5 ω).1 (g5 ω).2 (g5 ω0).1 (g5 ω0).2
  simp only [ex, ey, ez, hat] at g6 g9
  refine ⟨s', g, sky, kx ω0, ky ω0, kz ω0, g3 ω0, g4 ω0, g5 ω0, fun ω => ⟨⟨mp ω, m1 ω, m2 ω⟩, g1 ω, g2 ω, (g6 ω).active⟩,
    ?_⟩
  intro lib x iops ins fld m n beam pad B W N sa i1 i2 i3 i4 i5 i6
  have hob := fun ω => Inst.observed_of (g ω) (sky ω) (sources line pos (val ω)) (norm.getD 1) _ _ _ wx wy wz _ _ _ hx hy
    hw (g6 ω) (g7 ω) (g8 ω) (g9 ω) lib x iops ins fld m n beam pad B W N sa i1 i2 i3 i4 i5 i6
  choose s1 s2 cols o1 o2 o3 o4 using hob
  refine ⟨s1, s2, cols, fun ω => ⟨o1 ω, o2 ω, o3 ω⟩, fun ω => ?_⟩
  have := o4 ω
  rw [hval] at this
  exact this

/-- **C146**: maps of a ready-made property of the objects of a lightcone, observed with the same instrument, are on
average recorded as the map of the light the objects have on average. -/
theorem C146_observed {F D T S : Type} [DecidableEq F] [DecidableEq D] (hR : Random P R) (hS : Separate P R) (E : Env ℝ) (erf : ℝ → ℝ)
    (hE : E.fn = realFn erf)
    (w : World G) (p : Which) (hp : p ≠ .coSled)
    (hset : p = .behrooziSfr ∨ p = .behrooziMass → E.setUp = true)
    (s : Handler.State ℝ) (hr : Handler.Spec.Reachable s) (o : MakeOpts ℝ) (hdisk : o.writeDisk = false)
    (hkw : o.otherKws = []) (name : Name) (hn : o.rename = some [name] ∨ o.rename = none ∧ name = (label p).1)
    (hmc : name ≠ "mass_cuts") (hfree : o.overwrite = true ∨ hasProperty s name = false)
    (mass sfr redshift : List ℝ)
    (hi : Inputs s o.useAll o.remap (Handler.Spec.selection s o.useAll).length p mass sfr redshift)
    (hpul : p = .pullenCo → (Handler.Spec.selection s o.useAll).length ≤ 100 ∨ ∃ z0, ∀ z ∈ redshift, z = z0)
    (hage : p = .pullenCo → ∀ z ∈ redshift, 0 < E.age z) (hmass : p = .yangCii → ∀ m ∈ mass, 0 ≤ m)
    (hpos : name ∉ ["ra", "dec", "redshift"]) (inH : Option Bool) (pos : List (ℝ × ℝ × ℝ))
    (hcat : Catalogue s o.useAll inH ["ra", "dec", "redshift"] [] (pos.map (fun q => ([q.1, q.2.1, q.2.2], []))))
    (hne : pos ≠ [])
    (meta' : LCH.Meta ℝ) (line : Option ℝ) (hz : line ≠ none → ∀ q ∈ pos, 1 + q.2.2 ≠ 0)
    (res ralim declim zlim : Option (NArr ℝ)) (norm : Option ℝ) (a b c d e f wx wy wz : ℝ)
    (h1 : Interval (raDefault meta') ralim a b) (h2 : Interval (decDefault meta') declim c d)
    (h3 : Interval (zDefault meta' line) zlim e f)
    (hpix : pixels [b - a, d - c, f - e] res = [wx, wy, wz]) (hx : 0 < wx) (hy : 0 < wy) (hw : 0 < wz)
    (hxa : (1 + 1 / 20) * wx < b - a) (hyc : (1 + 1 / 20) * wy < d - c) (hze : (1 + 1 / 20) * wz < f - e)
    (hres : ∀ r, res = some r → r.isInt = false)
    (hlim : ∃ l ∈ [ralim, declim, zlim], ∀ r, l = some r → r.isInt = false) :
    ∃ (s' : Ω → Handler.State ℝ) (g : Ω → Grid ℝ (WithTop ℝ)) (sky : Ω → Arr ℝ) (nx ny nz : ℕ),
      (b - a - wx / 20 ≤ nx * wx ∧ nx * wx < b - a + 19 / 20 * wx) ∧
      (d - c - wy / 20 ≤ ny * wy ∧ ny * wy < d - c + 19 / 20 * wy) ∧
      (f - e - wz / 20 ≤ nz * wz ∧ nz * wz < f - e + 19 / 20 * wz) ∧
      (∀ ω, (∃ m, prop E (R ω) w p = .ok m ∧ make s m o = (s' ω, .ok ())) ∧
        lcGrid (s' ω) meta' [name] line inH o.useAll res ralim declim zlim norm = some (.ok (g ω)) ∧
        NoNaN (g ω) 1 ∧ (plainGrid (g ω)).grid = some (sky ω)) ∧
      ∀ (lib : Lib F D T S ℝ) (x : Setup F D ℝ)
        (iops : List (Op F D (Point ℝ) (Grid ℝ ℝ) (Arr ℝ) (Grid ℝ ℝ) ℝ (BeamNorm × PadArg)))
        (ins : Inst.State F D (Point ℝ) (Grid ℝ ℝ) (Arr ℝ) (Grid ℝ ℝ) ℝ) (fld : Name) (m n : ℕ) (beam : BeamNorm)
        (pad : PadArg) (B : Name → ℝ → ℝ → ℝ → ℝ) (W : Name → ℝ → ℝ) (N : Name → List ℝ)
        (sa : SampleArgs (Point ℝ) T S),
        ins = run (grids lib) (fresh x) iops → ins.fields.has fld = false →
        (∀ r, ins.bestSpatial = some r → wx ≤ r ∧ wy ≤ r) → (∀ r, ins.bestSpectral = some r → wz ≤ r) →
        Equipped lib ins fld nz m n wx wy wz ((e + f) / 2) beam pad B W N sa →
        (∀ u ∈ sa.positions, ∀ d det, ins.detectors.get? d = some det → (u.isInt && det.pointing.isInt) = false) →
        ∃ (s1 s2 : Ω → Inst.State F D (Point ℝ) (Grid ℝ ℝ) (Arr ℝ) (Grid ℝ ℝ) ℝ) (cols : Ω → List (List (Option ℝ)))
          (mean : List (List (Option ℝ))),
          (∀ ω, addField ins { grid := asField (plainGrid (g ω)) (sky ω), name := some fld } = (s1 ω, .ok fld) ∧
            mapFields (grids lib) (s1 ω) [fld] { kernel := some (.pair m n), opts := (beam, pad) } = (s2 ω, .ok ()) ∧
            sampleFields (grids lib) (s2 ω) [fld] sa = .ok [(fld, cols ω)]) ∧
          List.Forall₂ (RecordedOf ins (sources line pos (fun j =>
              onAverage E p (mass.getD j 0) (sfr.getD j 0) (redshift.getD j 0))) (norm.getD 1) nx ny nz m n wx wy wz
            ((a + b) / 2) ((c + d) / 2) ((e + f) / 2) beam B W N sa.positions) ins.detNames mean ∧
          SamplesAverage P cols mean := by
  have hP : IsProbabilityMeasure P := (normals_random hR w 1 p 0 one_pos).isProbabilityMeasure
  have hΩ : Nonempty Ω := nonempty_of_isProbabilityMeasure P
  have hlen := (made_catalogue hR E w p hp hset s hr o hdisk hkw name hn hmc hfree mass sfr
    redshift hi hpul hpos inH _ hcat).1
  rw [List.length_map] at hlen
  obtain ⟨s', g, sky, nx, ny, nz, g1, g2, g3, g4, g5⟩ := observed_values (F := F) (D := D) (T := T) (S := S) hR E
    w p hp hset s hr o hdisk hkw name hn hmc hfree
    mass sfr redshift hi hpul hpos inH pos hcat hne meta' line hz res ralim declim zlim norm a b c d e f wx wy wz h1 h2 h3
    hpix hx hy hw hxa hyc hze hres hlim
  refine ⟨s', g, sky, nx, ny, nz, g1, g2, g3, g4, ?_⟩
  intro lib x iops ins fld m n beam pad B W N sa i1 i2 i3 i4 i5 i6
  obtain ⟨s1, s2, cols, o1, o2⟩ := g5 lib x iops ins fld m n beam pad B W N sa i1 i2 i3 i4 i5 i6
  obtain ⟨mean, n1, n2⟩ := recorded_mean hP ins line pos _
    (fun j => onAverage E p (mass.getD j 0) (sfr.getD j 0) (redshift.getD j 0)) (by
      intro j hj
      rw [hlen] at hj
      exact value_mean hR hS E erf hE w _ p mass sfr redshift j hj
        (fraction_of E p s o.useAll o.remap _ mass sfr redshift hi hage hmass j hj)) (norm.getD 1) _ _ _ m n wx wy wz
    _ _ _ hx hy hw beam B W N sa.positions ins.detNames (fun d hd => (i5.noise d hd).2) cols o2
  exact ⟨s1, s2, cols, mean, o1, n1, n2⟩

/-! ## An instrument with one detector -/

noncomputable def evenLib : Lib Unit Unit Unit Unit ℝ where
  emptyKw := ()
  spatial _ _ xs ys fs := .ok ⟨[xs.length, ys.length, fs.length], fun _ => 1⟩
  spectral _ _ fs := .ok ⟨[fs.length], fun _ => 1⟩
  noise _ _ n _ _ := .ok (List.replicate n 0)

noncomputable def evenSetup : Setup Unit Unit ℝ := ⟨{}, {}, {}, none, none, some "rad", some "none", some "Lsun"⟩

noncomputable def evenOps : List (Op Unit Unit (Point ℝ) (Grid ℝ ℝ) (Arr ℝ) (Grid ℝ ℝ) ℝ (BeamNorm × PadArg)) :=
  [.addDetector { name := some "a", spatial := .fn (), spectral := .fn (), noise := .fn (),
                  offsets := .pair ⟨false, 0, 0⟩ }]

noncomputable def evenState : Inst.State Unit Unit (Point ℝ) (Grid ℝ ℝ) (Arr ℝ) (Grid ℝ ℝ) ℝ :=
  run (grids evenLib) (fresh evenSetup) evenOps

theorem evenState_facts : evenState.detNames = ["a"] ∧
    evenState.detectors = [("a", ⟨some ⟨(), ()⟩, some ⟨(), ()⟩, some ⟨(), ()⟩, ⟨false, 0, 0⟩⟩)] ∧
    evenState.fields = [] ∧ evenState.bestSpatial = none ∧ evenState.bestSpectral = none :=
  ⟨by rfl, by rfl, by rfl, by rfl, by rfl⟩

theorem even_peak (m n : ℕ) (wx wy f N : ℝ)
    (h : Map.Spec.Normalises .peak (Map.Spec.beamValues (fun _ _ _ => 1) m n wx wy f) N) : N = 1 := by
  have := h.1
  simp only [Map.Spec.beamValues, List.mem_flatMap, List.mem_map] at this
  obtain ⟨_, _, _, _, h⟩ := this
  exact h.symm

theorem even_equipped (f : Name) (nz : ℕ) (hnz : nz ≠ 0) (wx wy wz cz : ℝ) (ps : List (Point ℝ)) :
    Equipped evenLib evenState f nz 3 3 wx wy wz cz .peak .none (fun _ _ _ _ => 1) (fun _ _ => 1)
      (fun _ => List.replicate ps.length 0) { positions := ps, withNoise := false, seed := fun _ _ => () } := by
  obtain ⟨h1, h2, -⟩ := evenState_facts
  refine ⟨by rw [h1]; simp, ?_, by decide, by decide, by decide, ?_, .inl rfl, ?_, rfl, rfl, ?_, ?_⟩
  · intro d hd det hdet
    rw [h2] at hdet
    rw [h1] at hd
    simp only [List.mem_cons, List.not_mem_nil, or_false] at hd
    subst hd
    simp [PyDict.get?] at hdet
    subst hdet
    exact ⟨⟨_, rfl, fun _ _ _ => ⟨_, rfl, rfl, fun _ _ _ _ _ _ _ _ _ => rfl⟩⟩,
      ⟨_, rfl, fun _ => ⟨_, rfl, rfl, fun _ _ _ => rfl⟩⟩⟩
  · intro d _ k _ N hN
    rw [even_peak _ _ _ _ _ N hN]
    exact one_ne_zero
  · intro d _
    simpa using hnz
  · intro h; cases h
  · intro d _
    refine ⟨?_, by simp⟩
    unfold Inst.Spec.Noise
    rw [if_neg (by simp)]
    simp only [List.map_replicate]
    rfl

/-- The carbon monoxide of Lidz et al. 2011 in maps of 4 × 4 × 4 cells, observed with a flat beam of three by three
cells: pointed at the first object the detector records on average three (the norm) times the mean over four channels
of the light of both; pointed off the map it records NaN. -/
example (erf : ℝ → ℝ) (w : World ℕ) (E : Env ℝ) (hE : E.fn = realFn erf) :
    ∃ (s' : (ℕ → ℝ) × (ℕ → ℝ) → Handler.State ℝ) (g : (ℕ → ℝ) × (ℕ → ℝ) → Grid ℝ (WithTop ℝ))
      (sky : (ℕ → ℝ) × (ℕ → ℝ) → Arr ℝ)
      (s1 s2 : (ℕ → ℝ) × (ℕ → ℝ) → Inst.State Unit Unit (Point ℝ) (Grid ℝ ℝ) (Arr ℝ) (Grid ℝ ℝ) ℝ)
      (v : (ℕ → ℝ) × (ℕ → ℝ) → ℝ),
      (∀ ω, (∃ m, prop E (Gal.streams ω) w .lidzCo = .ok m ∧
        make skyState m ⟨none, [], [], false, false, false, false, false⟩ = (s' ω, .ok ())) ∧
        lcGrid (s' ω) skyMeta ["LCO"] none none false (some ⟨false, [1 / 4]⟩) none none none (some 3) =
          some (.ok (g ω)) ∧ (plainGrid (g ω)).grid = some (sky ω) ∧
        addField evenState { grid := asField (plainGrid (g ω)) (sky ω), name := some "sky" } = (s1 ω, .ok "sky") ∧
        mapFields (grids evenLib) (s1 ω) ["sky"] { kernel := some (.pair 3 3), opts := (.peak, .none) } =
          (s2 ω, .ok ()) ∧
        sampleFields (grids evenLib) (s2 ω) ["sky"]
          { positions := [⟨false, 1 / 20, 1 / 20⟩, ⟨false, 5, 5⟩], withNoise := false, seed := fun _ _ => () } =
            .ok [("sky", [[some (v ω), none]])]) ∧
      ∫ ω, v ω ∂Gal.chance =
        3 * (0.1 * (2800 * (2 * 10 ^ 11 / 10 ^ 8)) + 0.1 * (2800 * (2 * 10 ^ 12 / 10 ^ 8))) / 4 := by
  obtain ⟨s', g, sky, nx, ny, nz, hx, hy, hz, h1, h2⟩ := C146_observed (F := Unit) (D := Unit) (T := Unit) (S := Unit)
    Gal.streams_random streams_separate E erf hE w
    .lidzCo (by decide) (by simp) skyState skyReachable ⟨none, [], [], false, false, false, false, false⟩ rfl rfl
    "LCO" (.inr ⟨rfl, rfl⟩) (by decide) (.inr rfl) _ _ _ (skyInputs .lidzCo) (by simp) (by simp) (by simp)
    (by decide) none [(1 / 20, 1 / 20, 11 / 10), (1 / 20, 1 / 3, 8 / 5)] skyCatalogue (by simp) skyMeta none (by simp)
    (some ⟨false, [1 / 4]⟩) none none
    none (some 3) (-(1 / 2)) (1 / 2) (-(1 / 2)) (1 / 2) 1 2 (1 / 4) (1 / 4) (1 / 4)
    ⟨by norm_num, by norm_num [raDefault, skyMeta]⟩ ⟨by norm_num, by norm_num [decDefault, skyMeta]⟩
    ⟨by norm_num, by norm_num [zDefault, skyMeta]⟩ rfl (by norm_num) (by norm_num) (by norm_num) (by norm_num)
    (by norm_num) (by norm_num) (by simp) ⟨none, by simp, by simp⟩
  have four : ∀ (n : ℕ) (s : ℝ), s = 1 → s - 1 / 4 / 20 ≤ n * (1 / 4) → n * (1 / 4) < s + 19 / 20 * (1 / 4) →
      n = 4 := fun n s hs h1 h2 => cells_unique n 4 s (1 / 4) (by norm_num) h1 h2
        (by rw [hs]; norm_num) (by rw [hs]; norm_num)
  obtain rfl := four nx _ (by norm_num) hx.1 hx.2
  obtain rfl := four ny _ (by norm_num) hy.1 hy.2
  obtain rfl := four nz _ (by norm_num) hz.1 hz.2
  obtain ⟨d1, d2, d3, d4, d5⟩ := evenState_facts
  obtain ⟨s1, s2, cols, mean, a1, a2, a3, a4⟩ := h2 evenLib evenSetup evenOps evenState "sky" 3 3 .peak .none
    (fun _ _ _ _ => 1) (fun _ _ => 1) (fun _ => List.replicate 2 0)
    { positions := [⟨false, 1 / 20, 1 / 20⟩, ⟨false, 5, 5⟩], withNoise := false, seed := fun _ _ => () } rfl
    (by rw [d3]; rfl) (by rw [d4]; simp) (by rw [d5]; simp) (even_equipped "sky" 4 (by decide) _ _ _ _
      [⟨false, 1 / 20, 1 / 20⟩, ⟨false, 5, 5⟩]) (by simp)
  rw [d1] at a2
  obtain ⟨mc, ms, b1, b2, rfl⟩ := List.forall₂_cons_left_iff.1 a2
  obtain rfl := List.forall₂_nil_left_iff.1 b2
  obtain ⟨det, N, f1, f2, f3, f4⟩ := b1
  have hdet : det.pointing = ⟨false, 0, 0⟩ := by
    rw [d2] at f1
    simp [PyDict.get?] at f1
    rw [← f1]
  obtain ⟨u, u', rfl⟩ : ∃ u u', mc = [u, u'] := List.length_eq_two.1 f3
  have q : (0 : ℝ) < 1 / 4 := by norm_num
  have t2 : ∀ c : ℝ, c = 0 → spot 4 (1 / 4 : ℝ) c (1 / 20) = some 2 := by
    rintro c rfl
    rw [spot_some _ _ _ _ q]
    norm_num [InSpan]
  have t3 : ∀ c : ℝ, c = 0 → spot 4 (1 / 4 : ℝ) c (1 / 3) = some 3 := by
    rintro c rfl
    rw [spot_some _ _ _ _ q]
    norm_num [InSpan]
  have t0 : ∀ c : ℝ, c = 3 / 2 → spot 4 (1 / 4 : ℝ) c (11 / 10) = some 0 := by
    rintro c rfl
    rw [spot_some _ _ _ _ q]
    norm_num [InSpan]
  have t4 : ∀ c : ℝ, c = 3 / 2 → spot 4 (1 / 4 : ℝ) c (8 / 5) = some 2 := by
    rintro c rfl
    rw [spot_some _ _ _ _ q]
    norm_num [InSpan]
  have t5 : ∀ c : ℝ, c = 0 → spot 4 (1 / 4 : ℝ) c 5 = none := by
    rintro c rfl
    rcases h : spot 4 (1 / 4 : ℝ) 0 5 with - | i
    · rfl
    · rw [spot_some _ _ _ _ q] at h
      obtain ⟨k1, k2, k3⟩ := h
      have : (i : ℝ) < 4 := by exact_mod_cast k1
      norm_num at k2 k3
      linarith
  have hN : ∀ k < 4, N k = 1 := fun k hk => even_peak _ _ _ _ _ _ (f2 k hk)
  have hu := (reads_iff _ _ _ _ _ _ q q _ _ _ _ _).1 (f4 0 ⟨false, 1 / 20, 1 / 20⟩ 0 u rfl rfl rfl)
  have hu' := (reads_iff _ _ _ _ _ _ q q _ _ _ _ _).1 (f4 1 ⟨false, 5, 5⟩ 0 u' rfl rfl rfl)
  have z0 : ((-(1 / 2) + 1 / 2) / 2 : ℝ) = 0 := by norm_num
  have z1 : ((1 + 2) / 2 : ℝ) = 3 / 2 := by norm_num
  rw [hdet] at hu hu'
  simp only [add_zero, sampleAt, t2 _ z0, zero_add] at hu
  simp only [add_zero, sampleAt, t5 _ z0] at hu'
  subst hu'
  have key : received (sources none [(1 / 20, 1 / 20, 11 / 10), (1 / 20, 1 / 3, 8 / 5)] (fun j =>
      onAverage E .lidzCo ([2 * 10 ^ 11, 2 * 10 ^ 12].getD j 0) ([1, 20].getD j 0) ([11 / 10, 8 / 5].getD j 0)))
      ((some 3 : Option ℝ).getD 1) (fun _ _ _ => 1) (fun _ => 1) N 4 4 4 3 3 (1 / 4) (1 / 4) (1 / 4)
      ((-(1 / 2) + 1 / 2) / 2) ((-(1 / 2) + 1 / 2) / 2) ((1 + 2) / 2) 2 2 =
      3 * (0.1 * (2800 * (2 * 10 ^ 11 / 10 ^ 8)) + 0.1 * (2800 * (2 * 10 ^ 12 / 10 ^ 8))) / 4 := by
    have e0 : ∀ h : ℕ → Source ℝ, (List.range ([(1 / 20, 1 / 20, 11 / 10), (1 / 20, 1 / 3, 8 / 5)] :
      List (ℝ × ℝ × ℝ)).length).map h = [h 0, h 1] := fun h => rfl
    unfold received sources
    rw [e0]
    simp only [List.map_cons, List.map_nil, share, List.getD_cons_zero, List.getD_cons_succ, Option.elim_none,
      t2 _ z0, t3 _ z0, t0 _ z1, t4 _ z1, hN 0 (by decide), hN 2 (by decide)]
    rw [if_pos (by decide), if_pos (by decide)]
    simp only [onAverage, switchedOn, published, medianScatter, List.sum_cons, List.sum_nil, Option.getD_some]
    norm_num [List.range_succ]
  rw [key] at hu
  subst hu
  have k1 := a3
  have k2 := a4
  obtain ⟨v, v1, -, v3⟩ := (k2 0 0 _ rfl).2 _ rfl
  have v2 := (k2 0 1 _ rfl).1 rfl
  refine ⟨s', g, sky, s1, s2, v, fun ω => ⟨(h1 ω).1, (h1 ω).2.1, (h1 ω).2.2.2, (a1 ω).1, (a1 ω).2.1, ?_⟩, v3⟩
  rw [(a1 ω).2.2]
  obtain ⟨c1, p1, p2⟩ := v1 ω
  obtain ⟨c2, p3, p4⟩ := v2 ω
  have hk := k1 ω
  match hc : cols ω, hk with
  | [[x, y]], _ =>
    rw [hc] at p1 p3
    cases p1
    cases p3
    cases p2
    cases p4
    rfl
  | [], h => simp at h
  | _ :: _ :: _, h => simp at h
  | [[]], h => simp at h
  | [[_]], h => simp at h
  | [_ :: _ :: _ :: _], h => simp at h

end Verif.Ready
