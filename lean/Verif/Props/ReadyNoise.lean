import Verif.Spec.ReadyNoise
import Verif.Props.ReadyObserve
import Verif.Props.ReadySpread

/-!
# C148: how the samples of detectors vary together
-/

set_option linter.unusedSectionVars false

namespace Verif.Ready

open Verif.Gal (Rng World realFn)
open Verif.Gal.Spec (Random Fraction)
open Verif.Handler (Name MakeOpts MultiProp hasProperty make)
open Verif.Map (Grid Arr NArr BeamNorm PadArg)
open Verif.HGrid (lcGrid)
open Verif.HGrid.Spec
open Verif.Inst (Lib Setup Op Point SampleArgs run grids fresh addField mapFields sampleFields asField)
open Verif.Inst.Spec (Source atLine received share spot InSpan RecordedOf Equipped NoNaN plainGrid Reads)
open MeasureTheory ProbabilityTheory
open Spec

variable {Ω G : Type} [MeasurableSpace Ω] {P : Measure Ω} {R : Ω → Rng ℝ G}

/-- The covariance of two sums of the same independent numbers. -/
theorem linear_cov [IsProbabilityMeasure P] (n : ℕ) (X : ℕ → Ω → ℝ) (var : ℕ → ℝ) (h2 : ∀ k < n, MemLp (X k) 2 P)
    (hv : ∀ k < n, Var[X k; P] = var k) (hi : ∀ k < n, ∀ l < n, k ≠ l → IndepFun (X k) (X l) P) (g g' : ℕ → ℝ)
    (e e' : ℝ) :
    cov[fun ω => e + ∑ k ∈ Finset.range n, X k ω * g k, fun ω => e' + ∑ k ∈ Finset.range n, X k ω * g' k; P] =
      ∑ k ∈ Finset.range n, g k * g' k * var k := by
  have m : ∀ g : ℕ → ℝ, ∀ k ∈ Finset.range n, MemLp (fun ω => X k ω * g k) 2 P := fun g k hk =>
    (h2 k (Finset.mem_range.1 hk)).mul_const (g k)
  have e0 : ∀ g : ℕ → ℝ, (fun ω => ∑ k ∈ Finset.range n, X k ω * g k) =
      ∑ k ∈ Finset.range n, fun ω => X k ω * g k := by
    intro g; funext ω; rw [Finset.sum_apply]
  have ms : ∀ g : ℕ → ℝ, MemLp (fun ω => ∑ k ∈ Finset.range n, X k ω * g k) 2 P := fun g =>
    memLp_finsetSum _ (m g)
  rw [covariance_const_add_left ((ms g).integrable (by norm_num)),
    covariance_const_add_right ((ms g').integrable (by norm_num)), e0 g, covariance_sum_left' (m g) (ms g')]
  refine Finset.sum_congr rfl (fun k hk => ?_)
  rw [covariance_mul_const_left, e0 g', covariance_sum_right' (m g') (h2 k (Finset.mem_range.1 hk))]
  rw [Finset.sum_eq_single k]
  · rw [covariance_mul_const_right, covariance_self (h2 k (Finset.mem_range.1 hk)).aestronglyMeasurable.aemeasurable,
      hv k (Finset.mem_range.1 hk)]
    ring
  · intro l hl hlk
    rw [covariance_mul_const_right, (hi k (Finset.mem_range.1 hk) l (Finset.mem_range.1 hl) (Ne.symm hlk)).covariance_eq_zero
      (h2 k (Finset.mem_range.1 hk)) (h2 l (Finset.mem_range.1 hl)), zero_mul]
  · intro h; exact absurd hk h

/-- What is received of all objects is the sum of what is received of each of them with light one, times its light. -/
theorem received_units (B : ℝ → ℝ → ℝ → ℝ) (W : ℝ → ℝ) (N : ℕ → ℝ) (nx ny nz m n : ℕ) (wx wy wz cx cy cz q : ℝ)
    (i j : ℕ) (line : Option ℝ) (pos : List (ℝ × ℝ × ℝ)) (v : ℕ → ℝ) :
    received (sources line pos v) q B W N nx ny nz m n wx wy wz cx cy cz i j =
      ∑ k ∈ Finset.range pos.length, v k *
        received (sources line [pos.getD k 0] (fun _ => 1)) q B W N nx ny nz m n wx wy wz cx cy cz i j := by
  have e : ∀ k, received (sources line [pos.getD k 0] (fun _ => 1)) q B W N nx ny nz m n wx wy wz cx cy cz i j =
      q * share B W N nx ny nz m n wx wy wz cx cy cz i j
        ⟨(pos.getD k 0).1, (pos.getD k 0).2.1,
          line.elim (pos.getD k 0).2.2 (fun f => f / (1 + (pos.getD k 0).2.2)), 1⟩ /
        ((List.range nz).map (fun k => W (Map.Spec.freq nz wz cz k))).sum := by
    intro k
    simp [received, sources, List.range_succ]
  have hs : ∀ l : ℕ, ((List.range l).map (fun k => share B W N nx ny nz m n wx wy wz cx cy cz i j
      ⟨(pos.getD k 0).1, (pos.getD k 0).2.1,
          line.elim (pos.getD k 0).2.2 (fun f => f / (1 + (pos.getD k 0).2.2)), v k⟩)).sum =
      ∑ k ∈ Finset.range l, v k * share B W N nx ny nz m n wx wy wz cx cy cz i j
        ⟨(pos.getD k 0).1, (pos.getD k 0).2.1,
          line.elim (pos.getD k 0).2.2 (fun f => f / (1 + (pos.getD k 0).2.2)), 1⟩ := by
    intro l
    induction l with
    | zero => simp
    | succ l ih =>
      rw [List.range_succ, List.map_append, List.sum_append, ih, Finset.sum_range_succ, List.map_singleton,
        List.sum_singleton, share_v]
  simp only [e]
  unfold received
  rw [show (sources line pos v).map (share B W N nx ny nz m n wx wy wz cx cy cz i j) =
    (List.range pos.length).map (fun k => share B W N nx ny nz m n wx wy wz cx cy cz i j
      ⟨(pos.getD k 0).1, (pos.getD k 0).2.1,
          line.elim (pos.getD k 0).2.2 (fun f => f / (1 + (pos.getD k 0).2.2)), v k⟩) by
      unfold sources; rw [List.map_map]; rfl, hs, Finset.mul_sum, Finset.sum_div]
  exact Finset.sum_congr rfl (fun k _ => by ring)

/-- How the samples vary. -/
theorem recorded_cov {F D : Type} [Nonempty Ω] [IsProbabilityMeasure P]
    (s : Inst.State F D (Point ℝ) (Grid ℝ ℝ) (Arr ℝ) (Grid ℝ ℝ) ℝ) (line : Option ℝ) (pos : List (ℝ × ℝ × ℝ))
    (v : Ω → ℕ → ℝ) (var : ℕ → ℝ) (h2 : ∀ k < pos.length, MemLp (fun ω => v ω k) 2 P)
    (hv : ∀ k < pos.length, Var[fun ω => v ω k; P] = var k)
    (hi : ∀ k < pos.length, ∀ l < pos.length, k ≠ l → IndepFun (fun ω => v ω k) (fun ω => v ω l) P) (q : ℝ)
    (nx ny nz m n : ℕ) (wx wy wz cx cy cz : ℝ) (hx : 0 < wx) (hy : 0 < wy) (hw : 0 < wz) (norm : BeamNorm)
    (B : Name → ℝ → ℝ → ℝ → ℝ) (W : Name → ℝ → ℝ) (E : Name → List ℝ) (ps : List (Point ℝ)) (ds : List Name)
    (hE : ∀ d ∈ ds, (E d).length = ps.length) (cols : Ω → List (List (Option ℝ)))
    (hc : ∀ ω, List.Forall₂ (RecordedOf s (sources line pos (v ω)) q nx ny nz m n wx wy wz cx cy cz norm B W E ps)
      ds (cols ω)) :
    ∃ unit : ℕ → List (List (Option ℝ)), (∀ k < pos.length,
      List.Forall₂ (RecordedOf s (sources line [pos.getD k 0] (fun _ => 1)) q nx ny nz m n wx wy wz cx cy cz norm B W
        (fun _ => List.replicate ps.length 0) ps) ds (unit k)) ∧ SamplesVary P cols pos.length unit var := by
  obtain ⟨ω0⟩ := ‹Nonempty Ω›
  -- pointing and normalisation of the detectors
  have hdet : ∀ d, ∃ (pt : Point ℝ) (N : ℕ → ℝ), d ∈ ds → ∃ det, s.detectors.get? d = some det ∧ det.pointing = pt ∧
      ∀ k < nz, Map.Spec.Normalises norm (Map.Spec.beamValues (B d) m n wx wy (Map.Spec.freq nz wz cz k)) (N k) := by
    intro d
    by_cases hd : d ∈ ds
    · obtain ⟨i, hi⟩ := List.getElem?_of_mem hd
      have hlt : i < (cols ω0).length := by
        rw [← (hc ω0).length_eq]; exact (List.getElem?_eq_some_iff.1 hi).1
      have := List.forall₂_iff_get.1 (hc ω0) |>.2 i (List.getElem?_eq_some_iff.1 hi).1 hlt
      simp only [List.get_eq_getElem, (List.getElem?_eq_some_iff.1 hi).2] at this
      obtain ⟨det, N, a1, a2, -⟩ := this
      exact ⟨det.pointing, N, fun _ => ⟨det, a1, rfl, a2⟩⟩
    · exact ⟨⟨false, 0, 0⟩, fun _ => 0, fun h => absurd h hd⟩
  choose pt N hN using hdet
  obtain ⟨at', hat⟩ : ∃ at' : List (Source ℝ) → (Name → List ℝ) → Name → ℕ → Option ℝ, at' = fun objs E d t =>
    sampleAt nx ny wx wy cx cy (received objs q (B d) (W d) (N d) nx ny nz m n wx wy wz cx cy cz)
      ((ps.getD t ⟨false, 0, 0⟩).x + (pt d).x) ((ps.getD t ⟨false, 0, 0⟩).y + (pt d).y) ((E d).getD t 0) := ⟨_, rfl⟩
  -- samples of each outcome
  have present : ∀ (ω : Ω) (i t : ℕ) (d : Name), ds[i]? = some d → t < ps.length → ∃ c : List (Option ℝ), (cols ω)[i]? = some c ∧
      c[t]? = some (at' (sources line pos (v ω)) E d t) := by
    intro ω i t d hd ht
    have hl : i < (cols ω).length := by
      rw [← (hc ω).length_eq]; exact (List.getElem?_eq_some_iff.1 hd).1
    obtain ⟨c, hci⟩ : ∃ c, (cols ω)[i]? = some c := ⟨_, List.getElem?_eq_getElem hl⟩
    obtain ⟨d', hd', hrec⟩ := Inst.forall₂_right (hc ω) i c hci
    obtain rfl : d = d' := Option.some.inj (hd.symm.trans hd')
    obtain ⟨det, N', r1, r2, r3, r4⟩ := hrec
    refine ⟨c, hci, ?_⟩
    have hmem := List.mem_of_getElem? hd
    obtain ⟨det', b1, b2, b3⟩ := hN d hmem
    obtain rfl : det' = det := Option.some.inj (b1.symm.trans r1)
    have hp : ps[t]? = some (ps.getD t ⟨false, 0, 0⟩) := by
      rw [List.getD_eq_getElem?_getD, List.getElem?_eq_getElem ht]; rfl
    have he : (E d)[t]? = some ((E d).getD t 0) := by
      have := hE d hmem
      rw [List.getD_eq_getElem?_getD, List.getElem?_eq_getElem (by omega)]; rfl
    have h2 : c[t]? = some (c[t]'(by omega)) := List.getElem?_eq_getElem (by omega)
    have := (reads_iff nx ny wx wy cx cy hx hy _ _ _ _ _).1 (r4 t _ _ _ hp he h2)
    rw [h2, hat, this, b2, received_congr (B d) (W d) N' (N d) nx ny nz m n wx wy wz cx cy cz hw
      (fun k hk => Map.normalises_unique norm _ _ _ (r2 k hk) (b3 k hk))]
  have sample : ∀ ω i t x, SampleIs (cols ω) i t x → ∃ d, ds[i]? = some d ∧ t < ps.length ∧
      at' (sources line pos (v ω)) E d t = some x := by
    rintro ω i t x ⟨c, h1, h2⟩
    obtain ⟨d, hd, hrec⟩ := Inst.forall₂_right (hc ω) i c h1
    obtain ⟨det, N', r1, r2, r3, r4⟩ := hrec
    have ht : t < ps.length := by rw [← r3]; exact (List.getElem?_eq_some_iff.1 h2).1
    obtain ⟨c', k1, k2⟩ := present ω i t d hd ht
    obtain rfl : c' = c := Option.some.inj (k1.symm.trans h1)
    exact ⟨d, hd, ht, Option.some.inj (k2.symm.trans h2)⟩
  obtain ⟨unit, hunit⟩ : ∃ unit : ℕ → List (List (Option ℝ)), unit = fun k => ds.map (fun d =>
    (List.range ps.length).map (at' (sources line [pos.getD k 0] (fun _ => 1)) (fun _ => List.replicate ps.length 0) d)) :=
    ⟨_, rfl⟩
  refine ⟨unit, ?_, ?_⟩
  · intro k hk
    rw [hunit]
    beta_reduce
    rw [List.forall₂_map_right_iff]
    refine List.forall₂_same.2 (fun d hd => ?_)
    obtain ⟨det, b1, b2, b3⟩ := hN d hd
    refine ⟨det, N d, b1, b3, by simp, ?_⟩
    intro t p e u hp he hu
    rw [reads_iff nx ny wx wy cx cy hx hy]
    have ht : t < ps.length := (List.getElem?_eq_some_iff.1 hp).1
    rw [List.getElem?_map, List.getElem?_range ht] at hu
    simp only [Option.map_some, Option.some.injEq] at hu
    rw [← hu, hat]
    beta_reduce
    have q1 : ps.getD t ⟨false, 0, 0⟩ = p := by rw [List.getD_eq_getElem?_getD, hp]; rfl
    have q2 : (List.replicate ps.length (0 : ℝ)).getD t 0 = e := by rw [List.getD_eq_getElem?_getD, he]; rfl
    rw [q1, q2, b2]
  · -- one sample as a sum
    have form : ∀ i t (u : Ω → ℝ), (∀ ω, SampleIs (cols ω) i t (u ω)) → ∃ (e : ℝ) (g : ℕ → ℝ),
        (∀ k, SampleIs (unit k) i t (g k)) ∧ ∀ ω, u ω = e + ∑ k ∈ Finset.range pos.length, v ω k * g k := by
      intro i t u hu
      obtain ⟨d, hd, ht, -⟩ := sample ω0 i t _ (hu ω0)
      have hall : ∀ ω, at' (sources line pos (v ω)) E d t = some (u ω) := by
        intro ω
        obtain ⟨d', hd', -, h⟩ := sample ω i t _ (hu ω)
        obtain rfl : d = d' := Option.some.inj (hd.symm.trans hd')
        exact h
      rw [hat] at hall
      simp only [sampleAt] at hall
      rcases s1 : spot nx wx cx ((ps.getD t ⟨false, 0, 0⟩).x + (pt d).x) with - | i'
      · have := hall ω0
        rw [s1] at this; simp at this
      rcases s2 : spot ny wy cy ((ps.getD t ⟨false, 0, 0⟩).y + (pt d).y) with - | j'
      · have := hall ω0
        rw [s1, s2] at this; simp at this
      simp only [s1, s2, Option.some.injEq] at hall
      refine ⟨(E d).getD t 0, fun k => received (sources line [pos.getD k 0] (fun _ => 1)) q (B d) (W d) (N d) nx ny nz m n
        wx wy wz cx cy cz i' j', fun k => ?_, fun ω => ?_⟩
      · refine ⟨(List.range ps.length).map (at' (sources line [pos.getD k 0] (fun _ => 1))
          (fun _ => List.replicate ps.length 0) d), ?_, ?_⟩
        · rw [hunit]
          simp [hd]
        · rw [List.getElem?_map, List.getElem?_range ht, hat]
          simp only [Option.map_some, sampleAt, s1, s2]
          simp [List.getD_eq_getElem?_getD, List.getElem?_replicate, ht]
      · rw [← hall ω, received_units]
    refine ⟨fun k _ i t x hx' => ?_, fun i t u hu => ?_, ?_⟩
    · obtain ⟨c, c1, c2⟩ := hx'
      rw [hunit, List.getElem?_map] at c1
      obtain ⟨d, hd, rfl⟩ := Option.map_eq_some_iff.1 c1
      have ht : t < ps.length := by simpa using (List.getElem?_eq_some_iff.1 c2).1
      rw [List.getElem?_map, List.getElem?_range ht, Option.map_some, Option.some.injEq, hat] at c2
      simp only [sampleAt] at c2
      rcases s1 : spot nx wx cx ((ps.getD t ⟨false, 0, 0⟩).x + (pt d).x) with - | i'
      · rw [s1] at c2; simp at c2
      rcases s2 : spot ny wy cy ((ps.getD t ⟨false, 0, 0⟩).y + (pt d).y) with - | j'
      · rw [s1, s2] at c2; simp at c2
      have hall : ∀ ω, ∃ x, SampleIs (cols ω) i t x := by
        intro ω
        obtain ⟨c, h1, h2⟩ := present ω i t d hd ht
        rw [hat] at h2
        simp only [sampleAt, s1, s2] at h2
        exact ⟨_, c, h1, h2⟩
      choose v hv using hall
      exact ⟨v, hv⟩
    · obtain ⟨e, g, -, g2⟩ := form i t u hu
      rw [show u = fun ω => e + ∑ k ∈ Finset.range pos.length, v ω k * g k from funext g2]
      exact (memLp_const e).add (memLp_finsetSum _ (fun k hk => (h2 k (Finset.mem_range.1 hk)).mul_const (g k)))
    intro i t i' t' u u' hu hu'
    obtain ⟨e, g, g1, g2⟩ := form i t u hu
    obtain ⟨e', g', g1', g2'⟩ := form i' t' u' hu'
    refine ⟨g, g', fun k _ => g1 k, fun k _ => g1' k, ?_⟩
    rw [show u = fun ω => e + ∑ k ∈ Finset.range pos.length, v ω k * g k from funext g2,
      show u' = fun ω => e' + ∑ k ∈ Finset.range pos.length, v ω k * g' k from funext g2']
    exact linear_cov pos.length (fun k ω => v ω k) var h2 hv hi g g' e e'

/-- **C148**: samples of the detectors taken of maps of a ready-made property vary with the light of the objects alone:
the covariance of two samples is the sum over the objects of what is recorded of one unit of their light in the one and
the other, times the variance of their light. -/
theorem C148_noise {F D T S : Type} [DecidableEq F] [DecidableEq D] (hR : Random P R) (hS : Separate P R)
    (hT : Unrelated P R) (E : Env ℝ) (erf : ℝ → ℝ)
    (hE : E.fn = realFn erf)
    (w : World G) (p : Which) (hp : p ≠ .coSled)
    (hset : p = .behrooziSfr ∨ p = .behrooziMass → E.setUp = true)
    (s : Handler.State ℝ) (hr : Handler.Spec.Reachable s) (o : MakeOpts ℝ) (hdisk : o.writeDisk = false)
    (hkw : o.otherKws = []) (name : Name) (hn : o.rename = some [name] ∨ o.rename = none ∧ name = (label p).1)
    (hmc : name ≠ "mass_cuts") (hfree : o.overwrite = true ∨ hasProperty s name = false)
    (mass sfr redshift : List ℝ)
    (hi : Inputs s o.useAll o.remap (Handler.Spec.selection s o.useAll).length p mass sfr redshift)
    (hpul : p = .pullenCo → (Handler.Spec.selection s o.useAll).length ≤ 100 ∨ ∃ z0, ∀ z ∈ redshift, z = z0)
    (hage : p = .pullenCo → ∀ z ∈ redshift, 0 < E.age z) (hmass : p = .yangCii → ∀ m ∈ mass, 0 ≤ m)
    (hpos : name ∉ ["ra", "dec", "redshift"]) (inH : Option Bool) (pos : List (ℝ × ℝ × ℝ))
    (hcat : Catalogue s o.useAll inH ["ra", "dec", "redshift"] [] (pos.map (fun q => ([q.1, q.2.1, q.2.2], []))))
    (hne : pos ≠ [])
    (meta' : LCH.Meta ℝ) (line : Option ℝ) (hz : line ≠ none → ∀ q ∈ pos, 1 + q.2.2 ≠ 0)
    (res ralim declim zlim : Option (NArr ℝ)) (norm : Option ℝ) (a b c d e f wx wy wz : ℝ)
    (h1 : Interval (raDefault meta') ralim a b) (h2 : Interval (decDefault meta') declim c d)
    (h3 : Interval (zDefault meta' line) zlim e f)
    (hpix : pixels [b - a, d - c, f - e] res = [wx, wy, wz]) (hx : 0 < wx) (hy : 0 < wy) (hw : 0 < wz)
    (hxa : (1 + 1 / 20) * wx < b - a) (hyc : (1 + 1 / 20) * wy < d - c) (hze : (1 + 1 / 20) * wz < f - e)
    (hres : ∀ r, res = some r → r.isInt = false)
    (hlim : ∃ l ∈ [ralim, declim, zlim], ∀ r, l = some r → r.isInt = false) :
    ∃ (s' : Ω → Handler.State ℝ) (g : Ω → Grid ℝ (WithTop ℝ)) (sky : Ω → Arr ℝ) (nx ny nz : ℕ),
      (b - a - wx / 20 ≤ nx * wx ∧ nx * wx < b - a + 19 / 20 * wx) ∧
      (d - c - wy / 20 ≤ ny * wy ∧ ny * wy < d - c + 19 / 20 * wy) ∧
      (f - e - wz / 20 ≤ nz * wz ∧ nz * wz < f - e + 19 / 20 * wz) ∧
      (∀ ω, (∃ m, prop E (R ω) w p = .ok m ∧ make s m o = (s' ω, .ok ())) ∧
        lcGrid (s' ω) meta' [name] line inH o.useAll res ralim declim zlim norm = some (.ok (g ω)) ∧
        NoNaN (g ω) 1 ∧ (plainGrid (g ω)).grid = some (sky ω)) ∧
      ∀ (lib : Lib F D T S ℝ) (x : Setup F D ℝ)
        (iops : List (Op F D (Point ℝ) (Grid ℝ ℝ) (Arr ℝ) (Grid ℝ ℝ) ℝ (BeamNorm × PadArg)))
        (ins : Inst.State F D (Point ℝ) (Grid ℝ ℝ) (Arr ℝ) (Grid ℝ ℝ) ℝ) (fld : Name) (m n : ℕ) (beam : BeamNorm)
        (pad : PadArg) (B : Name → ℝ → ℝ → ℝ → ℝ) (W : Name → ℝ → ℝ) (N : Name → List ℝ)
        (sa : SampleArgs (Point ℝ) T S),
        ins = run (grids lib) (fresh x) iops → ins.fields.has fld = false →
        (∀ r, ins.bestSpatial = some r → wx ≤ r ∧ wy ≤ r) → (∀ r, ins.bestSpectral = some r → wz ≤ r) →
        Equipped lib ins fld nz m n wx wy wz ((e + f) / 2) beam pad B W N sa →
        (∀ u ∈ sa.positions, ∀ d det, ins.detectors.get? d = some det → (u.isInt && det.pointing.isInt) = false) →
        ∃ (s1 s2 : Ω → Inst.State F D (Point ℝ) (Grid ℝ ℝ) (Arr ℝ) (Grid ℝ ℝ) ℝ) (cols : Ω → List (List (Option ℝ)))
          (unit : ℕ → List (List (Option ℝ))),
          (∀ ω, addField ins { grid := asField (plainGrid (g ω)) (sky ω), name := some fld } = (s1 ω, .ok fld) ∧
            mapFields (grids lib) (s1 ω) [fld] { kernel := some (.pair m n), opts := (beam, pad) } = (s2 ω, .ok ()) ∧
            sampleFields (grids lib) (s2 ω) [fld] sa = .ok [(fld, cols ω)]) ∧
          (∀ k < pos.length, List.Forall₂ (RecordedOf ins (sources line [pos.getD k 0] (fun _ => 1)) (norm.getD 1)
            nx ny nz m n wx wy wz ((a + b) / 2) ((c + d) / 2) ((e + f) / 2) beam B W
            (fun _ => List.replicate sa.positions.length 0) sa.positions) ins.detNames (unit k)) ∧
          SamplesVary P cols pos.length unit (fun k =>
            spread E p (mass.getD k 0) (sfr.getD k 0) (redshift.getD k 0)) := by
  have hP : IsProbabilityMeasure P := (normals_random hR w 1 p 0 one_pos).isProbabilityMeasure
  have hΩ : Nonempty Ω := nonempty_of_isProbabilityMeasure P
  have hlen := (made_catalogue hR E w p hp hset s hr o hdisk hkw name hn hmc hfree mass sfr
    redshift hi hpul hpos inH _ hcat).1
  rw [List.length_map] at hlen
  obtain ⟨s', g, sky, nx, ny, nz, g1, g2, g3, g4, g5⟩ := observed_values (F := F) (D := D) (T := T) (S := S) hR E
    w p hp hset s hr o hdisk hkw name hn hmc hfree
    mass sfr redshift hi hpul hpos inH pos hcat hne meta' line hz res ralim declim zlim norm a b c d e f wx wy wz h1 h2 h3
    hpix hx hy hw hxa hyc hze hres hlim
  have var := fun k (hk : k < (Handler.Spec.selection s o.useAll).length) =>
    value_variance hR hS E erf hE w _ p mass sfr redshift k hk
      (fraction_of E p s o.useAll o.remap _ mass sfr redshift hi hage hmass k hk)
  refine ⟨s', g, sky, nx, ny, nz, g1, g2, g3, g4, ?_⟩
  intro lib x iops ins fld m n beam pad B W N sa i1 i2 i3 i4 i5 i6
  obtain ⟨s1, s2, cols, o1, o2⟩ := g5 lib x iops ins fld m n beam pad B W N sa i1 i2 i3 i4 i5 i6
  obtain ⟨unit, n1, n2⟩ := recorded_cov ins line pos _
    (fun k => spread E p (mass.getD k 0) (sfr.getD k 0) (redshift.getD k 0))
    (fun k hk => (var k (by omega)).1) (fun k hk => (var k (by omega)).2)
    (fun k hk l hl hkl => value_indep hT E erf hE w _ p mass sfr redshift k l (by omega) (by omega) hkl)
    (norm.getD 1) _ _ _ m n wx wy wz _ _ _ hx hy hw beam B W N sa.positions ins.detNames
    (fun d hd => (i5.noise d hd).2) cols o2
  exact ⟨s1, s2, cols, unit, o1, n1, n2⟩

/-- What the detector of the example records of one unit of light of the two objects, at two positions. -/
theorem even_gains (ins : Inst.State Unit Unit (Point ℝ) (Grid ℝ ℝ) (Arr ℝ) (Grid ℝ ℝ) ℝ)
    (d2 : ins.detectors = [("a", ⟨some ⟨(), ()⟩, some ⟨(), ()⟩, some ⟨(), ()⟩, ⟨false, 0, 0⟩⟩)])
    (unit : ℕ → List (List (Option ℝ)))
    (a2 : ∀ k < 2, List.Forall₂ (RecordedOf ins (sources none
      [[((1 / 20, 1 / 20, 11 / 10) : ℝ × ℝ × ℝ), (1 / 20, 1 / 3, 8 / 5)].getD k 0] (fun _ => 1)) ((some (3 : ℝ)).getD 1)
      4 4 4 3 3 (1 / 4) (1 / 4) (1 / 4) ((-(1 / 2) + 1 / 2) / 2) ((-(1 / 2) + 1 / 2) / 2) ((1 + 2) / 2) .peak
      (fun _ _ _ _ => 1) (fun _ _ => 1) (fun _ => List.replicate 2 0)
      [⟨false, 1 / 20, 1 / 20⟩, ⟨false, 1 / 20, -(1 / 8)⟩]) ["a"] (unit k)) :
    ∀ k < 2, unit k = [[some (3 / 4), some (if k = 0 then 3 / 4 else 0)]] := by
  have q : (0 : ℝ) < 1 / 4 := by norm_num
  have t1 : ∀ c : ℝ, c = 0 → spot 4 (1 / 4 : ℝ) c (-(1 / 8)) = some 1 := by
    rintro c rfl
    rw [spot_some _ _ _ _ q]
    norm_num [InSpan]
  have t2 : ∀ c : ℝ, c = 0 → spot 4 (1 / 4 : ℝ) c (1 / 20) = some 2 := by
    rintro c rfl
    rw [spot_some _ _ _ _ q]
    norm_num [InSpan]
  have t3 : ∀ c : ℝ, c = 0 → spot 4 (1 / 4 : ℝ) c (1 / 3) = some 3 := by
    rintro c rfl
    rw [spot_some _ _ _ _ q]
    norm_num [InSpan]
  have t0 : ∀ c : ℝ, c = 3 / 2 → spot 4 (1 / 4 : ℝ) c (11 / 10) = some 0 := by
    rintro c rfl
    rw [spot_some _ _ _ _ q]
    norm_num [InSpan]
  have t4 : ∀ c : ℝ, c = 3 / 2 → spot 4 (1 / 4 : ℝ) c (8 / 5) = some 2 := by
    rintro c rfl
    rw [spot_some _ _ _ _ q]
    norm_num [InSpan]
  have z0 : ((-(1 / 2) + 1 / 2) / 2 : ℝ) = 0 := by norm_num
  have z1 : ((1 + 2) / 2 : ℝ) = 3 / 2 := by norm_num
  -- what is recorded of one unit of light
  have gain : ∀ k < 2, unit k = [[some (3 / 4), some (if k = 0 then 3 / 4 else 0)]] := by
    intro k hk
    obtain ⟨mc, ms, b1, b2, hu⟩ := List.forall₂_cons_left_iff.1 (a2 k hk)
    obtain rfl := List.forall₂_nil_left_iff.1 b2
    obtain ⟨det, N, f1, f2, f3, f4⟩ := b1
    have hdet : det.pointing = ⟨false, 0, 0⟩ := by
      rw [d2] at f1
      simp [PyDict.get?] at f1
      rw [← f1]
    obtain ⟨u, u', rfl⟩ : ∃ u u', mc = [u, u'] := List.length_eq_two.1 f3
    have hN : ∀ k < 4, N k = 1 := fun k hk => even_peak _ _ _ _ _ _ (f2 k hk)
    have hu1 := (reads_iff _ _ _ _ _ _ q q _ _ _ _ _).1 (f4 0 ⟨false, 1 / 20, 1 / 20⟩ 0 u rfl rfl rfl)
    have hu2 := (reads_iff _ _ _ _ _ _ q q _ _ _ _ _).1 (f4 1 ⟨false, 1 / 20, -(1 / 8)⟩ 0 u' rfl rfl rfl)
    rw [hdet] at hu1 hu2
    simp only [add_zero, sampleAt, t2 _ z0, t1 _ z0, zero_add] at hu1 hu2
    rw [hu, hu1, hu2]
    have e0 : ∀ h : ℕ → Source ℝ, (List.range 1).map h = [h 0] := fun h => rfl
    unfold received sources
    simp only [List.length_singleton]
    rw [e0]
    simp only [List.map_cons, List.map_nil, List.getD_cons_zero, Option.elim_none, List.sum_cons, List.sum_nil,
      Option.getD_some]
    rcases Nat.lt_succ_iff_lt_or_eq.1 hk with hk | rfl
    · obtain rfl : k = 0 := by omega
      simp only [share, List.getD_cons_zero, t2 _ z0, t0 _ z1, hN 0 (by decide)]
      rw [if_pos (by decide), if_pos (by decide)]
      norm_num [List.range_succ]
    · simp only [share, List.getD_cons_zero, List.getD_cons_succ, t2 _ z0, t3 _ z0, t4 _ z1, hN 2 (by decide)]
      rw [if_pos (by decide), if_neg (by decide)]
      norm_num [List.range_succ]
  exact gain

theorem even_same (unit : ℕ → List (List (Option ℝ)))
    (gain : ∀ k < 2, unit k = [[some (3 / 4), some (if k = 0 then 3 / 4 else 0)]]) :
    ∀ k < 2, ∀ x, (SampleIs (unit k) 0 0 x → x = 3 / 4) ∧ (SampleIs (unit k) 0 1 x → x = if k = 0 then 3 / 4 else 0) := by
  intro k hk x
  rw [gain k hk]
  constructor
  · rintro ⟨c, h', h⟩
    cases h'
    cases h; rfl
  · rintro ⟨c, h', h⟩
    cases h'
    cases h; rfl

/-- The carbon monoxide of Lidz et al. 2011 in maps of 4 × 4 × 4 cells, observed with a flat beam of three by three
cells. Pointed at the first object the detector sees both objects, pointed one cell lower it sees the first only: the
two samples have the variance of the light of the first in common. -/
example (erf : ℝ → ℝ) (w : World ℕ) (E : Env ℝ) (hE : E.fn = realFn erf) :
    ∃ (s' : (ℕ → ℝ) × (ℕ → ℝ) → Handler.State ℝ) (g : (ℕ → ℝ) × (ℕ → ℝ) → Grid ℝ (WithTop ℝ))
      (sky : (ℕ → ℝ) × (ℕ → ℝ) → Arr ℝ)
      (s1 s2 : (ℕ → ℝ) × (ℕ → ℝ) → Inst.State Unit Unit (Point ℝ) (Grid ℝ ℝ) (Arr ℝ) (Grid ℝ ℝ) ℝ)
      (cols : (ℕ → ℝ) × (ℕ → ℝ) → List (List (Option ℝ))) (v v' : (ℕ → ℝ) × (ℕ → ℝ) → ℝ),
      (∀ ω, (∃ m, prop E (Gal.streams ω) w .lidzCo = .ok m ∧
        make skyState m ⟨none, [], [], false, false, false, false, false⟩ = (s' ω, .ok ())) ∧
        lcGrid (s' ω) skyMeta ["LCO"] none none false (some ⟨false, [1 / 4]⟩) none none none (some 3) =
          some (.ok (g ω)) ∧ (plainGrid (g ω)).grid = some (sky ω) ∧
        addField evenState { grid := asField (plainGrid (g ω)) (sky ω), name := some "sky" } = (s1 ω, .ok "sky") ∧
        mapFields (grids evenLib) (s1 ω) ["sky"] { kernel := some (.pair 3 3), opts := (.peak, .none) } =
          (s2 ω, .ok ()) ∧
        sampleFields (grids evenLib) (s2 ω) ["sky"]
          { positions := [⟨false, 1 / 20, 1 / 20⟩, ⟨false, 1 / 20, -(1 / 8)⟩], withNoise := false,
            seed := fun _ _ => () } = .ok [("sky", cols ω)] ∧
        SampleIs (cols ω) 0 0 (v ω) ∧ SampleIs (cols ω) 0 1 (v' ω)) ∧
      cov[v, v'; Gal.chance] = (3 / 4) ^ 2 * (0.09 * (2800 * (2 * 10 ^ 11 / 10 ^ 8)) ^ 2) ∧
      cov[v, v; Gal.chance] = (3 / 4) ^ 2 * (0.09 * (2800 * (2 * 10 ^ 11 / 10 ^ 8)) ^ 2) +
        (3 / 4) ^ 2 * (0.09 * (2800 * (2 * 10 ^ 12 / 10 ^ 8)) ^ 2) := by
  obtain ⟨s', g, sky, nx, ny, nz, hx, hy, hz, h1, h2⟩ := C148_noise (F := Unit) (D := Unit) (T := Unit) (S := Unit)
    Gal.streams_random streams_separate streams_unrelated E erf hE w
    .lidzCo (by decide) (by simp) skyState skyReachable ⟨none, [], [], false, false, false, false, false⟩ rfl rfl
    "LCO" (.inr ⟨rfl, rfl⟩) (by decide) (.inr rfl) _ _ _ (skyInputs .lidzCo) (by simp) (by simp) (by simp)
    (by decide) none [(1 / 20, 1 / 20, 11 / 10), (1 / 20, 1 / 3, 8 / 5)] skyCatalogue (by simp) skyMeta none (by simp)
    (some ⟨false, [1 / 4]⟩) none none
    none (some 3) (-(1 / 2)) (1 / 2) (-(1 / 2)) (1 / 2) 1 2 (1 / 4) (1 / 4) (1 / 4)
    ⟨by norm_num, by norm_num [raDefault, skyMeta]⟩ ⟨by norm_num, by norm_num [decDefault, skyMeta]⟩
    ⟨by norm_num, by norm_num [zDefault, skyMeta]⟩ rfl (by norm_num) (by norm_num) (by norm_num) (by norm_num)
    (by norm_num) (by norm_num) (by simp) ⟨none, by simp, by simp⟩
  have four : ∀ (n : ℕ) (s : ℝ), s = 1 → s - 1 / 4 / 20 ≤ n * (1 / 4) → n * (1 / 4) < s + 19 / 20 * (1 / 4) →
      n = 4 := fun n s hs h1 h2 => cells_unique n 4 s (1 / 4) (by norm_num) h1 h2
        (by rw [hs]; norm_num) (by rw [hs]; norm_num)
  obtain rfl := four nx _ (by norm_num) hx.1 hx.2
  obtain rfl := four ny _ (by norm_num) hy.1 hy.2
  obtain rfl := four nz _ (by norm_num) hz.1 hz.2
  obtain ⟨d1, d2, d3, d4, d5⟩ := evenState_facts
  obtain ⟨s1, s2, cols, unit, a1, a2, a3, -, a4⟩ := h2 evenLib evenSetup evenOps evenState "sky" 3 3 .peak .none
    (fun _ _ _ _ => 1) (fun _ _ => 1) (fun _ => List.replicate 2 0)
    { positions := [⟨false, 1 / 20, 1 / 20⟩, ⟨false, 1 / 20, -(1 / 8)⟩], withNoise := false, seed := fun _ _ => () } rfl
    (by rw [d3]; rfl) (by rw [d4]; simp) (by rw [d5]; simp) (even_equipped "sky" 4 (by decide) _ _ _ _
      [⟨false, 1 / 20, 1 / 20⟩, ⟨false, 1 / 20, -(1 / 8)⟩]) (by simp)
  rw [d1] at a2
  have gain := even_gains evenState d2 unit a2
  obtain ⟨v, hv⟩ := a3 0 (by decide) 0 0 (3 / 4) ⟨_, by rw [gain 0 (by decide)]; rfl, rfl⟩
  obtain ⟨v', hv'⟩ := a3 0 (by decide) 0 1 (3 / 4) ⟨_, by rw [gain 0 (by decide)]; rfl, by simp⟩
  have same := even_same unit gain
  refine ⟨s', g, sky, s1, s2, cols, v, v', fun ω => ⟨(h1 ω).1, (h1 ω).2.1, (h1 ω).2.2.2, (a1 ω).1, (a1 ω).2.1,
    (a1 ω).2.2, hv ω, hv' ω⟩, ?_, ?_⟩
  · obtain ⟨x, y, x1, y1, e⟩ := a4 0 0 0 1 v v' hv hv'
    rw [e]
    simp only [List.length_cons, List.length_nil, Finset.sum_range_succ, Finset.sum_range_zero, zero_add]
    rw [(same 0 (by decide) _).1 (x1 0 (by decide)), (same 1 (by decide) _).1 (x1 1 (by decide)),
      (same 0 (by decide) _).2 (y1 0 (by decide)), (same 1 (by decide) _).2 (y1 1 (by decide))]
    simp only [List.getD_cons_zero, List.getD_cons_succ, spread, squareOnAverage, onAverage, switchedOn, published,
      medianScatter, scatter, show keepsMean .lidzCo = false from rfl, Bool.false_eq_true, if_false]
    norm_num
  · obtain ⟨x, y, x1, y1, e⟩ := a4 0 0 0 0 v v hv hv
    rw [e]
    simp only [List.length_cons, List.length_nil, Finset.sum_range_succ, Finset.sum_range_zero, zero_add]
    rw [(same 0 (by decide) _).1 (x1 0 (by decide)), (same 1 (by decide) _).1 (x1 1 (by decide)),
      (same 0 (by decide) _).1 (y1 0 (by decide)), (same 1 (by decide) _).1 (y1 1 (by decide))]
    simp only [List.getD_cons_zero, List.getD_cons_succ, spread, squareOnAverage, onAverage, switchedOn, published,
      medianScatter, scatter, show keepsMean .lidzCo = false from rfl, Bool.false_eq_true, if_false]
    norm_num

end Verif.Ready
