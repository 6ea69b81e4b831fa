import Verif.Lemmas.DetectorMap
import Mathlib.Tactic.FieldSimp
import Mathlib.Tactic.Ring
import Mathlib.Tactic.NormNum

/-!
# C105: the map that a detector makes of a field
-/

set_option linter.unusedSectionVars false

namespace Verif.Map

open Verif.Sim (Err)
open Spec

variable {K : Type} [Field K] [LinearOrder K] [IsStrictOrderedRing K] [FloorRing K]

section
variable {g : Grid K K} {a : Arr K} {nx ny nz : ℕ} {wx wy wz cx cy cz : K}

theorem without_same {V : Type} {g c g' h : Grid K V} {ax : ℕ} (hw : Without c g' ax) (hs : Same g' h)
    (hg : SameAxes g c) (e1 : c.fourier = g.fourier) (e2 : c.nProps = g.nProps) (e3 : c.nObj = g.nObj)
    (e4 : c.isPow = g.isPow) : Without g h ax := by
  have hr : ∀ {α : Type} (f : Grid K V → α), (∀ y : Grid K V, f { y with grid := none } = f y) → f h = f g' := by
    intro α f hf
    rw [← hf h, ← hf g', hs.2]
  refine ⟨?_, ?_, ?_, ?_, ?_, ?_, ?_, ?_, ?_, ?_, ?_, ?_, ?_, ?_⟩
  · rw [hr (·.center.vals) (fun _ => rfl), hw.center, hg.center]
  · rw [hr (·.side.vals) (fun _ => rfl), hw.side, hg.side]
  · rw [hr (·.pix.vals) (fun _ => rfl), hw.pix, hg.pix]
  · rw [hr (·.nPix) (fun _ => rfl), hw.nPix, hg.nPix]
  · rw [hr (·.axunits) (fun _ => rfl), hw.axunits, hg.axunits]
  · rw [hr (·.faxunits) (fun _ => rfl), hw.faxunits, hg.faxunits]
  · rw [hr (·.axes) (fun _ => rfl), hw.axes, hg.axes]
  · rw [hr (·.centers) (fun _ => rfl), hw.centers, hg.centers]
  · rw [hr (·.faxes) (fun _ => rfl), hw.faxes, hg.faxes]
  · rw [hr (·.fcenters) (fun _ => rfl), hw.fcenters, hg.fcenters]
  · rw [hr (·.fourier) (fun _ => rfl), hw.fourier, e1]
  · rw [hr (·.nProps) (fun _ => rfl), hw.nProps, e2]
  · rw [hr (·.nObj) (fun _ => rfl), hw.nObj, e3]
  · rw [hr (·.isPow) (fun _ => rfl), hw.isPow, e4]

/-- **C105**: the map of a detector has the axes of the field on the sky; each cell holds the mean over the channels,
weighted by the spectral response at their frequencies, of the field smeared by the beam of that frequency, whose peak
or sum over the kernel is one if this was asked for.  This holds for all kernels; for kernels with an even number of
cells the beam is not centred (see `away`). -/
theorem C105_values (h : Sky g a nx ny nz wx wy wz cx cy cz) (best : Option K)
    (spatial : List K → List K → List K → Except Err (Arr K)) (R : K → K → K → K) (hR : Responds spatial R)
    (spectral : List K → Except Err (Arr K)) (S : K → K) (hS : Weights spectral S)
    (norm : BeamNorm) (hnorm : norm ≠ .other) (m n : ℕ) (hm : 2 ≤ m) (hn : 2 ≤ n)
    (_hN : ∀ k < nz, ∀ N, Normalises norm (beamValues R m n wx wy (freq nz wz cz k)) N → N ≠ 0)
    (pad : PadArg) (hpad : pad = .none ∨ ∃ p : ℕ, pad = .int p)
    (hsum : ((List.range nz).map (fun k => S (freq nz wz cz k))).sum ≠ 0) :
    ∃ (M : Grid K K) (N : ℕ → K), detectorMap g best spatial spectral norm (.pair m n) pad = .ok M ∧
      (∀ k < nz, Normalises norm (beamValues R m n wx wy (freq nz wz cz k)) (N k)) ∧
      MapOf g M a R S N nx ny nz m n wx wy wz cz := by
  obtain ⟨b, B, N, b1, b2, b3, b4, b5, b6⟩ := setupBeam_ok h best spatial R hR norm hnorm (.pair m n) m n hm hn rfl
  have hcells := sky_cells h
  have hask : askedPad [m, n].length pad = [(0 : ℤ), 0] ∨ ∃ p : ℕ, askedPad [m, n].length pad = [(p : ℤ), p] := by
    rcases hpad with rfl | ⟨p, rfl⟩
    · exact .inl rfl
    · exact .inr ⟨p, rfl⟩
  have hch : Channelled g b a B [nx, ny] [nz] [m, n] [0, 1] pad :=
    { regular := h.regular, floats := h.floats, active := h.active, source := b3, cells := hcells,
      shape := by rw [b4, b2]; rfl, real := h.real, map := h.map, length := rfl, low := by simp,
      axes := List.Perm.refl _,
      notList := by rintro l rfl; rcases hpad with e | ⟨p, e⟩ <;> cases e
      padLength := by rcases hask with e | ⟨p, e⟩ <;> rw [e] <;> rfl
      aligned := C21_aligned_range 2 _ (by rcases hask with e | ⟨p, e⟩ <;> rw [e] <;> rfl)
      padPos := by rcases hask with e | ⟨p, e⟩ <;> rw [e] <;> simp }
  obtain ⟨c, r, c1, c2, c3, c4, c5, c6, c7, c8, c9, c10, c11, c12, c13⟩ :=
    C103_channels_new g b a B [nx, ny] [nz] [m, n] [0, 1] pad hch (.inr b2) h.labelled (by rw [h.units, h.nProps])
  have hcd : c.dim = 3 := by rw [Grid.dim, c5.center]; exact h.dim
  have hcn : c.nPix = [nx, ny, nz] := by rw [c5.nPix, hcells]
  have hcc : c.centers.getD 2 [] = middles nz wz cz := by
    rw [c5.centers, List.getD_eq_getElem?_getD, h.z.centers]; rfl
  obtain ⟨w, w1, w2, w3⟩ := hS (middles nz wz cz)
  have hml : (middles nz wz cz).length = nz := by simp [middles]
  rw [hml] at w2
  have hgood : GoodWeights c 2 (some w) := by
    intro x hx
    simp only [Option.some.injEq] at hx
    subst hx
    exact .inl ⟨nz, by simp [hcn], w2⟩
  obtain ⟨g', M, d1, d2, d3⟩ := C25_new_copy c c2 c4 (by rw [c8, c6, h.units, h.nProps]) 2 (by omega) (some w) hgood
    .average r c11
  obtain ⟨g'', v, f1, -, -, f4, f5, f6, f7⟩ := C25_one_axis_partial c c2 2 (by omega) (some w) hgood .average r c11 nz
    (by simp [hcn])
  rw [d1] at f1
  simp only [Prod.mk.injEq, and_true] at f1
  subst f1
  have hwM := without_same f4 d3 c5 c9 c6 c7 c10
  rcases hMg : M.grid with _ | v'
  · have := d3.1; rw [f6, hMg] at this; exact absurd this id
  have hsame : v.Same v' := by have := d3.1; rw [f6, hMg] at this; exact this
  have hMn : M.nPix = [nx, ny] := by rw [hwM.nPix, hcells]; rfl
  have hg'n : g'.nPix = [nx, ny] := by rw [f4.nPix, hcn]; rfl
  -- the shape of the data
  have hv : v.shape = [nx, ny, 1] := by
    obtain ⟨plan, p1, b', p2, p3, -⟩ := collapse_data c c2 2 (by omega) (some w) hgood .average nz (by simp [hcn]) r
      (c2.data r c11)
    have := d1
    unfold Grid.collapse at this
    rw [c11] at this
    simp only [p1 r rfl, p2, Prod.mk.injEq, and_true] at this
    rw [← this] at f6
    simp only [Option.some.injEq] at f6
    rw [← f6, p3, hcn, c6, h.nProps]
    rfl
  refine ⟨M, N, ?_, b5, hwM, ?_, v', hMg, by rw [← hsame.1, hv], ?_⟩
  · unfold detectorMap
    rw [b1]
    simp only
    unfold mapWithBeam
    rw [c1]
    simp only
    rw [hcc, w1]
    exact d2
  · have : M.gridunits = g'.gridunits := by
      have e : ({ g' with grid := none } : Grid K K).gridunits = ({ M with grid := none } : Grid K K).gridunits := by
        rw [d3.2]
      exact e.symm
    rw [this, f5, c8]
  · intro i j hi hj
    have hval := f7 [i, j] 0 (by rw [hg'n]; simp [Valid, hi, hj]) (by rw [c6, h.nProps]; omega)
    have hwk : ∀ k < nz, weightAt (some w) 2 ([i, j].insertIdx 2 k) = S (freq nz wz cz k) := by
      intro k hk
      unfold weightAt
      simp only
      rw [if_pos (by rw [w2]; rfl)]
      exact w3 k _ (by rw [middle_at nz wz cz k hk]; rfl)
    have e1 : alongAxis nz 2 [i, j] (weightAt (some w) 2) =
        ((List.range nz).map (fun k => S (freq nz wz cz k))).sum := by
      unfold alongAxis
      congr 1
      apply List.map_congr_left
      intro k hk
      exact hwk k (List.mem_range.1 hk)
    have e2 : alongAxis nz 2 [i, j] (fun c' => weightAt (some w) 2 c' • cell r c' 0) =
        ((List.range nz).map (fun k => S (freq nz wz cz k) *
          smeared a R nx ny m n wx wy (freq nz wz cz k) (N k) k i j)).sum := by
      unfold alongAxis
      congr 1
      apply List.map_congr_left
      intro k hk
      have hk := List.mem_range.1 hk
      simp only [hwk k hk, smul_eq_mul]
      congr 1
      have := c13 [i, j] [k] 0 (by simp [Valid, hi, hj]) (by simp [Valid, hk]) (by rw [h.nProps]; omega)
      have hins : ([i, j].insertIdx 2 k) = [i, j] ++ [k] := rfl
      rw [hins, this, show (if b.nProps = g.nProps then 0 else 0) = 0 by split <;> rfl]
      exact smearIn_smeared a B R nx ny nz m n wx wy _ (N k) k i j hk (fun o p ho hp => b6 o p k ho hp hk) hm hn
    have hval := hval.2 rfl (by rw [e1]; exact hsum)
    rw [e1, e2, smul_eq_mul] at hval
    have hcell : cell v' [i, j] 0 = cell v [i, j] 0 := by
      symm
      exact hsame.2 _ (by rw [hv]; simp [Valid, hi, hj])
    rw [hcell]
    unfold weightedMean
    rw [eq_div_iff hsum, mul_comm]
    exact hval

/-! ### Points -/

theorem smeared_point (a : Arr K) (R : K → K → K → K) (m n : ℕ) (wx wy f N : K) (k i0 j0 : ℕ) (v : K)
    (hi0 : i0 < nx) (hj0 : j0 < ny) (hv : cell a [i0, j0, k] 0 = v)
    (hz : ∀ i j, i < nx → j < ny → ¬ (i = i0 ∧ j = j0) → cell a [i, j, k] 0 = 0) (i j : ℕ) :
    smeared a R nx ny m n wx wy f N k i j =
      if Reaches m i i0 ∧ Reaches n j j0 then v * (R (away m i i0 * wx) (away n j j0 * wy) f / N) else 0 := by
  obtain ⟨G, hG⟩ : ∃ G, G = if Reaches m i i0 ∧ Reaches n j j0 then
    v * (R (away m i i0 * wx) (away n j j0 * wy) f / N) else 0 := ⟨_, rfl⟩
  rw [← hG]
  unfold smeared
  have e : ∀ i' ∈ List.range nx, ((List.range ny).map (fun j' =>
      if Reaches m i i' ∧ Reaches n j j' then
        cell a [i', j', k] 0 * (R (away m i i' * wx) (away n j j' * wy) f / N)
      else 0)).sum = if i' = i0 then G else 0 := by
    intro i' hi'
    have hi' := List.mem_range.1 hi'
    have e2 : ∀ j' ∈ List.range ny, (if Reaches m i i' ∧ Reaches n j j' then
        cell a [i', j', k] 0 * (R (away m i i' * wx) (away n j j' * wy) f / N) else 0) =
        if j' = j0 then (if i' = i0 then G else 0) else 0 := by
      intro j' hj'
      have hj' := List.mem_range.1 hj'
      by_cases c1 : i' = i0
      · by_cases c2 : j' = j0
        · subst c1 c2; rw [if_pos rfl, if_pos rfl, hG, hv]
        · rw [if_neg c2, hz i' j' hi' hj' (fun h => c2 h.2)]; simp
      · rw [hz i' j' hi' hj' (fun h => c1 h.1)]; simp [c1]
    rw [List.map_congr_left e2, sum_map_single _ List.nodup_range, if_pos (List.mem_range.2 hj0)]
  rw [List.map_congr_left e, sum_map_single _ List.nodup_range, if_pos (List.mem_range.2 hi0)]

theorem smeared_zero (a : Arr K) (R : K → K → K → K) (m n : ℕ) (wx wy f N : K) (k : ℕ)
    (hz : ∀ i j, i < nx → j < ny → cell a [i, j, k] 0 = 0) (i j : ℕ) :
    smeared a R nx ny m n wx wy f N k i j = 0 := by
  unfold smeared
  have e : ∀ i' ∈ List.range nx, ((List.range ny).map (fun j' =>
      if Reaches m i i' ∧ Reaches n j j' then
        cell a [i', j', k] 0 * (R (away m i i' * wx) (away n j j' * wy) f / N)
      else 0)).sum = 0 := by
    intro i' hi'
    rw [List.map_congr_left (g := fun _ => (0 : K))]
    · exact sum_zero_list _
    · intro j' hj'
      rw [hz i' j' (List.mem_range.1 hi') (List.mem_range.1 hj')]; simp
  rw [List.map_congr_left e]
  exact sum_zero_list _

theorem weightedMean_point (n k0 : ℕ) (hk : k0 < n) (s v : ℕ → K) (h : ∀ k < n, k ≠ k0 → v k = 0) :
    weightedMean n s v = s k0 * v k0 / ((List.range n).map s).sum := by
  unfold weightedMean
  congr 1
  have e : ∀ k ∈ List.range n, s k * v k = if k = k0 then s k0 * v k0 else 0 := by
    intro k hk
    by_cases c : k = k0
    · subst c; rw [if_pos rfl]
    · rw [if_neg c, h k (List.mem_range.1 hk) c, mul_zero]
  rw [List.map_congr_left e, sum_map_single _ List.nodup_range, if_pos (List.mem_range.2 hk)]

/-- **C105**: the map of a point of a line: the beam at the frequency of the line, evaluated at the distance from the
point, times the share of the spectral response at this frequency.  Nothing beyond the kernel. -/
theorem C105_point (h : Sky g a nx ny nz wx wy wz cx cy cz) (best : Option K)
    (spatial : List K → List K → List K → Except Err (Arr K)) (R : K → K → K → K) (hR : Responds spatial R)
    (spectral : List K → Except Err (Arr K)) (S : K → K) (hS : Weights spectral S)
    (norm : BeamNorm) (hnorm : norm ≠ .other) (m n : ℕ) (hm : 2 ≤ m) (hn : 2 ≤ n)
    (_hN : ∀ k < nz, ∀ N, Normalises norm (beamValues R m n wx wy (freq nz wz cz k)) N → N ≠ 0)
    (pad : PadArg) (hpad : pad = .none ∨ ∃ p : ℕ, pad = .int p)
    (hsum : ((List.range nz).map (fun k => S (freq nz wz cz k))).sum ≠ 0)
    (i0 j0 k0 : ℕ) (v : K) (hi : i0 < nx) (hj : j0 < ny) (hk : k0 < nz) (hv : cell a [i0, j0, k0] 0 = v)
    (hz : ∀ i j k, i < nx → j < ny → k < nz → ¬ (i = i0 ∧ j = j0 ∧ k = k0) → cell a [i, j, k] 0 = 0) :
    ∃ (M : Grid K K) (r : Arr K) (N : K), detectorMap g best spatial spectral norm (.pair m n) pad = .ok M ∧
      M.grid = some r ∧ Normalises norm (beamValues R m n wx wy (freq nz wz cz k0)) N ∧
      ∀ i j, i < nx → j < ny → cell r [i, j] 0 =
        if Reaches m i i0 ∧ Reaches n j j0 then
          S (freq nz wz cz k0) / ((List.range nz).map (fun k => S (freq nz wz cz k))).sum *
            (v * (R (away m i i0 * wx) (away n j j0 * wy) (freq nz wz cz k0) / N))
        else 0 := by
  obtain ⟨M, N, h1, h2, h3⟩ := C105_values h best spatial R hR spectral S hS norm hnorm m n hm hn _hN pad hpad hsum
  obtain ⟨r, r1, -, r3⟩ := h3.values
  refine ⟨M, r, N k0, h1, r1, h2 k0 hk, ?_⟩
  intro i j hi' hj'
  rw [r3 i j hi' hj', weightedMean_point nz k0 hk]
  · rw [smeared_point a R m n wx wy _ _ k0 i0 j0 v hi hj hv
      (fun i j h1 h2 h3 => hz i j k0 h1 h2 hk (fun e => h3 ⟨e.1, e.2.1⟩))]
    split
    · rw [mul_div_right_comm]
    · simp
  · intro k hk' hne
    exact smeared_zero a R m n wx wy _ _ k (fun i j h1 h2 => hz i j k h1 h2 hk' (fun e => hne e.2.2)) i j

theorem reaches_self (m i : ℕ) (hm : 1 ≤ m) : Reaches m i i := by unfold Reaches; omega

theorem away_self (m i : ℕ) (hm : m % 2 = 1) : away (K := K) m i i = 0 := by
  unfold away; rw [if_neg (by omega)]; ring

/-- **C105**, for kernels with odd numbers of cells (the default ones are): if the beam is greatest in its centre and
its peak is normalised, the map of a point reads, in the cell of the point, the value times the share of the spectral
response, and nowhere more.  For even numbers this is false, see `C105_even_fails`. -/
theorem C105_centred_partial (h : Sky g a nx ny nz wx wy wz cx cy cz) (best : Option K)
    (spatial : List K → List K → List K → Except Err (Arr K)) (R : K → K → K → K) (hR : Responds spatial R)
    (spectral : List K → Except Err (Arr K)) (S : K → K) (hS : Weights spectral S) (hS0 : ∀ f, 0 ≤ S f)
    (m n : ℕ) (hm : 2 ≤ m) (hn : 2 ≤ n) (om : m % 2 = 1) (on : n % 2 = 1)
    (hpos : ∀ f, 0 < R 0 0 f) (hmax : ∀ x y f, R x y f ≤ R 0 0 f)
    (pad : PadArg) (hpad : pad = .none ∨ ∃ p : ℕ, pad = .int p)
    (hsum : ((List.range nz).map (fun k => S (freq nz wz cz k))).sum ≠ 0)
    (i0 j0 k0 : ℕ) (v : K) (hv0 : 0 ≤ v) (hi : i0 < nx) (hj : j0 < ny) (hk : k0 < nz)
    (hv : cell a [i0, j0, k0] 0 = v)
    (hz : ∀ i j k, i < nx → j < ny → k < nz → ¬ (i = i0 ∧ j = j0 ∧ k = k0) → cell a [i, j, k] 0 = 0) :
    ∃ (M : Grid K K) (r : Arr K), detectorMap g best spatial spectral .peak (.pair m n) pad = .ok M ∧
      M.grid = some r ∧
      cell r [i0, j0] 0 = S (freq nz wz cz k0) / ((List.range nz).map (fun k => S (freq nz wz cz k))).sum * v ∧
      ∀ i j, i < nx → j < ny → cell r [i, j] 0 ≤ cell r [i0, j0] 0 := by
  -- the centre is one of the positions
  have hcen : ∀ (m : ℕ) (w : K), m % 2 = 1 → (0 : K) ∈ positions m w := by
    intro m w om
    unfold positions
    rw [List.mem_map]
    refine ⟨m / 2, List.mem_range.2 (by omega), ?_⟩
    obtain ⟨q, rfl⟩ : ∃ q, m = 2 * q + 1 := ⟨m / 2, by omega⟩
    rw [show (2 * q + 1) / 2 = q by omega]
    push_cast
    ring
  have hnorm : ∀ k < nz, ∀ N, Normalises .peak (beamValues R m n wx wy (freq nz wz cz k)) N →
      N = R 0 0 (freq nz wz cz k) := by
    intro k _ N hN
    obtain ⟨n1, n2⟩ := hN
    have hle : R 0 0 (freq nz wz cz k) ≤ N := by
      apply n2
      unfold beamValues
      rw [List.mem_flatMap]
      exact ⟨0, hcen m wx om, List.mem_map.2 ⟨0, hcen n wy on, rfl⟩⟩
    unfold beamValues at n1
    rw [List.mem_flatMap] at n1
    obtain ⟨x, -, n1⟩ := n1
    obtain ⟨y, -, rfl⟩ := List.mem_map.1 n1
    exact le_antisymm (hmax x y _) hle
  obtain ⟨M, r, N, h1, h2, h3, h4⟩ := C105_point h best spatial R hR spectral S hS .peak (by decide) m n hm hn
    (fun k hk N hN => by rw [hnorm k hk N hN]; exact (hpos _).ne') pad hpad hsum i0 j0 k0 v hi hj hk hv hz
  have hN := hnorm k0 hk N h3
  have hat : cell r [i0, j0] 0 =
      S (freq nz wz cz k0) / ((List.range nz).map (fun k => S (freq nz wz cz k))).sum * v := by
    rw [h4 i0 j0 hi hj, if_pos ⟨reaches_self m i0 (by omega), reaches_self n j0 (by omega)⟩, away_self m i0 om,
      away_self n j0 on, zero_mul, zero_mul, hN, div_self (hpos _).ne', mul_one]
  have hs0 : 0 ≤ S (freq nz wz cz k0) / ((List.range nz).map (fun k => S (freq nz wz cz k))).sum := by
    apply div_nonneg (hS0 _)
    apply List.sum_nonneg
    intro x hx
    obtain ⟨k, -, rfl⟩ := List.mem_map.1 hx
    exact hS0 _
  refine ⟨M, r, h1, h2, hat, ?_⟩
  intro i j hi' hj'
  rw [hat, h4 i j hi' hj']
  split
  · apply mul_le_mul_of_nonneg_left _ hs0
    rw [hN]
    calc v * (R (away m i i0 * wx) (away n j j0 * wy) (freq nz wz cz k0) / R 0 0 (freq nz wz cz k0)) ≤ v * 1 := by
          apply mul_le_mul_of_nonneg_left _ hv0
          rw [div_le_one (hpos _)]
          exact hmax _ _ _
      _ = v := mul_one v
  · exact mul_nonneg hs0 hv0

/-- C105, against: with an even number of cells along the first axis, the map of a point is half a cell too high, for
every response with two equal sides: the cell after the point reads what the cell of the point reads, and generally
the cell `d + 1` after it what the cell `d` before it reads. -/
theorem C105_even_fails (h : Sky g a nx ny nz wx wy wz cx cy cz) (best : Option K)
    (spatial : List K → List K → List K → Except Err (Arr K)) (R : K → K → K → K) (hR : Responds spatial R)
    (spectral : List K → Except Err (Arr K)) (S : K → K) (hS : Weights spectral S)
    (norm : BeamNorm) (hnorm : norm ≠ .other) (m n : ℕ) (hm : 2 ≤ m) (hn : 2 ≤ n) (em : m % 2 = 0)
    (_hN : ∀ k < nz, ∀ N, Normalises norm (beamValues R m n wx wy (freq nz wz cz k)) N → N ≠ 0)
    (hsides : ∀ x y f, R (-x) y f = R x y f)
    (pad : PadArg) (hpad : pad = .none ∨ ∃ p : ℕ, pad = .int p)
    (hsum : ((List.range nz).map (fun k => S (freq nz wz cz k))).sum ≠ 0)
    (i0 j0 k0 : ℕ) (v : K) (hi : i0 < nx) (hj : j0 < ny) (hk : k0 < nz) (hv : cell a [i0, j0, k0] 0 = v)
    (hz : ∀ i j k, i < nx → j < ny → k < nz → ¬ (i = i0 ∧ j = j0 ∧ k = k0) → cell a [i, j, k] 0 = 0) :
    ∃ (M : Grid K K) (r : Arr K), detectorMap g best spatial spectral norm (.pair m n) pad = .ok M ∧
      M.grid = some r ∧ ∀ d j, d ≤ i0 → i0 + d + 1 < nx → j < ny → cell r [i0 + d + 1, j] 0 = cell r [i0 - d, j] 0 := by
  obtain ⟨M, r, N, h1, h2, h3, h4⟩ := C105_point h best spatial R hR spectral S hS norm hnorm m n hm hn _hN pad hpad
    hsum i0 j0 k0 v hi hj hk hv hz
  refine ⟨M, r, h1, h2, ?_⟩
  intro d j hd hd' hj'
  rw [h4 _ j hd' hj', h4 (i0 - d) j (by omega) hj']
  have e1 : Reaches m (i0 + d + 1) i0 ↔ Reaches m (i0 - d) i0 := by unfold Reaches; omega
  have e2 : away (K := K) m (i0 - d) i0 * wx = -(away m (i0 + d + 1) i0 * wx) := by
    unfold away
    rw [if_pos em, Nat.cast_sub hd]
    push_cast
    ring
  rw [e2, hsides]
  simp only [e1]

/-! ### Smooth fields -/

theorem positions_at (m : ℕ) (w : K) (F : K → K) : ((positions m w).map F).sum =
    ((List.range m).map (fun (o : ℕ) => F (((o : K) + 1 / 2 - m / 2) * w))).sum := by
  unfold positions
  rw [List.map_map]
  rfl

/-- Far enough from the border everything within the kernel arrives. -/
theorem reach_sum (nx m i : ℕ) (w : K) (hm : 1 ≤ m) (h1 : m / 2 ≤ i) (h2 : i + (m - 1) / 2 < nx) (F : K → K) :
    ((List.range nx).map (fun i' => if Reaches m i i' then F (away m i i' * w) else 0)).sum =
      ((positions m w).map F).sum := by
  rw [positions_at]
  -- the cells that reach are those from `i - m/2` on
  obtain ⟨t, ht⟩ : ∃ t, nx = (i - m / 2) + (m + t) := ⟨nx - (i - m / 2) - m, by omega⟩
  rw [ht, List.range_add, List.range_add]
  simp only [List.map_append, List.sum_append, List.map_map]
  have e1 : ((List.range (i - m / 2)).map (fun i' => if Reaches m i i' then F (away m i i' * w) else 0)).sum = 0 := by
    rw [List.map_congr_left (g := fun _ => (0 : K)), sum_zero_list]
    intro k hk
    have := List.mem_range.1 hk
    rw [if_neg]; unfold Reaches; omega
  have e3 : ((List.range t).map ((fun i' => if Reaches m i i' then F (away m i i' * w) else 0) ∘
      (fun x => i - m / 2 + x) ∘ fun x => m + x)).sum = 0 := by
    rw [List.map_congr_left (g := fun _ => (0 : K)), sum_zero_list]
    intro k hk
    simp only [Function.comp]
    rw [if_neg]; unfold Reaches; omega
  rw [e1, e3, zero_add, add_zero]
  have hrev : ((List.range m).map (fun (o : ℕ) => F (((o : K) + 1 / 2 - m / 2) * w))).sum =
      ((List.range m).map (fun (o : ℕ) => F ((((m - 1 - o : ℕ) : K) + 1 / 2 - m / 2) * w))).sum := by
    rw [← List.sum_reverse]
    congr 1
    apply List.ext_getElem?
    intro k
    by_cases hk : k < m
    · rw [List.getElem?_reverse (by simpa using hk)]
      simp [List.getElem?_range hk, List.getElem?_range (show m - 1 - k < m by omega)]
    · rw [List.getElem?_eq_none (by simpa using hk), List.getElem?_eq_none (by simpa using hk)]
  rw [hrev]
  congr 1
  apply List.map_congr_left
  intro k hk
  have hk := List.mem_range.1 hk
  simp only [Function.comp]
  rw [if_pos (by unfold Reaches; omega)]
  congr 2
  unfold away
  rw [Nat.cast_add, Nat.cast_sub h1, Nat.cast_sub (show k ≤ m - 1 by omega), Nat.cast_sub hm]
  rcases Nat.mod_two_eq_zero_or_one m with e | e
  · obtain ⟨q, rfl⟩ : ∃ q, m = 2 * q := ⟨m / 2, by omega⟩
    rw [if_pos e, show 2 * q / 2 = q by omega]
    push_cast
    ring
  · obtain ⟨q, rfl⟩ : ∃ q, m = 2 * q + 1 := ⟨m / 2, by omega⟩
    rw [if_neg (by omega), show (2 * q + 1) / 2 = q by omega]
    push_cast
    ring

/-- **C105**: if the beam is normalised to unit area, a field that is the same in all cells of each channel is seen
as it is, wherever the kernel does not reach beyond the map: the mean of the channels, weighted by the spectral
response. -/
theorem C105_uniform (h : Sky g a nx ny nz wx wy wz cx cy cz) (best : Option K)
    (spatial : List K → List K → List K → Except Err (Arr K)) (R : K → K → K → K) (hR : Responds spatial R)
    (spectral : List K → Except Err (Arr K)) (S : K → K) (hS : Weights spectral S)
    (m n : ℕ) (hm : 2 ≤ m) (hn : 2 ≤ n)
    (hN : ∀ k < nz, (beamValues R m n wx wy (freq nz wz cz k)).sum ≠ 0)
    (pad : PadArg) (hpad : pad = .none ∨ ∃ p : ℕ, pad = .int p)
    (hsum : ((List.range nz).map (fun k => S (freq nz wz cz k))).sum ≠ 0)
    (v : ℕ → K) (hv : ∀ i j k, i < nx → j < ny → k < nz → cell a [i, j, k] 0 = v k) :
    ∃ (M : Grid K K) (r : Arr K), detectorMap g best spatial spectral .area (.pair m n) pad = .ok M ∧
      M.grid = some r ∧ ∀ i j, m / 2 ≤ i → i + (m - 1) / 2 < nx → n / 2 ≤ j → j + (n - 1) / 2 < ny →
        cell r [i, j] 0 = weightedMean nz (fun k => S (freq nz wz cz k)) v := by
  obtain ⟨M, N, h1, h2, h3⟩ := C105_values h best spatial R hR spectral S hS .area (by decide) m n hm hn
    (fun k hk N e => by rw [show N = _ from e]; exact hN k hk) pad hpad hsum
  obtain ⟨r, r1, -, r3⟩ := h3.values
  refine ⟨M, r, h1, r1, ?_⟩
  intro i j a1 a2 b1 b2
  rw [r3 i j (by omega) (by omega)]
  unfold weightedMean
  congr 2
  apply List.map_congr_left
  intro k hk
  have hk := List.mem_range.1 hk
  congr 1
  have hNk : N k = _ := h2 k hk
  have hne : N k ≠ 0 := by rw [hNk]; exact hN k hk
  have e : smeared a R nx ny m n wx wy (freq nz wz cz k) (N k) k i j =
      v k / N k * ((List.range nx).map (fun i' => if Reaches m i i' then
        (fun x => ((positions n wy).map (fun y => R x y (freq nz wz cz k))).sum) (away m i i' * wx) else 0)).sum := by
    rw [← sum_mul_list]
    unfold smeared
    congr 1
    apply List.map_congr_left
    intro i' hi'
    have hi' := List.mem_range.1 hi'
    by_cases c : Reaches m i i'
    · rw [if_pos c]
      simp only
      rw [← reach_sum ny n j wy (by omega) b1 b2, ← sum_mul_list]
      congr 1
      apply List.map_congr_left
      intro j' hj'
      have hj' := List.mem_range.1 hj'
      by_cases c' : Reaches n j j'
      · rw [if_pos ⟨c, c'⟩, if_pos c', hv i' j' k hi' hj' hk]; ring
      · rw [if_neg (fun e => c' e.2), if_neg c', mul_zero]
    · rw [if_neg c, mul_zero, List.map_congr_left (g := fun _ => (0 : K)), sum_zero_list]
      intro j' _
      rw [if_neg (fun e => c e.1)]
  have : ((positions m wx).map (fun x => ((positions n wy).map (fun y => R x y (freq nz wz cz k))).sum)).sum = N k := by
    rw [hNk]
    unfold beamValues
    have := sum_flatMap_map (positions m wx) (fun x => (positions n wy).map (fun y => R x y (freq nz wz cz k))) id
    rw [List.map_id] at this
    rw [this]
    simp only [List.map_id]
  simp only [e]
  rw [reach_sum nx m i wx (by omega) a1 a2 (fun x => ((positions n wy).map (fun y => R x y (freq nz wz cz k))).sum),
    this]
  field_simp

/-! ### Padding, sums of fields, symmetry -/

theorem normalises_unique (norm : BeamNorm) (vs : List K) (N N' : K) (h : Normalises norm vs N)
    (h' : Normalises norm vs N') : N = N' := by
  cases norm
  · exact le_antisymm (h'.2 _ h.1) (h.2 _ h'.1)
  · exact (show N = _ from h).trans (show N' = _ from h').symm
  · exact (show N = _ from h).trans (show N' = _ from h').symm
  · exact (show N = _ from h).trans (show N' = _ from h').symm

/-- **C105**: padding does not change the map. -/
theorem C105_padding (h : Sky g a nx ny nz wx wy wz cx cy cz) (best : Option K)
    (spatial : List K → List K → List K → Except Err (Arr K)) (R : K → K → K → K) (hR : Responds spatial R)
    (spectral : List K → Except Err (Arr K)) (S : K → K) (hS : Weights spectral S)
    (norm : BeamNorm) (hnorm : norm ≠ .other) (m n : ℕ) (hm : 2 ≤ m) (hn : 2 ≤ n)
    (_hN : ∀ k < nz, ∀ N, Normalises norm (beamValues R m n wx wy (freq nz wz cz k)) N → N ≠ 0)
    (p : ℕ) (hsum : ((List.range nz).map (fun k => S (freq nz wz cz k))).sum ≠ 0) :
    ∃ (M M' : Grid K K) (r r' : Arr K), detectorMap g best spatial spectral norm (.pair m n) .none = .ok M ∧
      detectorMap g best spatial spectral norm (.pair m n) (.int p) = .ok M' ∧ M.grid = some r ∧ M'.grid = some r' ∧
      ∀ i j, i < nx → j < ny → cell r [i, j] 0 = cell r' [i, j] 0 := by
  obtain ⟨M, N, h1, h2, h3⟩ := C105_values h best spatial R hR spectral S hS norm hnorm m n hm hn _hN .none (.inl rfl)
    hsum
  obtain ⟨M', N', h1', h2', h3'⟩ := C105_values h best spatial R hR spectral S hS norm hnorm m n hm hn _hN (.int p)
    (.inr ⟨p, rfl⟩) hsum
  obtain ⟨r, r1, -, r3⟩ := h3.values
  obtain ⟨r', r1', -, r3'⟩ := h3'.values
  refine ⟨M, M', r, r', h1, h1', r1, r1', ?_⟩
  intro i j hi hj
  rw [r3 i j hi hj, r3' i j hi hj]
  unfold weightedMean
  congr 2
  apply List.map_congr_left
  intro k hk
  have hk := List.mem_range.1 hk
  simp only [normalises_unique norm _ _ _ (h2 k hk) (h2' k hk)]

/-- **C105**: the map of a sum of fields is the sum of their maps, and that of a multiple the multiple. -/
theorem C105_linear {g₁ g₂ : Grid K K} {a₁ a₂ : Arr K} (h : Sky g a nx ny nz wx wy wz cx cy cz)
    (h₁ : Sky g₁ a₁ nx ny nz wx wy wz cx cy cz) (h₂ : Sky g₂ a₂ nx ny nz wx wy wz cx cy cz) (s t : K)
    (hadd : ∀ i j k, i < nx → j < ny → k < nz →
      cell a [i, j, k] 0 = s * cell a₁ [i, j, k] 0 + t * cell a₂ [i, j, k] 0) (best : Option K)
    (spatial : List K → List K → List K → Except Err (Arr K)) (R : K → K → K → K) (hR : Responds spatial R)
    (spectral : List K → Except Err (Arr K)) (S : K → K) (hS : Weights spectral S)
    (norm : BeamNorm) (hnorm : norm ≠ .other) (m n : ℕ) (hm : 2 ≤ m) (hn : 2 ≤ n)
    (_hN : ∀ k < nz, ∀ N, Normalises norm (beamValues R m n wx wy (freq nz wz cz k)) N → N ≠ 0)
    (pad : PadArg) (hpad : pad = .none ∨ ∃ p : ℕ, pad = .int p)
    (hsum : ((List.range nz).map (fun k => S (freq nz wz cz k))).sum ≠ 0) :
    ∃ (M M₁ M₂ : Grid K K) (r r₁ r₂ : Arr K), detectorMap g best spatial spectral norm (.pair m n) pad = .ok M ∧
      detectorMap g₁ best spatial spectral norm (.pair m n) pad = .ok M₁ ∧
      detectorMap g₂ best spatial spectral norm (.pair m n) pad = .ok M₂ ∧
      M.grid = some r ∧ M₁.grid = some r₁ ∧ M₂.grid = some r₂ ∧
      ∀ i j, i < nx → j < ny → cell r [i, j] 0 = s * cell r₁ [i, j] 0 + t * cell r₂ [i, j] 0 := by
  obtain ⟨M, N, m1, m2, m3⟩ := C105_values h best spatial R hR spectral S hS norm hnorm m n hm hn _hN pad hpad hsum
  obtain ⟨M₁, N₁, p1, p2, p3⟩ := C105_values h₁ best spatial R hR spectral S hS norm hnorm m n hm hn _hN pad hpad hsum
  obtain ⟨M₂, N₂, q1, q2, q3⟩ := C105_values h₂ best spatial R hR spectral S hS norm hnorm m n hm hn _hN pad hpad hsum
  obtain ⟨r, r1, -, r3⟩ := m3.values
  obtain ⟨r₁, t1, -, t3⟩ := p3.values
  obtain ⟨r₂, u1, -, u3⟩ := q3.values
  refine ⟨M, M₁, M₂, r, r₁, r₂, m1, p1, q1, r1, t1, u1, ?_⟩
  intro i j hi hj
  rw [r3 i j hi hj, t3 i j hi hj, u3 i j hi hj]
  unfold weightedMean
  rw [← mul_div_assoc, ← mul_div_assoc, ← add_div, ← sum_mul_list, ← sum_mul_list, ← sum_map_add']
  congr 2
  apply List.map_congr_left
  intro k hk
  have hk := List.mem_range.1 hk
  simp only [← normalises_unique norm _ _ _ (m2 k hk) (p2 k hk), ← normalises_unique norm _ _ _ (m2 k hk) (q2 k hk)]
  have : smeared a R nx ny m n wx wy (freq nz wz cz k) (N k) k i j =
      s * smeared a₁ R nx ny m n wx wy (freq nz wz cz k) (N k) k i j +
      t * smeared a₂ R nx ny m n wx wy (freq nz wz cz k) (N k) k i j := by
    unfold smeared
    rw [← sum_mul_list, ← sum_mul_list, ← sum_map_add']
    congr 1
    apply List.map_congr_left
    intro i' hi'
    rw [← sum_mul_list, ← sum_mul_list, ← sum_map_add']
    congr 1
    apply List.map_congr_left
    intro j' hj'
    split
    · rw [hadd i' j' k (List.mem_range.1 hi') (List.mem_range.1 hj') hk]; ring
    · ring
  rw [this]
  ring

/-- The claim in full: the map of a point, through a response with two equal sides, has two equal sides around the
cell of the point, whatever the number of cells of the kernel. -/
def C105_full : Prop :=
  ∀ (g : Grid K K) (a : Arr K) (nx ny nz : ℕ) (wx wy wz cx cy cz : K), Sky g a nx ny nz wx wy wz cx cy cz →
  ∀ (best : Option K) (spatial : List K → List K → List K → Except Err (Arr K)) (R : K → K → K → K),
    Responds spatial R → ∀ (spectral : List K → Except Err (Arr K)) (S : K → K), Weights spectral S →
  ∀ (norm : BeamNorm), norm ≠ .other → ∀ (m n : ℕ), 2 ≤ m → 2 ≤ n →
    (∀ k < nz, ∀ N, Normalises norm (beamValues R m n wx wy (freq nz wz cz k)) N → N ≠ 0) →
    (∀ x y f, R (-x) y f = R x y f) →
  ∀ (pad : PadArg), (pad = .none ∨ ∃ p : ℕ, pad = .int p) →
    ((List.range nz).map (fun k => S (freq nz wz cz k))).sum ≠ 0 →
  ∀ (i0 j0 k0 : ℕ), i0 < nx → j0 < ny → k0 < nz →
    (∀ i j k, i < nx → j < ny → k < nz → ¬ (i = i0 ∧ j = j0 ∧ k = k0) → cell a [i, j, k] 0 = 0) →
    ∃ (M : Grid K K) (r : Arr K), detectorMap g best spatial spectral norm (.pair m n) pad = .ok M ∧
      M.grid = some r ∧ ∀ d j, d ≤ i0 → i0 + d < nx → j < ny → cell r [i0 + d, j] 0 = cell r [i0 - d, j] 0

/-- **C105**, for kernels with an odd number of cells along the first axis: the map of a point has equal sides. -/
theorem C105_sides_partial (h : Sky g a nx ny nz wx wy wz cx cy cz) (best : Option K)
    (spatial : List K → List K → List K → Except Err (Arr K)) (R : K → K → K → K) (hR : Responds spatial R)
    (spectral : List K → Except Err (Arr K)) (S : K → K) (hS : Weights spectral S)
    (norm : BeamNorm) (hnorm : norm ≠ .other) (m n : ℕ) (hm : 2 ≤ m) (hn : 2 ≤ n) (om : m % 2 = 1)
    (_hN : ∀ k < nz, ∀ N, Normalises norm (beamValues R m n wx wy (freq nz wz cz k)) N → N ≠ 0)
    (hsides : ∀ x y f, R (-x) y f = R x y f)
    (pad : PadArg) (hpad : pad = .none ∨ ∃ p : ℕ, pad = .int p)
    (hsum : ((List.range nz).map (fun k => S (freq nz wz cz k))).sum ≠ 0)
    (i0 j0 k0 : ℕ) (hi : i0 < nx) (hj : j0 < ny) (hk : k0 < nz)
    (hz : ∀ i j k, i < nx → j < ny → k < nz → ¬ (i = i0 ∧ j = j0 ∧ k = k0) → cell a [i, j, k] 0 = 0) :
    ∃ (M : Grid K K) (r : Arr K), detectorMap g best spatial spectral norm (.pair m n) pad = .ok M ∧
      M.grid = some r ∧ ∀ d j, d ≤ i0 → i0 + d < nx → j < ny → cell r [i0 + d, j] 0 = cell r [i0 - d, j] 0 := by
  obtain ⟨M, r, N, h1, h2, h3, h4⟩ := C105_point h best spatial R hR spectral S hS norm hnorm m n hm hn _hN pad hpad
    hsum i0 j0 k0 _ hi hj hk rfl hz
  refine ⟨M, r, h1, h2, ?_⟩
  intro d j hd hd' hj'
  rw [h4 _ j hd' hj', h4 (i0 - d) j (by omega) hj']
  have e1 : Reaches m (i0 + d) i0 ↔ Reaches m (i0 - d) i0 := by unfold Reaches; omega
  have e2 : away (K := K) m (i0 - d) i0 * wx = -(away m (i0 + d) i0 * wx) := by
    unfold away
    rw [if_neg (by omega), Nat.cast_sub hd]
    push_cast
    ring
  rw [e2, hsides]
  simp only [e1]

/-! ### The size of the kernel -/

theorem rint_near (y : K) : |y - rint y| ≤ 1 / 2 := by
  unfold rint
  have h1 := Int.floor_le y
  have h2 := Int.lt_floor_add_one y
  split
  · rw [abs_of_nonneg (by linarith)]; linarith
  · split
    · push_cast; rw [abs_of_nonpos (by linarith)]; linarith
    · have : y - ⌊y⌋ = 1 / 2 := le_antisymm (by linarith) (by linarith)
      split
      · rw [abs_of_nonneg (by linarith)]; linarith
      · push_cast; rw [abs_of_nonpos (by linarith)]; linarith

/-- **C105**: without a kernel size, the kernel extends over ten times the best resolution of the instrument, rounded
to whole cells, and one cell: an odd number of cells, at least eleven, if the cells are not larger than this
resolution. -/
theorem C105_default (h : Sky g a nx ny nz wx wy wz cx cy cz) (b : K) (hx : wx ≤ b) (hy : wy ≤ b)
    (spatial : List K → List K → List K → Except Err (Arr K)) (spectral : List K → Except Err (Arr K))
    (norm : BeamNorm) (pad : PadArg) :
    ∃ (rx ry : ℕ), 1 ≤ rx ∧ 1 ≤ ry ∧ |b / wx - rx| ≤ 1 / 2 ∧ |b / wy - ry| ≤ 1 / 2 ∧
      detectorMap g (some b) spatial spectral norm .none pad =
        detectorMap g (some b) spatial spectral norm (.pair (10 * rx + 1 : ℕ) (10 * ry + 1 : ℕ)) pad := by
  obtain ⟨⟨-, px⟩, ⟨-, py⟩, -⟩ := sky_pos h
  have hpix := sky_pixels h
  have key : ∀ w : K, 0 < w → w ≤ b → ∃ r : ℕ, 1 ≤ r ∧ (rint (b / w) : ℤ) = r ∧ |b / w - r| ≤ 1 / 2 := by
    intro w hw hb
    have h1 : 1 ≤ b / w := by rwa [le_div_iff₀ hw, one_mul]
    have hn := rint_near (b / w)
    have : (0 : K) < rint (b / w) := by
      have := (abs_le.1 hn).2
      linarith
    have hpos : 0 < rint (b / w) := by exact_mod_cast this
    refine ⟨(rint (b / w)).toNat, by omega, by omega, ?_⟩
    have e : (((rint (b / w)).toNat : ℕ) : K) = rint (b / w) := by
      have : (((rint (b / w)).toNat : ℤ) : K) = rint (b / w) := by
        rw [Int.toNat_of_nonneg hpos.le]
      exact_mod_cast this
    rw [e]
    exact hn
  obtain ⟨rx, x1, x2, x3⟩ := key wx px hx
  obtain ⟨ry, y1, y2, y3⟩ := key wy py hy
  refine ⟨rx, ry, x1, y1, x3, y3, ?_⟩
  have e : kernelCells (some b) g.pix.vals .none =
      kernelCells (some b) g.pix.vals (.pair (10 * rx + 1 : ℕ) (10 * ry + 1 : ℕ)) := by
    unfold kernelCells
    rw [hpix]
    simp only [List.getD_cons_zero, List.getD_cons_succ, x2, y2]
    push_cast
    rw [mul_comm (rx : ℤ), mul_comm (ry : ℤ)]
  unfold detectorMap setupBeam
  simp only [reduceCtorEq, and_false, false_and, if_false, e]

/-- **C105**: what is refused. -/
theorem C105_refused (h : Sky g a nx ny nz wx wy wz cx cy cz) (best : Option K)
    (spatial : List K → List K → List K → Except Err (Arr K)) (spectral : List K → Except Err (Arr K))
    (norm : BeamNorm) (pad : PadArg) :
    (detectorMap g none spatial spectral norm .none pad = .error .valueError) ∧
    (∀ kernel, detectorMap g best spatial spectral .other kernel pad = .error .valueError) ∧
    (norm ≠ .other → ∀ n, detectorMap g best spatial spectral norm (.int n) pad = .error .typeError) ∧
    (norm ≠ .other → ∀ m n : ℤ, m ≤ 1 ∨ n ≤ 1 →
      ∃ e, detectorMap g best spatial spectral norm (.pair m n) pad = .error e) ∧
    (norm ≠ .other → ∀ (m n : ℕ), 2 ≤ m → 2 ≤ n → ∀ r,
      spatial (middles m wx 0) (middles n wy 0) (middles nz wz cz) = .ok r → r.shape ≠ [m, n, nz] →
      detectorMap g best spatial spectral norm (.pair m n) pad = .error .valueError) := by
  refine ⟨?_, ?_, ?_, ?_, ?_⟩
  · unfold detectorMap setupBeam; rw [if_pos ⟨rfl, rfl⟩]
  · intro kernel
    unfold detectorMap setupBeam
    split
    · rename_i e he
      split at he
      · exact he ▸ rfl
      · rw [if_pos rfl] at he; exact he ▸ rfl
    · rename_i b hb
      split at hb
      · cases hb
      · rw [if_pos rfl] at hb; cases hb
  · intro hn n
    unfold detectorMap setupBeam
    rw [if_neg (by simp), if_neg hn]
    rfl
  · intro hn m n hmn
    obtain ⟨⟨-, px⟩, ⟨-, py⟩, ⟨-, pz⟩⟩ := sky_pos h
    have hpix := sky_pixels h
    have hbad : ∃ e, beamGrid g m n = .error e := by
      have le : ∀ (k : ℤ) (w : K), k ≤ 1 → 0 < w → (k : K) * w ≤ (1 + 1 / 20) * w := by
        intro k w hk hw
        have : (k : K) ≤ 1 := by exact_mod_cast hk
        exact mul_le_mul_of_nonneg_right (by linarith) hw.le
      have hall : ∀ w ∈ g.pix.vals, 0 < w := by rw [hpix]; simp [px, py, pz]
      unfold beamGrid
      rcases hmn with hk | hk
      · exact C17_single_cell_fails 1 _ _ g.pix _ _ rfl (by rw [hpix]; rfl) hall 0 _ wx rfl (by rw [hpix]; rfl)
          (by rw [hpix]; exact le m wx hk px)
      · exact C17_single_cell_fails 1 _ _ g.pix _ _ rfl (by rw [hpix]; rfl) hall 1 _ wy rfl (by rw [hpix]; rfl)
          (by rw [hpix]; exact le n wy hk py)
    obtain ⟨e, he⟩ := hbad
    refine ⟨e, ?_⟩
    unfold detectorMap setupBeam
    rw [if_neg (by simp), if_neg hn]
    simp only [kernelCells, he]
  · intro hn m n hm hn' r hr hs
    obtain ⟨b, b1, b2, b3, b4⟩ := beamGrid_ok h m n hm hn'
    unfold detectorMap setupBeam
    rw [if_neg (by simp), if_neg hn]
    simp only [kernelCells, b1]
    unfold fillBeam
    rw [b4]
    simp only [List.getD_cons_zero, List.getD_cons_succ, hr]
    rw [if_pos]
    rw [b2, b3]
    intro e
    exact hs (List.append_cancel_right e)

end

/-! ### Examples -/

/-- A field of five by five cells and two channels with one point. -/
def pointField : Grid ℚ ℚ := plainGrid [5, 5, 2] 1 (fun i => if i = [2, 2, 1, 0] then 3 else 0)

theorem pointField_sky : Sky pointField ⟨[5, 5, 2, 1], fun i => if i = [2, 2, 1, 0] then 3 else 0⟩ 5 5 2 1 1 1 0 0 0 where
  regular := plainGrid_regular _ _ _ (by simp)
  floats := ⟨rfl, rfl, rfl⟩
  labelled := by constructor <;> simp [pointField, plainGrid, Grid.dim]
  dim := rfl
  nProps := rfl
  units := rfl
  real := by simp [pointField, plainGrid]
  map := rfl
  active := rfl
  x := by constructor <;> simp [pointField, plainGrid]
  y := by constructor <;> simp [pointField, plainGrid]
  z := by constructor <;> simp [pointField, plainGrid]

/-- A response that is the same everywhere. -/
def flatBeam (xs ys fs : List ℚ) : Except Err (Arr ℚ) := .ok ⟨[xs.length, ys.length, fs.length], fun _ => 1⟩

theorem flatBeam_responds : Responds flatBeam (fun _ _ _ => 1) :=
  fun _ _ _ => ⟨_, rfl, rfl, fun _ _ _ _ _ _ _ _ _ => rfl⟩

def flatBand (fs : List ℚ) : Except Err (Arr ℚ) := .ok ⟨[fs.length], fun _ => 1⟩

theorem flatBand_weights : Weights flatBand (fun _ => 1) := fun _ => ⟨_, rfl, rfl, fun _ _ _ => rfl⟩

theorem flat_peak (m n : ℕ) (wx wy f N : ℚ) (h : Normalises .peak (beamValues (fun _ _ _ => 1) m n wx wy f) N) :
    N ≠ 0 := by
  have := h.1
  unfold beamValues at this
  rw [List.mem_flatMap] at this
  obtain ⟨x, -, hx⟩ := this
  obtain ⟨y, -, hy⟩ := List.mem_map.1 hx
  rw [← hy]
  exact one_ne_zero

theorem point_only : ∀ i j k, i < 5 → j < 5 → k < 2 → ¬ (i = 2 ∧ j = 2 ∧ k = 1) →
    cell (⟨[5, 5, 2, 1], fun i => if i = [2, 2, 1, 0] then 3 else 0⟩ : Arr ℚ) [i, j, k] 0 = 0 := by
  intro i j k _ _ _ h
  simp only [cell]
  rw [if_neg]
  intro e
  simp at e
  exact h e

/-- C105 is false in full: with a kernel of two cells the cell after the point sees it, the cell before it does not. -/
theorem C105_full_false : ¬ C105_full (K := ℚ) := by
  intro hfull
  obtain ⟨M, r, h1, h2, h3⟩ := hfull _ _ _ _ _ _ _ _ _ _ _ pointField_sky none flatBeam _ flatBeam_responds flatBand _
    flatBand_weights .peak (by decide) 2 3 (by decide) (by decide) (fun k _ N hN => flat_peak _ _ _ _ _ N hN)
    (fun _ _ _ => rfl) .none (.inl rfl) (by simp) 2 2 1 (by decide) (by decide) (by decide) point_only
  obtain ⟨M', r', N, g1, g2, g3, g4⟩ := C105_point pointField_sky none flatBeam _ flatBeam_responds flatBand _
    flatBand_weights .peak (by decide) 2 3 (by decide) (by decide) (fun k _ N hN => flat_peak _ _ _ _ _ N hN) .none
    (.inl rfl) (by simp) 2 2 1 3 (by decide) (by decide) (by decide) rfl point_only
  rw [h1] at g1
  simp only [Except.ok.injEq] at g1
  subst g1
  rw [h2] at g2
  simp only [Option.some.injEq] at g2
  subst g2
  have hN := flat_peak _ _ _ _ _ N g3
  have := h3 1 2 (by decide) (by decide) (by decide)
  rw [show 2 + 1 = 3 from rfl, show 2 - 1 = 1 from rfl, g4 3 2 (by decide) (by decide), g4 1 2 (by decide) (by decide),
    if_pos (by decide), if_neg (by decide)] at this
  simp at this
  exact hN this

/-- With a kernel of three cells the point is seen in its cell with half its value, as one of two channels has it. -/
example : ∃ (M : Grid ℚ ℚ) (r : Arr ℚ), detectorMap pointField none flatBeam flatBand .peak (.pair 3 3) (.int 2) = .ok M ∧
    M.grid = some r ∧ cell r [2, 2] 0 = 3 / 2 := by
  obtain ⟨M, r, h1, h2, h3, -⟩ := C105_centred_partial pointField_sky none flatBeam _ flatBeam_responds flatBand _
    flatBand_weights (fun _ => zero_le_one) 3 3 (by decide) (by decide) rfl rfl (fun _ => one_pos)
    (fun _ _ _ => le_rfl) (.int 2) (.inr ⟨2, rfl⟩) (by simp) 2 2 1 3 (by norm_num) (by decide) (by decide) (by decide)
    rfl point_only
  refine ⟨M, r, h1, h2, ?_⟩
  rw [h3]
  simp
  norm_num

end Verif.Map
