import Verif.Spec.DetectorMap
import Verif.Props.GridConvChan
import Verif.Props.GridReduce
import Verif.Props.GridMake

/-!
# Lemmas about the map of a detector (for C105)
-/

set_option linter.unusedSectionVars false

namespace Verif.Map

open Verif.Sim (Err)
open Spec

variable {K : Type} [Field K] [LinearOrder K] [IsStrictOrderedRing K] [FloorRing K]

theorem axisIs_inj {V : Type} {g : Grid K V} {i n n' : ℕ} {w w' c c' : K} (h : AxisIs g i n w c) (h' : AxisIs g i n' w' c') :
    n = n' ∧ w = w' ∧ c = c' := by
  refine ⟨?_, ?_, ?_⟩
  · have := h.nPix.symm.trans h'.nPix; simpa using this
  · have := h.pix.symm.trans h'.pix; simpa using this
  · have := h.center.symm.trans h'.center; simpa using this

theorem three {α : Type} (l : List α) (x y z : α) (hl : l.length = 3) (h0 : l[0]? = some x) (h1 : l[1]? = some y)
    (h2 : l[2]? = some z) : l = [x, y, z] := by
  match l, hl with
  | [a, b, c], _ => simp at h0 h1 h2; rw [h0, h1, h2]

section
variable {g : Grid K K} {a : Arr K} {nx ny nz : ℕ} {wx wy wz cx cy cz : K}

theorem sky_cells (h : Sky g a nx ny nz wx wy wz cx cy cz) : g.nPix = [nx, ny, nz] :=
  three _ _ _ _ (by rw [h.regular.nPix, h.dim]) h.x.nPix h.y.nPix h.z.nPix

theorem sky_pixels (h : Sky g a nx ny nz wx wy wz cx cy cz) : g.pix.vals = [wx, wy, wz] :=
  three _ _ _ _ (by rw [h.regular.pix, h.dim]) h.x.pix h.y.pix h.z.pix

theorem sky_pos (h : Sky g a nx ny nz wx wy wz cx cy cz) :
    (2 ≤ nx ∧ 0 < wx) ∧ (2 ≤ ny ∧ 0 < wy) ∧ (2 ≤ nz ∧ 0 < wz) := by
  have key : ∀ i n w c, AxisIs g i n w c → i < g.dim → 2 ≤ n ∧ 0 < w := by
    intro i n w c hx hi
    obtain ⟨n', w', c', h1, h2, h3⟩ := h.regular.axis i hi
    obtain ⟨e1, e2, -⟩ := axisIs_inj hx h3
    exact ⟨e1 ▸ h1, e2 ▸ h2⟩
  have hd := h.dim
  exact ⟨key 0 _ _ _ h.x (by omega), key 1 _ _ _ h.y (by omega), key 2 _ _ _ h.z (by omega)⟩

/-- A side of whole cells keeps its number of cells. -/
theorem cells_of_side (n m : ℕ) (w : K) (hw : 0 < w) (h1 : (m : K) * w - w / 20 ≤ n * w)
    (h2 : (n : K) * w < m * w + 19 / 20 * w) : n = m := by
  have e1 : (m : K) - 1 / 20 ≤ n := by
    have : ((m : K) - 1 / 20) * w ≤ n * w := by linarith
    exact le_of_mul_le_mul_right this hw
  have e2 : (n : K) < m + 19 / 20 := by
    have : (n : K) * w < (m + 19 / 20) * w := by linarith
    exact lt_of_mul_lt_mul_right this hw.le
  have f1 : (m : K) < n + 1 := by linarith
  have f2 : (n : K) < m + 1 := by linarith
  have f1 : m < n + 1 := by exact_mod_cast f1
  have f2 : n < m + 1 := by exact_mod_cast f2
  omega

theorem beamGrid_ok (h : Sky g a nx ny nz wx wy wz cx cy cz) (m n : ℕ) (hm : 2 ≤ m) (hn : 2 ≤ n) :
    ∃ b : Grid K K, beamGrid g m n = .ok b ∧ b.nPix = [m, n, nz] ∧ b.nProps = 1 ∧
      b.centers = [middles m wx 0, middles n wy 0, middles nz wz cz] := by
  obtain ⟨⟨-, px⟩, ⟨-, py⟩, ⟨hz, pz⟩⟩ := sky_pos h
  have hpix := sky_pixels h
  have hc2 : g.center.vals.getD 2 0 = cz := by rw [List.getD_eq_getElem?_getD, h.z.center]; rfl
  have hs2 : g.side.vals.getD 2 0 = nz * wz := by rw [List.getD_eq_getElem?_getD, h.z.side]; rfl
  have two : ∀ (k : ℕ) (w : K), 2 ≤ k → 0 < w → (1 + 1 / 20) * w < k * w := by
    intro k w hk hw
    have : (2 : K) ≤ k := by exact_mod_cast hk
    exact mul_lt_mul_of_pos_right (by linarith) hw
  obtain ⟨b, h1, h2, h3, h4, h5, -, -, -, -, -, h6⟩ := new_fit (V := K) 1 ⟨g.center.isInt, [0, 0, g.center.vals.getD 2 0]⟩
    ⟨g.pix.isInt && g.side.isInt, [((m : ℤ) : K) * g.pix.vals.getD 0 0, ((n : ℤ) : K) * g.pix.vals.getD 1 0,
      g.side.vals.getD 2 0]⟩ g.pix (some g.axunits) (some g.gridunits)
    (by intro l hl; simp only [Option.some.injEq] at hl; rw [← hl, h.labelled.1, h.dim]; rfl)
    (by intro l hl; simp only [Option.some.injEq] at hl; rw [← hl, h.units])
    rfl (by simp [hpix]) (by simp [hpix, px, py, pz]) (by
      intro i s w hs hw
      rw [hpix] at hw
      rw [hpix, hs2] at hs
      match i with
      | 0 => simp at hs hw; subst hs hw; exact two m _ hm px
      | 1 => simp at hs hw; subst hs hw; exact two n _ hn py
      | 2 => simp at hs hw; subst hs hw; exact two nz _ hz pz
      | i + 3 => simp at hs)
  have hbd : b.dim = 3 := by simp [Grid.dim, h3]
  have ax : ∀ (i k : ℕ) (w c : K), [wx, wy, wz][i]? = some w → [(0 : K), 0, cz][i]? = some c → 0 < w →
      [(m : K) * wx, (n : K) * wy, nz * wz][i]? = some (k * w) → AxisIs b i k w c := by
    intro i k w c e1 e2 e3 e4
    obtain ⟨k', q1, q2, q3⟩ := h6 i (k * w) w c (by rw [hpix, hs2]; simpa using e4) (by rw [hpix]; exact e1)
      (by rw [hc2]; exact e2)
    have := cells_of_side k' k w e3 q2 q3
    exact this ▸ q1
  have a0 := ax 0 m wx 0 rfl rfl px rfl
  have a1 := ax 1 n wy 0 rfl rfl py rfl
  have a2 := ax 2 nz wz cz rfl rfl pz rfl
  exact ⟨b, h1, three _ _ _ _ (by rw [h2.nPix, hbd]) a0.nPix a1.nPix a2.nPix, h5,
    three _ _ _ _ (by rw [h2.centers, hbd]) a0.centers a1.centers a2.centers⟩

theorem middle_at (n : ℕ) (w c : K) (i : ℕ) (hi : i < n) :
    (middles n w c)[i]? = some (c - n * w / 2 + ((i : K) + 1 / 2) * w) := by
  simp [middles, List.getElem?_map, List.getElem?_range hi]

/-- The beam. -/
theorem setupBeam_ok (h : Sky g a nx ny nz wx wy wz cx cy cz) (best : Option K)
    (spatial : List K → List K → List K → Except Err (Arr K)) (R : K → K → K → K) (hR : Responds spatial R)
    (norm : BeamNorm) (hnorm : norm ≠ .other) (kernel : KernelArg) (m n : ℕ) (hm : 2 ≤ m) (hn : 2 ≤ n)
    (hk : kernelCells best g.pix.vals kernel = .ok ((m : ℤ), (n : ℤ))) :
    ∃ (b : Grid K K) (B : Arr K) (N : ℕ → K), setupBeam g best spatial norm kernel = .ok b ∧ b.nProps = 1 ∧
      b.grid = some B ∧ B.shape = [m, n, nz, 1] ∧
      (∀ k < nz, Normalises norm (beamValues R m n wx wy (freq nz wz cz k)) (N k)) ∧
      ∀ o p k, o < m → p < n → k < nz → B.get [o, p, k, 0] =
        R (((o : K) + 1 / 2 - m / 2) * wx) (((p : K) + 1 / 2 - n / 2) * wy) (freq nz wz cz k) / N k := by
  obtain ⟨b, b1, b2, b3, b4⟩ := beamGrid_ok h m n hm hn
  obtain ⟨r, r1, r2, r3⟩ := hR (middles m wx 0) (middles n wy 0) (middles nz wz cz)
  have hlen : ∀ (k : ℕ) (w c : K), (middles k w c).length = k := by intros; simp [middles]
  rw [hlen, hlen, hlen] at r2
  have hval : ∀ o p k, o < m → p < n → k < nz → r.get [o, p, k] =
      R (((o : K) + 1 / 2 - m / 2) * wx) (((p : K) + 1 / 2 - n / 2) * wy) (freq nz wz cz k) := by
    intro o p k ho hp hk
    rw [r3 o p k _ _ _ (middle_at m wx 0 o ho) (middle_at n wy 0 p hp) (middle_at nz wz cz k hk)]
    congr 1
    · ring
    · ring
  obtain ⟨a0, ha0⟩ : ∃ a0 : Arr K, a0 = ⟨r.shape ++ [1], fun i => r.get i.dropLast⟩ := ⟨_, rfl⟩
  have hsh : a0.shape = [m, n, nz, 1] := by rw [ha0]; simp [r2]
  have hvals : ∀ k < nz, channelValues a0 k = beamValues R m n wx wy (freq nz wz cz k) := by
    intro k hk
    unfold channelValues beamValues positions
    rw [hsh]
    simp only [List.getD_cons_zero, List.getD_cons_succ, List.flatMap_map, List.map_map]
    rw [List.flatMap_def, List.flatMap_def]
    congr 1
    apply List.map_congr_left
    intro i hi
    apply List.map_congr_left
    intro j hj
    rw [ha0]
    simp only [Function.comp_apply]
    rw [show [i, j, k, 0].dropLast = [i, j, k] from rfl, hval i j k (List.mem_range.1 hi) (List.mem_range.1 hj) hk]
  refine ⟨{ b with grid := some (normalise norm a0), nObj := 0 }, normalise norm a0, channelNorm norm a0, ?_, b3, rfl,
    hsh, ?_, ?_⟩
  · unfold setupBeam
    rw [if_neg (by
      rintro ⟨h1, h2⟩
      rw [h1, h2] at hk
      simp [kernelCells] at hk), if_neg hnorm, hk]
    simp only [b1]
    unfold fillBeam
    rw [b4]
    simp only [List.getD_cons_zero, List.getD_cons_succ, r1]
    rw [if_neg (by rw [r2, b2, b3]; simp), ha0]
  · intro k hk
    unfold Normalises channelNorm
    cases norm with
    | peak =>
      simp only
      rw [hvals k hk]
      have hne : beamValues R m n wx wy (freq nz wz cz k) ≠ [] := by
        unfold beamValues positions
        intro e
        obtain ⟨m', rfl⟩ : ∃ m', m = m' + 1 := ⟨m - 1, by omega⟩
        obtain ⟨n', rfl⟩ : ∃ n', n = n' + 1 := ⟨n - 1, by omega⟩
        rw [List.range_succ_eq_map, List.range_succ_eq_map] at e
        simp at e
      obtain ⟨v, hv⟩ : ∃ v, (beamValues R m n wx wy (freq nz wz cz k)).max? = some v := by
        rcases e : (beamValues R m n wx wy (freq nz wz cz k)).max? with _ | v
        · rw [List.max?_eq_none_iff] at e
          exact absurd e hne
        · exact ⟨v, rfl⟩
      rw [hv]
      exact List.max?_eq_some_iff.1 hv
    | area => simp only; rw [hvals k hk]
    | none => rfl
    | other => exact absurd rfl hnorm
  · intro o p k ho hp hk
    unfold normalise
    simp only [List.getD_cons_zero, List.getD_cons_succ]
    congr 1
    rw [ha0]
    exact hval o p k ho hp hk

/-! ## The sums -/

theorem smearIn_smeared (a B : Arr K) (R : K → K → K → K) (nx ny nz m n : ℕ) (wx wy f N : K) (k i j : ℕ)
    (hk : k < nz)
    (hB : ∀ o p, o < m → p < n → B.get [o, p, k, 0] =
        R (((o : K) + 1 / 2 - m / 2) * wx) (((p : K) + 1 / 2 - n / 2) * wy) f / N) (hm : 2 ≤ m) (hn : 2 ≤ n) :
    smearIn a B [nx, ny] [m, n] [i, j] [k] 0 0 = smeared a R nx ny m n wx wy f N k i j := by
  have hoff : ∀ (q i i' : ℕ) (w : K), 2 ≤ q → Reaches q i i' →
      (((i + (q - 1) / 2 - i' : ℕ) : K) + 1 / 2 - q / 2) * w = away q i i' * w := by
    intro q i i' w hq hr
    congr 1
    unfold away
    obtain ⟨h1, -⟩ := hr
    rw [Nat.cast_sub h1]
    push_cast
    by_cases he : q % 2 = 0
    · rw [if_pos he]
      obtain ⟨t, rfl⟩ : ∃ t, q = 2 * t := ⟨q / 2, by omega⟩
      rw [show (2 * t - 1) / 2 = t - 1 by omega, Nat.cast_sub (by omega)]
      push_cast
      ring
    · rw [if_neg he]
      obtain ⟨t, rfl⟩ : ∃ t, q = 2 * t + 1 := ⟨q / 2, by omega⟩
      rw [show (2 * t + 1 - 1) / 2 = t by omega]
      push_cast
      ring
  unfold smearIn smeared
  simp only [allCells, List.map_cons, List.map_nil, List.flatMap_cons, List.flatMap_nil]
  rw [sum_flatMap_map]
  congr 1
  apply List.map_congr_left
  intro i' _
  rw [List.map_map, sum_flatMap_map]
  congr 1
  apply List.map_congr_left
  intro j' _
  simp only [List.map_cons, List.map_nil, Function.comp_apply, List.sum_cons, List.sum_nil, add_zero, spreads]
  by_cases h1 : Reaches m i i'
  · by_cases h2 : Reaches n j j'
    · rw [if_pos (show i' ≤ i + (m - 1) / 2 ∧ i + (m - 1) / 2 - i' < m from h1),
        if_pos (show j' ≤ j + (n - 1) / 2 ∧ j + (n - 1) / 2 - j' < n from h2), if_pos ⟨h1, h2⟩]
      simp only [Option.map_some, cell, List.cons_append, List.nil_append]
      rw [hB _ _ h1.2 h2.2, hoff m i i' wx hm h1, hoff n j j' wy hn h2]
    · rw [if_pos (show i' ≤ i + (m - 1) / 2 ∧ i + (m - 1) / 2 - i' < m from h1),
        if_neg (show ¬ (j' ≤ j + (n - 1) / 2 ∧ j + (n - 1) / 2 - j' < n) from h2), if_neg (fun h => h2 h.2)]
      rfl
  · rw [if_neg (show ¬ (i' ≤ i + (m - 1) / 2 ∧ i + (m - 1) / 2 - i' < m) from h1), if_neg (fun h => h1 h.1)]

end

end Verif.Map
