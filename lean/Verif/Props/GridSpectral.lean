import Verif.Props.GridPsf

/-!
# C102: point spread functions whose width depends on the frequency
-/

set_option linter.unusedSectionVars false

namespace Verif.Map

open Verif.Sim (Err)
open Spec

theorem max_of (l : List ℝ) (mx : ℝ) (h1 : mx ∈ l) (h2 : ∀ s ∈ l, s ≤ mx) : l.max? = some mx :=
  List.max?_eq_some_iff.2 ⟨h1, h2⟩

theorem min_of (l : List ℝ) (mn : ℝ) (h1 : mn ∈ l) (h2 : ∀ s ∈ l, mn ≤ s) : l.min? = some mn :=
  List.min?_eq_some_iff.2 ⟨h1, h2⟩

/-- The call, as far as the grid. -/
theorem spec_grid (spec : NArr ℝ) (spec0 : ℝ) (fwhm pix : NArr ℝ) (side : Option (NArr ℝ))
    (au : Option (List (Option String))) (norm : String) (e : ℝ) (hnorm : norm = "area" ∨ norm = "peak")
    (s0 s1 mx mn m : ℝ) (rest : List ℝ) (hspec : spec.vals = s0 :: s1 :: rest) (h01 : s0 ≠ s1)
    (hmx : mx ∈ spec.vals) (hmn : mn ∈ spec.vals) (hall : ∀ s ∈ spec.vals, mn ≤ s ∧ s ≤ mx)
    (hm : m ∈ spec.vals.map (fun s => spec0 / s)) (hm' : ∀ r ∈ spec.vals.map (fun s => spec0 / s), r ≤ m)
    (hs : (specSide fwhm.vals m side).length = fwhm.vals.length)
    (hp : (lengths fwhm.vals.length pix.vals).length = fwhm.vals.length)
    (hw : ∀ w ∈ lengths fwhm.vals.length pix.vals, 0 < w)
    (hmin : ∀ (i : ℕ) (s w : ℝ), (specSide fwhm.vals m side)[i]? = some s →
      (lengths fwhm.vals.length pix.vals)[i]? = some w → (1 + 1 / 20) * w < s)
    (hau : ∀ l, au = some l → l.length = fwhm.vals.length + 1) :
    ∃ (g : Grid ℝ ℝ) (ns : List ℕ) (n : ℕ),
      Spectral g ns (lengths fwhm.vals.length pix.vals) (specSide fwhm.vals m side) n |s1 - s0|
        ((mx - mn) / 2 + mn) ∧ g.axes.length = fwhm.vals.length + 1 ∧
      mx - mn + |s1 - s0| - |s1 - s0| / 20 ≤ n * |s1 - s0| ∧
      n * |s1 - s0| < mx - mn + |s1 - s0| + 19 / 20 * |s1 - s0| ∧
      spectralPsf spec spec0 fwhm pix side au norm e =
        if g.nPix[fwhm.vals.length]? ≠ some spec.vals.length then .error .valueError
        else .ok { g with
          axes := g.axes.set fwhm.vals.length spec.vals
          nObj := 0
          grid := some (if norm = "area"
            then ⟨(specArr g.nPix g.centers fwhm.vals spec.vals spec0 e).shape, fun i =>
              (specArr g.nPix g.centers fwhm.vals spec.vals spec0 e).get i /
                sliceSum (specArr g.nPix g.centers fwhm.vals spec.vals spec0 e) fwhm.vals.length
                  (i.getD fwhm.vals.length 0)⟩
            else specArr g.nPix g.centers fwhm.vals spec.vals spec0 e) } := by
  obtain ⟨ws, hws⟩ : ∃ ws, ws = lengths fwhm.vals.length pix.vals := ⟨_, rfl⟩
  obtain ⟨sides, hsides⟩ : ∃ s, s = specSide fwhm.vals m side := ⟨_, rfl⟩
  rw [← hws] at hp hw hmin
  rw [← hsides] at hs hmin
  rw [← hws, ← hsides]
  obtain ⟨b1, hS⟩ : ∃ b, specSides fwhm spec.vals spec0 side = .ok ⟨b, sides⟩ := by
    cases side with
    | none =>
      refine ⟨false, ?_⟩
      rw [hsides]
      simp only [specSides, max_of _ m hm hm', Option.getD_some, specSide]
    | some s =>
      simp only [specSide] at hsides
      rw [hsides]
      exact psfSpread_ok s _ (by rw [← hsides]; exact hs)
  obtain ⟨b2, hP⟩ := psfSpread_ok pix fwhm.vals.length (by rw [← hws]; exact hp)
  rw [← hws] at hP
  have hp0 : 0 < |s1 - s0| := abs_pos.2 (sub_ne_zero.2 (Ne.symm h01))
  have hptp : |s1 - s0| ≤ mx - mn := by
    have a0 := hall s0 (by rw [hspec]; simp)
    have a1 := hall s1 (by rw [hspec]; simp)
    rw [abs_le]
    constructor <;> linarith [a0.1, a0.2, a1.1, a1.2]
  obtain ⟨g, q1, q2, q3, q4, q5, q6, q7, q8, q9, -, q10⟩ := new_fit (V := ℝ) 1
    ⟨false, List.replicate fwhm.vals.length (0 : ℝ) ++ [(mx - mn) / 2 + mn]⟩
    ⟨b1 && spec.isInt, sides ++ [mx - mn + |s1 - s0|]⟩ ⟨b2 && spec.isInt, ws ++ [|s1 - s0|]⟩ au none
    (by simpa using hau) (by simp) (by simpa using hs) (by simpa using hp)
    (by
      intro w hw'
      rcases List.mem_append.1 hw' with h | h
      · exact hw w h
      · simp at h; rw [h]; exact hp0)
    (by
      intro i s w h1 h2
      by_cases hi : i < fwhm.vals.length
      · rw [List.getElem?_append_left (by omega)] at h1 h2
        exact hmin i s w h1 h2
      · have : i = fwhm.vals.length := by
          have := (List.getElem?_eq_some_iff.1 h1).1
          simp at this
          omega
        subst this
        rw [List.getElem?_append_right (by omega)] at h1 h2
        simp [hs] at h1
        simp [hp] at h2
        rw [← h1, ← h2]
        linarith)
  have hdim : g.dim = fwhm.vals.length + 1 := by
    unfold Grid.dim
    rw [q3]
    simp
  have haxis : ∀ (i : ℕ) (w s : ℝ), ws[i]? = some w → sides[i]? = some s →
      ∃ n, AxisIs g i n w 0 ∧ s - w / 20 ≤ n * w ∧ n * w < s + 19 / 20 * w := by
    intro i w s hwi hsi
    have hi : i < fwhm.vals.length := by rw [← hp]; exact (List.getElem?_eq_some_iff.1 hwi).1
    refine q10 i s w 0 ?_ ?_ ?_
    · rw [List.getElem?_append_left (by omega)]; exact hsi
    · rw [List.getElem?_append_left (by omega)]; exact hwi
    · rw [List.getElem?_append_left (by simpa using hi), List.getElem?_replicate, if_pos hi]
  obtain ⟨n, hn, hn1, hn2⟩ := q10 fwhm.vals.length (mx - mn + |s1 - s0|) |s1 - s0| ((mx - mn) / 2 + mn)
    (by rw [List.getElem?_append_right (by omega)]; simp [hs])
    (by rw [List.getElem?_append_right (by omega)]; simp [hp])
    (by rw [List.getElem?_append_right (by simp)]; simp)
  have hlen : g.nPix.length = fwhm.vals.length + 1 := by rw [q2.nPix, hdim]
  have htake : g.nPix = g.nPix.take fwhm.vals.length ++ [n] := by
    have h1 := List.take_append_drop fwhm.vals.length g.nPix
    have h2 : g.nPix.drop fwhm.vals.length = [n] := by
      apply List.ext_getElem?
      intro i
      rw [List.getElem?_drop]
      rcases i with _ | i
      · simpa using hn.nPix
      · rw [List.getElem?_eq_none (by omega)]
        simp
    rw [h2] at h1
    exact h1.symm
  have hnsl : (g.nPix.take fwhm.vals.length).length = fwhm.vals.length := by
    rw [List.length_take]; omega
  refine ⟨g, g.nPix.take fwhm.vals.length, n, ⟨htake, by rw [hnsl, hp], q5, ?_, ?_⟩, ?_, hn1, hn2, ?_⟩
  · intro i w s hwi hsi
    obtain ⟨k, h1, h2⟩ := haxis i w s hwi hsi
    have hi : i < fwhm.vals.length := by rw [← hp]; exact (List.getElem?_eq_some_iff.1 hwi).1
    obtain ⟨n', w', c', h3, -, h4⟩ := q2.axis i (by omega)
    have : n' = k := by
      have := h4.nPix
      rw [h1.nPix] at this
      simpa using this.symm
    subst this
    refine ⟨n', h3, ?_, h1.axes, h1.centers, h2⟩
    rw [List.getElem?_take, if_pos hi]
    exact h1.nPix
  · rw [hnsl]; exact hn.centers
  · rw [q2.axes, hdim]
  · unfold spectralPsf
    rw [if_neg (by rcases hnorm with rfl | rfl <;> simp)]
    simp only [max_of _ mx hmx (fun s h => (hall s h).2), min_of _ mn hmn (fun s h => (hall s h).1), hS, hP]
    rw [hspec]
    simp only [q1]

/-- **C102**: the spatial axes are around zero with the pixel sizes asked for; channel `k` of each cell has the
value of the Gaussian profile with the width at `spec_axis[k]`, divided by the sum over the cells of the channel
if the norm is `area`. -/
theorem C102_cells (spec : NArr ℝ) (spec0 : ℝ) (fwhm pix : NArr ℝ) (side : Option (NArr ℝ))
    (au : Option (List (Option String))) (norm : String) (e : ℝ) (hnorm : norm = "area" ∨ norm = "peak")
    (hspec : Channels spec.vals) (hpos : ∀ s ∈ spec.vals, 0 < s) (h0 : 0 < spec0) (m : ℝ)
    (hm : m ∈ spec.vals.map (fun s => spec0 / s)) (hm' : ∀ r ∈ spec.vals.map (fun s => spec0 / s), r ≤ m)
    (hf : ∀ f ∈ fwhm.vals, 0 < f)
    (hs : (specSide fwhm.vals m side).length = fwhm.vals.length)
    (hp : (lengths fwhm.vals.length pix.vals).length = fwhm.vals.length)
    (hw : ∀ w ∈ lengths fwhm.vals.length pix.vals, 0 < w)
    (hmin : ∀ (i : ℕ) (s w : ℝ), (specSide fwhm.vals m side)[i]? = some s →
      (lengths fwhm.vals.length pix.vals)[i]? = some w → (1 + 1 / 20) * w < s)
    (hau : ∀ l, au = some l → l.length = fwhm.vals.length + 1) :
    ∃ g t ns w c, spectralPsf spec spec0 fwhm pix side au norm e = .ok g ∧ g.grid = some t ∧
      Spectral g ns (lengths fwhm.vals.length pix.vals) (specSide fwhm.vals m side) spec.vals.length w c ∧
      (∀ s0 s1, spec.vals[0]? = some s0 → spec.vals[1]? = some s1 → w = |s1 - s0|) ∧
      (∀ mx mn, mx ∈ spec.vals → mn ∈ spec.vals → (∀ s ∈ spec.vals, mn ≤ s ∧ s ≤ mx) → c = (mn + mx) / 2) ∧
      g.axes[ns.length]? = some spec.vals ∧
      ∀ c k s, Valid ns c → spec.vals[k]? = some s → cell t (c ++ [k]) 0 =
        bells (widths fwhm.vals spec0 e s) (place ns (lengths fwhm.vals.length pix.vals) c) /
          (if norm = "area" then
            bellSum ns (lengths fwhm.vals.length pix.vals) (widths fwhm.vals spec0 e s) else 1) := by
  obtain ⟨s0, s1, rest, mx, mn, hsp, h01, hmx, hmn, hall, hptp⟩ := hspec
  obtain ⟨g, ns, n, hS, hax, hn1, hn2, hcall⟩ := spec_grid spec spec0 fwhm pix side au norm e hnorm s0 s1 mx mn m
    rest hsp h01 hmx hmn hall hm hm' hs hp hw hmin hau
  have hp0 : 0 < |s1 - s0| := abs_pos.2 (sub_ne_zero.2 (Ne.symm h01))
  have hn : n = spec.vals.length := by
    rw [hptp] at hn1 hn2
    have c1 : (n : ℝ) < spec.vals.length + 1 := by
      have : (n : ℝ) * |s1 - s0| < (spec.vals.length + 1) * |s1 - s0| := by nlinarith
      exact lt_of_mul_lt_mul_right this hp0.le
    have c2 : (spec.vals.length : ℝ) < n + 1 := by
      have : (spec.vals.length : ℝ) * |s1 - s0| < (n + 1) * |s1 - s0| := by nlinarith
      exact lt_of_mul_lt_mul_right this hp0.le
    have c1' : n < spec.vals.length + 1 := by exact_mod_cast c1
    have c2' : spec.vals.length < n + 1 := by exact_mod_cast c2
    omega
  obtain ⟨ws, hws⟩ : ∃ ws, ws = lengths fwhm.vals.length pix.vals := ⟨_, rfl⟩
  obtain ⟨sides, hsides⟩ : ∃ s, s = specSide fwhm.vals m side := ⟨_, rfl⟩
  rw [← hws, ← hsides] at hS
  rw [← hws] at hp hw
  rw [← hws, ← hsides]
  rw [← hsides] at hs
  have hl : ns.length = fwhm.vals.length := by rw [hS.length, hp]
  have hnd : g.nPix[fwhm.vals.length]? = some spec.vals.length := by
    rw [hS.nPix, List.getElem?_append_right (by omega), hl, hn]
    simp
  rw [if_neg (by simp [hnd])] at hcall
  -- the centres of the spatial axes
  have hcen : ∃ more, g.centers = List.zipWith (fun (n : ℕ) w => middles n w (0 : ℝ)) ns ws ++ more := by
    refine ⟨g.centers.drop ns.length, ?_⟩
    have h1 : g.centers.take ns.length = List.zipWith (fun (n : ℕ) w => middles n w (0 : ℝ)) ns ws := by
      apply List.ext_getElem?
      intro i
      rw [List.getElem?_take]
      by_cases hi : i < ns.length
      · rw [if_pos hi]
        have hiw : i < ws.length := by rw [← hS.length]; exact hi
        obtain ⟨k, -, h2, -, h3, -⟩ := hS.axis i ws[i] (sides[i]'(by omega)) (List.getElem?_eq_getElem hiw)
          (List.getElem?_eq_getElem (by omega))
        rw [h3, List.getElem?_zipWith, h2, List.getElem?_eq_getElem hiw]
      · rw [if_neg hi, List.getElem?_eq_none (by simp; omega)]
    rw [← h1, List.take_append_drop]
  obtain ⟨more, hcen⟩ := hcen
  have hraw : ∀ c k s, Valid ns c → spec.vals[k]? = some s →
      (specArr g.nPix g.centers fwhm.vals spec.vals spec0 e).get (c ++ [k, 0]) =
        bells (widths fwhm.vals spec0 e s) (place ns ws c) := by
    intro c k s hv hk
    have hs0 := hpos s (List.mem_of_getElem? hk)
    have := product ((spec0 / s) ^ e) (Real.rpow_pos_of_pos (div_pos h0 hs0) _).ne' ns ws fwhm.vals more c [k, 0] hv
      hS.length.symm (by rw [hl]) (fun f hf' => (hf f hf').ne')
    rw [widths, ← this]
    unfold specArr
    have hcl : c.length = fwhm.vals.length := by rw [hv.length, hl]
    have hg1 : (c ++ [k, 0]).getD fwhm.vals.length 0 = k := by
      rw [List.getD_eq_getElem?_getD, List.getElem?_append_right (by omega), hcl]
      simp
    have hg2 : spec.vals.getD k 0 = s := by rw [List.getD_eq_getElem?_getD, hk]; rfl
    simp only [hg1, hg2, hcen]
  have hslice : ∀ k s, spec.vals[k]? = some s →
      sliceSum (specArr g.nPix g.centers fwhm.vals spec.vals spec0 e) fwhm.vals.length k =
        bellSum ns ws (widths fwhm.vals spec0 e s) := by
    intro k s hk
    unfold sliceSum bellSum
    have hsh : (specArr g.nPix g.centers fwhm.vals spec.vals spec0 e).shape.take fwhm.vals.length = ns := by
      have : (specArr g.nPix g.centers fwhm.vals spec.vals spec0 e).shape = g.nPix ++ [1] := rfl
      rw [this, hS.nPix, List.append_assoc, ← hl, List.take_left]
    rw [hsh, psfIndices_eq]
    congr 1
    apply List.map_congr_left
    intro c hc
    exact hraw c k s ((mem_allCells _ c).1 hc) hk
  refine ⟨_, _, ns, |s1 - s0|, (mx - mn) / 2 + mn, hcall, rfl, ?_, ?_, ?_, ?_, ?_⟩
  · refine ⟨by rw [← hn]; exact hS.nPix, hS.length, hS.nProps, ?_, by rw [← hn]; exact hS.channels⟩
    intro i w s h1 h2
    obtain ⟨k, h3, h4, h5, h6⟩ := hS.axis i w s h1 h2
    refine ⟨k, h3, h4, ?_, h6⟩
    have hi := (List.getElem?_eq_some_iff.1 h4).1
    show (g.axes.set fwhm.vals.length spec.vals)[i]? = _
    rw [List.getElem?_set_ne (by omega)]
    exact h5
  · intro a b ha hb
    rw [hsp] at ha hb
    simp at ha hb
    rw [ha, hb]
  · intro mx' mn' g1 g2 g3
    have e1 : mx' = mx := le_antisymm (hall _ g1).2 (g3 _ hmx).2
    have e2 : mn' = mn := le_antisymm (g3 _ hmn).1 (hall _ g2).1
    rw [e1, e2]; ring
  · show (g.axes.set fwhm.vals.length spec.vals)[ns.length]? = _
    rw [hl, List.getElem?_set_self (by omega)]
  · intro c k s hv hk
    have hcl : c.length = fwhm.vals.length := by rw [hv.length, hl]
    have hg1 : (c ++ [k, 0]).getD fwhm.vals.length 0 = k := by
      rw [List.getD_eq_getElem?_getD, List.getElem?_append_right (by omega), hcl]
      simp
    unfold cell
    rw [List.append_assoc, List.singleton_append]
    split
    · simp only [hg1]
      rw [hraw c k s hv hk, hslice k s hk]
    · rw [hraw c k s hv hk, div_one]

/-- **C102**: with norm `area` the cells of each channel add up to one. -/
theorem C102_slices (spec : NArr ℝ) (spec0 : ℝ) (fwhm pix : NArr ℝ) (side : Option (NArr ℝ))
    (au : Option (List (Option String))) (e : ℝ)
    (hspec : Channels spec.vals) (hpos : ∀ s ∈ spec.vals, 0 < s) (h0 : 0 < spec0) (m : ℝ)
    (hm : m ∈ spec.vals.map (fun s => spec0 / s)) (hm' : ∀ r ∈ spec.vals.map (fun s => spec0 / s), r ≤ m)
    (hf : ∀ f ∈ fwhm.vals, 0 < f)
    (hs : (specSide fwhm.vals m side).length = fwhm.vals.length)
    (hp : (lengths fwhm.vals.length pix.vals).length = fwhm.vals.length)
    (hw : ∀ w ∈ lengths fwhm.vals.length pix.vals, 0 < w)
    (hmin : ∀ (i : ℕ) (s w : ℝ), (specSide fwhm.vals m side)[i]? = some s →
      (lengths fwhm.vals.length pix.vals)[i]? = some w → (1 + 1 / 20) * w < s)
    (hau : ∀ l, au = some l → l.length = fwhm.vals.length + 1) :
    ∃ g t ns, spectralPsf spec spec0 fwhm pix side au "area" e = .ok g ∧ g.grid = some t ∧
      g.nPix = ns ++ [spec.vals.length] ∧
      ∀ k < spec.vals.length, ((allCells ns).map (fun c => cell t (c ++ [k]) 0)).sum = 1 := by
  obtain ⟨g, t, ns, w, c, h1, h2, h3, -, -, -, h4⟩ := C102_cells spec spec0 fwhm pix side au "area" e (Or.inl rfl)
    hspec hpos h0 m hm hm' hf hs hp hw hmin hau
  refine ⟨g, t, ns, h1, h2, h3.nPix, ?_⟩
  intro k hk
  have hk' := List.getElem?_eq_getElem hk
  have e1 : (allCells ns).map (fun c => cell t (c ++ [k]) 0) = (allCells ns).map (fun c =>
      bells (widths fwhm.vals spec0 e spec.vals[k]) (place ns (lengths fwhm.vals.length pix.vals) c) /
        bellSum ns (lengths fwhm.vals.length pix.vals) (widths fwhm.vals spec0 e spec.vals[k])) := by
    apply List.map_congr_left
    intro c hc
    rw [h4 c k _ ((mem_allCells _ c).1 hc) hk', if_pos rfl]
  rw [e1, sum_div_list]
  apply div_self
  apply ne_of_gt
  apply bellSum_pos
  intro q hq
  obtain ⟨i, hi⟩ := List.getElem?_of_mem hq
  have hi' := (List.getElem?_eq_some_iff.1 hi).1
  have hl := h3.length
  obtain ⟨k', g1, g2, -⟩ := h3.axis i ((lengths fwhm.vals.length pix.vals)[i]'(by omega))
    ((specSide fwhm.vals m side)[i]'(by omega)) (List.getElem?_eq_getElem _) (List.getElem?_eq_getElem _)
  rw [hi] at g2
  simp only [Option.some.injEq] at g2
  omega

/-- Equally spaced channels are channels. -/
theorem even_channels (n : ℕ) (a w : ℝ) (hn : 2 ≤ n) (hw : w ≠ 0) : Channels (even n a w) := by
  have hlen : (even n a w).length = n := by simp [even]
  have hmem : ∀ s, s ∈ even n a w ↔ ∃ k : ℕ, k < n ∧ a + (k : ℝ) * w = s := by
    intro s; simp [even]
  have hcons : even n a w = a :: (a + w) :: (even n a w).drop 2 := by
    apply List.ext_getElem?
    intro i
    rcases i with _ | _ | i
    · simp [even, show 0 < n by omega]
    · simp [even, show 1 < n by omega]
    · rw [List.getElem?_cons_succ, List.getElem?_cons_succ, List.getElem?_drop]
      congr 1
      omega
  have hn' : (2 : ℝ) ≤ n := by exact_mod_cast hn
  rcases lt_or_gt_of_ne hw with h | h
  · refine ⟨a, a + w, _, a, a + ((n - 1 : ℕ) : ℝ) * w, hcons, by simpa using hw, ?_, ?_, ?_, ?_⟩
    · exact (hmem _).2 ⟨0, by omega, by simp⟩
    · exact (hmem _).2 ⟨n - 1, by omega, rfl⟩
    · intro s hs
      obtain ⟨k, hk, rfl⟩ := (hmem s).1 hs
      have : (k : ℝ) ≤ ((n - 1 : ℕ) : ℝ) := by exact_mod_cast (by omega : k ≤ n - 1)
      have h0 : (0 : ℝ) ≤ k := Nat.cast_nonneg k
      constructor <;> nlinarith
    · rw [hlen, Nat.cast_sub (by omega), add_sub_cancel_left, abs_of_neg h]
      push_cast
      ring
  · refine ⟨a, a + w, _, a + ((n - 1 : ℕ) : ℝ) * w, a, hcons, by simpa using hw, ?_, ?_, ?_, ?_⟩
    · exact (hmem _).2 ⟨n - 1, by omega, rfl⟩
    · exact (hmem _).2 ⟨0, by omega, by simp⟩
    · intro s hs
      obtain ⟨k, hk, rfl⟩ := (hmem s).1 hs
      have : (k : ℝ) ≤ ((n - 1 : ℕ) : ℝ) := by exact_mod_cast (by omega : k ≤ n - 1)
      have h0 : (0 : ℝ) ≤ k := Nat.cast_nonneg k
      constructor <;> nlinarith
    · rw [hlen, Nat.cast_sub (by omega), show a + w - a = w by ring, abs_of_pos h]
      push_cast
      ring

/-- The middle of equally spaced channels. -/
theorem even_middle (n : ℕ) (a w mx mn : ℝ) (hn : 2 ≤ n) (hmx : mx ∈ even n a w) (hmn : mn ∈ even n a w)
    (hall : ∀ s ∈ even n a w, mn ≤ s ∧ s ≤ mx) : (mn + mx) / 2 = a + ((n : ℝ) - 1) / 2 * w := by
  have hmem : ∀ s, s ∈ even n a w ↔ ∃ k : ℕ, k < n ∧ a + (k : ℝ) * w = s := by
    intro s; simp [even]
  have g1 := hall a ((hmem _).2 ⟨0, by omega, by simp⟩)
  have g2 := hall (a + ((n - 1 : ℕ) : ℝ) * w) ((hmem _).2 ⟨n - 1, by omega, rfl⟩)
  obtain ⟨i, hi, rfl⟩ := (hmem _).1 hmx
  obtain ⟨j, hj, rfl⟩ := (hmem _).1 hmn
  have e1 : ((n - 1 : ℕ) : ℝ) = n - 1 := by rw [Nat.cast_sub (by omega)]; simp
  rw [e1] at g2
  have h1 : (i : ℝ) ≤ n - 1 := by rw [← e1]; exact_mod_cast (by omega : i ≤ n - 1)
  have h2 : (j : ℝ) ≤ n - 1 := by rw [← e1]; exact_mod_cast (by omega : j ≤ n - 1)
  have h3 : (0 : ℝ) ≤ i := Nat.cast_nonneg i
  have h4 : (0 : ℝ) ≤ j := Nat.cast_nonneg j
  rcases le_total 0 w with h | h
  · nlinarith [mul_le_mul_of_nonneg_right h1 h, mul_nonneg h4 h]
  · nlinarith [mul_le_mul_of_nonpos_right h1 h, mul_le_mul_of_nonpos_right h2 h,
      mul_nonpos_of_nonneg_of_nonpos h4 h, mul_nonpos_of_nonneg_of_nonpos h3 h]

/-- What the channels of the grid are called: with ascending channels the centre of channel `k` is
`spec_axis[k]`; with descending ones it is the frequency counted from the other end. -/
theorem channel_labels (n : ℕ) (a w c : ℝ) (hc : c = a + ((n : ℝ) - 1) / 2 * w) :
    (0 < w → middles n |w| c = even n a w) ∧ (w < 0 → middles n |w| c = (even n a w).reverse) := by
  constructor
  · intro h
    unfold middles even
    apply List.map_congr_left
    intro k _
    rw [abs_of_pos h, hc]
    ring
  · intro h
    apply List.ext_getElem
    · simp [middles, even]
    · intro k h1 h2
      simp [middles] at h1
      simp only [middles, even, List.getElem_map, List.getElem_range, List.getElem_reverse, List.length_map,
        List.length_range]
      rw [abs_of_neg h, hc, Nat.cast_sub (by omega), Nat.cast_sub (by omega)]
      push_cast
      ring

/-- **C102**: with ascending, equally spaced channels each cell has the profile of the width that belongs to
the frequency its channel is labelled with. -/
theorem C102_labelled_partial (n : ℕ) (a δ : ℝ) (isInt : Bool) (spec0 : ℝ) (fwhm pix : NArr ℝ)
    (side : Option (NArr ℝ))
    (au : Option (List (Option String))) (norm : String) (e : ℝ) (hnorm : norm = "area" ∨ norm = "peak")
    (hn : 2 ≤ n) (hδ : 0 < δ) (ha : 0 < a) (h0 : 0 < spec0)
    (hf : ∀ f ∈ fwhm.vals, 0 < f)
    (hs : (specSide fwhm.vals (spec0 / a) side).length = fwhm.vals.length)
    (hp : (lengths fwhm.vals.length pix.vals).length = fwhm.vals.length)
    (hw : ∀ w ∈ lengths fwhm.vals.length pix.vals, 0 < w)
    (hmin : ∀ (i : ℕ) (s w : ℝ), (specSide fwhm.vals (spec0 / a) side)[i]? = some s →
      (lengths fwhm.vals.length pix.vals)[i]? = some w → (1 + 1 / 20) * w < s)
    (hau : ∀ l, au = some l → l.length = fwhm.vals.length + 1) :
    ∃ g t ns labels, spectralPsf ⟨isInt, even n a δ⟩ spec0 fwhm pix side au norm e = .ok g ∧ g.grid = some t ∧
      g.nPix = ns ++ [n] ∧ g.centers[ns.length]? = some labels ∧ labels = even n a δ ∧
      ∀ c k s, Valid ns c → labels[k]? = some s → cell t (c ++ [k]) 0 =
        bells (widths fwhm.vals spec0 e s) (place ns (lengths fwhm.vals.length pix.vals) c) /
          (if norm = "area" then
            bellSum ns (lengths fwhm.vals.length pix.vals) (widths fwhm.vals spec0 e s) else 1) := by
  have hmem : ∀ s, s ∈ even n a δ ↔ ∃ k : ℕ, k < n ∧ a + (k : ℝ) * δ = s := by
    intro s; simp [even]
  have hge : ∀ s ∈ even n a δ, a ≤ s := by
    intro s hs
    obtain ⟨k, -, rfl⟩ := (hmem s).1 hs
    have : (0 : ℝ) ≤ k := Nat.cast_nonneg k
    nlinarith
  obtain ⟨g, t, ns, w, c, h1, h2, h3, h4, h5, -, h6⟩ := C102_cells ⟨isInt, even n a δ⟩ spec0 fwhm pix side au norm e
    hnorm (even_channels n a δ hn hδ.ne') (fun s hs => lt_of_lt_of_le ha (hge s hs)) h0 (spec0 / a)
    (List.mem_map.2 ⟨a, (hmem _).2 ⟨0, by omega, by simp⟩, rfl⟩)
    (by
      intro r hr
      obtain ⟨s, hs, rfl⟩ := List.mem_map.1 hr
      exact div_le_div_of_nonneg_left h0.le ha (hge s hs)) hf hs hp hw hmin hau
  have hlen : (even n a δ).length = n := by simp [even]
  have hw' : w = |δ| := by
    have := h4 a (a + δ) (by simp [even, show 0 < n by omega]) (by simp [even, show 1 < n by omega])
    rw [this, add_sub_cancel_left]
  have hc' : c = a + ((n : ℝ) - 1) / 2 * δ := by
    obtain ⟨s0, s1, rest, mx, mn, -, -, g1, g2, g3, -⟩ := even_channels n a δ hn hδ.ne'
    rw [h5 mx mn g1 g2 g3, even_middle n a δ mx mn hn g1 g2 g3]
  have hlab := h3.channels
  simp only [hlen] at hlab
  rw [hw', (channel_labels n a δ c hc').1 hδ] at hlab
  refine ⟨g, t, ns, _, h1, h2, ?_, hlab, rfl, h6⟩
  have := h3.nPix
  simpa only [hlen] using this

/-- A narrower profile is lower outside the middle. -/
theorem bell_narrow (f f' x : ℝ) (hf : 0 < f) (h : f < f') (hx : x ≠ 0) : bell f x < bell f' x := by
  unfold bell
  apply Real.rpow_lt_rpow_of_exponent_gt (by norm_num) (by norm_num)
  have h1 : 0 < x ^ 2 := by positivity
  rw [div_pow, div_pow]
  apply div_lt_div_of_pos_left (by positivity) (by positivity)
  exact pow_lt_pow_left₀ h hf.le (by norm_num)

theorem bells_narrow (r r' : ℝ) (hr : 0 < r) (h : r < r') : ∀ (fs xs : List ℝ), (∀ f ∈ fs, 0 < f) →
    xs.length = fs.length → (∀ x ∈ xs, x ≠ 0) → fs ≠ [] →
    bells (fs.map (fun f => f * r)) xs < bells (fs.map (fun f => f * r')) xs
  | f :: fs, x :: xs, h1, h2, h3, _ => by
    have hb : bell (f * r) x < bell (f * r') x := by
      have hf := h1 f (by simp)
      exact bell_narrow _ _ x (mul_pos hf hr) (mul_lt_mul_of_pos_left h hf) (h3 x (by simp))
    have hrec : bells (fs.map (fun f => f * r)) xs ≤ bells (fs.map (fun f => f * r')) xs := by
      by_cases hne : fs = []
      · subst hne; simp [bells]
      · exact (bells_narrow r r' hr h fs xs (fun f hf => h1 f (by simp [hf])) (by simpa using h2)
          (fun x hx => h3 x (by simp [hx])) hne).le
    have e : ∀ q : ℝ, bells ((f :: fs).map (fun f => f * q)) (x :: xs) =
        bell (f * q) x * bells (fs.map (fun f => f * q)) xs := by
      intro q; simp [bells]
    rw [e, e]
    exact mul_lt_mul hb hrec (bells_pos _ _) (bell_pos _ _).le
  | [], _, _, _, _, h => absurd rfl h
  | _ :: _, [], _, h, _, _ => by simp at h

theorem place_zero : ∀ (ns : List ℕ) (ws : List ℝ), ws.length = ns.length → (∀ n ∈ ns, 2 ≤ n) → (∀ w ∈ ws, 0 < w) →
    (place ns ws (ns.map (fun _ => 0))).length = ns.length ∧ ∀ x ∈ place ns ws (ns.map (fun _ => 0)), x ≠ 0
  | [], [], _, _, _ => by simp [place]
  | n :: ns, w :: ws, h, h2, hw => by
    obtain ⟨r1, r2⟩ := place_zero ns ws (by simpa using h) (fun n hn => h2 n (by simp [hn]))
      (fun w hw' => hw w (by simp [hw']))
    simp only [List.map_cons, place]
    refine ⟨by rw [List.length_cons, r1, List.length_cons], ?_⟩
    intro x hx
    rcases List.mem_cons.1 hx with rfl | hx
    · have hn : (2 : ℝ) ≤ n := by exact_mod_cast h2 n (by simp)
      have hw' := hw w (by simp)
      unfold middle
      apply mul_ne_zero _ hw'.ne'
      push_cast
      intro h
      linarith
    · exact r2 x hx

/-- **C102** is false for descending channels, whatever they are: the width of the first channel is the one
of the highest frequency, but the channel is labelled with the lowest; with norm `peak` the value in the corner
is less than that of the documented width. -/
theorem C102_descending_fails (n : ℕ) (a δ : ℝ) (isInt : Bool) (spec0 : ℝ) (fwhm pix : NArr ℝ)
    (side : Option (NArr ℝ)) (au : Option (List (Option String))) (e : ℝ) (he : 0 < e)
    (hn : 2 ≤ n) (hδ : 0 < δ) (ha : 0 < a - ((n : ℝ) - 1) * δ) (h0 : 0 < spec0)
    (hne : fwhm.vals ≠ []) (hf : ∀ f ∈ fwhm.vals, 0 < f)
    (hs : (specSide fwhm.vals (spec0 / (a - ((n : ℝ) - 1) * δ)) side).length = fwhm.vals.length)
    (hp : (lengths fwhm.vals.length pix.vals).length = fwhm.vals.length)
    (hw : ∀ w ∈ lengths fwhm.vals.length pix.vals, 0 < w)
    (hmin : ∀ (i : ℕ) (s w : ℝ), (specSide fwhm.vals (spec0 / (a - ((n : ℝ) - 1) * δ)) side)[i]? = some s →
      (lengths fwhm.vals.length pix.vals)[i]? = some w → (1 + 1 / 20) * w < s)
    (hau : ∀ l, au = some l → l.length = fwhm.vals.length + 1) :
    ∃ g t ns labels s, spectralPsf ⟨isInt, even n a (-δ)⟩ spec0 fwhm pix side au "peak" e = .ok g ∧
      g.grid = some t ∧ g.nPix = ns ++ [n] ∧ g.centers[ns.length]? = some labels ∧
      g.axes[ns.length]? = some labels.reverse ∧ labels = (even n a (-δ)).reverse ∧ labels[0]? = some s ∧
      Valid ns (ns.map (fun _ => 0)) ∧
      cell t (ns.map (fun _ => 0) ++ [0]) 0 <
        bells (widths fwhm.vals spec0 e s)
          (place ns (lengths fwhm.vals.length pix.vals) (ns.map (fun _ => 0))) := by
  have hmem : ∀ s, s ∈ even n a (-δ) ↔ ∃ k : ℕ, k < n ∧ a + (k : ℝ) * -δ = s := by
    intro s; simp [even]
  have e1 : ((n - 1 : ℕ) : ℝ) = n - 1 := by rw [Nat.cast_sub (by omega)]; simp
  have hge : ∀ s ∈ even n a (-δ), a - ((n : ℝ) - 1) * δ ≤ s := by
    intro s hs
    obtain ⟨k, hk, rfl⟩ := (hmem s).1 hs
    have : (k : ℝ) ≤ n - 1 := by rw [← e1]; exact_mod_cast (by omega : k ≤ n - 1)
    nlinarith
  obtain ⟨g, t, ns, w, c, h1, h2, h3, h4, h5, h7, h6⟩ := C102_cells ⟨isInt, even n a (-δ)⟩ spec0 fwhm pix side au
    "peak" e (Or.inr rfl) (even_channels n a (-δ) hn (by simpa using hδ.ne'))
    (fun s hs => lt_of_lt_of_le ha (hge s hs)) h0 (spec0 / (a - ((n : ℝ) - 1) * δ))
    (List.mem_map.2 ⟨_, (hmem _).2 ⟨n - 1, by omega, rfl⟩, by rw [e1]; congr 1; ring⟩)
    (by
      intro r hr
      obtain ⟨s, hs, rfl⟩ := List.mem_map.1 hr
      exact div_le_div_of_nonneg_left h0.le ha (hge s hs)) hf hs hp hw hmin hau
  have hlen : (even n a (-δ)).length = n := by simp [even]
  have hw' : w = |-δ| := by
    have := h4 a (a + -δ) (by simp [even, show 0 < n by omega]) (by simp [even, show 1 < n by omega])
    rw [this, add_sub_cancel_left]
  have hc' : c = a + ((n : ℝ) - 1) / 2 * -δ := by
    obtain ⟨s0, s1, rest, mx, mn, -, -, g1, g2, g3, -⟩ := even_channels n a (-δ) hn (by simpa using hδ.ne')
    rw [h5 mx mn g1 g2 g3, even_middle n a (-δ) mx mn hn g1 g2 g3]
  have hlab := h3.channels
  simp only [hlen] at hlab
  rw [hw', (channel_labels n a (-δ) c hc').2 (by linarith)] at hlab
  have h2' : ∀ m ∈ ns, 2 ≤ m := by
    intro q hq
    obtain ⟨i, hi⟩ := List.getElem?_of_mem hq
    have hi' := (List.getElem?_eq_some_iff.1 hi).1
    have hl := h3.length
    obtain ⟨k', g1, g2, -⟩ := h3.axis i ((lengths fwhm.vals.length pix.vals)[i]'(by omega))
      ((specSide fwhm.vals (spec0 / (a - ((n : ℝ) - 1) * δ)) side)[i]'(by omega)) (List.getElem?_eq_getElem _)
      (List.getElem?_eq_getElem _)
    rw [hi] at g2
    simp only [Option.some.injEq] at g2
    omega
  have hv := valid_zero ns (fun m hm => by have := h2' m hm; omega)
  refine ⟨g, t, ns, _, a - ((n : ℝ) - 1) * δ, h1, h2, by simpa only [hlen] using h3.nPix, hlab,
    by simpa using h7, rfl, ?_, hv, ?_⟩
  · rw [List.getElem?_reverse (by omega), hlen]
    simp only [even, List.getElem?_map]
    rw [List.getElem?_range (by omega)]
    simp only [Option.map_some, Option.some.injEq]
    rw [Nat.sub_zero, e1]
    ring
  · rw [h6 _ 0 a hv (by simp [even, show 0 < n by omega]), if_neg (by simp), div_one]
    obtain ⟨p1, p2⟩ := place_zero ns _ h3.length.symm h2' hw
    have hn' : (2 : ℝ) ≤ n := by exact_mod_cast hn
    apply bells_narrow _ _ (Real.rpow_pos_of_pos (div_pos h0 (by nlinarith)) _) _ _ _ hf _ p2 hne
    · apply Real.rpow_lt_rpow (div_pos h0 (by nlinarith)).le _ he
      exact div_lt_div_of_pos_left h0 ha (by nlinarith)
    · rw [p1, h3.length, hp]

/-- **C102**: the default side length is not the documented six widths, but at most one pixel more than three
of the largest widths (those for `exp = 1`). -/
theorem C102_side_fails (spec : NArr ℝ) (spec0 : ℝ) (fwhm pix : NArr ℝ)
    (au : Option (List (Option String))) (norm : String) (e : ℝ) (hnorm : norm = "area" ∨ norm = "peak")
    (hspec : Channels spec.vals) (hpos : ∀ s ∈ spec.vals, 0 < s) (h0 : 0 < spec0) (m : ℝ)
    (hm : m ∈ spec.vals.map (fun s => spec0 / s)) (hm' : ∀ r ∈ spec.vals.map (fun s => spec0 / s), r ≤ m)
    (hf : ∀ f ∈ fwhm.vals, 0 < f)
    (hp : (lengths fwhm.vals.length pix.vals).length = fwhm.vals.length)
    (hw : ∀ w ∈ lengths fwhm.vals.length pix.vals, 0 < w)
    (hmin : ∀ (i : ℕ) (f w : ℝ), fwhm.vals[i]? = some f →
      (lengths fwhm.vals.length pix.vals)[i]? = some w → (1 + 1 / 20) * w < 3 * f * m)
    (hau : ∀ l, au = some l → l.length = fwhm.vals.length + 1) :
    ∃ g, spectralPsf spec spec0 fwhm pix none au norm e = .ok g ∧
      ∀ (i : ℕ) (f w : ℝ), fwhm.vals[i]? = some f → (lengths fwhm.vals.length pix.vals)[i]? = some w →
        ∃ k : ℕ, g.nPix[i]? = some k ∧ (k : ℝ) * w < 3 * (f * m) + w := by
  obtain ⟨g, t, ns, w, c, h1, h2, h3, -⟩ := C102_cells spec spec0 fwhm pix none au norm e hnorm
    hspec hpos h0 m hm hm' hf (by simp [specSide]) hp hw (by
      intro i s w hs hw'
      simp only [specSide, List.getElem?_map, Option.map_eq_some_iff] at hs
      obtain ⟨f, hf', rfl⟩ := hs
      exact hmin i f w hf' hw') hau
  refine ⟨g, h1, ?_⟩
  intro i f w' hf' hw'
  obtain ⟨k, -, g1, -, -, -, g2⟩ := h3.axis i w' (3 * f * m) hw' (by simp [specSide, hf'])
  refine ⟨k, ?_, ?_⟩
  · rw [h3.nPix, List.getElem?_append_left (List.getElem?_eq_some_iff.1 g1).1]
    exact g1
  · have := hw w' (List.mem_of_getElem? hw')
    nlinarith

/-- **C102**: the result is never a regular grid: the spectral axis has one edge too few (they are the
centres). -/
theorem C102_edges_fail (spec : NArr ℝ) (spec0 : ℝ) (fwhm pix : NArr ℝ) (side : Option (NArr ℝ))
    (au : Option (List (Option String))) (norm : String) (e : ℝ) (g : Grid ℝ ℝ)
    (h : spectralPsf spec spec0 fwhm pix side au norm e = .ok g) : ¬ Regular g := by
  unfold spectralPsf at h
  split at h
  · simp at h
  simp only at h
  split at h
  · split at h
    · simp at h
    split at h
    · split at h
      · simp at h
      split at h
      · simp at h
      split at h
      · simp at h
      · rename_i g' hg hn
        simp only [ne_eq, not_not] at hn
        simp only [Except.ok.injEq] at h
        intro hr
        have hlt : fwhm.vals.length < g.dim := by
          rw [← hr.nPix, ← h]
          exact (List.getElem?_eq_some_iff.1 hn).1
        obtain ⟨n, w, c, -, -, hax⟩ := hr.axis _ hlt
        have h1 : n = spec.vals.length := by
          have := hax.nPix
          rw [← h] at this
          simp only [hn, Option.some.injEq] at this
          exact this.symm
        have h2 := hax.axes
        rw [← h] at h2
        simp only at h2
        have h3 : fwhm.vals.length < g'.axes.length := by
          have := hr.axes
          rw [← h] at this hlt
          simp only [List.length_set] at this
          omega
        rw [List.getElem?_set_self h3] at h2
        simp only [Option.some.injEq] at h2
        have := congrArg List.length h2
        rw [← h1] at this
        simp [edges] at this
    · simp at h
  · simp at h

/-- **C102**: one channel is always refused. -/
theorem C102_one_channel_fails (spec : NArr ℝ) (hspec : spec.vals.length < 2) (spec0 : ℝ) (fwhm pix : NArr ℝ)
    (side : Option (NArr ℝ)) (au : Option (List (Option String))) (norm : String) (e : ℝ) :
    ∃ err, spectralPsf spec spec0 fwhm pix side au norm e = .error err := by
  unfold spectralPsf
  split
  · exact ⟨_, rfl⟩
  simp only
  split
  · split
    · exact ⟨_, rfl⟩
    split
    · rename_i heq
      rw [heq] at hspec
      simp at hspec
    · exact ⟨_, rfl⟩
  · exact ⟨_, rfl⟩

/-- **C102**: frequencies of another extent than that of equally spaced channels (by more than a twentieth
of the first step) are refused. -/
theorem C102_uneven_refused (spec : NArr ℝ) (spec0 : ℝ) (fwhm pix : NArr ℝ) (side : Option (NArr ℝ))
    (au : Option (List (Option String))) (norm : String) (e : ℝ) (hnorm : norm = "area" ∨ norm = "peak")
    (s0 s1 mx mn m : ℝ) (rest : List ℝ) (hspec : spec.vals = s0 :: s1 :: rest) (h01 : s0 ≠ s1)
    (hmx : mx ∈ spec.vals) (hmn : mn ∈ spec.vals) (hall : ∀ s ∈ spec.vals, mn ≤ s ∧ s ≤ mx)
    (hm : m ∈ spec.vals.map (fun s => spec0 / s)) (hm' : ∀ r ∈ spec.vals.map (fun s => spec0 / s), r ≤ m)
    (hs : (specSide fwhm.vals m side).length = fwhm.vals.length)
    (hp : (lengths fwhm.vals.length pix.vals).length = fwhm.vals.length)
    (hw : ∀ w ∈ lengths fwhm.vals.length pix.vals, 0 < w)
    (hmin : ∀ (i : ℕ) (s w : ℝ), (specSide fwhm.vals m side)[i]? = some s →
      (lengths fwhm.vals.length pix.vals)[i]? = some w → (1 + 1 / 20) * w < s)
    (hau : ∀ l, au = some l → l.length = fwhm.vals.length + 1)
    (hunev : mx - mn > ((spec.vals.length : ℝ) - 1) * |s1 - s0| + |s1 - s0| / 20 ∨
      mx - mn ≤ ((spec.vals.length : ℝ) - 1) * |s1 - s0| - 19 / 20 * |s1 - s0|) :
    spectralPsf spec spec0 fwhm pix side au norm e = .error .valueError := by
  obtain ⟨g, ns, n, hS, hax, hn1, hn2, hcall⟩ := spec_grid spec spec0 fwhm pix side au norm e hnorm s0 s1 mx mn m
    rest hspec h01 hmx hmn hall hm hm' hs hp hw hmin hau
  rw [hcall, if_pos]
  have hl : ns.length = fwhm.vals.length := by rw [hS.length, hp]
  rw [hS.nPix, List.getElem?_append_right (by omega), hl]
  simp only [Nat.sub_self, List.getElem?_cons_zero, ne_eq, Option.some.injEq]
  intro hn
  rw [hn] at hn1 hn2
  rcases hunev with h | h <;> nlinarith

/-- **C102**: uneven frequencies of the right extent are accepted: then the channels are not where they are
labelled. -/
theorem C102_uneven_accepted : ∃ g labels, spectralPsf ⟨false, [1, 2, 5 / 2, 4]⟩ 1 ⟨false, [1]⟩ ⟨false, [1 / 4]⟩ = .ok g ∧
    g.centers[1]? = some labels ∧ labels = [1, 2, 3, 4] ∧ g.axes[1]? = some [1, 2, 5 / 2, 4] := by
  obtain ⟨g, t, ns, w, c, h1, h2, h3, h4, h5, h7, -⟩ := C102_cells ⟨false, [1, 2, 5 / 2, 4]⟩ 1 ⟨false, [1]⟩
    ⟨false, [1 / 4]⟩ none none "area" 1 (Or.inl rfl)
    ⟨1, 2, [5 / 2, 4], 4, 1, rfl, by norm_num, by simp, by simp, by
      intro s hs; simp at hs; rcases hs with rfl | rfl | rfl | rfl <;> norm_num, by norm_num⟩
    (by intro s hs; simp at hs; rcases hs with rfl | rfl | rfl | rfl <;> norm_num) one_pos 1 (by simp) (by
      intro s hs; simp at hs; rcases hs with rfl | rfl | rfl | rfl <;> norm_num) (by simp) (by simp [specSide])
    (by simp [lengths]) (by simp [lengths]) (by
      intro i s w hs hw
      rcases i with _ | i
      · simp [specSide] at hs
        simp [lengths] at hw
        rw [← hs, ← hw]
        norm_num
      · simp [specSide] at hs) (by simp)
  have hl : ns.length = 1 := by rw [h3.length]; simp [lengths]
  have hw : w = 1 := by rw [h4 1 2 rfl rfl]; norm_num
  have hc : c = 5 / 2 := by
    rw [h5 4 1 (by simp) (by simp) (by
      intro s hs; simp at hs; rcases hs with rfl | rfl | rfl | rfl <;> norm_num)]
    norm_num
  have h8 := h3.channels
  rw [hl] at h7 h8
  refine ⟨g, _, h1, h8, ?_, h7⟩
  rw [hw, hc]
  have : ([1, 2, 5 / 2, 4] : List ℝ).length = 4 := rfl
  rw [this]
  unfold middles
  rw [show List.range 4 = [0, 1, 2, 3] from rfl]
  simp only [List.map_cons, List.map_nil]
  norm_num

/-- **C102** as documented: each channel has the width that belongs to its label, and the default side is six
times the width at the reference frequency or more. -/
def C102_full : Prop :=
  ∀ (n : ℕ) (a δ spec0 f w : ℝ), 2 ≤ n → δ ≠ 0 → (∀ s ∈ even n a δ, 0 < s) → 0 < spec0 → 0 < f → 0 < w → w < f →
    ∀ g t ns labels, spectralPsf ⟨false, even n a δ⟩ spec0 ⟨false, [f]⟩ ⟨false, [w]⟩ none none "peak" 1 = .ok g →
      g.grid = some t → g.nPix = ns ++ [n] → g.centers[ns.length]? = some labels →
      ∀ c k s, Valid ns c → labels[k]? = some s →
        cell t (c ++ [k]) 0 = bells (widths [f] spec0 1 s) (place ns [w] c)

theorem C102_full_false : ¬ C102_full := by
  intro h
  obtain ⟨g, t, ns, labels, s, h1, h2, h3, h4, -, -, h5, h6, h7⟩ := C102_descending_fails 2 2 1 false 1 ⟨false, [1]⟩
    ⟨false, [1 / 4]⟩ none none 1 one_pos le_rfl one_pos (by norm_num) one_pos (by simp) (by simp)
    (by simp [specSide])
    (by simp [lengths]) (by simp [lengths]) (by
      intro i s w hs hw
      rcases i with _ | i
      · simp [specSide] at hs
        simp [lengths] at hw
        rw [← hs, ← hw]
        norm_num
      · simp [specSide] at hs) (by simp)
  have := h 2 2 (-1) 1 1 (1 / 4) le_rfl (by norm_num) (by
    intro s hs
    simp [even] at hs
    obtain ⟨k, hk, rfl⟩ := hs
    have : (k : ℝ) ≤ 1 := by exact_mod_cast (by omega : k ≤ 1)
    linarith) one_pos one_pos (by norm_num) (by norm_num) g t ns labels h1 h2 h3 h4 _ 0 s h6 h5
  rw [this] at h7
  simp [lengths] at h7

/-- The hypotheses of `C102_cells` and `C102_labelled_partial` can be met. -/
example : ∃ g t ns labels, spectralPsf ⟨false, even 3 1 (1 / 2)⟩ 1 ⟨false, [1, 2]⟩ ⟨false, [1 / 4]⟩ = .ok g ∧ g.grid = some t ∧
      g.nPix = ns ++ [3] ∧ g.centers[ns.length]? = some labels ∧ labels = even 3 1 (1 / 2) := by
  obtain ⟨g, t, ns, labels, h1, h2, h3, h4, h5, -⟩ := C102_labelled_partial 3 1 (1 / 2) false 1 ⟨false, [1, 2]⟩
    ⟨false, [1 / 4]⟩ none none "area" 1 (Or.inl rfl) (by norm_num) (by norm_num) one_pos one_pos (by simp)
    (by simp [specSide]) (by simp [lengths]) (by simp [lengths]) (by
      intro i s w hs hw
      rcases i with _ | _ | i
      · simp [specSide] at hs
        simp [lengths] at hw
        rw [← hs, ← hw]
        norm_num
      · simp [specSide] at hs
        simp [lengths] at hw
        rw [← hs, ← hw]
        norm_num
      · simp [specSide] at hs) (by simp)
  exact ⟨g, t, ns, labels, h1, h2, h3, h4, h5⟩

end Verif.Map
