import Verif.Model.GridStd
import Verif.Props.GridSphere
import Verif.Props.GridConv
import Mathlib.Algebra.QuadraticAlgebra.Defs
import Mathlib.Analysis.SpecialFunctions.Log.Base
import Mathlib.Tactic.Ring
import Mathlib.Tactic.FieldSimp
import Mathlib.Tactic.Positivity

/-!
# C116: standard deviations and logarithmic shells
-/

set_option linter.unusedSectionVars false

namespace Verif.Map

open Verif.Sim (Err)
open Spec

variable {K V : Type}

section
variable [Field K] [LinearOrder K] [IsStrictOrderedRing K] [FloorRing K] [CommRing V] [Algebra K V]

theorem given_edges (radii : List K) (s : List K) (hs : s.Pairwise (· < ·)) (h0 : s ≠ []) :
    shellEdges radii (.given s) = .ok s := by
  unfold shellEdges
  simp only
  rw [if_neg, if_neg (by simpa using h0)]
  rintro ⟨⟨u, v⟩, hp, hle⟩
  obtain ⟨i, hi⟩ := List.mem_iff_getElem?.1 hp
  rw [List.getElem?_zip_eq_some] at hi
  obtain ⟨a1, a2⟩ := hi
  rw [List.getElem?_tail] at a2
  obtain ⟨l1, e1⟩ := List.getElem?_eq_some_iff.1 a1
  obtain ⟨l2, e2⟩ := List.getElem?_eq_some_iff.1 a2
  have := List.pairwise_iff_getElem.1 hs i (i + 1) l1 l2 (by omega)
  rw [e1, e2] at this
  simp only at hle this
  linarith

/-- What a call returns. -/
theorem full_ok (g : Grid K V) (log10 p10 root : K → K) (rootV : V → Option V) (drop : V → V)
    (axes : Option (List ℕ)) (center : Option (List K)) (mode : BinMode) (sh : Shells K) (w : Option (Arr K)) (biased : Bool)
    (r : Average K V) (sd : Arr (Option V))
    (h : g.sphereFull log10 p10 root rootV drop axes center mode sh w biased = .ok (r, sd)) :
    ∃ a pl, g.grid = some a ∧ g.spherePlan log10 p10 root axes center mode sh w = .ok (a, pl) ∧
      r = sphereSums g a pl.ax (if pl.complex then id else drop) pl.wt pl.shells pl.others pl.bin ∧
      sd = sphereStd g a rootV (if pl.complex then id else drop) biased pl r.avg := by
  unfold Grid.sphereFull at h
  rcases hp : g.spherePlan log10 p10 root axes center mode sh w with e | ⟨a, pl⟩
  · rw [hp] at h; cases h
  rw [hp] at h
  simp only [Except.ok.injEq, Prod.mk.injEq] at h
  obtain ⟨rfl, rfl⟩ := h
  refine ⟨a, pl, ?_, rfl, rfl, rfl⟩
  unfold Grid.spherePlan at hp
  rcases hg : g.grid with _ | a'
  · rw [hg] at hp; cases hp
  rw [hg] at hp
  simp only at hp
  split at hp
  · cases hp
  split at hp
  · cases hp
  split at hp
  · cases hp
  split at hp
  · cases hp
  split at hp
  · cases hp
  simp only [Except.ok.injEq, Prod.mk.injEq] at hp
  rw [hp.1]

/-- The averages and numbers of cells are those of the model of `C26`. -/
theorem full_average (g : Grid K V) (log10 p10 root : K → K) (rootV : V → Option V) (drop : V → V)
    (axes : Option (List ℕ)) (center : Option (List K)) (mode : BinMode) (sh : Shells K) (w : Option (Arr K)) (biased : Bool)
    (r : Average K V) (sd : Arr (Option V))
    (h : g.sphereFull log10 p10 root rootV drop axes center mode sh w biased = .ok (r, sd))
    (hs : r.shells.Pairwise (· < ·)) (h0 : r.shells ≠ []) :
    g.sphericalAverage root drop axes center (.given r.shells) w = .ok r := by
  obtain ⟨a, pl, ha, hp, hr, -⟩ := full_ok g log10 p10 root rootV drop axes center mode sh w biased r sd h
  unfold Grid.spherePlan at hp
  unfold Grid.sphericalAverage
  rw [ha] at hp ⊢
  simp only at hp ⊢
  split at hp
  · cases hp
  rename_i h1
  rw [if_neg h1]
  split at hp
  · cases hp
  rename_i h2
  rw [if_neg h2]
  split at hp
  · cases hp
  rename_i c hc
  simp only [hc]
  split at hp
  · cases hp
  rename_i wt hw
  simp only [hw]
  split at hp
  · cases hp
  rename_i s hsE
  simp only [Except.ok.injEq, Prod.mk.injEq] at hp
  obtain ⟨-, rfl⟩ := hp
  have e : r.shells = s := by rw [hr]; rfl
  rw [e] at hs h0 ⊢
  rw [given_edges _ s hs h0]
  simp only [Except.ok.injEq]
  rw [hr]

/-- **C116, partial**: in every shell but the last the standard deviation is the root of the weighted mean (with the
documented correction, if asked for) of the squares of the differences from the average returned, over exactly the
cells of this shell, if the weights are integers; averages and numbers of cells are those of C26. -/
theorem C116_std_partial (g : Grid K V) (hg : Regular g) (a : Arr V) (ha : g.grid = some a) (log10 p10 root : K → K)
    (rootV : V → Option V) (drop : V → V) (axes : Option (List ℕ)) (center : Option (List K)) (mode : BinMode)
    (sh : Shells K) (w : Option (Arr K)) (hw : WeightShape w g)
    (hint : ∀ c p, Valid g.nPix c → p < g.nProps → ∃ z : ℤ, weightOf w g c p = z) (biased : Bool)
    (r : Average K V) (sd : Arr (Option V))
    (h : g.sphereFull log10 p10 root rootV drop axes center mode sh w biased = .ok (r, sd))
    (hs : r.shells.Pairwise (· < ·)) (k p : ℕ) (c : List ℕ) (hk : k + 2 < r.shells.length) (hp : p < g.nProps) :
    ∃ (ax : List ℕ) (m : List (List ℕ)) (W W2 : K), ax = axes.getD (List.range g.dim) ∧
      m = members g.nPix root (coordsOf g ax) (centerOf g ax center) ax r.shells k c ∧
      W = (m.map (fun d => weightOf w g d p)).sum ∧ W2 = (m.map (fun d => weightOf w g d p ^ 2)).sum ∧
      r.count.get (k :: c ++ [p]) = m.length ∧
      r.avg.get (k :: c ++ [p]) = (if W = 0 then none
        else some (W⁻¹ • (m.map (fun d => asData g ax drop (weightOf w g d p • cell a d p))).sum)) ∧
      (W = 0 → sd.get (k :: c ++ [p]) = none) ∧
      ∀ mean, r.avg.get (k :: c ++ [p]) = some mean →
        (biased = true → sd.get (k :: c ++ [p]) = rootV (W⁻¹ •
          (m.map (fun d => asData g ax drop (weightOf w g d p • (cell a d p - mean) ^ 2))).sum)) ∧
        (biased = false → sd.get (k :: c ++ [p]) = if W - W2 / W = 0 then none else rootV ((W - W2 / W)⁻¹ •
          (m.map (fun d => asData g ax drop (weightOf w g d p • (cell a d p - mean) ^ 2))).sum)) := by
  have h0 : r.shells ≠ [] := by
    intro e
    rw [e] at hk
    simp at hk
  have hav := full_average g log10 p10 root rootV drop axes center mode sh w biased r sd h hs h0
  obtain ⟨ax, m, hax, hm, hcount, havg⟩ := C26_value_partial g hg a ha root drop axes center (.given r.shells) w hw hint r hav
    hs k p c hk hp
  obtain ⟨a', pl, ha', hpl, hr, hsd⟩ := full_ok g log10 p10 root rootV drop axes center mode sh w biased r sd h
  rw [ha] at ha'
  cases ha'
  obtain ⟨⟨h1, -⟩, -, -, wt, h4, -, h6⟩ := sphere_ok g hg a ha root drop axes center (.given r.shells) w r hav
  rw [← hax] at h1 h6
  obtain ⟨wt', hwt1, hwt2⟩ := weight_ok g a (hg.data a ha) w hw
  have : wt' = wt := by rw [h4] at hwt1; exact (Except.ok.inj hwt1).symm
  subst this
  -- the plan
  have hplan : pl.ax = ax ∧ (if pl.complex then id else drop) = asData g ax drop ∧ pl.wt = wt' ∧ pl.shells = r.shells ∧
      pl.bin = fun i => digitize r.shells (radius root (coordsOf g ax) (centerOf g ax center) ax i) := by
    have hsh : pl.shells = r.shells := by rw [hr]; rfl
    unfold Grid.spherePlan at hpl
    rw [ha] at hpl
    simp only at hpl
    rw [← hax] at hpl
    split at hpl
    · cases hpl
    split at hpl
    · cases hpl
    split at hpl
    · cases hpl
    rename_i cc hcc
    rw [h4] at hpl
    simp only at hpl
    split at hpl
    · cases hpl
    rename_i s hsE
    simp only [Except.ok.injEq, Prod.mk.injEq] at hpl
    obtain ⟨-, rfl⟩ := hpl
    simp only at hsh
    have ec : cc = centerOf g ax center := by
      unfold sphereCenter at hcc
      unfold centerOf
      cases center with
      | none =>
        simp only [Except.ok.injEq] at hcc
        rw [← hcc]
        simp only [Option.getD_none]
        by_cases hf : ∀ i ∈ ax, g.fourier.getD i false = true
        · rw [if_pos hf, if_pos (by simpa using hf)]
        · rw [if_neg hf, if_neg (by simpa using hf)]
      | some c' =>
        simp only at hcc
        split at hcc
        · simp only [Except.ok.injEq] at hcc
          rw [← hcc]
          rfl
        · cases hcc
    have e1 : (if decide (∀ i ∈ ax, g.fourier.getD i false = true) = true then g.fcenters
        else g.centers) = coordsOf g ax := by
      unfold coordsOf
      by_cases hf : ∀ i ∈ ax, g.fourier.getD i false = true
      · rw [if_pos hf, if_pos (by simpa using hf)]
      · rw [if_neg hf, if_neg (by simpa using hf)]
    refine ⟨rfl, ?_, rfl, hsh, ?_⟩
    · funext x
      simp only
      unfold asData
      by_cases hf : ∀ i ∈ ax, g.fourier.getD i false = true
      · cases hp : g.isPow
        · rw [if_pos (by simpa [hp] using hf), if_pos ⟨hf, rfl⟩]; rfl
        · rw [if_neg (by simp), if_neg (by simp)]
      · rw [if_neg (by
          intro hc
          rw [Bool.and_eq_true, decide_eq_true_iff] at hc
          exact hf hc.1), if_neg (fun hc => hf hc.1)]
    · simp only
      rw [e1, ec, hsh]
  obtain ⟨p1, p2, p3, p4, p5⟩ := hplan
  have hmv : ∀ d ∈ m, Valid g.nPix d := by
    intro d hd
    rw [hm] at hd
    exact (mem_allCells _ _).1 (List.mem_of_mem_filter hd)
  have key : ∀ {β : Type} (f : List ℕ → List ℕ → β), ((((indices a.shape).filter (fun i => decide
      (0 < digitize r.shells (radius root (coordsOf g ax) (centerOf g ax center) ax i) ∧
        digitize r.shells (radius root (coordsOf g ax) (centerOf g ax center) ax i) + 1 <
          r.shells.length))).map
        (fun i => (sphereCoords ax (digitize r.shells (radius root (coordsOf g ax)
          (centerOf g ax center) ax i) - 1) i, f i (sphereCoords ax (digitize r.shells (radius root (coordsOf g ax)
          (centerOf g ax center) ax i) - 1) i)))).filter
        (fun q => decide (q.1 = k :: c ++ [p]))).map (·.2) = m.map (fun d => f (d ++ [p]) (k :: c ++ [p])) := by
    intro β f
    have red : ∀ (l : List (List ℕ)) (at_ : List ℕ → List ℕ) (j : List ℕ),
        ((l.map (fun i => (at_ i, f i (at_ i)))).filter (fun q => decide (q.1 = j))).map (·.2) =
        ((l.map (fun i => (at_ i, f i j))).filter (fun q => decide (q.1 = j))).map (·.2) := by
      intro l at_ j
      induction l with
      | nil => rfl
      | cons x l ih =>
        simp only [List.map_cons, List.filter_cons]
        by_cases hx : at_ x = j
        · simp only [hx, decide_true, if_true, List.map_cons, ih]
        · simp only [hx, decide_false, Bool.false_eq_true, if_false, ih]
    rw [red]
    rw [hg.data a ha, sphere_filter g.nPix g.nProps ax _
      (fun d => digitize r.shells (root (sqDist (coordsOf g ax) (centerOf g ax center) ax d)))
      r.shells.length k p c hp ?_ (fun i => f i (k :: c ++ [p]))]
    · congr 1
      rw [hm]
      unfold members
      apply List.filter_congr
      intro d _
      apply decide_eq_decide.2
      rw [← digitize_iff r.shells hs _ k (by omega)]
      constructor
      · rintro ⟨⟨q1, q2, q3⟩, q4⟩
        exact ⟨by omega, q4⟩
      · rintro ⟨q1, q2⟩
        exact ⟨⟨by omega, by omega, by omega⟩, q2⟩
    · intro i hi
      obtain ⟨d, q, rfl, hd, hq⟩ := valid_split hi
      rw [List.dropLast_concat]
      congr 1
      apply radius_concat
      intro i hi
      have := Valid.length hd
      rw [this, hg.nPix]
      exact h1 i hi
  have hint' : ∀ i, Valid (g.nPix ++ [g.nProps]) i → ∃ z : ℤ, wt' i = z := by
    intro i hi
    obtain ⟨d, q, rfl, hd, hq⟩ := valid_split hi
    rw [hwt2 d q hd hq]
    exact hint d q hd hq
  have w2 : m.map (fun d => wt' (d ++ [p])) = m.map (fun d => weightOf w g d p) := by
    apply List.map_congr_left
    intro d hd
    exact hwt2 d p (hmv d hd) hp
  have w22 : m.map (fun d => wt' (d ++ [p]) ^ 2) = m.map (fun d => weightOf w g d p ^ 2) := by
    apply List.map_congr_left
    intro d hd
    rw [hwt2 d p (hmv d hd) hp]
  have intW : ∀ (e : ℕ) (f : List ℕ → List ℕ), ∀ q ∈ ((indices a.shape).filter (fun i => decide
      (0 < digitize r.shells (radius root (coordsOf g ax) (centerOf g ax center) ax i) ∧
        digitize r.shells (radius root (coordsOf g ax) (centerOf g ax center) ax i) + 1 <
          r.shells.length))).map (fun i => (f i, wt' i ^ e)), ∃ z : ℤ, q.2 = z := by
    intro e f q hq
    obtain ⟨i, hi, rfl⟩ := List.mem_map.1 hq
    have := List.mem_of_mem_filter hi
    rw [indices_eq, hg.data a ha] at this
    obtain ⟨z, hz⟩ := hint' i ((mem_allCells _ _).1 this)
    exact ⟨z ^ e, by rw [hz]; push_cast; rfl⟩
  have std : sd.get (k :: c ++ [p]) =
      if (m.map (fun d => weightOf w g d p)).sum = 0 then none
      else if biased then rootV ((m.map (fun d => weightOf w g d p)).sum⁻¹ •
          (m.map (fun d => asData g ax drop (wt' (d ++ [p]) •
            (a.get (d ++ [p]) - (r.avg.get (k :: c ++ [p])).getD 0) ^ 2))).sum)
      else if (m.map (fun d => weightOf w g d p)).sum - (m.map (fun d => weightOf w g d p ^ 2)).sum /
          (m.map (fun d => weightOf w g d p)).sum = 0 then none
      else rootV (((m.map (fun d => weightOf w g d p)).sum - (m.map (fun d => weightOf w g d p ^ 2)).sum /
          (m.map (fun d => weightOf w g d p)).sum)⁻¹ • (m.map (fun d => asData g ax drop (wt' (d ++ [p]) •
            (a.get (d ++ [p]) - (r.avg.get (k :: c ++ [p])).getD 0) ^ 2))).sum) := by
    rw [hsd]
    unfold sphereStd
    simp only [p1, p2, p3, p4, p5]
    have i1 := intW 1
    simp only [pow_one] at i1
    rw [addTrunc_int _ _ (fun j => ⟨0, by simp [zeros]⟩) (i1 _), addTrunc_int _ _ (fun j => ⟨0, by simp [zeros]⟩) (intW 2 _)]
    simp only [addAll_get]
    rw [show (zeros ((r.shells.length - 1) :: keepAxes ax g.nPix ++ [g.nProps]) : Arr K).get
      (k :: c ++ [p]) = 0 from rfl, show (zeros ((r.shells.length - 1) :: keepAxes ax g.nPix ++
      [g.nProps]) : Arr V).get (k :: c ++ [p]) = 0 from rfl, zero_add, zero_add, zero_add]
    have k2 := key (fun i _ => wt' i)
    have k3 := key (fun i _ => wt' i ^ 2)
    have k4 := key (fun i j => asData g ax drop (wt' i • (a.get i - (r.avg.get j).getD 0) ^ 2))
    rw [w2] at k2
    rw [w22] at k3
    rw [k2, k3, k4]
  refine ⟨ax, m, _, _, hax, by rw [hm], rfl, rfl, hcount, havg, ?_, ?_⟩
  · intro hW
    rw [std, if_pos hW]
  · intro mean hmean
    have hW : ¬ (m.map (fun d => weightOf w g d p)).sum = 0 := by
      intro hW
      rw [havg, if_pos hW] at hmean
      cases hmean
    have w4 : m.map (fun d => asData g ax drop (wt' (d ++ [p]) • (a.get (d ++ [p]) - (r.avg.get (k :: c ++ [p])).getD 0) ^ 2)) =
        m.map (fun d => asData g ax drop (weightOf w g d p • (cell a d p - mean) ^ 2)) := by
      apply List.map_congr_left
      intro d hd
      rw [hwt2 d p (hmv d hd) hp, hmean]
      rfl
    rw [w4] at std
    constructor
    · intro hb
      rw [std, if_neg hW, if_pos hb]
    · intro hb
      rw [std, if_neg hW, if_neg (by rw [hb]; simp)]

/-- Linear shells: the averages and numbers of cells are those of the model of `C26`, with all its theorems. -/
theorem C116_linear (g : Grid K V) (log10 p10 root : K → K) (rootV : V → Option V) (drop : V → V)
    (axes : Option (List ℕ)) (center : Option (List K)) (sh : Shells K) (w : Option (Arr K)) (biased : Bool) :
    (match g.sphereFull log10 p10 root rootV drop axes center .linear sh w biased with
      | .error e => .error e
      | .ok x => .ok x.1) = g.sphericalAverage root drop axes center sh w := by
  unfold Grid.sphereFull Grid.spherePlan Grid.sphericalAverage
  have he : ∀ radii, edgesFor log10 p10 .linear sh radii = shellEdges radii sh := by
    intro radii
    cases sh <;> rfl
  rcases g.grid with _ | a
  · rfl
  simp only [he]
  by_cases h1 : ∃ i ∈ axes.getD (List.range g.dim), g.dim ≤ i
  · rw [if_pos h1, if_pos h1]
  rw [if_neg h1, if_neg h1]
  by_cases h2 : (∃ i ∈ axes.getD (List.range g.dim), g.fourier.getD i false = false) ∧
      ∃ i ∈ axes.getD (List.range g.dim), g.fourier.getD i false = true
  · rw [if_pos h2, if_pos h2]
  rw [if_neg h2, if_neg h2]
  rcases sphereCenter g (decide (∀ i ∈ axes.getD (List.range g.dim), g.fourier.getD i false = true)) center with e | c
  · rfl
  simp only
  rcases sphereWeights a.shape w with e | wt
  · rfl
  simp only
  rcases shellEdges _ sh with e | s
  · rfl
  rfl

/-- With edges given the mode has no influence; otherwise unknown modes are refused. -/
theorem C116_modes (g : Grid K V) (log10 p10 root : K → K) (rootV : V → Option V) (drop : V → V)
    (axes : Option (List ℕ)) (center : Option (List K)) (w : Option (Arr K)) (biased : Bool) :
    (∀ (mode mode' : BinMode) (l : List K),
      g.sphereFull log10 p10 root rootV drop axes center mode (.given l) w biased =
        g.sphereFull log10 p10 root rootV drop axes center mode' (.given l) w biased) ∧
    (∀ n, ∃ e, g.sphereFull log10 p10 root rootV drop axes center .other (.auto n) w biased = .error e) ∧
    ∀ mode, ∃ e, g.sphereFull log10 p10 root rootV drop axes center mode (.auto 0) w biased = .error e := by
  have bad : ∀ mode sh, (∀ radii, ∃ e, edgesFor log10 p10 mode sh radii = .error e) →
      ∃ e, g.sphereFull log10 p10 root rootV drop axes center mode sh w biased = .error e := by
    intro mode sh hbad
    unfold Grid.sphereFull Grid.spherePlan
    rcases g.grid with _ | a
    · exact ⟨_, rfl⟩
    simp only
    by_cases h1 : ∃ i ∈ axes.getD (List.range g.dim), g.dim ≤ i
    · rw [if_pos h1]; exact ⟨_, rfl⟩
    rw [if_neg h1]
    by_cases h2 : (∃ i ∈ axes.getD (List.range g.dim), g.fourier.getD i false = false) ∧
        ∃ i ∈ axes.getD (List.range g.dim), g.fourier.getD i false = true
    · rw [if_pos h2]; exact ⟨_, rfl⟩
    rw [if_neg h2]
    rcases sphereCenter g (decide (∀ i ∈ axes.getD (List.range g.dim), g.fourier.getD i false = true)) center with e | c
    · exact ⟨_, rfl⟩
    simp only
    rcases sphereWeights a.shape w with e | wt
    · exact ⟨_, rfl⟩
    simp only
    obtain ⟨e, he⟩ := hbad ((indices a.shape).map (radius root (if decide (∀ i ∈ axes.getD (List.range g.dim),
      g.fourier.getD i false = true) = true then g.fcenters else g.centers) c (axes.getD (List.range g.dim))))
    rw [he]
    exact ⟨_, rfl⟩
  refine ⟨?_, ?_, ?_⟩
  · intro mode mode' l
    unfold Grid.sphereFull Grid.spherePlan
    rfl
  · exact fun n => bad _ _ (fun radii => ⟨_, rfl⟩)
  · intro mode
    refine bad _ _ (fun radii => ?_)
    cases mode
    · unfold edgesFor shellEdges
      simp only
      split
      · exact ⟨_, rfl⟩
      · exact ⟨_, rfl⟩
    · unfold edgesFor logEdges
      simp only
      split
      · exact ⟨_, rfl⟩
      · exact ⟨_, rfl⟩
    · exact ⟨_, rfl⟩

/-- The last shell has no standard deviation. -/
theorem C116_last_shell_lost (g : Grid K V) (log10 p10 root : K → K) (rootV : V → Option V) (drop : V → V)
    (axes : Option (List ℕ)) (center : Option (List K)) (mode : BinMode) (sh : Shells K) (w : Option (Arr K)) (biased : Bool)
    (r : Average K V) (sd : Arr (Option V))
    (h : g.sphereFull log10 p10 root rootV drop axes center mode sh w biased = .ok (r, sd)) (k : ℕ) (c : List ℕ)
    (hk : k + 2 = r.shells.length) : r.avg.get (k :: c) = none ∧ sd.get (k :: c) = none := by
  obtain ⟨a, pl, ha, hp, hr, hsd⟩ := full_ok g log10 p10 root rootV drop axes center mode sh w biased r sd h
  have hl : pl.shells.length = k + 2 := by rw [hk, hr]; rfl
  have hw : (addTrunc (zeros ((pl.shells.length - 1) :: keepAxes pl.ax g.nPix ++ [g.nProps]) : Arr K)
      (((indices a.shape).filter (fun i => decide (0 < pl.bin i ∧ pl.bin i + 1 < pl.shells.length))).map
        (fun i => (sphereCoords pl.ax (pl.bin i - 1) i, pl.wt i)))).get (k :: c) = 0 := by
    rw [addTrunc_other]
    · rfl
    · intro q hq e
      obtain ⟨i, hi, rfl⟩ := List.mem_map.1 hq
      have hb := of_decide_eq_true (List.mem_filter.1 hi).2
      unfold sphereCoords at e
      simp only [List.cons_append, List.cons.injEq] at e
      omega
  constructor
  · rw [hr]
    unfold sphereSums
    simp only
    exact if_pos hw
  · rw [hsd]
    unfold sphereStd
    simp only
    exact if_pos hw

/-- A shell with one cell has no corrected standard deviation. -/
theorem C116_single (g : Grid K V) (hg : Regular g) (a : Arr V) (ha : g.grid = some a) (log10 p10 root : K → K)
    (rootV : V → Option V) (drop : V → V) (axes : Option (List ℕ)) (center : Option (List K)) (mode : BinMode)
    (sh : Shells K) (w : Option (Arr K)) (hw : WeightShape w g)
    (hint : ∀ c p, Valid g.nPix c → p < g.nProps → ∃ z : ℤ, weightOf w g c p = z)
    (r : Average K V) (sd : Arr (Option V))
    (h : g.sphereFull log10 p10 root rootV drop axes center mode sh w false = .ok (r, sd))
    (hs : r.shells.Pairwise (· < ·)) (k p : ℕ) (c d : List ℕ) (hk : k + 2 < r.shells.length) (hp : p < g.nProps)
    (hm : members g.nPix root (coordsOf g (axes.getD (List.range g.dim))) (centerOf g (axes.getD (List.range g.dim)) center)
      (axes.getD (List.range g.dim)) r.shells k c = [d]) : sd.get (k :: c ++ [p]) = none := by
  obtain ⟨ax, m, W, W2, rfl, rfl, hW, hW2, -, havg, h0, hsd⟩ := C116_std_partial g hg a ha log10 p10 root rootV drop axes center
    mode sh w hw hint false r sd h hs k p c hk hp
  rw [hm] at hW hW2
  simp only [List.map_cons, List.map_nil, List.sum_cons, List.sum_nil, add_zero] at hW hW2
  by_cases hz : W = 0
  · exact h0 hz
  · rw [if_neg hz] at havg
    rw [(hsd _ havg).2 rfl]
    rw [if_pos]
    rw [hW2, ← hW]
    field_simp
    ring

/-- The mean of the squares of the differences from the mean is the mean of the squares minus the square of the mean. -/
theorem variance_eq (l : List (K × K)) (hW : (l.map (·.1)).sum ≠ 0) (mean : K)
    (hm : mean = (l.map (·.1)).sum⁻¹ * (l.map (fun q => q.1 * q.2)).sum) :
    (l.map (·.1)).sum⁻¹ * (l.map (fun q => q.1 * (q.2 - mean) ^ 2)).sum =
      (l.map (·.1)).sum⁻¹ * (l.map (fun q => q.1 * q.2 ^ 2)).sum - mean ^ 2 := by
  have key : ∀ l : List (K × K), (l.map (fun q => q.1 * (q.2 - mean) ^ 2)).sum =
      (l.map (fun q => q.1 * q.2 ^ 2)).sum - 2 * mean * (l.map (fun q => q.1 * q.2)).sum + mean ^ 2 * (l.map (·.1)).sum := by
    intro l
    induction l with
    | nil => simp
    | cons q l ih =>
      simp only [List.map_cons, List.sum_cons, ih]
      ring
  rw [key]
  have e : (l.map (fun q => q.1 * q.2)).sum = mean * (l.map (·.1)).sum := by
    rw [hm]
    field_simp
  rw [e]
  field_simp
  ring

/-- Such a mean is not negative, and zero exactly if all values are the mean. -/
theorem variance_zero (l : List (K × K)) (hpos : ∀ q ∈ l, 0 < q.1) (hl : l ≠ []) (mean : K) :
    0 ≤ (l.map (·.1)).sum⁻¹ * (l.map (fun q => q.1 * (q.2 - mean) ^ 2)).sum ∧
    ((l.map (·.1)).sum⁻¹ * (l.map (fun q => q.1 * (q.2 - mean) ^ 2)).sum = 0 ↔ ∀ q ∈ l, q.2 = mean) := by
  have hsum : ∀ l : List (K × K), (∀ q ∈ l, 0 < q.1) → 0 ≤ (l.map (fun q => q.1 * (q.2 - mean) ^ 2)).sum ∧
      ((l.map (fun q => q.1 * (q.2 - mean) ^ 2)).sum = 0 ↔ ∀ q ∈ l, q.2 = mean) := by
    intro l
    induction l with
    | nil => intro _; simp
    | cons q l ih =>
      intro h
      obtain ⟨i1, i2⟩ := ih (fun x hx => h x (by simp [hx]))
      have hq := h q (by simp)
      have t : 0 ≤ q.1 * (q.2 - mean) ^ 2 := by positivity
      simp only [List.map_cons, List.sum_cons]
      refine ⟨by linarith, ?_⟩
      constructor
      · intro e
        have e1 : q.1 * (q.2 - mean) ^ 2 = 0 := by linarith
        have e2 : (l.map (fun q => q.1 * (q.2 - mean) ^ 2)).sum = 0 := by linarith
        intro x hx
        rcases List.mem_cons.1 hx with rfl | hx
        · rcases mul_eq_zero.1 e1 with e1 | e1
          · linarith
          · have := pow_eq_zero_iff (two_ne_zero) |>.1 e1
            linarith
        · exact i2.1 e2 x hx
      · intro hx
        rw [hx q (by simp), i2.2 (fun x hx' => hx x (by simp [hx']))]
        ring
  have hW : 0 < (l.map (·.1)).sum := by
    have : ∀ l : List (K × K), (∀ q ∈ l, 0 < q.1) → l ≠ [] → 0 < (l.map (·.1)).sum := by
      intro l
      induction l with
      | nil => intro _ h; exact absurd rfl h
      | cons q l ih =>
        intro h _
        have hq := h q (by simp)
        simp only [List.map_cons, List.sum_cons]
        rcases l with _ | ⟨x, l⟩
        · simpa using hq
        · have := ih (fun x hx => h x (by simp [hx])) (by simp)
          linarith
    exact this l hpos hl
  obtain ⟨a1, a2⟩ := hsum l hpos
  refine ⟨by positivity, ?_⟩
  rw [mul_eq_zero, ← a2]
  constructor
  · rintro (e | e)
    · exact absurd e (inv_ne_zero hW.ne')
    · exact e
  · exact Or.inr

end

section
variable [Field K] [LinearOrder K] [IsStrictOrderedRing K] [FloorRing K]

/-- Maps of real numbers with positive integers as weights: a shell that is not the last and has cells has the average and
standard deviation of its cells: the root of the mean square minus the square of the mean; it is the root of zero
exactly if the cells have equal values. -/
theorem C116_real_partial (g : Grid K K) (hg : Regular g) (a : Arr K) (ha : g.grid = some a) (log10 p10 root : K → K)
    (rootV : K → Option K) (axes : Option (List ℕ)) (center : Option (List K)) (mode : BinMode)
    (sh : Shells K) (w : Option (Arr K)) (hw : WeightShape w g)
    (hint : ∀ c p, Valid g.nPix c → p < g.nProps → ∃ z : ℤ, 0 < z ∧ weightOf w g c p = z)
    (r : Average K K) (sd : Arr (Option K))
    (h : g.sphereFull log10 p10 root rootV id axes center mode sh w true = .ok (r, sd))
    (hs : r.shells.Pairwise (· < ·)) (k p : ℕ) (c : List ℕ) (hk : k + 2 < r.shells.length) (hp : p < g.nProps)
    (m : List (List ℕ)) (hm : m = members g.nPix root (coordsOf g (axes.getD (List.range g.dim)))
      (centerOf g (axes.getD (List.range g.dim)) center) (axes.getD (List.range g.dim)) r.shells k c) (hne : m ≠ []) :
    ∃ mean v, r.avg.get (k :: c ++ [p]) = some mean ∧ sd.get (k :: c ++ [p]) = rootV v ∧ 0 ≤ v ∧
      mean = (m.map (fun d => weightOf w g d p)).sum⁻¹ * (m.map (fun d => weightOf w g d p * cell a d p)).sum ∧
      v = (m.map (fun d => weightOf w g d p)).sum⁻¹ * (m.map (fun d => weightOf w g d p * cell a d p ^ 2)).sum - mean ^ 2 ∧
      (v = 0 ↔ ∀ d ∈ m, ∀ e ∈ m, cell a d p = cell a e p) := by
  obtain ⟨ax, m', W, W2, rfl, hm', hW, -, -, havg, -, hsd⟩ := C116_std_partial g hg a ha log10 p10 root rootV id axes center
    mode sh w hw (fun c p h1 h2 => by obtain ⟨z, -, hz⟩ := hint c p h1 h2; exact ⟨z, hz⟩) true r sd h hs k p c hk hp
  rw [← hm] at hm'
  subst hm'
  have hmv : ∀ d ∈ m', Valid g.nPix d := by
    intro d hd
    rw [hm] at hd
    exact (mem_allCells _ _).1 (List.mem_of_mem_filter hd)
  have hpos : ∀ q ∈ m'.map (fun d => (weightOf w g d p, cell a d p)), 0 < q.1 := by
    intro q hq
    obtain ⟨d, hd, rfl⟩ := List.mem_map.1 hq
    obtain ⟨z, hz, e⟩ := hint d p (hmv d hd) hp
    simp only [e]
    exact_mod_cast hz
  have hne' : m'.map (fun d => (weightOf w g d p, cell a d p)) ≠ [] := by simpa using hne
  have e1 : (m'.map (fun d => (weightOf w g d p, cell a d p))).map (·.1) = m'.map (fun d => weightOf w g d p) := by
    rw [List.map_map]; rfl
  have hid : ∀ x, asData g (axes.getD (List.range g.dim)) (id : K → K) x = x := by
    intro x
    unfold asData
    split <;> rfl
  simp only [hid, smul_eq_mul] at havg hsd
  have hW0 : 0 < W := by
    have hz := variance_zero (m'.map (fun d => (weightOf w g d p, cell a d p))) hpos hne' 0
    rw [hW]
    clear hz
    have : ∀ l : List (List ℕ), (∀ d ∈ l, 0 < weightOf w g d p) → l ≠ [] → 0 < (l.map (fun d => weightOf w g d p)).sum := by
      intro l
      induction l with
      | nil => intro _ h; exact absurd rfl h
      | cons q l ih =>
        intro h _
        have hq := h q (by simp)
        simp only [List.map_cons, List.sum_cons]
        rcases l with _ | ⟨x, l⟩
        · simpa using hq
        · have := ih (fun x hx => h x (by simp [hx])) (by simp)
          linarith
    exact this m' (fun d hd => hpos _ (List.mem_map.2 ⟨d, hd, rfl⟩)) hne
  rw [if_neg hW0.ne'] at havg
  have e2 : ∀ f : K → K → K, (m'.map (fun d => (weightOf w g d p, cell a d p))).map (fun q => f q.1 q.2) =
      m'.map (fun d => f (weightOf w g d p) (cell a d p)) := by
    intro f
    rw [List.map_map]; rfl
  obtain ⟨mean, hmean⟩ : ∃ mean, mean = W⁻¹ * (m'.map (fun d => weightOf w g d p * cell a d p)).sum := ⟨_, rfl⟩
  rw [← hmean] at havg
  have hv := variance_eq (m'.map (fun d => (weightOf w g d p, cell a d p))) (by rw [e1, ← hW]; exact hW0.ne') mean
    (by rw [e1, ← hW, e2 (fun x y => x * y)]; exact hmean)
  rw [e1, ← hW, e2 (fun x y => x * (y - mean) ^ 2), e2 (fun x y => x * y ^ 2)] at hv
  obtain ⟨z1, z2⟩ := variance_zero (m'.map (fun d => (weightOf w g d p, cell a d p))) hpos hne' mean
  rw [e1, ← hW, e2 (fun x y => x * (y - mean) ^ 2)] at z1 z2
  refine ⟨mean, _, havg, (hsd mean havg).1 trivial, z1, by rw [← hW]; exact hmean, by rw [← hW]; exact hv, ?_⟩
  rw [z2]
  constructor
  · intro hq d hd e he
    exact (hq _ (List.mem_map.2 ⟨d, hd, rfl⟩)).trans (hq _ (List.mem_map.2 ⟨e, he, rfl⟩)).symm
  · intro hq q hq'
    obtain ⟨d, hd, rfl⟩ := List.mem_map.1 hq'
    simp only
    have hc : ∀ x ∈ m'.map (fun d => weightOf w g d p * cell a d p), ∃ y ∈ m', x = weightOf w g y p * cell a d p := by
      intro x hx
      obtain ⟨y, hy, rfl⟩ := List.mem_map.1 hx
      exact ⟨y, hy, by rw [hq y hy d hd]⟩
    have : (m'.map (fun d => weightOf w g d p * cell a d p)) = m'.map (fun y => weightOf w g y p * cell a d p) := by
      apply List.map_congr_left
      intro y hy
      rw [hq y hy d hd]
    rw [hmean, this, List.sum_map_mul_right, ← hW, ← mul_assoc, inv_mul_cancel₀ hW0.ne', one_mul]

end

/-! ## Logarithmic shells -/

section
variable [Field K] [LinearOrder K] [IsStrictOrderedRing K]

/-- Automatic logarithmic shells: as many as asked for, increasing, the first from the least distance that is not zero, the
edges in constant proportion, the last after the largest distance. -/
theorem C116_log_edges (log10 p10 : K → K) (hmono : ∀ x y, 0 < x → x < y → log10 x < log10 y) (hp : StrictMono p10)
    (hinv : ∀ x, 0 < x → p10 (log10 x) = x) (hadd : ∀ x y, p10 (x + y) = p10 x * p10 y) (radii : List K) (n : ℕ)
    (l : List K) (h : edgesFor log10 p10 .log (.auto n) radii = .ok l) (x y : K) (hx : x ∈ radii) (hy : y ∈ radii)
    (hxy : x < y) (hnn : ∀ z ∈ radii, 0 ≤ z) :
    l.length = n + 1 ∧ l.Pairwise (· < ·) ∧
    (∃ lo ∈ radii, 0 < lo ∧ (∀ z ∈ radii, 0 < z → lo ≤ z) ∧ l[0]? = some lo) ∧
    (∃ hi ∈ radii, ∃ top, (∀ z ∈ radii, z ≤ hi) ∧ l[n]? = some top ∧ hi < top) ∧
    ∀ (k : ℕ) (a b c : K), l[k]? = some a → l[k + 1]? = some b → l[k + 2]? = some c → b * b = a * c := by
  unfold edgesFor logEdges at h
  simp only at h
  split at h
  case h_2 => cases h
  rename_i lo hi hlo hhi
  obtain ⟨mlo, hlo⟩ := List.min?_eq_some_iff.1 hlo
  obtain ⟨mhi, hhi⟩ := List.max?_eq_some_iff.1 hhi
  split at h
  · cases h
  rename_i hn
  split at h
  · cases h
  rename_i lo' hlo'
  simp only [Except.ok.injEq] at h
  have hlt : lo < hi := lt_of_le_of_lt (hlo x hx) (hxy.trans_le (hhi y hy))
  have hfirst : lo' ∈ radii ∧ 0 < lo' ∧ (∀ z ∈ radii, 0 < z → lo' ≤ z) := by
    split at hlo'
    · obtain ⟨q1, q2⟩ := List.min?_eq_some_iff.1 hlo'
      refine ⟨List.mem_of_mem_filter q1, of_decide_eq_true (List.mem_filter.1 q1).2, fun z hz hz0 => ?_⟩
      exact q2 z (List.mem_filter.2 ⟨hz, decide_eq_true hz0⟩)
    · rename_i hc
      cases hlo'
      exact ⟨mlo, not_le.1 hc, fun z hz _ => hlo z hz⟩
  obtain ⟨f1, f2, f3⟩ := hfirst
  obtain ⟨top, htop⟩ : ∃ top, top = hi + (hi - lo) / 10 ^ 10 := ⟨_, rfl⟩
  rw [← htop] at h
  have htop' : hi < top := by
    rw [htop]
    have : 0 < (hi - lo) / 10 ^ 10 := div_pos (by linarith) (by positivity)
    linarith
  have hlog : log10 lo' < log10 top := hmono _ _ f2 ((hhi lo' f1).trans_lt htop')
  have nK : (0 : K) < n := by exact_mod_cast (by omega : 0 < n)
  have hstep : 0 < (log10 top - log10 lo') / n := div_pos (by linarith) nK
  have hget : ∀ k, k < n + 1 → l[k]? = some (p10 (log10 lo' + k * ((log10 top - log10 lo') / n))) := by
    intro k hk
    rw [← h, List.getElem?_map, List.getElem?_range hk]
    rfl
  have hlen : l.length = n + 1 := by rw [← h]; simp
  refine ⟨hlen, ?_, ⟨lo', f1, f2, f3, ?_⟩, ⟨hi, mhi, top, hhi, ?_, htop'⟩, ?_⟩
  · rw [← h, List.pairwise_map]
    refine List.pairwise_lt_range.imp ?_
    intro i j hij
    apply hp
    have : (i : K) < j := by exact_mod_cast hij
    have := mul_lt_mul_of_pos_right this hstep
    linarith
  · rw [hget 0 (by omega)]
    simp only [Nat.cast_zero, zero_mul, add_zero]
    rw [hinv _ f2]
  · rw [hget n (by omega)]
    have : log10 lo' + (n : K) * ((log10 top - log10 lo') / n) = log10 top := by
      field_simp
      ring
    rw [this, hinv _ (f2.trans_le ((hhi lo' f1).trans htop'.le))]
  · intro k a b c ha hb hc
    have hk : k + 2 < n + 1 := by
      rw [← hlen]
      exact (List.getElem?_eq_some_iff.1 hc).1
    rw [hget k (by omega)] at ha
    rw [hget (k + 1) (by omega)] at hb
    rw [hget (k + 2) hk] at hc
    cases ha
    cases hb
    cases hc
    rw [← hadd, ← hadd]
    congr 1
    push_cast
    ring

/-- A cell at the centre is in no logarithmic shell. -/
theorem C116_log_centre_lost (log10 p10 : K → K) (hmono : ∀ x y, 0 < x → x < y → log10 x < log10 y) (hp : StrictMono p10)
    (hinv : ∀ x, 0 < x → p10 (log10 x) = x) (hadd : ∀ x y, p10 (x + y) = p10 x * p10 y) (radii : List K) (n : ℕ)
    (l : List K) (h : edgesFor log10 p10 .log (.auto n) radii = .ok l) (x y : K) (hx : x ∈ radii) (hy : y ∈ radii)
    (hxy : x < y) (hnn : ∀ z ∈ radii, 0 ≤ z) (k : ℕ) : ¬ InShell l k 0 := by
  obtain ⟨-, hpw, ⟨lo, -, h0, -, hl0⟩, -, -⟩ := C116_log_edges log10 p10 hmono hp hinv hadd radii n l h x y hx hy hxy hnn
  rintro ⟨a, ha, b, hb, h1, h2⟩
  obtain ⟨la, ea⟩ := List.getElem?_eq_some_iff.1 ha
  obtain ⟨l0, e0⟩ := List.getElem?_eq_some_iff.1 hl0
  have : lo ≤ a := by
    rcases Nat.eq_zero_or_pos k with rfl | hk
    · rw [hl0] at ha
      cases ha
      exact le_rfl
    · have := List.pairwise_iff_getElem.1 hpw 0 k l0 la hk
      rw [e0, ea] at this
      exact this.le
  linarith

end

/-! ## Maps of complex numbers -/

/-- Complex numbers with rational parts. -/
abbrev QI : Type := QuadraticAlgebra ℚ (-1) 0

/-- The square of the absolute value. -/
def absSq (z : QI) : ℚ := z.re ^ 2 + z.im ^ 2

/-- The whole property for Fourier transforms: the standard deviation is the root of the mean square of the distances from
the average. -/
def C116_full : Prop :=
  ∀ (g : Grid ℚ QI) (a : Arr QI) (log10 p10 root : ℚ → ℚ) (rootV : QI → Option QI) (edges : List ℚ) (r : Average ℚ QI)
    (sd : Arr (Option QI)), Regular g → g.grid = some a → (∀ i < g.dim, g.fourier.getD i false = true) → g.isPow = false →
    g.sphereFull log10 p10 root rootV id none none .linear (.given edges) none true = .ok (r, sd) →
    ∀ (k p : ℕ) (m : List (List ℕ)), k + 1 < edges.length → p < g.nProps →
      m = members g.nPix root g.fcenters (List.replicate g.dim 0) (List.range g.dim) edges k [] → m ≠ [] →
      ∃ mean, r.avg.get [k, p] = some mean ∧
        sd.get [k, p] = rootV ⟨(m.length : ℚ)⁻¹ * (m.map (fun d => absSq (cell a d p - mean))).sum, 0⟩

/-- A Fourier transform with five modes: 1, i, 0, -1 and -i. -/
def fiveModes : Grid ℚ QI :=
  { plainGrid [5] 1 (fun i => match i with
      | [0, _] => ⟨1, 0⟩
      | [1, _] => ⟨0, 1⟩
      | [3, _] => ⟨-1, 0⟩
      | [4, _] => ⟨0, -1⟩
      | _ => 0) with fourier := [true] }

theorem fiveModes_regular : Regular fiveModes := by
  have h := plainGrid_regular (K := ℚ) (V := QI) [5] 1 (fun i => match i with
      | [0, _] => ⟨1, 0⟩
      | [1, _] => ⟨0, 1⟩
      | [3, _] => ⟨-1, 0⟩
      | [4, _] => ⟨0, -1⟩
      | _ => 0) (by simp)
  exact { nPix := h.nPix, pix := h.pix, side := h.side, axes := h.axes, centers := h.centers, fcenters := h.fcenters,
          faxes := h.faxes, fourier := rfl, data := h.data,
          axis := fun i hi => by
            obtain ⟨n, w, c, h1, h2, h3⟩ := h.axis i hi
            exact ⟨n, w, c, h1, h2, ⟨h3.nPix, h3.pix, h3.center, h3.side, h3.axes, h3.centers, h3.fcenters, h3.faxes⟩⟩ }

/-- The root on the squares of the frequencies of `fiveModes`. -/
def rootFive (x : ℚ) : ℚ := if x = 1 / 25 then 1 / 5 else if x = 4 / 25 then 2 / 5 else 0

/-- The modes 1, i, -1 and -i in one shell have the average 0 and the standard deviation 0. -/
theorem C116_complex_wrong :
    okAnd (fiveModes.sphereFull id id rootFive some id none none .linear (.given [1 / 10, 1 / 2, 3 / 5]) none true)
      (fun r => r.1.shells = [1 / 10, 1 / 2, 3 / 5] ∧ r.1.count.get [0, 0] = 4 ∧ r.1.avg.get [0, 0] = some 0 ∧
        r.2.get [0, 0] = some 0 ∧
        members [5] rootFive fiveModes.fcenters [0] [0] [1 / 10, 1 / 2, 3 / 5] 0 [] = [[0], [1], [3], [4]]) = true := by
  decide +kernel

theorem C116_full_false : ¬ C116_full := by
  intro hfull
  have h := C116_complex_wrong
  rcases hr : fiveModes.sphereFull id id rootFive some id none none .linear (.given [1 / 10, 1 / 2, 3 / 5]) none true with e | ⟨r, sd⟩
  · rw [hr] at h
    cases h
  rw [hr] at h
  unfold okAnd at h
  simp only [decide_eq_true_eq] at h
  obtain ⟨-, -, h2, h3, h4⟩ := h
  obtain ⟨mean, e1, e2⟩ := hfull fiveModes _ id id rootFive some [1 / 10, 1 / 2, 3 / 5] r sd fiveModes_regular rfl
    (by intro i hi; match i, hi with | 0, _ => rfl) rfl hr 0 0 [[0], [1], [3], [4]] (by decide) (by decide) h4.symm (by decide)
  rw [h2] at e1
  cases e1
  rw [h3] at e2
  have := congrArg (Option.map QuadraticAlgebra.re) e2
  revert this
  decide +kernel

/-- A map of real numbers: mean and standard deviation (its square) of the two inner cells, biased and corrected. -/
example : okAnd ((plainGrid (K := ℚ) (V := ℚ) [4] 1 (fun i => (i.getD 0 0 : ℕ))).sphereFull id id rootEx some id none none .linear
      (.given [0, 1, 2]) none true)
      (fun r => r.1.avg.get [0, 0] = some (3 / 2) ∧ r.2.get [0, 0] = some (1 / 4) ∧ r.2.get [1, 0] = none) = true ∧
    okAnd ((plainGrid (K := ℚ) (V := ℚ) [4] 1 (fun i => (i.getD 0 0 : ℕ))).sphereFull id id rootEx some id none none .linear
      (.given [0, 1, 2]) none false)
      (fun r => r.2.get [0, 0] = some (1 / 2)) = true := by
  decide +kernel

/-- The logarithm of the real numbers meets the conditions of the theorems on logarithmic shells; distances 0, 1 and 3 and two
shells. -/
example : ∃ l, edgesFor (Real.logb 10) (fun x => (10 : ℝ) ^ x) .log (.auto 2) [0, 1, 3] = .ok l ∧ l.length = 3 ∧
    l.Pairwise (· < ·) ∧ ∀ k, ¬ InShell l k 0 := by
  have hmono : ∀ x y : ℝ, 0 < x → x < y → Real.logb 10 x < Real.logb 10 y :=
    fun x y hx hxy => Real.logb_lt_logb (by norm_num) hx hxy
  have hp : StrictMono (fun x : ℝ => (10 : ℝ) ^ x) := fun x y hxy => Real.rpow_lt_rpow_of_exponent_lt (by norm_num) hxy
  have hinv : ∀ x : ℝ, 0 < x → (10 : ℝ) ^ (Real.logb 10 x) = x :=
    fun x hx => Real.rpow_logb (by norm_num) (by norm_num) hx
  have hadd : ∀ x y : ℝ, (10 : ℝ) ^ (x + y) = (10 : ℝ) ^ x * (10 : ℝ) ^ y := fun x y => Real.rpow_add (by norm_num) x y
  have h1 : ([0, 1, 3] : List ℝ).min? = some 0 := by
    rw [List.min?_eq_some_iff]
    refine ⟨by simp, ?_⟩
    intro b hb
    simp only [List.mem_cons, List.not_mem_nil, or_false] at hb
    rcases hb with rfl | rfl | rfl <;> norm_num
  have h2 : ([0, 1, 3] : List ℝ).max? = some 3 := by
    rw [List.max?_eq_some_iff]
    refine ⟨by simp, ?_⟩
    intro b hb
    simp only [List.mem_cons, List.not_mem_nil, or_false] at hb
    rcases hb with rfl | rfl | rfl <;> norm_num
  have h3 : (([0, 1, 3] : List ℝ).filter (fun x => decide (0 < x))).min? = some 1 := by
    rw [List.min?_eq_some_iff]
    refine ⟨by simp, ?_⟩
    intro b hb
    simp only [List.mem_filter, List.mem_cons, List.not_mem_nil, or_false, decide_eq_true_eq] at hb
    rcases hb with ⟨rfl | rfl | rfl, hb⟩ <;> first | (exact absurd hb (lt_irrefl _)) | norm_num
  have h : ∃ l, edgesFor (Real.logb 10) (fun x => (10 : ℝ) ^ x) .log (.auto 2) [0, 1, 3] = .ok l := by
    unfold edgesFor logEdges
    simp only [h1, h2, h3, le_refl, if_true]
    rw [if_neg (by norm_num)]
    exact ⟨_, rfl⟩
  obtain ⟨l, hl⟩ := h
  have hnn : ∀ z ∈ ([0, 1, 3] : List ℝ), 0 ≤ z := by
    intro z hz
    simp only [List.mem_cons, List.not_mem_nil, or_false] at hz
    rcases hz with rfl | rfl | rfl <;> norm_num
  obtain ⟨q1, q2, -⟩ := C116_log_edges _ _ hmono hp hinv hadd _ 2 l hl 0 1 (by simp) (by simp) (by norm_num) hnn
  exact ⟨l, hl, q1, q2, C116_log_centre_lost _ _ hmono hp hinv hadd _ 2 l hl 0 1 (by simp) (by simp) (by norm_num) hnn⟩

end Verif.Map
