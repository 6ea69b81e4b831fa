import Verif.Props.Spectrum
import Verif.Props.GridSphere

/-!
# C137: power spectra averaged in shells of frequency
-/

set_option linter.unusedSectionVars false

namespace Verif.Map

open Verif.Sim (Err)
open Spec

/-- The grid with the spectrum: regular, with the axes of the map; the axes that were transformed are
marked as being in Fourier space. -/
theorem spectrum_grid (g : Grid ℝ ℂ) (hg : Regular g) (hl : Labelled g) (ax : Option (List ℕ))
    (inPlace nz : Bool) (p : Grid ℝ ℂ) (h : (g.powerSpectrum none ax inPlace nz).result = .ok p) :
    Regular p ∧ SameAxes g p ∧ p.nProps = g.nProps ∧ p.isPow = true ∧
      (∀ i ∈ chosen g ax, i < g.dim) ∧ ∀ i ∈ chosen g ax, p.fourier.getD i false = true := by
  obtain ⟨hacc, q, hq, hp⟩ := power_result g none ax inPlace nz hg p h
  have hlt : ∀ i ∈ chosen g ax, i < g.dim := hacc.axes'
  have hpq : p.grid = some q := by
    rcases hp with ⟨-, rfl⟩ | ⟨-, w, -, rfl⟩ <;> rfl
  have hsame : SameAxes g p ∧ p.nProps = g.nProps ∧ p.isPow = true ∧ p.fourier.length = g.dim ∧
      ∀ i ∈ chosen g ax, p.fourier.getD i false = true := by
    rcases hp with ⟨-, rfl⟩ | ⟨-, w, hw, rfl⟩
    · refine ⟨⟨rfl, rfl, rfl, rfl, rfl, rfl, rfl, rfl, rfl, rfl⟩, rfl, rfl, ?_, ?_⟩
      · simp [replaced, flipped, hg.fourier]
      · intro i hi
        have := flipped_transformList g.fourier (theAxes g ax) g.dim i hg.fourier.symm (hlt i hi)
        show (flipped g.fourier (transformList g.fourier (theAxes g ax) g.dim)).getD i false = true
        rw [this]
        exact decide_eq_true hi
    · obtain ⟨w', hw', -, hsa, hnp, -⟩ := rebuild g hg hl g.nProps g.gridunits (by
        by_contra hc
        rw [new_units_fail g hg hl g.nProps g.gridunits (fun e => hc (.inl e)) (fun e => hc (.inr e))] at hw
        cases hw)
      have : w = w' := by rw [hw] at hw'; exact Except.ok.inj hw'
      subst this
      refine ⟨⟨hsa.center, hsa.side, hsa.pix, hsa.nPix, hsa.axunits, hsa.faxunits, hsa.axes,
        hsa.centers, hsa.faxes, hsa.fcenters⟩, ?_, rfl, ?_, ?_⟩
      · exact hnp
      · simp [filled, hg.fourier]
      · intro i hi
        have : i < g.fourier.length := by rw [hg.fourier]; exact hlt i hi
        simp [filled, List.getD_eq_getElem?_getD, this]
  obtain ⟨hsa, hn, hpow, hflen, hfl⟩ := hsame
  obtain ⟨h1, h2, h3⟩ := power_shape g none ax inPlace nz p q hg hl (by simp) h hpq
  have hdim : p.dim = g.dim := by
    show p.center.vals.length = _
    rw [hsa.center]
    rfl
  refine ⟨⟨?_, ?_, ?_, ?_, ?_, ?_, ?_, ?_, ?_, ?_⟩, hsa, hn, hpow, hlt, hfl⟩
  · rw [hsa.nPix, hdim]; exact hg.nPix
  · rw [hsa.pix, hdim]; exact hg.pix
  · rw [hsa.side, hdim]; exact hg.side
  · rw [hsa.axes, hdim]; exact hg.axes
  · rw [hsa.centers, hdim]; exact hg.centers
  · rw [hsa.fcenters, hdim]; exact hg.fcenters
  · rw [hsa.faxes, hdim]; exact hg.faxes
  · rw [hdim]; exact hflen
  · intro i hi
    rw [hdim] at hi
    obtain ⟨n, w, c, h1, h2, q⟩ := hg.axis i hi
    exact ⟨n, w, c, h1, h2, ⟨by rw [hsa.nPix]; exact q.nPix, by rw [hsa.pix]; exact q.pix,
      by rw [hsa.center]; exact q.center, by rw [hsa.side]; exact q.side, by rw [hsa.axes]; exact q.axes,
      by rw [hsa.centers]; exact q.centers, by rw [hsa.fcenters]; exact q.fcenters,
      by rw [hsa.faxes]; exact q.faxes⟩⟩
  · intro b hb
    rw [hpq] at hb
    have hb := Option.some.inj hb
    subst hb
    rw [h3, hsa.nPix, hn]
    simp only [Option.map_none, Option.getD_none]
    split_ifs with h4
    · rw [h4]
    · rfl

/-- The spherical average of a power spectrum: in each shell of frequencies but the last, the mean of
the squared amplitudes of the waves whose frequency is in the shell, and their number. -/
theorem C137_average_partial (g : Grid ℝ ℂ) (hg : Regular g) (hl : Labelled g)
    (hreal : true ∉ g.fourier) (a : Arr ℂ) (ha : g.grid = some a) (ax : Option (List ℕ))
    (hnd : (chosen g ax).Nodup) (inPlace nz : Bool) (p : Grid ℝ ℂ)
    (h : (g.powerSpectrum none ax inPlace nz).result = .ok p) (drop : ℂ → ℂ)
    (hdrop : ∀ x : ℝ, drop x = x) (sh : Shells ℝ) (r : Average ℝ ℂ)
    (hr : p.sphericalAverage Real.sqrt drop ax none sh none = .ok r)
    (hs : r.shells.Pairwise (· < ·)) (k q : ℕ) (c : List ℕ) (hk : k + 2 < r.shells.length)
    (hq : q < g.nProps) :
    r.count.get (k :: c ++ [q]) = (shellModes g (chosen g ax) r.shells k c).length ∧
    r.avg.get (k :: c ++ [q]) =
      if shellModes g (chosen g ax) r.shells k c = [] then none
      else some ((((shellModes g (chosen g ax) r.shells k c).map
        (power g (chosen g ax) nz a q)).sum / (shellModes g (chosen g ax) r.shells k c).length : ℝ) : ℂ) := by
  obtain ⟨hp, hsa, hn, hpow, hlt, hfl⟩ := spectrum_grid g hg hl ax inPlace nz p h
  obtain ⟨b, hb, -, hv⟩ := C136_value g hg hreal a ha ax hnd inPlace nz p h
  have hdim : p.dim = g.dim := by
    show p.center.vals.length = _
    rw [hsa.center]
    rfl
  have hax : ax.getD (List.range p.dim) = chosen g ax := by rw [hdim]; rfl
  obtain ⟨ax', m, e1, e2, h1, h2⟩ := C26_value_partial p hp b hb Real.sqrt drop ax none sh none
    (by intro x hx; cases hx) (fun _ _ _ _ => ⟨1, by simp [weightOf]⟩) r hr hs k q c hk (by rw [hn]; exact hq)
  rw [hax] at e1
  subst e1
  have hm : m = shellModes g (chosen g ax) r.shells k c := by
    rw [e2]
    unfold shellModes coordsOf centerOf
    rw [if_pos hfl, if_pos hfl, hsa.nPix, hsa.fcenters, hdim]
    rfl
  rw [hm] at h1 h2
  refine ⟨h1, ?_⟩
  rw [h2]
  have hw : ((shellModes g (chosen g ax) r.shells k c).map (fun d => weightOf none p d q)).sum =
      ((shellModes g (chosen g ax) r.shells k c).length : ℝ) := by
    simp [weightOf]
  rw [hw]
  have hsum : ∀ l : List (List ℕ), (∀ d ∈ l, d ∈ allCells g.nPix) →
      (l.map (fun d => asData p (chosen g ax) drop (weightOf none p d q • cell b d q))).sum =
      (((l.map (power g (chosen g ax) nz a q)).sum : ℝ) : ℂ) := by
    intro l hl
    induction l with
    | nil => simp
    | cons d l ih =>
      rw [List.map_cons, List.sum_cons, List.map_cons, List.sum_cons,
        ih (fun x hx => hl x (List.mem_cons_of_mem _ hx))]
      have : asData p (chosen g ax) drop (weightOf none p d q • cell b d q) =
          ((power g (chosen g ax) nz a q d : ℝ) : ℂ) := by
        unfold asData
        rw [if_neg (by simp [hpow])]
        simp only [weightOf, one_smul]
        rw [hv d (hl d (List.mem_cons_self ..)) q hq]
        exact hdrop _
      rw [this]
      push_cast
      ring
  rw [hsum (shellModes g (chosen g ax) r.shells k c) (fun d hd => List.mem_of_mem_filter hd)]
  by_cases hnil : shellModes g (chosen g ax) r.shells k c = []
  · rw [if_pos (by simp [hnil]), if_pos hnil]
  · rw [if_neg (by simpa using hnil), if_neg hnil]
    congr 1
    rw [Complex.real_smul]
    push_cast
    rw [div_eq_mul_inv, mul_comm]

/-- The call succeeds for all lists of increasing edges. -/
theorem C137_succeeds (g : Grid ℝ ℂ) (hg : Regular g) (hl : Labelled g) (ax : Option (List ℕ))
    (inPlace nz : Bool) (p : Grid ℝ ℂ)
    (h : (g.powerSpectrum none ax inPlace nz).result = .ok p) (drop : ℂ → ℂ) (edges : List ℝ)
    (he : edges ≠ []) (hs : edges.Pairwise (· < ·)) :
    ∃ r, p.sphericalAverage Real.sqrt drop ax none (.given edges) none = .ok r ∧ r.shells = edges := by
  obtain ⟨hp, hsa, hn, hpow, hlt, hfl⟩ := spectrum_grid g hg hl ax inPlace nz p h
  obtain ⟨b, hb⟩ : ∃ b, p.grid = some b := by
    obtain ⟨-, q, -, hp⟩ := power_result g none ax inPlace nz hg p h
    exact ⟨q, by rcases hp with ⟨-, rfl⟩ | ⟨-, w, -, rfl⟩ <;> rfl⟩
  have hdim : p.dim = g.dim := by
    show p.center.vals.length = _
    rw [hsa.center]
    rfl
  have hax : ax.getD (List.range p.dim) = chosen g ax := by rw [hdim]; rfl
  exact C26_succeeds p hp b hb Real.sqrt drop ax (by
      rw [hax]; exact ⟨by rw [hdim]; exact hlt, .inl hfl⟩) none (by simp) edges he hs none
    (by intro x hx; cases hx)

/-- The full statement: the average in every shell. -/
def C137_full : Prop :=
  ∀ (g : Grid ℝ ℂ) (a : Arr ℂ) (ax : Option (List ℕ)) (inPlace nz : Bool) (p : Grid ℝ ℂ) (drop : ℂ → ℂ)
    (sh : Shells ℝ) (r : Average ℝ ℂ) (k q : ℕ) (c : List ℕ), Regular g → Labelled g → true ∉ g.fourier →
    g.grid = some a → (chosen g ax).Nodup → (g.powerSpectrum none ax inPlace nz).result = .ok p →
    (∀ x : ℝ, drop x = x) → p.sphericalAverage Real.sqrt drop ax none sh none = .ok r →
    r.shells.Pairwise (· < ·) → k + 1 < r.shells.length → q < g.nProps →
    r.avg.get (k :: c ++ [q]) =
      if shellModes g (chosen g ax) r.shells k c = [] then none
      else some ((((shellModes g (chosen g ax) r.shells k c).map
        (power g (chosen g ax) nz a q)).sum / (shellModes g (chosen g ax) r.shells k c).length : ℝ) : ℂ)

/-- The last shell is always empty, whatever power there is. -/
theorem C137_last_lost (g : Grid ℝ ℂ) (hg : Regular g) (hl : Labelled g) (ax : Option (List ℕ))
    (inPlace nz : Bool) (p : Grid ℝ ℂ)
    (h : (g.powerSpectrum none ax inPlace nz).result = .ok p) (drop : ℂ → ℂ) (sh : Shells ℝ)
    (r : Average ℝ ℂ) (hr : p.sphericalAverage Real.sqrt drop ax none sh none = .ok r) (k : ℕ)
    (hk : k + 2 = r.shells.length) (c : List ℕ) :
    r.count.get (k :: c) = 0 ∧ r.avg.get (k :: c) = none := by
  obtain ⟨hp, -⟩ := spectrum_grid g hg hl ax inPlace nz p h
  obtain ⟨b, hb⟩ : ∃ b, p.grid = some b := by
    obtain ⟨-, q, -, hp⟩ := power_result g none ax inPlace nz hg p h
    exact ⟨q, by rcases hp with ⟨-, rfl⟩ | ⟨-, w, -, rfl⟩ <;> rfl⟩
  exact C26_last_shell_lost p hp b hb Real.sqrt drop ax none sh none r hr k c hk

/-- One object in an empty map: the average is the same in all shells that contain a frequency (but the
last), the square of its value. -/
theorem C137_flat (g : Grid ℝ ℂ) (hg : Regular g) (hl : Labelled g) (hreal : true ∉ g.fourier) (a : Arr ℂ)
    (ha : g.grid = some a) (hp1 : 0 < g.nProps) (hempty : ∀ c, cell a c 0 = 0)
    (row : List ℝ) (v : ℂ) (hrow : row.length = g.dim) (hin : InGrid g.axes row) (inPlace nz : Bool) :
    ∃ g', g.addFromCat (posOf [(row, [v])]) (some (valsOf 1 [(row, [v])])) false (some [0]) =
        (g', .ok ()) ∧
      ∀ p, (g'.powerSpectrum none none inPlace nz).result = .ok p → ∀ (drop : ℂ → ℂ),
        (∀ x : ℝ, drop x = x) → ∀ (sh : Shells ℝ) (r : Average ℝ ℂ),
        p.sphericalAverage Real.sqrt drop none none sh none = .ok r → r.shells.Pairwise (· < ·) →
        ∀ k, k + 2 < r.shells.length → shellModes g (List.range g.dim) r.shells k [] ≠ [] →
          r.avg.get [k, 0] = some (((if nz then cellSize (waveAxes g (List.range g.dim)) else 1) ^ 2 *
            Complex.normSq v : ℝ) : ℂ) := by
  obtain ⟨g', h1, h2⟩ := C136_single g hg hreal a ha hp1 hempty row v hrow hin inPlace nz
  refine ⟨g', h1, ?_⟩
  intro p hp drop hdrop sh r hr hs k hk hne
  obtain ⟨b', n, h3, hg', -⟩ := added_map g hg hreal a ha hp1 [(row, [v])] (by simpa [Fits] using hrow)
  have he : g' = { g with grid := some b', nObj := n } := by
    have := h1.symm.trans h3
    exact (Prod.mk.inj this).1
  subst he
  obtain ⟨b, hb, hv⟩ := h2 p hp
  obtain ⟨bb, hbb, -, hval⟩ := C136_value _ hg' hreal b' rfl none List.nodup_range inPlace nz p hp
  have : bb = b := by rw [hb] at hbb; exact (Option.some.inj hbb).symm
  subst this
  have key := (C137_average_partial _ hg' hl hreal b' rfl none List.nodup_range inPlace nz p hp drop hdrop
    sh r hr hs k 0 [] hk hp1).2
  have hm : shellModes ({ g with grid := some b', nObj := n } : Grid ℝ ℂ)
      (chosen ({ g with grid := some b', nObj := n } : Grid ℝ ℂ) none) r.shells k [] =
      shellModes g (List.range g.dim) r.shells k [] := rfl
  rw [hm, if_neg hne] at key
  refine key.trans ?_
  have hpw : ∀ d ∈ shellModes g (List.range g.dim) r.shells k [],
      power ({ g with grid := some b', nObj := n } : Grid ℝ ℂ)
        (chosen ({ g with grid := some b', nObj := n } : Grid ℝ ℂ) none) nz b' 0 d =
      (if nz then cellSize (waveAxes g (List.range g.dim)) else 1) ^ 2 * Complex.normSq v := by
    intro d hd
    have hd := List.mem_of_mem_filter hd
    have e1 := hv d hd
    have e2 := hval d hd 0 hp1
    rw [e1] at e2
    exact_mod_cast e2.symm
  rw [List.map_congr_left hpw]
  congr 2
  have hlen : ((shellModes g (List.range g.dim) r.shells k []).length : ℝ) ≠ 0 := by
    simpa using hne
  rw [List.map_const', List.sum_replicate, nsmul_eq_mul]
  field_simp

theorem inShell_unique {edges : List ℝ} (hs : edges.Pairwise (· < ·)) {x : ℝ} {k l : ℕ}
    (hk : InShell edges k x) (hl : InShell edges l x) : k = l := by
  have key : ∀ {k l : ℕ}, InShell edges k x → InShell edges l x → ¬ k < l := by
    intro k l hk hl hlt
    obtain ⟨lo, h1, hi, h2, h3, h4⟩ := hk
    obtain ⟨lo', h1', hi', h2', h3', h4'⟩ := hl
    have h2 : edges[k + 1]? = some hi := h2
    have h1' : edges[l]? = some lo' := h1'
    obtain ⟨a1, a2⟩ := List.getElem?_eq_some_iff.1 h2
    obtain ⟨b1, b2⟩ := List.getElem?_eq_some_iff.1 h1'
    have : hi ≤ lo' := by
      rcases Nat.lt_or_eq_of_le (show k + 1 ≤ l by omega) with h | h
      · have := List.pairwise_iff_getElem.1 hs (k + 1) l a1 b1 h
        rw [a2, b2] at this
        exact this.le
      · subst h
        rw [a2] at b2
        exact b2.le
    linarith
  have h1 := key hk hl
  have h2 := key hl hk
  omega

theorem sum_parts {α : Type} (f : α → ℝ) (P : ℕ → α → Prop) [∀ k a, Decidable (P k a)]
    (hP : ∀ a k l, P k a → P l a → k = l) (n : ℕ) (l : List α) :
    ((List.range n).map (fun k => ((l.filter (fun a => decide (P k a))).map f).sum)).sum +
      ((l.filter (fun a => decide (∀ k < n, ¬ P k a))).map f).sum = (l.map f).sum := by
  induction n with
  | zero => simp
  | succ n ih =>
    rw [List.range_succ, List.map_append, List.sum_append, ← ih]
    simp only [List.map_cons, List.map_nil, List.sum_cons, List.sum_nil, add_zero]
    rw [add_assoc]
    congr 1
    clear ih
    induction l with
    | nil => simp
    | cons a l ih =>
      by_cases h1 : P n a
      · have h2 : ∀ k < n, ¬ P k a := fun k hk h => by have := hP a k n h h1; omega
        have h3 : ¬ ∀ k < n + 1, ¬ P k a := fun h => h n (by omega) h1
        rw [List.filter_cons_of_pos (by simpa using h1), List.filter_cons_of_neg (by simpa using h3),
          List.filter_cons_of_pos (by simpa using h2)]
        simp only [List.map_cons, List.sum_cons]
        rw [add_assoc, ih]
      · rw [List.filter_cons_of_neg (by simpa using h1)]
        by_cases h2 : ∀ k < n, ¬ P k a
        · have h3 : ∀ k < n + 1, ¬ P k a := by
            intro k hk
            rcases Nat.lt_or_eq_of_le (show k ≤ n by omega) with h | h
            · exact h2 k h
            · rw [h]; exact h1
          rw [List.filter_cons_of_pos (by simpa using h3), List.filter_cons_of_pos (by simpa using h2)]
          simp only [List.map_cons, List.sum_cons]
          rw [← ih]
          ring
        · have h3 : ¬ ∀ k < n + 1, ¬ P k a := fun h => h2 (fun k hk => h k (by omega))
          rw [List.filter_cons_of_neg (by simpa using h3), List.filter_cons_of_neg (by simpa using h2)]
          exact ih

theorem rest_all (l : List ℕ) (n : ℕ) (h : l.length = n) : rest (List.range n) l = [] := by
  unfold rest
  rw [List.filterMap_eq_nil_iff]
  intro i hi
  rw [List.mem_range] at hi
  rw [if_pos (by rw [List.mem_range]; omega)]

/-- The averages times the numbers of frequencies, together with the power outside the shells (and in
the last one), add up to the number of frequencies times the sum of the squares of all values. -/
theorem C137_accounted (g : Grid ℝ ℂ) (hg : Regular g) (hl : Labelled g)
    (hreal : true ∉ g.fourier) (a : Arr ℂ) (ha : g.grid = some a) (inPlace nz : Bool) (p : Grid ℝ ℂ)
    (h : (g.powerSpectrum none none inPlace nz).result = .ok p) (drop : ℂ → ℂ)
    (hdrop : ∀ x : ℝ, drop x = x) (sh : Shells ℝ) (r : Average ℝ ℂ)
    (hr : p.sphericalAverage Real.sqrt drop none none sh none = .ok r)
    (hs : r.shells.Pairwise (· < ·)) (q : ℕ) (hq : q < g.nProps) :
    ((List.range (r.shells.length - 2)).map (fun k =>
        (r.count.get [k, q] : ℝ) * ((r.avg.get [k, q]).getD 0).re)).sum +
      (((allCells g.nPix).filter (fun d => decide (∀ k < r.shells.length - 2,
        ¬ InShell r.shells k (Real.sqrt (sqDist g.fcenters (List.replicate g.dim 0) (List.range g.dim)
          d))))).map (power g (List.range g.dim) nz a q)).sum =
      modes (waveAxes g (List.range g.dim)) *
        (if nz then cellSize (waveAxes g (List.range g.dim)) else 1) ^ 2 *
        ((allCells g.nPix).map (fun j => Complex.normSq (cell a j q))).sum := by
  have hch : chosen g none = List.range g.dim := rfl
  obtain ⟨b, hb, htot⟩ := C136_parseval g hg hreal a ha none List.nodup_range inPlace nz p h q hq
  obtain ⟨b', hb', -, hv⟩ := C136_value g hg hreal a ha none List.nodup_range inPlace nz p h
  have : b' = b := by rw [hb] at hb'; exact (Option.some.inj hb').symm
  subst this
  rw [hch] at htot hv
  -- the whole power
  have hall : ((allCells g.nPix).map (power g (List.range g.dim) nz a q)).sum =
      modes (waveAxes g (List.range g.dim)) *
        (if nz then cellSize (waveAxes g (List.range g.dim)) else 1) ^ 2 *
        ((allCells g.nPix).map (fun j => Complex.normSq (cell a j q))).sum := by
    have e : total g b' q = (((allCells g.nPix).map (power g (List.range g.dim) nz a q)).sum : ℝ) := by
      unfold total
      have : ∀ l : List (List ℕ), (∀ d ∈ l, d ∈ allCells g.nPix) →
          (l.map (fun c => cell b' c q)).sum = ((l.map (power g (List.range g.dim) nz a q)).sum : ℝ) := by
        intro l hl
        induction l with
        | nil => simp
        | cons d l ih =>
          simp only [List.map_cons, List.sum_cons]
          rw [ih (fun x hx => hl x (List.mem_cons_of_mem _ hx)), hv d (hl d (List.mem_cons_self ..)) q hq]
          push_cast
          rfl
      exact this _ (fun _ h => h)
    rw [e] at htot
    exact_mod_cast htot
  rw [← hall]
  rw [← sum_parts (power g (List.range g.dim) nz a q)
    (fun k d => InShell r.shells k (Real.sqrt (sqDist g.fcenters (List.replicate g.dim 0)
      (List.range g.dim) d))) (fun d k l h1 h2 => inShell_unique hs h1 h2) (r.shells.length - 2)
    (allCells g.nPix)]
  congr 2
  apply List.map_congr_left
  intro k hk
  rw [List.mem_range] at hk
  obtain ⟨h1, h2⟩ := C137_average_partial g hg hl hreal a ha none List.nodup_range inPlace nz p h drop hdrop
    sh r hr hs k q [] (by omega) hq
  rw [hch] at h1 h2
  have hm : shellModes g (List.range g.dim) r.shells k [] =
      (allCells g.nPix).filter (fun d => decide (InShell r.shells k (Real.sqrt (sqDist g.fcenters
        (List.replicate g.dim 0) (List.range g.dim) d)))) := by
    unfold shellModes members
    apply List.filter_congr
    intro d hd
    have : rest (List.range g.dim) d = [] := rest_all d g.dim ((cell_length hg hd []).trans (waveAxes_length g []))
    simp [this]
  rw [hm] at h1 h2
  have e1 : r.count.get [k, q] = _ := h1
  have e2 : r.avg.get [k, q] = _ := h2
  rw [e1, e2]
  generalize (allCells g.nPix).filter (fun d => decide (InShell r.shells k (Real.sqrt (sqDist g.fcenters
        (List.replicate g.dim 0) (List.range g.dim) d)))) = m
  by_cases hnil : m = []
  · simp [hnil]
  · rw [if_neg hnil]
    have hlen : (m.length : ℝ) ≠ 0 := by simpa using hnil
    simp only [Option.getD_some, Complex.ofReal_re]
    field_simp

/-- Frequency zero is in the first shell, if that starts at zero. -/
theorem zero_mode (g : Grid ℝ ℂ) (hg : Regular g) (hd : g.dim = 2) (hpx : g.nPix = [10, 10]) (hi : ℝ)
    (hpos : 0 < hi) (rest' : List ℝ) :
    [5, 5] ∈ shellModes g (List.range g.dim) (0 :: hi :: rest') 0 [] := by
  unfold shellModes members
  rw [List.mem_filter]
  refine ⟨by rw [hpx]; decide +kernel, ?_⟩
  have hz : sqDist g.fcenters (List.replicate g.dim 0) (List.range g.dim) [5, 5] = 0 := by
    obtain ⟨n, w, c, -, -, q⟩ := hg.axis 0 (by omega)
    obtain ⟨n', w', c', -, -, q'⟩ := hg.axis 1 (by omega)
    have e1 := q.nPix
    have e2 := q'.nPix
    rw [hpx] at e1 e2
    have e1 : 10 = n := Option.some.inj e1
    have e2 : 10 = n' := Option.some.inj e2
    subst e1 e2
    have v1 : (g.fcenters.getD 0 []).getD 5 0 = 0 := by
      rw [List.getD_eq_getElem?_getD, List.getD_eq_getElem?_getD, q.fcenters]
      simp [freqs]
    have v2 : (g.fcenters.getD 1 []).getD 5 0 = 0 := by
      rw [List.getD_eq_getElem?_getD, List.getD_eq_getElem?_getD, q'.fcenters]
      simp [freqs]
    unfold sqDist
    rw [hd]
    have hr2 : List.range 2 = [0, 1] := rfl
    rw [hr2]
    simp only [List.map_cons, List.map_nil, List.sum_cons, List.sum_nil, List.getD_cons_zero,
      List.getD_cons_succ, v1, v2]
    simp
  have hrest : rest (List.range g.dim) [5, 5] = [] := rest_all _ _ (by simp [hd])
  rw [decide_eq_true_iff, hz, hrest]
  exact ⟨⟨0, rfl, hi, rfl, by simp, by simpa using hpos⟩, rfl⟩

theorem C137_full_false : ¬ C137_full := by
  intro hfull
  obtain ⟨g, hr, hl, hn, hu, hg, hd, hpx, hf, hp⟩ := new_square 2 ramp rfl
  have hreal : true ∉ g.fourier := by rw [hf]; simp
  obtain ⟨p, hp', -⟩ := C24_succeeds g none none false true hr (by simp) hl
    (.inr (.inr (by omega))) (by simp) ⟨by simp [hg], hp, by simp, by simp⟩
  have hs : ([0, 10] : List ℝ).Pairwise (· < ·) := by simp
  obtain ⟨r, h1, h2⟩ := C137_succeeds g hr hl none false true p hp' id [0, 10] (by simp) hs
  have h3 := hfull g ramp none false true p id (.given [0, 10]) r 0 0 [] hr hl hreal hg List.nodup_range
    hp' (fun _ => rfl) h1 (by rw [h2]; exact hs) (by rw [h2]; simp) (by omega)
  have h4 := (C137_last_lost g hr hl none false true p hp' id _ r h1 0 (by rw [h2]; rfl) [0]).2
  have h5 : r.avg.get (0 :: [] ++ [0]) = none := h4
  rw [h5] at h3
  have hz := zero_mode g hr hd hpx 10 (by norm_num) []
  rw [h2, if_neg (by
    intro e
    have e : shellModes g (List.range g.dim) [0, 10] 0 [] = [] := e
    rw [e] at hz
    cases hz)] at h3
  cases h3

/-! ## Examples -/

/-- A map with different values: two shells, the first contains frequency zero. -/
example : ∃ (g p : Grid ℝ ℂ) (r : Average ℝ ℂ), Regular g ∧ g.grid = some ramp ∧
    (g.powerSpectrum none none false true).result = .ok p ∧
    p.sphericalAverage Real.sqrt id none none (.given [0, 10, 20]) none = .ok r ∧
    (∃ x : ℝ, r.avg.get [0, 1] = some (x : ℂ)) ∧ 0 < r.count.get [0, 1] := by
  obtain ⟨g, hr, hl, hn, hu, hg, hd, hpx, hf, hp⟩ := new_square 2 ramp rfl
  have hreal : true ∉ g.fourier := by rw [hf]; simp
  obtain ⟨p, hp', -⟩ := C24_succeeds g none none false true hr (by simp) hl
    (.inr (.inr (by omega))) (by simp) ⟨by simp [hg], hp, by simp, by simp⟩
  have hs : ([0, 10, 20] : List ℝ).Pairwise (· < ·) := by norm_num
  obtain ⟨r, h1, h2⟩ := C137_succeeds g hr hl none false true p hp' id [0, 10, 20] (by simp) hs
  obtain ⟨h3, h4⟩ := C137_average_partial g hr hl hreal ramp hg none List.nodup_range false true p hp' id
    (fun _ => rfl) _ r h1 (by rw [h2]; exact hs) 0 1 [] (by rw [h2]; simp) (by omega)
  have hz := zero_mode g hr hd hpx 10 (by norm_num) [20]
  have hne : shellModes g (chosen g none) r.shells 0 [] ≠ [] := by
    intro e
    have e : shellModes g (List.range g.dim) r.shells 0 [] = [] := e
    rw [h2] at e
    rw [e] at hz
    cases hz
  rw [if_neg hne] at h4
  refine ⟨g, p, r, hr, hg, hp', h1, ⟨_, h4⟩, ?_⟩
  have h3 : r.count.get [0, 1] = _ := h3
  rw [h3]
  exact List.length_pos_of_ne_nil hne

end Verif.Map
