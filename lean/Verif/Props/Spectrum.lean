import Verif.Lemmas.SpectrumSums
import Verif.Props.GridFT
import Verif.Props.GridAdd

/-!
# C136: the values of power spectra
-/

set_option linter.unusedSectionVars false

namespace Verif.Map

open Verif.Sim (Err)
open Spec
open scoped BigOperators

/-! ## Lemmas -/

theorem waveAxes_length (g : Grid ℝ ℂ) (ax : List ℕ) : (waveAxes g ax).length = g.dim := by
  simp [waveAxes]

theorem waveAxes_get (g : Grid ℝ ℂ) (ax : List ℕ) (d : ℕ) (x : WaveAxis)
    (h : (waveAxes g ax)[d]? = some x) : d < g.dim ∧
      x = ⟨decide (d ∈ ax), g.nPix.getD d 0, g.pix.vals.getD d 0, g.fcenters.getD d []⟩ := by
  unfold waveAxes at h
  rw [List.getElem?_map] at h
  have hd : d < g.dim := by
    by_contra hc
    rw [List.getElem?_eq_none (by simp; omega)] at h
    cases h
  rw [List.getElem?_range hd] at h
  exact ⟨hd, (Option.some.inj h).symm⟩

theorem waveAxes_n (g : Grid ℝ ℂ) (hg : Regular g) (ax : List ℕ) :
    (waveAxes g ax).map (·.n) = g.nPix := by
  apply List.ext_getElem
  · simp [waveAxes, hg.nPix]
  · intro d h1 h2
    simp [waveAxes, h2, List.getD_eq_getElem?_getD]

theorem waveAxes_good (g : Grid ℝ ℂ) (hg : Regular g) (ax : List ℕ) :
    ∀ x ∈ waveAxes g ax, GoodAxis x := by
  intro x hx
  obtain ⟨d, hd⟩ := List.getElem?_of_mem hx
  obtain ⟨hlt, rfl⟩ := waveAxes_get g ax d x hd
  obtain ⟨n, w, c, hn, hw, q⟩ := hg.axis d hlt
  refine ⟨?_, ?_, ?_⟩
  · show 0 < g.nPix.getD d 0
    rw [List.getD_eq_getElem?_getD, q.nPix]
    show 0 < n
    omega
  · show 0 < g.pix.vals.getD d 0
    rw [List.getD_eq_getElem?_getD, q.pix]
    exact hw
  · show g.fcenters.getD d [] = freqs (g.nPix.getD d 0) (g.pix.vals.getD d 0)
    simp only [List.getD_eq_getElem?_getD, q.fcenters, q.nPix, q.pix]
    rfl

theorem fourier_false (g : Grid ℝ ℂ) (hreal : true ∉ g.fourier) (i : ℕ) :
    g.fourier.getD i false = false := by
  by_contra hc
  have hc : g.fourier.getD i false = true := by simpa using hc
  apply hreal
  rw [List.getD_eq_getElem?_getD] at hc
  rcases h' : g.fourier[i]? with _ | b
  · rw [h'] at hc; cases hc
  · rw [h'] at hc
    have : b = true := hc
    subst this
    exact List.mem_of_getElem? h'

/-- The transform of a map in real space. -/
theorem transformed_amp (g : Grid ℝ ℂ) (hg : Regular g) (hreal : true ∉ g.fourier) (a : Arr ℂ)
    (ha : g.grid = some a) (l : List ℕ) (hnd : l.Nodup) (hl : ∀ i ∈ l, i < g.dim) (nz : Bool)
    (k : List ℕ) (hk : k ∈ allCells g.nPix) (q : ℕ) (hq : q < g.nProps) :
    (transformed g a l nz).get (k ++ [q]) =
      amplitude (waveAxes g l) nz (fun j => cell a j q) k := by
  have hf := fourier_false g hreal
  have hklen : k.length = (waveAxes g l).length := by
    rw [waveAxes_length, ← hg.nPix]
    exact List.Forall₂.length_eq ((mem_allCells _ _).1 hk)
  have hs : a.shape = (waveAxes g l).map (·.n) ++ [g.nProps] := by
    rw [waveAxes_n g hg]; exact hg.data a ha
  have hv : Valid a.shape (k ++ [q]) := by
    rw [hg.data a ha]
    exact List.rel_append ((mem_allCells _ _).1 hk) (.cons hq .nil)
  unfold transformed
  simp only [hf, Bool.not_false, List.filter_true, List.filter_false, backward_nil]
  obtain ⟨M, hMdef⟩ : ∃ M : ℕ → ℕ → ℕ → ℕ → ℂ, M = fun d _ k j =>
      match (waveAxes g l)[d]? with
      | some x => axisShare nz x k j
      | none => 0 := ⟨_, rfl⟩
  have hM : ∀ d x, (waveAxes g l)[d]? = some x → ∀ k j, M d x.n k j = axisShare nz x k j := by
    intro d x hx k j
    rw [hMdef]
    simp only [hx]
  have h1 := forward_chainD g.pix.vals nz (waveAxes g l) g.nProps (waveAxes_good g hg l)
    (by
      intro d x hx
      obtain ⟨-, rfl⟩ := waveAxes_get g l d x hx
      rfl) M hM l hnd
    (by
      intro d hd
      refine ⟨⟨decide (d ∈ l), g.nPix.getD d 0, g.pix.vals.getD d 0, g.fcenters.getD d []⟩, ?_,
        by simpa using hd⟩
      unfold waveAxes
      rw [List.getElem?_map, List.getElem?_range (hl d hd)]
      rfl) a hs
  rw [h1.2 _ (by rw [forward_shape a _ l nz (fun x hx => hg.axis_lt ha x (hl x hx))]; exact hv)]
  have hperm : (l ++ (List.range g.dim).filter (fun d => decide (d ∉ l))).Perm (List.range g.dim) := by
    rw [List.perm_ext_iff_of_nodup]
    · intro d
      simp only [List.mem_append, List.mem_filter, List.mem_range, decide_eq_true_eq]
      constructor
      · rintro (h | h)
        · exact hl d h
        · exact h.1
      · intro h
        by_cases hd : d ∈ l
        · exact .inl hd
        · exact .inr ⟨h, hd⟩
    · rw [List.nodup_append]
      refine ⟨hnd, List.nodup_range.filter _, ?_⟩
      intro x hx y hy hxy
      subst hxy
      simp only [List.mem_filter, decide_eq_true_eq] at hy
      exact hy.2 hx
    · exact List.nodup_range
  have h2 := chainD_perm M hperm a
  have h3 : chainD M (l ++ (List.range g.dim).filter (fun d => decide (d ∉ l))) a =
      chainD M ((List.range g.dim).filter (fun d => decide (d ∉ l))) (chainD M l a) :=
    List.foldl_append ..
  have h4 := chainD_unit M ((List.range g.dim).filter (fun d => decide (d ∉ l))) (chainD M l a)
    (by
      intro x hx
      rw [chainD_shape]
      exact hg.axis_lt ha x (List.mem_range.1 (List.mem_of_mem_filter hx)))
    (by
      intro x hx n k j
      simp only [List.mem_filter, List.mem_range, decide_eq_true_eq] at hx
      rw [hMdef]
      unfold waveAxes
      simp only [List.getElem?_map, List.getElem?_range hx.1, Option.map_some, axisShare]
      simp [hx.2])
  rw [← h3, h2] at h4
  rw [← h4.2 _ (by rw [chainD_shape]; exact hv), amp_eq _ _ _ _ hklen]
  have h5 := chainD_sum nz (waveAxes g l) g.nProps q a M hs hM k hklen
  rw [waveAxes_length] at h5
  exact h5

/-- The data after the preparing transform of a map in real space. -/
theorem prepared_amp (g : Grid ℝ ℂ) (hg : Regular g) (hreal : true ∉ g.fourier) (a : Arr ℂ)
    (ha : g.grid = some a) (hp : g.isPow = false) (l : List ℕ) (hnd : l.Nodup)
    (hl : ∀ i ∈ l, i < g.dim) (n : ℕ) (nz : Bool) (k : List ℕ) (hk : k ∈ allCells g.nPix) (q : ℕ)
    (hq : q < g.nProps) :
    (g.ft (some (transformList g.fourier l n)) nz).1.data.get (k ++ [q]) =
      amplitude (waveAxes g l) nz (fun j => cell a j q) k := by
  have hf := fourier_false g hreal
  have htl : transformList g.fourier l n = l := by
    unfold transformList
    simp only [hf, Bool.not_false, List.filter_true, Bool.and_false, List.filter_false,
      List.append_nil]
  rw [htl, ft_ok g a ha hp l hl nz]
  exact transformed_amp g hg hreal a ha l hnd hl nz k hk q hq

theorem valid_snoc {g : Grid ℝ ℂ} {k : List ℕ} (hk : k ∈ allCells g.nPix) {q : ℕ}
    (hq : q < g.nProps) : Valid (g.nPix ++ [g.nProps]) (k ++ [q]) :=
  List.rel_append ((mem_allCells _ _).1 hk) (.cons hq .nil)

/-! ## The values -/

/-- **C136**: whenever `power_spectrum` of a map in real space returns, along any set of different
axes and normalised or not, the value of each property at each position is the squared absolute
value of the amplitude of the wave with the frequencies that the grid lists for this position. -/
theorem C136_value (g : Grid ℝ ℂ) (hg : Regular g) (hreal : true ∉ g.fourier) (a : Arr ℂ)
    (ha : g.grid = some a) (ax : Option (List ℕ)) (hnd : (chosen g ax).Nodup) (inPlace nz : Bool)
    (p : Grid ℝ ℂ) (h : (g.powerSpectrum none ax inPlace nz).result = .ok p) :
    ∃ b, p.grid = some b ∧ b.shape = g.nPix ++ [g.nProps] ∧
      ∀ k ∈ allCells g.nPix, ∀ q < g.nProps, cell b k q =
        (Complex.normSq (amplitude (waveAxes g (chosen g ax)) nz (fun j => cell a j q) k) : ℂ) := by
  obtain ⟨hacc, b, hb, hp⟩ := power_result g none ax inPlace nz hg p h
  have hl := transformList_lt g.fourier _ _ hacc.axes'
  obtain ⟨hs, -⟩ := prepared g hg hacc.data hacc.map _ hl nz
  have hpq : p.grid = some b := by
    rcases hp with ⟨-, rfl⟩ | ⟨-, w, -, rfl⟩ <;> rfl
  simp only [crossFt, Option.map_none, Option.getD_none] at hb
  unfold crossPower at hb
  rw [hs, bshape_snoc, if_pos rfl] at hb
  simp only [Except.ok.injEq] at hb
  subst hb
  refine ⟨_, hpq, rfl, ?_⟩
  intro k hk q hq
  have hv := valid_snoc hk hq
  unfold cell
  simp only
  rw [bindex_self _ _ hv, Complex.mul_conj,
    prepared_amp g hg hreal a ha hacc.map (theAxes g ax) hnd hacc.axes' g.dim nz k hk q hq]
  simp only [Complex.ofReal_re]
  rfl

/-- The cross spectrum of two maps with the same cells: the real part of the product of one
amplitude with the conjugate of the other. -/
theorem C136_cross (g c : Grid ℝ ℂ) (hg : Regular g) (hc : Regular c) (hreal : true ∉ g.fourier)
    (hreal' : true ∉ c.fourier) (a a' : Arr ℂ) (ha : g.grid = some a) (ha' : c.grid = some a')
    (hn : c.nPix = g.nPix) (hprops : c.nProps = g.nProps) (ax : Option (List ℕ))
    (hnd : (chosen g ax).Nodup) (inPlace nz : Bool) (p : Grid ℝ ℂ)
    (h : (g.powerSpectrum (some c) ax inPlace nz).result = .ok p) :
    ∃ b, p.grid = some b ∧ b.shape = g.nPix ++ [g.nProps] ∧
      ∀ k ∈ allCells g.nPix, ∀ q < g.nProps, cell b k q =
        ((amplitude (waveAxes g (chosen g ax)) nz (fun j => cell a j q) k *
          (starRingEnd ℂ) (amplitude (waveAxes c (chosen g ax)) nz (fun j => cell a' j q) k)).re :
            ℂ) := by
  obtain ⟨hacc, b, hb, hp⟩ := power_result g (some c) ax inPlace nz hg p h
  obtain ⟨d1, d2, d3, d4⟩ := hacc.cross c rfl
  have hl := transformList_lt g.fourier _ _ hacc.axes'
  obtain ⟨hs, -⟩ := prepared g hg hacc.data hacc.map _ hl nz
  obtain ⟨hs', -⟩ := prepared c hc d1 d2 _
    (by rw [d3]; exact transformList_lt c.fourier _ _ hacc.axes') nz
  have hpq : p.grid = some b := by
    rcases hp with ⟨-, rfl⟩ | ⟨-, w, -, rfl⟩ <;> rfl
  simp only [crossFt, Option.map_some, Option.getD_some] at hb
  unfold crossPower at hb
  rw [hs, hs', hn, hprops, bshape_snoc, if_pos rfl] at hb
  simp only [Except.ok.injEq] at hb
  subst hb
  refine ⟨_, hpq, rfl, ?_⟩
  intro k hk q hq
  have hv := valid_snoc hk hq
  unfold cell
  simp only
  rw [bindex_self _ _ hv, prepared_amp g hg hreal a ha hacc.map (theAxes g ax) hnd hacc.axes' g.dim nz k hk q hq,
    prepared_amp c hc hreal' a' ha' d2 (theAxes g ax) hnd (by rw [d3]; exact hacc.axes') g.dim nz k
      (by rw [hn]; exact hk) q (by rw [hprops]; exact hq)]
  rfl

/-! ## What follows -/

/-- **Parseval's theorem**: the sum of the power over all positions is the sum of the squares of the
map over all cells, times the number of frequencies and the square of the size of a cell. -/
theorem C136_parseval (g : Grid ℝ ℂ) (hg : Regular g) (hreal : true ∉ g.fourier) (a : Arr ℂ)
    (ha : g.grid = some a) (ax : Option (List ℕ)) (hnd : (chosen g ax).Nodup) (inPlace nz : Bool)
    (p : Grid ℝ ℂ) (h : (g.powerSpectrum none ax inPlace nz).result = .ok p) (q : ℕ)
    (hq : q < g.nProps) :
    ∃ b, p.grid = some b ∧ total g b q =
      ((modes (waveAxes g (chosen g ax)) *
        (if nz then cellSize (waveAxes g (chosen g ax)) else 1) ^ 2 *
        ((allCells g.nPix).map (fun j => Complex.normSq (cell a j q))).sum : ℝ) : ℂ) := by
  obtain ⟨b, hb, -, hv⟩ := C136_value g hg hreal a ha ax hnd inPlace nz p h
  refine ⟨b, hb, ?_⟩
  have hn := waveAxes_n g hg (chosen g ax)
  have key := amp_parseval nz (waveAxes g (chosen g ax)) (waveAxes_good g hg _) (fun j => cell a j q)
  rw [hn, gain_prod] at key
  rw [← key]
  unfold total
  have : ∀ l : List (List ℕ), (∀ k ∈ l, k ∈ allCells g.nPix) →
      (l.map (fun c => cell b c q)).sum =
      ((l.map (fun k => Complex.normSq
        (amp nz (waveAxes g (chosen g ax)) (fun j => cell a j q) k))).sum : ℝ) := by
    intro l hl
    induction l with
    | nil => simp
    | cons k l ih =>
      have hk := hl k (List.mem_cons_self ..)
      simp only [List.map_cons, List.sum_cons]
      rw [ih (fun j hj => hl j (List.mem_cons_of_mem _ hj)), hv k hk q hq, amp_eq]
      · push_cast; rfl
      · rw [waveAxes_length, ← hg.nPix]
        exact List.Forall₂.length_eq ((mem_allCells _ _).1 hk)
  exact this _ (fun k hk => hk)

theorem cell_length {g : Grid ℝ ℂ} (hg : Regular g) {k : List ℕ} (hk : k ∈ allCells g.nPix)
    (ax : List ℕ) : k.length = (waveAxes g ax).length := by
  rw [waveAxes_length, ← hg.nPix]
  exact List.Forall₂.length_eq ((mem_allCells _ _).1 hk)

/-- Moving a map around its edges along the transformed axes does not change its power spectrum. -/
theorem C136_moved (g : Grid ℝ ℂ) (hg : Regular g) (hreal : true ∉ g.fourier) (a a' : Arr ℂ)
    (ha : g.grid = some a) (hsh : a'.shape = a.shape) (ax : Option (List ℕ))
    (hnd : (chosen g ax).Nodup) (s : List ℕ) (hs : s.length = g.dim)
    (hz : ∀ d < g.dim, d ∉ chosen g ax → s.getD d 0 = 0)
    (hm : ∀ q < g.nProps, Moved g.nPix s (fun j => cell a j q) (fun j => cell a' j q))
    (inPlace nz : Bool) (p p' : Grid ℝ ℂ) (h : (g.powerSpectrum none ax inPlace nz).result = .ok p)
    (h' : (({ g with grid := some a' } : Grid ℝ ℂ).powerSpectrum none ax inPlace nz).result =
      .ok p') :
    ∃ b b', p.grid = some b ∧ p'.grid = some b' ∧
      ∀ k ∈ allCells g.nPix, ∀ q < g.nProps, cell b' k q = cell b k q := by
  have hg' : Regular ({ g with grid := some a' } : Grid ℝ ℂ) := by
    refine ⟨hg.nPix, hg.pix, hg.side, hg.axes, hg.centers, hg.fcenters, hg.faxes, hg.fourier, ?_, ?_⟩
    · intro i hi
      obtain ⟨n, w, c, h1, h2, q⟩ := hg.axis i hi
      exact ⟨n, w, c, h1, h2, ⟨q.nPix, q.pix, q.center, q.side, q.axes, q.centers, q.fcenters,
        q.faxes⟩⟩
    · intro b hb
      have hb := Option.some.inj hb
      subst hb
      rw [hsh]
      exact hg.data a ha
  obtain ⟨b, hb, -, hv⟩ := C136_value g hg hreal a ha ax hnd inPlace nz p h
  obtain ⟨b', hb', -, hv'⟩ := C136_value _ hg' hreal a' rfl ax hnd inPlace nz p' h'
  refine ⟨b, b', hb, hb', ?_⟩
  intro k hk q hq
  rw [hv k hk q hq, hv' k hk q hq]
  show ((Complex.normSq (amplitude (waveAxes g (chosen g ax)) nz _ k) : ℝ) : ℂ) = _
  have hn := waveAxes_n g hg (chosen g ax)
  rw [amp_eq _ _ _ _ (cell_length hg hk _), amp_eq _ _ _ _ (cell_length hg hk _),
    amp_moved nz (waveAxes g (chosen g ax)) (waveAxes_good g hg _) k s (by rw [hn]; exact hk)
      (by rw [waveAxes_length]; exact hs)
      (by
        intro d x hx hu
        obtain ⟨hd, rfl⟩ := waveAxes_get g _ d x hx
        exact hz d hd (by simpa using hu))
      (fun j => cell a j q) (fun j => cell a' j q) (by rw [hn]; exact hm q hq),
    Complex.normSq_mul, normSq_wave, one_mul]

/-- The spectrum of a map of real numbers has the same power at opposite frequencies. -/
theorem C136_opposite (g : Grid ℝ ℂ) (hg : Regular g) (hreal : true ∉ g.fourier) (a : Arr ℂ)
    (ha : g.grid = some a) (ax : Option (List ℕ)) (hnd : (chosen g ax).Nodup) (inPlace nz : Bool)
    (p : Grid ℝ ℂ) (h : (g.powerSpectrum none ax inPlace nz).result = .ok p) (q : ℕ)
    (hq : q < g.nProps) (hr : ∀ j ∈ allCells g.nPix, (cell a j q).im = 0) (k l : List ℕ)
    (hk : k ∈ allCells g.nPix) (hl : l ∈ allCells g.nPix)
    (hkl : Opposite (waveAxes g (chosen g ax)) k l) :
    ∃ b, p.grid = some b ∧ cell b l q = cell b k q := by
  obtain ⟨b, hb, -, hv⟩ := C136_value g hg hreal a ha ax hnd inPlace nz p h
  refine ⟨b, hb, ?_⟩
  rw [hv k hk q hq, hv l hl q hq, amp_eq _ _ _ _ (cell_length hg hk _),
    amp_eq _ _ _ _ (cell_length hg hl _), amp_opposite nz _ k l hkl, Complex.normSq_conj]
  intro j hj
  rw [waveAxes_n g hg] at hj
  exact Complex.conj_eq_iff_im.2 (hr j hj)

/-- The power of a sum of two maps: the powers of both and twice their cross power. -/
theorem C136_sum (g : Grid ℝ ℂ) (hg : Regular g) (hreal : true ∉ g.fourier) (a a1 a2 : Arr ℂ)
    (ha : g.grid = some a) (hs1 : a1.shape = a.shape) (hs2 : a2.shape = a.shape)
    (hsum : ∀ j q, cell a j q = cell a1 j q + cell a2 j q) (ax : Option (List ℕ))
    (hnd : (chosen g ax).Nodup) (inPlace nz : Bool) (p p1 p2 p3 : Grid ℝ ℂ)
    (h : (g.powerSpectrum none ax inPlace nz).result = .ok p)
    (h1 : (({ g with grid := some a1 } : Grid ℝ ℂ).powerSpectrum none ax inPlace nz).result = .ok p1)
    (h2 : (({ g with grid := some a2 } : Grid ℝ ℂ).powerSpectrum none ax inPlace nz).result = .ok p2)
    (h3 : (({ g with grid := some a1 } : Grid ℝ ℂ).powerSpectrum
      (some { g with grid := some a2 }) ax inPlace nz).result = .ok p3) :
    ∃ b b1 b2 b3, p.grid = some b ∧ p1.grid = some b1 ∧ p2.grid = some b2 ∧ p3.grid = some b3 ∧
      ∀ k ∈ allCells g.nPix, ∀ q < g.nProps,
        cell b k q = cell b1 k q + cell b2 k q + 2 * cell b3 k q := by
  have reg : ∀ a' : Arr ℂ, a'.shape = a.shape → Regular ({ g with grid := some a' } : Grid ℝ ℂ) := by
    intro a' hsh
    refine ⟨hg.nPix, hg.pix, hg.side, hg.axes, hg.centers, hg.fcenters, hg.faxes, hg.fourier, ?_, ?_⟩
    · intro i hi
      obtain ⟨n, w, c, h1, h2, q⟩ := hg.axis i hi
      exact ⟨n, w, c, h1, h2, ⟨q.nPix, q.pix, q.center, q.side, q.axes, q.centers, q.fcenters,
        q.faxes⟩⟩
    · intro b hb
      have hb := Option.some.inj hb
      subst hb
      rw [hsh]
      exact hg.data a ha
  obtain ⟨b, hb, -, hv⟩ := C136_value g hg hreal a ha ax hnd inPlace nz p h
  obtain ⟨b1, hb1, -, hv1⟩ := C136_value _ (reg a1 hs1) hreal a1 rfl ax hnd inPlace nz p1 h1
  obtain ⟨b2, hb2, -, hv2⟩ := C136_value _ (reg a2 hs2) hreal a2 rfl ax hnd inPlace nz p2 h2
  obtain ⟨b3, hb3, -, hv3⟩ := C136_cross _ _ (reg a1 hs1) (reg a2 hs2) hreal hreal a1 a2 rfl rfl rfl
    rfl ax hnd inPlace nz p3 h3
  refine ⟨b, b1, b2, b3, hb, hb1, hb2, hb3, ?_⟩
  intro k hk q hq
  rw [hv k hk q hq, hv1 k hk q hq, hv2 k hk q hq, hv3 k hk q hq]
  show _ = ((Complex.normSq (amplitude (waveAxes g (chosen g ax)) nz _ k) : ℝ) : ℂ) +
    ((Complex.normSq (amplitude (waveAxes g (chosen g ax)) nz _ k) : ℝ) : ℂ) +
    2 * (((amplitude (waveAxes g (chosen g ax)) nz _ k *
      (starRingEnd ℂ) (amplitude (waveAxes g (chosen g ax)) nz _ k)).re : ℝ) : ℂ)
  simp only [amp_eq _ _ _ _ (cell_length hg hk _), hsum]
  rw [amp_add, Complex.normSq_add]
  push_cast
  rfl

/-! ## Catalogues -/

theorem sum_find (l : List (List ℕ)) (hnd : l.Nodup) (P : List ℕ → Bool)
    (hu : ∀ c d, P c = true → P d = true → c = d) (f : List ℕ → ℂ) :
    (l.map (fun c => if P c = true then f c else 0)).sum =
      match l.find? P with
      | none => 0
      | some c => f c := by
  induction l with
  | nil => rfl
  | cons c l ih =>
    rw [List.nodup_cons] at hnd
    rw [List.map_cons, List.sum_cons, ih hnd.2]
    by_cases hc : P c = true
    · rw [List.find?_cons_of_pos hc, if_pos hc]
      have : l.find? P = none := by
        rw [List.find?_eq_none]
        intro d hd hpd
        exact hnd.1 (hu c d hc hpd ▸ hd)
      rw [this]
      simp
    · rw [List.find?_cons_of_neg hc, if_neg hc, zero_add]

theorem amplitude_objects (g : Grid ℝ ℂ) (hg : Regular g) (axs : List WaveAxis)
    (hn : axs.map (·.n) = g.nPix) (nz : Bool) (objs : List (List ℝ × ℂ)) (k : List ℕ) :
    amplitude axs nz (fun c => cellSum g.axes c objs) k =
      (if nz then (cellSize axs : ℂ) else 1) * (objs.map (objectWave g axs k)).sum := by
  unfold amplitude
  congr 1
  rw [hn]
  have hfilter : ∀ (l : List (List ℕ)) (f : List ℕ → ℂ),
      ((l.filter (AgreeElsewhere axs k)).map f).sum =
        (l.map (fun c => if AgreeElsewhere axs k c = true then f c else 0)).sum := by
    intro l f
    induction l with
    | nil => rfl
    | cons c l ih =>
      by_cases hc : AgreeElsewhere axs k c = true
      · rw [List.filter_cons_of_pos hc, List.map_cons, List.sum_cons, ih, List.map_cons,
          List.sum_cons, if_pos hc]
      · rw [List.filter_cons_of_neg hc, ih, List.map_cons, List.sum_cons, if_neg hc, zero_add]
  rw [hfilter]
  induction objs with
  | nil => simp [cellSum]
  | cons o objs ih =>
    rw [List.map_cons, List.sum_cons, ← ih]
    have hone : objectWave g axs k o = ((allCells g.nPix).map (fun c =>
        if decide (InCell g.axes c o.1) = true then
          (if AgreeElsewhere axs k c = true then
            Complex.exp (-(2 * Real.pi * Complex.I * phase axs k c)) * o.2 else 0) else 0)).sum := by
      rw [sum_find _ (allCells_nodup _) _ (by
        intro c d hc hd
        exact inCell_unique g hg o.1 c d (by simpa using hc) (by simpa using hd))]
      rfl
    rw [hone]
    have hadd : ∀ (l : List (List ℕ)) (f1 f2 : List ℕ → ℂ),
        (l.map f1).sum + (l.map f2).sum = (l.map (fun c => f1 c + f2 c)).sum := by
      intro l f1 f2
      induction l with
      | nil => simp
      | cons c l ih => simp only [List.map_cons, List.sum_cons, ← ih]; ring
    rw [hadd]
    congr 1
    apply List.map_congr_left
    intro c _
    unfold cellSum
    beta_reduce
    by_cases hc : InCell g.axes c o.1
    · have hd : decide (InCell g.axes c o.1) = true := by simpa using hc
      rw [List.filter_cons_of_pos (p := fun o : List ℝ × ℂ => decide (InCell g.axes c o.1)) hd,
        List.map_cons, List.sum_cons, if_pos hd]
      by_cases hag : AgreeElsewhere axs k c = true
      · simp only [if_pos hag]; ring
      · simp only [if_neg hag, zero_add]
    · have hd : ¬ decide (InCell g.axes c o.1) = true := by simpa using hc
      rw [List.filter_cons_of_neg (p := fun o : List ℝ × ℂ => decide (InCell g.axes c o.1)) hd,
        if_neg hd, zero_add]

theorem added_map (g : Grid ℝ ℂ) (hg : Regular g) (hreal : true ∉ g.fourier) (a : Arr ℂ)
    (ha : g.grid = some a) (hp1 : 0 < g.nProps) (objs : List (List ℝ × List ℂ)) (hfit : Fits g objs) :
    ∃ b' n, g.addFromCat (posOf objs) (some (valsOf 1 objs)) false (some [0]) =
        ({ g with grid := some b', nObj := n }, .ok ()) ∧
      Regular ({ g with grid := some b', nObj := n } : Grid ℝ ℂ) ∧
      ∀ c, cell b' c 0 = cell a c 0 + cellSum g.axes c (column objs 0) := by
  obtain ⟨g', h1, h2⟩ := C18_cells_partial g hg a ha
    (by
      intro f hf
      cases f with
      | false => rfl
      | true => exact absurd hf hreal) objs hfit 1 [0] (by simp) (by simpa using hp1) (.inl rfl)
  obtain ⟨b', hb', hsh, hv⟩ := h2.values a ha
  obtain ⟨n, rfl⟩ : ∃ n, g' = { g with grid := some b', nObj := n } := by
    refine ⟨g'.nObj, ?_⟩
    have h3 := h2.rest
    cases g
    cases g'
    simp only [Grid.mk.injEq] at h3 hb' ⊢
    simp_all
  refine ⟨b', n, h1, ?_, fun c => by rw [hv c 0]; simp⟩
  refine ⟨hg.nPix, hg.pix, hg.side, hg.axes, hg.centers, hg.fcenters, hg.faxes, hg.fourier, ?_, ?_⟩
  · intro i hi
    obtain ⟨n, w, c, h1, h2, q⟩ := hg.axis i hi
    exact ⟨n, w, c, h1, h2, ⟨q.nPix, q.pix, q.center, q.side, q.axes, q.centers, q.fcenters,
      q.faxes⟩⟩
  · intro b hb
    have hb := Option.some.inj hb
    subst hb
    rw [hsh]
    exact hg.data a ha

/-- **C136** for catalogues: put into an empty map, the objects of a catalogue give, at each
position of the power spectrum, the square of the sum of their waves. -/
theorem C136_objects (g : Grid ℝ ℂ) (hg : Regular g) (hreal : true ∉ g.fourier) (a : Arr ℂ)
    (ha : g.grid = some a) (hp1 : 0 < g.nProps) (hempty : ∀ c, cell a c 0 = 0)
    (objs : List (List ℝ × List ℂ)) (hfit : Fits g objs) (ax : Option (List ℕ))
    (hnd : (chosen g ax).Nodup) (inPlace nz : Bool) :
    ∃ g', g.addFromCat (posOf objs) (some (valsOf 1 objs)) false (some [0]) = (g', .ok ()) ∧
      ∀ p, (g'.powerSpectrum none ax inPlace nz).result = .ok p →
        ∃ b, p.grid = some b ∧ ∀ k ∈ allCells g.nPix, cell b k 0 =
          (Complex.normSq ((if nz then (cellSize (waveAxes g (chosen g ax)) : ℂ) else 1) *
            ((column objs 0).map (objectWave g (waveAxes g (chosen g ax)) k)).sum) : ℂ) := by
  obtain ⟨b', n, h1, hg', hv⟩ := added_map g hg hreal a ha hp1 objs hfit
  refine ⟨_, h1, ?_⟩
  intro p h
  obtain ⟨b, hb, -, hval⟩ := C136_value _ hg' hreal b' rfl ax hnd inPlace nz p h
  refine ⟨b, hb, ?_⟩
  intro k hk
  rw [hval k hk 0 hp1]
  show ((Complex.normSq (amplitude (waveAxes g (chosen g ax)) nz (fun j => cell b' j 0) k) : ℝ) : ℂ) = _
  have hcells : (fun j => cell b' j 0) = fun c => cellSum g.axes c (column objs 0) := by
    funext c
    rw [hv c, hempty c, zero_add]
  rw [hcells, amplitude_objects g hg _ (waveAxes_n g hg _) nz]

theorem all_used (g : Grid ℝ ℂ) : ∀ x ∈ waveAxes g (chosen g none), x.used = true := by
  intro x hx
  obtain ⟨d, hd⟩ := List.getElem?_of_mem hx
  obtain ⟨hlt, rfl⟩ := waveAxes_get g _ d x hd
  simp [chosen, hlt]

theorem agree_used (axs : List WaveAxis) (h : ∀ x ∈ axs, x.used = true) (k j : List ℕ) :
    AgreeElsewhere axs k j = true := by
  induction axs generalizing k j with
  | nil => simp [AgreeElsewhere]
  | cons x axs ih =>
    cases k with
    | nil => simp [AgreeElsewhere]
    | cons k ks =>
      cases j with
      | nil => simp [AgreeElsewhere]
      | cons j js =>
        simp only [AgreeElsewhere]
        rw [h x (List.mem_cons_self ..), ih (fun y hy => h y (List.mem_cons_of_mem _ hy))]
        rfl

theorem home_some (g : Grid ℝ ℂ) (row : List ℝ) (hg : Regular g) (h : InGrid g.axes row) :
    ∃ c, home g row = some c := by
  obtain ⟨c, hc⟩ := h
  unfold home
  rw [← Option.isSome_iff_exists, List.find?_isSome]
  exact ⟨c, (mem_allCells _ _).2 (inCell_valid g hg _ _ hc), by simpa using hc⟩

/-- A single object gives the same power at all frequencies: the square of its value. -/
theorem C136_single (g : Grid ℝ ℂ) (hg : Regular g) (hreal : true ∉ g.fourier) (a : Arr ℂ)
    (ha : g.grid = some a) (hp1 : 0 < g.nProps) (hempty : ∀ c, cell a c 0 = 0)
    (row : List ℝ) (v : ℂ) (hrow : row.length = g.dim) (hin : InGrid g.axes row) (inPlace nz : Bool) :
    ∃ g', g.addFromCat (posOf [(row, [v])]) (some (valsOf 1 [(row, [v])])) false (some [0]) =
        (g', .ok ()) ∧
      ∀ p, (g'.powerSpectrum none none inPlace nz).result = .ok p →
        ∃ b, p.grid = some b ∧ ∀ k ∈ allCells g.nPix, cell b k 0 =
          (((if nz then cellSize (waveAxes g (List.range g.dim)) else 1) ^ 2 * Complex.normSq v : ℝ) :
            ℂ) := by
  obtain ⟨g', h1, h2⟩ := C136_objects g hg hreal a ha hp1 hempty [(row, [v])]
    (by simpa [Fits] using hrow) none List.nodup_range inPlace nz
  refine ⟨g', h1, ?_⟩
  intro p hp
  obtain ⟨b, hb, hv⟩ := h2 p hp
  refine ⟨b, hb, ?_⟩
  intro k hk
  rw [hv k hk]
  obtain ⟨c, hc⟩ := home_some g row hg hin
  have hw : objectWave g (waveAxes g (chosen g none)) k (row, v) =
      Complex.exp (-(2 * Real.pi * Complex.I * phase (waveAxes g (chosen g none)) k c)) * v := by
    unfold objectWave
    simp only [hc]
    rw [if_pos (agree_used _ (all_used g) k c)]
  have hcol : column [(row, [v])] 0 = [(row, v)] := rfl
  rw [hcol, List.map_cons, List.map_nil, List.sum_cons, List.sum_nil, add_zero, hw,
    Complex.normSq_mul, Complex.normSq_mul, normSq_wave, one_mul]
  have hch : chosen g none = List.range g.dim := rfl
  rw [hch]
  cases nz
  · simp
  · simp only [if_true, Complex.normSq_ofReal]
    push_cast
    ring

theorem middle_phase (axs : List WaveAxis) (hg : ∀ x ∈ axs, GoodAxis x) (j : List ℕ) :
    phase axs (axs.map (fun x => x.n / 2)) j = 0 := by
  induction axs generalizing j with
  | nil => simp [phase]
  | cons x axs ih =>
    cases j with
    | nil => simp [phase]
    | cons j js =>
      have hx := hg x (List.mem_cons_self ..)
      simp only [List.map_cons, phase]
      rw [ih (fun y hy => hg y (List.mem_cons_of_mem _ hy)),
        good_freq hx _ _ (Nat.div_lt_self hx.1 (by omega))]
      simp

/-- At frequency zero the power is the square of the total of the map. -/
theorem C136_mean (g : Grid ℝ ℂ) (hg : Regular g) (hreal : true ∉ g.fourier) (a : Arr ℂ)
    (ha : g.grid = some a) (inPlace nz : Bool) (p : Grid ℝ ℂ)
    (h : (g.powerSpectrum none none inPlace nz).result = .ok p) (q : ℕ) (hq : q < g.nProps) :
    ∃ b, p.grid = some b ∧ cell b (origin g) q =
      (((if nz then cellSize (waveAxes g (List.range g.dim)) else 1) ^ 2 *
        Complex.normSq (total g a q) : ℝ) : ℂ) := by
  obtain ⟨b, hb, -, hv⟩ := C136_value g hg hreal a ha none List.nodup_range inPlace nz p h
  refine ⟨b, hb, ?_⟩
  have hgood := waveAxes_good g hg (chosen g none)
  have hn := waveAxes_n g hg (chosen g none)
  have hm : origin g = (waveAxes g (chosen g none)).map (fun x => x.n / 2) := by
    unfold origin
    rw [← hn, List.map_map]
    rfl
  have hk : origin g ∈ allCells g.nPix := by
    rw [mem_allCells, hm, ← hn]
    generalize waveAxes g (chosen g none) = axs at hgood
    induction axs with
    | nil => exact .nil
    | cons x axs ih =>
      exact .cons (Nat.div_lt_self (hgood x (List.mem_cons_self ..)).1 (by omega))
        (ih (fun y hy => hgood y (List.mem_cons_of_mem _ hy)))
  rw [hv _ hk q hq]
  have hamp : amplitude (waveAxes g (chosen g none)) nz (fun j => cell a j q) (origin g) =
      ((if nz = true then cellSize (waveAxes g (chosen g none)) else 1 : ℝ) : ℂ) * total g a q := by
    unfold amplitude total
    rw [hn]
    have hf : (allCells g.nPix).filter (AgreeElsewhere (waveAxes g (chosen g none)) (origin g)) =
        allCells g.nPix :=
      List.filter_eq_self.2 (fun j _ => agree_used _ (all_used g) _ j)
    rw [hf]
    congr 1
    · cases nz <;> simp
    · congr 1
      apply List.map_congr_left
      intro j _
      rw [hm, middle_phase _ hgood]
      simp
  rw [hamp, Complex.normSq_mul, Complex.normSq_ofReal]
  have hch : chosen g none = List.range g.dim := rfl
  rw [hch]
  push_cast
  ring

/-! ## Examples -/

/-- Parseval's theorem, the values and the mean of a map with different values. -/
example : ∃ (g p q : Grid ℝ ℂ), Regular g ∧ true ∉ g.fourier ∧ g.grid = some ramp ∧
    (g.powerSpectrum none (some [1]) false true).result = .ok p ∧
    (∃ b, p.grid = some b ∧ cell b [3, 4] 1 =
      (Complex.normSq (amplitude (waveAxes g [1]) true (fun j => cell ramp j 1) [3, 4]) : ℂ)) ∧
    (∃ b, p.grid = some b ∧ total g b 1 = ((modes (waveAxes g [1]) * cellSize (waveAxes g [1]) ^ 2 *
      ((allCells [10, 10]).map (fun j => Complex.normSq (cell ramp j 1))).sum : ℝ) : ℂ)) ∧
    (g.powerSpectrum none none true false).result = .ok q ∧
    ∃ b, q.grid = some b ∧ cell b [5, 5] 1 = (Complex.normSq (total g ramp 1) : ℝ) := by
  obtain ⟨g, hr, hl, hn, hu, hg, hd, hpx, hf, hp⟩ := new_square 2 ramp rfl
  have hreal : true ∉ g.fourier := by rw [hf]; simp
  obtain ⟨p, hp', -⟩ := C24_succeeds g none (some [1]) false true hr (by simp) hl
    (.inr (.inr (by omega))) (by simp) ⟨by simp [hg], hp, by simp [hd], by simp⟩
  obtain ⟨q, hq', -⟩ := C24_succeeds g none none true false hr (by simp) hl
    (.inl rfl) (by simp) ⟨by simp [hg], hp, by simp, by simp⟩
  refine ⟨g, p, q, hr, hreal, hg, hp', ?_, ?_, hq', ?_⟩
  · obtain ⟨b, h1, -, h2⟩ := C136_value g hr hreal ramp hg (some [1]) (by simp [chosen]) false true p hp'
    exact ⟨b, h1, h2 _ (by rw [hpx]; decide +kernel) _ (by omega)⟩
  · obtain ⟨b, h1, h2⟩ := C136_parseval g hr hreal ramp hg (some [1]) (by simp [chosen]) false true p hp' 1
      (by omega)
    rw [hpx] at h2
    exact ⟨b, h1, h2⟩
  · obtain ⟨b, h1, h2⟩ := C136_mean g hr hreal ramp hg true false q hq' 1 (by omega)
    have hm : origin g = [5, 5] := by unfold origin; rw [hpx]; rfl
    rw [hm] at h2
    exact ⟨b, h1, by simpa using h2⟩

/-- `ramp`, moved by three cells around the edges. -/
noncomputable def rampMoved : Arr ℂ := ⟨[10, 10, 2], fun i =>
  (((i.headD 0 + 7) % 10 : ℕ) : ℂ) + (i.getLastD 0 : ℕ)⟩

theorem ramp_moved (q : ℕ) : Moved [10, 10] [3, 0] (fun j => cell ramp j q) (fun j => cell rampMoved j q) := by
  intro j hj
  rw [mem_allCells] at hj
  cases hj with
  | @cons x n xs ns h1 h2 =>
    cases h2 with
    | @cons y m ys ms h3 h4 =>
      cases h4
      simp only [moved, cell, ramp, rampMoved, List.cons_append, List.nil_append, List.headD_cons]
      have : ((x + 3) % 10 + 7) % 10 = x := by omega
      rw [this]
      simp

/-- The spectrum of a map and of the map moved around its edges. -/
example : ∃ (g p p' : Grid ℝ ℂ), Regular g ∧ g.grid = some ramp ∧
    (g.powerSpectrum none (some [0]) false true).result = .ok p ∧
    (({ g with grid := some rampMoved } : Grid ℝ ℂ).powerSpectrum none (some [0]) false true).result =
      .ok p' ∧ cell ramp [0, 0] 0 ≠ cell rampMoved [0, 0] 0 ∧
    ∃ b b', p.grid = some b ∧ p'.grid = some b' ∧ cell b' [7, 2] 1 = cell b [7, 2] 1 := by
  obtain ⟨g, hr, hl, hn, hu, hg, hd, hpx, hf, hp⟩ := new_square 2 ramp rfl
  have hreal : true ∉ g.fourier := by rw [hf]; simp
  have hr' : Regular ({ g with grid := some rampMoved } : Grid ℝ ℂ) := by
    refine ⟨hr.nPix, hr.pix, hr.side, hr.axes, hr.centers, hr.fcenters, hr.faxes, hr.fourier, ?_, ?_⟩
    · intro i hi
      obtain ⟨n, w, c, h1, h2, q⟩ := hr.axis i hi
      exact ⟨n, w, c, h1, h2, ⟨q.nPix, q.pix, q.center, q.side, q.axes, q.centers, q.fcenters,
        q.faxes⟩⟩
    · intro b hb
      have hb := Option.some.inj hb
      subst hb
      show [10, 10, 2] = g.nPix ++ [g.nProps]
      rw [hpx, hn]; rfl
  obtain ⟨p, hp', -⟩ := C24_succeeds g none (some [0]) false true hr (by simp) hl
    (.inr (.inr (by omega))) (by simp) ⟨by simp [hg], hp, by simp [hd], by simp⟩
  obtain ⟨p', hq', -⟩ := C24_succeeds { g with grid := some rampMoved } none (some [0]) false true hr'
    (by simp) hl (.inr (.inr (by show g.gridunits.length = g.nProps; omega))) (by simp)
    ⟨by simp, hp, by
      intro l e i hi
      have := Option.some.inj e
      subst this
      show i < g.dim
      have : i = 0 := by simpa using hi
      omega, by simp⟩
  refine ⟨g, p, p', hr, hg, hp', hq', by simp [cell, ramp, rampMoved], ?_⟩
  obtain ⟨b, b', h1, h2, h3⟩ := C136_moved g hr hreal ramp rampMoved hg rfl (some [0]) (by simp [chosen])
    [3, 0] (by simp [hd]) (by
      intro d h1 h2
      have : d = 1 := by
        have : d ≠ 0 := by simpa [chosen] using h2
        omega
      subst this; rfl) (by rw [hpx]; exact fun q _ => ramp_moved q) false true p p' hp' hq'
  exact ⟨b, b', h1, h2, h3 _ (by rw [hpx]; decide +kernel) _ (by omega)⟩

/-- One object in the middle of an empty map: the power is the same at all frequencies. -/
example : ∃ (g g' p : Grid ℝ ℂ), Regular g ∧
    g.addFromCat (posOf [([0, 0], [5])]) (some (valsOf 1 [([(0 : ℝ), 0], [(5 : ℂ)])])) false (some [0]) =
      (g', .ok ()) ∧ (g'.powerSpectrum none none false false).result = .ok p ∧
    ∃ b, p.grid = some b ∧ cell b [2, 7] 0 = 25 ∧ cell b [5, 5] 0 = 25 := by
  obtain ⟨g, ⟨hr, hl, hn, hu, hg, hd, hpx, hf, hp⟩, hc⟩ := new_square' 1 (zeros [10, 10, 1]) rfl
  have hreal : true ∉ g.fourier := by rw [hf]; simp
  have hin : InGrid g.axes [0, 0] := by
    rw [C18_inside g hr]
    obtain ⟨n, w, c, h1, h2, q⟩ := hr.axis 0 (by omega)
    obtain ⟨n', w', c', h1', h2', q'⟩ := hr.axis 1 (by omega)
    have e1 := q.center
    have e2 := q'.center
    have e3 := q.axes
    have e4 := q'.axes
    rw [hc] at e1 e2
    have hc0 : (0 : ℝ) = c := Option.some.inj e1
    have hc1 : (0 : ℝ) = c' := Option.some.inj e2
    subst hc0 hc1
    have hlen := hr.axes
    rw [hd] at hlen
    obtain ⟨e, e', he⟩ := List.length_eq_two.1 hlen
    rw [he] at e3 e4 ⊢
    have e5 : e = edges n w 0 := Option.some.inj e3
    have e6 : e' = edges n' w' 0 := Option.some.inj e4
    rw [e5, e6]
    have pos : ∀ (n : ℕ) (w : ℝ), 2 ≤ n → 0 < w → 0 < (n : ℝ) * w / 2 := by
      intro n w hn hw
      have : (0 : ℝ) < n := by exact_mod_cast (by omega : 0 < n)
      positivity
    refine .cons ⟨_, edges_head _ _ _, _, edges_last _ _ _, ?_⟩
      (.cons ⟨_, edges_head _ _ _, _, edges_last _ _ _, ?_⟩ .nil)
    · have := pos n w h1 h2
      constructor <;> linarith
    · have := pos n' w' h1' h2'
      constructor <;> linarith
  obtain ⟨g', h1, h2⟩ := C136_single g hr hreal _ hg (by omega) (fun c => rfl) [0, 0] 5 (by simp [hd]) hin
    false false
  obtain ⟨b', n, h3, hr', -⟩ := added_map g hr hreal _ hg (by omega) [([0, 0], [5])] (by simp [Fits, hd])
  have he : g' = { g with grid := some b', nObj := n } := by
    have := h1.symm.trans h3
    exact (Prod.mk.inj this).1
  subst he
  obtain ⟨p, hp', -⟩ := C24_succeeds _ none none false false hr' (by simp) hl
    (.inr (.inr (by show g.gridunits.length = g.nProps; omega))) (by simp)
    ⟨by simp, hp, by simp, by simp⟩
  obtain ⟨b, h4, h5⟩ := h2 p hp'
  have hv : ∀ k ∈ allCells g.nPix, cell b k 0 = 25 := by
    intro k hk
    rw [h5 k hk]
    norm_num [Complex.normSq_apply]
  exact ⟨g, _, p, hr, h1, hp', b, h4, hv _ (by rw [hpx]; decide +kernel),
    hv _ (by rw [hpx]; decide +kernel)⟩

end Verif.Map
