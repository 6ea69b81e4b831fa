import Verif.Lemmas.GridPad
import Verif.Props.GridGeometry

/-!
# C21: padding and removing the padding
-/

set_option linter.unusedSectionVars false

namespace Verif.Map

open Verif.Sim (Err)
open Spec

variable {K V : Type} [Field K] [LinearOrder K] [IsStrictOrderedRing K] [FloorRing K]

/-- The effect that padding the axes `ax` by `pad` cells on each side should have: in real space the
cells keep their edges and new cells are added outside, in Fourier space the frequencies are kept;
old cells keep their values, and new ones have the value `val`. -/
structure Padded (g g' : Grid K V) (ax : List ℕ) (pad : List ℤ) (val : V) : Prop where
  regular : Regular g'
  nProps : g'.nProps = g.nProps
  nPix : ∀ (i n : ℕ), g.nPix[i]? = some n →
    ∃ k, g'.nPix[i]? = some k ∧ (k : ℤ) = n + 2 * amount ax pad i
  edges : ∀ (i : ℕ) (e : List K), g.fourier[i]? = some false → g.axes[i]? = some e →
    ∃ e', g'.axes[i]? = some e' ∧ ∀ j < e.length, e'[j + (amount ax pad i).toNat]? = e[j]?
  centers : ∀ (i : ℕ) (e : List K), g.fourier[i]? = some false → g.centers[i]? = some e →
    ∃ e', g'.centers[i]? = some e' ∧ ∀ j < e.length, e'[j + (amount ax pad i).toNat]? = e[j]?
  freqs : ∀ (i : ℕ) (e : List K), g.fourier[i]? = some true → g.fcenters[i]? = some e →
    ∃ e', g'.fcenters[i]? = some e' ∧ ∀ j < e.length, e'[j + (amount ax pad i).toNat]? = e[j]?
  none : g.grid = none → g'.grid = none
  old : ∀ a, g.grid = some a → ∃ b, g'.grid = some b ∧
    ∀ (c : List ℕ) (p : ℕ), Valid g.nPix c → p < g.nProps →
      cell b (List.zipWith (· + ·) c ((List.range g.dim).map (fun i => (amount ax pad i).toNat))) p =
        cell a c p
  new : ∀ b, g'.grid = some b → ∀ (c : List ℕ) (p : ℕ), Valid g'.nPix c → p < g.nProps →
    (¬ ∃ c0, Valid g.nPix c0 ∧
      c = List.zipWith (· + ·) c0 ((List.range g.dim).map (fun i => (amount ax pad i).toNat))) →
    cell b c p = val

/-- The property: for all distinct axes and non-negative amounts padding works, and padding
by the negative amounts undoes it. -/
def C21_full (K V : Type) [Field K] [LinearOrder K] [FloorRing K] : Prop :=
  ∀ (g : Grid K V) (ax : List ℕ) (pad : List ℤ) (val val' : V), Regular g →
    (∀ a ∈ ax, a < g.dim) → ax.Nodup → pad.length = ax.length → (∀ p ∈ pad, 0 ≤ p) →
    ∃ g' : Grid K V, g.padBy ax pad val = (g', .ok ()) ∧ Padded g g' ax pad val ∧
      ∃ g'' : Grid K V, g'.padBy ax (pad.map (- ·)) val' = (g'', .ok ()) ∧ Same g'' g

theorem edges_shift (n p : ℕ) (w c : K) (j : ℕ) (hj : j < (edges n w c).length) :
    (edges (n + 2 * p) w c)[j + p]? = (edges n w c)[j]? := by
  simp only [edges, List.length_map, List.length_range] at hj
  simp only [edges, List.getElem?_map, List.getElem?_range hj,
    List.getElem?_range (show j + p < n + 2 * p + 1 by omega), Option.map_some]
  congr 1; push_cast; ring

theorem middles_shift (n p : ℕ) (w c : K) (j : ℕ) (hj : j < (middles n w c).length) :
    (middles (n + 2 * p) w c)[j + p]? = (middles n w c)[j]? := by
  simp only [middles, List.length_map, List.length_range] at hj
  simp only [middles, List.getElem?_map, List.getElem?_range hj,
    List.getElem?_range (show j + p < n + 2 * p by omega), Option.map_some]
  congr 1; push_cast; ring

theorem freqs_shift (n p : ℕ) (hn : 0 < n) (w : K) (j : ℕ) (hj : j < (freqs n w).length) :
    (freqs (n + 2 * p) (n * w / ((n + 2 * p : ℕ) : K)))[j + p]? = (freqs n w)[j]? := by
  simp only [freqs, List.length_map, List.length_range] at hj
  simp only [freqs, List.getElem?_map, List.getElem?_range hj,
    List.getElem?_range (show j + p < n + 2 * p by omega), Option.map_some]
  have h0 : ((n + 2 * p : ℕ) : K) ≠ 0 := by
    have : n + 2 * p ≠ 0 := by omega
    exact_mod_cast this
  have e : ((n + 2 * p : ℕ) : K) * (n * w / ((n + 2 * p : ℕ) : K)) = n * w := by
    field_simp
  rw [e]
  have e2 : (n + 2 * p) / 2 = n / 2 + p := by omega
  rw [e2]
  congr 2; push_cast; ring

theorem amount_neg (ax : List ℕ) (pad : List ℤ) (i : ℕ) :
    amount ax (pad.map (- ·)) i = - amount ax pad i := by
  unfold amount
  split
  · simp only [List.getD_eq_getElem?_getD, List.getElem?_map]
    cases pad[ax.idxOf i]? <;> simp
  · rfl

theorem aligned_neg (ax : List ℕ) (pad : List ℤ) (h : Aligned ax pad) :
    Aligned ax (pad.map (- ·)) := by
  intro i hi
  rw [amount_neg] at hi ⊢
  obtain ⟨a, h1, h2⟩ := h i (by simpa using hi)
  exact ⟨a, h1, by simp [h2]⟩

theorem amount_nonneg (ax : List ℕ) (pad : List ℤ) (h : ∀ p ∈ pad, 0 ≤ p) (i : ℕ) :
    0 ≤ amount ax pad i := by
  unfold amount
  split
  · rw [List.getD_eq_getElem?_getD]
    cases hp : pad[ax.idxOf i]? with
    | none => simp
    | some p => simpa using h p (List.mem_of_getElem? hp)
  · exact le_rfl

/-- Grids with the same axes and other fields are equal up to their data. -/
theorem same_of_axes (g h : Grid K V) (hg : Regular g) (hh : Regular h)
    (e1 : h.nProps = g.nProps) (e2 : h.nObj = g.nObj) (e3 : h.center = g.center)
    (e4 : h.axunits = g.axunits) (e5 : h.faxunits = g.faxunits) (e6 : h.gridunits = g.gridunits)
    (e7 : h.fourier = g.fourier) (e8 : h.isPow = g.isPow)
    (e9 : h.side.isInt = g.side.isInt) (e10 : h.pix.isInt = g.pix.isInt)
    (ha : ∀ (i n : ℕ) (w c : K), AxisIs g i n w c → 2 ≤ n → AxisIs h i n w c)
    (hd : SameData h.grid g.grid) : Same h g := by
  refine ⟨hd, ?_⟩
  have hdim : h.dim = g.dim := by simp [Grid.dim, e3]
  have key : ∀ {α : Type} (l l' : List α), l.length = g.dim → l'.length = g.dim →
      (∀ i < g.dim, l[i]? = l'[i]?) → l = l' := by
    intro α l l' h1 h2 h3
    apply List.ext_getElem?
    intro i
    by_cases hi : i < g.dim
    · exact h3 i hi
    · rw [List.getElem?_eq_none (by omega), List.getElem?_eq_none (by omega)]
  have hax : ∀ i < g.dim, ∃ n w c, AxisIs g i n w c ∧ AxisIs h i n w c := by
    intro i hi
    obtain ⟨n, w, c, hn, -, a⟩ := hg.axis i hi
    exact ⟨n, w, c, a, ha i n w c a hn⟩
  have k1 : h.nPix = g.nPix := key _ _ (hh.nPix.trans hdim) hg.nPix (fun i hi => by
    obtain ⟨n, w, c, a, b⟩ := hax i hi; rw [a.nPix, b.nPix])
  have k2 : h.pix.vals = g.pix.vals := key _ _ (hh.pix.trans hdim) hg.pix (fun i hi => by
    obtain ⟨n, w, c, a, b⟩ := hax i hi; rw [a.pix, b.pix])
  have k3 : h.side.vals = g.side.vals := key _ _ (hh.side.trans hdim) hg.side (fun i hi => by
    obtain ⟨n, w, c, a, b⟩ := hax i hi; rw [a.side, b.side])
  have k4 : h.axes = g.axes := key _ _ (hh.axes.trans hdim) hg.axes (fun i hi => by
    obtain ⟨n, w, c, a, b⟩ := hax i hi; rw [a.axes, b.axes])
  have k5 : h.centers = g.centers := key _ _ (hh.centers.trans hdim) hg.centers (fun i hi => by
    obtain ⟨n, w, c, a, b⟩ := hax i hi; rw [a.centers, b.centers])
  have k6 : h.fcenters = g.fcenters := key _ _ (hh.fcenters.trans hdim) hg.fcenters (fun i hi => by
    obtain ⟨n, w, c, a, b⟩ := hax i hi; rw [a.fcenters, b.fcenters])
  have k7 : h.faxes = g.faxes := key _ _ (hh.faxes.trans hdim) hg.faxes (fun i hi => by
    obtain ⟨n, w, c, a, b⟩ := hax i hi; rw [a.faxes, b.faxes])
  rcases g with ⟨_, _, _, ⟨_, _⟩, ⟨_, _⟩, _, _, _, _, _, _, _, _, _, _, _⟩
  rcases h with ⟨_, _, _, ⟨_, _⟩, ⟨_, _⟩, _, _, _, _, _, _, _, _, _, _, _⟩
  simp only at e1 e2 e3 e4 e5 e6 e7 e8 e9 e10 k1 k2 k3 k4 k5 k6 k7
  subst e1 e2 e3 e4 e5 e6 e7 e8 e9 e10 k1 k2 k3 k4 k5 k6 k7
  rfl

/-- **C21** for floating point grids and amounts that are looked up as given (`Aligned`; see
the instances below): padding adds the requested cells and nothing else, and padding by the negative
amounts restores the grid and its values. -/
theorem C21_pad_unpad_partial (g : Grid K V) (hg : Regular g) (hfl : Floats g) (ax : List ℕ)
    (pad : List ℤ) (val val' : V) (hax : ∀ a ∈ ax, a < g.dim) (hnd : ax.Nodup)
    (hlen : pad.length = ax.length) (hal : Aligned ax pad) (hpos : ∀ p ∈ pad, 0 ≤ p) :
    ∃ g' : Grid K V, g.padBy ax pad val = (g', .ok ()) ∧ Padded g g' ax pad val ∧
      ∃ g'' : Grid K V, g'.padBy ax (pad.map (- ·)) val' = (g'', .ok ()) ∧ Same g'' g := by
  have h0 := amount_nonneg ax pad hpos
  have hk : ∀ (i n : ℕ), g.nPix[i]? = some n → 2 ≤ (n : ℤ) + 2 * amount ax pad i := by
    intro i n hi
    have hid : i < g.dim := by rw [← hg.nPix]; exact (List.getElem?_eq_some_iff.1 hi).1
    obtain ⟨n', w, c, hn, -, ha⟩ := hg.axis i hid
    have := ha.nPix
    rw [hi] at this
    simp only [Option.some.injEq] at this
    have := h0 i
    omega
  obtain ⟨g', p1, p2, p3, q1, q2, q3, q4, q5, q6, q7, q8, q9, q10⟩ :=
    padBy_ok g hg hfl ax pad val hax hnd hlen hal hk
  have hdim : g'.dim = g.dim := by simp [Grid.dim, q3]
  have hax' : ∀ (i n : ℕ) (w c : K) (b : Bool), AxisIs g i n w c → g.fourier[i]? = some b →
      AxisIs g' i (n + 2 * (amount ax pad i).toNat)
        (padWidth b n (n + 2 * (amount ax pad i).toNat) w) c := by
    intro i n w c b ha hb
    obtain ⟨k, k1, k2⟩ := q10 i n w c b ha hb
    have := h0 i
    have : k = n + 2 * (amount ax pad i).toNat := by omega
    rwa [← this]
  set ps := (List.range g.dim).map (fun i => (amount ax pad i).toNat) with hps
  have hc1 : padCells g ax pad 1 = ps ++ [0] := by
    rw [padCells_eq]; simp [hps]
  have hc2 : padCells g ax pad (-1) = List.replicate g.dim 0 ++ [0] := by
    rw [padCells_eq]
    congr 1
    rw [List.eq_replicate_iff]
    refine ⟨by simp, ?_⟩
    intro x hx
    obtain ⟨i, -, rfl⟩ := List.mem_map.1 hx
    have := h0 i
    omega
  have hpl : ps.length = g.dim := by simp [hps]
  have hdata : ∀ a, g.grid = some a → ((a.pad (padCells g ax pad 1) val).unpad
      (padCells g ax pad (-1))).Same (a.pad (ps ++ [0]) val) := by
    intro a ha
    rw [hc1, hc2]
    apply Arr.unpad_zero
    · simp [Arr.pad, hg.data a ha, hg.nPix, hpl]
    · intro z hz
      simp only [List.mem_append, List.mem_replicate, List.mem_singleton] at hz
      rcases hz with ⟨_, rfl⟩ | rfl <;> rfl
  have hsh : ∀ a, g.grid = some a → (ps ++ [0]).length = a.shape.length := by
    intro a ha; simp [hg.data a ha, hg.nPix, hpl]
  refine ⟨g', p1, ?_, ?_⟩
  · refine ⟨p2, q1, ?_, ?_, ?_, ?_, ?_, ?_, ?_⟩
    · intro i n hi
      have hid : i < g.dim := by rw [← hg.nPix]; exact (List.getElem?_eq_some_iff.1 hi).1
      obtain ⟨n', w, c, hn, -, ha⟩ := hg.axis i hid
      have e := ha.nPix
      rw [hi] at e
      simp only [Option.some.injEq] at e
      subst e
      refine ⟨_, (hax' i n w c _ ha (List.getElem?_eq_getElem (by rw [hg.fourier]; exact hid))).nPix, ?_⟩
      have := h0 i
      omega
    · intro i e hb hi
      have hid : i < g.dim := by rw [← hg.axes]; exact (List.getElem?_eq_some_iff.1 hi).1
      obtain ⟨n, w, c, hn, -, ha⟩ := hg.axis i hid
      have e' := ha.axes
      rw [hi] at e'
      simp only [Option.some.injEq] at e'
      subst e'
      exact ⟨_, (hax' i n w c _ ha hb).axes, fun j hj => edges_shift n _ w c j hj⟩
    · intro i e hb hi
      have hid : i < g.dim := by rw [← hg.centers]; exact (List.getElem?_eq_some_iff.1 hi).1
      obtain ⟨n, w, c, hn, -, ha⟩ := hg.axis i hid
      have e' := ha.centers
      rw [hi] at e'
      simp only [Option.some.injEq] at e'
      subst e'
      exact ⟨_, (hax' i n w c _ ha hb).centers, fun j hj => middles_shift n _ w c j hj⟩
    · intro i e hb hi
      have hid : i < g.dim := by rw [← hg.fcenters]; exact (List.getElem?_eq_some_iff.1 hi).1
      obtain ⟨n, w, c, hn, -, ha⟩ := hg.axis i hid
      have e' := ha.fcenters
      rw [hi] at e'
      simp only [Option.some.injEq] at e'
      subst e'
      refine ⟨_, (hax' i n w c _ ha hb).fcenters, fun j hj => ?_⟩
      exact freqs_shift n _ (by omega) w j hj
    · intro hn; rw [q9, hn]; rfl
    · intro a ha
      refine ⟨_, by rw [q9, ha]; rfl, ?_⟩
      intro c p hc hp
      have hv : Valid a.shape (c ++ [p]) := by
        rw [hg.data a ha]; exact valid_concat.2 ⟨hc, hp⟩
      have h1 := Arr.pad_old a (ps ++ [0]) val (hsh a ha) (c ++ [p]) hv
      rw [List.zipWith_append (by rw [hpl, hc.length, hg.nPix])] at h1
      simp only [List.zipWith_cons_cons, List.zipWith_nil_left, Nat.add_zero] at h1
      unfold cell
      rw [← h1]
      apply (hdata a ha).2
      rw [(hdata a ha).1]
      have h2 := valid_shift (hsh a ha) hv
      rw [List.zipWith_append (by rw [hpl, hc.length, hg.nPix])] at h2
      exact h2
    · intro b hb c p hc hp hno
      cases hga : g.grid with
      | none => rw [q9, hga] at hb; cases hb
      | some a =>
        have hb' := hb
        rw [q9, hga] at hb'
        simp only [Option.map_some, Option.some.injEq] at hb'
        have hv : Valid b.shape (c ++ [p]) := by
          rw [p2.data b hb, q1]; exact valid_concat.2 ⟨hc, hp⟩
        have hs := hdata a hga
        rw [hb'] at hs
        unfold cell
        rw [hs.2 _ hv]
        apply Arr.pad_new _ _ _ (hsh a hga)
        · rw [List.length_append, hc.length, p2.nPix, hdim, hg.data a hga, List.length_append, hg.nPix]
          rfl
        · rintro ⟨i, hi1, hi2⟩
          rw [hg.data a hga] at hi1
          obtain ⟨c0, p0, rfl, hc0, hp0⟩ := valid_split hi1
          rw [List.zipWith_append (by rw [hpl, hc0.length, hg.nPix])] at hi2
          have := List.append_inj' hi2 (by simp)
          exact hno ⟨c0, hc0, this.1⟩
  · have hk2 : ∀ (i n : ℕ), g'.nPix[i]? = some n →
        2 ≤ (n : ℤ) + 2 * amount ax (pad.map (- ·)) i := by
      intro i n hi
      have hid : i < g.dim := by
        rw [← hdim, ← p2.nPix]; exact (List.getElem?_eq_some_iff.1 hi).1
      obtain ⟨n', w, c, hn, -, ha⟩ := hg.axis i hid
      have := (hax' i n' w c _ ha (List.getElem?_eq_getElem (by rw [hg.fourier]; exact hid))).nPix
      rw [hi] at this
      simp only [Option.some.injEq] at this
      rw [amount_neg]
      have := h0 i
      omega
    obtain ⟨g'', r1, r2, r3, s1, s2, s3, s4, s5, s6, s7, s8, s9, s10⟩ :=
      padBy_ok g' p2 p3 ax (pad.map (- ·)) val' (by rw [hdim]; exact hax) hnd (by simp [hlen])
        (aligned_neg ax pad hal) hk2
    refine ⟨g'', r1, ?_⟩
    apply same_of_axes g g'' hg r2 (s1.trans q1) (s2.trans q2) (s3.trans q3) (s4.trans q4)
      (s5.trans q5) (s6.trans q6) (s7.trans q7) (s8.trans q8) (r3.2.1.trans hfl.2.1.symm)
      (r3.2.2.trans hfl.2.2.symm)
    · intro i n w c ha hn
      have hid : i < g.dim := (List.getElem?_eq_some_iff.1 ha.center).1
      have hb : g.fourier[i]? = some (g.fourier[i]'(by rw [hg.fourier]; exact hid)) :=
        List.getElem?_eq_getElem (by rw [hg.fourier]; exact hid)
      generalize g.fourier[i]'(by rw [hg.fourier]; exact hid) = b at hb
      obtain ⟨k, k1, k2⟩ := s10 i _ _ c b (hax' i n w c b ha hb) (by rw [q7]; exact hb)
      rw [amount_neg] at k1
      have := h0 i
      have hkn : k = n := by omega
      subst hkn
      have hw : padWidth b (k + 2 * (amount ax pad i).toNat) k
          (padWidth b k (k + 2 * (amount ax pad i).toNat) w) = w := by
        unfold padWidth
        cases b with
        | false => rfl
        | true =>
          simp only [if_true]
          have h1 : (k : K) ≠ 0 := by
            have : k ≠ 0 := by omega
            exact_mod_cast this
          have h2 : ((k + 2 * (amount ax pad i).toNat : ℕ) : K) ≠ 0 := by
            have : k + 2 * (amount ax pad i).toNat ≠ 0 := by omega
            exact_mod_cast this
          field_simp
      rwa [hw] at k2
    · rw [s9, q9]
      cases hga : g.grid with
      | none => trivial
      | some a =>
        simp only [Option.map_some, SameData]
        have hc3 : padCells g' ax (pad.map (- ·)) 1 = List.replicate g.dim 0 ++ [0] := by
          rw [← hc2, padCells_eq, padCells_eq, hdim]
          simp [amount_neg]
        have hc4 : padCells g' ax (pad.map (- ·)) (-1) = ps ++ [0] := by
          rw [← hc1, padCells_eq, padCells_eq, hdim]
          simp [amount_neg]
        rw [hc3, hc4]
        set b := (a.pad (padCells g ax pad 1) val).unpad (padCells g ax pad (-1)) with hb
        have h1 := hdata a hga
        have hbl : b.shape.length = g.dim + 1 := by
          rw [hb, h1.1]; simp [Arr.pad, hg.data a hga, hg.nPix, hpl]
        have h2 : (b.pad (List.replicate g.dim 0 ++ [0]) val').Same b := by
          apply Arr.pad_zero
          · simp [hbl]
          · intro z hz
            simp only [List.mem_append, List.mem_replicate, List.mem_singleton] at hz
            rcases hz with ⟨_, rfl⟩ | rfl <;> rfl
        have h3 := h2.trans h1
        have h4 := Arr.unpad_congr h3 (ps ++ [0]) (by rw [h2.1, hbl]; simp [hpl])
        exact h4.trans (Arr.unpad_pad a (ps ++ [0]) val (hsh a hga))

/-! ### Which axes and amounts are looked up as given -/

/-- The first axes in order, with any amounts. -/
theorem C21_aligned_range (k : ℕ) (pad : List ℤ) (h : pad.length = k) :
    Aligned (List.range k) pad := by
  intro i hi
  unfold amount at hi ⊢
  by_cases h1 : i ∈ List.range k
  · rw [if_pos h1] at hi ⊢
    have hik := List.mem_range.1 h1
    have hidx : (List.range k).idxOf i = i := by
      have := List.nodup_range (n := k) |>.idxOf_getElem i (by simpa using hik)
      simpa using this
    rw [hidx] at hi ⊢
    refine ⟨i, List.getElem?_range hik, ?_⟩
    rw [List.getD_eq_getElem?_getD, List.getElem?_eq_getElem (by omega)]
    simp
  · rw [if_neg h1] at hi; exact absurd rfl hi

/-- Any order of the first axes, with equal amounts. -/
theorem C21_aligned_perm (k : ℕ) (ax : List ℕ) (hp : ax.Perm (List.range k)) (p : ℤ) :
    Aligned ax (List.replicate k p) := by
  have hlen : ax.length = k := by rw [hp.length_eq]; simp
  have hmem : ∀ i, i ∈ ax ↔ i < k := fun i => by rw [hp.mem_iff, List.mem_range]
  intro i hi
  unfold amount at hi ⊢
  by_cases h1 : i ∈ ax
  · rw [if_pos h1] at hi ⊢
    have hik := (hmem i).1 h1
    have hal : ax[i]? = some (ax[i]'(by omega)) := List.getElem?_eq_getElem (by omega)
    refine ⟨_, hal, ?_⟩
    have h2 : ax[i]'(by omega) < k := (hmem _).1 (List.getElem_mem _)
    have h3 : ax.idxOf i < k := by rw [← hlen]; exact List.idxOf_lt_length_iff.2 h1
    rw [List.getElem?_replicate, if_pos h2, List.getD_eq_getElem?_getD, List.getElem?_replicate,
      if_pos h3]
    rfl
  · rw [if_neg h1] at hi; exact absurd rfl hi

/-! ### Where it fails -/

/-- Padding a single axis other than the first by a non-zero amount always raises
`IndexError`, on every grid. -/
theorem C21_single_axis_fails (g : Grid K V) (a : ℕ) (ha : a < g.dim) (h0 : a ≠ 0) (p : ℤ)
    (hp : 0 < p) (val : V) : ∃ e, g.padBy [a] [p] val = (g, .error e) := by
  unfold Grid.padBy
  rw [if_neg (by simpa using ha)]
  have hm : padSpread [p] [a].length = .ok [p] := by simp [padSpread]
  rw [hm]
  simp only
  rw [if_neg (by
    rintro ⟨q, hq, h1, -⟩
    simp at hq
    subst hq
    simp at h1
    omega)]
  cases hpl : padPlan g [a] [p] with
  | error e => exact ⟨e, rfl⟩
  | ok plan =>
    exfalso
    obtain ⟨y, h1, h2⟩ := ((mapE_ok_iff _ _ _).1 hpl).2 a a (List.getElem?_range ha)
    have hpw : padWrong [a] [p] a = .error .indexError := by
      unfold padWrong
      rw [List.getElem?_eq_none (by simp; omega)]
    simp [hpw, hp.ne'] at h2

theorem C21_full_false [Nonempty V] : ¬ C21_full K V := by
  intro h
  obtain ⟨v⟩ := ‹Nonempty V›
  obtain ⟨g, -, hr, hc, -⟩ := C17_grid_geometry_partial (V := V) 1 (⟨false, [0, 0]⟩ : NArr K)
    ⟨false, [10, 10]⟩ ⟨false, [1, 1]⟩ rfl rfl (by simp) (by
      intro i s w h1 h2
      match i, h1, h2 with
      | 0, h1, h2 => simp at h1 h2; subst h1 h2; norm_num
      | 1, h1, h2 => simp at h1 h2; subst h1 h2; norm_num)
  have hd : g.dim = 2 := by simp [Grid.dim, hc]
  obtain ⟨g', h1, -⟩ := h g [1] [1] v v hr (by simp [hd]) (by simp) rfl (by simp)
  obtain ⟨e, he⟩ := C21_single_axis_fails g 1 (by omega) (by omega) 1 (by omega) v
  rw [h1] at he
  simp at he

/-- Three axes in another order: the amounts are mixed up although each axis was given one; with data
the call raises `ValueError` after the grid has been changed. -/
example : okAnd (Grid.new 1 ⟨false, [0, 0, 0]⟩ ⟨false, [2, 2, 2]⟩ ⟨false, [1, 1, 1]⟩)
    (fun g : Grid ℚ ℚ => (g.padBy [1, 2, 0] [1, 2, 3] 0).1.nPix = [6, 8, 4] ∧
      ((g.init.padBy [1, 2, 0] [1, 2, 3] 0).1.grid.map Arr.shape) = some [8, 4, 6, 1] ∧
      ¬ (g.init.padBy [1, 2, 0] [1, 2, 3] 0).1.nPix = [2, 2, 2]) = true := by
  decide +kernel

/-- An integer `side_length` array with a fractional pixel size loses part of the new extent: four
cells of width 3/4 padded by one cell should have extent 9/2 but get 4, and every old cell moves. -/
example : okAnd (Grid.new 1 ⟨true, [0, 0]⟩ ⟨true, [3, 3]⟩ ⟨false, [3 / 4, 3 / 4]⟩)
    (fun g : Grid ℚ ℚ => g.side = ⟨true, [3, 3]⟩ ∧ (g.padBy [0] [1] 0).1.side.vals = [4, 3] ∧
      (g.padBy [0] [1] 0).1.axes[0]? =
        some ([-2, -5 / 4, -1 / 2, 1 / 4, 1, 7 / 4, 5 / 2] : List ℚ) ∧
      g.axes[0]? = some ([-3 / 2, -3 / 4, 0, 3 / 4, 3 / 2] : List ℚ)) = true := by
  decide +kernel

/-- A case of `C21_pad_unpad_partial`: two axes, different amounts, data. -/
example : okAnd (Grid.new 1 ⟨false, [0, 0]⟩ ⟨false, [2, 2]⟩ ⟨false, [1, 1]⟩)
    (fun g : Grid ℚ ℚ =>
      let g := { g with grid := some (⟨[2, 2, 1], fun i => (i.getD 0 0 + 2 * i.getD 1 0 + 1 : ℕ)⟩ : Arr ℚ) }
      (g.padBy [0, 1] [1, 2] 0).1.nPix = [4, 6] ∧
      ((g.padBy [0, 1] [1, 2] 0).1.grid.map (fun a => (a.get [1, 2, 0], a.get [2, 3, 0], a.get [0, 2, 0]))) =
        some (1, 4, 0)) = true := by
  decide +kernel

/-- C21: a request that would remove all cells of an axis (or more) is refused and changes
nothing. -/
theorem C21_refused (g : Grid K V) (ax : List ℕ) (pad : List ℤ) (val : V)
    (hlen : ax.length = pad.length) (a : ℕ) (p : ℤ) (hq : (a, p) ∈ ax.zip pad)
    (hn : (g.nPix.getD a 0 : ℤ) + 2 * p ≤ 0) (hp : p < 0) :
    g.padBy ax pad val = (g, .error .valueError) := by
  unfold Grid.padBy
  split
  · rfl
  · have hs : padSpread pad ax.length = .ok pad := by
      unfold padSpread
      split
      · rename_i h
        omega
      · rw [if_pos hlen.symm]
    rw [hs]
    simp only
    rw [if_pos ⟨(a, p), hq, hp, by simp only; omega⟩]

/-- Removing three cells on each side of an axis with five cells is refused. -/
example (g : Grid ℚ ℚ) (h : g.nPix = [7, 5]) (val : ℚ) :
    g.padBy [0, 1] [-1, -3] val = (g, .error .valueError) :=
  C21_refused g [0, 1] [-1, -3] val rfl 1 (-3) (by simp) (by rw [h]; decide) (by decide)

end Verif.Map
