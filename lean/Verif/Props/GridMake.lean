import Verif.Model.GridMake
import Verif.Spec.GridMake
import Verif.Props.GridAdd
import Verif.Props.GridGeometry

/-!
# C97: a catalogue put into a grid with `Gridder`
-/

set_option linter.unusedSectionVars false

namespace Verif.Map

open Verif.Sim (Err)
open Spec

variable {K V : Type} [Field K] [LinearOrder K] [IsStrictOrderedRing K] [FloorRing K]

theorem spreadUnits_given (u : Option (List (Option String))) (d : ℕ)
    (h : ∀ l, u = some l → l.length = d) :
    ∃ u', spreadUnits u d = .ok u' ∧ ∀ l, u = some l → u' = l := by
  unfold spreadUnits
  match u, h with
  | none, _ => exact ⟨_, rfl, by simp⟩
  | some [x], h =>
    have := h [x] rfl
    simp at this
    subst this
    exact ⟨_, rfl, by simp⟩
  | some [], h =>
    have := h [] rfl
    exact ⟨[], by simp_all, by simp⟩
  | some (x :: y :: l), h =>
    have := h _ rfl
    exact ⟨_, by simp only [this, if_true]; rfl, by simp⟩

/-- C17 with units. -/
theorem new_fit (m : ℕ) (center side pix : NArr K) (au gu : Option (List (Option String)))
    (hau : ∀ l, au = some l → l.length = center.vals.length)
    (hgu : ∀ l, gu = some l → l.length = m)
    (hs : side.vals.length = center.vals.length) (hp : pix.vals.length = center.vals.length)
    (hw : ∀ w ∈ pix.vals, 0 < w)
    (hmin : ∀ (i : ℕ) (s w : K), side.vals[i]? = some s → pix.vals[i]? = some w →
      (1 + 1 / 20) * w < s) :
    ∃ g : Grid K V, Grid.new m center side pix au gu = .ok g ∧ Regular g ∧ g.center = center ∧
      g.pix = pix ∧ g.nProps = m ∧ g.nObj = 0 ∧ g.grid = none ∧ (∀ b ∈ g.fourier, b = false) ∧
      (∀ l, au = some l → g.axunits = l) ∧ (∀ l, gu = some l → g.gridunits = l) ∧
      ∀ (i : ℕ) (s w c : K), side.vals[i]? = some s → pix.vals[i]? = some w →
        center.vals[i]? = some c →
        ∃ n : ℕ, AxisIs g i n w c ∧ s - w / 20 ≤ n * w ∧ n * w < s + 19 / 20 * w := by
  obtain ⟨S, hS, hSv⟩ := spreadSide_full side _ hs
  obtain ⟨au', ha1, ha2⟩ := spreadUnits_given au _ hau
  obtain ⟨gu', hg1, hg2⟩ := spreadUnits_given gu _ hgu
  have hP : spreadPix pix center.vals.length = .ok pix := by simp [spreadPix, hp]
  obtain ⟨ns, hns⟩ : ∃ ns, mapE (fun p : K × K => pixelCount p.1 p.2) (S.vals.zip pix.vals) =
      .ok ns := by
    apply mapE_total
    intro q hq
    obtain ⟨i, hi⟩ := List.getElem?_of_mem hq
    rw [hSv, List.getElem?_zip_eq_some] at hi
    have h0 := hw q.2 (List.mem_of_getElem? hi.2)
    apply pixelCount_total _ _ h0
    rw [lt_div_iff₀ h0]
    exact hmin i _ _ hi.1 hi.2
  obtain ⟨g, h1, h2, h3, h4, h5, h6, h7, h8, hu, -, hv, h9, h10, -⟩ :=
    new_ok (V := V) m center side pix S pix au gu _ _ hS hP ha1 hg1 hw ns hns
  refine ⟨g, h1, h2, h3, h4, h6, h7, h8, ?_, ?_, ?_, ?_⟩
  · intro b hb; rw [h9] at hb; exact (List.mem_replicate.1 hb).2
  · intro l hl; rw [hu, ha2 l hl]
  · intro l hl; rw [hv, hg2 l hl]
  · intro i s w c hi1 hi2 hi3
    have hi : i < g.dim := by
      rw [Grid.dim, h3]; exact (List.getElem?_eq_some_iff.1 hi3).1
    obtain ⟨n, w', c', a1, a2, a3⟩ := h2.axis i hi
    have e1 : w' = w := by
      have := a3.pix; rw [h4, hi2] at this; simpa using this.symm
    have e2 : c' = c := by
      have := a3.center; rw [h3, hi3] at this; simpa using this.symm
    subst e1 e2
    refine ⟨n, a3, ?_⟩
    have hn := a3.nPix
    rw [h5] at hn
    obtain ⟨⟨s', w''⟩, b1, b2⟩ := mapE_get hns i n hn
    rw [hSv, List.getElem?_zip_eq_some, hi1, hi2] at b1
    simp only [Option.some.injEq] at b1
    obtain ⟨rfl, rfl⟩ := b1
    obtain ⟨-, b3, b4⟩ := (pixelCount_ok _ _ a2 n).1 b2
    rw [lt_div_iff₀ a2] at b3
    rw [div_le_iff₀ a2] at b4
    constructor <;> linarith

/-! ## The default region -/

theorem extent_col (rows : List (List K)) (d i : ℕ) (hi : i < d) (hl : ∀ r ∈ rows, r.length = d)
    (lo hi' : K) (h : Extent rows i lo hi') :
    minOf (colOf rows i) = lo ∧ ptpOf (colOf rows i) = hi' - lo := by
  have hcol : ∀ r ∈ rows, r[i]? = some (r.getD i 0) := by
    intro r hr
    have : i < r.length := by rw [hl r hr]; exact hi
    simp [this]
  have hmin : (colOf rows i).min? = some lo := by
    rw [List.min?_eq_some_iff]
    constructor
    · obtain ⟨r, hr, hx⟩ := h.low
      exact List.mem_map.2 ⟨r, hr, by simp [List.getD, hx]⟩
    · intro x hx
      obtain ⟨r, hr, rfl⟩ := List.mem_map.1 hx
      exact (h.within r hr _ (hcol r hr)).1
  have hmax : (colOf rows i).max? = some hi' := by
    rw [List.max?_eq_some_iff]
    constructor
    · obtain ⟨r, hr, hx⟩ := h.high
      exact List.mem_map.2 ⟨r, hr, by simp [List.getD, hx]⟩
    · intro x hx
      obtain ⟨r, hr, rfl⟩ := List.mem_map.1 hx
      exact (h.within r hr _ (hcol r hr)).2
  constructor
  · simp [minOf, hmin]
  · simp [ptpOf, hmin, hmax]

/-- Every axis of a catalogue has an extent. -/
theorem extent_exists (rows : List (List K)) (d i : ℕ) (hi : i < d) (hne : rows ≠ [])
    (hl : ∀ r ∈ rows, r.length = d) : ∃ lo hi', Extent rows i lo hi' := by
  have hcol : ∀ r ∈ rows, r[i]? = some (r.getD i 0) := by
    intro r hr
    have : i < r.length := by rw [hl r hr]; exact hi
    simp [this]
  have hc : colOf rows i ≠ [] := by simpa [colOf] using hne
  obtain ⟨lo, h1⟩ := Option.isSome_iff_exists.1 (List.isSome_min?_of_ne_nil hc)
  obtain ⟨hi', h2⟩ := Option.isSome_iff_exists.1 (List.isSome_max?_of_ne_nil hc)
  obtain ⟨a1, a2⟩ := List.min?_eq_some_iff.1 h1
  obtain ⟨b1, b2⟩ := List.max?_eq_some_iff.1 h2
  refine ⟨lo, hi', ?_, ?_, ?_⟩
  · obtain ⟨r, hr, rfl⟩ := List.mem_map.1 a1
    exact ⟨r, hr, hcol r hr⟩
  · obtain ⟨r, hr, rfl⟩ := List.mem_map.1 b1
    exact ⟨r, hr, hcol r hr⟩
  · intro r hr x hx
    rw [hcol r hr] at hx
    simp only [Option.some.injEq] at hx
    have : x ∈ colOf rows i := List.mem_map.2 ⟨r, hr, hx⟩
    exact ⟨a2 x this, b2 x this⟩

theorem Extent.le {rows : List (List K)} {i : ℕ} {lo hi : K} (h : Extent rows i lo hi) : lo ≤ hi := by
  obtain ⟨r, hr, hx⟩ := h.low
  exact (h.within r hr _ hx).2

theorem center_default (rows : List (List K)) (d : ℕ) (hl : ∀ r ∈ rows, r.length = d) :
    ∃ c : NArr K, gridderCenter rows d none = .ok c ∧ c.vals.length = d ∧
      ∀ (i : ℕ) (lo hi : K), i < d → Extent rows i lo hi → c.vals[i]? = some ((lo + hi) / 2) := by
  refine ⟨_, rfl, by simp, ?_⟩
  intro i lo hi h1 h2
  obtain ⟨e1, e2⟩ := extent_col rows d i h1 hl lo hi h2
  simp only [List.getElem?_map, List.getElem?_range h1, Option.map_some, e1, e2]
  split
  · rename_i h
    have : hi = lo := by linarith
    subst this
    congr 1; ring
  · congr 1; ring

theorem side_default (rows : List (List K)) (d : ℕ) (hl : ∀ r ∈ rows, r.length = d) :
    ∃ s : NArr K, gridderSide rows d none = .ok s ∧ s.vals.length = d ∧
      ∀ (i : ℕ) (lo hi : K), i < d → Extent rows i lo hi → s.vals[i]? = some (defaultSide lo hi) := by
  refine ⟨_, rfl, by simp, ?_⟩
  intro i lo hi h1 h2
  obtain ⟨e1, e2⟩ := extent_col rows d i h1 hl lo hi h2
  simp only [List.getElem?_map, List.getElem?_range h1, Option.map_some, e2, defaultSide]
  by_cases h : lo = hi
  · rw [if_pos (by rw [h]; ring), if_pos h]
  · rw [if_neg (fun e => h (by linarith)), if_neg h]
    congr 2; norm_num

/-! ## Gridding -/

section
variable [AddCommMonoid V] [One V]

theorem init_facts (g : Grid K V) (hg : Regular g) : Regular g.init :=
  regular_add hg (some (zeros (g.nPix ++ [g.nProps]))) g.nProps 0 g.gridunits g.isPow
    (by rintro x hx; simp only [Option.some.injEq] at hx; subst hx; rfl) rfl

theorem addFromCat_none (g : Grid K V) (P : Pos K) (v : Option (Vals V)) :
    g.addFromCat P v false none = g.addFromCat P v false (some (List.range g.nProps)) := by
  have : g.checkProps none = g.checkProps (some (List.range g.nProps)) := by
    simp [Grid.checkProps]
  unfold Grid.addFromCat
  simp only [this]

/-- What remains of `Gridder` when the dimensions, centre and side lengths are known. -/
theorem gridder_eq (objs : List (List K × List V)) (cols d : ℕ) (center side : Option (NArr K))
    (pix : NArr K) (au gu : Option (List (Option String))) (setndims : Option ℕ)
    (hfit : ∀ o ∈ objs, o.1.length = d)
    (hset : setndims = some d ∨ setndims = none ∧ objs ≠ [])
    (hne : center = none ∨ side = none → objs ≠ []) (c s : NArr K)
    (hc : gridderCenter (objs.map (·.1)) d center = .ok c)
    (hs : gridderSide (objs.map (·.1)) d side = .ok s) :
    gridder (posOf objs) (some (valsOf cols objs)) center side pix au gu setndims =
      (match (Grid.new cols c s pix au gu : Except Err (Grid K V)) with
      | .error e => .error e
      | .ok g =>
        match g.init.addFromCat (posOf objs) (some (valsOf cols objs)) false none with
        | (_, .error e) => .error e
        | (g', .ok ()) => .ok g') := by
  have hdim : gridderDims (objs.map (·.1)) setndims = .ok d := by
    unfold gridderDims
    cases objs with
    | nil =>
      rcases hset with rfl | ⟨-, h⟩
      · rfl
      · exact absurd rfl h
    | cons o objs =>
      have := hfit o (by simp)
      rcases hset with rfl | ⟨rfl, -⟩ <;> simp [this]
  have h1 : ¬ (valsOf cols objs).rows.length ≠ (posOf objs).rows.length := by simp [valsOf, posOf]
  have h2 : ¬ ((center = none ∨ side = none) ∧ (posOf objs).rows = []) := by
    rintro ⟨h, h'⟩
    exact hne h (by simpa [posOf] using h')
  unfold gridder
  simp only [show (posOf objs).rows = objs.map (·.1) from rfl, hdim, Option.getD_some]
  simp only [show (posOf objs).rows = objs.map (·.1) from rfl] at h1 h2
  rw [if_neg h1, if_neg h2]
  simp only [hc, hs]
  rfl

/-- The grid made from a catalogue: cells as specified by centre, side lengths and pixel sizes, each
with the sum of the values of the objects in it. -/
structure Filled (g : Grid K V) (objs : List (List K × List V)) (cols : ℕ) (C S P : NArr K)
    (au gu : Option (List (Option String))) : Prop where
  regular : Regular g
  center : g.center = C
  pix : g.pix = P
  nProps : g.nProps = cols
  real : ∀ b ∈ g.fourier, b = false
  axunits : ∀ l, au = some l → g.axunits = l
  gridunits : ∀ l, gu = some l → g.gridunits = l
  axis : ∀ (i : ℕ) (s w c : K), S.vals[i]? = some s → P.vals[i]? = some w →
    C.vals[i]? = some c →
    ∃ n : ℕ, AxisIs g i n w c ∧ s - w / 20 ≤ n * w ∧ n * w < s + 19 / 20 * w
  nObj : g.nObj = (inGrid g objs).length
  cells : ∃ b, g.grid = some b ∧ b.shape = g.nPix ++ [cols] ∧
    ∀ c p, p < cols → cell b c p = cellSum g.axes c (column objs p)

theorem gridder_filled (objs : List (List K × List V)) (cols d : ℕ) (center side : Option (NArr K))
    (pix : NArr K) (au gu : Option (List (Option String))) (setndims : Option ℕ)
    (hfit : ∀ o ∈ objs, o.1.length = d)
    (hset : setndims = some d ∨ setndims = none ∧ objs ≠ [])
    (hne : center = none ∨ side = none → objs ≠ []) (c s : NArr K)
    (hc : gridderCenter (objs.map (·.1)) d center = .ok c)
    (hs : gridderSide (objs.map (·.1)) d side = .ok s)
    (hcl : c.vals.length = d) (hsl : s.vals.length = d) (hpl : pix.vals.length = d)
    (hau : ∀ l, au = some l → l.length = d) (hgu : ∀ l, gu = some l → l.length = cols)
    (hw : ∀ w ∈ pix.vals, 0 < w)
    (hmin : ∀ (i : ℕ) (s' w : K), s.vals[i]? = some s' → pix.vals[i]? = some w →
      (1 + 1 / 20) * w < s') :
    ∃ g, gridder (posOf objs) (some (valsOf cols objs)) center side pix au gu setndims = .ok g ∧
      Filled g objs cols c s pix au gu := by
  rw [gridder_eq objs cols d center side pix au gu setndims hfit hset hne c s hc hs]
  obtain ⟨g, h1, h2, h3, h4, h5, h6, h7, h8, h9, h10, h11⟩ := new_fit (V := V) cols c s pix au gu
    (by rw [hcl]; exact hau) hgu (hsl.trans hcl.symm) (hpl.trans hcl.symm) hw hmin
  rw [h1]
  simp only
  have hr := init_facts g h2
  have hfi : Fits g.init objs := by
    intro o ho
    rw [hfit o ho, ← hcl, ← h3]; rfl
  obtain ⟨g', k1, k2⟩ := C18_cells_partial g.init hr (zeros (g.nPix ++ [g.nProps])) rfl
    (by exact h8) objs hfi cols (List.range g.init.nProps) List.nodup_range
    (by simp) (.inr ⟨by simp [Grid.init, h5], by simp [Grid.init, h5]⟩)
  rw [addFromCat_none, k1]
  refine ⟨g', rfl, ?_⟩
  obtain ⟨b, hb, hsh, hv⟩ := k2.values _ rfl
  have hrest := k2.rest
  have hg' : g' = { g with grid := g'.grid, nObj := g'.nObj } := by
    cases g'; cases g
    simp only [Grid.init, Grid.mk.injEq] at hrest ⊢
    simp_all
  have hax : g'.axes = g.axes := by rw [hg']
  have hb' : b.shape = g.nPix ++ [cols] := by rw [hsh, ← h5]; rfl
  constructor
  · exact regular_add h2 g'.grid g.nProps g'.nObj g.gridunits g.isPow (by
      intro x hx; rw [hb] at hx; simp only [Option.some.injEq] at hx; subst hx; rw [hb', h5]) hg'
  · rw [hg']; exact h3
  · rw [hg']; exact h4
  · rw [hg']; exact h5
  · rw [hg']; exact h8
  · rw [hg']; exact h9
  · rw [hg']; exact h10
  · intro i s' w c' e1 e2 e3
    obtain ⟨n, a, a'⟩ := h11 i s' w c' e1 e2 e3
    refine ⟨n, ?_, a'⟩
    rw [hg']
    exact ⟨a.nPix, a.pix, a.center, a.side, a.axes, a.centers, a.fcenters, a.faxes⟩
  · rw [k2.nObj]
    unfold inGrid
    rw [hax]
    simp only [Grid.init, Nat.zero_add]
    rfl
  · refine ⟨b, hb, ?_, ?_⟩
    · rw [hb', hg']
    · intro cc p hp
      rw [hv cc p]
      have hm : p ∈ List.range g.init.nProps := by simp [Grid.init, h5, hp]
      simp only [hm, if_true, hax]
      have hz : cell (zeros (g.nPix ++ [g.nProps]) : Arr V) cc p = 0 := rfl
      rw [hz, zero_add]
      by_cases h1 : cols = 1
      · have : p = 0 := by omega
        subst this
        simp [Grid.init, h1]
      · simp [Grid.init, h1]

/-- **C97** with a given region: the grid has the requested centre, pixel sizes and units and
covers the requested side lengths (up to a twentieth of a pixel); each cell holds the sum of the
values of the objects in it, one property for each column; the objects inside are counted. -/
theorem C97_given_region (objs : List (List K × List V)) (cols d : ℕ) (center side pix : NArr K)
    (au gu : Option (List (Option String))) (setndims : Option ℕ)
    (hfit : ∀ o ∈ objs, o.1.length = d)
    (hset : setndims = some d ∨ setndims = none ∧ objs ≠ [])
    (hcl : center.vals.length = d) (hsl : side.vals.length = d) (hpl : pix.vals.length = d)
    (hau : ∀ l, au = some l → l.length = d) (hgu : ∀ l, gu = some l → l.length = cols)
    (hw : ∀ w ∈ pix.vals, 0 < w)
    (hmin : ∀ (i : ℕ) (s w : K), side.vals[i]? = some s → pix.vals[i]? = some w →
      (1 + 1 / 20) * w < s) :
    ∃ g, gridder (posOf objs) (some (valsOf cols objs)) (some center) (some side) pix au gu setndims
        = .ok g ∧ Filled g objs cols center side pix au gu := by
  obtain ⟨S, hS, hSv⟩ := spreadSide_full side d hsl
  obtain ⟨g, h1, h2⟩ := gridder_filled objs cols d (some center) (some side) pix au gu setndims hfit
    hset (by simp) center S (by simp [gridderCenter, hcl]) hS hcl (by rw [hSv]; exact hsl) hpl hau hgu
    hw (by rw [hSv]; exact hmin)
  refine ⟨g, h1, h2.regular, h2.center, h2.pix, h2.nProps, h2.real, h2.axunits, h2.gridunits, ?_,
    h2.nObj, h2.cells⟩
  have := h2.axis
  rw [hSv] at this
  exact this

/-- The region that is used without a centre or side length: a middle of the catalogue on each axis
and its default side length. -/
theorem C97_default_region (objs : List (List K × List V)) (cols d : ℕ) (pix : NArr K)
    (center side : Option (NArr K))
    (au gu : Option (List (Option String))) (setndims : Option ℕ) (hne : objs ≠ [])
    (hfit : ∀ o ∈ objs, o.1.length = d) (hset : setndims = some d ∨ setndims = none)
    (hcl : ∀ c, center = some c → c.vals.length = d) (hsl : ∀ s, side = some s → s.vals.length = d)
    (hpl : pix.vals.length = d)
    (hau : ∀ l, au = some l → l.length = d) (hgu : ∀ l, gu = some l → l.length = cols)
    (hw : ∀ w ∈ pix.vals, 0 < w)
    (hmin : ∀ (i : ℕ) (lo hi s w : K), Extent (objs.map (·.1)) i lo hi → pix.vals[i]? = some w →
      s = (match side with
        | some t => t.vals.getD i 0
        | none => defaultSide lo hi) → (1 + 1 / 20) * w < s) :
    ∃ g c s, gridder (posOf objs) (some (valsOf cols objs)) center side pix au gu setndims = .ok g ∧
      Filled g objs cols c s pix au gu ∧
      (∀ c', center = some c' → c = c') ∧ (∀ s', side = some s' → s.vals = s'.vals) ∧
      (center = none → ∀ (i : ℕ) (lo hi : K), i < d → Extent (objs.map (·.1)) i lo hi →
        c.vals[i]? = some ((lo + hi) / 2)) ∧
      (side = none → ∀ (i : ℕ) (lo hi : K), i < d → Extent (objs.map (·.1)) i lo hi →
        s.vals[i]? = some (defaultSide lo hi)) := by
  have hl : ∀ r ∈ objs.map (·.1), r.length = d := by
    intro r hr
    obtain ⟨o, ho, rfl⟩ := List.mem_map.1 hr
    exact hfit o ho
  obtain ⟨c, c1, c2, c3, c4⟩ : ∃ c : NArr K, gridderCenter (objs.map (·.1)) d center = .ok c ∧
      c.vals.length = d ∧ (∀ c', center = some c' → c = c') ∧
      (center = none → ∀ (i : ℕ) (lo hi : K), i < d → Extent (objs.map (·.1)) i lo hi →
        c.vals[i]? = some ((lo + hi) / 2)) := by
    cases center with
    | none =>
      obtain ⟨c, h1, h2, h3⟩ := center_default _ d hl
      exact ⟨c, h1, h2, by simp, fun _ => h3⟩
    | some c' => exact ⟨c', by simp [gridderCenter, hcl c' rfl], hcl c' rfl, by simp, by simp⟩
  obtain ⟨s, s1, s2, s3, s4⟩ : ∃ s : NArr K, gridderSide (objs.map (·.1)) d side = .ok s ∧
      s.vals.length = d ∧ (∀ s', side = some s' → s.vals = s'.vals) ∧
      (side = none → ∀ (i : ℕ) (lo hi : K), i < d → Extent (objs.map (·.1)) i lo hi →
        s.vals[i]? = some (defaultSide lo hi)) := by
    cases side with
    | none =>
      obtain ⟨s, h1, h2, h3⟩ := side_default _ d hl
      exact ⟨s, h1, h2, by simp, fun _ => h3⟩
    | some s' =>
      obtain ⟨S, hS, hSv⟩ := spreadSide_full s' d (hsl s' rfl)
      exact ⟨S, hS, by rw [hSv]; exact hsl s' rfl, by simpa using hSv, by simp⟩
  have hrows : objs.map (·.1) ≠ [] := by simpa using hne
  obtain ⟨g, h1, h2⟩ := gridder_filled objs cols d center side pix au gu setndims hfit
    (hset.imp id (fun h => ⟨h, hne⟩)) (fun _ => hne) c s c1 s1 c2 s2 hpl hau hgu hw (by
      intro i s' w e1 e2
      have hi : i < d := by rw [← s2]; exact (List.getElem?_eq_some_iff.1 e1).1
      obtain ⟨lo, hi', hx⟩ := extent_exists _ d i hi hrows hl
      apply hmin i lo hi' s' w hx e2
      cases side with
      | none =>
        rw [s4 rfl i lo hi' hi hx] at e1
        simpa using e1.symm
      | some t =>
        rw [s3 t rfl] at e1
        simp [List.getD, e1])
  exact ⟨g, c, s, h1, h2, c3, s3, c4, s4⟩

/-- All objects are in the grid. -/
theorem inGrid_all (g : Grid K V) (hg : Regular g) (objs : List (List K × List V))
    (h : ∀ o ∈ objs, Between g.axes o.1) : inGrid g objs = objs := by
  unfold inGrid
  rw [List.filter_eq_self]
  intro o ho
  simp only [decide_eq_true_eq]
  exact (C18_inside g hg o.1).2 (h o ho)

/-- An object at or above the last edge of an axis, or below the first, is not in the grid. -/
theorem outside_axis (g : Grid K V) (hg : Regular g) (row : List K) (i n : ℕ) (w c x : K)
    (ha : AxisIs g i n w c) (hx : row[i]? = some x) (h : c + n * w / 2 ≤ x ∨ x < c - n * w / 2) :
    ¬ InGrid g.axes row := by
  rw [C18_inside g hg]
  intro hb
  have hlen := hb.length_eq
  obtain ⟨h1, h2⟩ := List.forall₂_iff_get.1 hb
  have hi1 : i < row.length := (List.getElem?_eq_some_iff.1 hx).1
  have hi2 : i < g.axes.length := by rw [hlen]; exact hi1
  obtain ⟨lo, e1, hi, e2, e3, e4⟩ := h2 i hi2 hi1
  have e5 := (List.getElem?_eq_some_iff.1 ha.axes).2
  simp only [List.get_eq_getElem] at e1 e2 e3 e4
  rw [e5] at e1 e2
  rw [edges_head] at e1
  rw [edges_last] at e2
  rw [(List.getElem?_eq_some_iff.1 hx).2] at e3 e4
  simp only [Option.mem_def, Option.some.injEq] at e1 e2
  subst e1 e2
  rcases h with h | h <;> linarith

/-- A number of pixels is determined by the bounds of C17. -/
theorem count_unique (n k : ℕ) (w s : K) (hw : 0 < w) (h1 : s - w / 20 ≤ n * w)
    (h2 : n * w < s + 19 / 20 * w) (h3 : (k - 19 / 20) * w < s) (h4 : s ≤ (k + 1 / 20) * w) : n = k := by
  have b1 : (n : K) < k + 1 := by
    have : (n : K) * w < (k + 1) * w := by nlinarith
    exact lt_of_mul_lt_mul_right this hw.le
  have b2 : (k : K) < n + 1 := by
    have : (k : K) * w < (n + 1) * w := by nlinarith
    exact lt_of_mul_lt_mul_right this hw.le
  have b1' : n < k + 1 := by exact_mod_cast b1
  have b2' : k < n + 1 := by exact_mod_cast b2
  omega

/-- The property for the default region: whatever the pixel sizes, every object of a catalogue gets into
the grid. -/
def C97_full (K V : Type) [Field K] [LinearOrder K] [FloorRing K] [AddCommMonoid V] [One V] : Prop :=
  ∀ (objs : List (List K × List V)) (cols d : ℕ) (pix : NArr K) (ints : Bool),
    objs ≠ [] → (∀ o ∈ objs, o.1.length = d) → pix.vals.length = d → (∀ w ∈ pix.vals, 0 < w) →
    ∃ g, gridder { posOf objs with isInt := ints } (some (valsOf cols objs)) none none pix = .ok g ∧
      g.nObj = objs.length ∧ ∃ b, g.grid = some b ∧
        ∀ c p, p < cols → cell b c p = cellSum g.axes c (column objs p)

/-- **C97** for the default region, where it holds: if on each axis the default side length is more than
1.05 pixels and does not exceed a whole number of pixels by up to a twentieth, every object of a catalogue is
in the grid. -/
theorem C97_default_partial (objs : List (List K × List V)) (cols d : ℕ) (pix : NArr K) (hne : objs ≠ [])
    (hfit : ∀ o ∈ objs, o.1.length = d) (hpl : pix.vals.length = d) (hw : ∀ w ∈ pix.vals, 0 < w)
    (hk : ∀ (i : ℕ) (lo hi w : K), Extent (objs.map (·.1)) i lo hi → pix.vals[i]? = some w →
      ∃ k : ℕ, 2 ≤ k ∧ (k - 19 / 20) * w < defaultSide lo hi ∧ defaultSide lo hi ≤ k * w) :
    ∃ g, gridder (posOf objs) (some (valsOf cols objs)) none none pix = .ok g ∧
      g.nObj = objs.length ∧ Regular g ∧ (∀ o ∈ objs, InGrid g.axes o.1) ∧ ∃ b, g.grid = some b ∧
        (∀ c p, p < cols → cell b c p = cellSum g.axes c (column objs p)) ∧
        ∀ p, p < cols → total g b p = ((column objs p).map (·.2)).sum := by
  obtain ⟨g, c, s, h1, h2, -, -, h3, h4⟩ := C97_default_region objs cols d pix none none none none none hne
    hfit (.inr rfl) (by simp) (by simp) hpl (by simp) (by simp) hw (by
      intro i lo hi s w e1 e2 e3
      obtain ⟨k, k1, k2, k3⟩ := hk i lo hi w e1 e2
      have h0 := hw w (List.mem_of_getElem? e2)
      simp only at e3
      rw [e3]
      have : (2 : K) ≤ k := by exact_mod_cast k1
      nlinarith)
  have hl : ∀ r ∈ objs.map (·.1), r.length = d := by
    intro r hr
    obtain ⟨o, ho, rfl⟩ := List.mem_map.1 hr
    exact hfit o ho
  have hdim : g.dim = d := by
    rw [← hpl, ← h2.pix]; exact h2.regular.pix.symm
  have hbt : ∀ o ∈ objs, Between g.axes o.1 := by
    intro o ho
    apply forall₂_of_get
    · rw [h2.regular.axes, hdim, hfit o ho]
    · intro i e x he hx
      have hi : i < d := by rw [← hfit o ho]; exact (List.getElem?_eq_some_iff.1 hx).1
      obtain ⟨lo, hi', hext⟩ := extent_exists _ d i hi (by simpa using hne) hl
      have hpi : pix.vals[i]? = some (pix.vals[i]'(by omega)) := List.getElem?_eq_getElem _
      obtain ⟨w, hwi⟩ : ∃ w, pix.vals[i]? = some w := ⟨_, hpi⟩
      obtain ⟨n, a1, a2, a3⟩ := h2.axis i _ w _ (h4 rfl i lo hi' hi hext) hwi (h3 rfl i lo hi' hi hext)
      obtain ⟨k, k1, k2, k3⟩ := hk i lo hi' w hext hwi
      have h0 := hw w (List.mem_of_getElem? hwi)
      have := count_unique n k w _ h0 a2 a3 k2 (by nlinarith)
      subst this
      rw [a1.axes] at he
      simp only [Option.some.injEq] at he
      subst he
      refine ⟨_, edges_head _ _ _, _, edges_last _ _ _, ?_⟩
      obtain ⟨x1, x2⟩ := hext.within o.1 (List.mem_map.2 ⟨o, ho, rfl⟩) x hx
      unfold defaultSide at k3
      split at k3
      · rename_i he
        subst he
        constructor <;> nlinarith
      · rename_i he
        have : lo < hi' := lt_of_le_of_ne (Extent.le hext) he
        constructor <;> nlinarith
  have hall := inGrid_all g h2.regular objs hbt
  obtain ⟨b, b1, b2, b3⟩ := h2.cells
  refine ⟨g, h1, by rw [h2.nObj, hall], h2.regular,
    fun o ho => (C18_inside g h2.regular o.1).2 (hbt o ho), b, b1, b3, ?_⟩
  intro p hp
  unfold total
  rw [List.map_congr_left (fun c _ => b3 c p hp), cellSum_total g h2.regular]
  congr 2
  unfold inGrid
  rw [List.filter_eq_self]
  intro o ho
  simp only [decide_eq_true_eq]
  obtain ⟨o', ho', rfl⟩ := List.mem_map.1 ho
  exact (C18_inside g h2.regular o'.1).2 (hbt o' ho')

/-- Where it fails, first: if the extent of the catalogue on some axis is a whole number `k` of pixels, or more
by up to about a twentieth of a pixel, the grid has `k` pixels there and all objects with the largest coordinate
are lost; if it is more than `k` pixels, those with the smallest as well. -/
theorem C97_extreme_objects_lost (objs : List (List K × List V)) (cols d : ℕ) (pix : NArr K)
    (hne : objs ≠ []) (hfit : ∀ o ∈ objs, o.1.length = d) (hpl : pix.vals.length = d)
    (hw : ∀ w ∈ pix.vals, 0 < w)
    (hmin : ∀ (i : ℕ) (lo hi w : K), Extent (objs.map (·.1)) i lo hi → pix.vals[i]? = some w →
      (1 + 1 / 20) * w < defaultSide lo hi)
    (i k : ℕ) (lo hi w : K) (hi' : i < d) (hext : Extent (objs.map (·.1)) i lo hi)
    (hwi : pix.vals[i]? = some w) (hk1 : 1 ≤ k) (hk : k * w ≤ hi - lo)
    (hk2 : (hi - lo) * (1 + 1 / 10 ^ 7) ≤ (k + 1 / 20) * w) :
    ∃ g, gridder (posOf objs) (some (valsOf cols objs)) none none pix = .ok g ∧
      g.nObj < objs.length ∧
      (∀ o ∈ objs, o.1[i]? = some hi → ¬ InGrid g.axes o.1) ∧
      (k * w < hi - lo → ∀ o ∈ objs, o.1[i]? = some lo → ¬ InGrid g.axes o.1) := by
  obtain ⟨g, c, s, h1, h2, -, -, h3, h4⟩ := C97_default_region objs cols d pix none none none none none hne
    hfit (.inr rfl) (by simp) (by simp) hpl (by simp) (by simp) hw (by
      intro i lo hi s w e1 e2 e3
      simp only at e3
      rw [e3]
      exact hmin i lo hi w e1 e2)
  have h0 := hw w (List.mem_of_getElem? hwi)
  have hk1' : (1 : K) ≤ k := by exact_mod_cast hk1
  have hlt : lo < hi := by nlinarith
  have hds : defaultSide lo hi = (hi - lo) * (1 + 1 / 10 ^ 7) := by
    unfold defaultSide; rw [if_neg hlt.ne]
  obtain ⟨n, a1, a2, a3⟩ := h2.axis i _ w _ (h4 rfl i lo hi hi' hext) hwi (h3 rfl i lo hi hi' hext)
  have := count_unique n k w _ h0 a2 a3 (by rw [hds]; nlinarith) (by rw [hds]; exact hk2)
  subst this
  have hhi : ∀ o ∈ objs, o.1[i]? = some hi → ¬ InGrid g.axes o.1 := by
    intro o ho hx
    exact outside_axis g h2.regular o.1 i n w _ hi a1 hx (.inl (by linarith))
  refine ⟨g, h1, ?_, hhi, ?_⟩
  · rw [h2.nObj]
    obtain ⟨r, hr, hx⟩ := hext.high
    obtain ⟨o, ho, rfl⟩ := List.mem_map.1 hr
    unfold inGrid
    apply List.length_filter_lt_length_iff_exists.2
    exact ⟨o, ho, by simpa using hhi o ho hx⟩
  · intro hlt o ho hx
    exact outside_axis g h2.regular o.1 i n w _ lo a1 hx (.inr (by linarith))

/-- Second: if all objects have the same coordinate on some axis (for example because there is only one
object), the default side length of 1 with the default pixel size of 1 never gives a grid. -/
theorem C97_flat_axis_fails (objs : List (List K × List V)) (cols d : ℕ) (pix : NArr K) (hne : objs ≠ [])
    (hfit : ∀ o ∈ objs, o.1.length = d) (hpl : pix.vals.length = d) (hw : ∀ w ∈ pix.vals, 0 < w)
    (i : ℕ) (x w : K) (hi : i < d) (hext : Extent (objs.map (·.1)) i x x) (hwi : pix.vals[i]? = some w)
    (hwx : 1 ≤ (1 + 1 / 20) * w) (au gu : Option (List (Option String))) :
    ∃ e, gridder (posOf objs) (some (valsOf cols objs)) none none pix au gu = .error e := by
  have hl : ∀ r ∈ objs.map (·.1), r.length = d := by
    intro r hr
    obtain ⟨o, ho, rfl⟩ := List.mem_map.1 hr
    exact hfit o ho
  obtain ⟨c, c1, c2, -⟩ := center_default _ d hl
  obtain ⟨s, s1, s2, s3⟩ := side_default _ d hl
  rw [gridder_eq objs cols d none none pix au gu none hfit (.inr ⟨rfl, hne⟩) (fun _ => hne) c s c1 s1]
  obtain ⟨e, he⟩ := C17_single_cell_fails (V := V) cols c s pix au gu (s2.trans c2.symm)
    (hpl.trans c2.symm) hw i _ w (s3 i x x hi hext) hwi (by simpa [defaultSide] using hwx)
  exact ⟨e, by rw [he]⟩

theorem new_dim (m : ℕ) (center side pix : NArr K) (au gu : Option (List (Option String)))
    (g : Grid K V) (h : Grid.new m center side pix au gu = .ok g) :
    g.center = center ∧ g.fourier = List.replicate center.vals.length false := by
  unfold Grid.new at h
  simp only at h
  split at h
  · cases h
  split at h
  · cases h
  split at h
  · cases h
  split at h
  · cases h
  split at h
  · cases h
  split at h
  · cases h
  simp only [Except.ok.injEq] at h
  subst h
  exact ⟨rfl, rfl⟩

/-- Third: whole-number positions never give a grid, whatever the other arguments. -/
theorem C97_integer_positions_fail (objs : List (List K × List V)) (cols d : ℕ) (center side : Option (NArr K))
    (pix : NArr K) (au gu : Option (List (Option String))) (setndims : Option ℕ) (hne : objs ≠ [])
    (hfit : ∀ o ∈ objs, o.1.length = d) (hcl : ∀ c, center = some c → c.vals.length = d)
    (hset : setndims = some d ∨ setndims = none) (g : Grid K V) :
    gridder { posOf objs with isInt := true } (some (valsOf cols objs)) center side pix au gu setndims
      ≠ .ok g := by
  intro h
  have hl : ∀ r ∈ objs.map (·.1), r.length = d := by
    intro r hr
    obtain ⟨o, ho, rfl⟩ := List.mem_map.1 hr
    exact hfit o ho
  have hc2 : ∀ c, gridderCenter (objs.map (·.1)) d center = .ok c → c.vals.length = d := by
    intro c hc
    cases center with
    | none =>
      obtain ⟨c', h1, h2, -⟩ := center_default _ d hl
      rw [hc] at h1
      simp only [Except.ok.injEq] at h1
      rw [h1]; exact h2
    | some c' =>
      simp only [gridderCenter, hcl c' rfl, if_true, Except.ok.injEq] at hc
      rw [← hc]; exact hcl c' rfl
  have hdim : gridderDims (objs.map (·.1)) setndims = .ok d := by
    unfold gridderDims
    cases objs with
    | nil => exact absurd rfl hne
    | cons o objs =>
      have := hfit o (by simp)
      rcases hset with rfl | rfl <;> simp [this]
  unfold gridder at h
  simp only [show (posOf objs).rows = objs.map (·.1) from rfl, hdim, Option.getD_some] at h
  rw [if_neg (by simp [valsOf]), if_neg (by simp [hne])] at h
  rcases hc : gridderCenter (objs.map (·.1)) d center with e | c
  · rw [hc] at h; cases h
  rw [hc] at h
  simp only at h
  rcases hs : gridderSide (objs.map (·.1)) d side with e | s
  · rw [hs] at h; cases h
  rw [hs] at h
  simp only at h
  rcases hn : (Grid.new (valsOf cols objs).cols c s pix au gu : Except Err (Grid K V)) with e | g0
  · rw [hn] at h; cases h
  rw [hn] at h
  simp only at h
  obtain ⟨k1, k2⟩ := new_dim _ c s pix au gu g0 hn
  have hfo : ∀ f ∈ g0.init.fourier, f = false := by
    intro f hf
    rw [show g0.init.fourier = g0.fourier from rfl, k2] at hf
    exact (List.mem_replicate.1 hf).2
  have hfit' : Fits g0.init objs := by
    intro o ho
    rw [hfit o ho, ← hc2 c hc, ← k1]; rfl
  have := C18_integer_positions_fail g0.init (zeros (g0.nPix ++ [g0.nProps])) rfl hfo objs hne hfit' cols
    false none
  have e2 : ({ valsOf cols objs with flat := false } : Vals V) = valsOf cols objs := rfl
  rw [e2] at h
  rw [this] at h
  cases h

/-- An empty catalogue only gives a grid if the number of dimensions, the centre and the side lengths are
given (then it is a grid of zeros by `C97_given_region`). -/
theorem C97_empty_refused (values : Option (Vals V)) (ints flat : Bool) (center side : Option (NArr K))
    (pix : NArr K) (au gu : Option (List (Option String))) (setndims : Option ℕ)
    (h : setndims = none ∨ center = none ∨ side = none) :
    gridder { isInt := ints, flat := flat, rows := [] } values center side pix au gu setndims =
      .error .valueError := by
  unfold gridder
  cases setndims with
  | none => rfl
  | some d =>
    have h' : center = none ∨ side = none := by simpa using h
    simp only [gridderDims]
    split
    · rfl
    · rw [if_pos ⟨h', trivial⟩]

/-- Numbers of positions and values that differ are refused. -/
theorem C97_lengths_refused (positions : Pos K) (v : Vals V) (center side : Option (NArr K))
    (pix : NArr K) (au gu : Option (List (Option String))) (setndims : Option ℕ)
    (h : v.rows.length ≠ positions.rows.length) :
    gridder positions (some v) center side pix au gu setndims = .error .valueError := by
  unfold gridder
  simp only [Option.getD_some]
  rcases hd : gridderDims positions.rows setndims with e | d
  · have : e = .valueError := by
      unfold gridderDims at hd
      split at hd
      · exact (Except.error.inj hd).symm
      · cases hd
      · cases hd
      · split at hd
        · cases hd
        · exact (Except.error.inj hd).symm
    rw [this]
  · simp only
    rw [if_pos h]

/-- Without values each object counts as one. -/
theorem C97_counts (rows : List (List K)) (center side : Option (NArr K))
    (pix : NArr K) (au gu : Option (List (Option String))) (setndims : Option ℕ) :
    (gridder { rows := rows } none center side pix au gu setndims : Except Err (Grid K V)) =
      gridder (posOf (rows.map (fun r => (r, [(1 : V)]))))
        (some (valsOf 1 (rows.map (fun r => (r, [(1 : V)]))))) center side pix au gu setndims := by
  have h1 : posOf (rows.map (fun r => (r, [(1 : V)]))) = { rows := rows } := by
    simp [posOf, Function.comp_def]
  have h2 : (valsOf 1 (rows.map (fun r => (r, [(1 : V)]))) : Vals V) = ones rows.length := by
    simp [valsOf, ones, Function.comp_def]
  rw [h1, h2]
  rfl

/-- A one-dimensional array of positions (values) means the same as a column. -/
theorem C97_columns (P : Pos K) (v : Vals V) (b c : Bool) (center side : Option (NArr K))
    (pix : NArr K) (au gu : Option (List (Option String))) (setndims : Option ℕ) :
    (gridder { P with flat := b } (some { v with flat := c }) center side pix au gu setndims
      : Except Err (Grid K V)) = gridder P (some v) center side pix au gu setndims := rfl

/-- The order of the objects does not matter. -/
theorem C97_order (objs objs' : List (List K × List V)) (hp : objs.Perm objs') (cols d : ℕ)
    (hfit : ∀ o ∈ objs, o.1.length = d) (center side : Option (NArr K))
    (hcl : ∀ c, center = some c → c.vals.length = d)
    (pix : NArr K) (au gu : Option (List (Option String))) (setndims : Option ℕ) :
    gridder (posOf objs) (some (valsOf cols objs)) center side pix au gu setndims =
      gridder (posOf objs') (some (valsOf cols objs')) center side pix au gu setndims := by
  have hrows : (objs.map (·.1)).Perm (objs'.map (·.1)) := hp.map _
  have hfit' : ∀ o ∈ objs', o.1.length = d := fun o ho => hfit o (hp.mem_iff.2 ho)
  have hcol : ∀ j, minOf (colOf (objs.map (·.1)) j) = minOf (colOf (objs'.map (·.1)) j) ∧
      ptpOf (colOf (objs.map (·.1)) j) = ptpOf (colOf (objs'.map (·.1)) j) := by
    intro j
    have hq : (colOf (objs.map (·.1)) j).Perm (colOf (objs'.map (·.1)) j) := hrows.map _
    have e1 : ∀ l l' : List K, l.Perm l' → l.min? = l'.min? := by
      intro l l' hq
      rcases h : l'.min? with _ | m
      · rw [List.min?_eq_none_iff] at h ⊢
        rw [h] at hq
        exact hq.eq_nil
      · rw [List.min?_eq_some_iff] at h ⊢
        exact ⟨hq.mem_iff.2 h.1, fun b hb => h.2 b (hq.mem_iff.1 hb)⟩
    have e2 : ∀ l l' : List K, l.Perm l' → l.max? = l'.max? := by
      intro l l' hq
      rcases h : l'.max? with _ | m
      · rw [List.max?_eq_none_iff] at h ⊢
        rw [h] at hq
        exact hq.eq_nil
      · rw [List.max?_eq_some_iff] at h ⊢
        exact ⟨hq.mem_iff.2 h.1, fun b hb => h.2 b (hq.mem_iff.1 hb)⟩
    simp only [minOf, ptpOf, e1 _ _ hq, e2 _ _ hq, and_self]
  have hC : ∀ d, gridderCenter (objs.map (·.1)) d center = gridderCenter (objs'.map (·.1)) d center := by
    intro d
    unfold gridderCenter
    simp only [fun j => (hcol j).1, fun j => (hcol j).2]
  have hS : ∀ d, gridderSide (objs.map (·.1)) d side = gridderSide (objs'.map (·.1)) d side := by
    intro d
    unfold gridderSide
    simp only [fun j => (hcol j).2]
  have hnil : objs = [] ↔ objs' = [] := by
    constructor
    · rintro rfl; exact hp.symm.eq_nil
    · rintro rfl; exact hp.eq_nil
  have hD : gridderDims (objs.map (·.1)) setndims = gridderDims (objs'.map (·.1)) setndims := by
    cases objs with
    | nil => rw [hnil.1 rfl]
    | cons o l =>
      cases objs' with
      | nil => exact absurd (hnil.2 rfl) (by simp)
      | cons o' l' =>
        have h1 := hfit o (by simp)
        have h2 := hfit' o' (by simp)
        unfold gridderDims
        cases setndims <;> simp [h1, h2]
  have hlen := hp.length_eq
  unfold gridder
  simp only [show (posOf objs).rows = objs.map (·.1) from rfl,
    show (posOf objs').rows = objs'.map (·.1) from rfl, hD, Option.getD_some]
  rcases hd : gridderDims (objs'.map (·.1)) setndims with e | d'
  · simp only [hd]
  simp only [hd, hC, hS]
  have c1 : ¬ (valsOf cols objs).rows.length ≠ (objs.map (·.1)).length := by simp [valsOf]
  have c2 : ¬ (valsOf cols objs').rows.length ≠ (objs'.map (·.1)).length := by simp [valsOf]
  rw [if_neg c1, if_neg c2]
  have c3 : ((center = none ∨ side = none) ∧ objs.map (·.1) = []) ↔
      ((center = none ∨ side = none) ∧ objs'.map (·.1) = []) := by simp [hnil]
  by_cases hc : (center = none ∨ side = none) ∧ objs.map (·.1) = []
  · rw [if_pos hc, if_pos (c3.1 hc)]
  rw [if_neg hc, if_neg (fun h => hc (c3.2 h))]
  rcases hcc : gridderCenter (objs'.map (·.1)) d' center with e | c
  · simp only [hcc]
  simp only [hcc]
  rcases hss : gridderSide (objs'.map (·.1)) d' side with e | s
  · simp only [hss]
  simp only [hss, show (valsOf cols objs).cols = cols from rfl, show (valsOf cols objs').cols = cols from rfl]
  rcases hn : (Grid.new cols c s pix au gu : Except Err (Grid K V)) with e | g
  · simp only [hn]
  simp only [hn]
  have hfi : Fits g.init objs := by
    intro o ho
    have hd1 : d' = d := by
      cases objs' with
      | nil => rw [hnil.2 rfl] at ho; simp at ho
      | cons o' l' =>
        have h2 := hfit' o' (by simp)
        unfold gridderDims at hd
        cases setndims with
        | none => simpa [h2] using hd.symm
        | some x =>
          simp only [List.map_cons] at hd
          split at hd
          · rename_i hx
            simp only [Except.ok.injEq] at hd
            omega
          · cases hd
    have hcd : c.vals.length = d := by
      cases center with
      | none =>
        simp only [gridderCenter, Except.ok.injEq] at hcc
        rw [← hcc, ← hd1]; simp
      | some c' =>
        simp only [gridderCenter] at hcc
        split at hcc
        · simp only [Except.ok.injEq] at hcc
          rw [← hcc]; exact hcl c' rfl
        · cases hcc
    rw [hfit o ho, ← hcd, ← (new_dim _ _ _ _ _ _ _ hn).1]; rfl
  have := C19_order g.init objs objs' hp hfi cols false none
  show (match g.init.addFromCat (posOf objs) (some (valsOf cols objs)) false none with
    | (_, .error e) => .error e
    | (g', .ok ()) => .ok g' : Except Err (Grid K V)) =
    (match g.init.addFromCat (posOf objs') (some (valsOf cols objs')) false none with
    | (_, .error e) => .error e
    | (g', .ok ()) => .ok g')
  rw [this]

end

/-- The full property fails: two objects at a distance of two pixels. -/
theorem C97_full_false : ¬ C97_full K K := by
  intro h
  have hfit : ∀ o ∈ [(([0] : List K), ([1] : List K)), ([2], [1])], o.1.length = 1 := by simp
  obtain ⟨g, h1, h2, -⟩ := h [([0], [1]), ([2], [1])] 1 1 ⟨false, [1]⟩ false (by simp) hfit rfl (by simp)
  have hext : Extent (([(([0] : List K), ([1] : List K)), ([2], [1])]).map (·.1)) 0 0 2 := by
    refine ⟨⟨[0], by simp, rfl⟩, ⟨[2], by simp, rfl⟩, ?_⟩
    intro r hr x hx
    simp at hr
    rcases hr with rfl | rfl <;> simp at hx <;> subst hx <;> simp
  have huniq : ∀ (i : ℕ) (lo hi : K), Extent (([(([0] : List K), ([1] : List K)), ([2], [1])]).map (·.1)) i
      lo hi → lo = 0 ∧ hi = 2 := by
    intro i lo hi he
    have hi0 : i = 0 := by
      obtain ⟨r, hr, hx⟩ := he.low
      simp at hr
      have := (List.getElem?_eq_some_iff.1 hx).1
      rcases hr with rfl | rfl <;> simp at this <;> exact this
    subst hi0
    have a := he.within [0] (by simp) 0 rfl
    have b := he.within [2] (by simp) 2 rfl
    obtain ⟨r, hr, hx⟩ := he.low
    obtain ⟨r', hr', hx'⟩ := he.high
    have c1 := hext.within r hr _ hx
    have c2 := hext.within r' hr' _ hx'
    constructor <;> linarith
  obtain ⟨g', k1, k2, -⟩ := C97_extreme_objects_lost [(([0] : List K), ([1] : List K)), ([2], [1])] 1 1
    ⟨false, [1]⟩ (by simp) hfit rfl (by simp) (by
      intro i lo hi w he hw
      obtain ⟨rfl, rfl⟩ := huniq i lo hi he
      have : w = 1 := by simpa using List.mem_of_getElem? hw
      subst this
      unfold defaultSide
      rw [if_neg (by norm_num)]
      norm_num) 0 2 0 2 1 (by simp) hext rfl (by simp) (by norm_num) (by norm_num)
  rw [show ({ posOf [(([0] : List K), ([1] : List K)), ([2], [1])] with isInt := false } : Pos K) =
    posOf [(([0] : List K), ([1] : List K)), ([2], [1])] from rfl, k1] at h1
  simp only [Except.ok.injEq] at h1
  subst h1
  omega

/-- Objects at 0, 1/2, 5/2 and 3/2 pixels: all are in the grid. -/
example : okAnd (gridder (K := ℚ) (V := ℚ) { rows := [[0], [1 / 2], [5 / 2], [3 / 2]] } 
      (some { cols := 1, rows := [[1], [2], [3], [4]] }))
    (fun g : Grid ℚ ℚ => g.nObj = 4 ∧ g.nPix = [3] ∧
      g.grid.map (fun b : Arr ℚ => (cell b [0] 0, cell b [1] 0, cell b [2] 0)) = some (3, 4, 3)) = true := by
  decide +kernel

/-- Objects at 0, 5 and 10 with the default pixel size of 1: the last one is lost. -/
example : okAnd (gridder (K := ℚ) (V := ℚ) { rows := [[0], [5], [10]] } (none : Option (Vals ℚ)))
    (fun g : Grid ℚ ℚ => g.nObj = 2 ∧ g.nPix = [10]) = true := by
  decide +kernel

/-- The hypotheses of `C97_given_region` and `C97_flat_axis_fails` can be met: two properties in two
dimensions; one object. -/
example : okAnd (gridder (K := ℚ) (V := ℚ) { rows := [[1, 1], [3, 3 / 2], [2, 9]] }
      (some { cols := 2, rows := [[1, 10], [2, 20], [4, 40]] }) (some ⟨false, [2, 2]⟩) (some ⟨false, [4, 4]⟩)
      ⟨false, [2, 2]⟩ (some [some "Mpc", none]))
    (fun g : Grid ℚ ℚ => g.nObj = 2 ∧ g.axunits = [some "Mpc", none] ∧
      g.grid.map (fun b : Arr ℚ => (cell b [0, 0] 0, cell b [1, 0] 1)) = some (1, 20)) = true ∧
    okAnd (gridder (K := ℚ) (V := ℚ) { rows := [[3]] } (none : Option (Vals ℚ))) (fun _ : Grid ℚ ℚ => True) = false := by
  decide +kernel

end Verif.Map
