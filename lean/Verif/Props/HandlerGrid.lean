import Verif.Props.GridAxes
import Verif.Props.HandlerRead
import Verif.Spec.HandlerGrid

/-!
# C99: gridded snapshots; C100: gridded lightcones
-/

set_option linter.unusedSectionVars false

namespace Verif.HGrid

open Verif.Handler (Name V State returnProperty)
open Verif.Sim (Err)
open Verif.Map Verif.Map.Spec Spec

variable {K : Type} [Field K] [LinearOrder K] [IsStrictOrderedRing K] [FloorRing K]

/-! ## Reading -/

theorem return_some (s : State K) (p : Name) (u : Bool) (b : Option Bool) :
    returnProperty s p u (some (b.getD s.inH)) = returnProperty s p u b := by
  simp [returnProperty]

theorem readOne_ok (s : State K) (u : Bool) (b : Option Bool) (p : Name) (v : List (V K))
    (h : returnProperty s p u b = .ok (some v)) : readOne s u (b.getD s.inH) p = .ok v := by
  simp [readOne, return_some, h]

theorem readAll_ok (s : State K) (u : Bool) (b : Option Bool) (axes names : List Name)
    (objs : List (List K × List (V K))) (h : Catalogue s u b axes names objs) :
    readAll s u (b.getD s.inH) axes names =
      .ok ((List.range axes.length).map (fun k => objs.map (fun o => o.1[k]?)),
        (List.range names.length).map (fun k => objs.map (fun o => o.2.getD k none))) := by
  have h1 : mapE (readOne s u (b.getD s.inH)) axes =
      .ok ((List.range axes.length).map (fun k => objs.map (fun o => o.1[k]?))) := by
    rw [mapE_ok_iff]
    refine ⟨by simp, ?_⟩
    intro k p hp
    have hk := (List.getElem?_eq_some_iff.1 hp).1
    exact ⟨_, by simp [List.getElem?_range hk], readOne_ok s u b p _ (h.positions k p hp)⟩
  have h2 : mapE (readOne s u (b.getD s.inH)) names =
      .ok ((List.range names.length).map (fun k => objs.map (fun o => o.2.getD k none))) := by
    rw [mapE_ok_iff]
    refine ⟨by simp, ?_⟩
    intro k p hp
    have hk := (List.getElem?_eq_some_iff.1 hp).1
    exact ⟨_, by simp [List.getElem?_range hk], readOne_ok s u b p _ (h.values k p hp)⟩
  simp only [readAll, h1, h2]

/-- Rows and columns. -/
theorem rowsOf_cols {α β : Type} [Inhabited α] (n : ℕ) (hn : 1 ≤ n) (l : List β) (f : β → ℕ → α) :
    rowsOf ((List.range n).map (fun k => l.map (fun o => f o k))) =
      l.map (fun o => (List.range n).map (f o)) := by
  obtain ⟨m, rfl⟩ : ∃ m, n = m + 1 := ⟨n - 1, by omega⟩
  have : (List.range (m + 1)).map (fun k => l.map (fun o => f o k)) =
      l.map (fun o => f o 0) :: ((List.range m).map Nat.succ).map (fun k => l.map (fun o => f o k)) := by
    rw [List.range_succ_eq_map]; rfl
  have e : rowsOf ((List.range (m + 1)).map (fun k => l.map (fun o => f o k))) =
      (List.range l.length).map (fun i => ((List.range (m + 1)).map (fun k => l.map (fun o => f o k))).map
        (fun c => c.getD i default)) := by
    conv_lhs => rw [this]
    unfold rowsOf
    simp only [List.length_map]
    rw [← this]
  rw [e]
  apply List.ext_getElem?
  intro i
  simp only [List.getElem?_map]
  by_cases hi : i < l.length
  · rw [List.getElem?_range hi, List.getElem?_eq_getElem hi]
    simp only [Option.map_some, List.map_map]
    congr 1
    apply List.map_congr_left
    intro k _
    simp [Function.comp, List.getD_eq_getElem?_getD, List.getElem?_eq_getElem hi]
  · rw [List.getElem?_eq_none (by simpa using hi), List.getElem?_eq_none (by simpa using hi)]
    rfl

theorem range_getElem? {α : Type} (l : List α) (n : ℕ) (h : l.length = n) :
    (List.range n).map (fun k => l[k]?) = l.map some := by
  apply List.ext_getElem?
  intro i
  simp only [List.getElem?_map]
  by_cases hi : i < n
  · rw [List.getElem?_range hi, Option.map_some, List.getElem?_eq_getElem (show i < l.length by omega)]
    rfl
  · rw [List.getElem?_eq_none (by simpa using hi), List.getElem?_eq_none (by omega)]; rfl

theorem range_getD {α : Type} (l : List α) (d : α) (n : ℕ) (h : l.length = n) :
    (List.range n).map (fun k => l.getD k d) = l := by
  apply List.ext_getElem?
  intro i
  simp only [List.getElem?_map]
  by_cases hi : i < n
  · rw [List.getElem?_range hi, List.getElem?_eq_getElem (by omega)]
    simp [List.getD_eq_getElem?_getD, List.getElem?_eq_getElem (show i < l.length by omega)]
  · rw [List.getElem?_eq_none (by simpa using hi), List.getElem?_eq_none (by omega)]; rfl

theorem allNumbers_some (l : List (List K)) : allNumbers (l.map (fun r => r.map some)) = some l := by
  unfold allNumbers
  rw [if_pos (by simp)]
  congr 1
  rw [List.map_map]
  conv_rhs => rw [← List.map_id l]
  apply List.map_congr_left
  intro r _
  simp [List.filterMap_map]

theorem rows_pos (axes : List Name) (h1 : 1 ≤ axes.length) (objs : List (List K × List (V K)))
    (h : ∀ o ∈ objs, o.1.length = axes.length) :
    allNumbers (rowsOf ((List.range axes.length).map (fun k => objs.map (fun o => o.1[k]?)))) =
      some (objs.map (·.1)) := by
  rw [rowsOf_cols axes.length h1 objs (fun o k => o.1[k]?)]
  have : objs.map (fun o => (List.range axes.length).map (fun k => o.1[k]?)) =
      (objs.map (·.1)).map (fun r => r.map some) := by
    rw [List.map_map]
    apply List.map_congr_left
    intro o ho
    exact range_getElem? o.1 _ (h o ho)
  rw [this, allNumbers_some]

/-! ## Gridding -/

theorem new_spread (m : ℕ) (c s pix P : NArr K) (au gu : Option (List (Option String)))
    (h : spreadPix pix c.vals.length = .ok P) (h' : P.vals.length = c.vals.length) :
    (Grid.new m c s pix au gu : Except Err (Grid K (WithTop K))) = Grid.new m c s P au gu := by
  have h2 : spreadPix P c.vals.length = .ok P := by simp [spreadPix, h']
  unfold Grid.new
  simp only [h, h2]

theorem regular_scale (k : K) (g : Grid K (WithTop K)) (h : Regular g) : Regular (scale k g) where
  nPix := h.nPix
  pix := h.pix
  side := h.side
  axes := h.axes
  centers := h.centers
  fcenters := h.fcenters
  faxes := h.faxes
  fourier := h.fourier
  axis := by
    intro i hi
    obtain ⟨n, w, c, h1, h2, h3⟩ := h.axis i hi
    exact ⟨n, w, c, h1, h2, ⟨h3.nPix, h3.pix, h3.center, h3.side, h3.axes, h3.centers, h3.fcenters,
      h3.faxes⟩⟩
  data := by
    intro a ha
    simp only [scale, Option.map_eq_some_iff] at ha
    obtain ⟨b, hb, rfl⟩ := ha
    exact h.data b hb

theorem gridder_spread (P : Pos K) (v : Vals (WithTop K)) (c s pix Q : NArr K)
    (h : spreadPix pix c.vals.length = .ok Q) (h' : Q.vals.length = c.vals.length) :
    gridder P (some v) (some c) (some s) pix = gridder P (some v) (some c) (some s) Q := by
  unfold gridder
  rcases hg : gridderDims P.rows none with e | d
  · simp only [hg]
  · simp only [hg, gridderCenter]
    by_cases hd : c.vals.length = d
    · simp only [if_pos hd, new_spread _ c _ pix Q none none h h']
    · simp only [if_neg hd]

theorem pixels_spread (side : List K) (res : Option (NArr K)) (hs : side.length = 3)
    (hp : (pixels side res).length = 3) :
    ∃ b, spreadPix (res.getD ⟨false, side.map (· / 100)⟩) 3 = .ok ⟨b, pixels side res⟩ := by
  cases res with
  | none => exact ⟨false, by simp [spreadPix, pixels, hs]⟩
  | some a =>
    obtain ⟨b, l⟩ := a
    match l, hp with
    | [r], _ => exact ⟨false, by simp [spreadPix, pixels, List.replicate]⟩
    | [], h => simp [pixels] at h
    | x :: y :: l, h =>
      refine ⟨b, ?_⟩
      simp only [pixels] at h
      simp only [spreadPix, Option.getD_some, h, if_true, pixels]

/-- The catalogue as `Gridder` gets it. -/
def forGridder (objs : List (List K × List (V K))) : List (List K × List (WithTop K)) :=
  objs.map (fun o => (o.1, o.2.map value))

theorem value_eq (p : ℕ) (o : List K × List (V K)) (h : p < o.2.length) :
    (o.2.map value).getD p 0 = valueOf p o := by
  simp only [List.getD_eq_getElem?_getD, List.getElem?_map, List.getElem?_eq_getElem h, Option.map_some,
    Option.getD_some, valueOf]
  rfl

theorem column_eq (objs : List (List K × List (V K))) (p : ℕ) (h : ∀ o ∈ objs, p < o.2.length) :
    column (forGridder objs) p = objs.map (fun o => (o.1, valueOf p o)) := by
  unfold column forGridder
  rw [List.map_map]
  apply List.map_congr_left
  intro o ho
  simp only [Function.comp, value_eq p o (h o ho)]

/-- What `finish` makes of a catalogue. -/
theorem finish_ok (objs : List (List K × List (V K))) (n : ℕ) (hn : 1 ≤ n)
    (hl : ∀ o ∈ objs, o.1.length = 3 ∧ o.2.length = n) (hne : objs ≠ []) (center side : List K)
    (ints : Bool) (res : Option (NArr K)) (norm : Norm K) (hc : center.length = 3) (hs : side.length = 3)
    (hp : (pixels side res).length = 3) (hw : ∀ w ∈ pixels side res, 0 < w)
    (hmin : ∀ (i : ℕ) (s w : K), side[i]? = some s → (pixels side res)[i]? = some w →
      (1 + 1 / 20) * w < s) :
    ∃ g, finish (objs.map (·.1)) ((List.range n).map (fun k => objs.map (fun o => o.2.getD k none)))
        center side ints res norm = .ok g ∧
      g.pix.vals = pixels side res ∧ g.center.vals = center ∧
      Gridded g objs n center side (pixels side res)
        (match norm with | .none => 1 | .cellVolume => 1 / (pixels side res).prod | .factor x => x) ∧
      g.nObj = (inGrid g objs).length := by
  obtain ⟨b, hP⟩ := pixels_spread side res hs hp
  have hv : rowsOf ((List.range n).map (fun k => objs.map (fun o => o.2.getD k none))) =
      objs.map (·.2) := by
    rw [rowsOf_cols n hn objs (fun o k => o.2.getD k none)]
    apply List.map_congr_left
    intro o ho
    exact range_getD o.2 none n (hl o ho).2
  have hne' : (List.range n).map (fun k => objs.map (fun o => o.2.getD k none)) ≠ [] := by
    intro e
    have := congrArg List.length e
    simp at this
    omega
  obtain ⟨g, hg, hF⟩ := C97_given_region (forGridder objs) n 3 ⟨false, center⟩ ⟨ints, side⟩
    ⟨b, pixels side res⟩ none none none (by
      intro o ho
      obtain ⟨o', ho', rfl⟩ := List.mem_map.1 ho
      exact (hl o' ho').1)
    (Or.inr ⟨rfl, by simpa [forGridder] using hne⟩) hc hs hp (by simp) (by simp) hw hmin
  have hgo : gridder { rows := objs.map (·.1) } (some { cols := n, rows := (objs.map (·.2)).map (fun r => r.map value) })
      (some ⟨false, center⟩) (some ⟨ints, side⟩) (res.getD ⟨false, side.map (· / 100)⟩) = .ok g := by
    rw [gridder_spread _ _ _ _ _ ⟨b, pixels side res⟩ (by simpa [hc] using hP) (by simp [hc, hp]), ← hg]
    simp only [posOf, valsOf, forGridder, List.map_map, Function.comp_def]
  have hk : norm.of g = (match norm with
      | .none => 1 | .cellVolume => 1 / (pixels side res).prod | .factor x => x) := by
    cases norm <;> simp [Norm.of, hF.pix]
  unfold finish
  simp only [hv, List.length_map, List.length_range, if_neg hne', hgo]
  refine ⟨_, rfl, by simp [scale, hF.pix], by simp [scale, hF.center], ⟨regular_scale _ _ hF.regular, hF.nProps, ?_, ?_, ?_,
    hF.real⟩, ?_⟩
  · intro i s w c h1 h2 h3
    obtain ⟨m, h4, h5⟩ := hF.axis i s w c h1 h2 h3
    exact ⟨m, ⟨h4.nPix, h4.pix, h4.center, h4.side, h4.axes, h4.centers, h4.fcenters, h4.faxes⟩, h5⟩
  · have := hF.regular.axes
    simp only [scale]
    rw [this]
    simp [Grid.dim, hF.center, hc]
  · obtain ⟨a, h1, h2, h3⟩ := hF.cells
    refine ⟨⟨a.shape, fun i => (a.get i).map (fun x => norm.of g * x)⟩, by
      simp only [scale, h1, Option.map_some], h2, ?_⟩
    intro c p hp
    have := h3 c p hp
    rw [column_eq objs p (fun o ho => by rw [(hl o ho).2]; exact hp)] at this
    simp only [cell, scale] at this ⊢
    rw [this, hk]
  · have h1 := hF.nObj
    simp only [scale]
    rw [h1]
    unfold inGrid forGridder
    rw [List.filter_map, List.length_map]
    rfl

theorem limitOr_ok (side : K) (lim : Option (NArr K)) (c l : K) (h : Limits side lim c l) :
    limitOr side lim = .ok (c, l) := by
  cases lim with
  | none => obtain ⟨rfl, rfl⟩ := h; rfl
  | some a =>
    obtain ⟨lo, hi, hle, h1 | h1, rfl, rfl⟩ := h
    · simp [limitOr, limit, h1, hle]
    · simp [limitOr, limit, h1, hle, add_comm]

/-- **C99**: the grid of a snapshot has in each cell the sum of each property over the selected halos with
positions in the cell, in the units asked for, times the factor. -/
theorem C99_cells (s : State K) (boxH : K) (names : List Name) (inH : Option Bool) (useAll : Bool)
    (objs : List (List K × List (V K)))
    (hcat : Catalogue s useAll inH ["pos_x", "pos_y", "pos_z"] names objs) (hne : objs ≠ [])
    (hn : names ≠ []) (res xlim ylim zlim : Option (NArr K)) (norm : Norm K) (side cx cy cz lx ly lz : K)
    (hside : side = if inH.getD s.inH then boxH else boxH / s.h)
    (hx : Limits side xlim cx lx) (hy : Limits side ylim cy ly) (hz : Limits side zlim cz lz)
    (hp : (pixels [lx, ly, lz] res).length = 3) (hw : ∀ w ∈ pixels [lx, ly, lz] res, 0 < w)
    (hmin : ∀ (i : ℕ) (l w : K), [lx, ly, lz][i]? = some l → (pixels [lx, ly, lz] res)[i]? = some w →
      (1 + 1 / 20) * w < l) :
    ∃ g, snapGrid s boxH names inH useAll res xlim ylim zlim norm = some (.ok g) ∧
      Gridded g objs names.length [cx, cy, cz] [lx, ly, lz] (pixels [lx, ly, lz] res)
        (match norm with
          | .none => 1 | .cellVolume => 1 / (pixels [lx, ly, lz] res).prod | .factor x => x) ∧
      g.nObj = (inGrid g objs).length := by
  have hl : mapE (limitOr side) [xlim, ylim, zlim] = .ok [(cx, lx), (cy, ly), (cz, lz)] := by
    simp only [mapE, limitOr_ok side xlim cx lx hx, limitOr_ok side ylim cy ly hy,
      limitOr_ok side zlim cz lz hz]
  obtain ⟨g, hg, -, -, h1, h2⟩ := finish_ok objs names.length
    (by rcases names with _ | ⟨a, l⟩ <;> simp at hn ⊢)
    (fun o ho => ⟨hcat.coordinates o ho, hcat.number o ho⟩) hne [cx, cy, cz] [lx, ly, lz]
    (intLimits [xlim, ylim, zlim]) res norm rfl rfl hp hw hmin
  refine ⟨g, ?_, h1, h2⟩
  unfold snapGrid
  simp only [readAll_ok s useAll inH _ _ objs hcat, ← hside, hl]
  rw [rows_pos _ (by simp) objs hcat.coordinates]
  simp only [List.map_cons, List.map_nil, hg]

theorem limitOr_error (side : K) (lim : Option (NArr K)) (e : Err) (h : limitOr side lim = .error e) :
    e = .valueError := by
  unfold limitOr limit at h
  split at h
  · cases h
  · split at h
    · cases h
    · simpa using h.symm

theorem limits_error (side : K) (lims : List (Option (NArr K))) (e : Err)
    (h : mapE (limitOr side) lims = .error e) : e = .valueError := by
  obtain ⟨a, -, ha⟩ := mapE_error h
  exact limitOr_error side a e ha

theorem finish_empty (props : List (List (V K))) (c l : List K) (ints : Bool) (res : Option (NArr K))
    (norm : Norm K) : finish [] props c l ints res norm = .error .valueError := by
  unfold finish
  simp only [C97_empty_refused _ _ _ _ _ _ _ _ none (Or.inl rfl)]

theorem finish_nameless (rows : List (List K)) (c l : List K) (ints : Bool) (res : Option (NArr K))
    (norm : Norm K) : finish rows [] c l ints res norm = .error .valueError := by
  by_cases h : rows = []
  · subst h; exact finish_empty [] c l ints res norm
  · unfold finish
    rw [if_pos rfl]
    simp only
    rw [C97_lengths_refused _ _ _ _ _ _ _ _ (by
      simp only [List.length_nil]
      intro e
      exact h (List.length_eq_zero_iff.1 e.symm))]

/-- **C99**: nothing selected: refused whatever the arguments are. -/
theorem C99_empty_refused (s : State K) (boxH : K) (names : List Name) (inH : Option Bool) (useAll : Bool)
    (hcat : Catalogue s useAll inH ["pos_x", "pos_y", "pos_z"] names [])
    (res xlim ylim zlim : Option (NArr K)) (norm : Norm K) :
    snapGrid s boxH names inH useAll res xlim ylim zlim norm = some (.error .valueError) := by
  unfold snapGrid
  simp only [readAll_ok s useAll inH _ _ _ hcat]
  obtain ⟨side, hside⟩ : ∃ side, side = if inH.getD s.inH then boxH else boxH / s.h := ⟨_, rfl⟩
  rw [← hside]
  rcases hl : mapE (limitOr side) [xlim, ylim, zlim] with e | cl
  · simp only
    rw [limits_error side _ e hl]
  · simp only
    rw [rows_pos _ (by simp) [] hcat.coordinates]
    simp only [List.map_nil, finish_empty]

/-- **C99**: no names: refused. -/
theorem C99_names_needed (s : State K) (boxH : K) (inH : Option Bool) (useAll : Bool)
    (objs : List (List K × List (V K)))
    (hcat : Catalogue s useAll inH ["pos_x", "pos_y", "pos_z"] [] objs)
    (res xlim ylim zlim : Option (NArr K)) (norm : Norm K) :
    snapGrid s boxH [] inH useAll res xlim ylim zlim norm = some (.error .valueError) := by
  unfold snapGrid
  simp only [readAll_ok s useAll inH _ _ _ hcat]
  obtain ⟨side, hside⟩ : ∃ side, side = if inH.getD s.inH then boxH else boxH / s.h := ⟨_, rfl⟩
  rw [← hside]
  rcases hl : mapE (limitOr side) [xlim, ylim, zlim] with e | cl
  · simp only
    rw [limits_error side _ e hl]
  · simp only
    rw [rows_pos _ (by simp) objs hcat.coordinates]
    simp only [List.length_nil, List.range_zero, List.map_nil, finish_nameless]

/-- **C99**: limits that are not two numbers: refused. -/
theorem C99_limits_refused (s : State K) (boxH : K) (names : List Name) (inH : Option Bool) (useAll : Bool)
    (objs : List (List K × List (V K)))
    (hcat : Catalogue s useAll inH ["pos_x", "pos_y", "pos_z"] names objs)
    (res xlim ylim zlim : Option (NArr K)) (norm : Norm K)
    (h : ∃ a ∈ [xlim, ylim, zlim], ∃ l, a = some l ∧ l.vals.length ≠ 2) :
    snapGrid s boxH names inH useAll res xlim ylim zlim norm = some (.error .valueError) := by
  unfold snapGrid
  simp only [readAll_ok s useAll inH _ _ _ hcat]
  obtain ⟨side, hside⟩ : ∃ side, side = if inH.getD s.inH then boxH else boxH / s.h := ⟨_, rfl⟩
  rw [← hside]
  rcases hl : mapE (limitOr side) [xlim, ylim, zlim] with e | cl
  · simp only
    rw [limits_error side _ e hl]
  · exfalso
    obtain ⟨a, ha, l, rfl, hn⟩ := h
    obtain ⟨y, -, hy⟩ := mapE_mem' hl _ ha
    unfold limitOr limit at hy
    simp only at hy
    split at hy
    · rename_i h2
      rw [h2] at hn
      simp at hn
    · cases hy

/-! ## Counting -/

/-- A whole number of pixels: the number of cells. -/
theorem pixels_whole (n m : ℕ) (w s : K) (hw : 0 < w) (hs : s = n * w) (h1 : s - w / 20 ≤ m * w)
    (h2 : m * w < s + 19 / 20 * w) : m = n := by
  rw [hs] at h1 h2
  have h3 : ((n : K) - 1) * w < m * w := by nlinarith
  have h4 : (m : K) * w < (n + 1) * w := by nlinarith
  have h5 := lt_of_mul_lt_mul_right h3 hw.le
  have h6 := lt_of_mul_lt_mul_right h4 hw.le
  have h7 : (n : K) < (m + 1 : ℕ) := by push_cast; linarith
  have h8 : (m : K) < (n + 1 : ℕ) := by push_cast; linarith
  have h9 : n < m + 1 := by exact_mod_cast h7
  have h10 : m < n + 1 := by exact_mod_cast h8
  omega

/-- A region divided into a hundred pixels on each axis. -/
theorem hundred (g : Grid K (WithTop K)) (objs : List (List K × List (V K))) (n : ℕ) (a b c la lb lc k : K)
    (ha : 0 < la) (hb : 0 < lb) (hc : 0 < lc)
    (hG : Gridded g objs n [a, b, c] [la, lb, lc] (pixels [la, lb, lc] none) k)
    (hN : g.nObj = (inGrid g objs).length) :
    g.nPix = [100, 100, 100] ∧
    g.axes = [edges 100 (la / 100) a, edges 100 (lb / 100) b, edges 100 (lc / 100) c] ∧
    (∀ row, InGrid g.axes row ↔ InRegion [(a - la / 2, a + la / 2), (b - lb / 2, b + lb / 2),
      (c - lc / 2, c + lc / 2)] row) ∧
    g.nObj = (objs.filter (fun o => decide (InRegion [(a - la / 2, a + la / 2), (b - lb / 2, b + lb / 2),
      (c - lc / 2, c + lc / 2)] o.1))).length := by
  have hlen : g.nPix.length = 3 := by
    rw [hG.regular.nPix, ← hG.regular.axes, hG.dim]
  have one : ∀ (i : ℕ) (l c' : K), 0 < l → [la, lb, lc][i]? = some l → [a, b, c][i]? = some c' →
      g.nPix[i]? = some 100 ∧ g.axes[i]? = some (edges 100 (l / 100) c') := by
    intro i l c' hl h1 h2
    have hw : (0 : K) < l / 100 := by positivity
    obtain ⟨m, hm, h3, h4⟩ := hG.axis i l (l / 100) c' h1
      (by simp only [pixels, List.getElem?_map, h1, Option.map_some]) h2
    have : m = 100 := pixels_whole 100 m (l / 100) l hw (by push_cast; field_simp) h3 h4
    subst this
    exact ⟨hm.nPix, hm.axes⟩
  obtain ⟨n0, x0⟩ := one 0 la a ha rfl rfl
  obtain ⟨n1, x1⟩ := one 1 lb b hb rfl rfl
  obtain ⟨n2, x2⟩ := one 2 lc c hc rfl rfl
  have hn : g.nPix = [100, 100, 100] := by
    match hq : g.nPix, hlen with
    | [p, q, r], _ =>
      rw [hq] at n0 n1 n2
      simp at n0 n1 n2
      rw [n0, n1, n2]
  have hx : g.axes = [edges 100 (la / 100) a, edges 100 (lb / 100) b, edges 100 (lc / 100) c] := by
    match hq : g.axes, hG.dim with
    | [p, q, r], _ =>
      rw [hq] at x0 x1 x2
      simp at x0 x1 x2
      rw [x0, x1, x2]
  have hin : ∀ row, InGrid g.axes row ↔ InRegion [(a - la / 2, a + la / 2), (b - lb / 2, b + lb / 2),
      (c - lc / 2, c + lc / 2)] row := by
    intro row
    rw [C18_inside g hG.regular row, hx]
    have e : ∀ l c' : K, (edges 100 (l / 100) c').head? = some (c' - l / 2) ∧
        (edges 100 (l / 100) c').getLast? = some (c' + l / 2) := by
      intro l c'
      rw [edges_head, edges_last]
      push_cast
      constructor <;> · congr 1; ring
    unfold Between InRegion
    match row with
    | [] => simp
    | [x] => simp
    | [x, y] => simp
    | [x, y, z] =>
      simp only [List.forall₂_cons, List.forall₂_nil_left_iff, (e la a).1, (e la a).2, (e lb b).1, (e lb b).2,
        (e lc c).1, (e lc c).2, Option.mem_def, Option.some.injEq, exists_eq_left']
    | x :: y :: z :: t :: row => simp
  refine ⟨hn, hx, hin, ?_⟩
  rw [hN]
  unfold inGrid
  congr 1
  apply List.filter_congr
  intro o _
  simp only [decide_eq_decide]
  exact hin o.1

theorem map_sum (k : K) (l : List (WithTop K)) :
    (l.map (fun v => v.map (fun x => k * x))).sum = l.sum.map (fun x => k * x) := by
  induction l with
  | nil => simp
  | cons v l ih =>
    rw [List.map_cons, List.sum_cons, List.sum_cons, ih]
    cases v with
    | top => simp
    | coe x =>
      cases h : l.sum with
      | top => simp
      | coe y =>
        simp only [WithTop.map_coe, ← WithTop.coe_add]
        congr 1
        ring

/-- The total of a gridded property. -/
theorem gridded_total (g : Grid K (WithTop K)) (objs : List (List K × List (V K))) (n : ℕ)
    (C S P : List K) (k : K) (hG : Gridded g objs n C S P k) (b : Arr (WithTop K)) (hb : g.grid = some b)
    (p : ℕ) (hp : p < n) (hin : ∀ o ∈ objs, InGrid g.axes o.1) :
    total g b p = ((objs.map (valueOf p)).sum).map (fun x => k * x) := by
  obtain ⟨b', hb', -, h⟩ := hG.cells
  rw [hb] at hb'
  simp only [Option.some.injEq] at hb'
  subst hb'
  have e : (allCells g.nPix).map (fun c => cell b c p) =
      ((allCells g.nPix).map (fun c => cellSum g.axes c (objs.map (fun o => (o.1, valueOf p o))))).map
        (fun v => v.map (fun x => k * x)) := by
    rw [List.map_map]
    apply List.map_congr_left
    intro c _
    exact h c p hp
  unfold total
  rw [e, map_sum, cellSum_total g hG.regular]
  congr 1
  have : inGrid g (objs.map (fun o => (o.1, valueOf p o))) = objs.map (fun o => (o.1, valueOf p o)) := by
    unfold inGrid
    rw [List.filter_eq_self]
    intro o ho
    obtain ⟨o', ho', rfl⟩ := List.mem_map.1 ho
    simpa using hin o' ho'
  rw [this, List.map_map]
  rfl

/-- **C99** for the whole box: a hundred cells per axis from 0 to the length of the box, in the units asked
for, holding the halos with coordinates in the box (without its upper faces). -/
theorem C99_default (s : State K) (boxH : K) (names : List Name) (inH : Option Bool) (useAll : Bool)
    (objs : List (List K × List (V K)))
    (hcat : Catalogue s useAll inH ["pos_x", "pos_y", "pos_z"] names objs) (hne : objs ≠ [])
    (hn : names ≠ []) (hbox : 0 < boxH) (hh : 0 < s.h) (side : K)
    (hside : side = if inH.getD s.inH then boxH else boxH / s.h) :
    ∃ g b, snapGrid s boxH names inH useAll = some (.ok g) ∧ g.nPix = [100, 100, 100] ∧
      g.axes = List.replicate 3 (edges 100 (side / 100) (side / 2)) ∧ g.grid = some b ∧
      g.nObj = (objs.filter (fun o => decide (InRegion [(0, side), (0, side), (0, side)] o.1))).length ∧
      (∀ c p, p < names.length → cell b c p =
        cellSum g.axes c (objs.map (fun o => (o.1, valueOf p o)))) ∧
      ((∀ o ∈ objs, InRegion [(0, side), (0, side), (0, side)] o.1) → ∀ p, p < names.length →
        total g b p = (objs.map (valueOf p)).sum) := by
  have hpos : 0 < side := by
    rw [hside]; split
    · exact hbox
    · positivity
  have hw : (0 : K) < side / 100 := by positivity
  obtain ⟨g, hg, hG, hN⟩ := C99_cells s boxH names inH useAll objs hcat hne hn none none none none .none side
    (side / 2) (side / 2) (side / 2) side side side hside ⟨rfl, rfl⟩ ⟨rfl, rfl⟩ ⟨rfl, rfl⟩ (by simp [pixels])
    (by
      intro w h
      simp [pixels] at h
      rw [h]; exact hw)
    (by
      intro i l w h1 h2
      simp only [pixels, List.getElem?_map, h1, Option.map_some, Option.some.injEq] at h2
      have : l = side := by
        have := List.mem_of_getElem? h1
        simpa using this
      rw [← h2, this]
      linarith)
  obtain ⟨h1, h2, h3, h4⟩ := hundred g objs names.length _ _ _ _ _ _ _ hpos hpos hpos hG hN
  have e0 : side / 2 - side / 2 = 0 := sub_self _
  have e1 : side / 2 + side / 2 = side := add_halves _
  simp only [e0, e1] at h3 h4
  obtain ⟨b, hb, -, hcell⟩ := hG.cells
  have hid : ∀ v : WithTop K, v.map (fun x => 1 * x) = v := by
    intro v; cases v <;> simp
  refine ⟨g, b, hg, h1, h2, hb, h4, ?_, ?_⟩
  · intro c p hp
    rw [hcell c p hp, hid]
  · intro hin p hp
    rw [gridded_total g objs _ _ _ _ _ hG b hb p hp (fun o ho => (h3 o.1).2 (hin o ho)), hid]

/-- **C99** as one would like it: every halo of the box, faces included, is in the grid. -/
def C99_full (K : Type) [Field K] [LinearOrder K] [FloorRing K] : Prop :=
  ∀ (s : State K) (boxH : K) (names : List Name) (useAll : Bool) (objs : List (List K × List (V K))),
    Verif.Handler.Spec.Reachable s → Catalogue s useAll none ["pos_x", "pos_y", "pos_z"] names objs → objs ≠ [] → names ≠ [] →
    0 < boxH → s.inH = true → (∀ o ∈ objs, ∀ x ∈ o.1, 0 ≤ x ∧ x ≤ boxH) →
    ∃ g, snapGrid s boxH names none useAll = some (.ok g) ∧ g.nObj = objs.length

/-- **C99**: halos on an upper face of the box are lost. -/
theorem C99_face_lost (s : State K) (boxH : K) (names : List Name) (inH : Option Bool) (useAll : Bool)
    (objs : List (List K × List (V K)))
    (hcat : Catalogue s useAll inH ["pos_x", "pos_y", "pos_z"] names objs)
    (hn : names ≠ []) (hbox : 0 < boxH) (hh : 0 < s.h)
    (h : ∃ o ∈ objs, (if inH.getD s.inH then boxH else boxH / s.h) ∈ o.1) :
    ∃ g, snapGrid s boxH names inH useAll = some (.ok g) ∧ g.nObj < objs.length := by
  obtain ⟨o, ho, hx⟩ := h
  obtain ⟨g, b, h1, -, -, -, h2, -⟩ := C99_default s boxH names inH useAll objs hcat
    (List.ne_nil_of_mem ho) hn hbox hh _ rfl
  refine ⟨g, h1, ?_⟩
  rw [h2, List.length_filter_lt_length_iff_exists]
  refine ⟨o, ho, ?_⟩
  simp only [decide_eq_true_eq]
  intro hin
  unfold InRegion at hin
  rw [List.forall₂_iff_get] at hin
  obtain ⟨i, hi⟩ := List.get_of_mem hx
  have h3 := i.2
  have h4 : i.1 < 3 := by have := hin.1; simp at this; omega
  have h5 := (hin.2 i.1 (by simpa using h4) h3).2
  have h6 : ∀ j (hj : j < 3), ([((0 : K), (if inH.getD s.inH then boxH else boxH / s.h)),
      (0, (if inH.getD s.inH then boxH else boxH / s.h)),
      (0, (if inH.getD s.inH then boxH else boxH / s.h))].get ⟨j, by simpa using hj⟩).2 =
      (if inH.getD s.inH then boxH else boxH / s.h) := by
    intro j hj
    match j, hj with
    | 0, _ => rfl
    | 1, _ => rfl
    | 2, _ => rfl
  rw [h6 i.1 h4] at h5
  have h7 : o.1.get ⟨i.1, h3⟩ = (if inH.getD s.inH then boxH else boxH / s.h) := hi
  rw [h7] at h5
  exact lt_irrefl _ h5

/-! ## Selection and units -/

/-- **C99**: with a selection the objects are exactly the active ones, each with its own position and values. -/
theorem C99_selection (s : State K) (hr : Verif.Handler.Spec.Reachable s) (b : Option Bool) (axes names : List Name)
    (hm : "mass_cuts" ∉ axes ∧ "mass_cuts" ∉ names) (full : List (List K × List (V K)))
    (hlen : full.length = s.nAll) (h : Catalogue s true b axes names full) :
    Catalogue s false b axes names (s.active.map (fun i => full.getD i ([], []))) := by
  have hI := Verif.Handler.reachable_inv hr
  have hb : ∀ i ∈ s.active, i < full.length := by rw [hlen]; exact hI.bound
  have key : ∀ (p : Name) (f : List K × List (V K) → V K), p ≠ "mass_cuts" →
      returnProperty s p true b = .ok (some (full.map f)) →
      returnProperty s p false b = .ok (some ((s.active.map (fun i => full.getD i ([], []))).map f)) := by
    intro p f hp hf
    obtain ⟨hall, e, arr, he, ha, -, -, -, hget⟩ := Verif.Handler.returnProperty_inv s hI p true b _ hf
    obtain ⟨out, h1, -, h3⟩ := Verif.Handler.returnProperty_ok s hI p false b hall hp e he arr ha
    rw [h1]
    congr 2
    apply List.ext_getElem?
    intro j
    rw [h3 j, List.map_map, List.getElem?_map]
    rcases hj : s.active[j]? with _ | i
    · simp [Verif.Handler.inds, hj]
    · have hi := hb i (List.mem_of_getElem? hj)
      have h4 := hget i
      rw [List.getElem?_map, List.getElem?_eq_getElem hi] at h4
      simp only [Verif.Handler.inds, Bool.false_eq_true, if_false, hj, Option.bind_some, Option.map_some,
        Function.comp]
      have h5 : (Verif.Handler.inds s true)[i]? = some i := by
        simp [Verif.Handler.inds, List.getElem?_range (show i < s.nAll by omega)]
      rw [h5] at h4
      simp only [Option.bind_some, Option.map_some] at h4
      rw [← h4]
      simp [List.getD_eq_getElem?_getD, List.getElem?_eq_getElem hi]
  have hmem : ∀ o ∈ s.active.map (fun i => full.getD i ([], [])), o ∈ full := by
    intro o ho
    obtain ⟨i, hi, rfl⟩ := List.mem_map.1 ho
    have := hb i hi
    simp [List.getD_eq_getElem?_getD, List.getElem?_eq_getElem this]
  refine ⟨?_, ?_, fun o ho => h.coordinates o (hmem o ho), fun o ho => h.number o (hmem o ho)⟩
  · intro k p hk
    exact key p (fun o => o.1[k]?) (fun e => hm.1 (e ▸ List.mem_of_getElem? hk)) (h.positions k p hk)
  · intro k p hk
    exact key p (fun o => o.2.getD k none) (fun e => hm.2 (e ▸ List.mem_of_getElem? hk)) (h.values k p hk)

/-- An object without factors of `h`. -/
def withoutH (h : K) (es : List ℤ) (o : List K × List (V K)) : List K × List (V K) :=
  (o.1.map (fun x => x * h ^ (-1 : ℤ)), List.zipWith (fun e v => v.map (fun x => x * h ^ e)) es o.2)

theorem catalogue_units (s : State K) (hr : Verif.Handler.Spec.Reachable s) (u : Bool) (axes names : List Name)
    (hm : "mass_cuts" ∉ axes ∧ "mass_cuts" ∉ names) (objs : List (List K × List (V K)))
    (h : Catalogue s u (some true) axes names objs) (es : List ℤ) (he : es.length = names.length)
    (hpos : ∀ p ∈ axes, s.hdep.get? p = some (-1))
    (hval : ∀ (k : ℕ) p, names[k]? = some p → s.hdep.get? p = es[k]?) :
    Catalogue s u (some false) axes names (objs.map (withoutH s.h es)) := by
  have hI := Verif.Handler.reachable_inv hr
  have key : ∀ (p : Name) (e : ℤ) (f f' : List K × List (V K) → V K), p ≠ "mass_cuts" →
      s.hdep.get? p = some e → (∀ o ∈ objs, f' o = (f o).map (fun x => x * s.h ^ e)) →
      returnProperty s p u (some true) = .ok (some (objs.map f)) →
      returnProperty s p u (some false) = .ok (some (objs.map f')) := by
    intro p e f f' hp he hff hf
    obtain ⟨hall, e', arr, he', ha, -, hl, -, hget⟩ := Verif.Handler.returnProperty_inv s hI p u _ _ hf
    rw [he] at he'
    simp only [Option.some.injEq] at he'
    subst he'
    obtain ⟨out, h1, h2, h3⟩ := Verif.Handler.returnProperty_ok s hI p u (some false) hall hp e he arr ha
    rw [h1]
    congr 2
    apply List.ext_getElem?
    intro j
    have h4 := hget j
    rw [h3 j]
    rw [List.getElem?_map] at h4 ⊢
    rcases hj : objs[j]? with _ | o
    · rw [hj] at h4
      simp only [Option.map_none] at h4 ⊢
      have : (Verif.Handler.inds s u).length ≤ j := by
        rw [← hl, List.length_map]
        exact List.getElem?_eq_none_iff.1 hj
      rw [List.getElem?_eq_none this]
      rfl
    · rw [hj] at h4
      simp only [Option.map_some] at h4 ⊢
      rcases hk : (Verif.Handler.inds s u)[j]? with _ | k
      · rw [hk] at h4; simp at h4
      rw [hk] at h4
      simp only [Option.bind_some] at h4 ⊢
      rcases hv : arr[k]? with _ | v
      · rw [hv] at h4; simp at h4
      rw [hv] at h4
      simp only [Option.map_some, Option.some.injEq, Verif.Handler.Spec.seen, Option.getD_some, if_true] at h4 ⊢
      rw [hff o (List.mem_of_getElem? hj), h4]
      rfl
  refine ⟨?_, ?_, ?_, ?_⟩
  · intro k p hk
    rw [List.map_map]
    refine key p (-1) (fun o => o.1[k]?) _ (fun e => hm.1 (e ▸ List.mem_of_getElem? hk))
      (hpos p (List.mem_of_getElem? hk)) ?_ (h.positions k p hk)
    intro o _
    simp [withoutH]
  · intro k p hk
    rw [List.map_map]
    have hkl := (List.getElem?_eq_some_iff.1 hk).1
    have hek : es[k]? = some es[k] := List.getElem?_eq_getElem (by omega)
    refine key p es[k] (fun o => o.2.getD k none) _ (fun e => hm.2 (e ▸ List.mem_of_getElem? hk))
      (by rw [hval k p hk, hek]) ?_ (h.values k p hk)
    intro o ho
    have hol : k < o.2.length := by rw [h.number o ho]; exact hkl
    simp [withoutH, List.getD_eq_getElem?_getD, List.getElem?_zipWith, hek, List.getElem?_eq_getElem hol]
  · intro o ho
    obtain ⟨o', ho', rfl⟩ := List.mem_map.1 ho
    simp [withoutH, h.coordinates o' ho']
  · intro o ho
    obtain ⟨o', ho', rfl⟩ := List.mem_map.1 ho
    simp [withoutH, h.number o' ho', he]

theorem inCell_scale (k : K) (hk : 0 < k) (axes : List (List K)) (c : List ℕ) (row : List K) :
    InCell (axes.map (fun e => e.map (fun x => x * k))) c (row.map (fun x => x * k)) ↔ InCell axes c row := by
  induction axes generalizing c row with
  | nil => cases c <;> cases row <;> simp [InCell]
  | cons e axes ih =>
    cases c with
    | nil => cases row <;> simp [InCell]
    | cons i c =>
      cases row with
      | nil => simp [InCell]
      | cons x row =>
        simp only [List.map_cons, InCell, ih, List.getElem?_map]
        apply and_congr_left
        intro _
        rcases h1 : e[i]? with _ | lo
        · simp
        rcases h2 : e[i + 1]? with _ | hi
        · simp
        simp only [Option.map_some, Option.mem_def, Option.some.injEq, exists_eq_left']
        rw [mul_le_mul_iff_left₀ hk, mul_lt_mul_iff_left₀ hk]

theorem edges_scale (n : ℕ) (w c k : K) : (edges n w c).map (fun x => x * k) = edges n (w * k) (c * k) := by
  unfold edges
  rw [List.map_map]
  apply List.map_congr_left
  intro j _
  simp only [Function.comp]
  ring

theorem valueOf_withoutH (h : K) (es : List ℤ) (o : List K × List (V K)) (p : ℕ) (e : ℤ)
    (he : es[p]? = some e) (hp : p < o.2.length) :
    valueOf p (withoutH h es o) = (valueOf p o).map (fun x => h ^ e * x) := by
  unfold valueOf withoutH
  simp only [List.getD_eq_getElem?_getD, List.getElem?_zipWith, he, List.getElem?_eq_getElem hp,
    Option.getD_some]
  rcases o.2[p] with _ | x
  · rfl
  · simp [mul_comm]

/-- **C99**: the units do not matter: with and without factors of `h` each halo is in the same cell, and the
values of the cells differ by the factor of the property. -/
theorem C99_units (s : State K) (hr : Verif.Handler.Spec.Reachable s) (boxH : K) (names : List Name) (useAll : Bool)
    (objs : List (List K × List (V K)))
    (hcat : Catalogue s useAll (some true) ["pos_x", "pos_y", "pos_z"] names objs) (hne : objs ≠ [])
    (hn : names ≠ []) (hm : "mass_cuts" ∉ names) (hbox : 0 < boxH) (hh : 0 < s.h) (es : List ℤ)
    (he : es.length = names.length)
    (hpos : ∀ p ∈ ["pos_x", "pos_y", "pos_z"], s.hdep.get? p = some (-1))
    (hval : ∀ (k : ℕ) p, names[k]? = some p → s.hdep.get? p = es[k]?) :
    ∃ g g' b b', snapGrid s boxH names (some true) useAll = some (.ok g) ∧
      snapGrid s boxH names (some false) useAll = some (.ok g') ∧ g.grid = some b ∧ g'.grid = some b' ∧
      g'.nPix = g.nPix ∧ ∀ (c : List ℕ) (p : ℕ) (e : ℤ), es[p]? = some e →
        cell b' c p = (cell b c p).map (fun x => s.h ^ e * x) := by
  obtain ⟨g, b, h1, h2, h3, h4, -, h5, -⟩ := C99_default s boxH names (some true) useAll objs hcat hne hn hbox hh
    boxH (by simp)
  have hcat' := catalogue_units s hr useAll _ names ⟨by decide, hm⟩ objs hcat es he hpos hval
  obtain ⟨g', b', h1', h2', h3', h4', -, h5', -⟩ := C99_default s boxH names (some false) useAll _ hcat'
    (by simpa using hne) hn hbox hh (boxH / s.h) (by simp)
  refine ⟨g, g', b, b', h1, h1', h4, h4', by rw [h2, h2'], ?_⟩
  intro c p e hep
  have hp : p < names.length := by
    rw [← he]; exact (List.getElem?_eq_some_iff.1 hep).1
  rw [h5 c p hp, h5' c p hp]
  have hax : g'.axes = g.axes.map (fun l => l.map (fun x => x * s.h ^ (-1 : ℤ))) := by
    rw [h3, h3', List.map_replicate, edges_scale]
    congr 2
    · rw [zpow_neg_one]; field_simp
    · rw [zpow_neg_one]; field_simp
  have hk : (0 : K) < s.h ^ (-1 : ℤ) := zpow_pos hh _
  unfold cellSum
  rw [← map_sum]
  congr 1
  rw [hax, List.map_map, List.map_map]
  have gen : ∀ l : List (List K × List (V K)), (∀ o ∈ l, o.2.length = names.length) →
      ((l.map ((fun o => (o.1, valueOf p o)) ∘ withoutH s.h es)).filter (fun o => decide (InCell
        (g.axes.map (fun l => l.map (fun x => x * s.h ^ (-1 : ℤ)))) c o.1))).map (fun x => x.2) =
      ((l.map (fun o => (o.1, valueOf p o))).filter (fun o => decide (InCell g.axes c o.1))).map
        ((fun v => v.map (fun x => s.h ^ e * x)) ∘ fun x => x.2) := by
    intro l hl
    induction l with
    | nil => rfl
    | cons o l ih =>
      have ih := ih (fun o' ho' => hl o' (by simp [ho']))
      have hin := inCell_scale (s.h ^ (-1 : ℤ)) hk g.axes c o.1
      have hv := valueOf_withoutH s.h es o p e hep (by rw [hl o (by simp)]; exact hp)
      simp only [List.map_cons, Function.comp]
      by_cases hc : InCell g.axes c o.1
      · rw [List.filter_cons_of_pos (by simpa [withoutH] using hin.2 hc),
          List.filter_cons_of_pos (by simpa using hc), List.map_cons, List.map_cons]
        simp only [Function.comp_def] at ih ⊢
        rw [ih, hv]
      · rw [List.filter_cons_of_neg (by simpa [withoutH] using fun h => hc (hin.1 h)),
          List.filter_cons_of_neg (by simpa using hc)]
        simp only [Function.comp_def] at ih ⊢
        exact ih
  exact gen objs hcat.number

/-! ## An example -/

/-- Three halos in a box of length 10 Mpc/h; the last one has a position on a face. -/
def boxFile : PyDict Name (Verif.Handler.Dataset ℚ) :=
  [("mass", ⟨[some 1, some 2, some 4], some "Msun/h", some (-1), false⟩),
   ("pos_x", ⟨[some 0, some (1 / 20), some 10], some "Mpc/h", some (-1), false⟩),
   ("pos_y", ⟨[some (1 / 20), some (1 / 20), some 5], some "Mpc/h", some (-1), false⟩),
   ("pos_z", ⟨[some (1 / 30), some 0, some 6], some "Mpc/h", some (-1), false⟩)]

theorem boxFile_wf : Verif.Handler.Spec.WF boxFile 3 where
  nodup := by decide
  mass := ⟨_, rfl, rfl⟩
  lengths := by
    intro p d hd _
    simp only [boxFile, PyDict.get?_cons, PyDict.get?_nil] at hd
    split at hd
    · simp only [Option.some.injEq] at hd; subst hd; rfl
    split at hd
    · simp only [Option.some.injEq] at hd; subst hd; rfl
    split at hd
    · simp only [Option.some.injEq] at hd; subst hd; rfl
    split at hd
    · simp only [Option.some.injEq] at hd; subst hd; rfl
    · cases hd
  units := by
    intro p d hd _
    simp only [boxFile, List.mem_cons, Prod.mk.injEq, List.not_mem_nil, or_false] at hd
    rcases hd with ⟨_, rfl⟩ | ⟨_, rfl⟩ | ⟨_, rfl⟩ | ⟨_, rfl⟩ <;> rfl
  hdep := by
    intro p d hd _
    simp only [boxFile, List.mem_cons, Prod.mk.injEq, List.not_mem_nil, or_false] at hd
    rcases hd with ⟨_, rfl⟩ | ⟨_, rfl⟩ | ⟨_, rfl⟩ | ⟨_, rfl⟩ <;> rfl

/-- The handler opened on it. -/
def boxState : State ℚ where
  file := boxFile
  h := 1 / 2
  all := ["mass", "pos_x", "pos_y", "pos_z"]
  units := [("mass", "Msun/h"), ("pos_x", "Mpc/h"), ("pos_y", "Mpc/h"), ("pos_z", "Mpc/h")]
  hdep := [("mass", -1), ("pos_x", -1), ("pos_y", -1), ("pos_z", -1)]
  saved := ["mass", "pos_x", "pos_y", "pos_z"]
  nAll := 3
  loaded := []
  generated := []
  active := [0, 1, 2]
  nActive := 3
  inH := true
  extra := [("h", 1 / 2)]

theorem boxState_init : Verif.Handler.init boxFile (1 / 2) true = .ok boxState := rfl

theorem boxState_reachable : Verif.Handler.Spec.Reachable boxState :=
  ⟨boxFile, 3, 1 / 2, true, boxState, boxState.extra, [], boxFile_wf, boxState_init, rfl⟩

def boxObjs : List (List ℚ × List (V ℚ)) :=
  [([0, 1 / 20, 1 / 30], [some 1]), ([1 / 20, 1 / 20, 0], [some 2]), ([10, 5, 6], [some 4])]

theorem box_catalogue (b : Bool) :
    Catalogue boxState b (some true) ["pos_x", "pos_y", "pos_z"] ["mass"] boxObjs where
  positions := by
    intro k p hk
    match k, hk with
    | 0, h => simp at h; subst h; cases b <;> rfl
    | 1, h => simp at h; subst h; cases b <;> rfl
    | 2, h => simp at h; subst h; cases b <;> rfl
    | k + 3, h => simp at h
  values := by
    intro k p hk
    match k, hk with
    | 0, h => simp at h; subst h; cases b <;> rfl
    | k + 1, h => simp at h
  coordinates := by decide
  number := by decide

theorem box_catalogue_default (b : Bool) :
    Catalogue boxState b none ["pos_x", "pos_y", "pos_z"] ["mass"] boxObjs := by
  have h := box_catalogue b
  exact ⟨h.positions, h.values, h.coordinates, h.number⟩

theorem C99_full_false : ¬ C99_full ℚ := by
  intro h
  obtain ⟨g, h1, h2⟩ := h boxState 10 ["mass"] false boxObjs boxState_reachable (box_catalogue_default false)
    (by decide) (by decide) (by norm_num) rfl (by decide +kernel)
  obtain ⟨g', h3, h4⟩ := C99_face_lost boxState 10 ["mass"] none false boxObjs (box_catalogue_default false)
    (by decide) (by norm_num) (by norm_num [boxState]) (by decide +kernel)
  rw [h1] at h3
  simp only [Option.some.injEq, Except.ok.injEq] at h3
  rw [h3] at h2
  omega

/-- The grid of the three halos: the first two are in the first cell, the last one is lost. -/
example : ∃ g b, snapGrid boxState 10 ["mass"] = some (.ok g) ∧ g.grid = some b ∧ g.nObj = 2 ∧
    cell b [0, 0, 0] 0 = ((3 : ℚ) : WithTop ℚ) := by
  obtain ⟨g, b, h1, -, h3, h4, h5, h6, -⟩ := C99_default boxState 10 ["mass"] none false boxObjs
    (box_catalogue_default false) (by decide) (by decide) (by norm_num) (by norm_num [boxState]) 10 rfl
  refine ⟨g, b, h1, h4, ?_, ?_⟩
  · rw [h5]; decide +kernel
  · rw [h6 [0, 0, 0] 0 (by decide), h3]; decide +kernel

/-- Units. -/
example : ∃ g g' b b', snapGrid boxState 10 ["mass"] (some true) = some (.ok g) ∧
    snapGrid boxState 10 ["mass"] (some false) = some (.ok g') ∧ g.grid = some b ∧ g'.grid = some b' ∧
    cell b' [0, 0, 0] 0 = (cell b [0, 0, 0] 0).map (fun x => boxState.h ^ (-1 : ℤ) * x) := by
  obtain ⟨g, g', b, b', h1, h2, h3, h4, -, h5⟩ := C99_units boxState boxState_reachable 10 ["mass"] false boxObjs
    (box_catalogue false) (by decide) (by decide) (by decide) (by norm_num) (by norm_num [boxState]) [-1] rfl
    (by decide) (by
      intro k p hk
      match k, hk with
      | 0, h => simp at h; subst h; rfl
      | k + 1, h => simp at h)
  exact ⟨g, g', b, b', h1, h2, h3, h4, h5 _ 0 (-1) rfl⟩

/-- A part of the box with limits in either order, and densities. -/
example : ∃ g, snapGrid boxState 10 ["mass"] none true (some ⟨false, [1]⟩) (some ⟨false, [4, 12]⟩) none
    (some ⟨false, [8, 2]⟩) .cellVolume = some (.ok g) ∧ g.nPix = [8, 10, 6] := by
  obtain ⟨g, h1, h2, -⟩ := C99_cells boxState 10 ["mass"] none true boxObjs (box_catalogue_default true)
    (by decide) (by decide) (some ⟨false, [1]⟩) (some ⟨false, [4, 12]⟩) none (some ⟨false, [8, 2]⟩) .cellVolume 10
    8 5 5 8 10 6 rfl ⟨4, 12, by norm_num, Or.inl rfl, by norm_num, by norm_num⟩ ⟨by norm_num, rfl⟩
    ⟨2, 8, by norm_num, Or.inr rfl, by norm_num, by norm_num⟩ rfl (by simp [pixels])
    (by
      intro i l w hl hw
      match i, hl, hw with
      | 0, hl, hw => simp [pixels] at hl hw; subst hl hw; norm_num
      | 1, hl, hw => simp [pixels] at hl hw; subst hl hw; norm_num
      | 2, hl, hw => simp [pixels] at hl hw; subst hl hw; norm_num
      | i + 3, hl, hw => simp at hl)
  refine ⟨g, h1, ?_⟩
  have one : ∀ (i n : ℕ) (l c : ℚ), [(8 : ℚ), 10, 6][i]? = some l → [(8 : ℚ), 5, 5][i]? = some c → l = n →
      i < 3 → g.nPix[i]? = some n := by
    intro i n l c hl hc hn hi
    obtain ⟨m, hm, h3, h4⟩ := h2.axis i l 1 c hl (by
      match i, hi with
      | 0, _ => rfl
      | 1, _ => rfl
      | 2, _ => rfl) hc
    rw [pixels_whole n m 1 l (by norm_num) (by rw [hn, mul_one]) h3 h4] at hm
    exact hm.nPix
  have hlen : g.nPix.length = 3 := by
    rw [h2.regular.nPix, ← h2.regular.axes, h2.dim]
  have n0 := one 0 8 8 8 rfl rfl (by norm_num) (by norm_num)
  have n1 := one 1 10 10 5 rfl rfl (by norm_num) (by norm_num)
  have n2 := one 2 6 6 5 rfl rfl (by norm_num) (by norm_num)
  match hq : g.nPix, hlen with
  | [p, q, r], _ =>
    rw [hq] at n0 n1 n2
    simp at n0 n1 n2
    rw [n0, n1, n2]

end Verif.HGrid
