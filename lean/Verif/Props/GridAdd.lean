import Verif.Lemmas.GridAdd
import Verif.Props.GridOps

/-!
# C18, C19, C20: adding a catalogue to a grid, sampling
-/

set_option linter.unusedSectionVars false

namespace Verif.Map

open Verif.Sim (Err)
open Spec

variable {K V : Type} [Field K] [LinearOrder K] [IsStrictOrderedRing K] [FloorRing K]

/-! ## C18 -/

/-- Between the first and the last edge (half-open) on every axis. -/
def Between (axes : List (List K)) (row : List K) : Prop :=
  List.Forall₂ (fun (e : List K) x => ∃ lo ∈ e.head?, ∃ hi ∈ e.getLast?, lo ≤ x ∧ x < hi) axes row

theorem edges_head (n : ℕ) (w c : K) : (edges n w c).head? = some (c - n * w / 2) := by
  rw [List.head?_eq_getElem?, edges_get, if_pos (by omega)]
  simp

theorem edges_last (n : ℕ) (w c : K) : (edges n w c).getLast? = some (c + n * w / 2) := by
  rw [List.getLast?_eq_getElem?, edges_get]
  simp only [edges, List.length_map, List.length_range]
  rw [if_pos (by omega)]
  simp only [Nat.add_sub_cancel, Option.some.injEq]
  ring

/-- The cells of a grid cover exactly the region between the outer edges. -/
theorem C18_inside (g : Grid K V) (hg : Regular g) (row : List K) :
    InGrid g.axes row ↔ Between g.axes row := by
  have key : ∀ (geo : List (K × K × K × ℕ)) (axes : List (List K)),
      List.Forall₂ AxisFits geo axes → ∀ row, InGrid axes row ↔ Between axes row := by
    intro geo axes h
    induction h with
    | nil =>
      intro row
      cases row with
      | nil => exact ⟨fun _ => .nil, fun _ => ⟨[], trivial⟩⟩
      | cons =>
        constructor
        · rintro ⟨c, hc⟩; cases c <;> exact absurd hc id
        · intro h; cases h
    | @cons q e geo axes hq _ ih =>
      intro row
      obtain ⟨cc, s, w, n⟩ := q
      obtain ⟨hw, hs, he⟩ := hq
      simp only at hw hs he
      subst hs he
      cases row with
      | nil =>
        constructor
        · rintro ⟨c, hc⟩; cases c <;> exact absurd hc id
        · intro h; cases h
      | cons x row =>
        constructor
        · rintro ⟨c, hc⟩
          cases c with
          | nil => exact absurd hc id
          | cons i c =>
            obtain ⟨hx, hc⟩ := hc
            refine .cons ?_ ((ih row).1 ⟨c, hc⟩)
            obtain ⟨lo, h1, hi, h2, h3, h4⟩ := hx
            rw [edges_get] at h1 h2
            have hi' : i + 1 ≤ n := by
              by_contra hn
              rw [if_neg hn] at h2
              cases h2
            rw [if_pos (by omega)] at h1 h2
            simp only [Option.mem_def, Option.some.injEq] at h1 h2
            subst h1 h2
            refine ⟨_, edges_head n w cc, _, edges_last n w cc, ?_, ?_⟩
            · have : (0 : K) ≤ i * w := by positivity
              linarith
            · have h5 : ((i + 1 : ℕ) : K) ≤ n := by exact_mod_cast hi'
              have := mul_le_mul_of_nonneg_right h5 hw.le
              linarith
        · intro h
          cases h with
          | cons hx hr =>
            obtain ⟨c, hc⟩ := (ih row).2 hr
            obtain ⟨lo, h1, hi, h2, h3, h4⟩ := hx
            rw [edges_head] at h1
            rw [edges_last] at h2
            simp only [Option.mem_def, Option.some.injEq] at h1 h2
            subst h1 h2
            have hj : 0 ≤ ⌊(x - cc + n * w / 2) / w⌋ := by
              rw [Int.floor_nonneg]
              apply div_nonneg _ hw.le
              linarith
            have hj2 : ⌊(x - cc + n * w / 2) / w⌋ < n := by
              rw [Int.floor_lt, div_lt_iff₀ hw]
              push_cast
              linarith
            refine ⟨(⌊(x - cc + n * w / 2) / w⌋).toNat :: c, ?_, hc⟩
            exact (floor_edges n w cc x hw _).1 ⟨by omega, by omega⟩
  exact key g.geo g.axes (geo_fits g hg) row

/-- The catalogue as the arrays passed to the call: a column for each entry of the values. -/
def posOf {α : Type} (objs : List (List K × α)) : Pos K := { rows := objs.map (·.1) }

/-- The values of the catalogue, with `cols` columns. -/
def valsOf (cols : ℕ) (objs : List (List K × List V)) : Vals V :=
  { cols := cols, rows := objs.map (·.2) }

/-- Column `j` of the catalogue. -/
def column [Zero V] (objs : List (List K × List V)) (j : ℕ) : List (List K × V) :=
  objs.map (fun o => (o.1, o.2.getD j 0))

open Classical in
/-- The objects inside the grid. -/
noncomputable def inGrid {α : Type} (g : Grid K V) (objs : List (List K × α)) : List (List K × α) :=
  objs.filter (fun o => InGrid g.axes o.1)

/-- All positions have a coordinate for each axis. -/
def Fits {α : Type} (g : Grid K V) (objs : List (List K × α)) : Prop :=
  ∀ o ∈ objs, o.1.length = g.dim

/-- `g'` is `g` with the values of the catalogue added: to property `p` in each cell, the sum of
column `col p` over the objects in the cell (nothing if `col p` is `none`). -/
structure Added [AddCommMonoid V] (g g' : Grid K V) (objs : List (List K × List V))
    (col : ℕ → Option ℕ) : Prop where
  rest : ({ g' with grid := none, nObj := 0 } : Grid K V) = { g with grid := none, nObj := 0 }
  nObj : g'.nObj = g.nObj + (inGrid g objs).length
  values : ∀ a, g.grid = some a → ∃ b, g'.grid = some b ∧ b.shape = a.shape ∧
    ∀ c p, cell b c p = cell a c p + (match col p with
      | some j => cellSum g.axes c (column objs j)
      | none => 0)

/-- C18 in full: property number `ps[k]` gets column number `k` of the catalogue, whatever kind of
numbers the positions are. -/
def C18_full (K V : Type) [Field K] [LinearOrder K] [FloorRing K] [AddCommMonoid V] [One V] : Prop :=
  ∀ (g : Grid K V) (objs : List (List K × List V)) (ps : List ℕ) (ints : Bool),
    Regular g → g.grid.isSome → (∀ f ∈ g.fourier, f = false) → Fits g objs →
    ps.Nodup → (∀ p ∈ ps, p < g.nProps) → (∀ o ∈ objs, o.2.length = ps.length) →
    ∃ g', g.addFromCat { isInt := ints, rows := objs.map (·.1) } (some (valsOf ps.length objs)) false
        (some ps) = (g', .ok ()) ∧
      Added g g' objs (fun p => if p ∈ ps then some (ps.idxOf p) else none)

section
variable [AddCommMonoid V]

theorem keep_length {α : Type} (g : Grid K V) (hg : Regular g) (objs : List (List K × α)) :
    (keep g.geo (objs.map (·.1)) (objs.map (·.2))).length = (inGrid g objs).length := by
  rw [keep_objs]
  unfold inGrid
  induction objs with
  | nil => rfl
  | cons o objs ih =>
    rcases hl : locate g.geo o.1 with _ | c
    · have : ¬ InGrid g.axes o.1 := by
        rintro ⟨c, hc⟩
        rw [← locate_cell g hg, hl] at hc
        cases hc
      simp [hl, this, ih]
    · have : InGrid g.axes o.1 := ⟨c, (locate_cell g hg _ _).1 hl⟩
      simp [hl, this, ih]

/-- One pass of the loop. -/
theorem catStep_cell (g : Grid K V) (hg : Regular g) (objs : List (List K × List V)) (a : Arr V)
    (ip j : ℕ) (c : List ℕ) (p : ℕ) :
    cell (a.addAll ((keep g.geo (objs.map (·.1)) (objs.map (·.2))).map
      (fun q => (q.1 ++ [ip], q.2.getD j 0)))) c p =
      cell a c p + if p = ip then cellSum g.axes c (column objs j) else 0 := by
  unfold cell
  rw [addAll_get, keep_objs, List.filter_map, List.map_map]
  congr 1
  by_cases h : p = ip
  · subst h
    rw [if_pos rfl]
    have := keep_sum g.geo g.axes (geo_fits g hg) objs (fun v : List V => v.getD j 0) c
    rw [show column objs j = objs.map (fun o => (o.1, (fun v : List V => v.getD j 0) o.2)) from rfl,
      ← this]
    congr 1
    simp [Function.comp_def]
  · rw [if_neg h, List.filter_eq_nil_iff.2]
    · rfl
    · intro q _
      have : ¬ ip = p := fun e => h e.symm
      simp [this]

theorem catLoop_shape (kept : List (List ℕ × List V)) (cols : ℕ) (ps : List ℕ) (a : Arr V) :
    (catLoop kept cols ps a).1.shape = a.shape := by
  induction ps generalizing a with
  | nil => rfl
  | cons ip ps ih =>
    simp only [catLoop]
    split
    · rfl
    · rw [ih, addAll_shape]

theorem catLoop_ok (g : Grid K V) (hg : Regular g) (objs : List (List K × List V)) (cols : ℕ)
    (ps : List ℕ) (hnd : ps.Nodup) (hc : cols = 1 ∨ ∀ p ∈ ps, p < cols) (a : Arr V) :
    ∃ b, catLoop (keep g.geo (objs.map (·.1)) (objs.map (·.2))) cols ps a = (b, .ok ()) ∧
      b.shape = a.shape ∧ ∀ c p, cell b c p = cell a c p +
        if p ∈ ps then cellSum g.axes c (column objs (if cols = 1 then 0 else p)) else 0 := by
  induction ps generalizing a with
  | nil => exact ⟨a, rfl, rfl, by simp⟩
  | cons ip ps ih =>
    rw [List.nodup_cons] at hnd
    simp only [catLoop]
    rw [if_neg (by rintro ⟨h1, h2⟩; rcases hc with h | h
                   · exact h1 h
                   · exact absurd (h ip (List.mem_cons_self ..)) (by omega))]
    obtain ⟨b, h1, h2, h3⟩ := ih hnd.2
      (hc.imp id (fun h p hp => h p (List.mem_cons_of_mem _ hp)))
      (a.addAll ((keep g.geo (objs.map (·.1)) (objs.map (·.2))).map
        (fun q => (q.1 ++ [ip], q.2.getD (if cols = 1 then 0 else ip) 0))))
    refine ⟨b, h1, by rw [h2, addAll_shape], ?_⟩
    intro c p
    rw [h3, catStep_cell g hg, add_assoc]
    congr 1
    by_cases hp : p = ip
    · subst hp; simp [hnd.1]
    · simp [hp]

theorem Spec.Regular.nPix_length {g : Grid K V} (hg : Regular g) : g.nPix.length = g.dim := hg.nPix

variable [One V]

theorem addFromCat_eq (g : Grid K V) (a : Arr V) (ha : g.grid = some a)
    (hr : ∀ f ∈ g.fourier, f = false) (objs : List (List K × List V)) (hfit : Fits g objs)
    (cols : ℕ) (ps : List ℕ) (hps : ∀ p ∈ ps, p < g.nProps) (hne : objs ≠ [])
    (hc : cols = ps.length ∨ cols = 1) :
    g.addFromCat (posOf objs) (some (valsOf cols objs)) false (some ps) =
      (match catLoop (keep g.geo (objs.map (·.1)) (objs.map (·.2))) cols ps a with
        | (a', .error e) => ({ g with grid := some a' }, .error e)
        | (a', .ok ()) =>
          ({ g with grid := some a',
                    nObj := g.nObj + (keep g.geo (objs.map (·.1)) (objs.map (·.2))).length },
            .ok ())) := by
  have h1 : ¬ g.fourier.any id = true := by
    rw [List.any_eq_true]
    rintro ⟨f, hf, hf'⟩
    rw [hr f hf] at hf'
    cases hf'
  have h2 : ¬ (posOf objs).rows = [] := by simpa [posOf] using hne
  have h3 : ¬ ∃ r ∈ (posOf objs).rows, r.length ≠ g.dim := by
    rintro ⟨r, hr, hl⟩
    simp only [posOf, List.mem_map] at hr
    obtain ⟨o, ho, rfl⟩ := hr
    exact hl (hfit o ho)
  have h4 : ¬ (valsOf cols objs).rows.length ≠ (posOf objs).rows.length := by
    simp [valsOf, posOf]
  unfold Grid.addFromCat
  rw [ha]
  simp only
  rw [if_neg h1, if_neg h2, if_neg (by simp [posOf]), if_neg h3]
  simp only [Option.getD_some]
  rw [if_neg h4, if_neg (by simp [posOf]), if_neg (by simp)]
  rw [checkProps_ok g ps hps]
  simp only
  rw [if_neg (by simp only [valsOf]; omega)]
  rfl

/-- What is proved, for every catalogue of float positions with as many columns as the grid has
properties, or with one column for the chosen properties. -/
theorem C18_cells_partial (g : Grid K V) (hg : Regular g) (a : Arr V) (ha : g.grid = some a)
    (hr : ∀ f ∈ g.fourier, f = false) (objs : List (List K × List V)) (hfit : Fits g objs)
    (cols : ℕ) (ps : List ℕ) (hnd : ps.Nodup) (hps : ∀ p ∈ ps, p < g.nProps)
    (hc : cols = 1 ∨ cols = ps.length ∧ ∀ p ∈ ps, p < cols) :
    ∃ g', g.addFromCat (posOf objs) (some (valsOf cols objs)) false (some ps) = (g', .ok ()) ∧
      Added g g' objs (fun p => if p ∈ ps then some (if cols = 1 then 0 else p) else none) := by
  by_cases hne : objs = []
  · subst hne
    refine ⟨g, ?_, rfl, by simp [inGrid], ?_⟩
    · have h1 : ¬ g.fourier.any id = true := by
        rw [List.any_eq_true]
        rintro ⟨f, hf, hf'⟩
        rw [hr f hf] at hf'
        cases hf'
      unfold Grid.addFromCat
      rw [ha]
      simp only
      rw [if_neg h1]
      simp [posOf]
    · intro a' ha'
      refine ⟨a', ha', rfl, ?_⟩
      intro c p
      split <;> simp [column, cellSum]
  · obtain ⟨b, h1, h2, h3⟩ := catLoop_ok g hg objs cols ps hnd (hc.imp id (·.2)) a
    rw [addFromCat_eq g a ha hr objs hfit cols ps hps hne (by omega), h1]
    refine ⟨_, rfl, ?_, ?_, ?_⟩
    · rfl
    · simp only
      rw [keep_length g hg]
    · intro a' ha'
      rw [ha] at ha'
      simp only [Option.some.injEq] at ha'
      subst ha'
      refine ⟨b, rfl, h2, ?_⟩
      intro c p
      rw [h3]
      by_cases hp : p ∈ ps <;> simp [hp]

/-- The cells add up to the objects inside. -/
theorem cellSum_total (g : Grid K V) (hg : Regular g) (objs : List (List K × V)) :
    ((allCells g.nPix).map (fun c => cellSum g.axes c objs)).sum =
      ((inGrid g objs).map (·.2)).sum := by
  induction objs with
  | nil => simp [cellSum, inGrid]
  | cons o objs ih =>
    have hsplit : ∀ c, cellSum g.axes c (o :: objs) =
        (if InCell g.axes c o.1 then o.2 else 0) + cellSum g.axes c objs := by
      intro c
      unfold cellSum
      by_cases h : InCell g.axes c o.1 <;> simp [h]
    simp only [hsplit]
    rw [sum_map_add', ih]
    by_cases hin : InGrid g.axes o.1
    · obtain ⟨c0, hc0⟩ := hin
      have : ∀ c, (if InCell g.axes c o.1 then o.2 else 0) = if c = c0 then o.2 else 0 := by
        intro c
        by_cases h : c = c0
        · subst h; rw [if_pos hc0, if_pos rfl]
        · rw [if_neg h, if_neg (fun h' => h (inCell_unique g hg _ _ _ h' hc0))]
      simp only [this]
      rw [sum_map_single _ (allCells_nodup _),
        if_pos ((mem_allCells _ _).2 (inCell_valid g hg _ _ hc0))]
      have hin : InGrid g.axes o.1 := ⟨c0, hc0⟩
      simp [inGrid, hin]
    · have : ∀ c, (if InCell g.axes c o.1 then o.2 else 0) = 0 := by
        intro c
        rw [if_neg (fun h => hin ⟨c, h⟩)]
      simp only [this]
      simp [inGrid, hin]

/-- The total of a property changes by the sum of the values of the objects inside. -/
theorem C18_total (g g' : Grid K V) (hg : Regular g) (objs : List (List K × List V))
    (col : ℕ → Option ℕ) (h : Added g g' objs col) (a b : Arr V) (ha : g.grid = some a)
    (hb : g'.grid = some b) (p j : ℕ) (hp : col p = some j) :
    total g b p = total g a p + ((inGrid g (column objs j)).map (·.2)).sum := by
  obtain ⟨b', hb', -, hv⟩ := h.values a ha
  rw [hb] at hb'
  simp only [Option.some.injEq] at hb'
  subst hb'
  unfold total
  simp only [hv, hp]
  rw [sum_map_add', cellSum_total g hg]

/-- Each object inside is counted in exactly one cell. -/
theorem C18_one_cell (g : Grid K V) (hg : Regular g) (row : List K) (h : Between g.axes row) :
    ∃! c, InCell g.axes c row := by
  obtain ⟨c, hc⟩ := (C18_inside g hg row).2 h
  exact ⟨c, hc, fun d hd => inCell_unique g hg row d c hd hc⟩

/-- With `new_props`, one property is added for each column; the old ones stay. -/
theorem C18_new_props (g : Grid K V) (hg : Regular g) (a : Arr V) (ha : g.grid = some a)
    (hr : ∀ f ∈ g.fourier, f = false) (objs : List (List K × List V)) (hne : objs ≠ [])
    (hfit : Fits g objs) (cols : ℕ) (pr : Option (List ℕ)) :
    ∃ g' b, g.addFromCat (posOf objs) (some (valsOf cols objs)) true pr = (g', .ok ()) ∧
      g'.grid = some b ∧ g'.nProps = g.nProps + cols ∧
      g'.nObj = g.nObj + (inGrid g objs).length ∧ b.shape = g.nPix ++ [g.nProps + cols] ∧
      ({ g' with grid := none, nObj := 0, nProps := 0 } : Grid K V) =
        { g with grid := none, nObj := 0, nProps := 0 } ∧
      (∀ c p, p < g.nProps → cell b c p = cell a c p) ∧
      (∀ c j, j < cols → cell b c (g.nProps + j) = cellSum g.axes c (column objs j)) := by
  have h1 : ¬ g.fourier.any id = true := by
    rw [List.any_eq_true]
    rintro ⟨f, hf, hf'⟩
    rw [hr f hf] at hf'
    cases hf'
  have h2 : ¬ (posOf objs).rows = [] := by simpa [posOf] using hne
  have h3 : ¬ ∃ r ∈ (posOf objs).rows, r.length ≠ g.dim := by
    rintro ⟨r, hr, hl⟩
    simp only [posOf, List.mem_map] at hr
    obtain ⟨o, ho, rfl⟩ := hr
    exact hl (hfit o ho)
  have h4 : ¬ (valsOf cols objs).rows.length ≠ (posOf objs).rows.length := by
    simp [valsOf, posOf]
  set kept := keep g.geo (objs.map (·.1)) (objs.map (·.2)) with hk
  set n : Arr V := (zeros (g.nPix ++ [cols])).addAll
    (kept.flatMap (fun q => (List.range cols).map (fun j : ℕ => (q.1 ++ [j], q.2.getD j 0)))) with hn
  have hns : n.shape = g.nPix ++ [cols] := by rw [hn, addAll_shape]; rfl
  have hv : newPropValue g n = .ok n := by
    unfold newPropValue
    rw [hns, if_pos (by simp [hg.nPix]), if_pos (by simp)]
  have hl1 : n.shape.getLastD 0 = cols := by simp [hns]
  have hl2 : a.shape.getLastD 0 = g.nProps := by simp [hg.data a ha]
  refine ⟨{ g with grid := some (a.concatLast n), nProps := g.nProps + cols,
                   nObj := g.nObj + kept.length }, a.concatLast n, ?_, rfl, rfl, ?_, ?_, rfl, ?_, ?_⟩
  · unfold Grid.addFromCat
    rw [ha]
    simp only
    rw [if_neg h1, if_neg h2, if_neg (by simp [posOf]), if_neg h3]
    simp only [Option.getD_some]
    rw [if_neg h4, if_neg (by simp [posOf])]
    rw [if_pos trivial]
    have : g.addNewProp (some n) =
        ({ g with grid := some (a.concatLast n), nProps := g.nProps + cols }, .ok ()) := by
      unfold Grid.addNewProp
      rw [ha]
      simp only [hv, hl1]
    simp only [valsOf, posOf]
    rw [← hk, ← hn, this]
  · rw [hk, keep_length g hg]
  · simp only [Arr.concatLast, hl1, hl2, hg.shape ha]
  · intro c p hp
    show (if (c ++ [p]).getLastD 0 < a.shape.getLastD 0 then _ else _) = _
    rw [if_pos (by rw [hl2]; simpa using hp)]
    rfl
  · intro c j hj
    show (if (c ++ [g.nProps + j]).getLastD 0 < a.shape.getLastD 0 then _ else _) = _
    rw [if_neg (by rw [hl2]; simp)]
    simp only [List.dropLast_concat, List.getLastD_concat, hl2, Nat.add_sub_cancel_left]
    rw [hn, addAll_get]
    have hz : (zeros (g.nPix ++ [cols]) : Arr V).get (c ++ [j]) = 0 := rfl
    rw [hz, zero_add]
    have := keep_sum g.geo g.axes (geo_fits g hg) objs (fun v : List V => v.getD j 0) c
    rw [show column objs j = objs.map (fun o => (o.1, (fun v : List V => v.getD j 0) o.2)) from rfl,
      ← this, hk, keep_objs]
    generalize (objs.filterMap fun o => (locate g.geo o.1).map fun c => (c, o.2)) = l
    induction l with
    | nil => rfl
    | cons q l ih =>
      rw [List.flatMap_cons, List.filter_append, List.map_append, List.sum_append, ih,
        List.filter_cons]
      have hq : ((List.filter (fun q => decide (q.1 = c ++ [j]))
          ((List.range cols).map (fun j : ℕ => (q.1 ++ [j], q.2.getD j 0)))).map (·.2)).sum =
          if q.1 = c then q.2.getD j 0 else 0 := by
        rw [List.filter_map, List.map_map]
        by_cases hqc : q.1 = c
        · rw [if_pos hqc]
          have : (List.range cols).filter ((fun q : List ℕ × V => decide (q.1 = c ++ [j])) ∘
              fun j : ℕ => (q.1 ++ [j], q.2.getD j 0)) = [j] := by
            have : ((fun q : List ℕ × V => decide (q.1 = c ++ [j])) ∘
              fun j : ℕ => (q.1 ++ [j], q.2.getD j 0)) = fun i => decide (i = j) := by
              funext i; simp [hqc]
            rw [this]
            have hnd := (List.nodup_range (n := cols)).filter (fun i => decide (i = j))
            rw [← List.replicate_one, List.eq_replicate_iff]
            refine ⟨?_, by simp⟩
            have : List.filter (fun i => decide (i = j)) (List.range cols) =
                List.filter (fun i => i == j) (List.range cols) := by
              congr 1
            rw [this, ← List.countP_eq_length_filter]
            have := List.count_eq_one_of_mem (List.nodup_range (n := cols)) (List.mem_range.2 hj)
            exact this
          rw [this]; simp
        · rw [if_neg hqc, List.filter_eq_nil_iff.2]
          · rfl
          · intro i _; simp [hqc]
      rw [hq]
      by_cases hqc : q.1 = c <;> simp [hqc]

/-- Where it fails: an array of integer positions is always refused. -/
theorem C18_integer_positions_fail (g : Grid K V) (a : Arr V) (ha : g.grid = some a)
    (hr : ∀ f ∈ g.fourier, f = false) (objs : List (List K × List V)) (hne : objs ≠ [])
    (hfit : Fits g objs) (cols : ℕ) (nw : Bool) (ps : Option (List ℕ)) :
    g.addFromCat { isInt := true, rows := objs.map (·.1) } (some (valsOf cols objs)) nw ps =
      (g, .error .typeError) := by
  have h1 : ¬ g.fourier.any id = true := by
    rw [List.any_eq_true]
    rintro ⟨f, hf, hf'⟩
    rw [hr f hf] at hf'
    cases hf'
  have h3 : ¬ ∃ r ∈ objs.map (·.1), r.length ≠ g.dim := by
    rintro ⟨r, hr, hl⟩
    simp only [List.mem_map] at hr
    obtain ⟨o, ho, rfl⟩ := hr
    exact hl (hfit o ho)
  unfold Grid.addFromCat
  rw [ha]
  simp only
  rw [if_neg h1, if_neg (by simpa using hne), if_neg (by simp), if_neg h3]
  simp only [Option.getD_some]
  rw [if_neg (by simp [valsOf]), if_pos trivial]

/-- Two columns for the properties 1 and 0 end up in the other property. -/
theorem C18_columns_swapped (g : Grid K V) (hg : Regular g) (a : Arr V) (ha : g.grid = some a)
    (hr : ∀ f ∈ g.fourier, f = false) (objs : List (List K × List V)) (hfit : Fits g objs)
    (h2 : 2 ≤ g.nProps) :
    ∃ g', g.addFromCat (posOf objs) (some (valsOf 2 objs)) false (some [1, 0]) = (g', .ok ()) ∧
      Added g g' objs (fun p => if p = 1 then some 1 else if p = 0 then some 0 else none) := by
  obtain ⟨g', h1, h3⟩ := C18_cells_partial g hg a ha hr objs hfit 2 [1, 0] (by simp)
    (by simp; omega) (.inr ⟨rfl, by simp⟩)
  refine ⟨g', h1, h3.rest, h3.nObj, ?_⟩
  intro a' ha'
  obtain ⟨b, e1, e2, e3⟩ := h3.values a' ha'
  refine ⟨b, e1, e2, ?_⟩
  intro c p
  rw [e3]
  match p with
  | 0 => simp
  | 1 => simp
  | p + 2 => simp

/-- Two columns for the properties 1 and 2: the second column goes to property 1, then the call raises
`IndexError` with this left in the grid and the objects not counted. -/
theorem C18_columns_out_of_range (g : Grid K V) (hg : Regular g) (a : Arr V) (ha : g.grid = some a)
    (hr : ∀ f ∈ g.fourier, f = false) (objs : List (List K × List V)) (hne : objs ≠ [])
    (hfit : Fits g objs) (h2 : 3 ≤ g.nProps) :
    ∃ g' b, g.addFromCat (posOf objs) (some (valsOf 2 objs)) false (some [1, 2]) =
        (g', .error .indexError) ∧ g'.grid = some b ∧ g'.nObj = g.nObj ∧
      ∀ c p, cell b c p =
        cell a c p + if p = 1 then cellSum g.axes c (column objs 1) else 0 := by
  rw [addFromCat_eq g a ha hr objs hfit 2 [1, 2] (by simp; omega) hne (by simp)]
  simp only [catLoop]
  simp only [show ¬ ((2 : ℕ) ≠ 1 ∧ 2 ≤ 1) by omega, show ((2 : ℕ) ≠ 1 ∧ 2 ≤ 2) by omega, if_false,
    if_true, show ¬ (2 : ℕ) = 1 by omega, not_false_eq_true]
  exact ⟨_, _, rfl, rfl, rfl, fun c p => catStep_cell g hg objs a 1 1 c p⟩

theorem C18_full_false : ¬ C18_full K V := by
  intro h
  obtain ⟨g, -, hr, -, -, hn, -, -, hd, -, hf⟩ := new_two (K := K) (V := V) 1 [none] rfl
  have hr' : Regular g.init := regular_add hr (some (zeros (g.nPix ++ [g.nProps]))) g.nProps 0
    g.gridunits g.isPow (by rintro x hx; simp only [Option.some.injEq] at hx; subst hx; rfl) rfl
  have hfo : ∀ f ∈ g.init.fourier, f = false := by
    intro f hf'
    rw [show g.init.fourier = g.fourier from rfl, hf] at hf'
    simpa using hf'
  have hfit : Fits g.init [([0], [(1 : V)])] := by
    intro o ho
    rw [show g.init.dim = g.dim from rfl, hd]
    simp at ho
    subst ho; rfl
  obtain ⟨g', h1, -⟩ := h g.init [([0], [1])] [0] true hr' rfl hfo hfit (by simp)
    (by simp [Grid.init, hn]) (by simp)
  have := C18_integer_positions_fail g.init (zeros (g.nPix ++ [g.nProps])) rfl hfo
    [([0], [(1 : V)])] (by simp) hfit 1 false (some [0])
  simp only [List.length_cons, List.length_nil, Nat.zero_add] at h1
  rw [this] at h1
  simp at h1

/-- A case of the hypotheses; one object exactly on an edge, one outside. -/
example : okAnd (Grid.new 1 ⟨false, [5, 5]⟩ ⟨false, [10, 10]⟩ ⟨false, [1, 1]⟩)
    (fun g : Grid ℚ ℚ =>
      let r := g.init.addFromCat { rows := [[3, 7 / 2], [7 / 2, 7 / 2], [10, 1]] }
        (some { cols := 1, rows := [[2], [5], [9]] }) false (some [0])
      r.1.grid.map (fun b : Arr ℚ => (cell b [3, 3] 0, cell b [2, 3] 0)) = some (7, 0) ∧
        r.1.nObj = 2) = true := by
  decide +kernel

/-! ## C19 -/

theorem catLoop_perm (k l : List (List ℕ × List V)) (h : k.Perm l) (cols : ℕ) (ps : List ℕ)
    (a : Arr V) : catLoop k cols ps a = catLoop l cols ps a := by
  induction ps generalizing a with
  | nil => rfl
  | cons ip ps ih =>
    simp only [catLoop]
    split
    · rfl
    · rw [ih, addAll_perm _ _ _ (h.map _)]

theorem catLoop_append (k l : List (List ℕ × List V)) (cols : ℕ) (ps : List ℕ) (a : Arr V)
    (hc : cols = 1 ∨ ∀ p ∈ ps, p < cols) :
    (catLoop k cols ps a).2 = .ok () ∧
      catLoop (k ++ l) cols ps a = catLoop l cols ps (catLoop k cols ps a).1 := by
  have comm : ∀ (m : List (List ℕ × V)) (ps : List ℕ) (a : Arr V),
      (cols = 1 ∨ ∀ p ∈ ps, p < cols) →
      (catLoop k cols ps (a.addAll m)).1 = (catLoop k cols ps a).1.addAll m := by
    intro m ps
    induction ps with
    | nil => intro a _; rfl
    | cons ip ps ih =>
      intro a hc
      simp only [catLoop]
      have hcond : ¬ (cols ≠ 1 ∧ cols ≤ ip) := by
        rintro ⟨h1, h2⟩
        rcases hc with h | h
        · exact h1 h
        · exact absurd (h ip (List.mem_cons_self ..)) (by omega)
      rw [if_neg hcond, if_neg hcond]
      rw [addAll_comm, ih _ (hc.imp id (fun h p hp => h p (List.mem_cons_of_mem _ hp)))]
  induction ps generalizing a with
  | nil => exact ⟨rfl, rfl⟩
  | cons ip ps ih =>
    have hcond : ¬ (cols ≠ 1 ∧ cols ≤ ip) := by
      rintro ⟨h1, h2⟩
      rcases hc with h | h
      · exact h1 h
      · exact absurd (h ip (List.mem_cons_self ..)) (by omega)
    have hc' : cols = 1 ∨ ∀ p ∈ ps, p < cols :=
      hc.imp id (fun h p hp => h p (List.mem_cons_of_mem _ hp))
    simp only [catLoop]
    rw [if_neg hcond, if_neg hcond, if_neg hcond]
    refine ⟨(ih _ hc').1, ?_⟩
    rw [List.map_append, addAll_append, (ih _ hc').2, comm _ _ _ hc']

/-- What remains of `add_from_cat` once the objects are located. -/
def addKept (g : Grid K V) (a : Arr V) (kept : List (List ℕ × List V)) (cols : ℕ) (nw : Bool)
    (ps : Option (List ℕ)) : Grid K V × Except Err Unit :=
  if nw then
    let b := (zeros (g.nPix ++ [cols])).addAll
      (kept.flatMap (fun q => (List.range cols).map (fun j : ℕ => (q.1 ++ [j], q.2.getD j 0))))
    match g.addNewProp (some b) with
    | (g', .error e) => (g', .error e)
    | (g', .ok ()) => ({ g' with nObj := g'.nObj + kept.length }, .ok ())
  else
    match g.checkProps ps with
    | .error e => (g, .error e)
    | .ok ps =>
      if cols ≠ ps.length ∧ cols ≠ 1 then (g, .error .valueError)
      else
        match catLoop kept cols ps a with
        | (a', .error e) => ({ g with grid := some a' }, .error e)
        | (a', .ok ()) => ({ g with grid := some a', nObj := g.nObj + kept.length }, .ok ())

theorem addFromCat_kept (g : Grid K V) (a : Arr V) (ha : g.grid = some a)
    (h1 : ¬ g.fourier.any id = true) (objs : List (List K × List V)) (hfit : Fits g objs)
    (hne : objs ≠ []) (cols : ℕ) (nw : Bool) (ps : Option (List ℕ)) :
    g.addFromCat (posOf objs) (some (valsOf cols objs)) nw ps =
      addKept g a (keep g.geo (objs.map (·.1)) (objs.map (·.2))) cols nw ps := by
  have h2 : ¬ (posOf objs).rows = [] := by simpa [posOf] using hne
  have h3 : ¬ ∃ r ∈ (posOf objs).rows, r.length ≠ g.dim := by
    rintro ⟨r, hr, hl⟩
    simp only [posOf, List.mem_map] at hr
    obtain ⟨o, ho, rfl⟩ := hr
    exact hl (hfit o ho)
  have h4 : ¬ (valsOf cols objs).rows.length ≠ (posOf objs).rows.length := by
    simp [valsOf, posOf]
  unfold Grid.addFromCat
  rw [ha]
  simp only
  rw [if_neg h1, if_neg h2, if_neg (by simp [posOf]), if_neg h3]
  simp only [Option.getD_some]
  rw [if_neg h4, if_neg (by simp [posOf])]
  rfl

/-- The order of the objects does not matter: any rearrangement gives the same grid and count, in
every mode. -/
theorem C19_order (g : Grid K V) (objs objs' : List (List K × List V)) (h : objs.Perm objs')
    (hfit : Fits g objs) (cols : ℕ) (nw : Bool) (ps : Option (List ℕ)) :
    g.addFromCat (posOf objs) (some (valsOf cols objs)) nw ps =
      g.addFromCat (posOf objs') (some (valsOf cols objs')) nw ps := by
  by_cases hn : objs = []
  · subst hn
    rw [List.Perm.nil_eq h]
  rcases hgr : g.grid with _ | a
  · unfold Grid.addFromCat
    rw [hgr]
  by_cases hf : g.fourier.any id = true
  · unfold Grid.addFromCat
    rw [hgr]
    simp only
    rw [if_pos hf, if_pos hf]
  have hk : (keep g.geo (objs.map (·.1)) (objs.map (·.2))).Perm
      (keep g.geo (objs'.map (·.1)) (objs'.map (·.2))) := by
    rw [keep_objs, keep_objs]; exact h.filterMap _
  rw [addFromCat_kept g a hgr hf objs hfit hn, addFromCat_kept g a hgr hf objs'
    (fun o ho => hfit o (h.mem_iff.2 ho)) (fun e => hn (List.Perm.eq_nil (e ▸ h)))]
  unfold addKept
  cases nw with
  | true =>
    simp only [if_true]
    rw [addAll_perm _ _ _ (hk.flatMap_right _), hk.length_eq]
  | false =>
    simp only [Bool.false_eq_true, if_false]
    rw [hk.length_eq]
    rcases g.checkProps ps with e | qs
    · rfl
    · simp only
      rw [catLoop_perm _ _ hk]

/-- Adding a catalogue in two pieces (and so in any number of pieces) gives the same grid and the
same count. -/
theorem C19_batches (g : Grid K V) (hg : Regular g) (a : Arr V) (ha : g.grid = some a)
    (hr : ∀ f ∈ g.fourier, f = false) (o1 o2 : List (List K × List V)) (h1 : Fits g o1)
    (h2 : Fits g o2) (cols : ℕ) (ps : List ℕ) (hps : ∀ p ∈ ps, p < g.nProps)
    (hc : cols = 1 ∨ cols = ps.length ∧ ∀ p ∈ ps, p < cols) :
    ∃ g1, g.addFromCat (posOf o1) (some (valsOf cols o1)) false (some ps) = (g1, .ok ()) ∧
      g1.addFromCat (posOf o2) (some (valsOf cols o2)) false (some ps) =
        g.addFromCat (posOf (o1 ++ o2)) (some (valsOf cols (o1 ++ o2))) false (some ps) := by
  have hcl : cols = ps.length ∨ cols = 1 := by omega
  have empty : ∀ g : Grid K V, (∀ f ∈ g.fourier, f = false) → g.grid.isSome →
      g.addFromCat (posOf ([] : List (List K × List V)))
        (some (valsOf cols ([] : List (List K × List V)))) false (some ps) = (g, .ok ()) := by
    intro g hr hs
    obtain ⟨a, ha⟩ := Option.isSome_iff_exists.1 hs
    have h1 : ¬ g.fourier.any id = true := by
      rw [List.any_eq_true]
      rintro ⟨f, hf, hf'⟩
      rw [hr f hf] at hf'
      cases hf'
    unfold Grid.addFromCat
    rw [ha]
    simp only
    rw [if_neg h1]
    simp [posOf]
  by_cases hn1 : o1 = []
  · subst hn1
    exact ⟨g, empty g hr (by simp [ha]), rfl⟩
  obtain ⟨k1, -⟩ := catLoop_append (keep g.geo (o1.map (·.1)) (o1.map (·.2))) [] cols ps a
    (hc.imp id (·.2))
  rcases hb : catLoop (keep g.geo (o1.map (·.1)) (o1.map (·.2))) cols ps a with ⟨b, r⟩
  rw [hb] at k1
  simp only at k1
  subst k1
  rw [addFromCat_eq g a ha hr o1 h1 cols ps hps hn1 hcl, hb]
  refine ⟨_, rfl, ?_⟩
  by_cases hn2 : o2 = []
  · subst hn2
    have := empty ({ g with grid := some b,
                            nObj := g.nObj + (keep g.geo (o1.map (·.1)) (o1.map (·.2))).length } :
        Grid K V) hr rfl
    rw [List.append_nil, this, addFromCat_eq g a ha hr o1 h1 cols ps hps hn1 hcl, hb]
  · have hfit : Fits g (o1 ++ o2) := by
      intro o ho
      rcases List.mem_append.1 ho with h | h
      · exact h1 o h
      · exact h2 o h
    rw [addFromCat_eq g a ha hr (o1 ++ o2) hfit cols ps hps (by simp [hn1]) hcl]
    rw [addFromCat_eq ({ g with grid := some b,
                                nObj := g.nObj + (keep g.geo (o1.map (·.1)) (o1.map (·.2))).length } :
        Grid K V) b rfl hr o2 h2 cols ps hps hn2 hcl]
    obtain ⟨-, k2⟩ := catLoop_append (keep g.geo (o1.map (·.1)) (o1.map (·.2)))
      (keep g.geo (o2.map (·.1)) (o2.map (·.2))) cols ps a (hc.imp id (·.2))
    obtain ⟨k3, -⟩ := catLoop_append (keep g.geo (o2.map (·.1)) (o2.map (·.2))) [] cols ps b
      (hc.imp id (·.2))
    rw [List.map_append, List.map_append, keep_append _ _ _ _ _ (by simp), k2, hb]
    have e : ({ g with grid := some b,
                       nObj := g.nObj + (keep g.geo (o1.map (·.1)) (o1.map (·.2))).length } :
        Grid K V).geo = g.geo := rfl
    rw [e]
    rcases hb2 : catLoop (keep g.geo (o2.map (·.1)) (o2.map (·.2))) cols ps b with ⟨b2, r2⟩
    rw [hb2] at k3
    simp only at k3
    subst k3
    simp only [hb2]
    rw [List.length_append, ← Nat.add_assoc]

/-- The pieces one after the other. -/
def addPieces (cols : ℕ) (ps : List ℕ) :
    List (List (List K × List V)) → Grid K V → Grid K V × Except Err Unit
  | [], g => (g, .ok ())
  | o :: os, g =>
    match g.addFromCat (posOf o) (some (valsOf cols o)) false (some ps) with
    | (g', .error e) => (g', .error e)
    | (g', .ok ()) => addPieces cols ps os g'

/-- Any number of pieces, in any arrangement of the objects. -/
theorem C19_pieces (g : Grid K V) (hg : Regular g) (a : Arr V) (ha : g.grid = some a)
    (hr : ∀ f ∈ g.fourier, f = false) (pieces : List (List (List K × List V)))
    (objs : List (List K × List V)) (hperm : pieces.flatten.Perm objs) (hfit : Fits g objs)
    (cols : ℕ) (ps : List ℕ) (hnd : ps.Nodup) (hps : ∀ p ∈ ps, p < g.nProps)
    (hc : cols = 1 ∨ cols = ps.length ∧ ∀ p ∈ ps, p < cols) :
    addPieces cols ps pieces g = g.addFromCat (posOf objs) (some (valsOf cols objs)) false (some ps) ∧
      (addPieces cols ps pieces g).2 = .ok () := by
  have main : ∀ (pieces : List (List (List K × List V))) (g : Grid K V), Regular g →
      g.grid.isSome → (∀ f ∈ g.fourier, f = false) → Fits g pieces.flatten →
      (∀ p ∈ ps, p < g.nProps) →
      addPieces cols ps pieces g = g.addFromCat (posOf pieces.flatten)
        (some (valsOf cols pieces.flatten)) false (some ps) ∧
      (addPieces cols ps pieces g).2 = .ok () := by
    intro pieces
    induction pieces with
    | nil =>
      intro g hg hs hr _ hps
      obtain ⟨a, ha⟩ := Option.isSome_iff_exists.1 hs
      obtain ⟨g1, -, h2⟩ := C19_batches g hg a ha hr [] [] (by intro o ho; cases ho)
        (by intro o ho; cases ho) cols ps hps hc
      refine ⟨?_, rfl⟩
      have h1 : ¬ g.fourier.any id = true := by
        rw [List.any_eq_true]
        rintro ⟨f, hf, hf'⟩
        rw [hr f hf] at hf'
        cases hf'
      unfold Grid.addFromCat
      rw [ha]
      simp only
      rw [if_neg h1]
      simp [posOf, addPieces]
    | cons o os ih =>
      intro g hg hs hr hfit hps
      obtain ⟨a, ha⟩ := Option.isSome_iff_exists.1 hs
      have f1 : Fits g o := fun x hx => hfit x (by simp [hx])
      have f2 : Fits g os.flatten := fun x hx => hfit x (by
        rw [List.flatten_cons]; exact List.mem_append_right _ hx)
      obtain ⟨g1, e1, e2⟩ := C19_batches g hg a ha hr o os.flatten f1 f2 cols ps hps hc
      obtain ⟨g1', e1', hadd⟩ := C18_cells_partial g hg a ha hr o f1 cols ps hnd hps hc
      rw [e1] at e1'
      simp only [Prod.mk.injEq, and_true] at e1'
      subst e1'
      obtain ⟨b, hb, hbs, -⟩ := hadd.values a ha
      have hrest := hadd.rest
      have d1 : g1.center = g.center := by have := congrArg Grid.center hrest; exact this
      have d2 : g1.fourier = g.fourier := by have := congrArg Grid.fourier hrest; exact this
      have d3 : g1.nProps = g.nProps := by have := congrArg Grid.nProps hrest; exact this
      have hg1 : Regular g1 := by
        refine regular_add hg (some b) g.nProps g1.nObj g1.gridunits g1.isPow ?_ ?_
        · intro y hy
          simp only [Option.some.injEq] at hy
          subst hy
          rw [hbs, hg.data a ha]
        · have : g1 = { ({ g1 with grid := none, nObj := 0 } : Grid K V) with
              grid := some b, nObj := g1.nObj } := by rw [← hb]
          rw [this, hrest]
      have hd : g1.dim = g.dim := by simp [Grid.dim, d1]
      have key := ih g1 hg1 (by rw [hb]; rfl) (by rw [d2]; exact hr)
        (fun x hx => (f2 x hx).trans hd.symm) (by rw [d3]; exact hps)
      have e3 : addPieces cols ps (o :: os) g = addPieces cols ps os g1 := by
        conv_lhs => unfold addPieces
        rw [e1]
      rw [e3, List.flatten_cons, ← e2]
      exact key
  obtain ⟨h1, h2⟩ := main pieces g hg (by rw [ha]; rfl) hr
    (fun o ho => hfit o (hperm.mem_iff.1 ho)) hps
  exact ⟨h1.trans (C19_order g _ _ hperm (fun o ho => hfit o (hperm.mem_iff.1 ho)) cols false _), h2⟩

/-- A case of the hypotheses: two pieces, shared cell. -/
example : okAnd (Grid.new 1 ⟨false, [5, 5]⟩ ⟨false, [10, 10]⟩ ⟨false, [1, 1]⟩)
    (fun g : Grid ℚ ℚ =>
      let r1 := (g.init.addFromCat (posOf [([3, 3], [2])]) (some (valsOf 1 [([(3 : ℚ), 3], [2])]))
        false (some [0])).1
      let r2 := (r1.addFromCat (posOf [([3, 3], [5])]) (some (valsOf 1 [([(3 : ℚ), 3], [5])]))
        false (some [0])).1
      r2.grid.map (fun b : Arr ℚ => cell b [3, 3] 0) = some 7 ∧ r2.nObj = 2) = true := by
  decide +kernel

/-! ## C20 -/

/-- C20 in full, for positions given as integers or floats. -/
def C20_full (K V : Type) [Field K] [LinearOrder K] [FloorRing K] : Prop :=
  ∀ (g : Grid K V) (a : Arr V) (rows : List (List K)) (ps : List ℕ) (ints : Bool), Regular g →
    g.grid = some a → (∀ r ∈ rows, r.length = g.dim) → (∀ p ∈ ps, p < g.nProps) →
    ∃ out, g.sample { isInt := ints, rows := rows } (some ps) = .ok out ∧
      List.Forall₂ (fun r (o : List (Option V)) =>
        (∀ c, InCell g.axes c r → o = ps.map (fun p => some (cell a c p))) ∧
        (¬ InGrid g.axes r → o = ps.map (fun _ => none))) rows out

omit [AddCommMonoid V] [One V] in
/-- What is proved: float positions. -/
theorem C20_sample_partial (g : Grid K V) (hg : Regular g) (a : Arr V) (ha : g.grid = some a)
    (rows : List (List K)) (ps : List ℕ) (hrow : ∀ r ∈ rows, r.length = g.dim)
    (hps : ∀ p ∈ ps, p < g.nProps) :
    ∃ out, g.sample { rows := rows } (some ps) = .ok out ∧
      List.Forall₂ (fun r (o : List (Option V)) =>
        (∀ c, InCell g.axes c r → o = ps.map (fun p => some (cell a c p))) ∧
        (¬ InGrid g.axes r → o = ps.map (fun _ => none))) rows out := by
  have h3 : ¬ ∃ r ∈ rows, r.length ≠ g.dim := by
    rintro ⟨r, hr, hl⟩; exact hl (hrow r hr)
  unfold Grid.sample
  rw [ha]
  simp only [checkProps_ok g ps hps]
  rw [if_neg (by simp), if_neg h3, if_neg (by simp)]
  refine ⟨_, rfl, ?_⟩
  rw [List.forall₂_map_right_iff, List.forall₂_same]
  intro r _
  rcases hl : locate g.geo r with _ | c
  · refine ⟨?_, fun _ => rfl⟩
    intro c hc
    rw [← locate_cell g hg, hl] at hc
    cases hc
  · refine ⟨?_, ?_⟩
    · intro d hd
      rw [← locate_cell g hg, hl] at hd
      simp only [Option.some.injEq] at hd
      subst hd
      rfl
    · intro h
      exact absurd ⟨c, (locate_cell g hg _ _).1 hl⟩ h

omit [AddCommMonoid V] [One V] in
/-- Where it fails: integer positions are refused. -/
theorem C20_integer_positions_fail (g : Grid K V) (a : Arr V) (ha : g.grid = some a)
    (rows : List (List K)) (ps : List ℕ) (hrow : ∀ r ∈ rows, r.length = g.dim)
    (hps : ∀ p ∈ ps, p < g.nProps) :
    g.sample { isInt := true, rows := rows } (some ps) = .error .typeError := by
  have h3 : ¬ ∃ r ∈ rows, r.length ≠ g.dim := by
    rintro ⟨r, hr, hl⟩; exact hl (hrow r hr)
  unfold Grid.sample
  rw [ha]
  simp only [checkProps_ok g ps hps]
  rw [if_neg (by simp), if_neg h3, if_pos trivial]

/-- Adding one object changes the sample at its position by its value, and no sample in
another cell. -/
theorem C20_sample_after_add (g : Grid K V) (hg : Regular g) (a : Arr V) (ha : g.grid = some a)
    (hr : ∀ f ∈ g.fourier, f = false) (x : List K) (hx : x.length = g.dim) (v : V) (p : ℕ)
    (hp : p < g.nProps) (c : List ℕ) (hc : InCell g.axes c x) :
    ∃ g', g.addFromCat (posOf [(x, [v])]) (some (valsOf 1 [(x, [v])])) false (some [p]) =
        (g', .ok ()) ∧
      g'.sample { rows := [x] } (some [p]) = .ok [[some (cell a c p + v)]] ∧
      ∀ y d, y.length = g.dim → InCell g.axes d y → d ≠ c →
        g'.sample { rows := [y] } (some [p]) = .ok [[some (cell a d p)]] := by
  have hfit : Fits g [(x, [v])] := by
    intro o ho
    simp only [List.mem_singleton] at ho
    subst ho; exact hx
  obtain ⟨g', h1, h2⟩ := C18_cells_partial g hg a ha hr [(x, [v])] hfit 1 [p] (by simp)
    (by simpa using hp) (.inl rfl)
  obtain ⟨b, hb, hs, hv⟩ := h2.values a ha
  have hrest := h2.rest
  have e1 : g'.nPix = g.nPix := by have := congrArg Grid.nPix hrest; exact this
  have e2 : g'.nProps = g.nProps := by have := congrArg Grid.nProps hrest; exact this
  have e3 : g'.axes = g.axes := by have := congrArg Grid.axes hrest; exact this
  have e4 : g'.center = g.center := by have := congrArg Grid.center hrest; exact this
  have hg' : Regular g' := by
    refine regular_add hg (some b) g.nProps g'.nObj g'.gridunits g'.isPow ?_ ?_
    · intro y hy
      simp only [Option.some.injEq] at hy
      subst hy
      rw [hs, hg.data a ha]
    · have : g' = { ({ g' with grid := none, nObj := 0 } : Grid K V) with
          grid := some b, nObj := g'.nObj } := by rw [← hb]
      rw [this, hrest]
  have hd : g'.dim = g.dim := by simp [Grid.dim, e4]
  have samp : ∀ (y : List K) (d : List ℕ), y.length = g.dim → InCell g.axes d y →
      g'.sample { rows := [y] } (some [p]) = .ok [[some (cell b d p)]] := by
    intro y d hy hdy
    obtain ⟨out, o1, o2⟩ := C20_sample_partial g' hg' b hb [y] [p] (by simp [hd, hy])
      (by simp [e2, hp])
    rw [o1]
    cases o2 with
    | cons q1 q2 =>
      cases q2
      rw [q1.1 d (by rw [e3]; exact hdy)]
      rfl
  refine ⟨g', h1, ?_, ?_⟩
  · rw [samp x c hx hc, hv]
    simp [column, cellSum, hc]
  · intro y d hy hdy hne
    have : ¬ InCell g.axes d x := fun h => hne (inCell_unique g hg x d c h hc)
    rw [samp y d hy hdy, hv]
    simp [column, cellSum, this]

omit [One V] in
theorem C20_full_false : ¬ C20_full K V := by
  intro h
  obtain ⟨g, -, hr, -, -, hn, -, -, hd, -, hf⟩ := new_two (K := K) (V := V) 1 [none] rfl
  have hr' : Regular g.init := regular_add hr (some (zeros (g.nPix ++ [g.nProps]))) g.nProps 0
    g.gridunits g.isPow (by rintro x hx; simp only [Option.some.injEq] at hx; subst hx; rfl) rfl
  obtain ⟨out, h1, -⟩ := h g.init _ [[0]] [0] true hr' rfl
    (by simp [show g.init.dim = g.dim from rfl, hd]) (by simp [Grid.init, hn])
  rw [C20_integer_positions_fail g.init _ rfl _ _ (by simp [show g.init.dim = g.dim from rfl, hd])
    (by simp [Grid.init, hn])] at h1
  cases h1

/-- A case of the hypotheses: inside, on an edge, outside. -/
example : okAnd (Grid.new 1 ⟨false, [5, 5]⟩ ⟨false, [10, 10]⟩ ⟨false, [1, 1]⟩)
    (fun g : Grid ℚ ℚ =>
      let g := { g with grid := some ⟨[10, 10, 1], fun i => (i.getD 0 0 : ℚ) + 100 * i.getD 1 0⟩ }
      okAnd (g.sample { rows := [[3, 7 / 2], [0, 0], [10, 1], [-1 / 2, 1]] } none)
        (fun o : List (List (Option ℚ)) => o = [[some 303], [some 0], [none], [none]]) = true)
      = true := by
  decide +kernel

end

end Verif.Map
