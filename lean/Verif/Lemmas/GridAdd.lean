import Verif.Lemmas.GridPad
import Verif.Spec.GridAdd
import Mathlib.Algebra.BigOperators.Group.List.Lemmas
import Mathlib.Tactic.Abel

/-!
# Cells of positions, additions to arrays
-/

set_option linter.unusedSectionVars false

namespace Verif.Map

open Verif.Sim (Err)
open Spec

/-! ## Additions -/

section
variable {V : Type} [AddCommMonoid V]

theorem addAll_shape (a : Arr V) (l : List (List ℕ × V)) : (a.addAll l).shape = a.shape := by
  induction l generalizing a with
  | nil => rfl
  | cons q l ih => rw [show a.addAll (q :: l) = (a.addAt q.1 q.2).addAll l from rfl, ih]; rfl

/-- `np.add.at` adds to each entry the values that name it. -/
theorem addAll_get (a : Arr V) (l : List (List ℕ × V)) (j : List ℕ) :
    (a.addAll l).get j = a.get j + ((l.filter (fun q => q.1 = j)).map (·.2)).sum := by
  induction l generalizing a with
  | nil => simp [Arr.addAll]
  | cons q l ih =>
    rw [show a.addAll (q :: l) = (a.addAt q.1 q.2).addAll l from rfl, ih]
    by_cases h : q.1 = j
    · simp [Arr.addAt, h, add_assoc]
    · have h' : ¬ j = q.1 := fun e => h e.symm
      simp [Arr.addAt, h, h']

theorem Arr.ext' {a b : Arr V} (h1 : a.shape = b.shape) (h2 : ∀ j, a.get j = b.get j) : a = b := by
  cases a; cases b
  simp only at h1 h2
  subst h1
  congr
  funext j; exact h2 j

theorem addAll_append (a : Arr V) (l m : List (List ℕ × V)) :
    a.addAll (l ++ m) = (a.addAll l).addAll m := by
  simp [Arr.addAll]

theorem addAll_perm (a : Arr V) (l m : List (List ℕ × V)) (h : l.Perm m) :
    a.addAll l = a.addAll m := by
  apply Arr.ext'
  · rw [addAll_shape, addAll_shape]
  · intro j
    rw [addAll_get, addAll_get]
    exact congrArg _ ((h.filter _).map _).sum_eq

theorem addAll_comm (a : Arr V) (l m : List (List ℕ × V)) :
    (a.addAll l).addAll m = (a.addAll m).addAll l := by
  rw [← addAll_append, ← addAll_append]
  exact addAll_perm _ _ _ List.perm_append_comm

end

/-! ## Cells -/

section
variable {K : Type} [Field K] [LinearOrder K] [IsStrictOrderedRing K] [FloorRing K]

/-- The description used to find cells and the cell edges belong to the same axis. -/
def AxisFits (q : K × K × K × ℕ) (e : List K) : Prop :=
  0 < q.2.2.1 ∧ q.2.1 = q.2.2.2 * q.2.2.1 ∧ e = edges q.2.2.2 q.2.2.1 q.1

theorem edges_get (n : ℕ) (w c : K) (j : ℕ) :
    (edges n w c)[j]? = if j ≤ n then some (c - n * w / 2 + j * w) else none := by
  unfold edges
  rw [List.getElem?_map]
  split
  · rw [List.getElem?_range (by omega)]; rfl
  · rw [List.getElem?_eq_none (by simp; omega)]; rfl

theorem floor_edges (n : ℕ) (w c x : K) (hw : 0 < w) (i : ℕ) :
    ⌊(x - c + n * w / 2) / w⌋ = (i : ℤ) ∧ i < n ↔
      ∃ lo ∈ (edges n w c)[i]?, ∃ hi ∈ (edges n w c)[i + 1]?, lo ≤ x ∧ x < hi := by
  have hq : (⌊(x - c + n * w / 2) / w⌋ = (i : ℤ)) ↔
      c - n * w / 2 + i * w ≤ x ∧ x < c - n * w / 2 + (i + 1 : ℕ) * w := by
    rw [Int.floor_eq_iff, le_div_iff₀ hw, div_lt_iff₀ hw]
    push_cast
    constructor <;> rintro ⟨h1, h2⟩ <;> constructor <;> linarith
  rw [hq]
  rw [edges_get, edges_get]
  constructor
  · rintro ⟨h1, h2⟩
    rw [if_pos (by omega), if_pos (by omega)]
    exact ⟨_, rfl, _, rfl, h1⟩
  · rintro ⟨lo, h1, hi, h2, h3⟩
    have hi' : i + 1 ≤ n := by
      by_contra hn
      rw [if_neg hn] at h2
      cases h2
    rw [if_pos (by omega)] at h1 h2
    simp only [Option.mem_def, Option.some.injEq] at h1 h2
    subst h1 h2
    exact ⟨h3, by omega⟩

theorem locate_iff (geo : List (K × K × K × ℕ)) (axes : List (List K))
    (h : List.Forall₂ AxisFits geo axes) (row : List K) (c : List ℕ) :
    locate geo row = some c ↔ InCell axes c row := by
  induction h generalizing row c with
  | nil =>
    cases row with
    | nil =>
      cases c with
      | nil => simp [locate, InCell]
      | cons => simp [locate, InCell]
    | cons =>
      cases c with
      | nil => simp [locate, InCell]
      | cons => simp [locate, InCell]
  | @cons q e geo axes hq _ ih =>
    obtain ⟨cc, s, w, n⟩ := q
    obtain ⟨hw, hs, he⟩ := hq
    simp only at hw hs he
    subst hs he
    cases row with
    | nil =>
      cases c with
      | nil => simp [locate, InCell]
      | cons => simp [locate, InCell]
    | cons x row =>
      cases c with
      | nil =>
        simp only [locate, InCell, iff_false]
        split
        · simp
        · simp
      | cons i c =>
        simp only [locate, InCell]
        rw [← ih, ← floor_edges n w cc x hw i]
        set j := ⌊(x - cc + n * w / 2) / w⌋ with hj
        by_cases h : 0 ≤ j ∧ j < n
        · rw [if_pos h]
          simp only [Option.map_eq_some_iff, List.cons.injEq]
          constructor
          · rintro ⟨r, h1, h2, rfl⟩
            exact ⟨⟨by omega, by omega⟩, h1⟩
          · rintro ⟨⟨h1, h2⟩, h3⟩
            exact ⟨c, h3, by omega, rfl⟩
        · rw [if_neg h]
          simp only [reduceCtorEq, false_iff, not_and]
          rintro ⟨h1, h2⟩
          omega

theorem locate_valid (geo : List (K × K × K × ℕ)) (row : List K) (c : List ℕ)
    (h : locate geo row = some c) : Valid (geo.map (·.2.2.2)) c := by
  induction geo generalizing row c with
  | nil =>
    cases row with
    | nil => simp [locate] at h; subst h; exact valid_nil
    | cons => simp [locate] at h
  | cons q geo ih =>
    obtain ⟨cc, s, w, n⟩ := q
    cases row with
    | nil => simp [locate] at h
    | cons x row =>
      simp only [locate] at h
      split at h
      · rename_i hj
        simp only [Option.map_eq_some_iff] at h
        obtain ⟨r, h1, rfl⟩ := h
        rw [List.map_cons, valid_cons]
        exact ⟨by simp only; omega, ih row r h1⟩
      · cases h

variable {V : Type}

theorem geo_get (g : Grid K V) (i n : ℕ) (w c : K) (h : AxisIs g i n w c) :
    g.geo[i]? = some (c, n * w, w, n) := by
  unfold Grid.geo
  simp [List.getElem?_zip_eq_some, h.center, h.side, h.pix, h.nPix]

theorem geo_length (g : Grid K V) (hg : Regular g) : g.geo.length = g.dim := by
  unfold Grid.geo
  simp [hg.side, hg.pix, hg.nPix]
  rfl

theorem forall₂_of_get {α β : Type} (R : α → β → Prop) (l : List α) (m : List β)
    (hl : l.length = m.length) (h : ∀ (i : ℕ) a b, l[i]? = some a → m[i]? = some b → R a b) :
    List.Forall₂ R l m := by
  induction l generalizing m with
  | nil => rw [List.length_nil, eq_comm, List.length_eq_zero_iff] at hl; subst hl; exact .nil
  | cons a l ih =>
    cases m with
    | nil => simp at hl
    | cons b m =>
      refine .cons (h 0 a b rfl rfl) (ih m (by simpa using hl) ?_)
      intro i x y hx hy
      exact h (i + 1) x y (by simpa using hx) (by simpa using hy)

theorem geo_fits (g : Grid K V) (hg : Regular g) : List.Forall₂ AxisFits g.geo g.axes := by
  apply forall₂_of_get
  · rw [geo_length g hg, hg.axes]
  · intro i q e hq he
    have hi : i < g.dim := by rw [← hg.axes]; exact (List.getElem?_eq_some_iff.1 he).1
    obtain ⟨n, w, c, h1, h2, a⟩ := hg.axis i hi
    rw [geo_get g i n w c a] at hq
    rw [a.axes] at he
    simp only [Option.some.injEq] at hq he
    subst hq he
    exact ⟨h2, rfl, rfl⟩

theorem geo_nPix (g : Grid K V) (hg : Regular g) : g.geo.map (·.2.2.2) = g.nPix := by
  apply List.ext_getElem?
  intro i
  by_cases hi : i < g.dim
  · obtain ⟨n, w, c, h1, h2, a⟩ := hg.axis i hi
    rw [List.getElem?_map, geo_get g i n w c a, a.nPix]; rfl
  · rw [List.getElem?_eq_none (by rw [List.length_map, geo_length g hg]; omega),
      List.getElem?_eq_none (by rw [hg.nPix]; omega)]

/-- The cell found for a position is the one whose edges surround it. -/
theorem locate_cell (g : Grid K V) (hg : Regular g) (row : List K) (c : List ℕ) :
    locate g.geo row = some c ↔ InCell g.axes c row :=
  locate_iff _ _ (geo_fits g hg) row c

theorem inCell_valid (g : Grid K V) (hg : Regular g) (row : List K) (c : List ℕ)
    (h : InCell g.axes c row) : Valid g.nPix c := by
  rw [← geo_nPix g hg]
  exact locate_valid _ row c ((locate_cell g hg row c).2 h)

/-- A position is in at most one cell. -/
theorem inCell_unique (g : Grid K V) (hg : Regular g) (row : List K) (c d : List ℕ)
    (h : InCell g.axes c row) (k : InCell g.axes d row) : c = d := by
  rw [← locate_cell g hg] at h k
  rw [h] at k
  exact Option.some.inj k

/-! ## Without one axis -/

theorem forall₂_erase {α β : Type} {R : α → β → Prop} {l : List α} {m : List β}
    (h : List.Forall₂ R l m) (i : ℕ) : List.Forall₂ R (l.eraseIdx i) (m.eraseIdx i) := by
  induction h generalizing i with
  | nil => exact .nil
  | cons h hs ih =>
    cases i with
    | zero => exact hs
    | succ i => exact .cons h (ih i)

theorem locate_cell_erase (g : Grid K V) (hg : Regular g) (ax : ℕ) (row : List K) (c : List ℕ) :
    locate (g.geo.eraseIdx ax) row = some c ↔ InCell (g.axes.eraseIdx ax) c row :=
  locate_iff _ _ (forall₂_erase (geo_fits g hg) ax) row c

/-! ## The objects that are kept -/

theorem keep_append {α : Type} (geo : List (K × K × K × ℕ)) (r1 r2 : List (List K)) (v1 v2 : List α)
    (h : r1.length = v1.length) :
    keep geo (r1 ++ r2) (v1 ++ v2) = keep geo r1 v1 ++ keep geo r2 v2 := by
  unfold keep
  rw [List.zip_append h, List.filterMap_append]

theorem keep_objs {α : Type} (geo : List (K × K × K × ℕ)) (objs : List (List K × α)) :
    keep geo (objs.map (·.1)) (objs.map (·.2)) =
      objs.filterMap (fun o => (locate geo o.1).map (fun c => (c, o.2))) := by
  unfold keep
  have : (objs.map (·.1)).zip (objs.map (·.2)) = objs := by
    induction objs with
    | nil => rfl
    | cons o objs ih => simp [ih]
  rw [this]

variable [AddCommMonoid V]

/-- The additions made for one property, entry by entry. -/
theorem keep_sum {α : Type} (geo : List (K × K × K × ℕ)) (axes : List (List K))
    (hf : List.Forall₂ AxisFits geo axes) (objs : List (List K × α)) (f : α → V) (c : List ℕ) :
    ((((objs.filterMap (fun o => (locate geo o.1).map (fun c => (c, o.2)))).filter
      (fun q => q.1 = c)).map (fun q => f q.2)).sum) =
      cellSum axes c (objs.map (fun o => (o.1, f o.2))) := by
  unfold cellSum
  induction objs with
  | nil => rfl
  | cons o objs ih =>
    rw [List.map_cons, List.filter_cons]
    rcases hl : locate geo o.1 with _ | d
    · have hn : ¬ InCell axes c o.1 := by
        rw [← locate_iff geo axes hf, hl]; simp
      simp only [List.filterMap_cons, hl, Option.map_none, hn, decide_false]
      simpa using ih
    · by_cases hd : d = c
      · subst hd
        have hy : InCell axes d o.1 := (locate_iff geo axes hf _ _).1 hl
        simp only [List.filterMap_cons, hl, Option.map_some, hy, decide_true]
        simp only [List.filter_cons, decide_true, if_true, List.map_cons, List.sum_cons]
        rw [ih]
      · have hn : ¬ InCell axes c o.1 := by
          rw [← locate_iff geo axes hf, hl]; simpa using hd
        simp only [List.filterMap_cons, hl, Option.map_some, hn, decide_false]
        simp only [List.filter_cons, hd, decide_false]
        simpa using ih

end

/-! ## All cells -/

theorem mem_allCells (shape c : List ℕ) : c ∈ allCells shape ↔ Valid shape c := by
  induction shape generalizing c with
  | nil =>
    simp only [allCells, List.mem_singleton]
    constructor
    · rintro rfl; exact valid_nil
    · intro h; exact List.eq_nil_of_length_eq_zero h.length
  | cons n shape ih =>
    simp only [allCells, List.mem_flatMap, List.mem_map, List.mem_range]
    constructor
    · rintro ⟨i, hi, d, hd, rfl⟩
      exact valid_cons.2 ⟨hi, (ih d).1 hd⟩
    · intro h
      cases c with
      | nil => have := h.length; simp at this
      | cons i d =>
        obtain ⟨h1, h2⟩ := valid_cons.1 h
        exact ⟨i, h1, d, (ih d).2 h2, rfl⟩

theorem allCells_nodup (shape : List ℕ) : (allCells shape).Nodup := by
  induction shape with
  | nil => simp [allCells]
  | cons n shape ih =>
    unfold allCells
    rw [List.nodup_flatMap]
    refine ⟨fun i _ => ih.map (fun a b h => by simpa using h), ?_⟩
    refine List.nodup_range.imp ?_
    intro i j hij c h1 h2
    simp only [List.mem_map] at h1 h2
    obtain ⟨d, -, rfl⟩ := h1
    obtain ⟨e, -, h⟩ := h2
    simp at h
    exact hij h.1.symm

theorem sum_map_add' {α V : Type} [AddCommMonoid V] (l : List α) (f g : α → V) :
    (l.map (fun x => f x + g x)).sum = (l.map f).sum + (l.map g).sum := by
  induction l with
  | nil => simp
  | cons a l ih => simp only [List.map_cons, List.sum_cons, ih]; exact add_add_add_comm ..

theorem sum_map_single {α V : Type} [AddCommMonoid V] [DecidableEq α] (l : List α) (hl : l.Nodup)
    (x : α) (v : V) : (l.map (fun y => if y = x then v else 0)).sum = if x ∈ l then v else 0 := by
  induction l with
  | nil => simp
  | cons a l ih =>
    rw [List.nodup_cons] at hl
    rw [List.map_cons, List.sum_cons, ih hl.2]
    by_cases h : a = x
    · subst h; simp [hl.1]
    · have : ¬ x = a := fun e => h e.symm
      simp [h, this]

end Verif.Map
