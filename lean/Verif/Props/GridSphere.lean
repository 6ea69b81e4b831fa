import Verif.Lemmas.GridSphere
import Verif.Props.GridFT

/-!
# C26, C65: spherical averages
-/

set_option linter.unusedSectionVars false

namespace Verif.Map

open Verif.Sim (Err)
open Spec

variable {K V : Type}

section
variable [Field K] [LinearOrder K] [IsStrictOrderedRing K] [FloorRing K] [AddCommGroup V]
  [Module K V]

/-- The coordinates of the space in which the axes `ax` are. -/
def coordsOf (g : Grid K V) (ax : List ℕ) : List (List K) :=
  if ∀ i ∈ ax, g.fourier.getD i false = true then g.fcenters else g.centers

/-- The centre used: the one given, or the centre of the grid (zero in Fourier space). -/
def centerOf (g : Grid K V) (ax : List ℕ) (center : Option (List K)) : List K :=
  center.getD (if ∀ i ∈ ax, g.fourier.getD i false = true then List.replicate g.dim 0
    else g.center.vals)

/-- The entry of the data as it is averaged: complex numbers only for Fourier transforms. -/
def asData (g : Grid K V) (ax : List ℕ) (drop : V → V) (x : V) : V :=
  if (∀ i ∈ ax, g.fourier.getD i false = true) ∧ g.isPow = false then x else drop x

/-- The weight of property `p` of cell `c`: weights are given for the cells, or for each property
of each cell, or not at all. -/
def weightOf (w : Option (Arr K)) (g : Grid K V) (c : List ℕ) (p : ℕ) : K :=
  match w with
  | none => 1
  | some w => if w.shape = g.nPix then w.get c else w.get (c ++ [p])

/-- The weights that can be given. -/
def WeightShape (w : Option (Arr K)) (g : Grid K V) : Prop :=
  ∀ x, w = some x → x.shape = g.nPix ∨ x.shape = g.nPix ++ [g.nProps]

/-- Valid axes, all of them in the same space. -/
def SphereAxes (g : Grid K V) (ax : List ℕ) : Prop :=
  (∀ i ∈ ax, i < g.dim) ∧ ((∀ i ∈ ax, g.fourier.getD i false = true) ∨
    ∀ i ∈ ax, g.fourier.getD i false = false)

theorem radius_concat (root : K → K) (coords : List (List K)) (center : List K) (ax c : List ℕ)
    (p : ℕ) (h : ∀ i ∈ ax, i < c.length) :
    radius root coords center ax (c ++ [p]) = root (sqDist coords center ax c) := by
  unfold radius sqDist
  congr 2
  apply List.map_congr_left
  intro k hk
  have : (c ++ [p]).getD k 0 = c.getD k 0 := by
    rw [List.getD_eq_getElem?_getD, List.getD_eq_getElem?_getD, List.getElem?_append_left (h k hk)]
  rw [this]

/-- The entries of the data that are added to one entry of the result. -/
theorem sphere_filter {β : Type} (s : List ℕ) (m : ℕ) (ax : List ℕ) (bin d : List ℕ → ℕ)
    (n k p : ℕ) (r : List ℕ) (hp : p < m) (hb : ∀ i, Valid (s ++ [m]) i → bin i = d i.dropLast)
    (f : List ℕ → β) :
    ((((indices (s ++ [m])).filter (fun i => decide (0 < bin i ∧ bin i + 1 < n))).map
        (fun i => (sphereCoords ax (bin i - 1) i, f i))).filter
        (fun q => decide (q.1 = k :: r ++ [p]))).map (·.2) =
      ((allCells s).filter (fun c => decide ((0 < d c ∧ d c + 1 < n ∧ d c - 1 = k) ∧
        rest ax c = r))).map (fun c => f (c ++ [p])) := by
  rw [List.filter_map, List.map_map, List.filter_filter, indices_eq]
  have f1 : (allCells (s ++ [m])).filter (fun i =>
      ((fun q : List ℕ × β => decide (q.1 = k :: r ++ [p])) ∘
        (fun i => (sphereCoords ax (bin i - 1) i, f i))) i &&
        decide (0 < bin i ∧ bin i + 1 < n)) =
      (allCells (s ++ [m])).filter (fun i => decide (((0 < d i.dropLast ∧ d i.dropLast + 1 < n ∧
        d i.dropLast - 1 = k) ∧ rest ax i.dropLast = r) ∧ i.getLastD 0 = p)) := by
    apply List.filter_congr
    intro i hi
    rw [Function.comp_apply, ← Bool.decide_and]
    apply decide_eq_decide.2
    simp only
    rw [hb i ((mem_allCells _ _).1 hi)]
    unfold sphereCoords
    rw [List.cons_append, List.cons_append, List.cons.injEq, List.append_singleton_inj, keepAxes_eq]
    tauto
  rw [f1, filter_snoc s m p hp (fun c => (0 < d c ∧ d c + 1 < n ∧ d c - 1 = k) ∧ rest ax c = r),
    List.map_map]
  rfl

/-- What a call returns. -/
theorem sphere_ok (g : Grid K V) (hg : Regular g) (a : Arr V) (ha : g.grid = some a)
    (root : K → K) (drop : V → V) (axes : Option (List ℕ)) (center : Option (List K))
    (sh : Shells K) (w : Option (Arr K)) (r : Average K V)
    (h : g.sphericalAverage root drop axes center sh w = .ok r) :
    SphereAxes g (axes.getD (List.range g.dim)) ∧
    (∀ c, center = some c → c.length = g.dim) ∧
    r.others = rest (axes.getD (List.range g.dim)) (coordsOf g (axes.getD (List.range g.dim))) ∧
    ∃ wt, sphereWeights a.shape w = .ok wt ∧
      shellEdges ((allCells (g.nPix ++ [g.nProps])).map (radius root
        (coordsOf g (axes.getD (List.range g.dim)))
        (centerOf g (axes.getD (List.range g.dim)) center) (axes.getD (List.range g.dim)))) sh =
        .ok r.shells ∧
      r = sphereSums g a (axes.getD (List.range g.dim))
        (asData g (axes.getD (List.range g.dim)) drop) wt r.shells r.others
        (fun i => digitize r.shells (radius root (coordsOf g (axes.getD (List.range g.dim)))
        (centerOf g (axes.getD (List.range g.dim)) center) (axes.getD (List.range g.dim)) i)) := by
  unfold Grid.sphericalAverage at h
  rw [ha] at h
  simp only at h
  generalize axes.getD (List.range g.dim) = ax at h ⊢
  by_cases h1 : ∃ i ∈ ax, g.dim ≤ i
  · rw [if_pos h1] at h; cases h
  rw [if_neg h1] at h
  by_cases h2 : (∃ i ∈ ax, g.fourier.getD i false = false) ∧ ∃ i ∈ ax, g.fourier.getD i false = true
  · rw [if_pos h2] at h; cases h
  rw [if_neg h2] at h
  have e1 : (if decide (∀ i ∈ ax, g.fourier.getD i false = true) = true then g.fcenters
      else g.centers) = coordsOf g ax := by
    unfold coordsOf
    by_cases hf : ∀ i ∈ ax, g.fourier.getD i false = true
    · rw [if_pos hf, if_pos (by simpa using hf)]
    · rw [if_neg hf, if_neg (by simpa using hf)]
  have e2 : (if (decide (∀ i ∈ ax, g.fourier.getD i false = true) && !g.isPow) = true then id
      else drop) = asData g ax drop := by
    funext x
    unfold asData
    by_cases hf : ∀ i ∈ ax, g.fourier.getD i false = true
    · cases hp : g.isPow
      · rw [if_pos (by simpa [hp] using hf), if_pos ⟨hf, rfl⟩]; rfl
      · rw [if_neg (by simp), if_neg (by simp)]
    · rw [if_neg (by
        intro hc
        rw [Bool.and_eq_true, decide_eq_true_iff] at hc
        exact hf hc.1), if_neg (fun hc => hf hc.1)]
  rw [e1, e2] at h
  rcases h3 : sphereCenter g (decide (∀ i ∈ ax, g.fourier.getD i false = true)) center with e | c
  · rw [h3] at h; cases h
  rw [h3] at h
  simp only at h
  have e3 : c = centerOf g ax center ∧ (∀ c, center = some c → c.length = g.dim) := by
    unfold sphereCenter at h3
    unfold centerOf
    cases center with
    | none =>
      simp only [Except.ok.injEq] at h3
      refine ⟨?_, by simp⟩
      rw [← h3]
      simp only [Option.getD_none]
      by_cases hf : ∀ i ∈ ax, g.fourier.getD i false = true
      · rw [if_pos hf, if_pos (by simpa using hf)]
      · rw [if_neg hf, if_neg (by simpa using hf)]
    | some c' =>
      simp only at h3
      by_cases hl : c'.length = g.dim
      · rw [if_pos hl] at h3
        simp only [Except.ok.injEq] at h3
        subst h3
        refine ⟨rfl, ?_⟩
        intro x hx
        rw [← Option.some.inj hx]
        exact hl
      · rw [if_neg hl] at h3; cases h3
  rw [e3.1] at h
  rcases h4 : sphereWeights a.shape w with e | wt
  · rw [h4] at h; cases h
  rw [h4] at h
  simp only at h
  rw [indices_eq, hg.data a ha] at h
  rcases h5 : shellEdges ((allCells (g.nPix ++ [g.nProps])).map (radius root (coordsOf g ax)
    (centerOf g ax center) ax)) sh with e | s
  · rw [h5] at h; cases h
  rw [h5] at h
  simp only [Except.ok.injEq] at h
  rw [keepAxes_eq] at h
  have hs : r.shells = s := by rw [← h]; rfl
  have ho : r.others = rest ax (coordsOf g ax) := by rw [← h]; rfl
  refine ⟨⟨?_, ?_⟩, e3.2, ho, wt, rfl, by rw [hs], ?_⟩
  · intro i hi
    by_contra hc
    exact h1 ⟨i, hi, by omega⟩
  · by_cases hf : ∀ i ∈ ax, g.fourier.getD i false = true
    · exact .inl hf
    · right
      intro i hi
      by_contra hc
      apply h2
      push Not at hf
      obtain ⟨j, hj, hjf⟩ := hf
      exact ⟨⟨j, hj, by simpa using hjf⟩, ⟨i, hi, by simpa using hc⟩⟩
  · rw [hs, ho]; exact h.symm

/-- The weight of an entry of the data. -/
theorem weight_ok (g : Grid K V) (a : Arr V) (ha : a.shape = g.nPix ++ [g.nProps])
    (w : Option (Arr K)) (hw : WeightShape w g) :
    ∃ wt, sphereWeights a.shape w = .ok wt ∧
      ∀ c p, Valid g.nPix c → p < g.nProps → wt (c ++ [p]) = weightOf w g c p := by
  unfold sphereWeights
  cases w with
  | none => exact ⟨_, rfl, fun _ _ _ _ => rfl⟩
  | some x =>
    simp only
    rcases hw x rfl with hx | hx
    · refine ⟨fun i => x.get (bindex x.shape i), ?_, ?_⟩
      · rw [if_neg (by rw [ha, hx]; simp), if_neg]
        rintro ⟨⟨u, v⟩, hp, h1, -⟩
        obtain ⟨i, hi⟩ := List.mem_iff_getElem?.1 hp
        rw [List.getElem?_zip_eq_some] at hi
        obtain ⟨a1, a2⟩ := hi
        simp only at a1 a2 h1
        rw [hx] at a1
        rw [ha, List.getElem?_append_left ((List.getElem?_eq_some_iff.1 a1).1), a1] at a2
        exact h1 (Option.some.inj a2)
      · intro c p hc hp
        simp only [weightOf, hx, if_true]
        congr 1
        have : bindex g.nPix (c ++ [p]) = bindex g.nPix c := by
          unfold bindex
          have hl := Valid.length hc
          have := List.zipWith_append (f := fun n j => if n = 1 then 0 else j) (l₁ := g.nPix)
            (l₂ := c) (l₁' := []) (l₂' := [p]) hl.symm
          simpa using this
        rw [this, bindex_self _ _ hc]
    · refine ⟨fun i => x.get (bindex x.shape i), ?_, ?_⟩
      · rw [if_neg (by rw [ha, hx]; simp), if_neg]
        rintro ⟨⟨u, v⟩, hp, h1, -⟩
        obtain ⟨i, hi⟩ := List.mem_iff_getElem?.1 hp
        rw [List.getElem?_zip_eq_some] at hi
        obtain ⟨a1, a2⟩ := hi
        simp only at a1 a2 h1
        rw [hx] at a1
        rw [ha, a1] at a2
        exact h1 (Option.some.inj a2)
      · intro c p hc hp
        have hne : ¬ x.shape = g.nPix := by
          rw [hx]
          intro e
          have := congrArg List.length e
          simp at this
        simp only [weightOf, hne, if_false]
        rw [hx, bindex_self _ _ (valid_concat.2 ⟨hc, hp⟩)]

/-! ## C26 -/

/-- **C26, partial**: every shell but the last holds the weighted mean of exactly the cells whose distance
lies in it (for each property, and each position along the other axes), if the weights are integers
(for instance none given); `none` (not a number) if the weights add up to zero.  The number of cells
is returned as `count`. -/
theorem C26_value_partial (g : Grid K V) (hg : Regular g) (a : Arr V) (ha : g.grid = some a)
    (root : K → K) (drop : V → V) (axes : Option (List ℕ)) (center : Option (List K))
    (sh : Shells K) (w : Option (Arr K)) (hw : WeightShape w g)
    (hint : ∀ c p, Valid g.nPix c → p < g.nProps → ∃ z : ℤ, weightOf w g c p = z)
    (r : Average K V) (h : g.sphericalAverage root drop axes center sh w = .ok r)
    (hs : r.shells.Pairwise (· < ·)) (k p : ℕ) (c : List ℕ) (hk : k + 2 < r.shells.length)
    (hp : p < g.nProps) :
    ∃ (ax : List ℕ) (m : List (List ℕ)), ax = axes.getD (List.range g.dim) ∧
      m = members g.nPix root (coordsOf g ax) (centerOf g ax center) ax r.shells k c ∧
      r.count.get (k :: c ++ [p]) = m.length ∧
      r.avg.get (k :: c ++ [p]) =
        if (m.map (fun d => weightOf w g d p)).sum = 0 then none
        else some ((m.map (fun d => weightOf w g d p)).sum⁻¹ •
          (m.map (fun d => asData g ax drop (weightOf w g d p • cell a d p))).sum) := by
  obtain ⟨⟨h1, -⟩, -, -, wt, h4, -, h6⟩ := sphere_ok g hg a ha root drop axes center sh w r h
  refine ⟨axes.getD (List.range g.dim), _, rfl, rfl, ?_⟩
  generalize axes.getD (List.range g.dim) = ax at *
  obtain ⟨wt', hwt1, hwt2⟩ := weight_ok g a (hg.data a ha) w hw
  have : wt' = wt := by rw [h4] at hwt1; exact (Except.ok.inj hwt1).symm
  subst this
  set m := members g.nPix root (coordsOf g ax) (centerOf g ax center) ax r.shells k c with hm
  have hmv : ∀ d ∈ m, Valid g.nPix d := by
    intro d hd
    exact (mem_allCells _ _).1 (List.mem_of_mem_filter hd)
  have key : ∀ {β : Type} (f : List ℕ → β), ((((indices a.shape).filter (fun i => decide
      (0 < digitize r.shells (radius root (coordsOf g ax) (centerOf g ax center) ax i) ∧
        digitize r.shells (radius root (coordsOf g ax) (centerOf g ax center) ax i) + 1 <
          r.shells.length))).map
        (fun i => (sphereCoords ax (digitize r.shells (radius root (coordsOf g ax)
          (centerOf g ax center) ax i) - 1) i, f i))).filter
        (fun q => decide (q.1 = k :: c ++ [p]))).map (·.2) = m.map (fun d => f (d ++ [p])) := by
    intro β f
    rw [hg.data a ha, sphere_filter g.nPix g.nProps ax _
      (fun d => digitize r.shells (root (sqDist (coordsOf g ax) (centerOf g ax center) ax d)))
      r.shells.length k p c hp ?_ f]
    · congr 1
      rw [hm]
      unfold members
      apply List.filter_congr
      intro d _
      apply decide_eq_decide.2
      rw [← digitize_iff r.shells hs _ k (by omega)]
      constructor
      · rintro ⟨⟨q1, q2, q3⟩, q4⟩
        exact ⟨by omega, q4⟩
      · rintro ⟨q1, q2⟩
        exact ⟨⟨by omega, by omega, by omega⟩, q2⟩
    · intro i hi
      obtain ⟨d, q, rfl, hd, hq⟩ := valid_split hi
      rw [List.dropLast_concat]
      congr 1
      apply radius_concat
      intro i hi
      have := Valid.length hd
      rw [this, hg.nPix]
      exact h1 i hi
  have hint' : ∀ i, Valid (g.nPix ++ [g.nProps]) i → ∃ z : ℤ, wt' i = z := by
    intro i hi
    obtain ⟨d, q, rfl, hd, hq⟩ := valid_split hi
    rw [hwt2 d q hd hq]
    exact hint d q hd hq
  rw [h6]
  unfold sphereSums
  simp only
  rw [addTrunc_int _ _ (fun j => ⟨0, by simp [zeros]⟩) (by
    intro q hq
    obtain ⟨i, hi, rfl⟩ := List.mem_map.1 hq
    have := List.mem_of_mem_filter hi
    rw [indices_eq, hg.data a ha] at this
    exact hint' i ((mem_allCells _ _).1 this))]
  simp only [addAll_get]
  rw [show (zeros ((r.shells.length - 1) :: keepAxes ax g.nPix ++ [g.nProps]) : Arr K).get
    (k :: c ++ [p]) = 0 from rfl, show (zeros ((r.shells.length - 1) :: keepAxes ax g.nPix ++
    [g.nProps]) : Arr V).get (k :: c ++ [p]) = 0 from rfl,
    show (zeros ((r.shells.length - 1) :: keepAxes ax g.nPix ++ [g.nProps]) : Arr ℕ).get
    (k :: c ++ [p]) = 0 from rfl, zero_add, zero_add, zero_add]
  have k1 := key (fun _ => 1)
  have k2 := key wt'
  have k3 := key (fun i => asData g ax drop (wt' i • a.get i))
  have w2 : m.map (fun d => wt' (d ++ [p])) = m.map (fun d => weightOf w g d p) := by
    apply List.map_congr_left
    intro d hd
    exact hwt2 d p (hmv d hd) hp
  have w3 : m.map (fun d => asData g ax drop (wt' (d ++ [p]) • a.get (d ++ [p]))) =
      m.map (fun d => asData g ax drop (weightOf w g d p • cell a d p)) := by
    apply List.map_congr_left
    intro d hd
    rw [hwt2 d p (hmv d hd) hp]
    rfl
  rw [w2] at k2
  rw [w3] at k3
  rw [k1, k2, k3]
  exact ⟨by simp, rfl⟩

theorem addTrunc_other (a : Arr K) (l : List (List ℕ × K)) (j : List ℕ) (h : ∀ q ∈ l, q.1 ≠ j) :
    (addTrunc a l).get j = a.get j := by
  induction l generalizing a with
  | nil => rfl
  | cons q l ih =>
    show (addTrunc (⟨a.shape, fun j => if j = q.1 then trunc (a.get j + q.2) else a.get j⟩ : Arr K)
      l).get j = _
    rw [ih _ (fun x hx => h x (List.mem_cons_of_mem _ hx))]
    have : ¬ j = q.1 := fun e => h q (List.mem_cons_self ..) e.symm
    simp only [this, if_false]

/-- **The last shell is always lost**, for every map, shells, weights and centre: no cell is counted
in it and its average is not a number. -/
theorem C26_last_shell_lost (g : Grid K V) (hg : Regular g) (a : Arr V) (ha : g.grid = some a)
    (root : K → K) (drop : V → V) (axes : Option (List ℕ)) (center : Option (List K))
    (sh : Shells K) (w : Option (Arr K)) (r : Average K V)
    (h : g.sphericalAverage root drop axes center sh w = .ok r) (k : ℕ) (c : List ℕ)
    (hk : k + 2 = r.shells.length) :
    r.count.get (k :: c) = 0 ∧ r.avg.get (k :: c) = none := by
  obtain ⟨-, -, -, wt, h4, -, h6⟩ := sphere_ok g hg a ha root drop axes center sh w r h
  generalize axes.getD (List.range g.dim) = ax at *
  have hne : ∀ {β : Type} (f : List ℕ → β) (bin : List ℕ → ℕ),
      ∀ q ∈ ((indices a.shape).filter (fun i => decide (0 < bin i ∧ bin i + 1 < r.shells.length))).map
        (fun i => (sphereCoords ax (bin i - 1) i, f i)), q.1 ≠ k :: c := by
    intro β f bin q hq
    obtain ⟨i, hi, rfl⟩ := List.mem_map.1 hq
    have := (List.mem_filter.1 hi).2
    rw [decide_eq_true_iff] at this
    intro e
    unfold sphereCoords at e
    rw [List.cons_append, List.cons.injEq] at e
    omega
  rw [h6]
  unfold sphereSums
  simp only
  rw [addTrunc_other _ _ _ (hne wt _), addAll_get]
  constructor
  · have : ∀ (l : List (List ℕ × ℕ)), (∀ q ∈ l, q.1 ≠ k :: c) →
        l.filter (fun q => decide (q.1 = k :: c)) = [] := by
      intro l hl
      rw [List.filter_eq_nil_iff]
      intro q hq
      simpa using hl q hq
    rw [this _ (hne (fun _ => 1) _)]
    rfl
  · exact if_pos rfl

/-- With a single shell nothing is averaged at all. -/
theorem C26_one_shell_empty (g : Grid K V) (hg : Regular g) (a : Arr V) (ha : g.grid = some a)
    (root : K → K) (drop : V → V) (axes : Option (List ℕ)) (center : Option (List K))
    (w : Option (Arr K)) (r : Average K V)
    (h : g.sphericalAverage root drop axes center (.auto 1) w = .ok r) (c : List ℕ) :
    r.avg.get (0 :: c) = none := by
  obtain ⟨-, -, -, wt, h4, h5, h6⟩ := sphere_ok g hg a ha root drop axes center (.auto 1) w r h
  refine (C26_last_shell_lost g hg a ha root drop axes center (.auto 1) w r h 0 c ?_).2
  unfold shellEdges at h5
  simp only at h5
  split at h5
  · simp only [Nat.lt_irrefl, if_false, Except.ok.injEq] at h5
    rw [← h5]
    simp
  · cases h5

/-- **Weights below one are lost**: if all weights are at least 0 and below 1, no average is a
number. -/
theorem C26_small_weights_lost (g : Grid K V) (hg : Regular g) (a : Arr V) (ha : g.grid = some a)
    (root : K → K) (drop : V → V) (axes : Option (List ℕ)) (center : Option (List K))
    (sh : Shells K) (w : Option (Arr K)) (hw : WeightShape w g)
    (h01 : ∀ c p, Valid g.nPix c → p < g.nProps → 0 ≤ weightOf w g c p ∧ weightOf w g c p < 1)
    (r : Average K V) (h : g.sphericalAverage root drop axes center sh w = .ok r) (j : List ℕ) :
    r.avg.get j = none := by
  obtain ⟨-, -, -, wt, h4, -, h6⟩ := sphere_ok g hg a ha root drop axes center sh w r h
  obtain ⟨wt', hwt1, hwt2⟩ := weight_ok g a (hg.data a ha) w hw
  have : wt' = wt := by rw [h4] at hwt1; exact (Except.ok.inj hwt1).symm
  subst this
  rw [h6]
  unfold sphereSums
  simp only
  refine if_pos (addTrunc_small _ _ (fun _ => rfl) ?_ j)
  intro q hq
  obtain ⟨i, hi, rfl⟩ := List.mem_map.1 hq
  have := List.mem_of_mem_filter hi
  rw [indices_eq, hg.data a ha] at this
  obtain ⟨d, q, rfl, hd, hq⟩ := valid_split ((mem_allCells _ _).1 this)
  simp only
  rw [hwt2 d q hd hq]
  exact h01 d q hd hq

/-- Calls with increasing edges succeed. -/
theorem C26_succeeds (g : Grid K V) (hg : Regular g) (a : Arr V) (ha : g.grid = some a)
    (root : K → K) (drop : V → V) (axes : Option (List ℕ))
    (hax : SphereAxes g (axes.getD (List.range g.dim))) (center : Option (List K))
    (hc : ∀ c, center = some c → c.length = g.dim) (edges : List K) (he : edges ≠ [])
    (hs : edges.Pairwise (· < ·)) (w : Option (Arr K)) (hw : WeightShape w g) :
    ∃ r, g.sphericalAverage root drop axes center (.given edges) w = .ok r ∧ r.shells = edges := by
  obtain ⟨wt, hwt, -⟩ := weight_ok g a (hg.data a ha) w hw
  unfold Grid.sphericalAverage
  rw [ha]
  simp only
  generalize axes.getD (List.range g.dim) = ax at *
  rw [if_neg (by
    rintro ⟨i, hi, h⟩
    exact absurd (hax.1 i hi) (by omega)), if_neg (by
    rintro ⟨⟨i, hi, h1⟩, j, hj, h2⟩
    rcases hax.2 with h | h
    · rw [h i hi] at h1; cases h1
    · rw [h j hj] at h2; cases h2)]
  have h3 : ∃ c, sphereCenter g (decide (∀ i ∈ ax, g.fourier.getD i false = true)) center = .ok c := by
    unfold sphereCenter
    cases center with
    | none => exact ⟨_, rfl⟩
    | some c => exact ⟨c, if_pos (hc c rfl)⟩
  obtain ⟨c, h3⟩ := h3
  rw [h3, hwt]
  simp only [shellEdges]
  rw [if_neg (increasing_steps edges hs), if_neg (by simpa using he)]
  exact ⟨_, rfl, rfl⟩

/-- Edges that are given are increasing, or the call fails. -/
theorem C26_given_increasing (g : Grid K V) (hg : Regular g) (a : Arr V) (ha : g.grid = some a)
    (root : K → K) (drop : V → V) (axes : Option (List ℕ)) (center : Option (List K))
    (edges : List K) (w : Option (Arr K)) (r : Average K V)
    (h : g.sphericalAverage root drop axes center (.given edges) w = .ok r) :
    r.shells = edges ∧ edges.Pairwise (· < ·) := by
  obtain ⟨-, -, -, wt, h4, h5, h6⟩ := sphere_ok g hg a ha root drop axes center (.given edges) w r h
  unfold shellEdges at h5
  simp only at h5
  by_cases h1 : ∃ p ∈ edges.zip edges.tail, p.2 - p.1 ≤ 0
  · rw [if_pos h1] at h5; cases h5
  rw [if_neg h1] at h5
  split_ifs at h5
  simp only [Except.ok.injEq] at h5
  exact ⟨h5.symm, steps_increasing edges h1⟩

/-- Automatic shells are increasing if not all cells are at the same distance. -/
theorem C26_auto_increasing (g : Grid K V) (hg : Regular g) (a : Arr V) (ha : g.grid = some a)
    (root : K → K) (drop : V → V) (axes : Option (List ℕ)) (center : Option (List K)) (n : ℕ)
    (w : Option (Arr K)) (r : Average K V)
    (h : g.sphericalAverage root drop axes center (.auto n) w = .ok r) (hp : 0 < g.nProps)
    (ax : List ℕ) (hax : ax = axes.getD (List.range g.dim)) (d d' : List ℕ) (hd : Valid g.nPix d)
    (hd' : Valid g.nPix d')
    (hne : root (sqDist (coordsOf g ax) (centerOf g ax center) ax d) ≠
      root (sqDist (coordsOf g ax) (centerOf g ax center) ax d')) :
    r.shells.length = n + 1 ∧ r.shells.Pairwise (· < ·) := by
  obtain ⟨⟨h1, -⟩, -, -, wt, h4, h5, h6⟩ := sphere_ok g hg a ha root drop axes center (.auto n) w r h
  rw [← hax] at h1 h5
  have hmem : ∀ e, Valid g.nPix e → root (sqDist (coordsOf g ax) (centerOf g ax center) ax e) ∈
      (allCells (g.nPix ++ [g.nProps])).map (radius root (coordsOf g ax) (centerOf g ax center) ax) := by
    intro e he
    refine List.mem_map.2 ⟨e ++ [0], (mem_allCells _ _).2 (valid_concat.2 ⟨he, hp⟩), ?_⟩
    apply radius_concat
    intro i hi
    rw [Valid.length he, hg.nPix]
    exact h1 i hi
  unfold shellEdges at h5
  simp only at h5
  split at h5
  case h_2 => cases h5
  rename_i lo hi hmin hmax
  split_ifs at h5 with hn1
  simp only [Except.ok.injEq] at h5
  obtain ⟨-, hmin⟩ := List.min?_eq_some_iff.1 hmin
  obtain ⟨-, hmax⟩ := List.max?_eq_some_iff.1 hmax
  have hlt : lo < hi := by
    have a1 := hmin _ (hmem d hd)
    have a2 := hmin _ (hmem d' hd')
    have a3 := hmax _ (hmem d hd)
    have a4 := hmax _ (hmem d' hd')
    rcases lt_or_gt_of_ne hne with h | h <;> linarith
  have n0 : (0 : K) < n := by exact_mod_cast (by omega : 0 < n)
  have hD : 0 < (hi + (hi - lo) / 10 ^ 10 - lo) / n := by
    have h0 : 0 < hi - lo := by linarith
    have : 0 < (hi - lo) / 10 ^ 10 := by positivity
    apply div_pos _ n0
    linarith
  rw [← h5]
  refine ⟨by simp, ?_⟩
  rw [List.pairwise_iff_getElem]
  intro i j hi' hj' hij
  simp only [List.getElem_map, List.getElem_range]
  have : (i : K) < j := by exact_mod_cast hij
  have := mul_lt_mul_of_pos_right this hD
  linarith

/-- **The cells farthest from the centre are never used** with automatic shells (up to ten thousand
million of them): they are in the last shell. -/
theorem C26_auto_farthest_lost (g : Grid K V) (hg : Regular g) (a : Arr V) (ha : g.grid = some a)
    (root : K → K) (drop : V → V) (axes : Option (List ℕ)) (center : Option (List K)) (n : ℕ)
    (hn : n ≤ 10 ^ 10) (w : Option (Arr K)) (r : Average K V)
    (h : g.sphericalAverage root drop axes center (.auto n) w = .ok r) (hp : 0 < g.nProps)
    (ax : List ℕ) (hax : ax = axes.getD (List.range g.dim)) (d : List ℕ) (hd : Valid g.nPix d)
    (hfar : ∀ d', Valid g.nPix d' → root (sqDist (coordsOf g ax) (centerOf g ax center) ax d') ≤
      root (sqDist (coordsOf g ax) (centerOf g ax center) ax d)) (k : ℕ)
    (hk : k + 2 < r.shells.length) (c : List ℕ) :
    d ∉ members g.nPix root (coordsOf g ax) (centerOf g ax center) ax r.shells k c := by
  obtain ⟨⟨h1, -⟩, -, -, wt, h4, h5, h6⟩ := sphere_ok g hg a ha root drop axes center (.auto n) w r h
  rw [← hax] at h1 h5
  have hrad : ∀ d' p, Valid g.nPix d' → radius root (coordsOf g ax) (centerOf g ax center) ax
      (d' ++ [p]) = root (sqDist (coordsOf g ax) (centerOf g ax center) ax d') := by
    intro d' p hd'
    apply radius_concat
    intro i hi
    rw [Valid.length hd', hg.nPix]
    exact h1 i hi
  intro hm
  unfold members at hm
  rw [List.mem_filter, decide_eq_true_iff] at hm
  obtain ⟨-, ⟨lo', hlo', hi', hhi', hle, hlt⟩, -⟩ := hm
  unfold shellEdges at h5
  simp only at h5
  split at h5
  case h_2 => cases h5
  rename_i lo hi hmin hmax
  split_ifs at h5 with hn1
  simp only [Except.ok.injEq] at h5
  obtain ⟨mem1, hmin⟩ := List.min?_eq_some_iff.1 hmin
  obtain ⟨mem2, hmax⟩ := List.max?_eq_some_iff.1 hmax
  have hR : radius root (coordsOf g ax) (centerOf g ax center) ax (d ++ [0]) ∈
      (allCells (g.nPix ++ [g.nProps])).map (radius root (coordsOf g ax) (centerOf g ax center) ax) :=
    List.mem_map.2 ⟨_, (mem_allCells _ _).2 (valid_concat.2 ⟨hd, hp⟩), rfl⟩
  have e1 : root (sqDist (coordsOf g ax) (centerOf g ax center) ax d) = hi := by
    apply le_antisymm
    · rw [← hrad d 0 hd]
      exact hmax _ hR
    · obtain ⟨i, hi', he⟩ := List.mem_map.1 mem2
      obtain ⟨d', q, rfl, hd', hq⟩ := valid_split ((mem_allCells _ _).1 hi')
      rw [← he, hrad d' q hd']
      exact hfar d' hd'
  have e2 : lo ≤ hi := by
    rw [← e1, ← hrad d 0 hd]
    exact hmin _ hR
  have hlen : r.shells.length = n + 1 := by rw [← h5]; simp
  rw [← h5, List.getElem?_map, List.getElem?_range (by omega)] at hhi'
  simp only [Option.map_some, Option.mem_def, Option.some.injEq] at hhi'
  rw [e1, ← hhi'] at hlt
  have n0 : (0 : K) < n := by exact_mod_cast (by omega : 0 < n)
  have hkn : ((k + 1 : ℕ) : K) ≤ n - 1 := by
    have : ((k + 1 : ℕ) : K) + 1 ≤ n := by exact_mod_cast (by omega : k + 1 + 1 ≤ n)
    linarith
  have hn10 : (n : K) ≤ 10 ^ 10 := by exact_mod_cast hn
  have key : ((k + 1 : ℕ) : K) * ((hi + (hi - lo) / 10 ^ 10 - lo) / n) ≤ hi - lo := by
    rw [← mul_div_assoc, div_le_iff₀ n0]
    have hD : 0 ≤ hi - lo := by linarith
    have t : hi + (hi - lo) / 10 ^ 10 - lo = (hi - lo) * (1 + 1 / 10 ^ 10) := by ring
    rw [t]
    have u1 : ((k + 1 : ℕ) : K) * ((hi - lo) * (1 + 1 / 10 ^ 10)) ≤
        (n - 1) * ((hi - lo) * (1 + 1 / 10 ^ 10)) :=
      mul_le_mul_of_nonneg_right hkn (by positivity)
    have u2 : ((n : K) - 1) * (1 + 1 / 10 ^ 10) ≤ n := by
      have : (n : K) / 10 ^ 10 ≤ 1 := by
        rw [div_le_one (by positivity)]; exact hn10
      have e : ((n : K) - 1) * (1 + 1 / 10 ^ 10) = n + n / 10 ^ 10 - 1 - 1 / 10 ^ 10 := by ring
      rw [e]
      have : (0 : K) ≤ 1 / 10 ^ 10 := by positivity
      linarith
    have u3 := mul_le_mul_of_nonneg_left u2 hD
    calc ((k + 1 : ℕ) : K) * ((hi - lo) * (1 + 1 / 10 ^ 10))
        ≤ (n - 1) * ((hi - lo) * (1 + 1 / 10 ^ 10)) := u1
      _ = (hi - lo) * ((n - 1) * (1 + 1 / 10 ^ 10)) := by ring
      _ ≤ (hi - lo) * n := u3
  linarith

/-! ## C65 -/

/-- The coordinates of the cells along each axis, in the space in which this axis is. -/
def trueCoords (g : Grid K V) : List (List K) :=
  (List.range g.dim).map (fun i =>
    if g.fourier.getD i false = true then g.fcenters.getD i [] else g.centers.getD i [])

theorem rest_some {α : Type} (ax : List ℕ) (l : List α) : (rest ax l).map some =
    ((List.range l.length).filter (fun i => decide (i ∉ ax))).map (fun i => l[i]?) := by
  unfold rest
  have : ∀ r : List ℕ, (∀ i ∈ r, i < l.length) →
      (r.filterMap (fun i => if i ∈ ax then none else l[i]?)).map some =
      (r.filter (fun i => decide (i ∉ ax))).map (fun i => l[i]?) := by
    intro r hr
    induction r with
    | nil => rfl
    | cons i r ih =>
      have := ih (fun j hj => hr j (List.mem_cons_of_mem _ hj))
      have hi := hr i (List.mem_cons_self ..)
      rw [List.filterMap_cons, List.filter_cons]
      by_cases h : i ∈ ax
      · simp [h, this]
      · simp only [h, if_false, not_false_eq_true, decide_true, if_true, List.map_cons]
        rw [List.getElem?_eq_getElem hi]
        simp [this]
  exact this _ (fun i hi => List.mem_range.1 hi)

theorem rest_congr {α : Type} (ax : List ℕ) (l m : List α) (hl : l.length = m.length) :
    rest ax l = rest ax m ↔ ∀ i < l.length, i ∉ ax → l[i]? = m[i]? := by
  have inj : Function.Injective (List.map (some : α → Option α)) :=
    List.map_injective_iff.2 (Option.some_injective _)
  rw [← inj.eq_iff, rest_some, rest_some, ← hl, List.map_inj_left]
  constructor
  · intro h i hi hax
    exact h i (List.mem_filter.2 ⟨List.mem_range.2 hi, by simpa using hax⟩)
  · intro h i hi
    obtain ⟨h1, h2⟩ := List.mem_filter.1 hi
    exact h i (List.mem_range.1 h1) (by simpa using h2)

theorem coordsOf_length (g : Grid K V) (hg : Regular g) (ax : List ℕ) :
    (coordsOf g ax).length = g.dim := by
  unfold coordsOf
  split
  · exact hg.fcenters
  · exact hg.centers

/-- **C65, partial**: the coordinates returned for the axes that are not averaged are right if these
axes are in the same space as the averaged ones. -/
theorem C65_partial (g : Grid K V) (hg : Regular g) (a : Arr V) (ha : g.grid = some a)
    (root : K → K) (drop : V → V) (axes : Option (List ℕ)) (center : Option (List K))
    (sh : Shells K) (w : Option (Arr K)) (r : Average K V)
    (h : g.sphericalAverage root drop axes center sh w = .ok r)
    (hne : axes.getD (List.range g.dim) ≠ [])
    (hsp : ∀ i < g.dim, ∀ j < g.dim, g.fourier.getD i false = g.fourier.getD j false) :
    r.others = rest (axes.getD (List.range g.dim)) (trueCoords g) := by
  obtain ⟨⟨h1, h2⟩, -, ho, -⟩ := sphere_ok g hg a ha root drop axes center sh w r h
  rw [ho]
  generalize axes.getD (List.range g.dim) = ax at *
  rw [rest_congr _ _ _ (by rw [coordsOf_length g hg]; simp [trueCoords])]
  intro i hi _
  rw [coordsOf_length g hg] at hi
  obtain ⟨j, hj⟩ := List.exists_mem_of_ne_nil ax hne
  have ht : (trueCoords g)[i]? = some (if g.fourier.getD i false = true then g.fcenters.getD i []
      else g.centers.getD i []) := by
    unfold trueCoords
    rw [List.getElem?_map, List.getElem?_range hi]
    rfl
  rw [ht]
  have hfc : g.fcenters[i]? = some (g.fcenters.getD i []) := by
    rw [List.getD_eq_getElem?_getD, List.getElem?_eq_getElem (by rw [hg.fcenters]; exact hi)]; rfl
  have hcc : g.centers[i]? = some (g.centers.getD i []) := by
    rw [List.getD_eq_getElem?_getD, List.getElem?_eq_getElem (by rw [hg.centers]; exact hi)]; rfl
  unfold coordsOf
  by_cases hf : ∀ i ∈ ax, g.fourier.getD i false = true
  · rw [if_pos hf, hsp i hi j (h1 j hj), if_pos (hf j hj), hfc]
  · rw [if_neg hf]
    have : g.fourier.getD j false = false := by
      rcases h2 with h2 | h2
      · exact absurd h2 hf
      · exact h2 j hj
    rw [hsp i hi j (h1 j hj), this, if_neg (by simp), hcc]

/-- **The coordinates are wrong for every axis in the other space** (unless its coordinates are the same
in both). -/
theorem C65_mixed_wrong (g : Grid K V) (hg : Regular g) (a : Arr V) (ha : g.grid = some a)
    (root : K → K) (drop : V → V) (axes : Option (List ℕ)) (center : Option (List K))
    (sh : Shells K) (w : Option (Arr K)) (r : Average K V)
    (h : g.sphericalAverage root drop axes center sh w = .ok r) (i j : ℕ)
    (hj : j ∈ axes.getD (List.range g.dim)) (hi : i < g.dim)
    (hia : i ∉ axes.getD (List.range g.dim))
    (hsp : g.fourier.getD i false ≠ g.fourier.getD j false)
    (hdiff : g.fcenters.getD i [] ≠ g.centers.getD i []) :
    r.others ≠ rest (axes.getD (List.range g.dim)) (trueCoords g) := by
  obtain ⟨⟨h1, h2⟩, -, ho, -⟩ := sphere_ok g hg a ha root drop axes center sh w r h
  rw [ho]
  generalize axes.getD (List.range g.dim) = ax at *
  rw [ne_eq, rest_congr _ _ _ (by rw [coordsOf_length g hg]; simp [trueCoords])]
  intro hall
  have := hall i (by rw [coordsOf_length g hg]; exact hi) hia
  have ht : (trueCoords g)[i]? = some (if g.fourier.getD i false = true then g.fcenters.getD i []
      else g.centers.getD i []) := by
    unfold trueCoords
    rw [List.getElem?_map, List.getElem?_range hi]
    rfl
  rw [ht] at this
  have hfc : g.fcenters[i]? = some (g.fcenters.getD i []) := by
    rw [List.getD_eq_getElem?_getD, List.getElem?_eq_getElem (by rw [hg.fcenters]; exact hi)]; rfl
  have hcc : g.centers[i]? = some (g.centers.getD i []) := by
    rw [List.getD_eq_getElem?_getD, List.getElem?_eq_getElem (by rw [hg.centers]; exact hi)]; rfl
  unfold coordsOf at this
  by_cases hf : ∀ i ∈ ax, g.fourier.getD i false = true
  · rw [if_pos hf, hfc] at this
    rw [hf j hj] at hsp
    rw [if_neg hsp] at this
    exact hdiff (Option.some.inj this)
  · rw [if_neg hf, hcc] at this
    have hjf : g.fourier.getD j false = false := by
      rcases h2 with h2 | h2
      · exact absurd h2 hf
      · exact h2 j hj
    rw [hjf] at hsp
    rw [if_pos (by simpa using hsp)] at this
    exact hdiff (Option.some.inj this).symm

end

/-- **C26**: an average with weights that are not negative lies between bounds for the values of the
cells of the shell. -/
theorem C26_mean_bounds [Field K] [LinearOrder K] [IsStrictOrderedRing K] [FloorRing K]
    (g : Grid K K) (hg : Regular g) (a : Arr K) (ha : g.grid = some a)
    (root : K → K) (axes : Option (List ℕ)) (center : Option (List K))
    (sh : Shells K) (w : Option (Arr K)) (hw : WeightShape w g)
    (hint : ∀ c p, Valid g.nPix c → p < g.nProps → ∃ z : ℤ, weightOf w g c p = z)
    (hpos : ∀ c p, Valid g.nPix c → p < g.nProps → 0 ≤ weightOf w g c p)
    (r : Average K K) (h : g.sphericalAverage root id axes center sh w = .ok r)
    (hs : r.shells.Pairwise (· < ·)) (k p : ℕ) (c : List ℕ) (hk : k + 2 < r.shells.length)
    (hp : p < g.nProps) (ax : List ℕ) (hax : ax = axes.getD (List.range g.dim)) (lo hi x : K)
    (hb : ∀ d ∈ members g.nPix root (coordsOf g ax) (centerOf g ax center) ax r.shells k c,
      lo ≤ cell a d p ∧ cell a d p ≤ hi)
    (hx : r.avg.get (k :: c ++ [p]) = some x) : lo ≤ x ∧ x ≤ hi := by
  obtain ⟨ax', m, rfl, hm, -, hv⟩ := C26_value_partial g hg a ha root id axes center sh w hw hint r h
    hs k p c hk hp
  subst hax
  rw [← hm] at hb
  have hmv : ∀ d ∈ m, Valid g.nPix d := by
    intro d hd
    rw [hm] at hd
    exact (mem_allCells _ _).1 (List.mem_of_mem_filter hd)
  have hdata : ∀ y : K, asData g (axes.getD (List.range g.dim)) id y = y := by
    intro y; unfold asData; split <;> rfl
  simp only [hdata, smul_eq_mul] at hv
  rw [hx] at hv
  split_ifs at hv with h0
  have hv := Option.some.inj hv
  have key : ∀ l : List (List ℕ), (∀ d ∈ l, d ∈ m) →
      0 ≤ (l.map (fun d => weightOf w g d p)).sum ∧
      (l.map (fun d => weightOf w g d p)).sum * lo ≤
        (l.map (fun d => weightOf w g d p * cell a d p)).sum ∧
      (l.map (fun d => weightOf w g d p * cell a d p)).sum ≤
        (l.map (fun d => weightOf w g d p)).sum * hi := by
    intro l hl
    induction l with
    | nil => simp
    | cons d l ih =>
      obtain ⟨i1, i2, i3⟩ := ih (fun e he => hl e (List.mem_cons_of_mem _ he))
      have hd := hl d (List.mem_cons_self ..)
      have w0 := hpos d p (hmv d hd) hp
      obtain ⟨b1, b2⟩ := hb d hd
      simp only [List.map_cons, List.sum_cons]
      have := mul_le_mul_of_nonneg_left b1 w0
      have := mul_le_mul_of_nonneg_left b2 w0
      refine ⟨by linarith, by linarith, by linarith⟩
  obtain ⟨k1, k2, k3⟩ := key m (fun _ h => h)
  have hpos' : 0 < (m.map (fun d => weightOf w g d p)).sum := lt_of_le_of_ne k1 (Ne.symm h0)
  have e : (m.map (fun d => weightOf w g d p)).sum * x =
      (m.map (fun d => weightOf w g d p * cell a d p)).sum := by
    rw [hv, ← mul_assoc, mul_inv_cancel₀ h0, one_mul]
  rw [← e] at k2 k3
  exact ⟨le_of_mul_le_mul_left k2 hpos', le_of_mul_le_mul_left k3 hpos'⟩

/-- The full statement of C26: the cells counted in a shell are those whose distance lies in it, for
every shell. -/
def C26_full : Prop :=
  ∀ (g : Grid ℝ ℂ) (a : Arr ℂ) (axes : Option (List ℕ)) (center : Option (List ℝ)) (edges : List ℝ)
    (r : Average ℝ ℂ), Regular g → g.grid = some a →
    g.sphericalAverage Real.sqrt (fun z => (z.re : ℂ)) axes center (.given edges) none = .ok r →
    ∀ (k p : ℕ) (c : List ℕ), k + 1 < edges.length → p < g.nProps →
      r.count.get (k :: c ++ [p]) = (members g.nPix Real.sqrt
        (coordsOf g (axes.getD (List.range g.dim))) (centerOf g (axes.getD (List.range g.dim)) center)
        (axes.getD (List.range g.dim)) edges k c).length

theorem C26_full_false : ¬ C26_full := by
  intro h
  obtain ⟨g, hr, hl, hn, hu, hg, hd, hpx, hf, hp⟩ := new_square 1 (zeros [10, 10, 1]) rfl
  have hax : SphereAxes g ((none : Option (List ℕ)).getD (List.range g.dim)) := by
    refine ⟨fun i hi => List.mem_range.1 hi, .inr ?_⟩
    intro i hi
    have : i < 2 := by rw [← hd]; exact List.mem_range.1 hi
    rw [hf]
    match i with
    | 0 => rfl
    | 1 => rfl
    | i + 2 => omega
  set ax := (none : Option (List ℕ)).getD (List.range g.dim) with hax'
  set x := Real.sqrt (sqDist (coordsOf g ax) (centerOf g ax none) ax [5, 5]) with hx
  have hx0 : 0 ≤ x := Real.sqrt_nonneg _
  obtain ⟨r, h1, h2⟩ := C26_succeeds g hr _ hg Real.sqrt (fun z => (z.re : ℂ)) none hax none (by simp)
    [0, x + 1] (by simp) (by simp; linarith) none (by intro y hy; cases hy)
  have h3 := h g _ none none _ r hr hg h1 0 0 (rest ax [5, 5]) (by simp) (by omega)
  obtain ⟨h4, -⟩ := C26_last_shell_lost g hr _ hg Real.sqrt _ none none _ none r h1 0
    (rest ax [5, 5] ++ [0]) (by rw [h2]; rfl)
  rw [List.cons_append, h4] at h3
  have hm : [5, 5] ∈ members g.nPix Real.sqrt (coordsOf g ax) (centerOf g ax none) ax [0, x + 1] 0
      (rest ax [5, 5]) := by
    unfold members
    rw [List.mem_filter, decide_eq_true_iff]
    refine ⟨(mem_allCells _ _).2 (by rw [hpx]; decide), ?_, rfl⟩
    exact ⟨0, rfl, x + 1, rfl, hx0, by linarith⟩
  have := List.length_pos_of_mem hm
  rw [← h3] at this
  exact Nat.lt_irrefl _ this

/-- The full statement of C65. -/
def C65_full : Prop :=
  ∀ (g : Grid ℝ ℂ) (a : Arr ℂ) (axes : Option (List ℕ)) (center : Option (List ℝ)) (sh : Shells ℝ)
    (w : Option (Arr ℝ)) (r : Average ℝ ℂ), Regular g → g.grid = some a →
    g.sphericalAverage Real.sqrt (fun z => (z.re : ℂ)) axes center sh w = .ok r →
    r.others = rest (axes.getD (List.range g.dim)) (trueCoords g)

theorem C65_full_false : ¬ C65_full := by
  intro h
  obtain ⟨g, ⟨hr, hl, hn, hu, hg, hd, hpx, hf, hp⟩, hc⟩ := new_square' 1 (zeros [10, 10, 1]) rfl
  obtain ⟨g1, g2, b, h1, -, -, hr1, hb, -, hf1⟩ :=
    C23_round_trip g hr _ hg hp (some [0]) (by simp [hd]) true
  have hft := ft_ok g _ hg hp [0] (by simp [hd]) true
  rw [h1] at hft
  have e1 : g1 = _ := (Prod.mk.injEq .. ▸ hft).1
  have hd1 : g1.dim = 2 := by rw [e1]; exact hd
  have hc1 : g1.center.vals = [0, 0] := by rw [e1]; exact hc
  have hf0 : g1.fourier.getD 0 false = true := by
    rw [e1]; simp only; rw [hf]; rfl
  have hf1' : g1.fourier.getD 1 false = false := by
    rw [e1]; simp only; rw [hf]; rfl
  have hn1 : g1.nPix = [10, 10] := by rw [e1]; exact hpx
  obtain ⟨a1, ha1⟩ : ∃ a1, g1.grid = some a1 := by rw [e1]; exact ⟨_, rfl⟩
  have hax : SphereAxes g1 ((some [0]).getD (List.range g1.dim)) := by
    refine ⟨by simp [hd1], .inl ?_⟩
    intro i hi
    have : i = 0 := by simpa using hi
    subst this
    exact hf0
  obtain ⟨r, h2, -⟩ := C26_succeeds g1 hr1 _ ha1 Real.sqrt (fun z => (z.re : ℂ)) (some [0]) hax none
    (by simp) [0, 1] (by simp) (by simp) none (by intro y hy; cases hy)
  refine C65_mixed_wrong g1 hr1 _ ha1 Real.sqrt _ (some [0]) none _ none r h2 1 0 (by simp) (by omega)
    (by simp) (by rw [hf0, hf1']; simp) ?_ (h g1 _ (some [0]) none _ none r hr1 ha1 h2)
  obtain ⟨n, w, c, -, hw, q⟩ := hr1.axis 1 (by omega)
  have hn10 : n = 10 := by
    have := q.nPix
    rw [hn1] at this
    simpa using this.symm
  have hc0 : c = 0 := by
    have := q.center
    rw [hc1] at this
    simpa using this.symm
  subst hn10 hc0
  rw [getD_of_some q.fcenters, getD_of_some q.centers]
  intro e
  have := congrArg (fun l : List ℝ => l[5]?) e
  simp only [freqs, middles, List.getElem?_map, List.getElem?_range (show 5 < 10 by omega),
    Option.map_some, Option.some.injEq] at this
  norm_num at this
  linarith

/-! ## The hypotheses are met -/

/-- The root of `1 / 4` and of `9 / 4`. -/
def rootEx (x : ℚ) : ℚ := if x = 1 / 4 then 1 / 2 else 3 / 2

/-- C26, C65: a map of 4 x 4 cells with values `10 x + y`; distances along the first axis and shells
`[0, 1)`, `[1, 2)`; the outer shell is lost. -/
example : okAnd (Grid.new 1 ⟨false, [0, 0]⟩ ⟨false, [4, 4]⟩ ⟨false, [1, 1]⟩)
    (fun g : Grid ℚ ℚ =>
      okAnd (({ g with grid := some ⟨[4, 4, 1], fun i => 10 * (i.getD 0 0 : ℕ) + (i.getD 1 0 : ℕ)⟩ } :
          Grid ℚ ℚ).sphericalAverage rootEx id (some [0]) none (.given [0, 1, 2]) none)
        (fun r => r.shells = [0, 1, 2] ∧ r.others = g.centers.drop 1 ∧ r.avg.shape = [2, 4, 1] ∧
          r.count.get [0, 3, 0] = 2 ∧ r.avg.get [0, 3, 0] = some 18 ∧
          r.count.get [1, 3, 0] = 0 ∧ r.avg.get [1, 3, 0] = none ∧
          members g.nPix rootEx g.centers [0, 0] [0] [0, 1, 2] 0 [3] = [[1, 3], [2, 3]] ∧
          members g.nPix rootEx g.centers [0, 0] [0] [0, 1, 2] 1 [3] = [[0, 3], [3, 3]]) = true) =
      true := by
  decide +kernel

/-- C26, failures: fractional weights, and automatic shells. -/
example : okAnd (Grid.new 1 ⟨false, [0]⟩ ⟨false, [4]⟩ ⟨false, [1]⟩)
    (fun g : Grid ℚ ℚ =>
      okAnd (({ g with grid := some ⟨[4, 1], fun i => (i.getD 0 0 : ℕ)⟩ } :
          Grid ℚ ℚ).sphericalAverage rootEx id none none (.given [0, 1, 2])
          (some ⟨[4], fun _ => 3 / 4⟩))
        (fun r => r.count.get [0, 0] = 2 ∧ r.avg.get [0, 0] = none) = true ∧
      okAnd (({ g with grid := some ⟨[4, 1], fun i => (i.getD 0 0 : ℕ)⟩ } :
          Grid ℚ ℚ).sphericalAverage rootEx id none none (.auto 2) none)
        (fun r => r.shells.length = 3 ∧ r.avg.get [0, 0] = some (3 / 2) ∧ r.avg.get [1, 0] = none) =
        true) = true := by
  decide +kernel

end Verif.Map
