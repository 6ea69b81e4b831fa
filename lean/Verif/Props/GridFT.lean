import Verif.Lemmas.GridFT
import Verif.Props.GridCopy

/-!
# C23, C24, C58, C63: Fourier transforms and power spectra
-/

set_option linter.unusedSectionVars false

namespace Verif.Map

open Verif.Sim (Err)
open Spec

/-! ## Lemmas -/

theorem setFlags_length (f : List Bool) (l : List ℕ) (b : Bool) :
    (setFlags f l b).length = f.length := by
  unfold setFlags
  induction l generalizing f with
  | nil => rfl
  | cons x l ih => simp only [List.foldl_cons]; rw [ih]; simp

theorem setFlags_get (f : List Bool) (l : List ℕ) (b : Bool) (i : ℕ) (hi : i < f.length) :
    (setFlags f l b).getD i false = if i ∈ l then b else f.getD i false := by
  unfold setFlags
  induction l generalizing f with
  | nil => simp
  | cons x l ih =>
    simp only [List.foldl_cons]
    rw [ih _ (by simpa using hi)]
    by_cases h1 : i ∈ l
    · simp [h1]
    · by_cases h2 : x = i
      · subst h2; simp [h1, List.getD_eq_getElem?_getD, hi]
      · have h3 : ¬ i = x := fun e => h2 e.symm
        simp [h1, h3, List.getD_eq_getElem?_getD, List.getElem?_set, h2]

/-- Two lists of flags are equal if their entries are. -/
theorem flags_ext {f f' : List Bool} (hl : f.length = f'.length)
    (h : ∀ i < f.length, f.getD i false = f'.getD i false) : f = f' := by
  apply List.ext_getElem hl
  intro i h1 h2
  have := h i h1
  simpa [List.getD_eq_getElem?_getD, h1, h2] using this

/-- The flags after a transform of the axes `ax`. -/
def flipped (flags : List Bool) (ax : List ℕ) : List Bool :=
  flags.mapIdx (fun i b => if i ∈ ax then !b else b)

theorem flipped_getD (f : List Bool) (ax : List ℕ) (i : ℕ) (hi : i < f.length) :
    (flipped f ax).getD i false = if i ∈ ax then !f.getD i false else f.getD i false := by
  unfold flipped
  simp [List.getD_eq_getElem?_getD, hi]

theorem flipped_twice (f : List Bool) (ax : List ℕ) : flipped (flipped f ax) ax = f := by
  apply flags_ext (by simp [flipped])
  intro i hi
  have hi' : i < f.length := by simpa [flipped] using hi
  rw [flipped_getD _ _ _ (by simpa [flipped] using hi'), flipped_getD _ _ _ hi']
  split <;> simp

theorem new_flags (f : List Bool) (ax : List ℕ) :
    setFlags (setFlags f (ax.filter (fun i => !f.getD i false)) true)
      (ax.filter (fun i => f.getD i false)) false = flipped f ax := by
  apply flags_ext (by simp [setFlags_length, flipped])
  intro i hi
  have hi' : i < f.length := by simpa [setFlags_length] using hi
  rw [setFlags_get _ _ _ _ (by simpa [setFlags_length] using hi'), setFlags_get _ _ _ _ hi',
    flipped_getD _ _ _ hi']
  simp only [List.mem_filter]
  by_cases h : i ∈ ax <;> cases hf : f.getD i false <;> simp_all

theorem Spec.Regular.pix_ne {g : Grid ℝ ℂ} (hg : Regular g) (x : ℕ) (hx : x < g.dim) :
    g.pix.vals.getD x 0 ≠ 0 := by
  obtain ⟨n, w, c, -, hw, q⟩ := hg.axis x hx
  rw [List.getD_eq_getElem?_getD, q.pix]
  exact hw.ne'

theorem Spec.Regular.axis_lt {g : Grid ℝ ℂ} (hg : Regular g) {a : Arr ℂ} (ha : g.grid = some a)
    (x : ℕ) (hx : x < g.dim) : x < a.shape.length := by
  rw [hg.data a ha, List.length_append, hg.nPix]
  omega

/-- The array after a transform. -/
noncomputable def transformed (g : Grid ℝ ℂ) (a : Arr ℂ) (ax : List ℕ) (nz : Bool) : Arr ℂ :=
  backwardPart (forwardPart a g.pix.vals (ax.filter (fun i => !g.fourier.getD i false)) nz)
    g.pix.vals (ax.filter (fun i => g.fourier.getD i false)) nz

theorem ft_ok (g : Grid ℝ ℂ) (a : Arr ℂ) (ha : g.grid = some a) (hp : g.isPow = false)
    (ax : List ℕ) (hax : ∀ i ∈ ax, i < g.dim) (nz : Bool) :
    g.ft (some ax) nz = ({ g with grid := some (transformed g a ax nz),
                                  fourier := flipped g.fourier ax }, .ok ()) := by
  unfold Grid.ft
  have h : ¬ ∃ i ∈ ax, g.dim ≤ i := by
    rintro ⟨i, hi, h⟩
    exact absurd (hax i hi) (by omega)
  simp only [ha, hp, Bool.false_eq_true, if_false, Option.getD_some, if_neg h, new_flags]
  rfl

theorem ft_none (g : Grid ℝ ℂ) (nz : Bool) :
    g.ft none nz = g.ft (some (List.range g.dim)) nz := rfl

theorem transformed_shape (g : Grid ℝ ℂ) (hg : Regular g) (a : Arr ℂ) (ha : g.grid = some a)
    (ax : List ℕ) (hax : ∀ i ∈ ax, i < g.dim) (nz : Bool) :
    (transformed g a ax nz).shape = a.shape := by
  have h : ∀ x ∈ ax, x < a.shape.length := fun x hx => hg.axis_lt ha x (hax x hx)
  unfold transformed
  have h1 := forward_shape a g.pix.vals (ax.filter (fun i => !g.fourier.getD i false)) nz
    (fun x hx => h x (List.mem_of_mem_filter hx))
  rw [backward_shape _ _ _ _ (fun x hx => by rw [h1]; exact h x (List.mem_of_mem_filter hx)), h1]

theorem filter_flipped (f : List Bool) (ax : List ℕ) (hax : ∀ i ∈ ax, i < f.length) :
    ax.filter (fun i => !(flipped f ax).getD i false) = ax.filter (fun i => f.getD i false) ∧
    ax.filter (fun i => (flipped f ax).getD i false) = ax.filter (fun i => !f.getD i false) := by
  constructor <;>
  · apply List.filter_congr
    intro i hi
    rw [flipped_getD _ _ _ (hax i hi), if_pos hi]
    try simp

/-- The arrays: two transforms cancel. -/
theorem transformed_twice (g : Grid ℝ ℂ) (hg : Regular g) (a : Arr ℂ) (ha : g.grid = some a)
    (ax : List ℕ) (hax : ∀ i ∈ ax, i < g.dim) (nz : Bool) :
    (backwardPart (forwardPart (transformed g a ax nz) g.pix.vals
        (ax.filter (fun i => g.fourier.getD i false)) nz) g.pix.vals
      (ax.filter (fun i => !g.fourier.getD i false)) nz).Same a := by
  set fw := ax.filter (fun i => !g.fourier.getD i false) with hfw
  set bw := ax.filter (fun i => g.fourier.getD i false) with hbw
  have l1 : ∀ x ∈ fw, x < a.shape.length :=
    fun x hx => hg.axis_lt ha x (hax x (List.mem_of_mem_filter hx))
  have l2 : ∀ x ∈ bw, x < a.shape.length :=
    fun x hx => hg.axis_lt ha x (hax x (List.mem_of_mem_filter hx))
  have p1 : ∀ x ∈ fw, g.pix.vals.getD x 0 ≠ 0 :=
    fun x hx => hg.pix_ne x (hax x (List.mem_of_mem_filter hx))
  have p2 : ∀ x ∈ bw, g.pix.vals.getD x 0 ≠ 0 :=
    fun x hx => hg.pix_ne x (hax x (List.mem_of_mem_filter hx))
  have e : transformed g a ax nz = backwardPart (forwardPart a g.pix.vals fw nz) g.pix.vals bw nz :=
    rfl
  have s1 : (forwardPart a g.pix.vals fw nz).shape = a.shape := forward_shape _ _ _ _ l1
  rw [e]
  have h1 := forward_backward (forwardPart a g.pix.vals fw nz) g.pix.vals bw nz
    (by rw [s1]; exact l2) p2
  exact (backward_same h1 g.pix.vals fw nz (by rw [h1.1, s1]; exact l1)).trans
    (backward_forward a g.pix.vals fw nz l1 p1)

/-! ## C23 -/

/-- **C23**: transforming any axes twice (`none`: all axes; an axis may be named more than
once) gives back the map, with and without normalisation, whichever of the axes were in Fourier space
before: every description and, exactly, every value.  After the first transform exactly the named
axes have changed space, and nothing else but the values is different. -/
theorem C23_round_trip (g : Grid ℝ ℂ) (hg : Regular g) (a : Arr ℂ) (ha : g.grid = some a)
    (hp : g.isPow = false) (ax : Option (List ℕ)) (hax : ∀ l, ax = some l → ∀ i ∈ l, i < g.dim)
    (nz : Bool) :
    ∃ (g1 g2 : Grid ℝ ℂ) (b : Arr ℂ), g.ft ax nz = (g1, .ok ()) ∧ g1.ft ax nz = (g2, .ok ()) ∧
      Same g2 g ∧ Regular g1 ∧
      g1 = { g with grid := some b, fourier := g1.fourier } ∧
      g1.fourier.length = g.dim ∧
      ∀ i < g.dim, g1.fourier.getD i false =
        if i ∈ ax.getD (List.range g.dim) then !g.fourier.getD i false
        else g.fourier.getD i false := by
  obtain ⟨l, hl, hlax, e1, e2⟩ : ∃ l, (∀ i ∈ l, i < g.dim) ∧ ax.getD (List.range g.dim) = l ∧
      g.ft ax nz = g.ft (some l) nz ∧
      ∀ g' : Grid ℝ ℂ, g'.dim = g.dim → g'.ft ax nz = g'.ft (some l) nz := by
    cases ax with
    | none => exact ⟨List.range g.dim, by simp, rfl, rfl, fun g' h => by rw [ft_none, h]⟩
    | some l => exact ⟨l, hax l rfl, rfl, rfl, fun _ _ => rfl⟩
  rw [hlax, e1, ft_ok g a ha hp l hl nz]
  set g1 : Grid ℝ ℂ := { g with grid := some (transformed g a l nz),
                                fourier := flipped g.fourier l } with hg1
  have hfl : (flipped g.fourier l).length = g.dim := by simp [flipped, hg.fourier]
  have hr : Regular g1 := by
    refine ⟨hg.nPix, hg.pix, hg.side, hg.axes, hg.centers, hg.fcenters, hg.faxes, hfl, ?_, ?_⟩
    · intro i hi
      obtain ⟨n, w, c, h1, h2, q⟩ := hg.axis i hi
      exact ⟨n, w, c, h1, h2, ⟨q.nPix, q.pix, q.center, q.side, q.axes, q.centers, q.fcenters,
        q.faxes⟩⟩
    · intro b hb
      have hb : b = transformed g a l nz := by
        have : some (transformed g a l nz) = some b := hb
        exact (Option.some.inj this).symm
      rw [hb, transformed_shape g hg a ha l hl nz]
      exact hg.data a ha
  have h2 := ft_ok g1 (transformed g a l nz) rfl hp l hl nz
  refine ⟨g1, _, transformed g a l nz, rfl, (e2 g1 rfl).trans h2, ?_, hr, rfl, hfl, ?_⟩
  · have hff := filter_flipped g.fourier l (fun i hi => by rw [hg.fourier]; exact hl i hi)
    refine ⟨?_, ?_⟩
    · rw [ha]
      show (backwardPart (forwardPart (transformed g a l nz) g.pix.vals
        (l.filter (fun i => !(flipped g.fourier l).getD i false)) nz) g.pix.vals
        (l.filter (fun i => (flipped g.fourier l).getD i false)) nz).Same a
      rw [hff.1, hff.2]
      exact transformed_twice g hg a ha l hl nz
    · show ({ g with grid := none, fourier := flipped (flipped g.fourier l) l } : Grid ℝ ℂ) = _
      rw [flipped_twice]
  · intro i hi
    exact flipped_getD _ _ _ (by rw [hg.fourier]; exact hi)

/-- The order in which the axes are given does not matter. -/
theorem C23_axis_order (g : Grid ℝ ℂ) (hg : Regular g) (a : Arr ℂ) (ha : g.grid = some a)
    (hp : g.isPow = false) (l m : List ℕ) (hl : ∀ i ∈ l, i < g.dim) (h : l.Perm m) (nz : Bool) :
    ∃ g1 g2 : Grid ℝ ℂ, g.ft (some l) nz = (g1, .ok ()) ∧ g.ft (some m) nz = (g2, .ok ()) ∧
      Same g1 g2 := by
  have hm : ∀ i ∈ m, i < g.dim := fun i hi => hl i (h.mem_iff.2 hi)
  refine ⟨_, _, ft_ok g a ha hp l hl nz, ft_ok g a ha hp m hm nz, ?_, ?_⟩
  · show (transformed g a l nz).Same (transformed g a m nz)
    unfold transformed
    have l1 : ∀ x ∈ l.filter (fun i => !g.fourier.getD i false), x < a.shape.length :=
      fun x hx => hg.axis_lt ha x (hl x (List.mem_of_mem_filter hx))
    have l2 : ∀ x ∈ l.filter (fun i => g.fourier.getD i false), x < a.shape.length :=
      fun x hx => hg.axis_lt ha x (hl x (List.mem_of_mem_filter hx))
    have s1 := forward_shape a g.pix.vals _ nz l1
    have q1 := forward_perm a g.pix.vals nz (h.filter (fun i => !g.fourier.getD i false)) l1
    exact (backward_same q1 _ _ nz (by rw [s1]; exact l2)).trans
      (backward_perm _ g.pix.vals nz (h.filter (fun i => g.fourier.getD i false))
        (by rw [← q1.1, s1]; exact l2))
  · show ({ g with grid := none, fourier := flipped g.fourier l } : Grid ℝ ℂ) =
      { g with grid := none, fourier := flipped g.fourier m }
    have : flipped g.fourier l = flipped g.fourier m := by
      unfold flipped
      simp only [h.mem_iff]
    rw [this]

/-- Transforming several different axes at once is transforming them one after the other. -/
theorem C23_one_axis_at_a_time (g : Grid ℝ ℂ) (hg : Regular g) (a : Arr ℂ) (ha : g.grid = some a)
    (hp : g.isPow = false) (x : ℕ) (l : List ℕ) (hx : x < g.dim) (hl : ∀ i ∈ l, i < g.dim)
    (hxl : x ∉ l) (nz : Bool) :
    ∃ g1 g2 g3 : Grid ℝ ℂ, g.ft (some (x :: l)) nz = (g1, .ok ()) ∧
      g.ft (some [x]) nz = (g2, .ok ()) ∧ g2.ft (some l) nz = (g3, .ok ()) ∧ Same g1 g3 := by
  have hxl' : ∀ i ∈ x :: l, i < g.dim := by
    intro i hi
    rcases List.mem_cons.1 hi with rfl | h
    · exact hx
    · exact hl i h
  refine ⟨_, _, _, ft_ok g a ha hp (x :: l) hxl' nz, ft_ok g a ha hp [x] (by simpa using hx) nz,
    ft_ok ({ g with grid := some (transformed g a [x] nz),
                    fourier := flipped g.fourier [x] } : Grid ℝ ℂ) (transformed g a [x] nz) rfl
      (by exact hp) l (by exact hl) nz, ?_, ?_⟩
  · show (transformed g a (x :: l) nz).Same (backwardPart (forwardPart (transformed g a [x] nz)
      g.pix.vals (l.filter (fun i => !(flipped g.fourier [x]).getD i false)) nz) g.pix.vals
      (l.filter (fun i => (flipped g.fourier [x]).getD i false)) nz)
    have hfl : ∀ i ∈ l, (flipped g.fourier [x]).getD i false = g.fourier.getD i false := by
      intro i hi
      rw [flipped_getD _ _ _ (by rw [hg.fourier]; exact hl i hi), if_neg]
      simp only [List.mem_singleton]
      exact fun e => hxl (e ▸ hi)
    have f1 : l.filter (fun i => !(flipped g.fourier [x]).getD i false) =
        l.filter (fun i => !g.fourier.getD i false) :=
      List.filter_congr (fun i hi => by rw [hfl i hi])
    have f2 : l.filter (fun i => (flipped g.fourier [x]).getD i false) =
        l.filter (fun i => g.fourier.getD i false) :=
      List.filter_congr (fun i hi => by rw [hfl i hi])
    rw [f1, f2]
    set fw := l.filter (fun i => !g.fourier.getD i false) with hfw
    set bw := l.filter (fun i => g.fourier.getD i false) with hbw
    have l0 : x < a.shape.length := hg.axis_lt ha x hx
    have l0' : ∀ y ∈ [x], y < a.shape.length := by simpa using l0
    have l1 : ∀ y ∈ fw, y < a.shape.length :=
      fun y hy => hg.axis_lt ha y (hl y (List.mem_of_mem_filter hy))
    have l2 : ∀ y ∈ bw, y < a.shape.length :=
      fun y hy => hg.axis_lt ha y (hl y (List.mem_of_mem_filter hy))
    have x1 : x ∉ fw := fun h => hxl (List.mem_of_mem_filter h)
    have x2 : x ∉ bw := fun h => hxl (List.mem_of_mem_filter h)
    unfold transformed
    cases hxf : g.fourier.getD x false with
    | false =>
      simp only [List.filter_cons, hxf, Bool.not_false, if_true, List.filter_nil,
        Bool.false_eq_true, if_false, backward_nil]
      have h := forward_cons a g.pix.vals nz x fw x1 l0 l1
      have hx1 : ∀ y ∈ x :: fw, y < a.shape.length := by simpa using ⟨l0, l1⟩
      exact backward_same h g.pix.vals bw nz
        (by rw [forward_shape a g.pix.vals (x :: fw) nz hx1]; exact l2)
    | true =>
      simp only [List.filter_cons, hxf, Bool.not_true, if_true, List.filter_nil,
        Bool.false_eq_true, if_false, forward_nil]
      have s1 := forward_shape a g.pix.vals fw nz l1
      have h := backward_cons (forwardPart a g.pix.vals fw nz) g.pix.vals nz x bw x2
        (by rw [s1]; exact l0) (by rw [s1]; exact l2)
      refine h.trans (backward_same (backward_forward_comm a g.pix.vals nz x fw x1 l0 l1) _ _ _ ?_)
      rw [backward_shape _ _ _ _ (by rw [s1]; exact l0'), s1]
      exact l2
  · show ({ g with grid := none, fourier := flipped g.fourier (x :: l) } : Grid ℝ ℂ) =
      { g with grid := none, fourier := flipped (flipped g.fourier [x]) l }
    have : flipped g.fourier (x :: l) = flipped (flipped g.fourier [x]) l := by
      apply flags_ext (by simp [flipped])
      intro i hi
      have hi' : i < g.fourier.length := by simpa [flipped] using hi
      rw [flipped_getD _ _ _ hi', flipped_getD _ _ _ (by simpa [flipped] using hi'),
        flipped_getD _ _ _ hi']
      by_cases h1 : i = x
      · subst h1; simp [hxl]
      · simp [h1]
    rw [this]

/-! ## C63: what the values mean -/

/-- **C63**: after a normalised transform of one axis to Fourier space, the cell at position `k`
holds `∑ⱼ w·exp(-2πi·f·xⱼ)·aⱼ`, where `f` is the frequency the grid itself lists for position `k` of
that axis, `w` is the width of the cells and `xⱼ = j·w` is the distance from the first cell.
(With `C23_one_axis_at_a_time` this describes transforms of any set of axes.) -/
theorem C63_value (g : Grid ℝ ℂ) (hg : Regular g) (a : Arr ℂ) (ha : g.grid = some a)
    (hp : g.isPow = false) (ax : ℕ) (hax : ax < g.dim) (hf : g.fourier.getD ax false = false) :
    ∃ (g1 : Grid ℝ ℂ) (b : Arr ℂ) (n : ℕ) (w : ℝ) (fs : List ℝ),
      g.ft (some [ax]) true = (g1, .ok ()) ∧ g1.grid = some b ∧
      g.nPix[ax]? = some n ∧ g.pix.vals[ax]? = some w ∧ g1.fcenters[ax]? = some fs ∧
      b.shape = a.shape ∧
      ∀ i, Valid a.shape i → ∃ f, fs[i.getD ax 0]? = some f ∧
        b.get i = ∑ j ∈ Finset.range n,
          w * Complex.exp (-(2 * Real.pi * Complex.I * f * (j * w))) * a.get (i.set ax j) := by
  obtain ⟨n, w, c, hn, hw, q⟩ := hg.axis ax hax
  have l0 := hg.axis_lt ha ax hax
  have hsh : a.shape.getD ax 0 = n := by
    rw [hg.data a ha, List.getD_eq_getElem?_getD, List.getElem?_append_left (by rw [hg.nPix]; exact hax),
      q.nPix]
    rfl
  have hwd : g.pix.vals.getD ax 0 = w := by rw [List.getD_eq_getElem?_getD, q.pix]; rfl
  refine ⟨_, _, n, w, freqs n w, ft_ok g a ha hp [ax] (by simpa using hax) true, rfl, q.nPix, q.pix,
    q.fcenters, transformed_shape g hg a ha [ax] (by simpa using hax) true, ?_⟩
  intro i hi
  have hk : i.getD ax 0 < n := by rw [← hsh]; exact valid_getD hi ax l0
  have hilen : i.length = a.shape.length := List.Forall₂.length_eq hi
  refine ⟨(((i.getD ax 0 : ℕ) : ℝ) - ((n / 2 : ℕ) : ℝ)) / (n * w), ?_, ?_⟩
  · unfold freqs
    rw [List.getElem?_map, List.getElem?_range hk]
    rfl
  have e : transformed g a [ax] true =
      ((a.along fftM ax).roll (((a.along fftM ax).shape.getD ax 0 / 2 : ℕ) : ℤ) ax).scale
        (1 * g.pix.vals.getD ax 0) := by
    unfold transformed
    simp only [List.filter_cons, hf, Bool.not_false, if_true, List.filter_nil, Bool.false_eq_true,
      if_false, backward_nil]
    unfold forwardPart pixProd
    simp only [if_true, List.map_cons, List.map_nil, List.prod_cons, List.prod_nil, one_mul, mul_one]
    rfl
  rw [e]
  show ((1 * g.pix.vals.getD ax 0 : ℝ) : ℂ) * (a.along fftM ax).get
    (i.set ax ((((i.getD ax 0 : ℕ) : ℤ) - ((a.shape.getD ax 0 / 2 : ℕ) : ℤ)) %
      ((a.shape.getD ax 0 : ℕ) : ℤ)).toNat) = _
  rw [hwd, one_mul]
  unfold Arr.along
  simp only
  rw [hsh, Finset.mul_sum]
  apply Finset.sum_congr rfl
  intro j hj
  have hset : (i.set ax ((((i.getD ax 0 : ℕ) : ℤ) - ((n / 2 : ℕ) : ℤ)) % (n : ℤ)).toNat).getD ax 0 =
      ((((i.getD ax 0 : ℕ) : ℤ) - ((n / 2 : ℕ) : ℤ)) % (n : ℤ)).toNat := by
    rw [List.getD_eq_getElem?_getD, List.getElem?_set_self (by rw [hilen]; exact l0)]
    rfl
  rw [hset, List.set_set]
  rw [← mul_assoc]
  congr 2
  -- the phases are equal
  unfold fftM
  generalize i.getD ax 0 = k at *
  have hn0 : (n : ℂ) ≠ 0 := by
    have : n ≠ 0 := by omega
    exact_mod_cast this
  have hw0 : (w : ℂ) ≠ 0 := by exact_mod_cast hw.ne'
  set z : ℤ := ((k : ℤ) - ((n / 2 : ℕ) : ℤ)) with hz
  have hzr : (((z % (n : ℤ)).toNat : ℕ) : ℂ) = (z : ℂ) - n * ((z / n : ℤ) : ℂ) := by
    have h0 := Int.emod_nonneg z (show (n : ℤ) ≠ 0 by omega)
    have h1 : (((z % (n : ℤ)).toNat : ℕ) : ℤ) = z - n * (z / n) := by
      rw [Int.toNat_of_nonneg h0, Int.emod_def]
    exact_mod_cast congrArg (Int.cast : ℤ → ℂ) h1
  rw [hzr, Complex.exp_eq_exp_iff_exists_int]
  refine ⟨(z / n) * j, ?_⟩
  have hzc : (z : ℂ) = (k : ℂ) - ((n / 2 : ℕ) : ℂ) := by
    rw [hz, Int.cast_sub, Int.cast_natCast, Int.cast_natCast]
  rw [hzc]
  push_cast
  field_simp
  ring

/-! ## C24: power spectra -/

theorem transformList_lt (f : List Bool) (ax : List ℕ) (d : ℕ) (h : ∀ i ∈ ax, i < d) :
    ∀ i ∈ transformList f ax d, i < d := by
  intro i hi
  unfold transformList at hi
  rcases List.mem_append.1 hi with h' | h'
  · exact h i (List.mem_of_mem_filter h')
  · exact List.mem_range.1 (List.mem_of_mem_filter h')

/-- After the preparation exactly the chosen axes are in Fourier space. -/
theorem flipped_transformList (f : List Bool) (ax : List ℕ) (d i : ℕ) (hd : d = f.length)
    (hi : i < d) : (flipped f (transformList f ax d)).getD i false = decide (i ∈ ax) := by
  rw [flipped_getD _ _ _ (hd ▸ hi)]
  unfold transformList
  generalize hf : f.getD i false = b
  by_cases h : i ∈ ax <;> cases b <;>
    simp only [h, hf, hi, List.mem_append, List.mem_filter, List.mem_range] <;> simp

/-- The calls that pass all checks at the start of `power_spectrum`. -/
structure Accepted (g : Grid ℝ ℂ) (cross : Option (Grid ℝ ℂ)) (ax : Option (List ℕ)) : Prop where
  data : g.grid ≠ none
  map : g.isPow = false
  axes : ∀ l, ax = some l → ∀ i ∈ l, i < g.dim
  cross : ∀ c, cross = some c → c.grid ≠ none ∧ c.isPow = false ∧ c.dim = g.dim ∧
    (c.nProps = 1 ∨ g.nProps = 1 ∨ c.nProps = g.nProps)

theorem crossOk_iff (g : Grid ℝ ℂ) (cross : Option (Grid ℝ ℂ)) :
    crossOk g cross = true ↔ ∀ c, cross = some c → c.grid ≠ none ∧ c.isPow = false ∧
      c.dim = g.dim ∧ (c.nProps = 1 ∨ g.nProps = 1 ∨ c.nProps = g.nProps) := by
  cases cross with
  | none => simp [crossOk]
  | some c =>
    simp only [crossOk, Bool.and_eq_true, Bool.not_eq_true', decide_eq_true_eq, Bool.or_eq_true,
      Option.some.injEq, forall_eq', Option.isSome_iff_ne_none]
    tauto

/-- A call that is refused by the checks changes nothing. -/
theorem C24_refused (g : Grid ℝ ℂ) (cross : Option (Grid ℝ ℂ)) (ax : Option (List ℕ))
    (inPlace nz : Bool) (h : ¬ Accepted g cross ax) :
    g.powerSpectrum cross ax inPlace nz = ⟨g, cross, .error .valueError⟩ := by
  unfold Grid.powerSpectrum
  by_cases h1 : g.grid = none
  · rw [if_pos h1]
  rw [if_neg h1]
  by_cases h2 : g.isPow = true
  · rw [if_pos h2]
  rw [if_neg h2]
  by_cases h3 : crossOk g cross = true
  · rw [if_neg (by simp [h3])]
    by_cases h4 : ∃ i ∈ ax.getD (List.range g.dim), g.dim ≤ i
    · simp only [if_pos h4]
    · exfalso
      apply h
      refine ⟨h1, by simpa using h2, ?_, (crossOk_iff g cross).1 h3⟩
      intro l hl i hi
      subst hl
      by_contra hc
      exact h4 ⟨i, hi, by omega⟩
  · rw [if_pos (by simpa using h3)]

/-- The rest of an accepted call. -/
noncomputable def spectrumBody (g : Grid ℝ ℂ) (cross : Option (Grid ℝ ℂ)) (l lc : List ℕ)
    (inPlace nz : Bool) : PowOut :=
  let g1 := (g.ft (some l) nz).1
  let c1 := crossFt cross lc nz
  let other := (c1.getD g1).data
  if inPlace then
    match crossPower g1.data other with
    | .error e => ⟨g1, c1, .error e⟩
    | .ok p =>
      let g2 := { g1 with grid := some p, isPow := true }
      ⟨g2, crossFt c1 lc nz, .ok g2⟩
  else
    match Grid.new g1.nProps g1.center g1.side g1.pix (some g1.axunits) (some g1.gridunits) with
    | .error e => ⟨g1, c1, .error e⟩
    | .ok (w : Grid ℝ ℂ) =>
      match crossPower g1.data other with
      | .error e => ⟨g1, c1, .error e⟩
      | .ok p =>
        ⟨(g1.ft (some l) nz).1, crossFt c1 lc nz,
          .ok { w with grid := some p, isPow := true, nObj := g1.nObj,
                       fourier := g1.fourier.map (fun _ => true) }⟩

/-- The axes that are transformed, as a list. -/
abbrev theAxes (g : Grid ℝ ℂ) (ax : Option (List ℕ)) : List ℕ := ax.getD (List.range g.dim)

theorem power_accepted (g : Grid ℝ ℂ) (cross : Option (Grid ℝ ℂ)) (ax : Option (List ℕ))
    (inPlace nz : Bool) (h : Accepted g cross ax) :
    g.powerSpectrum cross ax inPlace nz = spectrumBody g cross
      (transformList g.fourier (theAxes g ax) g.dim)
      ((cross.map (fun c => transformList c.fourier (theAxes g ax) g.dim)).getD []) inPlace nz := by
  unfold Grid.powerSpectrum
  have h4 : ¬ ∃ i ∈ ax.getD (List.range g.dim), g.dim ≤ i := by
    rintro ⟨i, hi, hd⟩
    cases ax with
    | none => simp at hi; omega
    | some l => exact absurd (h.axes l rfl i hi) (by omega)
  rw [if_neg h.data, if_neg (by simp [h.map]), if_neg (by simp [(crossOk_iff g cross).2 h.cross])]
  simp only [if_neg h4]
  rfl

theorem Accepted.axes' {g : Grid ℝ ℂ} {cross : Option (Grid ℝ ℂ)} {ax : Option (List ℕ)}
    (h : Accepted g cross ax) : ∀ i ∈ theAxes g ax, i < g.dim := by
  intro i hi
  cases ax with
  | none => simpa [theAxes] using hi
  | some l => exact h.axes l rfl i hi

/-- Two transforms of the same axes: a corollary of C23 for the way `power_spectrum` uses them. -/
theorem ft_twice (g : Grid ℝ ℂ) (hg : Regular g) (hd : g.grid ≠ none) (hp : g.isPow = false)
    (l : List ℕ) (hl : ∀ i ∈ l, i < g.dim) (nz : Bool) :
    Same ((g.ft (some l) nz).1.ft (some l) nz).1 g := by
  obtain ⟨a, ha⟩ := Option.ne_none_iff_exists'.1 hd
  obtain ⟨g1, g2, b, h1, h2, hs, -⟩ := C23_round_trip g hg a ha hp (some l)
    (by simpa using hl) nz
  rw [h1]
  simp only
  rw [h2]
  exact hs

/-- **C24, partial**: if the spectrum is returned as a new grid, the map and the cross map are
the same afterwards as before, whichever axes were in Fourier space. -/
theorem C24_restores_partial (g : Grid ℝ ℂ) (cross : Option (Grid ℝ ℂ)) (ax : Option (List ℕ))
    (nz : Bool) (hg : Regular g) (hc : ∀ c, cross = some c → Regular c) (p : Grid ℝ ℂ)
    (h : (g.powerSpectrum cross ax false nz).result = .ok p) :
    Same (g.powerSpectrum cross ax false nz).self g ∧
      (∀ c, cross = some c → ∃ c', (g.powerSpectrum cross ax false nz).cross = some c' ∧
        Same c' c) ∧
      (cross = none → (g.powerSpectrum cross ax false nz).cross = none) := by
  by_cases hacc : Accepted g cross ax
  swap
  · rw [C24_refused g cross ax false nz hacc] at h
    cases h
  have hl := transformList_lt g.fourier _ _ hacc.axes'
  rw [power_accepted g cross ax false nz hacc] at h ⊢
  unfold spectrumBody at h ⊢
  simp only [Bool.false_eq_true, if_false] at h ⊢
  generalize Grid.new (K := ℝ) (V := ℂ) _ _ _ _ _ _ = r at h ⊢
  cases r with
  | error e => cases h
  | ok w =>
    simp only at h ⊢
    generalize crossPower _ _ = s at h ⊢
    cases s with
    | error e => cases h
    | ok q =>
      simp only
      refine ⟨ft_twice g hg hacc.data hacc.map _ hl nz, ?_, ?_⟩
      · intro c e
        subst e
        obtain ⟨d1, d2, d3, -⟩ := hacc.cross c rfl
        exact ⟨_, rfl, ft_twice c (hc c rfl) d1 d2 _
          (by rw [d3]; exact transformList_lt c.fourier _ _ hacc.axes') nz⟩
      · intro e
        subst e
        rfl

/-- In place, the cross map is restored too; the map becomes the spectrum. -/
theorem C24_restores_cross (g : Grid ℝ ℂ) (c : Grid ℝ ℂ) (ax : Option (List ℕ))
    (nz : Bool) (hc : Regular c) (p : Grid ℝ ℂ)
    (h : (g.powerSpectrum (some c) ax true nz).result = .ok p) :
    (g.powerSpectrum (some c) ax true nz).self = p ∧
      ∃ c', (g.powerSpectrum (some c) ax true nz).cross = some c' ∧ Same c' c := by
  by_cases hacc : Accepted g (some c) ax
  swap
  · rw [C24_refused g _ ax true nz hacc] at h
    cases h
  rw [power_accepted g _ ax true nz hacc] at h ⊢
  unfold spectrumBody at h ⊢
  simp only [if_true] at h ⊢
  generalize crossPower _ _ = s at h ⊢
  cases s with
  | error e => cases h
  | ok q =>
    simp only [Except.ok.injEq] at h
    subst h
    obtain ⟨d1, d2, d3, -⟩ := hacc.cross c rfl
    exact ⟨rfl, _, rfl, ft_twice c hc d1 d2 _
      (by rw [d3]; exact transformList_lt c.fourier _ _ hacc.axes') nz⟩

/-- The full statement of the first half of C24: a call that does not work in place leaves the map
and the cross map as they were. -/
def C24_full : Prop :=
  ∀ (g : Grid ℝ ℂ) (cross : Option (Grid ℝ ℂ)) (ax : Option (List ℕ)) (nz : Bool), Regular g →
    (∀ c, cross = some c → Regular c) → Same (g.powerSpectrum cross ax false nz).self g

/-- An accepted call that fails leaves the map transformed: exactly the chosen axes are then
in Fourier space. -/
theorem C24_failure_leaves_transformed (g : Grid ℝ ℂ) (cross : Option (Grid ℝ ℂ))
    (ax : Option (List ℕ)) (inPlace nz : Bool) (hg : Regular g) (hacc : Accepted g cross ax)
    (e : Err) (h : (g.powerSpectrum cross ax inPlace nz).result = .error e) (i : ℕ)
    (hi : i < g.dim) :
    (g.powerSpectrum cross ax inPlace nz).self.fourier.getD i false =
      decide (i ∈ theAxes g ax) := by
  have hl := transformList_lt g.fourier _ _ hacc.axes'
  obtain ⟨a, ha⟩ := Option.ne_none_iff_exists'.1 hacc.data
  have key : (g.ft (some (transformList g.fourier (theAxes g ax) g.dim)) nz).1.fourier.getD i false =
      decide (i ∈ theAxes g ax) := by
    rw [ft_ok g a ha hacc.map _ hl nz]
    exact flipped_transformList g.fourier _ g.dim i hg.fourier.symm hi
  rw [power_accepted g cross ax inPlace nz hacc] at h ⊢
  unfold spectrumBody at h ⊢
  cases inPlace with
  | true =>
    simp only [if_true] at h ⊢
    generalize crossPower _ _ = s at h ⊢
    cases s with
    | error e => exact key
    | ok q => cases h
  | false =>
    simp only [Bool.false_eq_true, if_false] at h ⊢
    generalize Grid.new (K := ℝ) (V := ℂ) _ _ _ _ _ _ = r at h ⊢
    cases r with
    | error e => exact key
    | ok w =>
      simp only at h ⊢
      generalize crossPower _ _ = s at h ⊢
      cases s with
      | error e => exact key
      | ok q => cases h

theorem new_units_fail (g : Grid ℝ ℂ) (hg : Regular g) (hl : Labelled g) (n : ℕ)
    (gu : List (Option String)) (h1 : gu.length ≠ 1) (h2 : gu.length ≠ n) :
    (Grid.new n g.center g.side g.pix (some g.axunits) (some gu) : Except Err (Grid ℝ ℂ)) =
      .error .valueError := by
  have hau : spreadUnits (some g.axunits) g.center.vals.length = .ok g.axunits := by
    have : g.center.vals.length = g.axunits.length := hl.1.symm
    rw [this]; exact spreadUnits_full _
  obtain ⟨S, hS, -⟩ := spreadSide_full g.side g.center.vals.length hg.side
  have hP : spreadPix g.pix g.center.vals.length = .ok g.pix := by
    unfold spreadPix; exact if_pos hg.pix
  simp only [Grid.new, hS, hP, hau, spreadUnits_error _ _ h1 h2]

/-- When the call does not work in place and the list of units is not complete (as it is after
adding a property to a map with two or more units), the call fails, for every such map. -/
theorem C24_units_fail (g : Grid ℝ ℂ) (cross : Option (Grid ℝ ℂ)) (ax : Option (List ℕ))
    (nz : Bool) (hg : Regular g) (hl : Labelled g) (hu : g.gridunits.length ≠ 1)
    (hu' : g.gridunits.length ≠ g.nProps) :
    (g.powerSpectrum cross ax false nz).result = .error .valueError := by
  by_cases hacc : Accepted g cross ax
  swap
  · rw [C24_refused g cross ax false nz hacc]
  obtain ⟨a, ha⟩ := Option.ne_none_iff_exists'.1 hacc.data
  rw [power_accepted g cross ax false nz hacc]
  unfold spectrumBody
  simp only [Bool.false_eq_true, if_false,
    ft_ok g a ha hacc.map _ (transformList_lt g.fourier _ _ hacc.axes') nz]
  rw [new_units_fail g hg hl g.nProps g.gridunits hu hu']

theorem C24_full_false : ¬ C24_full := by
  intro h
  obtain ⟨g, -, hr, -, hl, hn, hu, -, hd, hpx, hf⟩ :=
    new_two (K := ℝ) (V := ℂ) 2 [some "K", some "Jy"] rfl
  -- the map after `add_new_prop`
  let g' : Grid ℝ ℂ := { g with grid := some (zeros (g.nPix ++ [3])), nProps := 3, isPow := false }
  have hr' : Regular g' := by
    refine ⟨hr.nPix, hr.pix, hr.side, hr.axes, hr.centers, hr.fcenters, hr.faxes, hr.fourier, ?_, ?_⟩
    · intro i hi
      obtain ⟨n, w, c, h1, h2, q⟩ := hr.axis i hi
      exact ⟨n, w, c, h1, h2, ⟨q.nPix, q.pix, q.center, q.side, q.axes, q.centers, q.fcenters,
        q.faxes⟩⟩
    · intro a ha
      have : some (zeros (g.nPix ++ [3])) = some a := ha
      rw [← Option.some.inj this]
      rfl
  have hacc : Accepted g' none none := ⟨by simp [g'], rfl, by simp, by simp⟩
  have hfail := C24_units_fail g' none none true hr' hl (by simp [g', hu]) (by simp [g', hu])
  have h1 := C24_failure_leaves_transformed g' none none false true hr' hacc _ hfail 0
    (by show 0 < g.dim; omega)
  have h2 := h g' none none true hr' (by simp)
  have h3 : (g'.powerSpectrum none none false true).self.fourier = [false] := by
    have := congrArg Grid.fourier h2.2
    exact this.trans hf
  rw [h3] at h1
  have : (0 : ℕ) ∈ theAxes g' none := by
    show (0 : ℕ) ∈ List.range g.dim
    rw [hd]; simp
  rw [decide_eq_true this] at h1
  cases h1

/-! ### The values -/

/-- The data of a map after the preparing transform. -/
theorem prepared (g : Grid ℝ ℂ) (hg : Regular g) (hd : g.grid ≠ none) (hp : g.isPow = false)
    (l : List ℕ) (hl : ∀ i ∈ l, i < g.dim) (nz : Bool) :
    (g.ft (some l) nz).1.data.shape = g.nPix ++ [g.nProps] ∧
      g.ft (some l) nz = ({ g with grid := some (g.ft (some l) nz).1.data,
                                   fourier := flipped g.fourier l }, .ok ()) := by
  obtain ⟨a, ha⟩ := Option.ne_none_iff_exists'.1 hd
  rw [ft_ok g a ha hp l hl nz]
  refine ⟨?_, rfl⟩
  show (transformed g a l nz).shape = _
  rw [transformed_shape g hg a ha l hl nz]
  exact hg.data a ha

/-- The map, overwritten by its spectrum. -/
def replaced (g : Grid ℝ ℂ) (f : List Bool) (q : Arr ℂ) : Grid ℝ ℂ :=
  { g with grid := some q, isPow := true, fourier := f }

/-- The new grid, filled with the spectrum. -/
def filled (w g : Grid ℝ ℂ) (q : Arr ℂ) : Grid ℝ ℂ :=
  { w with grid := some q, isPow := true, nObj := g.nObj,
           fourier := g.fourier.map (fun _ => true) }

/-- What a successful call returns. -/
theorem power_result (g : Grid ℝ ℂ) (cross : Option (Grid ℝ ℂ)) (ax : Option (List ℕ))
    (inPlace nz : Bool) (hg : Regular g) (p : Grid ℝ ℂ)
    (h : (g.powerSpectrum cross ax inPlace nz).result = .ok p) :
    Accepted g cross ax ∧ ∃ q, crossPower
        (g.ft (some (transformList g.fourier (theAxes g ax) g.dim)) nz).1.data
        ((crossFt cross ((cross.map (fun c => transformList c.fourier (theAxes g ax) g.dim)).getD [])
          nz).getD (g.ft (some (transformList g.fourier (theAxes g ax) g.dim)) nz).1).data = .ok q ∧
      ((inPlace = true ∧ p = replaced g
          (flipped g.fourier (transformList g.fourier (theAxes g ax) g.dim)) q) ∨
       (inPlace = false ∧ ∃ w : Grid ℝ ℂ, Grid.new g.nProps g.center g.side g.pix (some g.axunits)
          (some g.gridunits) = .ok w ∧ p = filled w g q)) := by
  by_cases hacc : Accepted g cross ax
  swap
  · rw [C24_refused g cross ax inPlace nz hacc] at h
    cases h
  refine ⟨hacc, ?_⟩
  have hl := transformList_lt g.fourier _ _ hacc.axes'
  obtain ⟨-, e⟩ := prepared g hg hacc.data hacc.map _ hl nz
  rw [power_accepted g cross ax inPlace nz hacc] at h
  unfold spectrumBody at h
  simp only at h
  cases inPlace with
  | true =>
    simp only [if_true] at h
    revert h
    generalize hs : crossPower _ _ = s
    intro h
    cases s with
    | error e => cases h
    | ok q =>
      simp only [Except.ok.injEq] at h
      refine ⟨q, rfl, .inl ⟨rfl, ?_⟩⟩
      rw [← h, e]
      rfl
  | false =>
    simp only [Bool.false_eq_true, if_false] at h
    revert h
    generalize hw : Grid.new (K := ℝ) (V := ℂ) _ _ _ _ _ _ = r
    generalize hs : crossPower _ _ = s
    intro h
    cases r with
    | error e => cases h
    | ok w =>
      cases s with
      | error e => cases h
      | ok q =>
        simp only [Except.ok.injEq] at h
        refine ⟨q, rfl, .inr ⟨rfl, w, ?_, ?_⟩⟩
        · rw [e] at hw
          exact hw
        · rw [← h, e]
          simp [flipped, filled]

/-- **C24**, second half: every value of the power spectrum of a map is a real number that is not
negative. -/
theorem C24_nonneg (g : Grid ℝ ℂ) (ax : Option (List ℕ)) (inPlace nz : Bool) (hg : Regular g)
    (p : Grid ℝ ℂ) (h : (g.powerSpectrum none ax inPlace nz).result = .ok p) :
    ∃ b, p.grid = some b ∧ b.shape = g.nPix ++ [g.nProps] ∧
      ∀ i, Valid b.shape i → ∃ x : ℝ, 0 ≤ x ∧ b.get i = x := by
  obtain ⟨hacc, q, hq, hp⟩ := power_result g none ax inPlace nz hg p h
  have hl := transformList_lt g.fourier _ _ hacc.axes'
  obtain ⟨hs, -⟩ := prepared g hg hacc.data hacc.map _ hl nz
  have hpq : p.grid = some q := by
    rcases hp with ⟨-, rfl⟩ | ⟨-, w, -, rfl⟩ <;> rfl
  simp only [crossFt, Option.map_none, Option.getD_none] at hq
  unfold crossPower at hq
  rw [hs, bshape_snoc, if_pos rfl] at hq
  simp only [Except.ok.injEq] at hq
  subst hq
  refine ⟨_, hpq, rfl, ?_⟩
  intro i _
  refine ⟨Complex.normSq ((g.ft (some (transformList g.fourier (theAxes g ax) g.dim)) nz).1.data.get
    (bindex (g.nPix ++ [g.nProps]) i)), Complex.normSq_nonneg _, ?_⟩
  simp only
  rw [Complex.mul_conj]
  simp

/-- For a map in real space, the power spectrum is the squared absolute value of its transform. -/
theorem C24_value (g : Grid ℝ ℂ) (ax : Option (List ℕ)) (inPlace nz : Bool) (hg : Regular g)
    (hreal : true ∉ g.fourier) (p : Grid ℝ ℂ)
    (h : (g.powerSpectrum none ax inPlace nz).result = .ok p) :
    ∃ (g1 : Grid ℝ ℂ) (a1 b : Arr ℂ), g.ft ax nz = (g1, .ok ()) ∧ g1.grid = some a1 ∧
      p.grid = some b ∧ b.shape = a1.shape ∧
      ∀ i, Valid b.shape i → b.get i = (Complex.normSq (a1.get i) : ℂ) := by
  obtain ⟨hacc, q, hq, hp⟩ := power_result g none ax inPlace nz hg p h
  have hl := transformList_lt g.fourier _ _ hacc.axes'
  obtain ⟨hs, e⟩ := prepared g hg hacc.data hacc.map _ hl nz
  have hfalse : ∀ i, g.fourier.getD i false = false := by
    intro i
    by_contra hc
    have hc : g.fourier.getD i false = true := by simpa using hc
    apply hreal
    rw [List.getD_eq_getElem?_getD] at hc
    rcases h' : g.fourier[i]? with _ | b
    · rw [h'] at hc; cases hc
    · rw [h'] at hc
      have : b = true := hc
      subst this
      exact List.mem_of_getElem? h'
  have htl : transformList g.fourier (theAxes g ax) g.dim = theAxes g ax := by
    unfold transformList
    simp only [hfalse, Bool.not_false, List.filter_true, Bool.and_false, List.filter_false,
      List.append_nil]
  rw [htl] at hq hs e
  have hpq : p.grid = some q := by
    rcases hp with ⟨-, rfl⟩ | ⟨-, w, -, rfl⟩ <;> rfl
  have hft : g.ft ax nz = g.ft (some (theAxes g ax)) nz := by cases ax <;> rfl
  simp only [crossFt, Option.map_none, Option.getD_none] at hq
  unfold crossPower at hq
  rw [hs, bshape_snoc, if_pos rfl] at hq
  simp only [Except.ok.injEq] at hq
  subst hq
  refine ⟨_, _, _, hft.trans e, rfl, hpq, hs.symm, ?_⟩
  intro i hi
  have hi : Valid (g.nPix ++ [g.nProps]) i := hi
  simp only
  rw [bindex_self _ _ hi, Complex.mul_conj]
  simp

/-- The cross spectrum with an equal copy of the map is the power spectrum of the map. -/
theorem C24_cross_with_itself (g c : Grid ℝ ℂ) (ax : Option (List ℕ)) (inPlace nz : Bool)
    (hg : Regular g) (hc : Same c g) (p : Grid ℝ ℂ)
    (h : (g.powerSpectrum none ax inPlace nz).result = .ok p) :
    ∃ p', (g.powerSpectrum (some c) ax inPlace nz).result = .ok p' ∧ Same p' p := by
  obtain ⟨hacc, q, hq, hp⟩ := power_result g none ax inPlace nz hg p h
  have hl := transformList_lt g.fourier _ _ hacc.axes'
  obtain ⟨a, ha⟩ := Option.ne_none_iff_exists'.1 hacc.data
  obtain ⟨a', rfl, hs⟩ : ∃ a', c = { g with grid := some a' } ∧ a'.Same a := by
    obtain ⟨h1, h2⟩ := hc
    rw [ha] at h1
    rcases hcg : c.grid with _ | a'
    · rw [hcg] at h1; exact h1.elim
    · rw [hcg] at h1
      refine ⟨a', ?_, h1⟩
      cases c
      cases g
      simp only [Grid.mk.injEq] at h2 hcg ⊢
      simp_all
  have hacc' : Accepted g (some { g with grid := some a' }) ax :=
    ⟨hacc.data, hacc.map, hacc.axes, by
      intro c hc
      have hc := Option.some.inj hc
      subst hc
      exact ⟨by simp, hacc.map, rfl, by simp⟩⟩
  have hr' : Regular ({ g with grid := some a' } : Grid ℝ ℂ) := by
    refine ⟨hg.nPix, hg.pix, hg.side, hg.axes, hg.centers, hg.fcenters, hg.faxes, hg.fourier, ?_, ?_⟩
    · intro i hi
      obtain ⟨n, w, c, h1, h2, q⟩ := hg.axis i hi
      exact ⟨n, w, c, h1, h2, ⟨q.nPix, q.pix, q.center, q.side, q.axes, q.centers, q.fcenters,
        q.faxes⟩⟩
    · intro b hb
      have hb := Option.some.inj hb
      subst hb
      rw [hs.1]
      exact hg.data a ha
  set l := transformList g.fourier (theAxes g ax) g.dim with hldef
  have e := ft_ok g a ha hacc.map l hl nz
  have e' := ft_ok ({ g with grid := some a' } : Grid ℝ ℂ) a' rfl hacc.map l hl nz
  have ht : (transformed ({ g with grid := some a' } : Grid ℝ ℂ) a' l nz).Same
      (transformed g a l nz) := by
    have l1 : ∀ x ∈ l, x < a'.shape.length := by
      rw [hs.1]; exact fun x hx => hg.axis_lt ha x (hl x hx)
    have h1 := forward_same hs g.pix.vals (l.filter (fun i => !g.fourier.getD i false)) nz
      (fun x hx => l1 x (List.mem_of_mem_filter hx))
    exact backward_same h1 g.pix.vals _ nz (by
      rw [forward_shape _ _ _ _ (fun x hx => l1 x (List.mem_of_mem_filter hx))]
      exact fun x hx => l1 x (List.mem_of_mem_filter hx))
  have hsh : (transformed g a l nz).shape = g.nPix ++ [g.nProps] :=
    (transformed_shape g hg a ha l hl nz).trans (hg.data a ha)
  -- the two products
  have hq1 : crossPower (transformed g a l nz) (transformed g a l nz) = .ok q := by
    simp only [crossFt, Option.map_none, Option.getD_none] at hq
    rw [e] at hq
    exact hq
  obtain ⟨q', hq', hqs⟩ : ∃ q', crossPower (transformed g a l nz)
      (transformed ({ g with grid := some a' } : Grid ℝ ℂ) a' l nz) = .ok q' ∧ q'.Same q := by
    unfold crossPower at hq1 ⊢
    rw [ht.1]
    rw [hsh, bshape_snoc, if_pos rfl] at hq1 ⊢
    simp only [Except.ok.injEq] at hq1
    refine ⟨_, rfl, ?_⟩
    subst hq1
    refine ⟨rfl, ?_⟩
    intro i hi
    have hi : Valid (g.nPix ++ [g.nProps]) i := hi
    simp only
    rw [bindex_self _ _ hi, ht.2 i (by rw [ht.1, hsh]; exact hi)]
  rw [power_accepted g _ ax inPlace nz hacc']
  unfold spectrumBody
  simp only [crossFt, Option.map_some, Option.getD_some]
  rw [← hldef, e, e']
  simp only [Grid.data, Option.getD_some]
  rcases hp with ⟨rfl, rfl⟩ | ⟨rfl, w, hw, rfl⟩
  · simp only [if_true, hq']
    exact ⟨_, rfl, hqs, rfl⟩
  · simp only [Bool.false_eq_true, if_false, hw, hq']
    refine ⟨_, rfl, hqs, ?_⟩
    simp [filled, flipped]

/-- When the call succeeds: complete lists of units (or the result replaces the map) and, for a
cross spectrum, equal numbers of cells.  The spectrum has the axes and the number of objects of
the map. -/
theorem C24_succeeds (g : Grid ℝ ℂ) (cross : Option (Grid ℝ ℂ)) (ax : Option (List ℕ))
    (inPlace nz : Bool) (hg : Regular g) (hc : ∀ c, cross = some c → Regular c) (hl : Labelled g)
    (hu : inPlace = true ∨ g.gridunits.length = 1 ∨ g.gridunits.length = g.nProps)
    (hn : ∀ c, cross = some c → c.nPix = g.nPix) (hacc : Accepted g cross ax) :
    ∃ p, (g.powerSpectrum cross ax inPlace nz).result = .ok p ∧ SameAxes g p ∧ p.isPow = true ∧
      p.nObj = g.nObj := by
  have htl := transformList_lt g.fourier _ _ hacc.axes'
  obtain ⟨hs, e⟩ := prepared g hg hacc.data hacc.map _ htl nz
  obtain ⟨q, hq⟩ : ∃ q, crossPower
        (g.ft (some (transformList g.fourier (theAxes g ax) g.dim)) nz).1.data
        ((crossFt cross ((cross.map (fun c => transformList c.fourier (theAxes g ax) g.dim)).getD [])
          nz).getD (g.ft (some (transformList g.fourier (theAxes g ax) g.dim)) nz).1).data =
        .ok q := by
    unfold crossPower
    cases cross with
    | none =>
      simp only [crossFt, Option.map_none, Option.getD_none]
      rw [hs, bshape_snoc, if_pos rfl]
      exact ⟨_, rfl⟩
    | some c =>
      simp only [crossFt, Option.map_some, Option.getD_some]
      obtain ⟨d1, d2, d3, d4⟩ := hacc.cross c rfl
      obtain ⟨hs', -⟩ := prepared c (hc c rfl) d1 d2 _
        (by rw [d3]; exact transformList_lt c.fourier _ _ hacc.axes') nz
      rw [hs, hs', hn c rfl, bshape_snoc]
      by_cases h1 : g.nProps = c.nProps
      · rw [if_pos h1]; exact ⟨_, rfl⟩
      · rw [if_neg h1]
        by_cases h2 : g.nProps = 1
        · rw [if_pos h2]; exact ⟨_, rfl⟩
        · rw [if_neg h2, if_pos (by omega)]; exact ⟨_, rfl⟩
  rw [power_accepted g cross ax inPlace nz hacc]
  unfold spectrumBody
  simp only [hq]
  cases inPlace with
  | true =>
    refine ⟨_, rfl, ?_, rfl, ?_⟩
    · rw [e]
      exact ⟨rfl, rfl, rfl, rfl, rfl, rfl, rfl, rfl, rfl, rfl⟩
    · rw [e]
  | false =>
    simp only [Bool.false_eq_true, if_false]
    have hu : g.gridunits.length = 1 ∨ g.gridunits.length = g.nProps := by simpa using hu
    obtain ⟨w, hw, -, hsa, -⟩ := rebuild g hg hl g.nProps g.gridunits hu
    have hw' : Grid.new (g.ft (some (transformList g.fourier (theAxes g ax) g.dim)) nz).1.nProps
        (g.ft (some (transformList g.fourier (theAxes g ax) g.dim)) nz).1.center
        (g.ft (some (transformList g.fourier (theAxes g ax) g.dim)) nz).1.side
        (g.ft (some (transformList g.fourier (theAxes g ax) g.dim)) nz).1.pix
        (some (g.ft (some (transformList g.fourier (theAxes g ax) g.dim)) nz).1.axunits)
        (some (g.ft (some (transformList g.fourier (theAxes g ax) g.dim)) nz).1.gridunits) =
        .ok w := by
      rw [e]; exact hw
    simp only [hw']
    refine ⟨_, rfl, ?_, rfl, ?_⟩
    · exact ⟨hsa.center, hsa.side, hsa.pix, hsa.nPix, hsa.axunits, hsa.faxunits, hsa.axes,
        hsa.centers, hsa.faxes, hsa.fcenters⟩
    · rw [e]

/-- A cross map with another number of cells along some axis is only noticed after both maps have
been transformed; the call fails and (by `C24_failure_leaves_transformed`) leaves the map so. -/
theorem C24_shapes_fail (g c : Grid ℝ ℂ) (ax : Option (List ℕ)) (inPlace nz : Bool)
    (hg : Regular g) (hc : Regular c) (hd : c.dim = g.dim) (hn : c.nPix ≠ g.nPix) (p : Grid ℝ ℂ) :
    (g.powerSpectrum (some c) ax inPlace nz).result ≠ .ok p := by
  intro h
  obtain ⟨hacc, q, hq, -⟩ := power_result g (some c) ax inPlace nz hg p h
  obtain ⟨hs, -⟩ := prepared g hg hacc.data hacc.map _
    (transformList_lt g.fourier _ _ hacc.axes') nz
  obtain ⟨d1, d2, d3, d4⟩ := hacc.cross c rfl
  obtain ⟨hs', -⟩ := prepared c hc d1 d2 _
    (by rw [d3]; exact transformList_lt c.fourier _ _ hacc.axes') nz
  simp only [crossFt, Option.map_some, Option.getD_some] at hq
  unfold crossPower at hq
  rw [hs, hs'] at hq
  obtain ⟨i, hi, hne⟩ : ∃ i, i < g.dim ∧ c.nPix[i]? ≠ g.nPix[i]? := by
    by_contra hcon
    push Not at hcon
    apply hn
    apply List.ext_getElem?
    intro i
    by_cases hi : i < g.dim
    · exact hcon i hi
    · rw [List.getElem?_eq_none (by rw [hc.nPix, hd]; omega),
        List.getElem?_eq_none (by rw [hg.nPix]; omega)]
  obtain ⟨n, w1, c1, hn2, _, q1⟩ := hg.axis i hi
  obtain ⟨m, w2, c2, hm2, _, q2⟩ := hc.axis i (by omega)
  rw [bshape_none _ _ i n m
    (by rw [List.getElem?_append_left (by rw [hg.nPix]; omega)]; exact q1.nPix)
    (by rw [List.getElem?_append_left (by rw [hc.nPix]; omega)]; exact q2.nPix) hn2 hm2
    (fun e => hne (by rw [q1.nPix, q2.nPix, e]))] at hq
  cases hq

/-! ## C58: the spectrum says which axes are in Fourier space -/

/-- The full statement of C58: the returned spectrum is labelled as being in Fourier space along
exactly the axes that were chosen. -/
def C58_full : Prop :=
  ∀ (g : Grid ℝ ℂ) (cross : Option (Grid ℝ ℂ)) (ax : Option (List ℕ)) (inPlace nz : Bool)
    (p : Grid ℝ ℂ), Regular g → (g.powerSpectrum cross ax inPlace nz).result = .ok p →
    ∀ i < g.dim, p.fourier.getD i false = decide (i ∈ theAxes g ax)

/-- **C58, partial**: right if the result replaces the map, or if all axes were chosen. -/
theorem C58_partial (g : Grid ℝ ℂ) (cross : Option (Grid ℝ ℂ)) (ax : Option (List ℕ))
    (inPlace nz : Bool) (p : Grid ℝ ℂ) (hg : Regular g)
    (h : (g.powerSpectrum cross ax inPlace nz).result = .ok p)
    (hall : inPlace = true ∨ ∀ i < g.dim, i ∈ theAxes g ax) :
    ∀ i < g.dim, p.fourier.getD i false = decide (i ∈ theAxes g ax) := by
  intro i hi
  obtain ⟨hacc, q, -, hp⟩ := power_result g cross ax inPlace nz hg p h
  rcases hp with ⟨-, rfl⟩ | ⟨rfl, w, -, rfl⟩
  · exact flipped_transformList _ _ _ _ hg.fourier.symm hi
  · have := hall.resolve_left (by simp) i hi
    rw [decide_eq_true this]
    simp [filled, List.getD_eq_getElem?_getD, hg.fourier, hi]

/-- In a new grid all axes are labelled as Fourier axes; so the label is wrong for every map and every
axis that was not chosen. -/
theorem C58_always_wrong (g : Grid ℝ ℂ) (cross : Option (Grid ℝ ℂ)) (ax : Option (List ℕ))
    (nz : Bool) (p : Grid ℝ ℂ) (hg : Regular g)
    (h : (g.powerSpectrum cross ax false nz).result = .ok p) (i : ℕ) (hi : i < g.dim)
    (hax : i ∉ theAxes g ax) : p.fourier.getD i false ≠ decide (i ∈ theAxes g ax) := by
  obtain ⟨hacc, q, -, hp⟩ := power_result g cross ax false nz hg p h
  rcases hp with ⟨h, -⟩ | ⟨-, w, -, rfl⟩
  · cases h
  · simp [hax, filled, List.getD_eq_getElem?_getD, hg.fourier, hi]

/-- A two-dimensional example with ten by ten cells, and a value for each cell. -/
theorem new_square' (m : ℕ) (a : Arr ℂ) (ha : a.shape = [10, 10, m]) :
    ∃ g : Grid ℝ ℂ, (Regular g ∧ Labelled g ∧ g.nProps = m ∧ g.gridunits.length = m ∧
      g.grid = some a ∧ g.dim = 2 ∧ g.nPix = [10, 10] ∧ g.fourier = [false, false] ∧
      g.isPow = false) ∧ g.center.vals = [0, 0] := by
  have hu : spreadUnits none m = .ok (List.replicate m none) := rfl
  obtain ⟨g, b1, b2, b3, b4, b5, b6, b7, b8, b9, b10, b11, b12, b13, b14⟩ :=
    new_ok (V := ℂ) m (⟨false, [0, 0]⟩ : NArr ℝ) ⟨false, [10, 10]⟩ ⟨false, [1, 1]⟩ ⟨false, [10, 10]⟩
      ⟨false, [1, 1]⟩ none none [none, none] (List.replicate m none) rfl rfl rfl hu (by simp)
      [10, 10] (by
        have h : pixelCount (10 : ℝ) 1 = .ok 10 := by
          rw [pixelCount_ok _ _ one_pos]
          norm_num
        simp [mapE, h])
  have hd : g.dim = 2 := by simp [Grid.dim, b3]
  refine ⟨{ g with grid := some a }, ⟨?_, ?_, b6, by simp [b11], rfl, hd, b5, by simpa using b12, b13⟩,
    by show g.center.vals = _; rw [b3]⟩
  · refine ⟨b2.nPix, b2.pix, b2.side, b2.axes, b2.centers, b2.fcenters, b2.faxes, b2.fourier, ?_, ?_⟩
    · intro i hi
      obtain ⟨n, w, c, h1, h2, q⟩ := b2.axis i hi
      exact ⟨n, w, c, h1, h2, ⟨q.nPix, q.pix, q.center, q.side, q.axes, q.centers, q.fcenters,
        q.faxes⟩⟩
    · intro b hb
      have hb := Option.some.inj hb
      subst hb
      show a.shape = g.nPix ++ [g.nProps]
      rw [b5, b6, ha]
      rfl
  · exact ⟨by show g.axunits.length = g.dim; rw [b9, hd]; rfl,
      by show g.faxunits = _; rw [b10, ← b9]⟩

theorem new_square (m : ℕ) (a : Arr ℂ) (ha : a.shape = [10, 10, m]) :
    ∃ g : Grid ℝ ℂ, Regular g ∧ Labelled g ∧ g.nProps = m ∧ g.gridunits.length = m ∧
      g.grid = some a ∧ g.dim = 2 ∧ g.nPix = [10, 10] ∧ g.fourier = [false, false] ∧
      g.isPow = false :=
  let ⟨g, h, _⟩ := new_square' m a ha
  ⟨g, h⟩

theorem C58_full_false : ¬ C58_full := by
  intro h
  obtain ⟨g, hr, hl, hn, hu, hg, hd, hpx, hf, hp⟩ := new_square 1 (zeros [10, 10, 1]) rfl
  have hacc : Accepted g none (some [0]) := ⟨by simp [hg], hp, by simp [hd], by simp⟩
  obtain ⟨p, hp, -⟩ := C24_succeeds g none (some [0]) false true hr (by simp) hl
    (.inr (.inr (by omega))) (by simp) hacc
  exact C58_always_wrong g none (some [0]) true p hr hp 1 (by omega) (by simp [theAxes])
    (h g none (some [0]) false true p hr hp 1 (by omega))

/-! ## C64: the spectrum is a well-formed grid -/

/-- The full statement of C64: the number of properties and of cells of the returned grid are those
of its data. -/
def C64_full : Prop :=
  ∀ (g : Grid ℝ ℂ) (cross : Option (Grid ℝ ℂ)) (ax : Option (List ℕ)) (inPlace nz : Bool)
    (p : Grid ℝ ℂ) (b : Arr ℂ), Regular g → Labelled g → (∀ c, cross = some c → Regular c) →
    (g.powerSpectrum cross ax inPlace nz).result = .ok p → p.grid = some b →
    b.shape = p.nPix ++ [p.nProps]

theorem power_shape (g : Grid ℝ ℂ) (cross : Option (Grid ℝ ℂ)) (ax : Option (List ℕ))
    (inPlace nz : Bool) (p : Grid ℝ ℂ) (b : Arr ℂ) (hg : Regular g) (hl : Labelled g)
    (hc : ∀ c, cross = some c → Regular c)
    (h : (g.powerSpectrum cross ax inPlace nz).result = .ok p) (hb : p.grid = some b) :
    p.nPix = g.nPix ∧ p.nProps = g.nProps ∧ b.shape = g.nPix ++
      [if g.nProps = 1 then (cross.map Grid.nProps).getD 1 else g.nProps] := by
  obtain ⟨hacc, q, hq, hp⟩ := power_result g cross ax inPlace nz hg p h
  obtain ⟨hs, -⟩ := prepared g hg hacc.data hacc.map _
    (transformList_lt g.fourier _ _ hacc.axes') nz
  have hqs : q.shape = g.nPix ++
      [if g.nProps = 1 then (cross.map Grid.nProps).getD 1 else g.nProps] := by
    cases cross with
    | none =>
      simp only [crossFt, Option.map_none, Option.getD_none] at hq ⊢
      unfold crossPower at hq
      rw [hs, bshape_snoc, if_pos rfl] at hq
      simp only [Except.ok.injEq] at hq
      subst hq
      simp only
      split_ifs with h1
      · rw [h1]
      · rfl
    | some c =>
      obtain ⟨d1, d2, d3, d4⟩ := hacc.cross c rfl
      obtain ⟨hs', -⟩ := prepared c (hc c rfl) d1 d2 _
        (by rw [d3]; exact transformList_lt c.fourier _ _ hacc.axes') nz
      have hnp : c.nPix = g.nPix := by
        by_contra hne
        exact C24_shapes_fail g c ax inPlace nz hg (hc c rfl) d3 hne p h
      simp only [crossFt, Option.map_some, Option.getD_some] at hq ⊢
      unfold crossPower at hq
      rw [hs, hs', hnp, bshape_snoc] at hq
      by_cases h1 : g.nProps = c.nProps
      · rw [if_pos h1] at hq
        simp only [Except.ok.injEq] at hq
        subst hq
        simp [h1]
      · rw [if_neg h1] at hq
        by_cases h2 : g.nProps = 1
        · rw [if_pos h2] at hq
          simp only [Except.ok.injEq] at hq
          subst hq
          simp [h2]
        · rw [if_neg h2] at hq
          by_cases h3 : c.nProps = 1
          · rw [if_pos h3] at hq
            simp only [Except.ok.injEq] at hq
            subst hq
            simp [h2]
          · omega
  rcases hp with ⟨-, rfl⟩ | ⟨rfl, w, hw, rfl⟩
  · have : q = b := Option.some.inj hb
    subst this
    exact ⟨rfl, rfl, hqs⟩
  · have : q = b := Option.some.inj hb
    subst this
    have hu : g.gridunits.length = 1 ∨ g.gridunits.length = g.nProps := by
      by_contra hcon
      push Not at hcon
      rw [new_units_fail g hg hl g.nProps g.gridunits hcon.1 hcon.2] at hw
      cases hw
    obtain ⟨w', hw', -, hsa, hn, -⟩ := rebuild g hg hl g.nProps g.gridunits hu
    rw [hw'] at hw
    have := Except.ok.inj hw
    subst this
    exact ⟨hsa.nPix, hn, hqs⟩

/-- **C64, partial**: right unless a map with one property is crossed with a map with several. -/
theorem C64_partial (g : Grid ℝ ℂ) (cross : Option (Grid ℝ ℂ)) (ax : Option (List ℕ))
    (inPlace nz : Bool) (p : Grid ℝ ℂ) (b : Arr ℂ) (hg : Regular g) (hl : Labelled g)
    (hc : ∀ c, cross = some c → Regular c)
    (hn : g.nProps = 1 → ∀ c, cross = some c → c.nProps = 1)
    (h : (g.powerSpectrum cross ax inPlace nz).result = .ok p) (hb : p.grid = some b) :
    b.shape = p.nPix ++ [p.nProps] := by
  obtain ⟨h1, h2, h3⟩ := power_shape g cross ax inPlace nz p b hg hl hc h hb
  rw [h1, h2, h3]
  by_cases hp : g.nProps = 1
  · cases cross with
    | none => simp [hp]
    | some c => simp [hp, hn hp c rfl]
  · rw [if_neg hp]

/-- … and always wrong then. -/
theorem C64_always_wrong (g c : Grid ℝ ℂ) (ax : Option (List ℕ))
    (inPlace nz : Bool) (p : Grid ℝ ℂ) (b : Arr ℂ) (hg : Regular g) (hl : Labelled g)
    (hc : Regular c) (hn : g.nProps = 1) (hn' : c.nProps ≠ 1)
    (h : (g.powerSpectrum (some c) ax inPlace nz).result = .ok p) (hb : p.grid = some b) :
    b.shape ≠ p.nPix ++ [p.nProps] := by
  obtain ⟨h1, h2, h3⟩ := power_shape g (some c) ax inPlace nz p b hg hl (by simpa using hc) h hb
  rw [h1, h2, h3, if_pos hn, hn]
  simpa using hn'

theorem C64_full_false : ¬ C64_full := by
  intro h
  obtain ⟨g, hr, hl, hn, hu, hg, hd, hpx, hf, hp⟩ := new_square 1 (zeros [10, 10, 1]) rfl
  obtain ⟨c, hr', hl', hn', hu', hg', hd', hpx', hf', hp'⟩ := new_square 2 (zeros [10, 10, 2]) rfl
  have hacc : Accepted g (some c) none :=
    ⟨by simp [hg], hp, by simp, by
      intro c' e
      have := Option.some.inj e
      subst this
      exact ⟨by simp [hg'], hp', by omega, by omega⟩⟩
  obtain ⟨p, hp, -⟩ := C24_succeeds g (some c) none false true hr (by simpa using hr') hl
    (.inr (.inr (by omega))) (by simp [hpx, hpx']) hacc
  obtain ⟨-, q, -, hq⟩ := power_result g (some c) none false true hr p hp
  have hb : p.grid = some q := by
    rcases hq with ⟨-, rfl⟩ | ⟨-, w, -, rfl⟩ <;> rfl
  exact C64_always_wrong g c none false true p q hr hl hr' hn (by omega) hp hb
    (h g (some c) none false true p q hr hl (by simpa using hr') hp hb)

/-! ## The hypotheses are met -/

/-- A map with two properties whose values differ from cell to cell. -/
def ramp : Arr ℂ := ⟨[10, 10, 2], fun i => ((i.headD 0 : ℕ) : ℂ) + (i.getLastD 0 : ℕ)⟩

/-- C23: a map with different values; one axis, both, and both in the other order. -/
example : ∃ g : Grid ℝ ℂ, Regular g ∧ g.grid = some ramp ∧ g.isPow = false ∧
    ramp.get [3, 0, 1] ≠ ramp.get [4, 0, 1] ∧
    (∃ g1 g2, g.ft (some [1]) true = (g1, .ok ()) ∧ g1.ft (some [1]) true = (g2, .ok ()) ∧
      Same g2 g ∧ g1.fourier.getD 1 false = true ∧ g1.fourier.getD 0 false = false) ∧
    (∃ g1 g2, g.ft (some [0, 1]) false = (g1, .ok ()) ∧ g.ft (some [1, 0]) false = (g2, .ok ()) ∧
      Same g1 g2) := by
  obtain ⟨g, hr, hl, hn, hu, hg, hd, hpx, hf, hp⟩ := new_square 2 ramp rfl
  refine ⟨g, hr, hg, hp, by simp [ramp], ?_, ?_⟩
  · obtain ⟨g1, g2, b, h1, h2, h3, -, -, -, h4⟩ := C23_round_trip g hr ramp hg hp (some [1])
      (by simp [hd]) true
    exact ⟨g1, g2, h1, h2, h3, by rw [h4 1 (by omega)]; simp [hf],
      by rw [h4 0 (by omega)]; simp [hf]⟩
  · obtain ⟨g1, g2, h1, h2, h3⟩ := C23_axis_order g hr ramp hg hp [0, 1] [1, 0] (by simp [hd])
      (List.Perm.swap 1 0 []) false
    exact ⟨g1, g2, h1, h2, h3⟩

/-- C23, C63: transforms of one axis after the other; the value at one frequency. -/
example : ∃ g : Grid ℝ ℂ, Regular g ∧ g.grid = some ramp ∧
    (∃ g1 g2 g3, g.ft (some [0, 1]) true = (g1, .ok ()) ∧ g.ft (some [0]) true = (g2, .ok ()) ∧
      g2.ft (some [1]) true = (g3, .ok ()) ∧ Same g1 g3) ∧
    ∃ (g1 : Grid ℝ ℂ) (b : Arr ℂ) (f : ℝ), g.ft (some [0]) true = (g1, .ok ()) ∧ g1.grid = some b ∧
      (∃ fs, g1.fcenters[0]? = some fs ∧ fs[7]? = some f) ∧
      ∃ (n : ℕ) (w : ℝ), b.get [7, 2, 1] = ∑ j ∈ Finset.range n,
        w * Complex.exp (-(2 * Real.pi * Complex.I * f * (j * w))) * ramp.get [j, 2, 1] := by
  obtain ⟨g, hr, hl, hn, hu, hg, hd, hpx, hf, hp⟩ := new_square 2 ramp rfl
  refine ⟨g, hr, hg, ?_, ?_⟩
  · exact C23_one_axis_at_a_time g hr ramp hg hp 0 [1] (by omega) (by simp [hd]) (by simp) true
  · obtain ⟨g1, b, n, w, fs, h1, h2, -, -, h5, -, h7⟩ := C63_value g hr ramp hg hp 0 (by omega)
      (by simp [hf])
    obtain ⟨f, hf, hv⟩ := h7 [7, 2, 1] (by decide)
    exact ⟨g1, b, f, h1, h2, ⟨fs, h5, hf⟩, n, w, hv⟩

/-- C24, C58: a spectrum along one axis of a map with two properties, also crossed with itself. -/
example : ∃ (g p : Grid ℝ ℂ), Regular g ∧ Labelled g ∧ g.grid = some ramp ∧
    (g.powerSpectrum none (some [1]) false true).result = .ok p ∧
    Same (g.powerSpectrum none (some [1]) false true).self g ∧
    (∃ b, p.grid = some b ∧ ∃ x : ℝ, 0 ≤ x ∧ b.get [3, 4, 1] = x) ∧
    ∃ p', (g.powerSpectrum (some g) (some [1]) false true).result = .ok p' ∧ Same p' p := by
  obtain ⟨g, hr, hl, hn, hu, hg, hd, hpx, hf, hp⟩ := new_square 2 ramp rfl
  have hacc : Accepted g none (some [1]) := ⟨by simp [hg], hp, by simp [hd], by simp⟩
  obtain ⟨p, hp', -⟩ := C24_succeeds g none (some [1]) false true hr (by simp) hl
    (.inr (.inr (by omega))) (by simp) hacc
  refine ⟨g, p, hr, hl, hg, hp', (C24_restores_partial g none (some [1]) true hr (by simp) p hp').1,
    ?_, ?_⟩
  · obtain ⟨b, h1, h2, h3⟩ := C24_nonneg g (some [1]) false true hr p hp'
    exact ⟨b, h1, h3 _ (by rw [h2, hpx, hn]; decide)⟩
  · exact C24_cross_with_itself g g (some [1]) false true hr
      ⟨by rw [hg]; exact .refl _, rfl⟩ p hp'

/-- C24, failures: cross maps of different size pass the checks. -/
example : ∃ (g c : Grid ℝ ℂ), Regular g ∧ Regular c ∧ c.dim = g.dim ∧ c.nPix ≠ g.nPix ∧
    Accepted g (some c) none := by
  obtain ⟨g, -, hr, -, hl, hn, hu, -, hd, hpx, hf⟩ := new_two (K := ℝ) (V := ℂ) 1 [none] rfl
  obtain ⟨c, hr', hd', hn', hpx'⟩ : ∃ c : Grid ℝ ℂ, Regular c ∧ c.dim = 1 ∧ c.nProps = 1 ∧
      c.nPix = [5] := by
    obtain ⟨c, b1, b2, b3, b4, b5, b6, -⟩ :=
      new_ok (V := ℂ) 1 (⟨false, [0]⟩ : NArr ℝ) ⟨false, [10]⟩ ⟨false, [2]⟩ ⟨false, [10]⟩
        ⟨false, [2]⟩ none none [none] [none] rfl rfl rfl rfl (by simp) [5] (by
          have h : pixelCount (10 : ℝ) 2 = .ok 5 := by
            rw [pixelCount_ok _ _ two_pos]
            norm_num
          simp [mapE, h])
    exact ⟨c, b2, by simp [Grid.dim, b3], b6, b5⟩
  have reg : ∀ h : Grid ℝ ℂ, Regular h → Regular
      ({ h with isPow := false, grid := some (zeros (h.nPix ++ [h.nProps])) } : Grid ℝ ℂ) := by
    intro h hr
    refine ⟨hr.nPix, hr.pix, hr.side, hr.axes, hr.centers, hr.fcenters, hr.faxes, hr.fourier, ?_, ?_⟩
    · intro i hi
      obtain ⟨n, w, c, h1, h2, q⟩ := hr.axis i hi
      exact ⟨n, w, c, h1, h2, ⟨q.nPix, q.pix, q.center, q.side, q.axes, q.centers, q.fcenters,
        q.faxes⟩⟩
    · intro b hb
      have hb := Option.some.inj hb
      subst hb
      rfl
  refine ⟨_, _, reg g hr, reg c hr', hd'.trans hd.symm, ?_, ⟨by simp, rfl, by simp, ?_⟩⟩
  · show c.nPix ≠ g.nPix
    rw [hpx, hpx']; simp
  · intro x hx
    have hx := Option.some.inj hx
    subst hx
    exact ⟨by simp, rfl, hd'.trans hd.symm, .inl hn'⟩

end Verif.Map
