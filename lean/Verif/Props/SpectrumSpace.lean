import Verif.Props.GridFT

/-!
# C136: the power spectrum does not depend on the space the map is in
-/

set_option linter.unusedSectionVars false

namespace Verif.Map

open Verif.Sim (Err)
open Spec

theorem gridSame_refl (g : Grid ℝ ℂ) : Same g g := by
  refine ⟨?_, rfl⟩
  unfold SameData
  cases g.grid with
  | none => trivial
  | some a => exact ⟨rfl, fun _ _ => rfl⟩

theorem gridSame_symm {g h : Grid ℝ ℂ} (s : Same g h) : Same h g := by
  obtain ⟨s1, s2⟩ := s
  refine ⟨?_, s2.symm⟩
  revert s1
  unfold SameData
  cases g.grid <;> cases h.grid <;> intro s1
  · trivial
  · exact s1
  · exact s1
  · exact ⟨s1.1.symm, fun i hi => (s1.2 i (by rw [s1.1]; exact hi)).symm⟩

theorem gridSame_trans {g h k : Grid ℝ ℂ} (s : Same g h) (t : Same h k) : Same g k := by
  obtain ⟨s1, s2⟩ := s
  obtain ⟨t1, t2⟩ := t
  refine ⟨?_, s2.trans t2⟩
  revert s1 t1
  unfold SameData
  cases g.grid <;> cases h.grid <;> cases k.grid <;> intro s1 t1 <;>
    first
    | trivial
    | exact s1.elim
    | exact t1.elim
    | exact s1.trans t1

/-- A map with data that can be transformed. -/
structure Ready (g : Grid ℝ ℂ) : Prop where
  reg : Regular g
  data : g.grid ≠ none
  map : g.isPow = false

theorem same_split {g h : Grid ℝ ℂ} (s : Same g h) (a : Arr ℂ) (ha : g.grid = some a) :
    ∃ a', h = { g with grid := some a' } ∧ a.Same a' := by
  obtain ⟨h1, h2⟩ := s
  rw [ha] at h1
  rcases hcg : h.grid with _ | a'
  · rw [hcg] at h1; exact h1.elim
  · rw [hcg] at h1
    refine ⟨a', ?_, h1⟩
    cases h
    cases g
    simp only [Grid.mk.injEq] at h2 hcg ⊢
    simp_all

theorem Ready.ft {g : Grid ℝ ℂ} (r : Ready g) (l : List ℕ) (hl : ∀ i ∈ l, i < g.dim) (nz : Bool) :
    Ready (g.ft (some l) nz).1 ∧ (g.ft (some l) nz).1.dim = g.dim ∧
      (g.ft (some l) nz).1.fourier = flipped g.fourier l ∧
      ∃ b, (g.ft (some l) nz).1 = { g with grid := some b, fourier := flipped g.fourier l } := by
  obtain ⟨a, ha⟩ := Option.ne_none_iff_exists'.1 r.data
  have e := ft_ok g a ha r.map l hl nz
  have hsh := transformed_shape g r.reg a ha l hl nz
  rw [e]
  have hg := r.reg
  refine ⟨⟨⟨hg.nPix, hg.pix, hg.side, hg.axes, hg.centers, hg.fcenters, hg.faxes, ?_, ?_, ?_⟩, by simp,
    r.map⟩, rfl, rfl, _, rfl⟩
  · show (flipped g.fourier l).length = g.dim
    unfold flipped
    rw [List.length_mapIdx]
    exact hg.fourier
  · intro i hi
    obtain ⟨n, w, c, h1, h2, q⟩ := hg.axis i hi
    exact ⟨n, w, c, h1, h2, ⟨q.nPix, q.pix, q.center, q.side, q.axes, q.centers, q.fcenters,
      q.faxes⟩⟩
  · intro b hb
    have hb := Option.some.inj hb
    subst hb
    rw [hsh]
    exact hg.data a ha

theorem ft_same {g h : Grid ℝ ℂ} (r : Ready g) (s : Same g h) (l : List ℕ) (hl : ∀ i ∈ l, i < g.dim)
    (nz : Bool) : Same (g.ft (some l) nz).1 (h.ft (some l) nz).1 := by
  obtain ⟨a, ha⟩ := Option.ne_none_iff_exists'.1 r.data
  obtain ⟨a', rfl, hs⟩ := same_split s a ha
  rw [ft_ok g a ha r.map l hl nz,
    ft_ok ({ g with grid := some a' } : Grid ℝ ℂ) a' rfl r.map l hl nz]
  refine ⟨?_, rfl⟩
  have l1 : ∀ x ∈ l, x < a.shape.length := fun x hx => r.reg.axis_lt ha x (hl x hx)
  have h1 := forward_same hs g.pix.vals (l.filter (fun i => !g.fourier.getD i false)) nz
    (fun x hx => l1 x (List.mem_of_mem_filter hx))
  exact backward_same h1 g.pix.vals _ nz (by
    rw [forward_shape _ _ _ _ (fun x hx => l1 x (List.mem_of_mem_filter hx))]
    exact fun x hx => l1 x (List.mem_of_mem_filter hx))

/-- One axis transformed. -/
noncomputable def turn (nz : Bool) (g : Grid ℝ ℂ) (x : ℕ) : Grid ℝ ℂ := (g.ft (some [x]) nz).1

theorem turn_ready {nz : Bool} {g : Grid ℝ ℂ} (r : Ready g) {x : ℕ} (hx : x < g.dim) :
    Ready (turn nz g x) ∧ (turn nz g x).dim = g.dim := by
  obtain ⟨h1, h2, -⟩ := r.ft [x] (by simpa using hx) nz
  exact ⟨h1, h2⟩

theorem turn_same {nz : Bool} {g h : Grid ℝ ℂ} (r : Ready g) (s : Same g h) {x : ℕ} (hx : x < g.dim) :
    Same (turn nz g x) (turn nz h x) :=
  ft_same r s [x] (by simpa using hx) nz

theorem same_dim {g h : Grid ℝ ℂ} (s : Same g h) : h.dim = g.dim := by
  have := congrArg Grid.center s.2
  show h.center.vals.length = g.center.vals.length
  simp only at this
  rw [this]

theorem same_ready {g h : Grid ℝ ℂ} (r : Ready g) (s : Same g h) : Ready h := by
  obtain ⟨a, ha⟩ := Option.ne_none_iff_exists'.1 r.data
  obtain ⟨a', rfl, hs⟩ := same_split s a ha
  have hg := r.reg
  refine ⟨⟨hg.nPix, hg.pix, hg.side, hg.axes, hg.centers, hg.fcenters, hg.faxes, hg.fourier, ?_, ?_⟩,
    by simp, r.map⟩
  · intro i hi
    obtain ⟨n, w, c, h1, h2, q⟩ := hg.axis i hi
    exact ⟨n, w, c, h1, h2, ⟨q.nPix, q.pix, q.center, q.side, q.axes, q.centers, q.fcenters,
      q.faxes⟩⟩
  · intro b hb
    have hb := Option.some.inj hb
    subst hb
    rw [← hs.1]
    exact hg.data a ha

theorem turns_ready {nz : Bool} (l : List ℕ) {g : Grid ℝ ℂ} (r : Ready g) (hl : ∀ i ∈ l, i < g.dim) :
    Ready (l.foldl (turn nz) g) ∧ (l.foldl (turn nz) g).dim = g.dim := by
  induction l generalizing g with
  | nil => exact ⟨r, rfl⟩
  | cons x l ih =>
    obtain ⟨h1, h2⟩ := turn_ready (nz := nz) r (hl x (List.mem_cons_self ..))
    obtain ⟨h3, h4⟩ := ih h1 (fun i hi => by rw [h2]; exact hl i (List.mem_cons_of_mem _ hi))
    exact ⟨h3, h4.trans h2⟩

theorem turns_same {nz : Bool} (l : List ℕ) {g h : Grid ℝ ℂ} (r : Ready g) (s : Same g h)
    (hl : ∀ i ∈ l, i < g.dim) : Same (l.foldl (turn nz) g) (l.foldl (turn nz) h) := by
  induction l generalizing g h with
  | nil => exact s
  | cons x l ih =>
    obtain ⟨h1, h2⟩ := turn_ready (nz := nz) r (hl x (List.mem_cons_self ..))
    exact ih h1 (turn_same r s (hl x (List.mem_cons_self ..)))
      (fun i hi => by rw [h2]; exact hl i (List.mem_cons_of_mem _ hi))

theorem ft_nil {nz : Bool} {g : Grid ℝ ℂ} (r : Ready g) : Same (g.ft (some []) nz).1 g := by
  obtain ⟨a, ha⟩ := Option.ne_none_iff_exists'.1 r.data
  have e := ft_ok g a ha r.map [] (by simp) nz
  rw [e]
  have hf : flipped g.fourier [] = g.fourier := by
    apply flags_ext (by simp [flipped])
    intro i hi
    rw [flipped_getD _ _ _ (by simpa [flipped] using hi)]
    simp
  refine ⟨?_, ?_⟩
  · show SameData (some (transformed g a [] nz)) g.grid
    rw [ha]
    refine ⟨by cases nz <;> rfl, fun i hi => ?_⟩
    cases nz <;> simp [transformed, forwardPart, backwardPart, Arr.fftn, Arr.fftshift, Arr.ifftshift,
      Arr.ifftn, Arr.scale, pixProd]
  · simp [hf]

theorem ft_turns {nz : Bool} (l : List ℕ) (hn : l.Nodup) {g : Grid ℝ ℂ} (r : Ready g)
    (hl : ∀ i ∈ l, i < g.dim) : Same (g.ft (some l) nz).1 (l.foldl (turn nz) g) := by
  induction l generalizing g with
  | nil => exact ft_nil r
  | cons x l ih =>
    obtain ⟨a, ha⟩ := Option.ne_none_iff_exists'.1 r.data
    have hx := hl x (List.mem_cons_self ..)
    have hl' : ∀ i ∈ l, i < g.dim := fun i hi => hl i (List.mem_cons_of_mem _ hi)
    obtain ⟨g1, g2, g3, e1, e2, e3, s⟩ := C23_one_axis_at_a_time g r.reg a ha r.map x l hx hl'
      (List.nodup_cons.1 hn).1 nz
    have ht : turn nz g x = g2 := by unfold turn; rw [e2]
    obtain ⟨h1, h2⟩ := turn_ready (nz := nz) r hx
    have := ih (List.nodup_cons.1 hn).2 h1 (fun i hi => by rw [h2]; exact hl' i hi)
    rw [ht, e3] at this
    rw [e1]
    refine gridSame_trans s ?_
    show Same g3 (l.foldl (turn nz) (turn nz g x))
    rw [ht]
    exact this

theorem turn_swap {nz : Bool} {g : Grid ℝ ℂ} (r : Ready g) {x y : ℕ} (hx : x < g.dim) (hy : y < g.dim) :
    Same (turn nz (turn nz g x) y) (turn nz (turn nz g y) x) := by
  by_cases hxy : x = y
  · subst hxy; exact gridSame_refl _
  obtain ⟨a, ha⟩ := Option.ne_none_iff_exists'.1 r.data
  obtain ⟨g1, g2, e1, e2, s⟩ := C23_axis_order g r.reg a ha r.map [x, y] [y, x] (by simp [hx, hy])
    (List.Perm.swap y x []) nz
  have t1 := ft_turns (nz := nz) [x, y] (by simpa using hxy) r (by simp [hx, hy])
  have t2 := ft_turns (nz := nz) [y, x] (by simpa using fun h => hxy h.symm) r (by simp [hx, hy])
  rw [e1] at t1
  rw [e2] at t2
  exact gridSame_trans (gridSame_symm t1) (gridSame_trans s t2)

theorem turns_perm {nz : Bool} {l m : List ℕ} (h : l.Perm m) {g : Grid ℝ ℂ} (r : Ready g)
    (hl : ∀ i ∈ l, i < g.dim) : Same (l.foldl (turn nz) g) (m.foldl (turn nz) g) := by
  induction h generalizing g with
  | nil => exact gridSame_refl _
  | cons x _ ih =>
    obtain ⟨h1, h2⟩ := turn_ready (nz := nz) r (hl x (List.mem_cons_self ..))
    exact ih h1 (fun i hi => by rw [h2]; exact hl i (List.mem_cons_of_mem _ hi))
  | swap x y l =>
    have hx := hl x (by simp)
    have hy := hl y (by simp)
    obtain ⟨h1, h2⟩ := turn_ready (nz := nz) r hy
    obtain ⟨h3, h4⟩ := turn_ready (nz := nz) h1 (x := x) (by rw [h2]; exact hx)
    exact turns_same l h3 (turn_swap r hy hx) (fun i hi => by
      rw [h4, h2]; exact hl i (by simp [hi]))
  | trans h1 _ ih1 ih2 =>
    exact gridSame_trans (ih1 r hl) (ih2 r (fun i hi => hl i (h1.mem_iff.2 hi)))

/-- Axes that are transformed an even number of times are as before. -/
theorem turns_even {nz : Bool} (n : ℕ) (l : List ℕ) (hn : l.length ≤ n) (he : ∀ x, 2 ∣ l.count x)
    {g : Grid ℝ ℂ} (r : Ready g) (hl : ∀ i ∈ l, i < g.dim) : Same (l.foldl (turn nz) g) g := by
  induction n generalizing l g with
  | zero =>
    have : l = [] := List.length_eq_zero_iff.1 (by omega)
    subst this
    exact gridSame_refl _
  | succ n ih =>
    cases l with
    | nil => exact gridSame_refl _
    | cons x l =>
      have hx := hl x (List.mem_cons_self ..)
      have hl' : ∀ i ∈ l, i < g.dim := fun i hi => hl i (List.mem_cons_of_mem _ hi)
      have hmem : x ∈ l := by
        have := he x
        rw [List.count_cons_self] at this
        exact List.count_pos_iff.1 (by omega)
      have hp : (x :: l).Perm (x :: x :: l.erase x) := (List.perm_cons_erase hmem).cons x
      have h1 := turns_perm (nz := nz) hp r hl
      have h2 : Same (turn nz (turn nz g x) x) g :=
        ft_twice g r.reg r.data r.map [x] (by simpa using hx) nz
      obtain ⟨r1, d1⟩ := turn_ready (nz := nz) r hx
      obtain ⟨r2, d2⟩ := turn_ready (nz := nz) r1 (x := x) (by rw [d1]; exact hx)
      have hle : ∀ i ∈ l.erase x, i < g.dim := fun i hi => hl' i (List.mem_of_mem_erase hi)
      have h3 := turns_same (nz := nz) (l.erase x) r2 h2 (fun i hi => by
        rw [d2, d1]; exact hle i hi)
      have hc : ∀ y, 2 ∣ (l.erase x).count y := by
        intro y
        have := hp.count_eq y
        have h4 := he y
        rw [this] at h4
        by_cases hy : y = x
        · subst hy
          rw [List.count_cons_self, List.count_cons_self] at h4
          omega
        · rw [List.count_cons_of_ne (fun h => hy h.symm), List.count_cons_of_ne (fun h => hy h.symm)] at h4
          exact h4
      have hlen : (l.erase x).length ≤ n := by
        have := List.length_erase_of_mem hmem
        simp only [List.length_cons] at hn
        omega
      exact gridSame_trans h1 (gridSame_trans h3 (ih _ hlen hc r hle))

theorem turns_parity {nz : Bool} (l m : List ℕ) (he : ∀ x, 2 ∣ l.count x + m.count x) {g : Grid ℝ ℂ}
    (r : Ready g) (hl : ∀ i ∈ l, i < g.dim) (hm : ∀ i ∈ m, i < g.dim) :
    Same (l.foldl (turn nz) g) (m.foldl (turn nz) g) := by
  have hlm : ∀ i ∈ l ++ m, i < g.dim := by
    intro i hi
    rcases List.mem_append.1 hi with h | h
    · exact hl i h
    · exact hm i h
  have h1 : Same ((l ++ m).foldl (turn nz) g) g :=
    turns_even _ _ le_rfl (fun x => by rw [List.count_append]; exact he x) r hlm
  obtain ⟨r1, d1⟩ := turns_ready (nz := nz) (l ++ m) r hlm
  have h2 := turns_same (nz := nz) m r1 h1 (fun i hi => by rw [d1]; exact hm i hi)
  obtain ⟨r2, d2⟩ := turns_ready (nz := nz) l r hl
  have h3 : Same ((m ++ m).foldl (turn nz) (l.foldl (turn nz) g)) (l.foldl (turn nz) g) :=
    turns_even _ _ le_rfl (fun x => by rw [List.count_append]; omega) r2 (by
      intro i hi
      rw [d2]
      rcases List.mem_append.1 hi with h | h <;> exact hm i h)
  have e : (m ++ m).foldl (turn nz) (l.foldl (turn nz) g) =
      m.foldl (turn nz) ((l ++ m).foldl (turn nz) g) := by
    simp only [List.foldl_append]
  rw [e] at h3
  exact gridSame_trans (gridSame_symm h3) h2

theorem transformList_nodup (f : List Bool) (ax : List ℕ) (d : ℕ) (h : ax.Nodup) :
    (transformList f ax d).Nodup := by
  unfold transformList
  refine List.Nodup.append (h.filter _) (List.nodup_range.filter _) ?_
  intro x h1 h2
  have h1 := List.mem_of_mem_filter h1
  have h2 := (List.mem_filter.1 h2).2
  simp [h1] at h2

theorem mem_transformList (f : List Bool) (ax : List ℕ) (d i : ℕ) (hi : i < d) :
    i ∈ transformList f ax d ↔ (decide (i ∈ ax) != f.getD i false) = true := by
  unfold transformList
  rw [List.getD_eq_getElem?_getD]
  generalize hf : f[i]?.getD false = b
  by_cases h : i ∈ ax <;> cases b <;>
    simp [h, hi, List.mem_append, List.mem_filter, List.mem_range, hf]

/-- The preparing transform leads to the same map, whatever axes were transformed before. -/
theorem prepared_same {g : Grid ℝ ℂ} (r : Ready g) (l ax : List ℕ) (hl : ∀ i ∈ l, i < g.dim)
    (hn : l.Nodup) (hax : ∀ i ∈ ax, i < g.dim) (hnd : ax.Nodup) (nz : Bool) :
    Same (((g.ft (some l) nz).1.ft
        (some (transformList (g.ft (some l) nz).1.fourier ax g.dim)) nz).1)
      (g.ft (some (transformList g.fourier ax g.dim)) nz).1 := by
  obtain ⟨r1, d1, f1, -⟩ := r.ft l hl nz
  rw [f1]
  set t1 := transformList (flipped g.fourier l) ax g.dim with ht1
  set t := transformList g.fourier ax g.dim with ht
  have l1 : ∀ i ∈ t1, i < g.dim := transformList_lt _ _ _ hax
  have l2 : ∀ i ∈ t, i < g.dim := transformList_lt _ _ _ hax
  have h1 := ft_turns (nz := nz) t1 (transformList_nodup _ _ _ hnd) r1 (by rw [d1]; exact l1)
  have h2 := ft_turns (nz := nz) l hn r hl
  have h3 := turns_same (nz := nz) t1 r1 h2 (by rw [d1]; exact l1)
  have h4 := ft_turns (nz := nz) t (transformList_nodup _ _ _ hnd) r l2
  refine gridSame_trans h1 (gridSame_trans h3 (gridSame_trans ?_ (gridSame_symm h4)))
  rw [← List.foldl_append]
  refine turns_parity _ _ ?_ r ?_ l2
  · intro x
    rw [List.count_append]
    by_cases hx : x < g.dim
    · have c1 : ∀ (m : List ℕ), m.Nodup → m.count x = if x ∈ m then 1 else 0 := by
        intro m hm
        by_cases h : x ∈ m
        · rw [if_pos h, List.count_eq_one_of_mem hm h]
        · rw [if_neg h, List.count_eq_zero_of_not_mem h]
      have hxf : x < g.fourier.length := by rw [r.reg.fourier]; exact hx
      rw [c1 _ hn, c1 _ (transformList_nodup _ _ _ hnd), c1 _ (transformList_nodup _ _ _ hnd)]
      simp only [mem_transformList _ _ _ _ hx, flipped_getD _ _ _ hxf]
      generalize g.fourier.getD x false = b
      by_cases h1 : x ∈ l <;> by_cases h2 : x ∈ ax <;> cases b <;> simp [h1, h2]
    · rw [List.count_eq_zero_of_not_mem (fun h => hx (hl x h)),
        List.count_eq_zero_of_not_mem (fun h => hx (l1 x h)),
        List.count_eq_zero_of_not_mem (fun h => hx (l2 x h))]
      simp
  · intro i hi
    rcases List.mem_append.1 hi with h | h
    · exact hl i h
    · exact l1 i h

theorem bindex_valid (s t r i : List ℕ) (h : bshape s t = some r) (hi : Valid r i) :
    Valid s (bindex s i) ∧ Valid t (bindex t i) := by
  induction s generalizing t r i with
  | nil =>
    cases t with
    | nil => simp only [bshape, Option.some.injEq] at h; subst h; cases hi; exact ⟨.nil, .nil⟩
    | cons => simp [bshape] at h
  | cons n s ih =>
    cases t with
    | nil => simp [bshape] at h
    | cons m t =>
      unfold bshape at h
      have key : ∀ x : ℕ, (n = 1 ∨ n = x) → (m = 1 ∨ m = x) →
          (bshape s t).map (fun r => x :: r) = some r →
          Valid (n :: s) (bindex (n :: s) i) ∧ Valid (m :: t) (bindex (m :: t) i) := by
        intro x hn hm h
        rcases hb : bshape s t with _ | r'
        · rw [hb] at h; cases h
        rw [hb] at h
        have h := Option.some.inj h
        subst h
        cases hi with
        | @cons k _ ks _ hk hks =>
          obtain ⟨h1, h2⟩ := ih t r' ks hb hks
          constructor
          · refine .cons ?_ h1
            beta_reduce
            split
            · omega
            · rcases hn with h | h
              · contradiction
              · rw [h]; exact hk
          · refine .cons ?_ h2
            beta_reduce
            split
            · omega
            · rcases hm with h | h
              · contradiction
              · rw [h]; exact hk
      split at h
      · rename_i e; exact key n (.inr rfl) (.inr e.symm) h
      · split at h
        · rename_i e; exact key m (.inl e) (.inr rfl) h
        · split at h
          · rename_i e; exact key n (.inr rfl) (.inl e) h
          · cases h

theorem crossPower_same {a a' b b' q : Arr ℂ} (ha : a'.Same a) (hb : b'.Same b)
    (h : crossPower a b = .ok q) : ∃ q', crossPower a' b' = .ok q' ∧ q'.Same q := by
  unfold crossPower at h ⊢
  rw [ha.1, hb.1]
  rcases hs : bshape a.shape b.shape with _ | s
  · rw [hs] at h; cases h
  rw [hs] at h
  simp only [Except.ok.injEq] at h ⊢
  subst h
  refine ⟨_, rfl, rfl, ?_⟩
  intro i hi
  obtain ⟨h1, h2⟩ := bindex_valid _ _ _ _ hs hi
  simp only
  rw [ha.2 _ (by rw [ha.1]; exact h1), hb.2 _ (by rw [hb.1]; exact h2)]

theorem same_data {g h : Grid ℝ ℂ} (r : Ready g) (s : Same g h) : g.data.Same h.data := by
  obtain ⟨a, ha⟩ := Option.ne_none_iff_exists'.1 r.data
  obtain ⟨a', rfl, hs⟩ := same_split s a ha
  unfold Grid.data
  rw [ha]
  exact hs

theorem flipped_transformList_twice (f : List Bool) (l ax : List ℕ) :
    flipped (flipped f l) (transformList (flipped f l) ax f.length) =
      flipped f (transformList f ax f.length) := by
  have hlen : ∀ (f : List Bool) l, (flipped f l).length = f.length := by
    intro f l; simp [flipped]
  apply flags_ext (by simp only [hlen])
  intro i hi
  simp only [hlen] at hi
  rw [flipped_transformList _ _ _ i (hlen f l).symm hi, flipped_transformList _ _ _ i rfl hi]

/-- It does not matter which axes of the map, and of the map it is crossed with, are in Fourier space:
after transforming any of them the spectrum is the same. -/
theorem C136_space (g : Grid ℝ ℂ) (hg : Regular g) (cross : Option (Grid ℝ ℂ))
    (hc : ∀ c, cross = some c → Regular c) (ax : Option (List ℕ))
    (hnd : (ax.getD (List.range g.dim)).Nodup) (l m : List ℕ) (hl : ∀ i ∈ l, i < g.dim) (hn : l.Nodup)
    (hm : ∀ i ∈ m, i < g.dim) (hn' : m.Nodup) (inPlace nz : Bool) (p : Grid ℝ ℂ)
    (h : (g.powerSpectrum cross ax inPlace nz).result = .ok p) :
    ∃ p', ((g.ft (some l) nz).1.powerSpectrum (cross.map (fun c => (c.ft (some m) nz).1)) ax inPlace
        nz).result = .ok p' ∧ Same p' p := by
  obtain ⟨hacc, q, hq, hp⟩ := power_result g cross ax inPlace nz hg p h
  have r : Ready g := ⟨hg, hacc.data, hacc.map⟩
  obtain ⟨r1, d1, f1, b1, e1⟩ := r.ft l hl nz
  have rc : ∀ c, cross = some c → Ready c ∧ c.dim = g.dim := fun c e =>
    ⟨⟨hc c e, (hacc.cross c e).1, (hacc.cross c e).2.1⟩, (hacc.cross c e).2.2.1⟩
  have hax : ∀ i ∈ theAxes g ax, i < g.dim := hacc.axes'
  have hax1 : theAxes (g.ft (some l) nz).1 ax = theAxes g ax := by
    unfold theAxes; rw [d1]
  have hacc' : Accepted (g.ft (some l) nz).1 (cross.map (fun c => (c.ft (some m) nz).1)) ax := by
    refine ⟨r1.data, r1.map, by rw [d1]; exact hacc.axes, ?_⟩
    intro c' e
    rcases cross with _ | c
    · cases e
    have e := Option.some.inj e
    subst e
    obtain ⟨r2, d2⟩ := rc c rfl
    obtain ⟨r3, d3, -, b3, e3⟩ := r2.ft m (by rw [d2]; exact hm) nz
    refine ⟨r3.data, r3.map, by rw [d3, d1, d2], ?_⟩
    have := (hacc.cross c rfl).2.2.2
    beta_reduce
    rw [e1, e3]
    exact this
  have s1 := prepared_same r l (theAxes g ax) hl hn hax hnd nz
  have t1 := r1.ft (transformList (g.ft (some l) nz).1.fourier (theAxes g ax) g.dim)
    (by rw [d1]; exact transformList_lt _ _ _ hax) nz
  have hdata1 := same_data t1.1 s1
  obtain ⟨q', hq', hqs⟩ := crossPower_same hdata1 (b' := ((crossFt (cross.map (fun c => (c.ft (some m) nz).1))
      (((cross.map (fun c => (c.ft (some m) nz).1)).map
        (fun c => transformList c.fourier (theAxes g ax) g.dim)).getD []) nz).getD
      ((g.ft (some l) nz).1.ft (some (transformList (g.ft (some l) nz).1.fourier (theAxes g ax) g.dim))
        nz).1).data) (by
    rcases cross with _ | c
    · exact hdata1
    · obtain ⟨r2, d2⟩ := rc c rfl
      have hm' : ∀ i ∈ m, i < c.dim := by rw [d2]; exact hm
      have hax' : ∀ i ∈ theAxes g ax, i < c.dim := by rw [d2]; exact hax
      obtain ⟨r3, d3, -⟩ := r2.ft m hm' nz
      have s2 := prepared_same r2 m (theAxes g ax) hm' hn' hax' hnd nz
      have t2 := r3.ft (transformList (c.ft (some m) nz).1.fourier (theAxes g ax) c.dim)
        (by rw [d3]; exact transformList_lt _ _ _ hax') nz
      have := same_data t2.1 s2
      rw [d2] at this
      exact this) hq
  rw [power_accepted _ _ ax inPlace nz hacc']
  unfold spectrumBody
  simp only
  rw [hax1, d1, hq']
  obtain ⟨-, -, f2, b2, e2⟩ := t1
  rcases hp with ⟨rfl, rfl⟩ | ⟨rfl, w, hw, rfl⟩
  · simp only [if_true]
    refine ⟨_, rfl, hqs, ?_⟩
    have hf := flipped_transformList_twice g.fourier l (theAxes g ax)
    rw [hg.fourier] at hf
    have : (g.ft (some l) nz).1.fourier = flipped g.fourier l := f1
    rw [e2, this, hf, e1]
    rfl
  · simp only [Bool.false_eq_true, if_false]
    have hw' : Grid.new ((g.ft (some l) nz).1.ft (some (transformList (g.ft (some l) nz).1.fourier
          (theAxes g ax) g.dim)) nz).1.nProps
        ((g.ft (some l) nz).1.ft (some (transformList (g.ft (some l) nz).1.fourier
          (theAxes g ax) g.dim)) nz).1.center
        ((g.ft (some l) nz).1.ft (some (transformList (g.ft (some l) nz).1.fourier
          (theAxes g ax) g.dim)) nz).1.side
        ((g.ft (some l) nz).1.ft (some (transformList (g.ft (some l) nz).1.fourier
          (theAxes g ax) g.dim)) nz).1.pix
        (some ((g.ft (some l) nz).1.ft (some (transformList (g.ft (some l) nz).1.fourier
          (theAxes g ax) g.dim)) nz).1.axunits)
        (some ((g.ft (some l) nz).1.ft (some (transformList (g.ft (some l) nz).1.fourier
          (theAxes g ax) g.dim)) nz).1.gridunits) = .ok w := by
      rw [e2, e1]
      exact hw
    rw [hw']
    refine ⟨_, rfl, hqs, ?_⟩
    have hno : ((g.ft (some l) nz).1.ft (some (transformList (g.ft (some l) nz).1.fourier
          (theAxes g ax) g.dim)) nz).1.nObj = g.nObj := by rw [e2, e1]
    have hfl : ((g.ft (some l) nz).1.ft (some (transformList (g.ft (some l) nz).1.fourier
          (theAxes g ax) g.dim)) nz).1.fourier.map (fun _ => true) = g.fourier.map (fun _ => true) := by
      rw [f2, f1]
      simp [flipped]
    simp only [filled, hno, hfl]

/-- The spectrum along one axis of a map, and of the same map with the other axis in Fourier space. -/
example : ∃ (g p p' : Grid ℝ ℂ), Regular g ∧ g.grid = some ramp ∧
    (g.powerSpectrum none (some [1]) false true).result = .ok p ∧
    (g.ft (some [0]) true).1.fourier = [true, false] ∧
    ((g.ft (some [0]) true).1.powerSpectrum none (some [1]) false true).result = .ok p' ∧ Same p' p := by
  obtain ⟨g, hr, hl, hn, hu, hg, hd, hpx, hf, hp⟩ := new_square 2 ramp rfl
  obtain ⟨p, hp', -⟩ := C24_succeeds g none (some [1]) false true hr (by simp) hl
    (.inr (.inr (by omega))) (by simp) ⟨by simp [hg], hp, by simp [hd], by simp⟩
  obtain ⟨p', h1, h2⟩ := C136_space g hr none (by simp) (some [1]) (by simp) [0] [] (by simp [hd])
    (by simp) (by simp) (by simp) false true p hp'
  refine ⟨g, p, p', hr, hg, hp', ?_, h1, h2⟩
  rw [ft_ok g ramp hg hp [0] (by simp [hd]) true]
  show flipped g.fourier [0] = _
  rw [hf]
  rfl

end Verif.Map
