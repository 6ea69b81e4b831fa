import Verif.Spec.GridConvChan
import Verif.Props.GridConv

/-!
# C103, continued: a source for each channel
-/

set_option linter.unusedSectionVars false

namespace Verif.Map

open Verif.Sim (Err)
open Spec

section
variable {V : Type} [CommSemiring V]

/-- Along axes on which the source has the same cells. -/
theorem convSum_same : ∀ (ns e : List ℕ) (rest : List (Bool × ℕ × ℕ)) (r : List ℕ) (f : List ℕ → List ℕ → V),
    Valid ns e →
    convSum (ns.map (fun n => (false, n, n)) ++ rest) (e ++ r) f = convSum rest r (fun x y => f (e ++ x) (e ++ y))
  | [], [], rest, r, f, _ => by simp
  | n :: ns, k :: e, rest, r, f, hv => by
    rw [valid_cons] at hv
    simp only [List.map_cons, List.cons_append]
    rw [convSum]
    have : convPairs false n n k = [(k, k)] := by simp [convPairs]
    simp only [this, List.map_cons, List.map_nil, List.sum_cons, List.sum_nil, add_zero]
    rw [convSum_same ns e rest r _ hv.2]
  | [], _ :: _, _, _, _, h => by simp [Valid] at h
  | _ :: _, [], _, _, _, h => by simp [Valid] at h

theorem convFlags_same (n1 n2 ss ax : List ℕ) (np m : ℕ) (h1 : ss.length = n1.length)
    (hax : ∀ i, i ∈ ax ↔ i < n1.length) :
    convFlags (n1 ++ n2 ++ [np]) (ss ++ n2 ++ [m]) ax =
      (n1.zip ss).map (fun q => (true, q.1, q.2)) ++ (n2.map (fun n => (false, n, n)) ++ [(false, np, m)]) := by
  unfold convFlags
  rw [List.zip_append (by simp [h1]), List.zip_append h1.symm, List.zipIdx_append, List.zipIdx_append,
    List.map_append, List.map_append, List.append_assoc]
  congr 1
  · apply flags_part
    intro i _ hi
    have : i < n1.length := by simp [h1] at hi; exact hi
    simp [hax, this]
  · congr 1
    · rw [flags_part false ax]
      · apply List.ext_getElem
        · simp
        · intro i h2 h3
          simp
      · intro i hi _
        have : ¬ i < n1.length := by simp [h1] at hi; omega
        simp [hax, this]
    · rw [flags_part false ax]
      · simp
      · intro i hi _
        have : ¬ i < n1.length := by simp [h1] at hi; omega
        simp [hax, this]

theorem fftConv_channels (a b : Arr V) (n1 n2 ss ax : List ℕ) (np m : ℕ) (ha : a.shape = n1 ++ n2 ++ [np])
    (hb : b.shape = ss ++ n2 ++ [m]) (hl : ss.length = n1.length) (hne : ss ≠ []) (hnd : ax.Nodup)
    (hax : ∀ i, i ∈ ax ↔ i < ss.length) (hm : m = np ∨ m = 1) :
    ∃ r, fftConv a b ax = .ok r ∧ r.shape = a.shape ∧
      ∀ c e p, Valid n1 c → Valid n2 e → p < np →
        cell r (c ++ e) p = smearIn a b n1 ss c e p (if m = np then p else 0) := by
  have hflags := convFlags_same n1 n2 ss ax np m hl (by rwa [← hl])
  rw [← ha, ← hb] at hflags
  have hcomp : ¬ ∃ q ∈ (a.shape.zip b.shape).zipIdx, q.2 ∉ ax ∧ q.1.1 ≠ q.1.2 ∧ q.1.1 ≠ 1 ∧ q.1.2 ≠ 1 := by
    rintro ⟨q, hq, q1, q2, q3, q4⟩
    have : (decide (q.2 ∈ ax), q.1.1, q.1.2) ∈ convFlags a.shape b.shape ax := List.mem_map.2 ⟨q, hq, rfl⟩
    rw [hflags] at this
    simp only [List.mem_append, List.mem_map, List.mem_singleton, Prod.mk.injEq] at this
    rcases this with ⟨x, -, h, -⟩ | ⟨x, -, -, h, h'⟩ | ⟨-, h1, h2⟩
    · simp [q1] at h
    · exact q2 (h.symm.trans h')
    · rw [h1] at q2
      rw [h2] at q2 q4
      rcases hm with h | h
      · exact q2 h.symm
      · exact q4 h
  refine ⟨convArr a b ax, ?_, rfl, ?_⟩
  · unfold fftConv
    rw [if_neg (by
      rintro (h | h)
      · have := (hax 0).2 (List.length_pos_iff.2 hne)
        rw [h] at this
        simp at this
      · exact h hnd), if_neg hcomp]
    rfl
  · intro c e p hc he hp
    unfold cell
    show convSum (convFlags a.shape b.shape ax) (c ++ e ++ [p]) _ = _
    rw [hflags, List.append_assoc, convSum_true _ _ _ _ _ _ hl hc]
    unfold smearIn
    congr 1
    apply List.map_congr_left
    intro c' _
    rcases ho : spreads ss c c' with _ | o
    · rfl
    · simp only
      rw [convSum_same _ _ _ _ _ he]
      unfold cell
      simp only [convSum, convPairs, Bool.false_eq_true, if_false]
      by_cases e1 : np = m
      · rw [if_pos e1, if_pos e1.symm]
        simp only [List.map_cons, List.map_nil, List.sum_cons, List.sum_nil, add_zero, List.append_assoc]
      · have e1' : ¬ m = np := fun h => e1 h.symm
        have e2 : m = 1 := by omega
        simp only [if_neg e1, if_neg e1', if_pos e2]
        simp only [List.map_cons, List.map_nil, List.sum_cons, List.sum_nil, add_zero, List.append_assoc]

theorem convSource_zero (b : Arr V) : convSource b 0 = b := by
  unfold convSource
  simp

end

section
variable {K V : Type} [Field K] [LinearOrder K] [IsStrictOrderedRing K] [FloorRing K] [CommRing V]

theorem channels_plan (g s : Grid K V) (a b : Arr V) (n1 n2 ss ax : List ℕ) (pad : PadArg)
    (h : Channelled g s a b n1 n2 ss ax pad) :
    convPlan g s (some ax) pad = .ok ⟨b, ax, askedPad ss.length pad, true⟩ := by
  have hsa := h.regular.data a h.active
  have hd := h.regular.nPix
  have hz : a.shape.length - b.shape.length = 0 := by simp [hsa, h.shape, h.cells, h.length]
  have haxl : ax.length = ss.length := by rw [h.axes.length_eq]; simp
  have hax : convAxes g.dim (a.shape.length - b.shape.length) (some ax) = .ok ax := by
    unfold convAxes
    simp only
    rw [if_neg]
    rintro ⟨i, hi, hle⟩
    have := h.axes.mem_iff.1 hi
    rw [List.mem_range] at this
    have h3 := h.length
    rw [h.cells, List.length_append] at hd
    omega
  have := convPlan_ok g s a b h.active h.source h.real h.map
    (by rw [hsa, h.shape, h.cells]; simp [h.length]) (some ax) pad ax hax _ _
    (convPad_ok _ pad h.notList (by rw [haxl]; exact h.padLength))
  rw [this, hz, convSource_zero, haxl]

/-- **C103**: a source that has the channels of the grid on its last axes, for example a beam for each frequency,
smears each channel with its own source; the padding makes no difference; all descriptions of the grid stay the
same. -/
theorem C103_channels (g s : Grid K V) (a b : Arr V) (n1 n2 ss ax : List ℕ) (pad : PadArg)
    (h : Channelled g s a b n1 n2 ss ax pad) (hm : s.nProps = g.nProps ∨ s.nProps = 1) :
    ∃ g' r, g.convolve s (some ax) pad = (g', .ok ()) ∧
      ({ g' with grid := none } : Grid K V) = { g with grid := none } ∧ g'.grid = some r ∧ r.shape = a.shape ∧
      ∀ c e p, Valid n1 c → Valid n2 e → p < g.nProps →
        cell r (c ++ e) p = smearIn a b n1 ss c e p (if s.nProps = g.nProps then p else 0) := by
  have hsa := h.regular.data a h.active
  have hd := h.regular.nPix
  have haxl : ax.length = ss.length := by rw [h.axes.length_eq]; simp
  have hmem : ∀ i, i ∈ ax ↔ i < ss.length := fun i => by rw [h.axes.mem_iff, List.mem_range]
  have hnd : ax.Nodup := h.axes.nodup_iff.2 List.nodup_range
  obtain ⟨r, hr, hrs, hv⟩ := fftConv_channels a b n1 n2 ss ax g.nProps s.nProps (by rw [hsa, h.cells]) h.shape h.length
    (by have := h.low; rintro h'; simp [h'] at this) hnd hmem hm
  obtain ⟨g', hrun, hs1, hs2⟩ := convRun_ok g h.regular h.floats a h.active ⟨b, ax, askedPad ss.length pad, true⟩
    (fun i hi => by
      have := (hmem i).1 hi
      have h3 := h.length
      rw [h.cells, List.length_append] at hd
      omega) hnd (by rw [h.padLength, haxl]) h.aligned h.padPos rfl r
    (by simp [hsa, h.shape, h.cells, h.length]) hr
  rcases hg' : g'.grid with _ | r'
  · rw [hg'] at hs1; exact absurd hs1 id
  · rw [hg'] at hs1
    simp only [SameData] at hs1
    refine ⟨g', r', by unfold Grid.convolve; rw [channels_plan g s a b n1 n2 ss ax pad h]; exact hrun, hs2, hg',
      hs1.1.trans hrs, ?_⟩
    intro c e p hc he hp
    rw [← hv c e p hc he hp]
    exact hs1.2 _ (by
      rw [hs1.1, hrs, hsa, h.cells]
      exact valid_concat.2 ⟨(valid_append hc.length).2 ⟨hc, he⟩, hp⟩)

/-- **C103**: the same for `in_place=False`: a new grid with the axes, units and number of objects of the old one. -/
theorem C103_channels_new (g s : Grid K V) (a b : Arr V) (n1 n2 ss ax : List ℕ) (pad : PadArg)
    (h : Channelled g s a b n1 n2 ss ax pad) (hm : s.nProps = g.nProps ∨ s.nProps = 1) (hlab : Labelled g)
    (hu : g.gridunits.length = g.nProps) :
    ∃ g' r, g.convolveNew s (some ax) pad = .ok g' ∧ Regular g' ∧ Floats g' ∧ Labelled g' ∧ SameAxes g g' ∧
      g'.nProps = g.nProps ∧ g'.nObj = g.nObj ∧
      g'.gridunits = g.gridunits ∧ g'.fourier = g.fourier ∧ g'.isPow = g.isPow ∧ g'.grid = some r ∧
      r.shape = a.shape ∧ ∀ c e p, Valid n1 c → Valid n2 e → p < g.nProps →
        cell r (c ++ e) p = smearIn a b n1 ss c e p (if s.nProps = g.nProps then p else 0) := by
  obtain ⟨x, hx, hcopy, hun, -⟩ := C28_copy_all g h.regular hlab hu
  obtain ⟨hxr, hxf, hxl⟩ := copy_regular g x h.regular h.floats hlab none hx
  obtain ⟨hobj, a', ha', hs', hv'⟩ := hcopy.values a h.active
  simp only [List.length_range] at hs'
  have hnp : x.nProps = g.nProps := by rw [hcopy.nProps]; simp
  have hsa := h.regular.data a h.active
  have hconv : Channelled x s a' b n1 n2 ss ax pad :=
    ⟨hxr, hxf, ha', h.source, hcopy.axes.nPix.trans h.cells, h.shape, by rw [hcopy.spaces.1]; exact h.real,
      by rw [hcopy.spaces.2]; exact h.map, h.length, h.low, h.axes, h.notList, h.padLength, h.aligned, h.padPos⟩
  obtain ⟨g', r, h1, h2, r1, r2, r3⟩ := C103_channels x s a' b n1 n2 ss ax pad hconv (by rw [hnp]; exact hm)
  have hrest : ∀ {α : Type} (f : Grid K V → α), (∀ y : Grid K V, f { y with grid := none } = f y) → f g' = f x := by
    intro α f hf
    rw [← hf g', ← hf x, h2]
  have hsame : SameAxes g g' := by
    have q := hcopy.axes
    exact ⟨(hrest (·.center) (fun _ => rfl)).trans q.center, (hrest (·.side.vals) (fun _ => rfl)).trans q.side,
      (hrest (·.pix) (fun _ => rfl)).trans q.pix, (hrest (·.nPix) (fun _ => rfl)).trans q.nPix,
      (hrest (·.axunits) (fun _ => rfl)).trans q.axunits, (hrest (·.faxunits) (fun _ => rfl)).trans q.faxunits,
      (hrest (·.axes) (fun _ => rfl)).trans q.axes, (hrest (·.centers) (fun _ => rfl)).trans q.centers,
      (hrest (·.faxes) (fun _ => rfl)).trans q.faxes, (hrest (·.fcenters) (fun _ => rfl)).trans q.fcenters⟩
  have hge : g' = { x with grid := some r } := by
    have e : ({ ({ g' with grid := none } : Grid K V) with grid := some r } : Grid K V) =
        { ({ x with grid := none } : Grid K V) with grid := some r } := by rw [h2]
    rw [← r1] at e
    exact (show g' = _ from rfl).trans (e.trans (by rw [r1]))
  refine ⟨g', r, ?_, ?_, ?_, ?_, hsame, ?_, ?_, ?_, ?_, ?_, r1, by rw [r2, hs', hsa], ?_⟩
  · unfold Grid.convolve at h1
    unfold Grid.convolveNew
    rw [channels_plan x s a' b n1 n2 ss ax pad hconv] at h1
    rw [channels_plan g s a b n1 n2 ss ax pad h]
    simp only [hx] at h1 ⊢
    rw [h1]
  · rw [hge]
    exact withGrid_regular hxr r (by rw [r2]; exact hxr.data a' ha')
  · rw [hge]; exact hxf
  · rw [hge]; exact hxl
  · exact (hrest (·.nProps) (fun _ => rfl)).trans hnp
  · exact (hrest (·.nObj) (fun _ => rfl)).trans hobj
  · exact (hrest (·.gridunits) (fun _ => rfl)).trans hun
  · exact (hrest (·.fourier) (fun _ => rfl)).trans hcopy.spaces.1
  · exact (hrest (·.isPow) (fun _ => rfl)).trans hcopy.spaces.2
  · intro c e p hc he hp
    rw [r3 c e p hc he (by rw [hnp]; exact hp), hnp]
    unfold smearIn
    congr 1
    apply List.map_congr_left
    intro c' hc'
    have hvc := (mem_allCells _ c').1 hc'
    rcases spreads ss c c' with _ | o
    · rfl
    · simp only
      congr 1
      exact hv' (c' ++ e) p p ((by rw [h.cells]; exact (valid_append hvc.length).2 ⟨hvc, he⟩)) (by simp [hp])

end

/-- Maps of two channels with sources for each of them can be convolved. -/
example : Channelled (K := ℚ) (V := ℚ) (plainGrid [4, 5, 2] 1 (fun _ => 1)) (plainGrid [3, 3, 2] 1 (fun i => i.getD 2 0))
    ⟨[4, 5, 2, 1], fun _ => 1⟩ ⟨[3, 3, 2, 1], fun i => i.getD 2 0⟩ [4, 5] [2] [3, 3] [0, 1] (.int 2) where
  regular := plainGrid_regular _ _ _ (by simp)
  floats := ⟨rfl, rfl, rfl⟩
  active := rfl
  source := rfl
  cells := rfl
  shape := rfl
  real := by simp [plainGrid]
  map := rfl
  length := rfl
  low := by simp
  axes := List.Perm.refl _
  notList := fun l h => by cases h
  padLength := rfl
  aligned := C21_aligned_range 2 _ rfl
  padPos := by simp [askedPad]

end Verif.Map
