import Verif.Lemmas.GridConv
import Verif.Props.GridPad
import Verif.Props.GridCopy
import Verif.Props.GridOps

/-!
# Lemmas about the run of a convolution (for C103)
-/

set_option linter.unusedSectionVars false

namespace Verif.Map

open Verif.Sim (Err)
open Spec

section
variable {V : Type} [CommSemiring V]

/-! ## The sum -/

/-- The axes and lengths that the convolution runs over. -/
def convFlags (s1 s2 ax : List ℕ) : List (Bool × ℕ × ℕ) :=
  (s1.zip s2).zipIdx.map (fun q => (decide (q.2 ∈ ax), q.1.1, q.1.2))

theorem convFlags_get (s1 s2 ax : List ℕ) (i : ℕ) : (convFlags s1 s2 ax)[i]? =
    match s1[i]?, s2[i]? with
    | some n, some s => some (decide (i ∈ ax), n, s)
    | _, _ => none := by
  unfold convFlags
  rw [List.getElem?_map, List.getElem?_zipIdx]
  rcases h1 : s1[i]? with _ | n
  · have : (s1.zip s2)[i]? = none := by
      rw [List.getElem?_eq_none_iff] at h1 ⊢
      simp; omega
    rw [this]; rfl
  · rcases h2 : s2[i]? with _ | s
    · have : (s1.zip s2)[i]? = none := by
        rw [List.getElem?_eq_none_iff] at h2 ⊢
        simp; omega
      rw [this]; rfl
    · rw [(List.getElem?_zip_eq_some (z := (n, s))).2 ⟨h1, h2⟩]
      simp

/-- The array of the sums. -/
def convArr (a b : Arr V) (ax : List ℕ) : Arr V :=
  ⟨a.shape, fun i => convSum (convFlags a.shape b.shape ax) i (fun x y => a.get x * b.get y)⟩

theorem flags_part (b : Bool) (ax : List ℕ) : ∀ (l : List (ℕ × ℕ)) (k : ℕ),
    (∀ i, k ≤ i → i < k + l.length → decide (i ∈ ax) = b) →
    (l.zipIdx k).map (fun q => (decide (q.2 ∈ ax), q.1.1, q.1.2)) = l.map (fun q => (b, q.1, q.2))
  | [], _, _ => rfl
  | q :: l, k, h => by
    rw [List.zipIdx_cons, List.map_cons, List.map_cons, h k le_rfl (by simp),
      flags_part b ax l (k + 1) (fun i h1 h2 => h i (by omega) (by simp; omega))]

theorem convFlags_split (n1 n2 ss ax : List ℕ) (np m : ℕ) (h1 : ss.length = n1.length)
    (hax : ∀ i, i ∈ ax ↔ i < n1.length) :
    convFlags (n1 ++ n2 ++ [np]) (ss ++ List.replicate n2.length 1 ++ [m]) ax =
      (n1.zip ss).map (fun q => (true, q.1, q.2)) ++ (n2.map (fun n => (false, n, 1)) ++ [(false, np, m)]) := by
  unfold convFlags
  rw [List.zip_append (by simp [h1]), List.zip_append h1.symm, List.zipIdx_append, List.zipIdx_append,
    List.map_append, List.map_append, List.append_assoc]
  congr 1
  · apply flags_part
    intro i _ hi
    have : i < n1.length := by simp [h1] at hi; exact hi
    simp [hax, this]
  · congr 1
    · rw [flags_part false ax]
      · apply List.ext_getElem
        · simp
        · intro i h2 h3
          simp
      · intro i hi _
        have : ¬ i < n1.length := by simp [h1] at hi; omega
        simp [hax, this]
    · rw [flags_part false ax]
      · simp
      · intro i hi _
        have : ¬ i < n1.length := by simp [h1] at hi; omega
        simp [hax, this]

/-- The property of the source that is used for property `p`: the same, or the only one; a map of one property
gets the one before the middle. -/
def sourceProp (np m p : ℕ) : ℕ := if m = np then p else if m = 1 then 0 else (m - 1) / 2

theorem fftConv_values (a b : Arr V) (ns ss ax : List ℕ) (np m : ℕ) (ha : a.shape = ns ++ [np])
    (hb : b.shape = ss ++ [m]) (hd : ss.length ≤ ns.length) (hne : ss ≠ []) (hnd : ax.Nodup)
    (hax : ∀ i, i ∈ ax ↔ i < ss.length) (hm : m = np ∨ m = 1 ∨ np = 1) :
    ∃ r, fftConv a (convSource b (a.shape.length - b.shape.length)) ax = .ok r ∧ r.shape = a.shape ∧
      ∀ c p, Valid ns c → p < np → cell r c p = smear a b ns ss c p (sourceProp np m p) := by
  have hn1 : (ns.take ss.length).length = ss.length := by rw [List.length_take]; omega
  have hsp : a.shape.length - b.shape.length = (ns.drop ss.length).length := by
    rw [ha, hb]; simp
  have hsrc : (convSource b (a.shape.length - b.shape.length)).shape =
      ss ++ List.replicate (ns.drop ss.length).length 1 ++ [m] := by
    unfold convSource
    rw [hsp]
    simp [hb]
  have hash : a.shape = ns.take ss.length ++ ns.drop ss.length ++ [np] := by
    rw [List.take_append_drop, ha]
  have hflags := convFlags_split (ns.take ss.length) (ns.drop ss.length) ss ax np m hn1.symm (by rwa [hn1])
  rw [← hsrc, ← hash] at hflags
  have hcomp : ¬ ∃ q ∈ (a.shape.zip (convSource b (a.shape.length - b.shape.length)).shape).zipIdx,
      q.2 ∉ ax ∧ q.1.1 ≠ q.1.2 ∧ q.1.1 ≠ 1 ∧ q.1.2 ≠ 1 := by
    rintro ⟨q, hq, q1, q2, q3, q4⟩
    have : (decide (q.2 ∈ ax), q.1.1, q.1.2) ∈ convFlags a.shape
        (convSource b (a.shape.length - b.shape.length)).shape ax := List.mem_map.2 ⟨q, hq, rfl⟩
    rw [hflags] at this
    simp only [List.mem_append, List.mem_map, List.mem_singleton, Prod.mk.injEq] at this
    rcases this with ⟨x, -, h, -⟩ | ⟨x, -, -, -, h⟩ | ⟨-, h1, h2⟩
    · simp [q1] at h
    · exact q4 h.symm
    · rw [h1] at q2 q3
      rw [h2] at q2 q4
      rcases hm with h | h | h
      · exact q2 h.symm
      · exact q4 h
      · exact q3 h
  refine ⟨convArr a (convSource b (a.shape.length - b.shape.length)) ax, ?_, rfl, ?_⟩
  · unfold fftConv
    rw [if_neg (by
      rintro (h | h)
      · have := (hax 0).2 (List.length_pos_iff.2 hne)
        rw [h] at this
        simp at this
      · exact h hnd), if_neg hcomp]
    rfl
  · intro c p hc hp
    have hcl := hc.length
    have hv1 : Valid (ns.take ss.length) (c.take ss.length) := by
      have : Valid (ns.take ss.length ++ ns.drop ss.length) (c.take ss.length ++ c.drop ss.length) := by
        rwa [List.take_append_drop, List.take_append_drop]
      exact ((valid_append (by rw [List.length_take, List.length_take]; omega)).1 this).1
    have hv2 : Valid (ns.drop ss.length) (c.drop ss.length) := by
      have : Valid (ns.take ss.length ++ ns.drop ss.length) (c.take ss.length ++ c.drop ss.length) := by
        rwa [List.take_append_drop, List.take_append_drop]
      exact ((valid_append (by rw [List.length_take, List.length_take]; omega)).1 this).2
    unfold cell
    show convSum (convFlags a.shape (convSource b (a.shape.length - b.shape.length)).shape ax) (c ++ [p]) _ = _
    rw [hflags]
    have hcsplit : c ++ [p] = c.take ss.length ++ (c.drop ss.length ++ [p]) := by
      rw [← List.append_assoc, List.take_append_drop]
    rw [hcsplit, convSum_true _ _ _ _ _ _ hn1.symm hv1]
    unfold smear
    congr 1
    apply List.map_congr_left
    intro c' hc'
    unfold arrives
    have hsp2 : spreads ss (c.take ss.length) c' = spreads ss c c' := by
      clear hcsplit hflags hcomp hsrc hash hsp hv1 hv2 hne hax hb hn1
      have gen : ∀ (ss c c' : List ℕ), spreads ss (c.take ss.length) c' = spreads ss c c' := by
        intro ss
        induction ss with
        | nil => intro c c'; unfold spreads; rfl
        | cons s ss ih =>
          intro c c'
          cases c with
          | nil => rfl
          | cons k c =>
            cases c' with
            | nil => rfl
            | cons j c' =>
              simp only [List.length_cons, List.take_succ_cons, spreads]
              rw [ih]
      exact gen ss c c'
    rw [hsp2]
    have hvc := (mem_allCells _ c').1 hc'
    rcases ho : spreads ss c c' with _ | o
    · rfl
    · simp only
      rw [convSum_one _ _ _ _ _ hv2]
      have hol : o.length = ss.length := by
        clear hsp2 hcsplit hflags hcomp hsrc hash hsp hne hax hb hn1 hv1 hv2
        have gen : ∀ (ns ss c c' o : List ℕ), ss.length ≤ c.length → ss.length ≤ c'.length →
            spreads ss c c' = some o → o.length = ss.length := by
          intro ns ss
          induction ss with
          | nil => intro c c' o _ _ h; unfold spreads at h; simp at h; subst h; rfl
          | cons s ss ih =>
            intro c c' o h1 h2 h
            cases c with
            | nil => simp at h1
            | cons k c =>
              cases c' with
              | nil => simp at h2
              | cons j c' =>
                simp only [spreads] at h
                split at h
                · rcases h3 : spreads ss c c' with _ | o'
                  · rw [h3] at h; simp at h
                  · rw [h3] at h
                    simp only [Option.map_some, Option.some.injEq] at h
                    subst h
                    simp [ih c c' o' (by simpa using h1) (by simpa using h2) h3]
                · simp at h
        exact gen ns ss c c' o (by omega) (by rw [hvc.length, List.length_take]; omega) ho
      have hget : ∀ y, (convSource b (a.shape.length - b.shape.length)).get
          (o ++ (List.replicate (ns.drop ss.length).length 0 ++ [y])) = b.get (o ++ [y]) := by
        intro y
        unfold convSource
        rw [hsp]
        simp only [hb, List.length_append, List.length_singleton, Nat.add_sub_cancel]
        congr 1
        rw [List.take_append_of_le_length (by omega), List.take_of_length_le (by omega), List.drop_append,
          List.drop_eq_nil_of_le (by omega), List.nil_append]
        congr 1
        rw [hol, Nat.add_sub_cancel_left, List.drop_append, List.drop_eq_nil_of_le (by simp), List.nil_append]
        simp
      unfold cell sourceProp
      simp only [convSum, convPairs, Bool.false_eq_true, if_false]
      by_cases e1 : np = m
      · rw [if_pos e1, if_pos e1.symm]
        simp only [List.map_cons, List.map_nil, List.sum_cons, List.sum_nil, add_zero]
        rw [hget, List.append_assoc]
      · have e1' : ¬ m = np := fun h => e1 h.symm
        by_cases e2 : m = 1
        · simp only [if_neg e1, if_neg e1', if_pos e2]
          simp only [List.map_cons, List.map_nil, List.sum_cons, List.sum_nil, add_zero]
          rw [hget, List.append_assoc]
        · simp only [if_neg e1, if_neg e1', if_neg e2]
          have e3 : np = 1 := by omega
          have e4 : p = 0 := by omega
          simp only [List.map_cons, List.map_nil, List.sum_cons, List.sum_nil, add_zero]
          rw [hget, List.append_assoc, e4]

/-- Padding does not change the sum in the old cells. -/
theorem fftConv_pad (a a' b r : Arr V) (ax ps : List ℕ) (hl : ps.length = a.shape.length)
    (hbl : b.shape.length = a.shape.length)
    (hps : ∀ i, i ∉ ax → ps.getD i 0 = 0)
    (hsh : a'.shape = List.zipWith (fun n p => n + 2 * p) a.shape ps)
    (hget : ∀ i, i.length = a.shape.length → a'.get i = (a.pad ps 0).get i)
    (h : fftConv a b ax = .ok r) :
    ∃ r', fftConv a' b ax = .ok r' ∧ r'.shape = a'.shape ∧ (r'.unpad ps).Same r := by
  unfold fftConv at h
  split at h
  · simp at h
  rename_i h1
  split at h
  · simp at h
  rename_i h2
  simp only [Except.ok.injEq] at h
  have hflags : convFlags a'.shape b.shape ax =
      List.zipWith (fun (q : Bool × ℕ × ℕ) p => (q.1, q.2.1 + 2 * p, q.2.2)) (convFlags a.shape b.shape ax) ps := by
    apply List.ext_getElem?
    intro i
    rw [convFlags_get, List.getElem?_zipWith, convFlags_get, hsh, List.getElem?_zipWith]
    by_cases hi : i < a.shape.length
    · rw [List.getElem?_eq_getElem hi, List.getElem?_eq_getElem (l := ps) (by omega),
        List.getElem?_eq_getElem (l := b.shape) (by omega)]
    · rw [List.getElem?_eq_none (l := a.shape) (by omega)]
  have hcomp : ¬ ∃ q ∈ (a'.shape.zip b.shape).zipIdx, q.2 ∉ ax ∧ q.1.1 ≠ q.1.2 ∧ q.1.1 ≠ 1 ∧ q.1.2 ≠ 1 := by
    rintro ⟨⟨⟨n', s⟩, i⟩, hq, q1, q2, q3, q4⟩
    have hq' := List.mem_zipIdx_iff_getElem?.1 hq
    rw [List.getElem?_zip_eq_some] at hq'
    simp only at hq' q1 q2 q3 q4
    obtain ⟨hn', hs⟩ := hq'
    have hi : i < a.shape.length := by rw [← hbl]; exact (List.getElem?_eq_some_iff.1 hs).1
    rw [hsh, List.getElem?_zipWith, List.getElem?_eq_getElem hi,
      List.getElem?_eq_getElem (l := ps) (by omega)] at hn'
    simp only [Option.some.injEq] at hn'
    have hp0 := hps i q1
    rw [List.getD_eq_getElem?_getD, List.getElem?_eq_getElem (l := ps) (by omega)] at hp0
    simp only [Option.getD_some] at hp0
    rw [hp0, Nat.mul_zero, Nat.add_zero] at hn'
    refine h2 ⟨((n', s), i), List.mem_zipIdx_iff_getElem?.2 ?_, q1, q2, q3, q4⟩
    rw [List.getElem?_zip_eq_some]
    exact ⟨by rw [List.getElem?_eq_getElem hi, hn'], hs⟩
  refine ⟨convArr a' b ax, by unfold fftConv; rw [if_neg h1, if_neg hcomp]; rfl, rfl, ?_⟩
  have hsr : ((convArr a' b ax).unpad ps).shape = r.shape := by
    rw [← h]
    simp only [Arr.unpad, convArr]
    rw [hsh]
    exact shape_roundtrip a.shape ps hl
  refine ⟨hsr, ?_⟩
  intro i hi
  rw [hsr, ← h] at hi
  simp only at hi
  rw [← h]
  simp only [Arr.unpad, convArr]
  show convSum (convFlags a'.shape b.shape ax) _ _ = convSum (convFlags a.shape b.shape ax) _ _
  rw [hflags]
  have hmap : (convFlags a.shape b.shape ax).map (·.2.1) = a.shape := by
    apply List.ext_getElem?
    intro j
    rw [List.getElem?_map, convFlags_get]
    by_cases hj : j < a.shape.length
    · rw [List.getElem?_eq_getElem hj, List.getElem?_eq_getElem (l := b.shape) (by omega)]
      rfl
    · rw [List.getElem?_eq_none (l := a.shape) (by omega)]
      rfl
  have hfl : (convFlags a.shape b.shape ax).length = a.shape.length := by
    have := congrArg List.length hmap
    rwa [List.length_map] at this
  apply convSum_pad
  · rw [List.forall₂_iff_get]
    refine ⟨by rw [hfl, hl], ?_⟩
    intro j h3 h4
    simp only [List.get_eq_getElem]
    by_cases hj : j ∈ ax
    · left
      have := convFlags_get a.shape b.shape ax j
      rw [List.getElem?_eq_getElem h3, List.getElem?_eq_getElem (l := a.shape) (by omega),
        List.getElem?_eq_getElem (l := b.shape) (by omega)] at this
      simp only [Option.some.injEq] at this
      rw [this]
      simp [hj]
    · right
      have := hps j hj
      rw [List.getD_eq_getElem?_getD, List.getElem?_eq_getElem h4] at this
      simpa using this
  · rw [hmap]; exact hi
  · intro x y hx
    rw [hget x (by rw [hx, hfl]), hmap]
    rcases hu : unshift a.shape ps x with _ | x'
    · simp [Arr.pad, hu]
    · simp [Arr.pad, hu]

end

section
variable {K V : Type} [Field K] [LinearOrder K] [IsStrictOrderedRing K] [FloorRing K] [CommSemiring V]

/-! ## Padding, convolving, removing the padding -/

theorem withGrid_axis {g : Grid K V} {d : Option (Arr V)} {i n : ℕ} {w c : K} :
    AxisIs ({ g with grid := d } : Grid K V) i n w c ↔ AxisIs g i n w c :=
  ⟨fun h => ⟨h.nPix, h.pix, h.center, h.side, h.axes, h.centers, h.fcenters, h.faxes⟩,
   fun h => ⟨h.nPix, h.pix, h.center, h.side, h.axes, h.centers, h.fcenters, h.faxes⟩⟩

theorem withGrid_regular {g : Grid K V} (hg : Regular g) (r : Arr V) (hr : r.shape = g.nPix ++ [g.nProps]) :
    Regular ({ g with grid := some r } : Grid K V) where
  nPix := hg.nPix
  pix := hg.pix
  side := hg.side
  axes := hg.axes
  centers := hg.centers
  fcenters := hg.fcenters
  faxes := hg.faxes
  fourier := hg.fourier
  axis := fun i hi => by
    obtain ⟨n, w, c, h1, h2, h3⟩ := hg.axis i hi
    exact ⟨n, w, c, h1, h2, withGrid_axis.2 h3⟩
  data := fun a ha => by
    simp only [Option.some.injEq] at ha
    subst ha
    exact hr

/-- The first part: the padded array. -/
theorem conv_padded (g : Grid K V) (hg : Regular g) (hfl : Floats g) (a : Arr V) (hga : g.grid = some a)
    (ax : List ℕ) (pad : List ℤ) (hax : ∀ i ∈ ax, i < g.dim) (hnd : ax.Nodup)
    (hlen : pad.length = ax.length) (hal : Aligned ax pad) (hpos : ∀ p ∈ pad, 0 ≤ p) :
    ∃ (g1 : Grid K V) (a' : Arr V), g.padBy ax pad 0 = (g1, .ok ()) ∧ Regular g1 ∧ Floats g1 ∧
      g1.nProps = g.nProps ∧ g1.nObj = g.nObj ∧ g1.center = g.center ∧ g1.axunits = g.axunits ∧
      g1.faxunits = g.faxunits ∧ g1.gridunits = g.gridunits ∧ g1.fourier = g.fourier ∧ g1.isPow = g.isPow ∧
      g1.grid = some a' ∧
      (∀ (i n : ℕ) (w c : K) (b : Bool), AxisIs g i n w c → g.fourier[i]? = some b →
        AxisIs g1 i (n + 2 * (amount ax pad i).toNat)
          (padWidth b n (n + 2 * (amount ax pad i).toNat) w) c) ∧
      a'.shape = List.zipWith (fun n p => n + 2 * p) a.shape
        ((List.range g.dim).map (fun i => (amount ax pad i).toNat) ++ [0]) ∧
      ∀ i, i.length = a.shape.length →
        a'.get i = (a.pad ((List.range g.dim).map (fun i => (amount ax pad i).toNat) ++ [0]) 0).get i := by
  have h0 := amount_nonneg ax pad hpos
  have hk : ∀ (i n : ℕ), g.nPix[i]? = some n → 2 ≤ (n : ℤ) + 2 * amount ax pad i := by
    intro i n hi
    have hid : i < g.dim := by rw [← hg.nPix]; exact (List.getElem?_eq_some_iff.1 hi).1
    obtain ⟨n', w, c, hn, -, ha⟩ := hg.axis i hid
    have := ha.nPix
    rw [hi] at this
    simp only [Option.some.injEq] at this
    have := h0 i
    omega
  obtain ⟨g', p1, p2, p3, q1, q2, q3, q4, q5, q6, q7, q8, q9, q10⟩ :=
    padBy_ok g hg hfl ax pad 0 hax hnd hlen hal hk
  obtain ⟨ps, hps⟩ : ∃ ps, ps = (List.range g.dim).map (fun i => (amount ax pad i).toNat) := ⟨_, rfl⟩
  have hc1 : padCells g ax pad 1 = ps ++ [0] := by
    rw [padCells_eq]; simp [hps]
  have hc2 : padCells g ax pad (-1) = List.replicate g.dim 0 ++ [0] := by
    rw [padCells_eq]
    congr 1
    rw [List.eq_replicate_iff]
    refine ⟨by simp, ?_⟩
    intro x hx
    obtain ⟨i, -, rfl⟩ := List.mem_map.1 hx
    have := h0 i
    omega
  have hpl : ps.length = g.dim := by simp [hps]
  have hal2 : a.shape.length = g.dim + 1 := by simp [hg.data a hga, hg.nPix]
  have hz : ∀ z ∈ List.replicate g.dim 0 ++ [0], z = 0 := by
    intro z hz
    simp only [List.mem_append, List.mem_replicate, List.mem_singleton] at hz
    rcases hz with ⟨_, rfl⟩ | rfl <;> rfl
  rw [hga, hc1, hc2] at q9
  simp only [Option.map_some] at q9
  rw [← hps]
  refine ⟨g', _, p1, p2, p3, q1, q2, q3, q4, q5, q6, q7, q8, q9, ?_, ?_, ?_⟩
  · intro i n w c b ha hb
    obtain ⟨k, k1, k2⟩ := q10 i n w c b ha hb
    have := h0 i
    have : k = n + 2 * (amount ax pad i).toNat := by omega
    rwa [← this]
  · simp only [Arr.unpad, Arr.pad]
    exact shape_sub_zeros _ _ (by simp [hal2, hpl]) hz
  · intro i hi
    simp only [Arr.unpad]
    rw [zipWith_add_zeros _ _ (by simp [hi, hal2]) hz]

/-- All of it: the grid, with the array of the convolution of the array without padding. -/
theorem convRun_ok (g : Grid K V) (hg : Regular g) (hfl : Floats g) (a : Arr V) (hga : g.grid = some a)
    (P : ConvPlan V) (hax : ∀ i ∈ P.ax, i < g.dim) (hnd : P.ax.Nodup)
    (hlen : P.pad.length = P.ax.length) (hal : Aligned P.ax P.pad) (hpos : ∀ p ∈ P.pad, 0 ≤ p)
    (hneg : P.negate = true) (r : Arr V) (hbl : P.source.shape.length = a.shape.length)
    (hr : fftConv a P.source P.ax = .ok r) :
    ∃ g', convRun g P = (g', .ok ()) ∧ Same g' { g with grid := some r } := by
  have h0 := amount_nonneg P.ax P.pad hpos
  obtain ⟨g1, a', p1, p2, p3, q1, q2, q3, q4, q5, q6, q7, q8, q9, hax', hash, hget⟩ :=
    conv_padded g hg hfl a hga P.ax P.pad hax hnd hlen hal hpos
  obtain ⟨ps, hps⟩ : ∃ ps, ps = (List.range g.dim).map (fun i => (amount P.ax P.pad i).toNat) := ⟨_, rfl⟩
  rw [← hps] at hash hget
  have hpl : ps.length = g.dim := by simp [hps]
  have hal2 : a.shape.length = g.dim + 1 := by simp [hg.data a hga, hg.nPix]
  have hdim : g1.dim = g.dim := by simp [Grid.dim, q3]
  have hrs : r.shape = a.shape := by
    unfold fftConv at hr
    split at hr
    · simp at hr
    split at hr
    · simp at hr
    simp only [Except.ok.injEq] at hr
    rw [← hr]
  obtain ⟨r', hr', hrs', hsame⟩ := fftConv_pad a a' P.source r P.ax (ps ++ [0]) (by simp [hpl, hal2]) hbl (by
    intro i hi
    rw [List.getD_eq_getElem?_getD]
    by_cases hid : i < g.dim
    · rw [List.getElem?_append_left (by omega), hps, List.getElem?_map, List.getElem?_range hid]
      simp [amount, hi]
    · by_cases he : i = g.dim
      · rw [List.getElem?_append_right (by omega), he, hpl]
        simp
      · rw [List.getElem?_eq_none (by simp; omega)]
        rfl) hash hget hr
  have hreg2 : Regular ({ g1 with grid := some r' } : Grid K V) :=
    withGrid_regular p2 r' (by rw [hrs', p2.data a' q9])
  have hreg0 : Regular ({ g with grid := some r } : Grid K V) :=
    withGrid_regular hg r (by rw [hrs, hg.data a hga])
  have hk2 : ∀ (i n : ℕ), g1.nPix[i]? = some n →
      2 ≤ (n : ℤ) + 2 * amount P.ax (P.pad.map (- ·)) i := by
    intro i n hi
    have hid : i < g.dim := by
      rw [← hdim, ← p2.nPix]; exact (List.getElem?_eq_some_iff.1 hi).1
    obtain ⟨n', w, c, hn, -, ha⟩ := hg.axis i hid
    have := (hax' i n' w c _ ha (List.getElem?_eq_getElem (by rw [hg.fourier]; exact hid))).nPix
    rw [hi] at this
    simp only [Option.some.injEq] at this
    rw [amount_neg]
    have := h0 i
    omega
  obtain ⟨g'', r1, r2, r3, s1, s2, s3, s4, s5, s6, s7, s8, s9, s10⟩ :=
    padBy_ok ({ g1 with grid := some r' } : Grid K V) hreg2 p3 P.ax (P.pad.map (- ·)) 0
      (by
        show ∀ i ∈ P.ax, i < g1.dim
        rw [hdim]; exact hax) hnd (by simp [hlen]) (aligned_neg P.ax P.pad hal) hk2
  simp only at s1 s2 s3 s4 s5 s6 s7 s8 s9
  refine ⟨g'', ?_, ?_⟩
  · unfold convRun
    rw [p1]
    simp only [q9, hr', hneg, if_true]
    exact r1
  · apply same_of_axes ({ g with grid := some r } : Grid K V) g'' hreg0 r2 (s1.trans q1) (s2.trans q2)
      (s3.trans q3) (s4.trans q4) (s5.trans q5) (s6.trans q6) (s7.trans q7) (s8.trans q8)
      (r3.2.1.trans hfl.2.1.symm) (r3.2.2.trans hfl.2.2.symm)
    · intro i n w c ha hn
      have ha := withGrid_axis.1 ha
      have hid : i < g.dim := (List.getElem?_eq_some_iff.1 ha.center).1
      have hb : g.fourier[i]? = some (g.fourier[i]'(by rw [hg.fourier]; exact hid)) :=
        List.getElem?_eq_getElem (by rw [hg.fourier]; exact hid)
      generalize g.fourier[i]'(by rw [hg.fourier]; exact hid) = b at hb
      obtain ⟨k, k1, k2⟩ := s10 i _ _ c b (withGrid_axis.2 (hax' i n w c b ha hb)) (by
        show g1.fourier[i]? = _
        rw [q7]; exact hb)
      rw [amount_neg] at k1
      have := h0 i
      have hkn : k = n := by omega
      subst hkn
      have hw : padWidth b (k + 2 * (amount P.ax P.pad i).toNat) k
          (padWidth b k (k + 2 * (amount P.ax P.pad i).toNat) w) = w := by
        unfold padWidth
        cases b with
        | false => rfl
        | true =>
          simp only [if_true]
          have h1 : (k : K) ≠ 0 := by
            have : k ≠ 0 := by omega
            exact_mod_cast this
          have h2 : ((k + 2 * (amount P.ax P.pad i).toNat : ℕ) : K) ≠ 0 := by
            have : k + 2 * (amount P.ax P.pad i).toNat ≠ 0 := by omega
            exact_mod_cast this
          field_simp
      rwa [hw] at k2
    · rw [s9]
      simp only [Option.map_some, SameData]
      have hc3 : padCells ({ g1 with grid := some r' } : Grid K V) P.ax (P.pad.map (- ·)) 1 =
          List.replicate g.dim 0 ++ [0] := by
        rw [padCells_eq]
        show (List.range g1.dim).map _ ++ [0] = _
        rw [hdim]
        congr 1
        rw [List.eq_replicate_iff]
        refine ⟨by simp, ?_⟩
        intro x hx
        obtain ⟨i, -, rfl⟩ := List.mem_map.1 hx
        have := h0 i
        rw [amount_neg]
        omega
      have hc4 : padCells ({ g1 with grid := some r' } : Grid K V) P.ax (P.pad.map (- ·)) (-1) = ps ++ [0] := by
        rw [padCells_eq]
        show (List.range g1.dim).map _ ++ [0] = _
        rw [hdim, hps]
        simp [amount_neg]
      rw [hc3, hc4]
      have hbl2 : r'.shape.length = g.dim + 1 := by
        rw [hrs', hash]; simp [hal2, hpl]
      have h2 : (r'.pad (List.replicate g.dim 0 ++ [0]) 0).Same r' := by
        apply Arr.pad_zero
        · simp [hbl2]
        · intro z hz
          simp only [List.mem_append, List.mem_replicate, List.mem_singleton] at hz
          rcases hz with ⟨_, rfl⟩ | rfl <;> rfl
      have h4 := Arr.unpad_congr h2 (ps ++ [0]) (by rw [h2.1, hbl2]; simp [hpl])
      exact h4.trans hsame

/-! ## The method -/

theorem convAxes_ok (dim nsp : ℕ) (ax : Option (List ℕ)) (hax : (askedAxes (dim - nsp) ax).Perm (List.range (dim - nsp))) :
    convAxes dim nsp ax = .ok (askedAxes (dim - nsp) ax) := by
  unfold convAxes askedAxes
  cases ax with
  | none => rfl
  | some l =>
    simp only [askedAxes] at hax
    simp only
    rw [if_neg]
    rintro ⟨a, h1, h2⟩
    have := hax.mem_iff.1 h1
    simp at this
    omega

theorem convPad_ok (k : ℕ) (pad : PadArg) (hl : ∀ l, pad ≠ .list l) (hlen : (askedPad k pad).length = k) :
    convPad k pad = .ok (askedPad k pad, true) := by
  cases pad with
  | none => rfl
  | int p => rfl
  | list l => exact absurd rfl (hl l)
  | array l => simp only [convPad, askedPad] at hlen ⊢; rw [if_neg (by simpa using hlen)]

theorem convPlan_ok (g source : Grid K V) (a b : Arr V) (hga : g.grid = some a)
    (hgb : source.grid = some b) (hreal : ∀ f ∈ g.fourier, f = false) (hpow : g.isPow = false)
    (hle : b.shape.length ≤ a.shape.length) (ax : Option (List ℕ)) (pad : PadArg)
    (l : List ℕ) (hax : convAxes g.dim (a.shape.length - b.shape.length) ax = .ok l)
    (P : List ℤ) (n : Bool) (hpad : convPad l.length pad = .ok (P, n)) :
    convPlan g source ax pad = .ok ⟨convSource b (a.shape.length - b.shape.length), l, P, n⟩ := by
  unfold convPlan
  rw [hga]
  simp only
  rw [if_neg (fun h => by simpa using hreal true h), hgb]
  simp only [hpow, Bool.false_eq_true, if_false]
  rw [if_neg (by omega), hax]
  simp only [hpad]

theorem convSource_length (b : Arr V) (nsp : ℕ) (h : 1 ≤ b.shape.length) :
    (convSource b nsp).shape.length = b.shape.length + nsp := by
  simp [convSource]; omega

theorem convolve_ok (g source : Grid K V) (hg : Regular g) (hfl : Floats g) (a b : Arr V) (hga : g.grid = some a)
    (hgb : source.grid = some b) (hb : b.shape = source.nPix ++ [source.nProps])
    (hreal : ∀ f ∈ g.fourier, f = false) (hpow : g.isPow = false) (hd : 1 ≤ source.nPix.length)
    (hle : source.nPix.length ≤ g.dim) (ax : Option (List ℕ)) (pad : PadArg)
    (hax : (askedAxes source.nPix.length ax).Perm (List.range source.nPix.length))
    (hlist : ∀ l, pad ≠ .list l) (hlen : (askedPad source.nPix.length pad).length = source.nPix.length)
    (hal : Aligned (askedAxes source.nPix.length ax) (askedPad source.nPix.length pad))
    (hpos : ∀ p ∈ askedPad source.nPix.length pad, 0 ≤ p)
    (hm : source.nProps = g.nProps ∨ source.nProps = 1 ∨ g.nProps = 1) :
    ∃ g', g.convolve source ax pad = (g', .ok ()) ∧
      Convolved g g' source (sourceProp g.nProps source.nProps) := by
  have hsa := hg.data a hga
  have hal2 : a.shape.length = g.dim + 1 := by simp [hsa, hg.nPix]
  have hbl : b.shape.length = source.nPix.length + 1 := by simp [hb]
  have hdd : g.dim - (a.shape.length - b.shape.length) = source.nPix.length := by omega
  have h1 := convAxes_ok g.dim (a.shape.length - b.shape.length) ax (by rw [hdd]; exact hax)
  rw [hdd] at h1
  have haxl : (askedAxes source.nPix.length ax).length = source.nPix.length := by
    rw [hax.length_eq]; simp
  have hplan := convPlan_ok g source a b hga hgb hreal hpow (by omega) ax pad _ h1 _ _
    (convPad_ok _ pad hlist (by rw [haxl]; exact hlen))
  rw [haxl] at hplan
  have hmem : ∀ i, i ∈ askedAxes source.nPix.length ax ↔ i < source.nPix.length := fun i => by
    rw [hax.mem_iff, List.mem_range]
  have hnd : (askedAxes source.nPix.length ax).Nodup := hax.nodup_iff.2 List.nodup_range
  obtain ⟨r, hr, hrs, hv⟩ := fftConv_values a b g.nPix source.nPix (askedAxes source.nPix.length ax) g.nProps
    source.nProps hsa hb (by rw [hg.nPix]; exact hle) (by rintro h; simp [h] at hd) hnd hmem hm
  obtain ⟨g', hrun, hs1, hs2⟩ := convRun_ok g hg hfl a hga
    ⟨convSource b (a.shape.length - b.shape.length), askedAxes source.nPix.length ax,
      askedPad source.nPix.length pad, true⟩ (fun i hi => by have := (hmem i).1 hi; omega) hnd (by rw [hlen, haxl]) hal hpos
    rfl r (by simp only; rw [convSource_length b _ (by omega)]; omega) hr
  refine ⟨g', by unfold Grid.convolve; rw [hplan]; exact hrun, hs2, ?_⟩
  intro a0 b0 h2 h3
  rw [hga] at h2
  rw [hgb] at h3
  simp only [Option.some.injEq] at h2 h3
  subst h2 h3
  rcases hg' : g'.grid with _ | r'
  · rw [hg'] at hs1; exact absurd hs1 id
  · rw [hg'] at hs1
    simp only [SameData] at hs1
    refine ⟨r', rfl, hs1.1.trans hrs, ?_⟩
    intro c p hc hp
    rw [← hv c p hc hp]
    exact hs1.2 _ (by rw [hs1.1, hrs, hsa]; exact valid_concat.2 ⟨hc, hp⟩)

end

end Verif.Map
