import Verif.Lemmas.GridNew
import Verif.Lemmas.NdArray

/-!
# Padding
-/

set_option linter.unusedSectionVars false

namespace Verif.Map

open Verif.Sim (Err)
open Spec

variable {K V : Type} [Field K] [LinearOrder K] [IsStrictOrderedRing K] [FloorRing K]

/-- The description of an axis of `k` cells of width `w` around `c`. -/
def axisNew (k : ℕ) (w c : K) : AxisNew K :=
  ⟨k, k * w, w, edges k w c, middles k w c, fedges k w, freqs k w⟩

theorem axisEdges_short (n : ℕ) (w : K) (h : n ≤ 1) : axisEdges (freqs n w) = .error .indexError := by
  have : n = 0 ∨ n = 1 := by omega
  rcases this with rfl | rfl
  · simp [freqs, axisEdges]
  · simp [freqs, axisEdges]

theorem padAxis_eq (g : Grid K V) (hfl : Floats g) (i n : ℕ) (w c : K) (ha : AxisIs g i n w c)
    (b : Bool) (hb : g.fourier[i]? = some b) (p : ℤ) :
    padAxis g i p = if (n : ℤ) + 2 * p < 0 then .error .valueError
      else if (n : ℤ) + 2 * p ≤ 1 then .error .indexError
      else .ok (axisNew ((n : ℤ) + 2 * p).toNat (padWidth b n ((n : ℤ) + 2 * p).toNat w) c) := by
  unfold padAxis
  simp only [ha.nPix, ha.side, ha.pix, ha.center, hb, hfl.2.1, hfl.2.2]
  by_cases h0 : (n : ℤ) + 2 * p < 0
  · simp [h0]
  rw [if_neg h0, if_neg h0]
  by_cases h1 : (n : ℤ) + 2 * p ≤ 1
  · rw [if_pos h1, fcentersOf_eq, axisEdges_short _ _ (by omega)]
  · rw [if_neg h1]
    set k := ((n : ℤ) + 2 * p).toNat with hk
    have hk2 : 2 ≤ k := by omega
    have hk0 : (k : K) ≠ 0 := by
      have : k ≠ 0 := by omega
      exact_mod_cast this
    cases b with
    | false =>
      simp only [Bool.false_eq_true, if_false, padWidth, fcentersOf_eq, axisEdges_freqs k _ hk2,
        edgesOf_eq, centersOf_eq, axisNew]
    | true =>
      have e : (n : K) * w = k * (n * w / k) := by field_simp
      simp only [Bool.false_eq_true, if_false, if_true, padWidth, fcentersOf_eq,
        axisEdges_freqs k _ hk2]
      unfold axisNew
      rw [← e]
      have e2 : edgesOf k ((n : K) * w / k) (n * w) c = edges k (n * w / k) c := by
        rw [← edgesOf_eq, ← e]
      rw [e2, centersOf_eq]

/-- What does not change when axes are replaced. -/
structure Framed (g h : Grid K V) : Prop where
  nProps : h.nProps = g.nProps
  nObj : h.nObj = g.nObj
  center : h.center = g.center
  axunits : h.axunits = g.axunits
  faxunits : h.faxunits = g.faxunits
  gridunits : h.gridunits = g.gridunits
  fourier : h.fourier = g.fourier
  isPow : h.isPow = g.isPow
  grid : h.grid = g.grid
  sideInt : h.side.isInt = g.side.isInt
  pixInt : h.pix.isInt = g.pix.isInt
  lnPix : h.nPix.length = g.nPix.length
  lpix : h.pix.vals.length = g.pix.vals.length
  lside : h.side.vals.length = g.side.vals.length
  laxes : h.axes.length = g.axes.length
  lcenters : h.centers.length = g.centers.length
  lfcenters : h.fcenters.length = g.fcenters.length
  lfaxes : h.faxes.length = g.faxes.length

theorem Framed.refl (g : Grid K V) : Framed g g :=
  ⟨rfl, rfl, rfl, rfl, rfl, rfl, rfl, rfl, rfl, rfl, rfl, rfl, rfl, rfl, rfl, rfl, rfl, rfl⟩

theorem Framed.trans {g h k : Grid K V} (a : Framed g h) (b : Framed h k) : Framed g k :=
  ⟨b.1.trans a.1, b.2.trans a.2, b.3.trans a.3, b.4.trans a.4, b.5.trans a.5, b.6.trans a.6,
    b.7.trans a.7, b.8.trans a.8, b.9.trans a.9, b.10.trans a.10, b.11.trans a.11,
    b.12.trans a.12, b.13.trans a.13, b.14.trans a.14, b.15.trans a.15, b.16.trans a.16,
    b.17.trans a.17, b.18.trans a.18⟩

theorem framed_setAxis (g : Grid K V) (i : ℕ) (a : AxisNew K) : Framed g (g.setAxis i a) := by
  constructor <;> simp [Grid.setAxis]

theorem Framed.dim {g h : Grid K V} (a : Framed g h) : h.dim = g.dim := by
  simp [Grid.dim, a.center]

/-- The lists describing the axes all have an entry for each dimension. -/
structure Shaped (g : Grid K V) : Prop where
  nPix : g.nPix.length = g.dim
  pix : g.pix.vals.length = g.dim
  side : g.side.vals.length = g.dim
  axes : g.axes.length = g.dim
  centers : g.centers.length = g.dim
  fcenters : g.fcenters.length = g.dim
  faxes : g.faxes.length = g.dim

theorem Spec.Regular.shaped {g : Grid K V} (h : Regular g) : Shaped g :=
  ⟨h.nPix, h.pix, h.side, h.axes, h.centers, h.fcenters, h.faxes⟩

theorem Framed.shaped {g h : Grid K V} (a : Framed g h) (s : Shaped g) : Shaped h := by
  have hd := a.dim
  exact ⟨by rw [a.lnPix, s.nPix, hd], by rw [a.lpix, s.pix, hd], by rw [a.lside, s.side, hd],
    by rw [a.laxes, s.axes, hd], by rw [a.lcenters, s.centers, hd],
    by rw [a.lfcenters, s.fcenters, hd], by rw [a.lfaxes, s.faxes, hd]⟩

theorem setAxis_same (g : Grid K V) (hs : Shaped g) (i k : ℕ) (w c : K)
    (hc : g.center.vals[i]? = some c) : AxisIs (g.setAxis i (axisNew k w c)) i k w c := by
  have hi : i < g.dim := (List.getElem?_eq_some_iff.1 hc).1
  constructor <;> simp [Grid.setAxis, axisNew, hs.nPix, hs.pix, hs.side, hs.axes,
    hs.centers, hs.fcenters, hs.faxes, hi, hc]

theorem setAxis_other (g : Grid K V) (i j : ℕ) (a : AxisNew K) (hij : i ≠ j) (n : ℕ) (w c : K)
    (h : AxisIs g j n w c) : AxisIs (g.setAxis i a) j n w c := by
  constructor <;> simp [Grid.setAxis, hij, h.nPix, h.pix, h.center, h.side,
    h.axes, h.centers, h.fcenters, h.faxes]

theorem setAxes_aux (plan : List (Option (AxisNew K))) (k : ℕ) (g : Grid K V) (hs : Shaped g) :
    Framed g ((plan.zipIdx k).foldl (fun h p => match p.1 with
      | none => h
      | some a => h.setAxis p.2 a) g) ∧
    ∀ (j n : ℕ) (w c : K),
      (AxisIs g j n w c → (k ≤ j → ∀ a, plan[j - k]? ≠ some (some a)) →
        AxisIs ((plan.zipIdx k).foldl (fun h p => match p.1 with
          | none => h
          | some a => h.setAxis p.2 a) g) j n w c) ∧
      (g.center.vals[j]? = some c → k ≤ j → plan[j - k]? = some (some (axisNew n w c)) →
        AxisIs ((plan.zipIdx k).foldl (fun h p => match p.1 with
          | none => h
          | some a => h.setAxis p.2 a) g) j n w c) := by
  induction plan generalizing k g with
  | nil => exact ⟨Framed.refl g, fun j n w c => ⟨fun h _ => h, fun _ _ h => by simp at h⟩⟩
  | cons x plan ih =>
    simp only [List.zipIdx_cons, List.foldl_cons]
    have step : ∀ g1 : Grid K V, Framed g g1 →
        (∀ (j n : ℕ) (w c : K), (AxisIs g j n w c → (k = j → ∀ a, x ≠ some a) →
          AxisIs g1 j n w c) ∧ (g.center.vals[k]? = some c → x = some (axisNew n w c) →
          AxisIs g1 k n w c)) →
        Framed g ((plan.zipIdx (k + 1)).foldl (fun h p => match p.1 with
          | none => h
          | some a => h.setAxis p.2 a) g1) ∧
        ∀ (j n : ℕ) (w c : K),
        (AxisIs g j n w c → (k ≤ j → ∀ a, (x :: plan)[j - k]? ≠ some (some a)) →
          AxisIs ((plan.zipIdx (k + 1)).foldl (fun h p => match p.1 with
            | none => h
            | some a => h.setAxis p.2 a) g1) j n w c) ∧
        (g.center.vals[j]? = some c → k ≤ j → (x :: plan)[j - k]? = some (some (axisNew n w c)) →
          AxisIs ((plan.zipIdx (k + 1)).foldl (fun h p => match p.1 with
            | none => h
            | some a => h.setAxis p.2 a) g1) j n w c) := by
      intro g1 hf hstep
      obtain ⟨i1, i2⟩ := ih (k + 1) g1 (hf.shaped hs)
      refine ⟨hf.trans i1, ?_⟩
      intro j n w c
      constructor
      · intro ha hp
        apply (i2 j n w c).1
        · apply (hstep j n w c).1 ha
          intro hkj a hx
          subst hkj
          exact hp le_rfl a (by simp [hx])
        · intro hkj a he
          refine hp (by omega) a ?_
          have : j - k = (j - (k + 1)) + 1 := by omega
          rw [this, List.getElem?_cons_succ, he]
      · intro hc hkj he
        by_cases hk : k = j
        · subst hk
          apply (i2 k n w c).1
          · apply (hstep k n w c).2 hc
            simpa using he
          · intro h; omega
        · apply (i2 j n w c).2
          · rw [hf.center]; exact hc
          · omega
          · have : j - k = (j - (k + 1)) + 1 := by omega
            rw [this, List.getElem?_cons_succ] at he
            exact he
    cases x with
    | none =>
      exact step g (Framed.refl g) (fun j n w c => ⟨fun h _ => h, fun _ h => by cases h⟩)
    | some a =>
      apply step (g.setAxis k a) (framed_setAxis g k a)
      intro j n w c
      constructor
      · intro h hk
        apply setAxis_other g k j a _ n w c h
        intro e
        exact hk e a rfl
      · intro hc he
        simp only [Option.some.injEq] at he
        subst he
        exact setAxis_same g hs k n w c hc

theorem setAxes_spec (g : Grid K V) (hs : Shaped g) (plan : List (Option (AxisNew K))) :
    Framed g (g.setAxes plan) ∧ ∀ (j n : ℕ) (w c : K),
      (AxisIs g j n w c → (∀ a, plan[j]? ≠ some (some a)) → AxisIs (g.setAxes plan) j n w c) ∧
      (g.center.vals[j]? = some c → plan[j]? = some (some (axisNew n w c)) →
        AxisIs (g.setAxes plan) j n w c) := by
  obtain ⟨h1, h2⟩ := setAxes_aux plan 0 g hs
  refine ⟨h1, fun j n w c => ⟨fun ha hp => (h2 j n w c).1 ha (fun _ => by simpa using hp),
    fun hc hp => (h2 j n w c).2 hc (Nat.zero_le _) (by simpa using hp)⟩⟩


theorem padPlan_inv (g : Grid K V) (hg : Regular g) (hfl : Floats g) (ax : List ℕ) (pad : List ℤ)
    (plan : List (Option (AxisNew K))) (h : padPlan g ax pad = .ok plan) (i n : ℕ) (w c : K)
    (ha : AxisIs g i n w c) (hw : 0 < w) (hn : 2 ≤ n) :
    plan[i]? = some none ∨
      ∃ k w', 2 ≤ k ∧ 0 < w' ∧ plan[i]? = some (some (axisNew k w' c)) := by
  have hi : i < g.dim := (List.getElem?_eq_some_iff.1 ha.center).1
  obtain ⟨b, hb⟩ : ∃ b, g.fourier[i]? = some b :=
    ⟨_, List.getElem?_eq_getElem (by rw [hg.fourier]; exact hi)⟩
  obtain ⟨y, h1, h2⟩ := ((mapE_ok_iff _ _ _).1 h).2 i i (List.getElem?_range hi)
  by_cases c1 : i ∉ ax
  · rw [if_pos c1] at h2
    simp only [Except.ok.injEq] at h2; subst h2; exact Or.inl h1
  rw [if_neg c1] at h2
  by_cases c2 : pad.getD (ax.idxOf i) 0 = 0
  · rw [if_pos c2] at h2
    simp only [Except.ok.injEq] at h2; subst h2; exact Or.inl h1
  rw [if_neg c2] at h2
  · cases hp : padWrong ax pad i with
    | error e => rw [hp] at h2; cases h2
    | ok p =>
      rw [hp] at h2
      simp only [padAxis_eq g hfl i n w c ha b hb p] at h2
      by_cases d1 : (n : ℤ) + 2 * p < 0
      · simp [d1] at h2
      by_cases d2 : (n : ℤ) + 2 * p ≤ 1
      · simp [d1, d2] at h2
      simp only [d1, d2, if_false, Except.ok.injEq] at h2
      subst h2
      refine Or.inr ⟨_, _, ?_, ?_, h1⟩
      · omega
      · unfold padWidth
        have k0 : (0 : K) < (((n : ℤ) + 2 * p).toNat : ℕ) := by
          have : 0 < ((n : ℤ) + 2 * p).toNat := by omega
          exact_mod_cast this
        have n0 : (0 : K) < n := by exact_mod_cast (show 0 < n by omega)
        split <;> positivity

theorem pad_shape (g : Grid K V) (ax : List ℕ) (pad : List ℤ) (val : V) (a : Arr V)
    (hn : g.nPix.length = g.dim) (hs : a.shape = g.nPix ++ [g.nProps]) :
    ∃ l, ((a.pad (padCells g ax pad 1) val).unpad (padCells g ax pad (-1))).shape =
      l ++ [g.nProps] ∧ l.length = g.dim := by
  unfold Arr.unpad Arr.pad padCells
  simp only [hs]
  rw [List.zipWith_append (by simp [hn]), List.zipWith_append (by simp [hn])]
  exact ⟨_, rfl, by simp [hn]⟩

/-- Replacing axes keeps a grid regular. -/
theorem setAxes_regular (g : Grid K V) (hg : Regular g) (plan : List (Option (AxisNew K)))
    (hp : ∀ (i n : ℕ) (w c : K), AxisIs g i n w c → 2 ≤ n → 0 < w → plan[i]? = some none ∨
      ∃ k w', 2 ≤ k ∧ 0 < w' ∧ plan[i]? = some (some (axisNew k w' c)))
    (d : Option (Arr V))
    (hd : ∀ a, d = some a → a.shape = (g.setAxes plan).nPix ++ [g.nProps]) :
    Regular ({ g.setAxes plan with grid := d } : Grid K V) := by
  obtain ⟨f, h⟩ := setAxes_spec g hg.shaped plan
  have s := f.shaped hg.shaped
  refine ⟨s.nPix, s.pix, s.side, s.axes, s.centers, s.fcenters, s.faxes, ?_, ?_, ?_⟩
  · show (g.setAxes plan).fourier.length = (g.setAxes plan).dim
    rw [f.fourier, f.dim]; exact hg.fourier
  · intro i hi
    have hi' : i < g.dim := by rw [← f.dim]; exact hi
    obtain ⟨n, w, c, hn, hw, ha⟩ := hg.axis i hi'
    have key : ∀ n w c, AxisIs (g.setAxes plan) i n w c →
        AxisIs ({ g.setAxes plan with grid := d } : Grid K V) i n w c :=
      fun n w c q => ⟨q.1, q.2, q.3, q.4, q.5, q.6, q.7, q.8⟩
    rcases hp i n w c ha hn hw with h1 | ⟨k, w', hk, hw', h1⟩
    · exact ⟨n, w, c, hn, hw, key _ _ _ ((h i n w c).1 ha (by rw [h1]; simp))⟩
    · exact ⟨k, w', c, hk, hw', key _ _ _ ((h i k w' c).2 ha.center h1)⟩
  · intro a ha
    show a.shape = (g.setAxes plan).nPix ++ [(g.setAxes plan).nProps]
    rw [f.nProps]
    exact hd a ha

/-- Successful padding keeps a grid regular. -/
theorem padBy_regular (g g' : Grid K V) (hg : Regular g) (hfl : Floats g) (ax : List ℕ)
    (pad0 : List ℤ) (val : V) (h : g.padBy ax pad0 val = (g', .ok ())) :
    Regular g' ∧ Floats g' := by
  unfold Grid.padBy at h
  split at h
  · simp at h
  split at h
  · simp at h
  rename_i pad _
  split at h
  · simp at h
  split at h
  · simp at h
  rename_i plan hplan
  have hp := fun i n w c ha hn hw => padPlan_inv g hg hfl ax pad plan hplan i n w c ha hw hn
  obtain ⟨f, -⟩ := setAxes_spec g hg.shaped plan
  have hfl' : ∀ d : Option (Arr V), Floats ({ g.setAxes plan with grid := d } : Grid K V) := by
    intro d
    refine ⟨?_, ?_, ?_⟩
    · show (g.setAxes plan).center.isInt = false
      rw [f.center]; exact hfl.1
    · exact f.sideInt.trans hfl.2.1
    · exact f.pixInt.trans hfl.2.2
  cases hgr : g.grid with
  | none =>
    simp only [hgr, Option.map_none, Prod.mk.injEq] at h
    obtain ⟨rfl, -⟩ := h
    exact ⟨setAxes_regular g hg plan hp _ (by simp), hfl' _⟩
  | some a =>
    simp only [hgr, Option.map_some] at h
    split at h
    · rename_i hsh
      simp only [Prod.mk.injEq] at h
      obtain ⟨rfl, -⟩ := h
      refine ⟨setAxes_regular g hg plan hp _ ?_, hfl' _⟩
      intro b hb
      simp only [Option.some.injEq] at hb
      subst hb
      obtain ⟨l, h1, -⟩ := pad_shape g ax pad val a hg.nPix (hg.data a hgr)
      rw [h1] at hsh ⊢
      simp only [List.dropLast_concat] at hsh
      rw [hsh]
    · simp at h

/-- The plan if the amounts are looked up as given. -/
theorem padPlan_ok (g : Grid K V) (hg : Regular g) (hfl : Floats g) (ax : List ℕ) (pad : List ℤ)
    (hal : Aligned ax pad)
    (hk : ∀ (i n : ℕ), g.nPix[i]? = some n → 2 ≤ (n : ℤ) + 2 * amount ax pad i) :
    ∃ plan, padPlan g ax pad = .ok plan ∧ ∀ (i n : ℕ) (w c : K) (b : Bool), AxisIs g i n w c →
      g.fourier[i]? = some b →
      plan[i]? = some (if amount ax pad i = 0 then none else some (axisNew
        ((n : ℤ) + 2 * amount ax pad i).toNat
        (padWidth b n ((n : ℤ) + 2 * amount ax pad i).toNat w) c)) := by
  have hval : ∀ (i n : ℕ) (w c : K) (b : Bool), AxisIs g i n w c → g.fourier[i]? = some b →
      (if i ∉ ax then (.ok none : Except Err (Option (AxisNew K)))
       else if pad.getD (ax.idxOf i) 0 = 0 then .ok none
       else
        match padWrong ax pad i with
        | .error e => .error e
        | .ok p =>
          match padAxis g i p with
          | .error e => .error e
          | .ok a => .ok (some a)) =
      .ok (if amount ax pad i = 0 then none else some (axisNew
        ((n : ℤ) + 2 * amount ax pad i).toNat
        (padWidth b n ((n : ℤ) + 2 * amount ax pad i).toNat w) c)) := by
    intro i n w c b ha hb
    by_cases h1 : i ∈ ax
    · have e : amount ax pad i = pad.getD (ax.idxOf i) 0 := by simp [amount, h1]
      by_cases h2 : amount ax pad i = 0
      · rw [if_neg (by simpa using h1), ← e, if_pos h2, if_pos h2]
      · rw [if_neg (by simpa using h1), ← e, if_neg h2, if_neg h2]
        obtain ⟨a, ha1, ha2⟩ := hal i h2
        have hpw : padWrong ax pad i = .ok (amount ax pad i) := by simp [padWrong, ha1, ha2]
        simp only [hpw, padAxis_eq g hfl i n w c ha b hb]
        have := hk i n ha.nPix
        rw [if_neg (by omega), if_neg (by omega)]
    · have e : amount ax pad i = 0 := by simp [amount, h1]
      rw [if_pos h1, if_pos e]
  obtain ⟨plan, hplan⟩ : ∃ plan, padPlan g ax pad = .ok plan := by
    apply mapE_total
    intro i hi
    rw [List.mem_range] at hi
    obtain ⟨n, w, c, -, -, ha⟩ := hg.axis i hi
    exact ⟨_, hval i n w c _ ha (List.getElem?_eq_getElem (by rw [hg.fourier]; exact hi))⟩
  refine ⟨plan, hplan, ?_⟩
  intro i n w c b ha hb
  have hi : i < g.dim := (List.getElem?_eq_some_iff.1 ha.center).1
  obtain ⟨y, h1, h2⟩ := ((mapE_ok_iff _ _ _).1 hplan).2 i i (List.getElem?_range hi)
  have h3 := Except.ok.inj ((hval i n w c b ha hb).symm.trans h2)
  rw [h1, ← h3]

theorem getD_eq_amount (ax : List ℕ) (pad : List ℤ) (hnd : ax.Nodup) (q : ℕ × ℤ)
    (hq : q ∈ ax.zip pad) : amount ax pad q.1 = q.2 := by
  obtain ⟨j, hj⟩ := List.getElem?_of_mem hq
  rw [List.getElem?_zip_eq_some] at hj
  obtain ⟨h1, h2⟩ := hj
  have hm := List.mem_of_getElem? h1
  have hjl := (List.getElem?_eq_some_iff.1 h1).1
  have hje := (List.getElem?_eq_some_iff.1 h1).2
  have : ax.idxOf q.1 = j := by
    rw [← hje]; exact hnd.idxOf_getElem j hjl
  simp [amount, hm, this, List.getD_eq_getElem?_getD, h2]

/-- The numbers of cells added on each side. -/
theorem padCells_eq (g : Grid K V) (ax : List ℕ) (pad : List ℤ) (s : ℤ) :
    padCells g ax pad s = (List.range g.dim).map (fun i => (s * amount ax pad i).toNat) ++ [0] := by
  unfold padCells
  congr 1
  refine List.map_congr_left (fun i _ => ?_)
  unfold amount
  by_cases h : i ∈ ax <;> simp [h]

/-- Padding succeeds, with the requested cells added. -/
theorem padBy_ok (g : Grid K V) (hg : Regular g) (hfl : Floats g) (ax : List ℕ) (pad : List ℤ)
    (val : V) (hax : ∀ a ∈ ax, a < g.dim) (hnd : ax.Nodup) (hlen : pad.length = ax.length)
    (hal : Aligned ax pad)
    (hk : ∀ (i n : ℕ), g.nPix[i]? = some n → 2 ≤ (n : ℤ) + 2 * amount ax pad i) :
    ∃ g' : Grid K V, g.padBy ax pad val = (g', .ok ()) ∧ Regular g' ∧ Floats g' ∧
      g'.nProps = g.nProps ∧ g'.nObj = g.nObj ∧ g'.center = g.center ∧ g'.axunits = g.axunits ∧
      g'.faxunits = g.faxunits ∧ g'.gridunits = g.gridunits ∧ g'.fourier = g.fourier ∧
      g'.isPow = g.isPow ∧
      g'.grid = g.grid.map (fun a : Arr V =>
        (a.pad (padCells g ax pad 1) val).unpad (padCells g ax pad (-1))) ∧
      ∀ (i n : ℕ) (w c : K) (b : Bool), AxisIs g i n w c → g.fourier[i]? = some b →
        ∃ k : ℕ, (k : ℤ) = n + 2 * amount ax pad i ∧ AxisIs g' i k (padWidth b n k w) c := by
  obtain ⟨plan, hplan, hpl⟩ := padPlan_ok g hg hfl ax pad hal hk
  obtain ⟨f, hsp⟩ := setAxes_spec g hg.shaped plan
  set d := g.grid.map (fun a : Arr V =>
        (a.pad (padCells g ax pad 1) val).unpad (padCells g ax pad (-1))) with hd
  have haxis : ∀ (i n : ℕ) (w c : K) (b : Bool), AxisIs g i n w c → g.fourier[i]? = some b →
      ∃ k : ℕ, (k : ℤ) = n + 2 * amount ax pad i ∧
        AxisIs (g.setAxes plan) i k (padWidth b n k w) c := by
    intro i n w c b ha hb
    have h := hpl i n w c b ha hb
    have hkk := hk i n ha.nPix
    by_cases h0 : amount ax pad i = 0
    · rw [if_pos h0] at h
      refine ⟨n, by simp [h0], ?_⟩
      have hw : padWidth b n n w = w := by
        have hn : (n : K) ≠ 0 := by
          have : n ≠ 0 := by omega
          exact_mod_cast this
        unfold padWidth; split
        · field_simp
        · rfl
      rw [hw]
      exact (hsp i n w c).1 ha (by rw [h]; simp)
    · rw [if_neg h0] at h
      exact ⟨_, by omega, (hsp i _ _ c).2 ha.center h⟩
  have hnp : (g.setAxes plan).nPix =
      (List.range g.dim).map (fun i => ((g.nPix.getD i 0 : ℤ) + 2 * amount ax pad i).toNat) := by
    apply List.ext_getElem?
    intro i
    by_cases hi : i < g.dim
    · obtain ⟨n, w, c, -, -, ha⟩ := hg.axis i hi
      obtain ⟨k, hk1, hk2⟩ := haxis i n w c _ ha
        (List.getElem?_eq_getElem (by rw [hg.fourier]; exact hi))
      rw [hk2.nPix, List.getElem?_map, List.getElem?_range hi]
      simp only [Option.map_some, List.getD_eq_getElem?_getD, ha.nPix, Option.getD_some]
      congr 1
      omega
    · rw [List.getElem?_eq_none (by rw [f.lnPix, hg.nPix]; omega), List.getElem?_eq_none (by simp; omega)]
  have hshape : ∀ a, d = some a → a.shape = (g.setAxes plan).nPix ++ [g.nProps] := by
    intro a ha
    rw [hd] at ha
    cases hgr : g.grid with
    | none => rw [hgr] at ha; cases ha
    | some a0 =>
      rw [hgr] at ha
      simp only [Option.map_some, Option.some.injEq] at ha
      subst ha
      have hs := hg.data a0 hgr
      simp only [Arr.unpad, Arr.pad, padCells_eq, hs]
      rw [List.zipWith_append (by simp [hg.nPix]), List.zipWith_append (by simp [hg.nPix]), hnp]
      congr 1
      apply List.ext_getElem?
      intro i
      by_cases hi : i < g.dim
      · obtain ⟨n, w, c, -, -, ha⟩ := hg.axis i hi
        have := hk i n ha.nPix
        simp only [List.getElem?_zipWith, ha.nPix, List.getElem?_map, List.getElem?_range hi,
          Option.map_some, List.getD_eq_getElem?_getD, Option.getD_some, Option.some.injEq]
        omega
      · rw [List.getElem?_eq_none (by simp; omega), List.getElem?_eq_none (by simp; omega)]
  have hp' : ∀ (i n : ℕ) (w c : K), AxisIs g i n w c → 2 ≤ n → 0 < w → plan[i]? = some none ∨
      ∃ k w', 2 ≤ k ∧ 0 < w' ∧ plan[i]? = some (some (axisNew k w' c)) :=
    fun i n w c ha hn hw => padPlan_inv g hg hfl ax pad plan hplan i n w c ha hw hn
  refine ⟨{ g.setAxes plan with grid := d }, ?_, setAxes_regular g hg plan hp' d hshape, ?_,
    f.nProps, f.nObj, f.center, f.axunits, f.faxunits, f.gridunits, f.fourier, f.isPow, rfl, ?_⟩
  · unfold Grid.padBy
    rw [if_neg (by rintro ⟨a, h1, h2⟩; exact absurd (hax a h1) (by omega))]
    have hm : padSpread pad ax.length = .ok pad := by
      unfold padSpread
      rw [if_neg (by omega), if_pos hlen]
    rw [hm]
    simp only
    rw [if_neg ?_, hplan]
    · simp only [← hd]
      cases hdd : d with
      | none => rfl
      | some b =>
        simp only
        rw [if_pos]
        rw [hshape b hdd]
        simp
    · rintro ⟨q, hq, h1, h2⟩
      have e := getD_eq_amount ax pad hnd q hq
      have hq1 : q.1 < g.dim := hax _ (List.of_mem_zip hq).1
      obtain ⟨n, w, c, -, -, ha⟩ := hg.axis q.1 hq1
      have := hk q.1 n ha.nPix
      rw [List.getD_eq_getElem?_getD, ha.nPix] at h2
      simp only [Option.getD_some] at h2
      omega
  · refine ⟨?_, f.sideInt.trans hfl.2.1, f.pixInt.trans hfl.2.2⟩
    show (g.setAxes plan).center.isInt = false
    rw [f.center]; exact hfl.1
  · intro i n w c b ha hb
    obtain ⟨k, h1, q⟩ := haxis i n w c b ha hb
    exact ⟨k, h1, q.1, q.2, q.3, q.4, q.5, q.6, q.7, q.8⟩

end Verif.Map
