import Verif.Lemmas.GridAxis

/-!
# Construction of a grid
-/

namespace Verif.Map

open Verif.Sim (Err)
open Spec

variable {K V : Type} [Field K] [LinearOrder K] [IsStrictOrderedRing K] [FloorRing K]

/-- The call succeeds and its result passes a check (for examples). -/
def okAnd {α : Type} (r : Except Err α) (p : α → Prop) [DecidablePred p] : Bool :=
  match r with
  | .ok a => decide (p a)
  | .error _ => false

theorem rint_le (y : K) (m : ℤ) (he : m % 2 = 0) (h : y ≤ m + 1 / 2) : rint y ≤ m := by
  unfold rint
  have hf := Int.floor_le y
  have hf2 := Int.lt_floor_add_one y
  have h1 : ⌊y⌋ ≤ m := by
    rw [← Int.lt_add_one_iff, Int.floor_lt]
    push_cast
    linarith
  rcases h1.lt_or_eq with h2 | h2
  · split_ifs <;> omega
  · have hc : (⌊y⌋ : K) = (m : K) := by rw [h2]
    split_ifs with a b c
    · exact h1
    · linarith
    · exact h1
    · exact absurd (h2 ▸ he) c

theorem lt_rint (y : K) (m : ℤ) (h : (m : K) + 1 / 2 < y) : m < rint y := by
  unfold rint
  have h1 : m ≤ ⌊y⌋ := by rw [Int.le_floor]; linarith
  rcases h1.lt_or_eq with h2 | h2
  · split_ifs <;> omega
  · have hc : (⌊y⌋ : K) = (m : K) := by rw [h2]
    split_ifs with a b c
    · linarith
    · omega
    · linarith
    · omega

/-- `ceil(round(x, 1))`. -/
theorem ceil_round1 (x : K) : ⌈round1 x⌉ = ⌈x - 1 / 20⌉ := by
  set n := ⌈x - 1 / 20⌉ with hn
  have h1 : x - 1 / 20 ≤ (n : K) := Int.le_ceil _
  have h2 : (n : K) - 1 < x - 1 / 20 := by
    have := Int.ceil_lt_add_one (x - 1 / 20)
    rw [← hn] at this
    linarith
  have a1 : rint (10 * x) ≤ 10 * n := by
    apply rint_le _ _ (by omega)
    push_cast
    linarith
  have a2 : 10 * n - 10 < rint (10 * x) := by
    apply lt_rint
    push_cast
    linarith
  rw [Int.ceil_eq_iff]
  unfold round1
  have a1' : (rint (10 * x) : K) ≤ 10 * (n : K) := by exact_mod_cast a1
  have a2' : 10 * (n : K) - 10 < (rint (10 * x) : K) := by exact_mod_cast a2
  constructor
  · rw [lt_div_iff₀ (by norm_num)]; linarith
  · rw [div_le_iff₀ (by norm_num)]; linarith

theorem pixelCount_ok (s w : K) (hw : 0 < w) (n : ℕ) :
    pixelCount s w = .ok n ↔ 2 ≤ n ∧ ((n : K) - 1 + 1 / 20 < s / w ∧ s / w ≤ n + 1 / 20) := by
  unfold pixelCount
  rw [if_neg hw.ne']
  simp only [ceil_round1]
  have key : ∀ m : ℤ, ⌈s / w - 1 / 20⌉ = m ↔ ((m : K) - 1 + 1 / 20 < s / w ∧ s / w ≤ m + 1 / 20) := by
    intro m
    rw [Int.ceil_eq_iff]
    constructor
    · rintro ⟨a, b⟩; constructor <;> linarith
    · rintro ⟨a, b⟩; constructor <;> linarith
  constructor
  · intro h
    split_ifs at h with h1 h2
    simp only [Except.ok.injEq] at h
    have hm : ⌈s / w - 1 / 20⌉ = (n : ℤ) := by omega
    have := (key n).1 hm
    refine ⟨by omega, ?_⟩
    simpa using this
  · rintro ⟨h1, h2⟩
    have hm : ⌈s / w - 1 / 20⌉ = (n : ℤ) := (key n).2 (by simpa using h2)
    rw [hm, if_neg (by omega), if_neg (by omega)]
    simp

/-- Too few cells. -/
theorem pixelCount_error (s w : K) (hw : 0 < w) (h : s / w ≤ 1 + 1 / 20) :
    ∃ e, pixelCount s w = .error e := by
  cases hc : pixelCount s w with
  | error e => exact ⟨e, rfl⟩
  | ok n =>
    obtain ⟨h1, h2, -⟩ := (pixelCount_ok s w hw n).1 hc
    have : (2 : K) ≤ n := by exact_mod_cast h1
    linarith

theorem pixelCount_total (s w : K) (hw : 0 < w) (h : 1 + 1 / 20 < s / w) :
    ∃ n, pixelCount s w = .ok n := by
  have hp : 1 < ⌈s / w - 1 / 20⌉ := by
    rw [Int.lt_ceil]; push_cast; linarith
  refine ⟨⌈s / w - 1 / 20⌉.toNat, ?_⟩
  unfold pixelCount
  rw [if_neg hw.ne']
  simp only [ceil_round1]
  rw [if_neg (by omega), if_neg (by omega)]

theorem ite_ok {α : Type} {c : Prop} [Decidable c] {s S : α} {e : Err}
    (h : (if c then Except.ok s else .error e) = .ok S) : c ∧ S = s := by
  split_ifs at h with hc
  exact ⟨hc, (Except.ok.inj h).symm⟩

/-- A grid is built whenever the number of cells is at least two on every axis. -/
theorem new_ok (m : ℕ) (center side pix S P : NArr K) (au gu : Option (List (Option String)))
    (au' gu' : List (Option String))
    (hS : spreadSide side center.vals.length = .ok S)
    (hP : spreadPix pix center.vals.length = .ok P)
    (hau : spreadUnits au center.vals.length = .ok au') (hgu : spreadUnits gu m = .ok gu')
    (hpos : ∀ w ∈ P.vals, 0 < w) (ns : List ℕ)
    (hns : mapE (fun p : K × K => pixelCount p.1 p.2) (S.vals.zip P.vals) = .ok ns) :
    ∃ g : Grid K V, Grid.new m center side pix au gu = .ok g ∧ Regular g ∧ g.center = center ∧
      g.pix = P ∧ g.nPix = ns ∧ g.nProps = m ∧ g.nObj = 0 ∧ g.grid = none ∧ g.axunits = au' ∧
      g.faxunits = au'.map (fun u => u.map (· ++ "^-1")) ∧
      g.gridunits = gu' ∧ g.fourier = List.replicate center.vals.length false ∧ g.isPow = false ∧
      g.side = (if List.zipWith (· / ·) S.vals P.vals = ns.map (fun n : ℕ => (n : K)) then S
        else ⟨false, List.zipWith (fun p (n : ℕ) => p * n) P.vals ns⟩) := by
  set d := center.vals.length with hd
  have hSl : S.vals.length = d := by
    unfold spreadSide at hS
    obtain ⟨h, rfl⟩ := ite_ok hS
    exact h
  have hPl : P.vals.length = d := by
    unfold spreadPix at hP
    split at hP
    · rename_i h; simp only [Except.ok.injEq] at hP; subst hP; exact h
    · split at hP
      · simp only [Except.ok.injEq] at hP; subst hP; simp
      · cases hP
  have hnl : ns.length = d := by rw [mapE_length hns, List.length_zip, hSl, hPl, min_self]
  have hn : ∀ (i n : ℕ), ns[i]? = some n → ∃ s w, S.vals[i]? = some s ∧ P.vals[i]? = some w ∧
      0 < w ∧ pixelCount s w = .ok n := by
    intro i n hi
    obtain ⟨⟨s, w⟩, h1, h2⟩ := mapE_get hns i n hi
    rw [List.getElem?_zip_eq_some] at h1
    exact ⟨s, w, h1.1, h1.2, hpos w (List.mem_of_getElem? h1.2), h2⟩
  have hn2 : ∀ n ∈ ns, 2 ≤ n := by
    intro n hm
    obtain ⟨i, hi⟩ := List.getElem?_of_mem hm
    obtain ⟨s, w, _, _, hw, h⟩ := hn i n hi
    exact ((pixelCount_ok s w hw n).1 h).1
  -- the Fourier axes
  obtain ⟨fe, hfe⟩ : ∃ fe, mapE axisEdges ((ns.zip P.vals).map (fun q => fcentersOf q.1 q.2)) =
      .ok fe := by
    apply mapE_total
    intro x hx
    obtain ⟨⟨n, w⟩, hq, rfl⟩ := List.mem_map.1 hx
    rw [fcentersOf_eq]
    exact ⟨_, axisEdges_freqs n w (hn2 n (List.of_mem_zip hq).1)⟩
  -- the sides
  set side' : NArr K := if List.zipWith (· / ·) S.vals P.vals = ns.map (fun n : ℕ => (n : K)) then S
        else ⟨false, List.zipWith (fun p (n : ℕ) => p * n) P.vals ns⟩ with hside
  have hsl : side'.vals.length = d := by
    rw [hside]; split
    · exact hSl
    · simp [hPl, hnl]
  have hsv : ∀ (i n : ℕ) (w : K), ns[i]? = some n → P.vals[i]? = some w →
      side'.vals[i]? = some (n * w) := by
    intro i n w h1 h2
    rw [hside]; split
    · rename_i he
      obtain ⟨s, w', a1, a2, a3, a4⟩ := hn i n h1
      rw [h2] at a2
      simp only [Option.some.injEq] at a2
      subst a2
      have := congrArg (fun l => l[i]?) he
      simp only [List.getElem?_zipWith, a1, h2, List.getElem?_map, h1] at this
      simp only [Option.map_some, Option.some.injEq] at this
      rw [a1, ← this]
      simp [a3.ne']
    · simp only [List.getElem?_zipWith, h1, h2]
      rw [mul_comm]
  refine ⟨{ nProps := m, nObj := 0, center := center, side := side', pix := P, nPix := ns,
            axunits := au', faxunits := au'.map (fun u => u.map (· ++ "^-1")), gridunits := gu',
            axes := (ns.zip (P.vals.zip (side'.vals.zip center.vals))).map
              (fun q => edgesOf q.1 q.2.1 q.2.2.1 q.2.2.2),
            centers := List.zipWith centersOf ((ns.zip (P.vals.zip (side'.vals.zip
              center.vals))).map (fun q => edgesOf q.1 q.2.1 q.2.2.1 q.2.2.2)) P.vals,
            faxes := fe, fcenters := (ns.zip P.vals).map (fun q => fcentersOf q.1 q.2),
            fourier := List.replicate d false, isPow := false, grid := none }, ?_, ?_⟩
  · unfold Grid.new
    simp only [← hd, hS, hP, hau, hgu, hns, hfe, ← hside]
  · refine ⟨?_, rfl, rfl, rfl, rfl, rfl, rfl, rfl, rfl, rfl, rfl, rfl, rfl⟩
    have hfl := mapE_length hfe
    refine ⟨hnl, hPl, hsl, ?_, ?_, ?_, ?_, ?_, ?_, ?_⟩
    · simp [Grid.dim, hnl, hPl, hsl, ← hd]
    · simp [Grid.dim, hnl, hPl, hsl, ← hd]
    · simp [Grid.dim, hnl, hPl, ← hd]
    · simp only [Grid.dim, ← hd]; rw [hfl]; simp [hnl, hPl]
    · simp [Grid.dim, ← hd]
    · intro i hi
      have hi' : i < d := hi
      have en : ns[i]? = some (ns[i]'(by omega)) := List.getElem?_eq_getElem (by omega)
      have ew : P.vals[i]? = some (P.vals[i]'(by omega)) := List.getElem?_eq_getElem (by omega)
      have ec : center.vals[i]? = some (center.vals[i]'(by omega)) :=
        List.getElem?_eq_getElem (by omega)
      generalize ns[i]'(by omega) = n at en
      generalize P.vals[i]'(by omega) = w at ew
      generalize center.vals[i]'(by omega) = c at ec
      have es := hsv i n w en ew
      have hn' := hn2 n (List.mem_of_getElem? en)
      have hax : ((ns.zip (P.vals.zip (side'.vals.zip center.vals))).map
          (fun q => edgesOf q.1 q.2.1 q.2.2.1 q.2.2.2))[i]? = some (edges n w c) := by
        have hz : (ns.zip (P.vals.zip (side'.vals.zip center.vals)))[i]? =
            some (n, w, (n : K) * w, c) := by
          rw [List.getElem?_zip_eq_some, List.getElem?_zip_eq_some, List.getElem?_zip_eq_some]
          exact ⟨en, ew, es, ec⟩
        rw [List.getElem?_map, hz]
        simp only [Option.map_some, edgesOf_eq]
      refine ⟨n, w, c, hn', hpos w (List.mem_of_getElem? ew), en, ew, ec, es, hax, ?_, ?_, ?_⟩
      · simp only [List.getElem?_zipWith, hax, ew, centersOf_eq]
      · have hz : (ns.zip P.vals)[i]? = some (n, w) := by
          rw [List.getElem?_zip_eq_some]; exact ⟨en, ew⟩
        simp only [List.getElem?_map, hz, Option.map_some, fcentersOf_eq]
      · have hz : ((ns.zip P.vals).map (fun q => fcentersOf q.1 q.2))[i]? = some (freqs n w) := by
          have hz0 : (ns.zip P.vals)[i]? = some (n, w) := by
            rw [List.getElem?_zip_eq_some]; exact ⟨en, ew⟩
          rw [List.getElem?_map, hz0]
          simp only [Option.map_some, fcentersOf_eq]
        obtain ⟨y, h1, h2⟩ := ((mapE_ok_iff _ _ _).1 hfe).2 i _ hz
        rw [axisEdges_freqs n w hn'] at h2
        simp only [Except.ok.injEq] at h2
        rw [h1, ← h2]
    · intro a ha
      cases ha

end Verif.Map
