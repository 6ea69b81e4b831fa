import Verif.Props.ReadyAverage
import Verif.Props.LCGrid

/-!
# C144: maps of ready-made properties on average
-/

set_option linter.unusedSectionVars false

namespace Verif.Ready

open Verif.Gal (Fn Rng World realFn)
open Verif.Gal.Spec (Random Fraction)
open Verif.Handler (Name V State MakeOpts MultiProp hasProperty returnProperty make inds forEach storeOne items)
open Verif.Map Verif.Map.Spec
open Verif.HGrid (lcGrid)
open Verif.HGrid.Spec
open MeasureTheory ProbabilityTheory
open Spec

section handler
variable {K : Type} [Field K] [LinearOrder K] [IsStrictOrderedRing K]

/-- Making a property does not change the selection. -/
theorem make_selection (s : State K) (m : MultiProp K) (o : MakeOpts K) (hd : o.writeDisk = false) (u : Bool) :
    inds (make s m o).1 u = inds s u := by
  have hst : ∀ its, Handler.SameBase s (forEach (storeOne m.units m.hdep (inds s o.useAll)) s its).1 := fun its =>
    Handler.forEach_preserves _ (Handler.SameBase s) its
      (fun t x _ ht => ht.trans (Handler.storeOne_base _ _ _ t x)) s (Handler.SameBase.refl s)
  unfold make
  dsimp only
  split
  · rfl
  · split
    · rfl
    · split
      · rfl
      · split
        · rfl
        · rename_i names _ _ exist _ _ vals _
          have h1 := hst (items m.names names exist vals)
          rcases hf : forEach (storeOne m.units m.hdep (inds s o.useAll)) s
            (items m.names names exist vals) with ⟨s1, e | ⟨⟩⟩
          · rw [hf] at h1; exact h1.inds u
          · rw [hf] at h1
            simp only [hd, Bool.false_eq_true, if_false]
            exact h1.inds u

/-- What is returned for the selected objects is in the column for all objects. -/
theorem read_selected (s : State K) (hI : Handler.Inv s) (p : Name) (hp : p ≠ "mass_cuts") (u : Bool)
    (b : Option Bool) (full : List (V K)) (h : returnProperty s p true b = .ok (some full)) :
    ∃ out, returnProperty s p u b = .ok (some out) ∧ out.length = (inds s u).length ∧
      ∀ j i : ℕ, (inds s u)[j]? = some i → out[j]? = full[i]? := by
  obtain ⟨hall, e, arr, he, ha, -, -, -, hget⟩ := Handler.returnProperty_inv s hI p true b _ h
  obtain ⟨out, h1, h2, h3⟩ := Handler.returnProperty_ok s hI p u b hall hp e he arr ha
  refine ⟨out, h1, h2, fun j i hj => ?_⟩
  have hi : i < s.nAll := Handler.inds_bound s hI u i (List.mem_of_getElem? hj)
  have h5 : (inds s true)[i]? = some i := by simp [inds, hi]
  rw [h3 j, hget i, hj, h5]

end handler

/-! ## Sums in cells -/

theorem cellSum_coe (axes : List (List ℝ)) (c : List ℕ) (l : List ℕ) (f : ℕ → List ℝ) (v : ℕ → ℝ) :
    cellSum axes c (l.map (fun j => (f j, ((v j : ℝ) : WithTop ℝ)))) =
      ((cellSum axes c (l.map (fun j => (f j, v j))) : ℝ) : WithTop ℝ) := by
  unfold cellSum
  induction l with
  | nil => rfl
  | cons j l ih =>
    simp only [List.map_cons, List.filter_cons]
    by_cases h : InCell axes c (f j)
    · simp only [h, decide_true, if_true, List.map_cons, List.sum_cons, ih]
      rfl
    · simp only [h, decide_false, Bool.false_eq_true, if_false, ih]

theorem cellSum_mean {Ω : Type} [MeasurableSpace Ω] {P : Measure Ω} (axes : List (List ℝ)) (c : List ℕ)
    (l : List ℕ) (f : ℕ → List ℝ) (v : Ω → ℕ → ℝ) (a : ℕ → ℝ)
    (h : ∀ j ∈ l, Integrable (fun ω => v ω j) P ∧ ∫ ω, v ω j ∂P = a j) :
    Integrable (fun ω => cellSum axes c (l.map (fun j => (f j, v ω j)))) P ∧
      ∫ ω, cellSum axes c (l.map (fun j => (f j, v ω j))) ∂P = cellSum axes c (l.map (fun j => (f j, a j))) := by
  unfold cellSum
  induction l with
  | nil => simp
  | cons j l ih =>
    obtain ⟨i1, i2⟩ := ih (fun k hk => h k (List.mem_cons_of_mem _ hk))
    obtain ⟨j1, j2⟩ := h j List.mem_cons_self
    simp only [List.map_cons, List.filter_cons]
    by_cases hc : InCell axes c (f j)
    · simp only [hc, decide_true, if_true, List.map_cons, List.sum_cons]
      refine ⟨j1.add i1, ?_⟩
      rw [integral_add j1 i1, i2, j2]
    · simp only [hc, decide_false, Bool.false_eq_true, if_false]
      exact ⟨i1, i2⟩

theorem cells_unique (m n : ℕ) (s w : ℝ) (hw : 0 < w) (h1 : s - w / 20 ≤ m * w) (h2 : m * w < s + 19 / 20 * w)
    (h3 : s - w / 20 ≤ n * w) (h4 : n * w < s + 19 / 20 * w) : m = n := by
  have a : (m : ℝ) < n + 1 := by
    have : (m : ℝ) * w < (n + 1) * w := by linarith
    exact lt_of_mul_lt_mul_right this hw.le
  have b : (n : ℝ) < m + 1 := by
    have : (n : ℝ) * w < (m + 1) * w := by linarith
    exact lt_of_mul_lt_mul_right this hw.le
  have a' : m < n + 1 := by exact_mod_cast a
  have b' : n < m + 1 := by exact_mod_cast b
  omega

variable {Ω G : Type} [MeasurableSpace Ω] {P : Measure Ω} {R : Ω → Rng ℝ G}

/-- The catalogue after a property was made. -/
theorem made_catalogue (hR : Random P R) (E : Env ℝ)
    (w : World G) (p : Which) (hp : p ≠ .coSled)
    (hset : p = .behrooziSfr ∨ p = .behrooziMass → E.setUp = true)
    (s : State ℝ) (hr : Handler.Spec.Reachable s) (o : MakeOpts ℝ) (hdisk : o.writeDisk = false)
    (hkw : o.otherKws = []) (name : Name) (hn : o.rename = some [name] ∨ o.rename = none ∧ name = (label p).1)
    (hmc : name ≠ "mass_cuts") (hfree : o.overwrite = true ∨ hasProperty s name = false)
    (mass sfr redshift : List ℝ)
    (hi : Inputs s o.useAll o.remap (Handler.Spec.selection s o.useAll).length p mass sfr redshift)
    (hpul : p = .pullenCo → (Handler.Spec.selection s o.useAll).length ≤ 100 ∨ ∃ z0, ∀ z ∈ redshift, z = z0)
    (hpos : name ∉ ["ra", "dec", "redshift"]) (inH : Option Bool) (objs : List (List ℝ × List (V ℝ)))
    (hcat : Catalogue s o.useAll inH ["ra", "dec", "redshift"] [] objs) :
    objs.length = (Handler.Spec.selection s o.useAll).length ∧ ∃ (m : Ω → MultiProp ℝ) (s' : Ω → State ℝ),
      (∀ ω, prop E (R ω) w p = .ok (m ω)) ∧ (∀ ω, make s (m ω) o = (s' ω, .ok ())) ∧
      ∀ ω, Catalogue (s' ω) o.useAll inH ["ra", "dec", "redshift"] [name] ((List.range objs.length).map
        (fun j => ((objs.getD j ([], [])).1,
          [some (value E p (halo (R ω) w (Handler.Spec.selection s o.useAll).length p mass sfr redshift j))]))) := by
  have hI := Handler.reachable_inv hr
  have hmk := fun ω => C110_make E (R ω) (hR.lawful ω) w p hp hset s hr o hdisk hkw name hn hmc hfree mass sfr
    redshift hi hpul
  choose m s' m1 m2 m3 m4 m5 using hmk
  choose col c1 c2 c3 c4 using m4
  obtain ⟨n, hnn⟩ : ∃ n, n = (Handler.Spec.selection s o.useAll).length := ⟨_, rfl⟩
  rw [← hnn] at hi hpul
  have hsel : ∀ ω, inds (s' ω) o.useAll = Handler.Spec.selection s o.useAll := by
    intro ω
    have := make_selection s (m ω) o hdisk o.useAll
    rw [m2 ω] at this
    exact this
  have hI' : ∀ ω, Handler.Inv (s' ω) := by
    intro ω
    have := Handler.make_inv s (m ω) o hI
    rw [m2 ω] at this
    exact this
  -- the objects
  have hlen : objs.length = n := by
    have h0 := hcat.positions 0 "ra" rfl
    obtain ⟨-, -, -, -, -, -, hl, -⟩ := Handler.returnProperty_inv s hI "ra" o.useAll inH _ h0
    rw [List.length_map] at hl
    rw [hl, hnn]; rfl
  obtain ⟨val, hval⟩ : ∃ val : Ω → ℕ → ℝ, val = fun ω j => value E p (halo (R ω) w n p mass sfr redshift j) := ⟨_, rfl⟩
  obtain ⟨obs, hobs⟩ : ∃ obs : Ω → List (List ℝ × List (V ℝ)), obs = fun ω => (List.range objs.length).map
    (fun j => ((objs.getD j ([], [])).1, [some (val ω j)])) := ⟨_, rfl⟩
  have hread : ∀ ω, returnProperty (s' ω) name o.useAll inH =
      .ok (some ((List.range objs.length).map (fun j => some (val ω j)))) := by
    intro ω
    obtain ⟨out, r1, r2, r3⟩ := read_selected (s' ω) (hI' ω) name hmc o.useAll inH (col ω) (c1 ω inH)
    rw [r1]
    congr 2
    apply List.ext_getElem?
    intro j
    rw [hsel] at r2 r3
    by_cases hj : j < n
    · have hjs : (Handler.Spec.selection s o.useAll)[j]? =
          some ((Handler.Spec.selection s o.useAll)[j]'(by omega)) := List.getElem?_eq_getElem _
      rw [r3 j _ hjs, c3 ω j _ hjs, ← hnn, hval]
      simp [hlen, hj]
    · rw [List.getElem?_eq_none (by omega), List.getElem?_eq_none (by simp; omega)]
  have hobj : ∀ j < objs.length, objs.getD j ([], []) ∈ objs := by
    intro j hj
    rw [List.getD_eq_getElem?_getD, List.getElem?_eq_getElem hj]
    exact List.getElem_mem _
  have hcat' : ∀ ω, Catalogue (s' ω) o.useAll inH ["ra", "dec", "redshift"] [name] (obs ω) := by
    intro ω
    constructor
    · intro k q hk
      have hq : q ≠ name := fun e => hpos (e ▸ List.mem_of_getElem? hk)
      rw [m5 ω q hq, hcat.positions k q hk, hobs]
      congr 2
      apply List.ext_getElem?
      intro j
      rw [List.map_map, List.getElem?_map, List.getElem?_map]
      by_cases hj : j < objs.length
      · rw [List.getElem?_eq_getElem hj, List.getElem?_range hj]
        simp [hj]
      · rw [List.getElem?_eq_none (by omega), List.getElem?_eq_none (by simp; omega)]
        rfl
    · intro k q hk
      rcases k with _ | k
      · simp only [List.getElem?_cons_zero, Option.some.injEq] at hk
        rw [← hk, hread ω, hobs, List.map_map]
        rfl
      · simp at hk
    · intro q hq
      rw [hobs] at hq
      obtain ⟨j, hj, rfl⟩ := List.mem_map.1 hq
      exact hcat.coordinates (objs.getD j ([], [])) (hobj j (List.mem_range.1 hj))
    · intro q hq
      rw [hobs] at hq
      obtain ⟨j, -, rfl⟩ := List.mem_map.1 hq
      rfl
  refine ⟨hlen.trans hnn, m, s', m1, m2, fun ω => ?_⟩
  have := hcat' ω
  rw [hobs, hval, hnn] at this
  exact this

/-- What the cells hold. -/
theorem map_values (hR : Random P R) (E : Env ℝ)
    (w : World G) (p : Which) (hp : p ≠ .coSled)
    (hset : p = .behrooziSfr ∨ p = .behrooziMass → E.setUp = true)
    (s : State ℝ) (hr : Handler.Spec.Reachable s) (o : MakeOpts ℝ) (hdisk : o.writeDisk = false)
    (hkw : o.otherKws = []) (name : Name) (hn : o.rename = some [name] ∨ o.rename = none ∧ name = (label p).1)
    (hmc : name ≠ "mass_cuts") (hfree : o.overwrite = true ∨ hasProperty s name = false)
    (mass sfr redshift : List ℝ)
    (hi : Inputs s o.useAll o.remap (Handler.Spec.selection s o.useAll).length p mass sfr redshift)
    (hpul : p = .pullenCo → (Handler.Spec.selection s o.useAll).length ≤ 100 ∨ ∃ z0, ∀ z ∈ redshift, z = z0)
    (hpos : name ∉ ["ra", "dec", "redshift"]) (inH : Option Bool) (objs : List (List ℝ × List (V ℝ)))
    (hcat : Catalogue s o.useAll inH ["ra", "dec", "redshift"] [] objs) (hne : objs ≠ [])
    (meta' : LCH.Meta ℝ) (freq : Option ℝ)
    (hz : freq ≠ none → ∀ q ∈ objs, ∀ z, q.1[2]? = some z → 1 + z ≠ 0)
    (res ralim declim zlim : Option (NArr ℝ)) (norm : Option ℝ) (a b c d e f wx wy wz : ℝ)
    (h1 : Interval (raDefault meta') ralim a b) (h2 : Interval (decDefault meta') declim c d)
    (h3 : Interval (zDefault meta' freq) zlim e f)
    (hpix : pixels [b - a, d - c, f - e] res = [wx, wy, wz]) (hx : 0 < wx) (hy : 0 < wy) (hw : 0 < wz)
    (hxa : (1 + 1 / 20) * wx < b - a) (hyc : (1 + 1 / 20) * wy < d - c) (hze : (1 + 1 / 20) * wz < f - e) :
    ∃ (s' : Ω → State ℝ) (g : Ω → Grid ℝ (WithTop ℝ)) (t : Ω → Arr (WithTop ℝ)) (nx ny nz : ℕ),
      (b - a - wx / 20 ≤ nx * wx ∧ nx * wx < b - a + 19 / 20 * wx) ∧
      (d - c - wy / 20 ≤ ny * wy ∧ ny * wy < d - c + 19 / 20 * wy) ∧
      (f - e - wz / 20 ≤ nz * wz ∧ nz * wz < f - e + 19 / 20 * wz) ∧
      (∀ ω, (∃ m, prop E (R ω) w p = .ok m ∧ make s m o = (s' ω, .ok ())) ∧
        lcGrid (s' ω) meta' [name] freq inH o.useAll res ralim declim zlim norm = some (.ok (g ω)) ∧
        (g ω).grid = some (t ω) ∧ (g ω).nPix = [nx, ny, nz]) ∧
      ∀ (cl : List ℕ) (ω : Ω), cell (t ω) cl 0 = ((norm.getD 1 *
        cellSum [edges nx wx ((a + b) / 2), edges ny wy ((c + d) / 2), edges nz wz ((e + f) / 2)] cl
          ((List.range objs.length).map (fun j => ((observed freq (objs.getD j ([], []))).1,
            value E p (halo (R ω) w (Handler.Spec.selection s o.useAll).length p mass sfr redshift j)))) : ℝ) :
              WithTop ℝ) := by
  obtain ⟨hlen, m, s', m1, m2, hcat0⟩ := made_catalogue hR E w p hp hset s hr o hdisk hkw name hn hmc hfree mass sfr
    redshift hi hpul hpos inH objs hcat
  obtain ⟨n, hnn⟩ : ∃ n, n = (Handler.Spec.selection s o.useAll).length := ⟨_, rfl⟩
  rw [← hnn] at hlen hi hpul
  obtain ⟨val, hval⟩ : ∃ val : Ω → ℕ → ℝ, val = fun ω j => value E p (halo (R ω) w n p mass sfr redshift j) := ⟨_, rfl⟩
  obtain ⟨obs, hobs⟩ : ∃ obs : Ω → List (List ℝ × List (V ℝ)), obs = fun ω => (List.range objs.length).map
    (fun j => ((objs.getD j ([], [])).1, [some (val ω j)])) := ⟨_, rfl⟩
  have hobj : ∀ j < objs.length, objs.getD j ([], []) ∈ objs := by
    intro j hj
    rw [List.getD_eq_getElem?_getD, List.getElem?_eq_getElem hj]
    exact List.getElem_mem _
  have hcat' : ∀ ω, Catalogue (s' ω) o.useAll inH ["ra", "dec", "redshift"] [name] (obs ω) := by
    intro ω
    rw [hobs, hval, hnn]
    exact hcat0 ω
  have hn0 : 0 < objs.length := List.length_pos_iff.2 hne
  have hgrid := fun ω => HGrid.C100_cells (s' ω) meta' [name] freq inH o.useAll (obs ω) (hcat' ω)
    (by rw [hobs]; simp [hne]) (by simp)
    (fun hf q hq z hqz => by
      rw [hobs] at hq
      obtain ⟨j, hj, rfl⟩ := List.mem_map.1 hq
      exact hz hf _ (hobj j (List.mem_range.1 hj)) z hqz)
    res ralim declim zlim norm a b c d e f h1 h2 h3 (by rw [hpix]; rfl)
    (by
      rw [hpix]
      intro x hx'
      simp only [List.mem_cons, List.not_mem_nil, or_false] at hx'
      rcases hx' with rfl | rfl | rfl <;> assumption)
    (by
      rw [hpix]
      intro i l x hl hx'
      match i with
      | 0 => simp only [List.getElem?_cons_zero, Option.some.injEq] at hl hx'; subst hl hx'; exact hxa
      | 1 =>
        simp only [List.getElem?_cons_succ, List.getElem?_cons_zero, Option.some.injEq] at hl hx'
        subst hl hx'; exact hyc
      | 2 =>
        simp only [List.getElem?_cons_succ, List.getElem?_cons_zero, Option.some.injEq] at hl hx'
        subst hl hx'; exact hze
      | i + 3 => simp at hl)
  choose g g1 g2 g3 using hgrid
  have hcells := fun ω => (g2 ω).cells
  choose t t1 t2 t3 using hcells
  -- the axes
  have hax := fun ω (i : ℕ) (q : ℝ × ℝ × ℝ) (h1 : [b - a, d - c, f - e][i]? = some q.1)
      (h2 : (pixels [b - a, d - c, f - e] res)[i]? = some q.2.1)
      (h3 : [(a + b) / 2, (c + d) / 2, (e + f) / 2][i]? = some q.2.2) => (g2 ω).axis i q.1 q.2.1 q.2.2 h1 h2 h3
  rw [hpix] at hax
  have hprob : IsProbabilityMeasure P := (normals_random hR w n p 0 (by omega)).isProbabilityMeasure
  have hne' : Nonempty Ω := by
    by_contra hc
    rw [not_nonempty_iff] at hc
    have h0 : P Set.univ = 0 := by rw [Set.eq_empty_of_isEmpty (Set.univ : Set Ω)]; exact measure_empty
    rw [measure_univ] at h0
    exact one_ne_zero h0
  obtain ⟨ω0⟩ := hne'
  obtain ⟨nx, -, x1, x2⟩ := hax ω0 0 (b - a, wx, (a + b) / 2) rfl rfl rfl
  obtain ⟨ny, -, y1, y2⟩ := hax ω0 1 (d - c, wy, (c + d) / 2) rfl rfl rfl
  obtain ⟨nz, -, z1, z2⟩ := hax ω0 2 (f - e, wz, (e + f) / 2) rfl rfl rfl
  have hX : ∀ ω, AxisIs (g ω) 0 nx wx ((a + b) / 2) := fun ω => by
    obtain ⟨k, k1, k2, k3⟩ := hax ω 0 (b - a, wx, (a + b) / 2) rfl rfl rfl
    rw [cells_unique nx k (b - a) wx hx x1 x2 k2 k3]; exact k1
  have hY : ∀ ω, AxisIs (g ω) 1 ny wy ((c + d) / 2) := fun ω => by
    obtain ⟨k, k1, k2, k3⟩ := hax ω 1 (d - c, wy, (c + d) / 2) rfl rfl rfl
    rw [cells_unique ny k (d - c) wy hy y1 y2 k2 k3]; exact k1
  have hZ : ∀ ω, AxisIs (g ω) 2 nz wz ((e + f) / 2) := fun ω => by
    obtain ⟨k, k1, k2, k3⟩ := hax ω 2 (f - e, wz, (e + f) / 2) rfl rfl rfl
    rw [cells_unique nz k (f - e) wz hw z1 z2 k2 k3]; exact k1
  have three : ∀ {α : Type} (l : List α) (x y z : α), l.length = 3 → l[0]? = some x → l[1]? = some y →
      l[2]? = some z → l = [x, y, z] := by
    intro α l x y z hl h0 h1 h2
    match l, hl with
    | [x', y', z'], _ =>
      simp only [List.getElem?_cons_zero, List.getElem?_cons_succ, Option.some.injEq] at h0 h1 h2
      rw [h0, h1, h2]
  have haxes : ∀ ω, (g ω).axes = [edges nx wx ((a + b) / 2), edges ny wy ((c + d) / 2), edges nz wz ((e + f) / 2)] :=
    fun ω => three _ _ _ _ (g2 ω).dim (hX ω).axes (hY ω).axes (hZ ω).axes
  have hnp : ∀ ω, (g ω).nPix = [nx, ny, nz] := by
    intro ω
    refine three _ _ _ _ ?_ (hX ω).nPix (hY ω).nPix (hZ ω).nPix
    rw [(g2 ω).regular.nPix, ← (g2 ω).regular.axes]; exact (g2 ω).dim
  refine ⟨s', g, t, nx, ny, nz, ⟨x1, x2⟩, ⟨y1, y2⟩, ⟨z1, z2⟩, fun ω => ⟨⟨m ω, m1 ω, m2 ω⟩, g1 ω, t1 ω, hnp ω⟩, ?_⟩
  intro cl ω
  rw [t3 ω cl 0 (by simp), haxes ω]
  have e1 : ((obs ω).map (observed freq)).map (fun q => (q.1, valueOf 0 q)) =
      (List.range objs.length).map (fun j => ((observed freq (objs.getD j ([], []))).1,
        ((val ω j : ℝ) : WithTop ℝ))) := by
    rw [hobs, List.map_map, List.map_map]
    refine List.map_congr_left (fun j _ => ?_)
    cases freq <;> rfl
  rw [e1, cellSum_coe, hval, hnn]
  rfl

/-- C144. After a ready-made property was made for a lightcone, each cell of its map holds, on average over the
random numbers, the sum of the published relations (times the fraction of halos switched on, and times the factor
of the scatter around a median) over the selected objects in the cell, times the normalisation. -/
theorem C144_map (hR : Random P R) (hS : Separate P R) (E : Env ℝ) (erf : ℝ → ℝ) (hE : E.fn = realFn erf)
    (w : World G) (p : Which) (hp : p ≠ .coSled)
    (hset : p = .behrooziSfr ∨ p = .behrooziMass → E.setUp = true)
    (s : State ℝ) (hr : Handler.Spec.Reachable s) (o : MakeOpts ℝ) (hdisk : o.writeDisk = false)
    (hkw : o.otherKws = []) (name : Name) (hn : o.rename = some [name] ∨ o.rename = none ∧ name = (label p).1)
    (hmc : name ≠ "mass_cuts") (hfree : o.overwrite = true ∨ hasProperty s name = false)
    (mass sfr redshift : List ℝ)
    (hi : Inputs s o.useAll o.remap (Handler.Spec.selection s o.useAll).length p mass sfr redshift)
    (hpul : p = .pullenCo → (Handler.Spec.selection s o.useAll).length ≤ 100 ∨ ∃ z0, ∀ z ∈ redshift, z = z0)
    (hage : p = .pullenCo → ∀ z ∈ redshift, 0 < E.age z) (hmass : p = .yangCii → ∀ m ∈ mass, 0 ≤ m)
    (hpos : name ∉ ["ra", "dec", "redshift"]) (inH : Option Bool) (objs : List (List ℝ × List (V ℝ)))
    (hcat : Catalogue s o.useAll inH ["ra", "dec", "redshift"] [] objs) (hne : objs ≠ [])
    (meta' : LCH.Meta ℝ) (freq : Option ℝ)
    (hz : freq ≠ none → ∀ q ∈ objs, ∀ z, q.1[2]? = some z → 1 + z ≠ 0)
    (res ralim declim zlim : Option (NArr ℝ)) (norm : Option ℝ) (a b c d e f wx wy wz : ℝ)
    (h1 : Interval (raDefault meta') ralim a b) (h2 : Interval (decDefault meta') declim c d)
    (h3 : Interval (zDefault meta' freq) zlim e f)
    (hpix : pixels [b - a, d - c, f - e] res = [wx, wy, wz]) (hx : 0 < wx) (hy : 0 < wy) (hw : 0 < wz)
    (hxa : (1 + 1 / 20) * wx < b - a) (hyc : (1 + 1 / 20) * wy < d - c) (hze : (1 + 1 / 20) * wz < f - e) :
    ∃ (s' : Ω → State ℝ) (g : Ω → Grid ℝ (WithTop ℝ)) (t : Ω → Arr (WithTop ℝ)) (nx ny nz : ℕ),
      (b - a - wx / 20 ≤ nx * wx ∧ nx * wx < b - a + 19 / 20 * wx) ∧
      (d - c - wy / 20 ≤ ny * wy ∧ ny * wy < d - c + 19 / 20 * wy) ∧
      (f - e - wz / 20 ≤ nz * wz ∧ nz * wz < f - e + 19 / 20 * wz) ∧
      (∀ ω, (∃ m, prop E (R ω) w p = .ok m ∧ make s m o = (s' ω, .ok ())) ∧
        lcGrid (s' ω) meta' [name] freq inH o.useAll res ralim declim zlim norm = some (.ok (g ω)) ∧
        (g ω).grid = some (t ω) ∧ (g ω).nPix = [nx, ny, nz]) ∧
      ∀ cl : List ℕ, ∃ v : Ω → ℝ, (∀ ω, cell (t ω) cl 0 = ((v ω : ℝ) : WithTop ℝ)) ∧ Integrable v P ∧
        ∫ ω, v ω ∂P = norm.getD 1 *
          cellSum [edges nx wx ((a + b) / 2), edges ny wy ((c + d) / 2), edges nz wz ((e + f) / 2)] cl
            ((List.range objs.length).map (fun j => ((observed freq (objs.getD j ([], []))).1,
              onAverage E p (mass.getD j 0) (sfr.getD j 0) (redshift.getD j 0)))) := by
  have hprob : objs.length = (Handler.Spec.selection s o.useAll).length := by
    have h0 := hcat.positions 0 "ra" rfl
    obtain ⟨-, -, -, -, -, -, hl, -⟩ := Handler.returnProperty_inv s (Handler.reachable_inv hr) "ra" o.useAll inH _ h0
    rw [List.length_map] at hl
    rw [hl]; rfl
  obtain ⟨s', g, t, nx, ny, nz, x1, x2, x3, x4, x5⟩ := map_values hR E w p hp hset s hr o hdisk hkw name hn hmc
    hfree mass sfr redshift hi hpul hpos inH objs hcat hne meta' freq hz res ralim declim zlim norm a b c d e f wx wy
    wz h1 h2 h3 hpix hx hy hw hxa hyc hze
  refine ⟨s', g, t, nx, ny, nz, x1, x2, x3, x4, fun cl => ?_⟩
  have hmean := cellSum_mean (P := P)
    [edges nx wx ((a + b) / 2), edges ny wy ((c + d) / 2), edges nz wz ((e + f) / 2)] cl (List.range objs.length)
    (fun j => (observed freq (objs.getD j ([], []))).1)
    (fun ω j => value E p (halo (R ω) w (Handler.Spec.selection s o.useAll).length p mass sfr redshift j))
    (fun j => onAverage E p (mass.getD j 0) (sfr.getD j 0) (redshift.getD j 0)) (by
      intro j hj
      have hjn : j < (Handler.Spec.selection s o.useAll).length := by rw [← hprob]; exact List.mem_range.1 hj
      exact value_mean hR hS E erf hE w _ p mass sfr redshift j hjn
        (fraction_of E p s o.useAll o.remap _ mass sfr redshift hi hage hmass j hjn))
  refine ⟨_, x5 cl, hmean.1.const_mul _, ?_⟩
  rw [integral_const_mul, hmean.2]

/-! ## Two objects of a lightcone -/

noncomputable def skyFile : PyDict Name (Handler.Dataset ℝ) :=
  [("mass", ⟨[some (10 ^ 11), some (10 ^ 12)], some "Msun/h", some (-1), false⟩),
   ("sfr", ⟨[some 1, some 20], some "Msun/yr", some 0, false⟩),
   ("ra", ⟨[some (1 / 20), some (1 / 20)], some "rad", some 0, false⟩),
   ("dec", ⟨[some (1 / 20), some (1 / 3)], some "rad", some 0, false⟩),
   ("redshift", ⟨[some (11 / 10), some (8 / 5)], some "none", some 0, false⟩)]

noncomputable def skyState : State ℝ where
  file := skyFile
  h := 1 / 2
  all := ["mass", "sfr", "ra", "dec", "redshift"]
  units := [("mass", "Msun/h"), ("sfr", "Msun/yr"), ("ra", "rad"), ("dec", "rad"), ("redshift", "none")]
  hdep := [("mass", -1), ("sfr", 0), ("ra", 0), ("dec", 0), ("redshift", 0)]
  saved := ["mass", "sfr", "ra", "dec", "redshift"]
  nAll := 2
  loaded := []
  generated := []
  active := [0, 1]
  nActive := 2
  inH := false
  extra := [("h", 1 / 2), ("cosmo", 0)]

theorem skyReachable : Handler.Spec.Reachable skyState := by
  refine ⟨skyFile, 2, 1 / 2, false, _, [("h", 1 / 2), ("cosmo", 0)], [], ?_, rfl, rfl⟩
  refine ⟨by decide, ⟨_, rfl, rfl⟩, ?_, ?_, ?_⟩
  · intro p d h hp
    have := Handler.get?_mem _ _ _ h
    simp only [skyFile, List.mem_cons, List.not_mem_nil, or_false, Prod.mk.injEq] at this
    rcases this with ⟨-, rfl⟩ | ⟨-, rfl⟩ | ⟨-, rfl⟩ | ⟨-, rfl⟩ | ⟨-, rfl⟩ <;> rfl
  · intro p d h hp
    simp only [skyFile, List.mem_cons, List.not_mem_nil, or_false, Prod.mk.injEq] at h
    rcases h with ⟨-, rfl⟩ | ⟨-, rfl⟩ | ⟨-, rfl⟩ | ⟨-, rfl⟩ | ⟨-, rfl⟩ <;> rfl
  · intro p d h hp
    simp only [skyFile, List.mem_cons, List.not_mem_nil, or_false, Prod.mk.injEq] at h
    rcases h with ⟨-, rfl⟩ | ⟨-, rfl⟩ | ⟨-, rfl⟩ | ⟨-, rfl⟩ | ⟨-, rfl⟩ <;> rfl

theorem skyInputs (p : Which) :
    Inputs skyState false [] 2 p [2 * 10 ^ 11, 2 * 10 ^ 12] [1, 20] [11 / 10, 8 / 5] where
  rate := fun _ => ⟨rfl, rfl, by
    show Except.ok (some (Handler.scaleH (1 / 2 : ℝ) 0 [some 1, some 20])) = _
    simp [Handler.scaleH]⟩
  mass := fun _ => ⟨rfl, rfl, by
    show Except.ok (some (Handler.scaleH (1 / 2 : ℝ) (-1) [some (10 ^ 11), some (10 ^ 12)])) = _
    norm_num [Handler.scaleH]⟩
  redshift := fun _ => .inl ⟨rfl, rfl, by
    show Except.ok (some (Handler.scaleH (1 / 2 : ℝ) 0 [some (11 / 10), some (8 / 5)])) = _
    simp [Handler.scaleH]⟩
  cosmo := fun _ => ⟨_, by decide, 0, rfl, rfl⟩

noncomputable def skyObjs : List (List ℝ × List (V ℝ)) :=
  [([1 / 20, 1 / 20, 11 / 10], []), ([1 / 20, 1 / 3, 8 / 5], [])]

theorem skyCatalogue : Catalogue skyState false none ["ra", "dec", "redshift"] [] skyObjs where
  positions := by
    intro k p h
    match k with
    | 0 =>
      cases h
      show Except.ok (some (Handler.scaleH (1 / 2 : ℝ) 0 [some (1 / 20), some (1 / 20)])) = _
      simp [Handler.scaleH, skyObjs]
    | 1 =>
      cases h
      show Except.ok (some (Handler.scaleH (1 / 2 : ℝ) 0 [some (1 / 20), some (1 / 3)])) = _
      simp [Handler.scaleH, skyObjs]
    | 2 =>
      cases h
      show Except.ok (some (Handler.scaleH (1 / 2 : ℝ) 0 [some (11 / 10), some (8 / 5)])) = _
      simp [Handler.scaleH, skyObjs]
    | k + 3 => simp at h
  values := by intro k p h; simp at h
  coordinates := by
    intro o ho
    simp only [skyObjs, List.mem_cons, List.not_mem_nil, or_false] at ho
    rcases ho with rfl | rfl <;> rfl
  number := by
    intro o ho
    simp only [skyObjs, List.mem_cons, List.not_mem_nil, or_false] at ho
    rcases ho with rfl | rfl <;> rfl

noncomputable def skyMeta : LCH.Meta ℝ :=
  { shape := .circle, zmin := 1, zmax := 2, angle := some 1, aspect := some 1, h := 1 / 2, inH := false }

/-- The carbon monoxide of Lidz et al. 2011, as maps of 4 × 4 × 4 cells: the cell of the first object. -/
example (erf : ℝ → ℝ) (w : World ℕ) (E : Env ℝ) (hE : E.fn = realFn erf) :
    ∃ (s' : (ℕ → ℝ) × (ℕ → ℝ) → State ℝ) (g : (ℕ → ℝ) × (ℕ → ℝ) → Grid ℝ (WithTop ℝ))
      (t : (ℕ → ℝ) × (ℕ → ℝ) → Arr (WithTop ℝ)) (v : (ℕ → ℝ) × (ℕ → ℝ) → ℝ),
      (∀ ω, (∃ m, prop E (Gal.streams ω) w .lidzCo = .ok m ∧
        make skyState m ⟨none, [], [], false, false, false, false, false⟩ = (s' ω, .ok ())) ∧
        lcGrid (s' ω) skyMeta ["LCO"] none none false (some ⟨false, [1 / 4]⟩) none none none (some 3) =
          some (.ok (g ω)) ∧ (g ω).grid = some (t ω) ∧ (g ω).nPix = [4, 4, 4] ∧
        cell (t ω) [2, 2, 0] 0 = ((v ω : ℝ) : WithTop ℝ)) ∧
      ∫ ω, v ω ∂Gal.chance = 3 * (0.1 * (2800 * (2 * 10 ^ 11 / 10 ^ 8))) := by
  obtain ⟨s', g, t, nx, ny, nz, hx, hy, hz, h1, h2⟩ := C144_map Gal.streams_random streams_separate E erf hE w
    .lidzCo (by decide) (by simp) skyState skyReachable ⟨none, [], [], false, false, false, false, false⟩ rfl rfl
    "LCO" (.inr ⟨rfl, rfl⟩) (by decide) (.inr rfl) _ _ _ (skyInputs .lidzCo) (by simp) (by simp) (by simp)
    (by decide) none skyObjs skyCatalogue (by simp [skyObjs]) skyMeta none (by simp) (some ⟨false, [1 / 4]⟩) none none
    none (some 3) (-(1 / 2)) (1 / 2) (-(1 / 2)) (1 / 2) 1 2 (1 / 4) (1 / 4) (1 / 4)
    ⟨by norm_num, by norm_num [raDefault, skyMeta]⟩ ⟨by norm_num, by norm_num [decDefault, skyMeta]⟩
    ⟨by norm_num, by norm_num [zDefault, skyMeta]⟩ rfl (by norm_num) (by norm_num) (by norm_num) (by norm_num)
    (by norm_num) (by norm_num)
  have four : ∀ (n : ℕ) (s : ℝ), s = 1 → s - 1 / 4 / 20 ≤ n * (1 / 4) → n * (1 / 4) < s + 19 / 20 * (1 / 4) →
      n = 4 := fun n s hs h1 h2 => cells_unique n 4 s (1 / 4) (by norm_num) h1 h2
        (by rw [hs]; norm_num) (by rw [hs]; norm_num)
  obtain rfl := four nx _ (by norm_num) hx.1 hx.2
  obtain rfl := four ny _ (by norm_num) hy.1 hy.2
  obtain rfl := four nz _ (by norm_num) hz.1 hz.2
  obtain ⟨v, v1, -, v3⟩ := h2 [2, 2, 0]
  refine ⟨s', g, t, v, fun ω => ⟨(h1 ω).1, (h1 ω).2.1, (h1 ω).2.2.1, (h1 ω).2.2.2, v1 ω⟩, ?_⟩
  rw [v3]
  have i1 : InCell [edges 4 (1 / 4 : ℝ) ((-(1 / 2) + 1 / 2) / 2), edges 4 (1 / 4) ((-(1 / 2) + 1 / 2) / 2),
      edges 4 (1 / 4) ((1 + 2) / 2)] [2, 2, 0] [1 / 20, 1 / 20, 11 / 10] := by
    simp [InCell, edges, List.range_succ]
    norm_num
  have i2 : ¬ InCell [edges 4 (1 / 4 : ℝ) ((-(1 / 2) + 1 / 2) / 2), edges 4 (1 / 4) ((-(1 / 2) + 1 / 2) / 2),
      edges 4 (1 / 4) ((1 + 2) / 2)] [2, 2, 0] [1 / 20, 1 / 3, 8 / 5] := by
    simp [InCell, edges, List.range_succ]
    norm_num
  have e0 : ∀ f : ℕ → List ℝ × ℝ, (List.range skyObjs.length).map f = [f 0, f 1] := fun f => rfl
  rw [e0]
  simp only [cellSum, observed, skyObjs, List.getD_cons_zero, List.getD_cons_succ, List.filter_cons, i1, i2,
    decide_true, decide_false, if_true, Bool.false_eq_true, if_false, List.filter_nil, List.map_cons, List.map_nil,
    List.sum_cons, List.sum_nil, onAverage, switchedOn, published, medianScatter, Option.getD_some]
  norm_num

end Verif.Ready
