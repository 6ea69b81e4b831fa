import Verif.Lemmas.LCMap
import Verif.Props.LCVolume

set_option linter.unusedSectionVars false

/-!
# C120: maps of lightcones
-/

namespace Verif.LC

open Verif.Sim (Err SnapMeta)
open Verif.Handler (State V Name Op run returnProperty)
open Verif.Handler.Spec (Reachable changes selection seen)
open Verif.HGrid (lcGrid)
open Verif.HGrid.Spec (Interval Gridded raDefault decDefault zDefault pixels observed InRegion)
open Verif.Map (NArr)
open Verif.Map.Spec (cellSum cell total)
open Verif.LC.Spec

variable {K : Type} [Field K] [LinearOrder K] [IsStrictOrderedRing K] [FloorRing K]

/-- **C120 (cells).** A map of a lightcone, with any limits and pixel sizes that make at least two pixels
on each axis, after any calls: each cell has the sum over the selected objects of the lightcone in it. -/
theorem C120_cells (hd : State K) (h : K) (rows : List (Row K)) (names : List Name)
    (col : Name → ℤ × List K) (hs : Shows hd h rows names col) (ops : List (Op K))
    (hops : Untouched names ops) (hn : names ≠ []) (useAll : Bool) (inH : Option Bool)
    (hsel : selection (run hd ops) useAll ≠ []) (m : LCH.Meta K) (freq : Option K)
    (hz : freq ≠ none → ∀ r ∈ rows, 1 + r.redshift ≠ 0)
    (res ralim declim zlim : Option (NArr K)) (norm : Option K) (a b c d e f : K)
    (h1 : Interval (raDefault m) ralim a b) (h2 : Interval (decDefault m) declim c d)
    (h3 : Interval (zDefault m freq) zlim e f)
    (hp : (pixels [b - a, d - c, f - e] res).length = 3)
    (hw : ∀ w ∈ pixels [b - a, d - c, f - e] res, 0 < w)
    (hmin : ∀ (i : ℕ) (l w : K), [b - a, d - c, f - e][i]? = some l →
      (pixels [b - a, d - c, f - e] res)[i]? = some w → (1 + 1 / 20) * w < l) :
    ∃ g, lcGrid (run hd ops) m names freq inH useAll res ralim declim zlim norm = some (.ok g) ∧
      Gridded g (((selection (run hd ops) useAll).map (entry rows
          (columnsOf h names col (inH.getD (run hd ops).inH)))).map (observed freq)) names.length
        [(a + b) / 2, (c + d) / 2, (e + f) / 2] [b - a, d - c, f - e]
        (pixels [b - a, d - c, f - e] res) (norm.getD 1) := by
  have hcat := catalogue_shown hs.ra hs.dec hs.redshift names col hs.column ops hops useAll inH
  obtain ⟨g, h4, h5, -⟩ := HGrid.C100_cells (run hd ops) m names freq inH useAll _ hcat (by simpa using hsel)
    hn (by
      intro hf o ho z hoz
      obtain ⟨k, hk, rfl⟩ := List.mem_map.1 ho
      obtain ⟨r, hr⟩ := selection_row hs.ra ops (fun op ho => hops op ho "ra" (by simp)) useAll k hk
      simp only [entry, hr, Option.elim_some, List.getElem?_cons_succ, List.getElem?_cons_zero,
        Option.some.injEq] at hoz
      subst hoz
      exact hz hf r (List.mem_of_getElem? hr)) res ralim declim zlim norm a b c d e f h1 h2 h3 hp hw hmin
  exact ⟨g, h4, h5⟩

/-- **C120 (default limits).** By default the map has the selected objects within the opening angle, the
opening angle times the aspect ratio, and the redshifts of the lightcone; upper limits not included. -/
theorem C120_default (hd : State K) (h : K) (rows : List (Row K)) (names : List Name)
    (col : Name → ℤ × List K) (hs : Shows hd h rows names col) (ops : List (Op K))
    (hops : Untouched names ops) (hn : names ≠ []) (useAll : Bool) (inH : Option Bool)
    (hsel : selection (run hd ops) useAll ≠ []) (st : Settings K) (b0 : Bool)
    (ha : 0 < st.angle) (hr0 : 0 < st.aspect) (hz : st.zlo < st.zhi) :
    ∃ g t, lcGrid (run hd ops) (coneMeta st h b0) names none inH useAll = some (.ok g) ∧
      g.grid = some t ∧ g.nPix = [100, 100, 100] ∧
      g.nObj = ((selection (run hd ops) useAll).filter (fun k => decide (∃ r ∈ rows[k]?,
        (-(st.angle / 2) ≤ r.ra ∧ r.ra < st.angle / 2) ∧
        (-(st.angle * st.aspect / 2) ≤ r.dec ∧ r.dec < st.angle * st.aspect / 2) ∧
        st.zlo ≤ r.redshift ∧ r.redshift < st.zhi))).length ∧
      ∀ i p, p < names.length → cell t i p = cellSum g.axes i (((selection (run hd ops) useAll).map
        (entry rows (columnsOf h names col (inH.getD (run hd ops).inH)))).map
          (fun o => (o.1, HGrid.Spec.valueOf p o))) := by
  have hcat := catalogue_shown hs.ra hs.dec hs.redshift names col hs.column ops hops useAll inH
  have hra : 0 < st.angle * st.aspect := mul_pos ha hr0
  obtain ⟨g, t, h1, h2, h3, h4, h5, h6, -⟩ := HGrid.C100_default (run hd ops) (coneMeta st h b0) names none
    inH useAll _ hcat (by simpa using hsel) hn (by simp) none none none (-(st.angle / 2)) (st.angle / 2)
    (-(st.angle * st.aspect / 2)) (st.angle * st.aspect / 2) st.zlo st.zhi
    ⟨by linarith, rfl⟩ ⟨by linarith, rfl⟩ ⟨hz, rfl⟩
  refine ⟨g, t, h1, h2, h3, ?_, ?_⟩
  · rw [h5, List.filter_map, List.length_map]
    congr 1
    refine List.filter_congr ?_
    intro k hk
    obtain ⟨r, hr⟩ := selection_row hs.ra ops (fun op ho => hops op ho "ra" (by simp)) useAll k hk
    simp [entry, hr, observed, InRegion]
  · intro i p hp
    rw [h6 i p hp]
    simp only [columnsOf, List.map_map]
    rfl

/-- Every object of the lightcone is in the region of the default map. -/
theorem inside_region (st : Settings K) (sky : Sky K) (metas : List (SnapMeta K))
    (data : ℕ → SnapData K) (bins : List K) (c : Cone K) (D : K → K)
    (h : buildCone st sky metas data bins = .ok c) (hcons : Consistent st metas D)
    (hinv : Inverse st D) (hD : 0 < D st.zlo) (ha : 0 < st.angle)
    (hroot : ∀ x y, |x| ≤ st.root (x ^ 2 + y ^ 2)) (freq : Option K) (hin : Inner st c.rows freq)
    (r : Row K) (hr : r ∈ c.rows) :
    (-(st.angle / 2) ≤ r.ra ∧ r.ra < st.angle / 2) ∧
    (-(st.angle * st.aspect / 2) ≤ r.dec ∧ r.dec < st.angle * st.aspect / 2) ∧
    st.zlo ≤ r.redshift ∧ r.redshift < st.zhi := by
  obtain ⟨h1, h2, h3, h4, h5, h6, h7, -⟩ := C30_geometry_partial st sky metas data bins c D h hcons r hr
  have hpos : 0 < r.dist st := hD.trans_le h1
  have hzz := hinv _ h1 h2
  rw [← h3] at hzz
  cases hm : st.mode with
  | circle =>
    have h8 := h6 hm
    rw [div_lt_iff₀ hpos] at h8
    have hx := hroot r.posX r.posY
    have hy := hroot r.posY r.posX
    rw [add_comm] at hy
    have hx' : |r.ra| < st.angle / 2 := by
      rw [h4, abs_div, abs_of_pos hpos, div_lt_iff₀ hpos]
      linarith
    have hy' : |r.dec| < st.angle / 2 := by
      rw [h5, abs_div, abs_of_pos hpos, div_lt_iff₀ hpos]
      linarith
    have hasp := hin.circle hm
    have : st.angle ≤ st.angle * st.aspect := le_mul_of_one_le_right ha.le hasp
    rw [abs_lt] at hx' hy'
    exact ⟨⟨hx'.1.le, hx'.2⟩, ⟨by linarith [hy'.1], by linarith [hy'.2]⟩, hzz⟩
  | box =>
    obtain ⟨hx, hy⟩ := h7 hm
    obtain ⟨nx, ny⟩ := hin.box hm r hr
    rw [abs_le] at hx hy
    exact ⟨⟨hx.1, lt_of_le_of_ne hx.2 nx⟩, ⟨hy.1, lt_of_le_of_ne hy.2 ny⟩, hzz⟩

/-- **C120 (complete).** By default the map of a lightcone, also as a function of the observed frequency,
has all selected objects, and for each property the sum of all cells is the sum over these objects;
if it is a circular lightcone with an aspect ratio of at least one, or none of the objects of a rectangular
one lies on the upper limits. -/
theorem C120_complete_partial (st : Settings K) (sky : Sky K) (metas : List (SnapMeta K))
    (data : ℕ → SnapData K) (bins : List K) (c : Cone K) (D : K → K)
    (hb : buildCone st sky metas data bins = .ok c) (hcons : Consistent st metas D)
    (hinv : Inverse st D) (hD : 0 < D st.zlo) (ha : 0 < st.angle) (hr0 : 0 < st.aspect)
    (hz0 : -1 < st.zlo) (hz : st.zlo < st.zhi) (hroot : ∀ x y, |x| ≤ st.root (x ^ 2 + y ^ 2))
    (freq : Option K) (hf : ∀ f, freq = some f → 0 < f) (hin : Inner st c.rows freq)
    (hd : State K) (h : K) (names : List Name) (col : Name → ℤ × List K)
    (hs : Shows hd h c.rows names col) (ops : List (Op K)) (hops : Untouched names ops) (hn : names ≠ [])
    (useAll : Bool) (inH : Option Bool) (hsel : selection (run hd ops) useAll ≠ []) (b0 : Bool) :
    ∃ g t, lcGrid (run hd ops) (coneMeta st h b0) names freq inH useAll = some (.ok g) ∧
      g.grid = some t ∧ g.nObj = (selection (run hd ops) useAll).length ∧
      ∀ (p : ℕ) (name : Name), names[p]? = some name → total g t p =
        ((selection (run hd ops) useAll).map (valueAt
          (shownAs h (col name).1 (inH.getD (run hd ops).inH) (col name).2))).sum := by
  have hcat := catalogue_shown hs.ra hs.dec hs.redshift names col hs.column ops hops useAll inH
  have hra : 0 < st.angle * st.aspect := mul_pos ha hr0
  have hreg := inside_region st sky metas data bins c D hb hcons hinv hD ha hroot freq hin
  have hrow := selection_row hs.ra ops (fun op ho => hops op ho "ra" (by simp)) useAll
  obtain ⟨e, f, h3, hall, hne⟩ : ∃ e f : K, Interval (zDefault (coneMeta st h b0) freq) none e f ∧
      (∀ r ∈ c.rows, InRegion [(-(st.angle / 2), st.angle / 2),
        (-(st.angle * st.aspect / 2), st.angle * st.aspect / 2), (e, f)]
        (observed freq (([r.ra, r.dec, r.redshift] : List K), ([] : List (V K)))).1) ∧
      (∀ r ∈ c.rows, 1 + r.redshift ≠ 0) := by
    have h10 : ∀ r ∈ c.rows, 1 + r.redshift ≠ 0 := by
      intro r hr
      have := (hreg r hr).2.2.1
      have h0 : 0 < 1 + r.redshift := by linarith
      exact h0.ne'
    cases hq : freq with
    | none =>
      refine ⟨st.zlo, st.zhi, ⟨hz, rfl⟩, ?_, h10⟩
      intro r hr
      obtain ⟨g1, g2, g3⟩ := hreg r hr
      simp only [observed, InRegion, List.forall₂_cons, List.forall₂_nil_left_iff, and_true]
      exact ⟨g1, g2, g3⟩
    | some q =>
      have hq0 := hf q hq
      have hlo : 0 < 1 + st.zlo := by linarith
      have hhi : 0 < 1 + st.zhi := by linarith
      refine ⟨q / (1 + st.zhi), q / (1 + st.zlo), ⟨?_, rfl⟩, ?_, h10⟩
      · exact div_lt_div_of_pos_left hq0 hlo (by linarith)
      · intro r hr
        obtain ⟨g1, g2, g3, g4⟩ := hreg r hr
        have g5 : st.zlo < r.redshift :=
          lt_of_le_of_ne g3 (Ne.symm (hin.freq (by rw [hq]; simp) r hr))
        simp only [observed, InRegion, List.modify_succ_cons, List.modify_zero_cons, List.forall₂_cons,
          List.forall₂_nil_left_iff, and_true]
        have hr1 : 0 < 1 + r.redshift := by linarith
        exact ⟨g1, g2, div_le_div_of_nonneg_left hq0.le hr1 (by linarith),
          div_lt_div_of_pos_left hq0 hlo (by linarith)⟩
  have hin' : ∀ o ∈ (selection (run hd ops) useAll).map (entry c.rows
      (names.map (fun p => shownAs h (col p).1 (inH.getD (run hd ops).inH) (col p).2))),
      InRegion [(-(st.angle / 2), st.angle / 2),
        (-(st.angle * st.aspect / 2), st.angle * st.aspect / 2), (e, f)] (observed freq o).1 := by
    intro o ho
    obtain ⟨k, hk, rfl⟩ := List.mem_map.1 ho
    obtain ⟨r, hr⟩ := hrow k hk
    have := hall r (List.mem_of_getElem? hr)
    cases freq <;> simpa [entry, hr, observed] using this
  obtain ⟨g, t, h1, h2, -, -, h5, -, h7⟩ := HGrid.C100_default (run hd ops) (coneMeta st h b0) names freq
    inH useAll _ hcat (by simpa using hsel) hn (by
      intro hf' o ho z hoz
      obtain ⟨k, hk, rfl⟩ := List.mem_map.1 ho
      obtain ⟨r, hr⟩ := hrow k hk
      simp only [entry, hr, Option.elim_some, List.getElem?_cons_succ, List.getElem?_cons_zero,
        Option.some.injEq] at hoz
      subst hoz
      exact hne r (List.mem_of_getElem? hr)) none none none (-(st.angle / 2)) (st.angle / 2)
    (-(st.angle * st.aspect / 2)) (st.angle * st.aspect / 2) e f
    ⟨by linarith, rfl⟩ ⟨by linarith, rfl⟩ h3
  refine ⟨g, t, h1, h2, ?_, ?_⟩
  · rw [h5, List.filter_eq_self.2 (fun o ho => decide_eq_true (hin' o ho)), List.length_map]
  · intro p name hp
    have hlt : p < names.length := (List.getElem?_eq_some_iff.1 hp).1
    rw [h7 hin' p hlt, List.map_map]
    congr 1
    refine List.map_congr_left ?_
    intro k _
    exact valueOf_entry _ _ p _ (by simp [hp]) k

/-- **C120 (opened lightcones).** A lightcone that was built and to which properties were added in any
calls, the last of which may have been interrupted, shows its objects and all its properties: the theorems
above apply to its maps. -/
theorem C120_opened (e : Env K) (sim : String → Option (String × ℤ)) (hs : Described e sim)
    (skies : List (Sky K)) (bins : List K) (hn : e.n = skies.length) (d d0 d' : Folder K)
    (hbuild : exec (buildPlan e.st skies e.metas e.data bins) d = (d0, .ok ()))
    (hleft : Left e d0 d') (i : ℕ) (sky : Sky K) (hi : skies[i]? = some sky) (h : K) (inH : Bool)
    (more : PyDict Name K) :
    ∃ c f hd, buildCone e.st sky e.metas e.data bins = .ok c ∧ d' i = some f ∧
      openCone sim (d' i) h inH more = .ok hd ∧ Reachable hd ∧ hd.nAll = c.rows.length ∧
      hd.active = List.range c.rows.length ∧
      ∀ names : List Name, (∀ p ∈ names, p ≠ "mass_cuts" ∧ (f.dataset p).isSome) →
        Shows hd h c.rows names (fun p => (((attr sim p).map (·.2)).getD 0, (f.dataset p).getD [])) := by
  obtain ⟨c, f, hd, g1, g2, g3, g4, g5, g6, g7, g8, g9, g10, g11⟩ := C119_opens e sim hs skies bins hn
    d d0 d' hbuild hleft i sky hi h inH more
  refine ⟨c, f, hd, g1, g2, g4, g5, g7, g8, ?_⟩
  intro names hnames
  refine ⟨?_, ?_, ?_, ?_⟩
  · obtain ⟨u, ε, h1, h2⟩ := g10 ("ra", Row.ra) (by simp [columns])
    simp only [attr, List.mem_cons, true_or, if_true, Option.some.injEq, Prod.mk.injEq] at h1
    rw [← h1.2] at h2
    exact h2
  · obtain ⟨u, ε, h1, h2⟩ := g10 ("dec", Row.dec) (by simp [columns])
    simp [attr] at h1
    rw [← h1.2] at h2
    exact h2
  · obtain ⟨u, ε, h1, h2⟩ := g10 ("redshift", Row.redshift) (by simp [columns])
    simp [attr] at h1
    rw [← h1.2] at h2
    exact h2
  · intro p hp
    obtain ⟨h1, h2⟩ := hnames p hp
    obtain ⟨l, hl⟩ := Option.isSome_iff_exists.1 h2
    obtain ⟨u, ε, h3, h4⟩ := g11 p l h1 hl
    simpa [hl, h3] using h4

/-- **C120 (lost objects).** Each selected object outside the height of the map, as they are in circular
lightcones made with an aspect ratio less than one, or on the upper limits in angle, as can be in
rectangular ones, is missing from the default map. -/
theorem C120_lost (hd : State K) (h : K) (rows : List (Row K)) (names : List Name)
    (col : Name → ℤ × List K) (hs : Shows hd h rows names col) (ops : List (Op K))
    (hops : Untouched names ops) (hn : names ≠ []) (useAll : Bool) (inH : Option Bool)
    (st : Settings K) (b0 : Bool) (ha : 0 < st.angle) (hr0 : 0 < st.aspect) (hz : st.zlo < st.zhi)
    (k : ℕ) (hk : k ∈ selection (run hd ops) useAll) (r : Row K) (hr : rows[k]? = some r)
    (hlost : st.angle * st.aspect / 2 < |r.dec| ∨ r.ra = st.angle / 2 ∨
      r.dec = st.angle * st.aspect / 2) :
    ∃ g, lcGrid (run hd ops) (coneMeta st h b0) names none inH useAll = some (.ok g) ∧
      g.nObj < (selection (run hd ops) useAll).length := by
  obtain ⟨g, t, h1, -, -, h2, -⟩ := C120_default hd h rows names col hs ops hops hn useAll inH
    (List.ne_nil_of_mem hk) st b0 ha hr0 hz
  refine ⟨g, h1, ?_⟩
  rw [h2]
  refine List.length_filter_lt_length_iff_exists.2 ⟨k, hk, ?_⟩
  simp only [hr, Option.mem_def, Option.some.injEq, exists_eq_left', decide_eq_true_eq]
  rintro ⟨⟨-, q1⟩, ⟨q2, q3⟩, -⟩
  rcases hlost with hq | hq | hq
  · rcases lt_abs.1 hq with hq | hq
    · exact absurd q3 (not_lt.2 hq.le)
    · linarith
  · exact absurd hq q1.ne
  · exact absurd hq q3.ne

/-- **C120 (volume).** The volume of an opened lightcone, with no arguments, is that of its own redshifts
and aperture: the disc of the opening angle for circular lightcones, else the rectangle. -/
theorem C120_volume (st : Settings K) (h : K) (inH : Bool) (vc : K → K) (pi : K) :
    LCH.volume vc pi (coneMeta st h inH) {} = .ok ((vc st.zhi - vc st.zlo) *
      (match st.mode with
        | .circle => pi * (st.angle / 2) ^ 2
        | .box => st.angle * (st.angle * st.aspect)) / (4 * pi) * (if inH then h ^ 3 else 1)) := by
  rw [LCH.volume_of vc pi (coneMeta st h inH) {} st.angle st.aspect (Or.inr ⟨rfl, rfl⟩)
    (Or.inr ⟨rfl, rfl⟩) le_rfl le_rfl (by cases hm : st.mode <;>
      simp [LCH.volCheck, coneMeta, shapeOf, hm])]
  cases hm : st.mode <;>
    simp [coneMeta, shapeOf, hm, LCH.solidAngle, mul_assoc]

end Verif.LC
