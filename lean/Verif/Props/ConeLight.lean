import Verif.Props.ConeObserve
import Verif.Props.HandlerKept
import Verif.Props.LCMap
import Verif.Spec.ConeLight

set_option linter.unusedSectionVars false

/-!
# C135: an instrument observes the light computed for the objects of a lightcone
-/

namespace Verif.Inst

open Spec
open Verif.Handler (MultiProp MakeOpts V)
open Verif.Handler.Spec (Reachable selection Computes Remains source stored changes)
open Verif.HGrid (lcGrid intLimits)
open Verif.HGrid.Spec (Interval Gridded raDefault decDefault zDefault pixels observed)
open Verif.LC (Row)
open Verif.LC.Spec (Shows Untouched columnsOf entry shownAs)
open Verif.Map (Grid Arr BeamNorm PadArg NArr)
open Verif.Map.Spec (Sky AxisIs cell cellSum InCell freq edges)

variable {F D T S K : Type} [_root_.Field K] [LinearOrder K] [IsStrictOrderedRing K] [FloorRing K]

/-- What the handler shows of the property after it was made: for each selected object its angles and redshift and the
value computed for it, NaN if it was not selected then. -/
theorem light_catalogue (hd : Handler.State K) (hr : Reachable hd) (rows : List (Row K)) (names : List Handler.Name)
    (col : Handler.Name → ℤ × List K) (hs : Shows hd hd.h rows names col) (ops : List (Handler.Op K))
    (hops : Untouched names ops) (m : MultiProp K) (gal : ℕ → List (V K) → V K) (o : MakeOpts K)
    (powers : PyDict Handler.Name ℤ) (hm : Computes (Handler.run hd ops) m gal o powers)
    (hin : ∀ kw ∈ m.kwargs, source o kw ∈ names ∧ source o kw ≠ "mass_cuts")
    (hpos : ∀ q ∈ ["ra", "dec", "redshift"], q ∉ o.rename.getD m.names)
    (j : ℕ) (orig p : Handler.Name) (e : ℤ) (h1 : m.names[j]? = some orig)
    (h2 : (o.rename.getD m.names)[j]? = some p) (h3 : powers.get? orig = some e)
    (hnew : (Handler.run hd ops).file.get? p = none) (more : List (Handler.Op K))
    (hmore : Untouched [] more) (hrem : Remains p (Handler.run hd (ops ++ [.make m o])) more) (useAll : Bool)
    (inH : Option Bool) :
    (∀ k ∈ selection (Handler.run hd (ops ++ .make m o :: more)) useAll, ∃ r, rows[k]? = some r) ∧
    HGrid.Spec.Catalogue (Handler.run hd (ops ++ .make m o :: more)) useAll inH ["ra", "dec", "redshift"] [p]
      ((selection (Handler.run hd (ops ++ .make m o :: more)) useAll).map (fun k =>
        ((rows[k]?).elim [] (fun r => [r.ra, r.dec, r.redshift]),
          [light hd.h (inH.getD (Handler.run hd (ops ++ .make m o :: more)).inH) m.returnH e gal j
            (selection (Handler.run hd ops) o.useAll) (inputs hd.h col m o) k]))) := by
  have hr1 : Reachable (Handler.run hd ops) := by
    obtain ⟨file, n, h, inH, s0, extra, ops0, a, b, rfl⟩ := hr
    exact ⟨file, n, h, inH, s0, extra, ops0 ++ ops, a, b, by simp [Handler.run]⟩
  have hh := Handler.run_h hd ops
  obtain ⟨s, hsd⟩ : ∃ s, s = Handler.run hd ops := ⟨_, rfl⟩
  have hmk : (Handler.make s m o).1 = Handler.run hd (ops ++ [.make m o]) := by
    rw [hsd]; simp [Handler.run, Handler.step]
  have hrun : Handler.run hd (ops ++ .make m o :: more) = Handler.run s (.make m o :: more) := by
    rw [hsd]; simp [Handler.run]
  obtain ⟨-, -, hkept⟩ := Handler.C135_kept s (hsd ▸ hr1) m gal o powers (hsd ▸ hm)
    (fun kw => (selection s true).map (fun k => ((shownAs hd.h (col (source o kw)).1 m.giveH
      (col (source o kw)).2)[k]?).join)) (by
      intro kw hkw
      obtain ⟨i1, i2⟩ := hin kw hkw
      refine ⟨i2, ?_⟩
      have := LC.shown_read (hs.column _ i1) ops (fun op ho => hops op ho _ (List.mem_append_right _ i1)) true
        (some m.giveH)
      rw [hsd]
      exact this) j orig p e h1 h2 h3 (hsd ▸ hnew)
  have hread := hkept more (by rw [hmk]; exact hrem) useAll inH
  have hall : Untouched [] (ops ++ .make m o :: more) := by
    intro op hop q hq
    rcases List.mem_append.1 hop with hop | hop
    · exact hops op hop q (by simp at hq ⊢; tauto)
    · rcases List.mem_cons.1 hop with rfl | hop
      · exact hpos q (by simpa using hq)
      · exact hmore op hop q hq
  have hrow := LC.selection_row hs.ra _ (fun op ho => hall op ho "ra" (by simp)) useAll
  have hcat := LC.catalogue_shown hs.ra hs.dec hs.redshift [] col (by simp) _ hall useAll inH
  rw [hrun] at hrow hcat ⊢
  refine ⟨hrow, ?_, ?_, ?_, ?_⟩
  · intro k q hq
    rw [hcat.positions k q hq]
    simp only [List.map_map]
    rfl
  · intro k q hq
    match k, hq with
    | 0, hq =>
      simp only [List.getElem?_cons_zero, Option.some.injEq] at hq
      subst hq
      rw [hread]
      congr 2
      rw [List.map_map]
      refine List.map_congr_left (fun k hk => ?_)
      simp only [Function.comp, List.getD_cons_zero, light, inputs]
      rw [hsd, hh, ← hsd]
      congr 1
      split
      · rename_i hsel
        congr 2
        refine List.map_congr_left (fun kw hkw => ?_)
        have hkn : k < s.nAll := by
          have := Handler.inds_bound s (Handler.reachable_inv (hsd ▸ hr1)) o.useAll k hsel
          exact this
        rw [List.getElem?_map]
        simp [selection, hkn]
      · rfl
    | k + 1, hq => simp at hq
  · intro q hq
    obtain ⟨k, hk, rfl⟩ := List.mem_map.1 hq
    obtain ⟨r, hr⟩ := hrow k hk
    simp [hr]
  · intro q hq
    obtain ⟨k, hk, rfl⟩ := List.mem_map.1 hq
    rfl

theorem sum_top (l : List (WithTop K)) (h : ⊤ ∈ l) : l.sum = ⊤ := by
  induction l with
  | nil => simp at h
  | cons x l ih =>
    rw [List.sum_cons, WithTop.add_eq_top]
    rcases List.mem_cons.1 h with h | h
    · exact .inl h.symm
    · exact .inr (ih h)

variable [DecidableEq F] [DecidableEq D]

/-- **C135**, for positions that are not integers and objects for which the function computed a number: a property that
a function computes for objects of a lightcone can be mapped, whatever was called before and is called afterwards short
of replacing it or unloading it unwritten; an instrument with any history takes the map, and what each detector records
is, at each position shifted by its pointing offset, its noise plus what it receives of the light computed for the
selected objects. -/
theorem C135_observed_partial (hd : Handler.State K) (hr : Reachable hd) (rows : List (Row K)) (names : List Handler.Name)
    (col : Handler.Name → ℤ × List K) (hs : Shows hd hd.h rows names col) (ops : List (Handler.Op K))
    (hops : Untouched names ops) (model : MultiProp K) (gal : ℕ → List (V K) → V K) (o : MakeOpts K)
    (powers : PyDict Handler.Name ℤ) (hm : Computes (Handler.run hd ops) model gal o powers)
    (hin : ∀ kw ∈ model.kwargs, source o kw ∈ names ∧ source o kw ≠ "mass_cuts")
    (hpos : ∀ q ∈ ["ra", "dec", "redshift"], q ∉ o.rename.getD model.names)
    (j : ℕ) (orig p : Handler.Name) (pw : ℤ) (hj1 : model.names[j]? = some orig)
    (hj2 : (o.rename.getD model.names)[j]? = some p) (hj3 : powers.get? orig = some pw)
    (hnew : (Handler.run hd ops).file.get? p = none) (more : List (Handler.Op K))
    (hmore : Untouched [] more) (hrem : Remains p (Handler.run hd (ops ++ [.make model o])) more) (useAll : Bool)
    (inH : Option Bool)
    (hsel : selection (Handler.run hd (ops ++ .make model o :: more)) useAll ≠ []) (v : ℕ → K)
    (hlight : ∀ k ∈ selection (Handler.run hd (ops ++ .make model o :: more)) useAll,
      light hd.h (inH.getD (Handler.run hd (ops ++ .make model o :: more)).inH) model.returnH pw gal j
        (selection (Handler.run hd ops) o.useAll) (inputs hd.h col model o) k = some (v k))
    (meta' : LCH.Meta K) (line : Option K)
    (hz : line ≠ none → ∀ r ∈ rows, 1 + r.redshift ≠ 0)
    (res ralim declim zlim : Option (NArr K)) (norm : Option K) (a b c d e z wx wy wz : K)
    (h1 : Interval (raDefault meta') ralim a b) (h2 : Interval (decDefault meta') declim c d)
    (h3 : Interval (zDefault meta' line) zlim e z)
    (hp : pixels [b - a, d - c, z - e] res = [wx, wy, wz]) (hx : 0 < wx) (hy : 0 < wy) (hw : 0 < wz)
    (hxa : (1 + 1 / 20) * wx < b - a) (hyc : (1 + 1 / 20) * wy < d - c) (hze : (1 + 1 / 20) * wz < z - e)
    (hres : ∀ r, res = some r → r.isInt = false)
    (hlim : ∃ l ∈ [ralim, declim, zlim], ∀ r, l = some r → r.isInt = false) :
    ∃ (g : Grid K (WithTop K)) (sky : Arr K) (objs : List (Source K)) (nx ny nz : ℕ),
      lcGrid (Handler.run hd (ops ++ .make model o :: more)) meta' [p] line inH useAll res ralim declim zlim norm =
        some (.ok g) ∧
      List.Forall₂ (LightOf rows line v) (selection (Handler.run hd (ops ++ .make model o :: more)) useAll) objs ∧
      (b - a - wx / 20 ≤ nx * wx ∧ nx * wx < b - a + 19 / 20 * wx) ∧
      (d - c - wy / 20 ≤ ny * wy ∧ ny * wy < d - c + 19 / 20 * wy) ∧
      (z - e - wz / 20 ≤ nz * wz ∧ nz * wz < z - e + 19 / 20 * wz) ∧
      (plainGrid g).grid = some sky ∧ NoNaN g 1 ∧
      ∀ (lib : Lib F D T S K) (x : Setup F D K)
        (iops : List (Op F D (Point K) (Grid K K) (Arr K) (Grid K K) K (BeamNorm × PadArg)))
        (s : State F D (Point K) (Grid K K) (Arr K) (Grid K K) K) (f : Name) (m n : ℕ) (beam : BeamNorm) (pad : PadArg)
        (R : Name → K → K → K → K) (W : Name → K → K) (E : Name → List K) (sa : SampleArgs (Point K) T S),
        s = run (grids lib) (fresh x) iops → s.fields.has f = false →
        (∀ r, s.bestSpatial = some r → wx ≤ r ∧ wy ≤ r) → (∀ r, s.bestSpectral = some r → wz ≤ r) →
        Equipped lib s f nz m n wx wy wz ((e + z) / 2) beam pad R W E sa →
        (∀ q ∈ sa.positions, ∀ d det, s.detectors.get? d = some det → (q.isInt && det.pointing.isInt) = false) →
        ∃ s1 s2 cols, addField s { grid := asField (plainGrid g) sky, name := some f } = (s1, .ok f) ∧
          mapFields (grids lib) s1 [f] { kernel := some (.pair m n), opts := (beam, pad) } = (s2, .ok ()) ∧
          sampleFields (grids lib) s2 [f] sa = .ok [(f, cols)] ∧
          List.Forall₂ (RecordedOf s objs (norm.getD 1) nx ny nz m n wx wy wz ((a + b) / 2) ((c + d) / 2) ((e + z) / 2)
            beam R W E sa.positions) s.detNames cols := by
  obtain ⟨hrow, hcat⟩ := light_catalogue hd hr rows names col hs ops hops model gal o powers hm hin hpos j orig p pw hj1 hj2
    hj3 hnew more hmore hrem useAll inH
  obtain ⟨os, hos⟩ := forall₂_exists (LightOf rows none v) (selection (Handler.run hd (ops ++ .make model o :: more)) useAll) (by
      intro k hk
      obtain ⟨r, hr⟩ := hrow k hk
      exact ⟨⟨r.ra, r.dec, r.redshift, v k⟩, r, hr, rfl, rfl, rfl, rfl⟩)
  have hcat' : HGrid.Spec.Catalogue (Handler.run hd (ops ++ .make model o :: more)) useAll inH ["ra", "dec", "redshift"] [p]
      (os.map (fun o => ([o.x, o.y, o.z], [some o.v]))) := by
    have hlist : (selection (Handler.run hd (ops ++ .make model o :: more)) useAll).map (fun k =>
        ((rows[k]?).elim [] (fun r => [r.ra, r.dec, r.redshift]),
          [light hd.h (inH.getD (Handler.run hd (ops ++ .make model o :: more)).inH) model.returnH pw gal j
            (selection (Handler.run hd ops) o.useAll) (inputs hd.h col model o) k])) =
        os.map (fun o => ([o.x, o.y, o.z], [some o.v])) := by
      rw [List.map_congr_left (g := fun k => ((rows[k]?).elim [] (fun r => [r.ra, r.dec, r.redshift]), [some (v k)]))
        (fun k hk => by rw [hlight k hk])]
      refine forall₂_map_eq _ _ _ ?_ _ _ hos
      rintro k o ⟨r, hr, e1, e2, e3, e4⟩
      simp only [hr, Option.elim_some, e1, e2, e3, e4]
      rfl
    rw [← hlist]
    exact hcat
  have hmem : ∀ o ∈ os, ∃ r ∈ rows, o.z = r.redshift := by
    intro o ho
    obtain ⟨i, hi⟩ := List.getElem?_of_mem ho
    obtain ⟨k, -, r, hr, -, -, e3, -⟩ := forall₂_right hos i o hi
    exact ⟨r, List.mem_of_getElem? hr, e3⟩
  obtain ⟨g, sky, nx, ny, nz, g1, g2, g3, g4, g5, g6, g7, g8, g9⟩ := sky_of _ p useAll inH os hcat' (by
      rintro rfl
      exact hsel (List.forall₂_nil_right_iff.1 hos)) meta' line (by
      intro hl o ho
      obtain ⟨r, hr, hor⟩ := hmem o ho
      rw [hor]
      exact hz hl r hr) res ralim declim zlim norm a b c d e z wx wy wz h1 h2 h3 hp hx hy hw hxa hyc hze hres hlim
  refine ⟨g, sky, os.map (atLine line), nx, ny, nz, g1, ?_, g3, g4, g5, g6.active, g2, ?_⟩
  · rw [List.forall₂_map_right_iff]
    refine hos.imp ?_
    rintro k o ⟨r, hr, e1, e2, e3, e4⟩
    refine ⟨r, hr, e1, e2, ?_, e4⟩
    cases line with
    | none => exact e3
    | some f =>
      change f / (1 + o.z) = f / (1 + r.redshift)
      rw [e3]
      rfl
  · exact observed_of g sky (os.map (atLine line)) (norm.getD 1) nx ny nz wx wy wz _ _ _ hx hy hw g6 g7 g8 g9

omit [DecidableEq F] [DecidableEq D] in
/-- **C135 (objects left out).** If one of the objects that are mapped was not selected when the property was computed,
the cell it is in is NaN. -/
theorem C135_left_out (hd : Handler.State K) (hr : Reachable hd) (rows : List (Row K)) (names : List Handler.Name)
    (col : Handler.Name → ℤ × List K) (hs : Shows hd hd.h rows names col) (ops : List (Handler.Op K))
    (hops : Untouched names ops) (model : MultiProp K) (gal : ℕ → List (V K) → V K) (o : MakeOpts K)
    (powers : PyDict Handler.Name ℤ) (hm : Computes (Handler.run hd ops) model gal o powers)
    (hin : ∀ kw ∈ model.kwargs, source o kw ∈ names ∧ source o kw ≠ "mass_cuts")
    (hpos : ∀ q ∈ ["ra", "dec", "redshift"], q ∉ o.rename.getD model.names)
    (j : ℕ) (orig p : Handler.Name) (pw : ℤ) (hj1 : model.names[j]? = some orig)
    (hj2 : (o.rename.getD model.names)[j]? = some p) (hj3 : powers.get? orig = some pw)
    (hnew : (Handler.run hd ops).file.get? p = none) (more : List (Handler.Op K))
    (hmore : Untouched [] more) (hrem : Remains p (Handler.run hd (ops ++ [.make model o])) more) (useAll : Bool)
    (inH : Option Bool)
    (meta' : LCH.Meta K) (line : Option K)
    (hz : line ≠ none → ∀ r ∈ rows, 1 + r.redshift ≠ 0)
    (res ralim declim zlim : Option (NArr K)) (norm : Option K) (a b c d e z wx wy wz : K)
    (h1 : Interval (raDefault meta') ralim a b) (h2 : Interval (decDefault meta') declim c d)
    (h3 : Interval (zDefault meta' line) zlim e z)
    (hp : pixels [b - a, d - c, z - e] res = [wx, wy, wz]) (hx : 0 < wx) (hy : 0 < wy) (hw : 0 < wz)
    (hxa : (1 + 1 / 20) * wx < b - a) (hyc : (1 + 1 / 20) * wy < d - c) (hze : (1 + 1 / 20) * wz < z - e)
    (k : ℕ) (hk : k ∈ selection (Handler.run hd (ops ++ .make model o :: more)) useAll)
    (hout : k ∉ selection (Handler.run hd ops) o.useAll) (r : Row K) (hrk : rows[k]? = some r) :
    ∃ (g : Grid K (WithTop K)) (t : Arr (WithTop K)) (nx ny nz : ℕ),
      lcGrid (Handler.run hd (ops ++ .make model o :: more)) meta' [p] line inH useAll res ralim declim zlim norm =
        some (.ok g) ∧ g.grid = some t ∧
      (b - a - wx / 20 ≤ nx * wx ∧ nx * wx < b - a + 19 / 20 * wx) ∧
      (d - c - wy / 20 ≤ ny * wy ∧ ny * wy < d - c + 19 / 20 * wy) ∧
      (z - e - wz / 20 ≤ nz * wz ∧ nz * wz < z - e + 19 / 20 * wz) ∧
      ∀ ix iy iz, InSpan nx wx ((a + b) / 2) r.ra ix → InSpan ny wy ((c + d) / 2) r.dec iy →
        InSpan nz wz ((e + z) / 2) (line.elim r.redshift (fun f => f / (1 + r.redshift))) iz →
        cell t [ix, iy, iz] 0 = ⊤ := by
  obtain ⟨hrow, hcat⟩ := light_catalogue hd hr rows names col hs ops hops model gal o powers hm hin hpos j orig p pw hj1 hj2
    hj3 hnew more hmore hrem useAll inH
  obtain ⟨g, hg, hG, -⟩ := HGrid.C100_cells _ meta' [p] line inH useAll _ hcat (by
      intro hc
      rw [List.map_eq_nil_iff] at hc
      rw [hc] at hk
      simp at hk) (by simp) (by
      intro hl q hq x hx'
      obtain ⟨k', hk', rfl⟩ := List.mem_map.1 hq
      obtain ⟨r', hr'⟩ := hrow k' hk'
      simp only [hr', Option.elim_some, List.getElem?_cons_succ, List.getElem?_cons_zero, Option.some.injEq] at hx'
      subst hx'
      exact hz hl r' (List.mem_of_getElem? hr')) res ralim declim zlim norm a b c d e z h1 h2 h3 (by rw [hp]; rfl) (by
      rw [hp]
      intro w hw'
      simp only [List.mem_cons, List.not_mem_nil, or_false] at hw'
      rcases hw' with rfl | rfl | rfl <;> assumption) (by
      rw [hp]
      intro i l w hl hw'
      match i with
      | 0 => cases hl; cases hw'; exact hxa
      | 1 => cases hl; cases hw'; exact hyc
      | 2 => cases hl; cases hw'; exact hze
      | n + 3 => simp at hl)
  obtain ⟨t, t1, t2, t3⟩ := hG.cells
  rw [hp] at hG
  obtain ⟨nx, ax, bx⟩ := hG.axis 0 _ _ _ rfl rfl rfl
  obtain ⟨ny, ay, by'⟩ := hG.axis 1 _ _ _ rfl rfl rfl
  obtain ⟨nz, az, bz⟩ := hG.axis 2 _ _ _ rfl rfl rfl
  have haxes : g.axes = [edges nx wx ((a + b) / 2), edges ny wy ((c + d) / 2), edges nz wz ((e + z) / 2)] := by
    apply List.ext_getElem?
    intro i
    match i with
    | 0 => rw [ax.axes]; rfl
    | 1 => rw [ay.axes]; rfl
    | 2 => rw [az.axes]; rfl
    | n + 3 => rw [List.getElem?_eq_none (by rw [hG.dim]; omega)]; rfl
  refine ⟨g, t, nx, ny, nz, hg, t1, bx, by', bz, ?_⟩
  intro ix iy iz i1 i2 i3
  obtain ⟨cc, hccd⟩ : ∃ cc, cc = [ix, iy, iz] := ⟨_, rfl⟩
  have hcc : InCell g.axes cc [r.ra, r.dec, line.elim r.redshift (fun f => f / (1 + r.redshift))] := by
    rw [haxes, hccd]
    simp only [InCell, inSpan_iff, and_true]
    exact ⟨i1, i2, i3⟩
  rw [← hccd]
  rw [t3 cc 0 (by simp), WithTop.map_eq_top_iff]
  unfold cellSum
  refine sum_top _ ?_
  rw [List.mem_map]
  refine ⟨([r.ra, r.dec, line.elim r.redshift (fun f => f / (1 + r.redshift))], ⊤), ?_, rfl⟩
  rw [List.mem_filter]
  refine ⟨?_, by simpa using hcc⟩
  rw [List.map_map, List.map_map, List.mem_map]
  refine ⟨k, hk, ?_⟩
  have hl : light hd.h (inH.getD (Handler.run hd (ops ++ .make model o :: more)).inH) model.returnH pw gal j
      (selection (Handler.run hd ops) o.useAll) (inputs hd.h col model o) k = none := by
    unfold light
    rw [if_neg hout]
    unfold Handler.Spec.seen
    split <;> rfl
  simp only [Function.comp, hrk, Option.elim_some, hl]
  cases line <;> rfl

/-- **C135 (opened lightcones).** A lightcone that was built, and to which properties were added in any calls, is opened
as C135 needs it. -/
theorem C135_opened (e : LC.Env K) (sim : String → Option (String × ℤ)) (hs : LC.Described e sim)
    (skies : List (LC.Sky K)) (bins : List K) (hn : e.n = skies.length) (d d0 d' : LC.Folder K)
    (hbuild : LC.exec (LC.buildPlan e.st skies e.metas e.data bins) d = (d0, .ok ()))
    (hleft : LC.Left e d0 d') (i : ℕ) (sky : LC.Sky K) (hi : skies[i]? = some sky) (h : K) (inH : Bool)
    (more : PyDict Handler.Name K) :
    ∃ c f hd, LC.buildCone e.st sky e.metas e.data bins = .ok c ∧ d' i = some f ∧
      LC.openCone sim (d' i) h inH more = .ok hd ∧ Reachable hd ∧ hd.h = h ∧
      (∀ p, (f.dataset p) = none → hd.file.get? p = none ∧ Handler.hasProperty hd p = false) ∧
      ∀ names : List Handler.Name, (∀ p ∈ names, p ≠ "mass_cuts" ∧ (f.dataset p).isSome) →
        Shows hd hd.h c.rows names (fun p => (((LC.Spec.attr sim p).map (·.2)).getD 0, (f.dataset p).getD [])) := by
  obtain ⟨c, f, hd, g1, g2, g3, g4, g5, g6, g7⟩ := LC.C120_opened e sim hs skies bins hn d d0 d' hbuild hleft i sky hi h inH
    more
  have hh : hd.h = h ∧ ∀ p, f.dataset p = none → hd.file.get? p = none ∧ Handler.hasProperty hd p = false := by
    rw [g2] at g3
    simp only [LC.openCone] at g3
    split at g3
    · cases g3
    · rename_i full hfull
      split at g3
      · cases g3
      · rename_i s0 hs0
        simp only [Except.ok.injEq] at g3
        subst g3
        unfold Handler.init at hs0
        dsimp only at hs0
        split at hs0
        · cases hs0
        split at hs0
        · cases hs0
        split at hs0
        · cases hs0
        simp only [Except.ok.injEq] at hs0
        subst hs0
        refine ⟨rfl, ?_⟩
        intro p hp
        have hget : (LC.coneGroup sim full).get? p = none := by
          rw [LC.coneGroup_get]
          unfold LC.LCFile.dataset at hp
          rw [hfull] at hp
          simpa using hp
        refine ⟨hget, ?_⟩
        simp only [Handler.hasProperty, decide_eq_false_iff_not, List.mem_map, not_exists, not_and, List.mem_filter]
        rintro ⟨q, v⟩ ⟨hq, -⟩ rfl
        have := (PyDict.mem_keys_iff (LC.coneGroup sim full) q).1 (List.mem_map.2 ⟨_, hq, rfl⟩)
        rw [hget] at this
        simp at this
  refine ⟨c, f, hd, g1, g2, g3, g4, hh.1, hh.2, ?_⟩
  rw [hh.1]
  exact g7

end Verif.Inst
