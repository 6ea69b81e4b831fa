import Verif.Spec.RawObserve
import Verif.Props.LCSourceCrash
import Verif.Props.ConeObserveEx

set_option linter.unusedSectionVars false

/-!
# C147: from raw halos to detectors
-/

namespace Verif.Inst

open Spec
open Verif.Sim (SnapMeta)
open Verif.Format (File Disk Reached)
open Verif.Format.Spec (groupOf)
open Verif.Handler.Spec (selection)
open Verif.HGrid (lcGrid)
open Verif.HGrid.Spec (Interval raDefault decDefault zDefault pixels)
open Verif.LC (Row Settings Sky Step Folder LCFile SnapData Cone buildCone buildFrom addFrom exec keysOf openCone simAttr
  posKeys)
open Verif.LC.Spec (Shows Untouched shownAs Origin attr columns posName IsImage)
open Verif.Map (Grid Arr BeamNorm PadArg NArr)
open Matrix

variable {F D T S K : Type} [DecidableEq F] [DecidableEq D] [_root_.Field K] [LinearOrder K] [IsStrictOrderedRing K]
  [FloorRing K]

/-- Redshift and angles of the objects of a lightcone are those of their positions. -/
theorem row_place (st : Settings K) (sky : Sky K) (metas : List (SnapMeta K)) (data : ℕ → SnapData K) (bins : List K)
    (c : Cone K) (h : buildCone st sky metas data bins = .ok c) (r : Row K) (hr : r ∈ c.rows) :
    r.redshift = st.assignZ (r.dist st) ∧ r.ra = r.posX / r.dist st ∧ r.dec = r.posY / r.dist st := by
  obtain ⟨parts, hs, hmade, hrows, -⟩ := LC.buildCone_ok h
  rw [hrows] at hr
  obtain ⟨P, hP, hr⟩ := List.mem_flatMap.1 hr
  obtain ⟨i, -, cd, hcd, rfl⟩ := LC.mem_partRows hr
  obtain ⟨hcand, -⟩ := LC.mem_selected.1 hcd
  rw [LC.rowOf_dist hcand]
  exact ⟨rfl, rfl, rfl⟩

/-- **C147**: format a simulation by any sequence of calls, each completed, failed or interrupted; make lightcones of
what is left and add properties to them; open one, make any calls of its handler, and observe the map of one property
with any instrument.  There are raw halos, those of one call for each snapshot, such that each detector records at each
position its noise plus what it receives of the selected objects, and each of them is the image of one of these halos,
with the light that its raw property says. -/
theorem C147_observed (d0 : Disk K) (h0 : d0.file = none) (d : Disk K) (hd : Reached d0 d) (file : File K)
    (hf : d.file = some file) :
    ∃ orig : ℕ → Origin K, (∀ i, groupOf d i ≠ none → (orig i).FromCall d0 i) ∧
    ∀ (st : Settings K) (skies : List (Sky K)) (bins : List K) (store : K → K) (keys : List String)
      (plan plan2 : List (Step K)) (f0 f1 f2 : Folder K),
      buildFrom file st skies bins = some plan → exec plan f0 = (f1, .ok ()) →
      addFrom file st store skies.length keys f1 = some plan2 → exec plan2 f1 = (f2, .ok ()) →
      (∀ k ∈ ["pos_x", "pos_y", "pos_z", "mass"], k ∈ keysOf file) →
      (∀ key, key ++ "_x" ∈ keysOf file → key ++ "_y" ∈ keysOf file ∧ key ++ "_z" ∈ keysOf file) →
      ∀ (i : ℕ) (view : Sky K), skies[i]? = some view → view.losM *ᵥ view.los = ![1, 0, 0] →
        view.paM *ᵥ ![1, 0, 0] = ![1, 0, 0] →
      ∀ (h : K) (inH0 : Bool) (more : PyDict Handler.Name K) (p : String) (kept : K → K),
        (p = "mass" ∧ kept = id ∨ (p ∈ keys ∧ p ∉ posKeys ∧ p ∈ keysOf file ∧ p ≠ "masscheck" ∧ p ≠ "mass_cuts" ∧
          p ∉ ["pos_x", "pos_y", "pos_z", "ra", "dec", "redshift", "mass"]) ∧ kept = store) →
        ∃ (rows : List (Row K)) (hd : Handler.State K) (u : String) (ε : ℤ),
          openCone (simAttr file) (f2 i) h inH0 more = .ok hd ∧ hd.nAll = rows.length ∧
          attr (simAttr file) p = some (u, ε) ∧
          ∀ (ops : List (Handler.Op K)), Untouched [p] ops → ∀ (useAll : Bool) (inH : Option Bool),
            selection (Handler.run hd ops) useAll ≠ [] →
          ∀ (meta' : LCH.Meta K) (line : Option K), (line ≠ none → ∀ x, 1 + st.assignZ x ≠ 0) →
          ∀ (res ralim declim zlim : Option (NArr K)) (norm : Option K) (a b c d' e z wx wy wz : K),
            Interval (raDefault meta') ralim a b → Interval (decDefault meta') declim c d' →
            Interval (zDefault meta' line) zlim e z → pixels [b - a, d' - c, z - e] res = [wx, wy, wz] →
            0 < wx → 0 < wy → 0 < wz →
            (1 + 1 / 20) * wx < b - a → (1 + 1 / 20) * wy < d' - c → (1 + 1 / 20) * wz < z - e →
            (∀ r, res = some r → r.isInt = false) →
            (∃ l ∈ [ralim, declim, zlim], ∀ r, l = some r → r.isInt = false) →
          ∃ (g : Grid K (WithTop K)) (sky : Arr K) (objs : List (Source K)) (nx ny nz : ℕ),
            lcGrid (Handler.run hd ops) meta' [p] line inH useAll res ralim declim zlim norm = some (.ok g) ∧
            List.Forall₂ (fun k o => ∃ r j, rows[k]? = some r ∧ groupOf d r.snap ≠ none ∧
                (orig r.snap).order[r.index]? = some j ∧
                HaloSeen (orig r.snap) st view p
                  (fun v => convert h ε (inH.getD (Handler.run hd ops).inH) (kept v)) line j o)
              (selection (Handler.run hd ops) useAll) objs ∧
            (b - a - wx / 20 ≤ nx * wx ∧ nx * wx < b - a + 19 / 20 * wx) ∧
            (d' - c - wy / 20 ≤ ny * wy ∧ ny * wy < d' - c + 19 / 20 * wy) ∧
            (z - e - wz / 20 ≤ nz * wz ∧ nz * wz < z - e + 19 / 20 * wz) ∧
            (plainGrid g).grid = some sky ∧ NoNaN g 1 ∧
            ∀ (lib : Lib F D T S K) (x : Setup F D K)
              (iops : List (Op F D (Point K) (Grid K K) (Arr K) (Grid K K) K (BeamNorm × PadArg)))
              (s : State F D (Point K) (Grid K K) (Arr K) (Grid K K) K) (f : Name) (m n : ℕ) (beam : BeamNorm)
              (pad : PadArg) (R : Name → K → K → K → K) (W : Name → K → K) (E : Name → List K)
              (sa : SampleArgs (Point K) T S),
              s = run (grids lib) (fresh x) iops → s.fields.has f = false →
              (∀ r, s.bestSpatial = some r → wx ≤ r ∧ wy ≤ r) → (∀ r, s.bestSpectral = some r → wz ≤ r) →
              Equipped lib s f nz m n wx wy wz ((e + z) / 2) beam pad R W E sa →
              (∀ q ∈ sa.positions, ∀ d det, s.detectors.get? d = some det →
                (q.isInt && det.pointing.isInt) = false) →
              ∃ s1 s2 cols, addField s { grid := asField (plainGrid g) sky, name := some f } = (s1, .ok f) ∧
                mapFields (grids lib) s1 [f] { kernel := some (.pair m n), opts := (beam, pad) } = (s2, .ok ()) ∧
                sampleFields (grids lib) s2 [f] sa = .ok [(f, cols)] ∧
                List.Forall₂ (RecordedOf s objs (norm.getD 1) nx ny nz m n wx wy wz ((a + b) / 2) ((c + d') / 2)
                  ((e + z) / 2) beam R W E sa.positions) s.detNames cols := by
  obtain ⟨orig, ho, H⟩ := LC.C138_opened d0 h0 d hd file hf
  refine ⟨orig, ho, ?_⟩
  intro st skies bins store keys plan plan2 f0 f1 f2 b1 b2 b3 b4 b5 b6 i view hi hlos hpa h inH0 more p kept hp
  obtain ⟨rows, hd', c1, -, c3, ⟨metas, cone, -, c5, c6⟩, c7, c8, c9⟩ := H st skies bins store keys plan plan2 f0 f1 f2
    b1 b2 b3 b4 b5 b6 i view hi hlos hpa h inH0 more
  -- the property
  obtain ⟨l, u, ε, e1, e2, e3, e4⟩ : ∃ l u ε, attr (simAttr file) p = some (u, ε) ∧ LC.Spec.Shown hd' p ε h l ∧
      l.length = rows.length ∧ ∀ (k : ℕ) (r : Row K) (x : K), rows[k]? = some r → l[k]? = some x →
        ∃ j v, (orig r.snap).order[r.index]? = some j ∧ (orig r.snap).Raw j p v ∧ x = kept v := by
    rcases hp with ⟨rfl, rfl⟩ | ⟨⟨p1, p2, p3, p4, p5, p6⟩, rfl⟩
    · obtain ⟨u, ε, e1, e2⟩ := c8 ("mass", Row.mass) (by simp [columns])
      refine ⟨_, u, ε, e1, e2, by simp, fun k r x hr hx => ?_⟩
      obtain ⟨-, -, j, pos, q1, q2, -⟩ := c7 r (List.mem_of_getElem? hr)
      rw [List.getElem?_map, hr] at hx
      cases hx
      exact ⟨j, _, q1, q2, rfl⟩
    · exact c9 p p1 p2 p3 p4 p5 p6
  refine ⟨rows, hd', u, ε, c1, c3, e1, ?_⟩
  intro ops hops useAll inH hsel meta' line hz res ralim declim zlim norm a b c d' e z wx wy wz h1 h2 h3 hpix hx hy hw
    hxa hyc hze hres hlim
  have zero : ∀ (q : String) (g : Row K → K), (q, g) ∈ columns → q ∈ ["ra", "dec", "redshift"] →
      LC.Spec.Shown hd' q 0 h (rows.map g) := by
    intro q g hq hq'
    obtain ⟨u, ε, k1, k2⟩ := c8 (q, g) hq
    have : ε = 0 := by
      simp only [List.mem_cons, List.not_mem_nil, or_false] at hq'
      rcases hq' with rfl | rfl | rfl <;> simp [attr] at k1 <;> exact k1.2.symm
    rw [this] at k2
    exact k2
  have hshows : Shows hd' h rows [p] (fun _ => (ε, l)) :=
    ⟨zero _ _ (by simp [columns]) (by simp), zero _ _ (by simp [columns]) (by simp),
      zero _ _ (by simp [columns]) (by simp), by
        intro q hq
        simp only [List.mem_singleton] at hq
        subst hq
        exact e2⟩
  have hplace := fun r (hr : r ∈ rows) => row_place st view metas _ bins cone c5 r (by rw [c6]; exact hr)
  obtain ⟨g, sky, objs, nx, ny, nz, k1, k2, k3, k4, k5, k6, k7, k8⟩ := C127_observed_partial (F := F) (D := D) (T := T)
    (S := S) hd' h rows p _ hshows ops
    hops useAll inH hsel meta' line (fun hl r hr => by rw [(hplace r hr).1]; exact hz hl _) res ralim declim zlim norm a b
    c d' e z wx wy wz h1 h2 h3 hpix hx hy hw hxa hyc hze hres hlim
  refine ⟨g, sky, objs, nx, ny, nz, k1, k2.imp ?_, k3, k4, k5, k6, k7, k8⟩
  rintro k o ⟨r, r1, r2, r3, r4, r5⟩
  have hr := List.mem_of_getElem? r1
  obtain ⟨q1, q2, j, pos, q3, q4, q5, q6⟩ := c7 r hr
  obtain ⟨p1, p2, p3⟩ := hplace r hr
  unfold shownAs at r5
  rw [List.getElem?_map] at r5
  rcases hl : l[k]? with - | x
  · rw [hl] at r5; cases r5
  rw [hl] at r5
  obtain ⟨j', v, v1, v2, v3⟩ := e4 k r x r1 hl
  obtain rfl : j' = j := Option.some.inj (v1.symm.trans q3)
  refine ⟨r, j', r1, q1, q3, r.mass, v, r.dist st, pos, _, q4, q2, q5, q6, ?_, ?_, ?_, ?_, v2, ?_⟩
  · simp [Row.dist]
  · rw [r2, p2]; simp
  · rw [r3, p3]; simp
  · rw [r4, p1]
  · simp only [Option.map_some, Option.some.injEq, Handler.Spec.seen] at r5
    unfold convert
    beta_reduce
    split at r5
    · rename_i hh
      rw [if_pos hh, ← v3]; exact (Option.some.inj r5).symm
    · rename_i hh
      rw [if_neg hh, ← v3]; exact (Option.some.inj r5).symm

/-! ## An interrupted call -/

/-- Formatting is interrupted after 36 steps; lightcones are made, spins are added, and one is opened. -/
def cutSteps : Option ℕ :=
  match buildFrom (LC.cutFile 36) (LC.exSt 5) [LC.exSky] LC.exBins with
  | some plan =>
    match exec plan (fun _ => none) with
    | (f1, .ok ()) =>
      match addFrom (LC.cutFile 36) (LC.exSt 5) id 1 ["spin"] f1 with
      | some plan2 =>
        match exec plan2 f1 with
        | (f2, .ok ()) =>
          match openCone (simAttr (LC.cutFile 36)) (f2 0) (1 / 2) true [] with
          | .ok hd => some hd.nAll
          | .error _ => none
        | _ => none
      | none => none
    | _ => none
  | none => none

theorem cut_steps : ∃ plan plan2 f1 f2, buildFrom (LC.cutFile 36) (LC.exSt 5) [LC.exSky] LC.exBins = some plan ∧
    exec plan (fun _ => none) = (f1, .ok ()) ∧
    addFrom (LC.cutFile 36) (LC.exSt 5) id 1 ["spin"] f1 = some plan2 ∧ exec plan2 f1 = (f2, .ok ()) ∧
    ∀ hd, openCone (simAttr (LC.cutFile 36)) (f2 0) (1 / 2) true [] = .ok hd → hd.nAll = 2 := by
  have h : cutSteps = some 2 := by decide +kernel
  unfold cutSteps at h
  split at h
  · rename_i plan hplan
    split at h
    · rename_i f1 hf1
      split at h
      · rename_i plan2 hplan2
        split at h
        · rename_i f2 hf2
          refine ⟨plan, plan2, f1, f2, hplan, hf1, hplan2, hf2, fun hd hhd => ?_⟩
          rw [hhd] at h
          exact Option.some.inj h
        · simp at h
      · simp at h
    · simp at h
  · simp at h

/-- The call had more steps to do. -/
theorem cut_short : (Format.format (LC.srcCat [7, 9]) {} [] LC.srcDisk).map (fun q => decide (36 < q.1.length)) =
    some true := by decide +kernel

/-- The spins of both objects of the lightcone, in three by three cells and three channels, are observed. -/
example : ∃ (orig : ℕ → Origin ℚ) (f2 : Folder ℚ) (hd : Handler.State ℚ) (g : Grid ℚ (WithTop ℚ)) (sky : Arr ℚ)
    (o1 o2 : Source ℚ) (s1 s2 : State Unit Unit (Point ℚ) (Grid ℚ ℚ) (Arr ℚ) (Grid ℚ ℚ) ℚ) (v : Option ℚ),
    openCone (simAttr (LC.cutFile 36)) (f2 0) (1 / 2) true [] = .ok hd ∧
    lcGrid hd (LC.coneMeta (LC.exSt 5) (1 / 2) true) ["spin"] none none true (some ⟨false, [1 / 30, 1 / 30, 5]⟩) =
      some (.ok g) ∧
    (∃ i j, HaloSeen (orig i) (LC.exSt 5) LC.exSky "spin" (fun v => v) none j o1) ∧
    (∃ i j, HaloSeen (orig i) (LC.exSt 5) LC.exSky "spin" (fun v => v) none j o2) ∧
    addField degState { grid := asField (plainGrid g) sky, name := some "sky" } = (s1, .ok "sky") ∧
    mapFields (grids flatLib) s1 ["sky"] { kernel := some (.pair 3 3), opts := (.peak, .none) } = (s2, .ok ()) ∧
    sampleFields (grids flatLib) s2 ["sky"]
      { positions := [⟨false, 0, 0⟩], withNoise := false, seed := fun _ _ => () } = .ok [("sky", [[v]])] := by
  have hfile : (LC.cutDisk 36).file = some (LC.cutFile 36) := by
    have h : (LC.cutDisk 36).file.isSome = true := by decide +kernel
    obtain ⟨f, hf⟩ := Option.isSome_iff_exists.1 h
    rw [LC.cutFile, hf]; rfl
  obtain ⟨plan, plan2, f1, f2, p1, p2, p3, p4, p5⟩ := cut_steps
  obtain ⟨orig, -, H⟩ := C147_observed (F := Unit) (D := Unit) (T := Unit) (S := Unit) LC.srcDisk rfl _
    (LC.cut_reached 36) (LC.cutFile 36) hfile
  obtain ⟨rows, hd, u, ε, q1, q2, q3, q4⟩ := H (LC.exSt 5) [LC.exSky] LC.exBins id ["spin"] plan plan2 _ f1 f2 p1 p2 p3
    p4 (by decide +kernel) (by
      intro key hk
      have hks : keysOf (LC.cutFile 36) = ["mass", "pos_x", "pos_y", "pos_z", "spin"] := by decide +kernel
      rw [hks] at hk ⊢
      have hlast : (key ++ "_x").toList.getLast? = some 'x' := by
        rw [String.toList_append]; simp
      simp only [List.mem_cons, List.not_mem_nil, or_false] at hk
      rcases hk with h | h | h | h | h
      · rw [h] at hlast; exact absurd hlast (by decide)
      · have : key = "pos" := by
          have h' : key ++ "_x" = "pos" ++ "_x" := h
          exact (String.append_left_inj "_x").1 h'
        subst this
        decide +kernel
      all_goals (rw [h] at hlast; exact absurd hlast (by decide))) 0 LC.exSky rfl (by decide +kernel) (by decide +kernel) (1 / 2) true [] "spin" id
    (.inr ⟨⟨by simp, by decide +kernel, by decide +kernel, by decide, by decide, by decide⟩, rfl⟩)
  have hn := p5 hd q1
  have hsel : selection (Handler.run hd []) true = [0, 1] := by
    simp [selection, Handler.run, hn, List.range_succ]
  obtain ⟨g, sky, objs, nx, ny, nz, k1, k2, k3, k4, k5, k6, k7, k8⟩ := q4 [] (by simp [Untouched]) true none
    (by rw [hsel]; simp) (LC.coneMeta (LC.exSt 5) (1 / 2) true) none (by simp) (some ⟨false, [1 / 30, 1 / 30, 5]⟩)
    none none none none (-(1 / 20)) (1 / 20) (-(1 / 20)) (1 / 20) 5 20
    (1 / 30) (1 / 30) 5 ⟨by norm_num, by decide +kernel⟩ ⟨by norm_num, by decide +kernel⟩
    ⟨by norm_num, by decide +kernel⟩ rfl (by norm_num) (by norm_num)
    (by norm_num) (by norm_num) (by norm_num) (by norm_num) (by simp) ⟨none, by simp, by simp⟩
  rw [hsel] at k2
  have hnz : nz ≠ 0 := by
    rintro rfl
    have := k5.1
    norm_num at this
  obtain ⟨d1, d2, d3, d4, d5⟩ := degState_facts
  obtain ⟨s1, s2, cols, e1, e2, e3, e4⟩ := k8 flatLib degSetup degOps degState "sky" 3 3 .peak .none (fun _ _ _ _ => 1)
    (fun _ _ => 1) (fun _ => List.replicate 1 0)
    { positions := [⟨false, 0, 0⟩], withNoise := false, seed := fun _ _ => () } rfl (by rw [d3]; rfl)
    (by rw [d4]; simp) (by rw [d5]; simp) (deg_equipped "sky" nz hnz _ _ _ _ [⟨false, 0, 0⟩]) (by simp)
  rw [d1] at e4
  obtain ⟨col, cs, c1, c2, rfl⟩ := List.forall₂_cons_left_iff.1 e4
  obtain rfl := List.forall₂_nil_left_iff.1 c2
  obtain ⟨-, -, -, -, c3, -⟩ := c1
  obtain ⟨v, rfl⟩ := List.length_eq_one_iff.1 c3
  obtain ⟨o1, os, b1, b2, rfl⟩ := List.forall₂_cons_left_iff.1 k2
  obtain ⟨o2, os', b3, b4, rfl⟩ := List.forall₂_cons_left_iff.1 b2
  have hε : ε = 0 := by
    have h : attr (simAttr (LC.cutFile 36)) "spin" = some ("", 0) := by decide +kernel
    rw [h] at q3
    simp only [Option.some.injEq, Prod.mk.injEq] at q3
    exact q3.2.symm
  have hconv : ∀ b, (fun v : ℚ => convert (1 / 2) ε b (id v)) = fun v => v := by
    intro b
    funext v
    simp [convert, hε]
  obtain ⟨r, j, -, -, -, b5⟩ := b1
  obtain ⟨r', j', -, -, -, b6⟩ := b3
  rw [hconv] at b5 b6
  exact ⟨orig, f2, hd, g, sky, o1, o2, s1, s2, v, q1, k1, ⟨_, _, b5⟩, ⟨_, _, b6⟩, e1, e2, e3⟩

end Verif.Inst
