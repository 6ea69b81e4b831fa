import Verif.Lemmas.ConeObserve

set_option linter.unusedSectionVars false

/-!
# C127: an instrument observes the objects of a lightcone
-/

namespace Verif.Inst

open Spec
open Verif.Handler.Spec (selection)
open Verif.HGrid (lcGrid intLimits)
open Verif.HGrid.Spec (Interval Gridded raDefault decDefault zDefault pixels observed)
open Verif.LC (Row)
open Verif.LC.Spec (Shows Untouched columnsOf entry shownAs)
open Verif.Map (Grid Arr BeamNorm PadArg NArr)
open Verif.Map.Spec (Sky AxisIs cell cellSum InCell freq edges)

variable {F D T S K : Type} [_root_.Field K] [LinearOrder K] [IsStrictOrderedRing K] [FloorRing K]

theorem forall₂_exists {α β : Type} (p : α → β → Prop) (l : List α) (h : ∀ a ∈ l, ∃ b, p a b) :
    ∃ bs, List.Forall₂ p l bs := by
  induction l with
  | nil => exact ⟨[], .nil⟩
  | cons a l ih =>
    obtain ⟨b, hb⟩ := h a (by simp)
    obtain ⟨bs, hbs⟩ := ih (fun a ha => h a (by simp [ha]))
    exact ⟨b :: bs, .cons hb hbs⟩

theorem forall₂_map_eq {α β γ : Type} (p : α → β → Prop) (f : α → γ) (f' : β → γ) (h : ∀ a b, p a b → f a = f' b)
    (l : List α) (l' : List β) (hl : List.Forall₂ p l l') : l.map f = l'.map f' := by
  induction hl with
  | nil => rfl
  | cons hab _ ih => simp [h _ _ hab, ih]

theorem forall₂_right {α β : Type} {p : α → β → Prop} {l : List α} {l' : List β} (hl : List.Forall₂ p l l') (j : ℕ)
    (b : β) (hb : l'[j]? = some b) : ∃ a, l[j]? = some a ∧ p a b := by
  induction hl generalizing j with
  | nil => simp at hb
  | cons hab _ ih =>
    cases j with
    | zero => exact ⟨_, rfl, by cases hb; exact hab⟩
    | succ j => exact ih j hb

/-- The sum over the sources in a cell. -/
theorem cellSum_sources (nx ny nz : ℕ) (wx wy wz cx cy cz : K) (objs : List (Source K)) (i j k : ℕ) :
    cellSum [edges nx wx cx, edges ny wy cy, edges nz wz cz] [i, j, k]
        ((objs.map (fun o => ([o.x, o.y, o.z], [some o.v]))).map
          (fun o : List K × List (Handler.V K) => (o.1, HGrid.Spec.valueOf 0 o))) =
      ((((objs.filter (fun o => InSpan nx wx cx o.x i ∧ InSpan ny wy cy o.y j ∧ InSpan nz wz cz o.z k)).map
          Source.v).sum : K) : WithTop K) := by
  unfold cellSum
  induction objs with
  | nil => rfl
  | cons o objs ih =>
    have hin : InCell [edges nx wx cx, edges ny wy cy, edges nz wz cz] [i, j, k] [o.x, o.y, o.z] ↔
        (InSpan nx wx cx o.x i ∧ InSpan ny wy cy o.y j ∧ InSpan nz wz cz o.z k) := by
      simp only [InCell, inSpan_iff, and_true]
    rw [List.map_cons, List.map_cons, List.filter_cons, List.filter_cons]
    by_cases hc : InSpan nx wx cx o.x i ∧ InSpan ny wy cy o.y j ∧ InSpan nz wz cz o.z k
    · have hc' : InCell [edges nx wx cx, edges ny wy cy, edges nz wz cz] [i, j, k] [o.x, o.y, o.z] := hin.2 hc
      simp only [hc', hc, decide_true, if_true, and_self, List.map_cons, List.sum_cons] at ih ⊢
      rw [ih, WithTop.coe_add]
      rfl
    · have hc' : ¬ InCell [edges nx wx cx, edges ny wy cy, edges nz wz cz] [i, j, k] [o.x, o.y, o.z] :=
        fun h => hc (hin.1 h)
      simp only [hc', hc, decide_false, Bool.false_eq_true, if_false] at ih ⊢
      exact ih

theorem sum_ne_top (l : List (WithTop K)) (h : ∀ x ∈ l, x ≠ ⊤) : l.sum ≠ ⊤ := by
  induction l with
  | nil => exact WithTop.coe_ne_top
  | cons x l ih =>
    rw [List.sum_cons, Ne, WithTop.add_eq_top]
    rintro (h' | h')
    · exact h x (by simp) h'
    · exact ih (fun y hy => h y (by simp [hy])) h'

/-- A map of one property without units, as a grid of numbers, is a sky. -/
theorem sky_numbers {g : Grid K (WithTop K)} (hr : Map.Spec.Regular g) (hcen : g.center.isInt = false)
    (hside : g.side.isInt = false) (hpix : g.pix.isInt = false)
    (hl : g.faxunits = g.axunits.map (fun u => u.map (· ++ "^-1"))) {S Q : NArr K} (hp : Map.Plain g 1 3 S Q)
    {center : List K} (hc : g.center = ⟨false, center⟩) (h3 : center.length = 3) (hn : g.nProps = 1)
    (hreal : ∀ f ∈ g.fourier, f = false) (t : Arr (WithTop K)) (ht : g.grid = some t) {nx ny nz : ℕ}
    {wx wy wz cx cy cz : K} (hx : AxisIs g 0 nx wx cx) (hy : AxisIs g 1 ny wy cy) (hz : AxisIs g 2 nz wz cz) :
    Sky (plainGrid g) ⟨t.shape, fun i => (t.get i).untopD 0⟩ nx ny nz wx wy wz cx cy cz where
  regular :=
    { nPix := hr.nPix
      pix := hr.pix
      side := hr.side
      axes := hr.axes
      centers := hr.centers
      fcenters := hr.fcenters
      faxes := hr.faxes
      fourier := hr.fourier
      axis := by
        intro i hi
        obtain ⟨n, w, c, h1, h2, h3⟩ := hr.axis i hi
        exact ⟨n, w, c, h1, h2, ⟨h3.nPix, h3.pix, h3.center, h3.side, h3.axes, h3.centers, h3.fcenters, h3.faxes⟩⟩
      data := by
        intro a ha
        simp only [plainGrid, Option.map_eq_some_iff] at ha
        obtain ⟨b, hb, rfl⟩ := ha
        exact hr.data b hb }
  floats := ⟨hcen, hside, hpix⟩
  labelled := ⟨by
    change g.axunits.length = g.center.vals.length
    rw [hp.axunits, hc, h3]; rfl, hl⟩
  dim := by
    change g.center.vals.length = 3
    rw [hc, h3]
  nProps := hn
  units := by
    change g.gridunits.length = 1
    rw [hp.gridunits]; rfl
  real := hreal
  map := hp.map
  active := by simp only [plainGrid, ht, Option.map_some]
  x := ⟨hx.nPix, hx.pix, hx.center, hx.side, hx.axes, hx.centers, hx.fcenters, hx.faxes⟩
  y := ⟨hy.nPix, hy.pix, hy.center, hy.side, hy.axes, hy.centers, hy.fcenters, hy.faxes⟩
  z := ⟨hz.nPix, hz.pix, hz.center, hz.side, hz.axes, hz.centers, hz.fcenters, hz.faxes⟩

/-- The map of one property of a catalogue with angles and redshifts is a sky, has no NaN and no units, and in each cell
the sum of the values of the objects in it, times the norm. -/
theorem sky_of (s : Handler.State K) (p : Handler.Name) (useAll : Bool) (inH : Option Bool) (os : List (Source K))
    (hcat : HGrid.Spec.Catalogue s useAll inH ["ra", "dec", "redshift"] [p]
      (os.map (fun o => ([o.x, o.y, o.z], [some o.v]))))
    (hsel : os ≠ []) (m : LCH.Meta K) (line : Option K) (hz : line ≠ none → ∀ o ∈ os, 1 + o.z ≠ 0)
    (res ralim declim zlim : Option (NArr K)) (norm : Option K) (a b c d e f wx wy wz : K)
    (h1 : Interval (raDefault m) ralim a b) (h2 : Interval (decDefault m) declim c d)
    (h3 : Interval (zDefault m line) zlim e f)
    (hp : pixels [b - a, d - c, f - e] res = [wx, wy, wz]) (hx : 0 < wx) (hy : 0 < wy) (hw : 0 < wz)
    (hxa : (1 + 1 / 20) * wx < b - a) (hyc : (1 + 1 / 20) * wy < d - c) (hze : (1 + 1 / 20) * wz < f - e)
    (hres : ∀ r, res = some r → r.isInt = false)
    (hlim : ∃ l ∈ [ralim, declim, zlim], ∀ r, l = some r → r.isInt = false) :
    ∃ (g : Grid K (WithTop K)) (sky : Arr K) (nx ny nz : ℕ),
      lcGrid s m [p] line inH useAll res ralim declim zlim norm = some (.ok g) ∧
      NoNaN g 1 ∧
      (b - a - wx / 20 ≤ nx * wx ∧ nx * wx < b - a + 19 / 20 * wx) ∧
      (d - c - wy / 20 ≤ ny * wy ∧ ny * wy < d - c + 19 / 20 * wy) ∧
      (f - e - wz / 20 ≤ nz * wz ∧ nz * wz < f - e + 19 / 20 * wz) ∧
      Sky (plainGrid g) sky nx ny nz wx wy wz ((a + b) / 2) ((c + d) / 2) ((e + f) / 2) ∧
      g.axunits = [none, none, none] ∧ g.gridunits = [none] ∧
      ∀ i j k, i < nx → j < ny → k < nz → cell sky [i, j, k] 0 = norm.getD 1 *
        (((os.map (atLine line)).filter (fun o => InSpan nx wx ((a + b) / 2) o.x i ∧ InSpan ny wy ((c + d) / 2) o.y j ∧
          InSpan nz wz ((e + f) / 2) o.z k)).map Source.v).sum := by
  obtain ⟨g, hg, hG, -⟩ := HGrid.C100_cells s m [p] line inH useAll _ hcat (by simpa using hsel) (by simp) (by
      intro hl o ho z hoz
      obtain ⟨o', ho', rfl⟩ := List.mem_map.1 ho
      simp only [List.getElem?_cons_succ, List.getElem?_cons_zero, Option.some.injEq] at hoz
      subst hoz
      exact hz hl o' ho') res ralim declim
    zlim norm a b c d e f h1 h2 h3 (by rw [hp]; rfl) (by
      rw [hp]
      intro w hw'
      simp only [List.mem_cons, List.not_mem_nil, or_false] at hw'
      rcases hw' with rfl | rfl | rfl <;> assumption) (by
      rw [hp]
      intro i l w hl hw'
      match i with
      | 0 => cases hl; cases hw'; exact hxa
      | 1 => cases hl; cases hw'; exact hyc
      | 2 => cases hl; cases hw'; exact hze
      | n + 3 => simp at hl)
  rw [hp] at hG
  obtain ⟨objs, hobj⟩ : ∃ objs, objs = os.map (atLine line) := ⟨_, rfl⟩
  have hlist : ((os.map (fun o => ([o.x, o.y, o.z], [some o.v]))).map (observed line)) =
      objs.map (fun o => ([o.x, o.y, o.z], [some o.v])) := by
    rw [hobj, List.map_map, List.map_map]
    refine List.map_congr_left (fun o _ => ?_)
    cases line <;> rfl
  rw [hlist] at hG
  rw [← hobj]
  obtain ⟨nx, ax, bx⟩ := hG.axis 0 _ _ _ rfl rfl rfl
  obtain ⟨ny, ay, by'⟩ := hG.axis 1 _ _ _ rfl rfl rfl
  obtain ⟨nz, az, bz⟩ := hG.axis 2 _ _ _ rfl rfl rfl
  obtain ⟨center, side, Q, c1, c2, c3, c4, c5⟩ := HGrid.lcGrid_plain _ m [p] (by simp) line inH useAll res ralim declim
    zlim norm g hg
  have haxes : g.axes = [edges nx wx ((a + b) / 2), edges ny wy ((c + d) / 2), edges nz wz ((e + f) / 2)] := by
    apply List.ext_getElem?
    intro i
    match i with
    | 0 => rw [ax.axes]; rfl
    | 1 => rw [ay.axes]; rfl
    | 2 => rw [az.axes]; rfl
    | n + 3 => rw [List.getElem?_eq_none (by rw [hG.dim]; omega)]; rfl
  obtain ⟨t, t1, t2, t3⟩ := hG.cells
  have hv : ∀ i j k, cell t [i, j, k] 0 = ((norm.getD 1 *
        ((objs.filter (fun o => InSpan nx wx ((a + b) / 2) o.x i ∧ InSpan ny wy ((c + d) / 2) o.y j ∧
          InSpan nz wz ((e + f) / 2) o.z k)).map Source.v).sum : K) : WithTop K) := by
    intro i j k
    rw [t3 _ 0 (by simp), haxes, cellSum_sources]
    rfl
  have hfin : ∀ cc, cell t cc 0 ≠ ⊤ := by
    intro cc
    rw [t3 _ 0 (by simp)]
    have : cellSum g.axes cc ((objs.map (fun o => ([o.x, o.y, o.z], [some o.v]))).map
        (fun o : List K × List (Handler.V K) => (o.1, HGrid.Spec.valueOf 0 o))) ≠ ⊤ := by
      unfold cellSum
      apply sum_ne_top
      intro x hx'
      obtain ⟨y, hy', rfl⟩ := List.mem_map.1 hx'
      obtain ⟨z, hz', rfl⟩ := List.mem_map.1 (List.mem_filter.1 hy').1
      obtain ⟨o, _, rfl⟩ := List.mem_map.1 hz'
      exact WithTop.coe_ne_top
    intro h'
    exact this (WithTop.map_eq_top_iff.1 h')
  have hpix : g.pix.isInt = false := by
    rw [c4.pix]
    unfold Map.spreadPix at c3
    split at c3
    · cases c3
      cases res with
      | none => rfl
      | some r => exact hres r rfl
    · split at c3
      · cases c3; rfl
      · cases c3
  have hside : g.side.isInt = false := by
    refine c4.side ?_
    obtain ⟨l, hl, hl'⟩ := hlim
    simp only [intLimits, List.all_eq_false]
    refine ⟨l, hl, ?_⟩
    cases l with
    | none => simp
    | some r => simp [hl' r rfl]
  refine ⟨g, ⟨t.shape, fun i => (t.get i).untopD 0⟩, nx, ny, nz, hg, ?_, bx, by', bz, ?_, ?_, ?_, ?_⟩
  · intro t' ht' cc q hq
    rw [t1] at ht'
    cases ht'
    have : q = 0 := by omega
    subst this
    exact hfin cc
  · exact sky_numbers hG.regular (by rw [c5]) hside hpix (by rw [c4.axunits, c4.faxunits]; rfl) c4 c5 c1 hG.nProps
      hG.real t t1 ax ay az
  · exact c4.axunits
  · exact c4.gridunits
  · intro i j k _ _ _
    have := hv i j k
    unfold cell at this ⊢
    simp only
    rw [this]
    rfl

/-- **C127 (map).** The map of one property of a lightcone, after any calls of its handler, is a sky, has no NaN and no
units, and in each cell the sum of the values of the selected objects in it, times the norm. -/
theorem C127_sky (hd : Handler.State K) (h : K) (rows : List (Row K)) (p : Handler.Name)
    (col : Handler.Name → ℤ × List K) (hs : Shows hd h rows [p] col) (ops : List (Handler.Op K))
    (hops : Untouched [p] ops) (useAll : Bool) (inH : Option Bool)
    (hsel : selection (Handler.run hd ops) useAll ≠ []) (m : LCH.Meta K) (line : Option K)
    (hz : line ≠ none → ∀ r ∈ rows, 1 + r.redshift ≠ 0)
    (res ralim declim zlim : Option (NArr K)) (norm : Option K) (a b c d e f wx wy wz : K)
    (h1 : Interval (raDefault m) ralim a b) (h2 : Interval (decDefault m) declim c d)
    (h3 : Interval (zDefault m line) zlim e f)
    (hp : pixels [b - a, d - c, f - e] res = [wx, wy, wz]) (hx : 0 < wx) (hy : 0 < wy) (hw : 0 < wz)
    (hxa : (1 + 1 / 20) * wx < b - a) (hyc : (1 + 1 / 20) * wy < d - c) (hze : (1 + 1 / 20) * wz < f - e)
    (hres : ∀ r, res = some r → r.isInt = false)
    (hlim : ∃ l ∈ [ralim, declim, zlim], ∀ r, l = some r → r.isInt = false) :
    ∃ (g : Grid K (WithTop K)) (sky : Arr K) (objs : List (Source K)) (nx ny nz : ℕ),
      lcGrid (Handler.run hd ops) m [p] line inH useAll res ralim declim zlim norm = some (.ok g) ∧
      NoNaN g 1 ∧
      List.Forall₂ (SourceOf rows line (shownAs h (col p).1 (inH.getD (Handler.run hd ops).inH) (col p).2))
        (selection (Handler.run hd ops) useAll) objs ∧
      (b - a - wx / 20 ≤ nx * wx ∧ nx * wx < b - a + 19 / 20 * wx) ∧
      (d - c - wy / 20 ≤ ny * wy ∧ ny * wy < d - c + 19 / 20 * wy) ∧
      (f - e - wz / 20 ≤ nz * wz ∧ nz * wz < f - e + 19 / 20 * wz) ∧
      Sky (plainGrid g) sky nx ny nz wx wy wz ((a + b) / 2) ((c + d) / 2) ((e + f) / 2) ∧
      g.axunits = [none, none, none] ∧ g.gridunits = [none] ∧
      ∀ i j k, i < nx → j < ny → k < nz → cell sky [i, j, k] 0 = norm.getD 1 *
        ((objs.filter (fun o => InSpan nx wx ((a + b) / 2) o.x i ∧ InSpan ny wy ((c + d) / 2) o.y j ∧
          InSpan nz wz ((e + f) / 2) o.z k)).map Source.v).sum := by
  have hcat := LC.catalogue_shown hs.ra hs.dec hs.redshift [p] col hs.column ops hops useAll inH
  obtain ⟨os, hos⟩ := forall₂_exists
    (SourceOf rows none (shownAs h (col p).1 (inH.getD (Handler.run hd ops).inH) (col p).2))
    (selection (Handler.run hd ops) useAll) (by
      intro k hk
      obtain ⟨r, hr⟩ := LC.selection_row hs.ra ops (fun op ho => hops op ho "ra" (by simp)) useAll k hk
      obtain ⟨out, -, -, h4⟩ := hs.column p (by simp) ops (fun op ho => hops op ho p (by simp)) useAll none
      obtain ⟨j, hj⟩ := List.getElem?_of_mem hk
      obtain ⟨x, hx', -⟩ := h4 j k hj
      refine ⟨⟨r.ra, r.dec, r.redshift,
        (Handler.Spec.seen h (col p).1 (inH.getD (Handler.run hd ops).inH) (some x)).getD 0⟩, r, hr, rfl, rfl, rfl, ?_⟩
      unfold shownAs
      rw [List.getElem?_map, hx']
      simp only [Option.map_some, Handler.Spec.seen]
      split <;> rfl)
  have hlist : ((selection (Handler.run hd ops) useAll).map (entry rows
      (columnsOf h [p] col (inH.getD (Handler.run hd ops).inH)))) =
      os.map (fun o => ([o.x, o.y, o.z], [some o.v])) := by
    refine forall₂_map_eq _ _ _ ?_ _ _ hos
    rintro k o ⟨r, hr, e1, e2, e3, e4⟩
    simp only [entry, hr, Option.elim_some, columnsOf, List.map_cons, List.map_nil, e4, Option.join_some, e1, e2, e3]
    rfl
  have hcat' : HGrid.Spec.Catalogue (Handler.run hd ops) useAll inH ["ra", "dec", "redshift"] [p]
      (os.map (fun o => ([o.x, o.y, o.z], [some o.v]))) := by
    rw [← hlist]
    exact hcat
  have hmem : ∀ o ∈ os, ∃ r ∈ rows, o.z = r.redshift := by
    intro o ho
    obtain ⟨j, hj⟩ := List.getElem?_of_mem ho
    obtain ⟨k, -, r, hr, -, -, e3, -⟩ := forall₂_right hos j o hj
    exact ⟨r, List.mem_of_getElem? hr, e3⟩
  obtain ⟨g, sky, nx, ny, nz, g1, g2, g3, g4, g5, g6, g7, g8, g9⟩ := sky_of (Handler.run hd ops) p useAll inH os hcat' (by
      rintro rfl
      exact hsel (List.forall₂_nil_right_iff.1 hos)) m line (by
      intro hl o ho
      obtain ⟨r, hr, hor⟩ := hmem o ho
      rw [hor]
      exact hz hl r hr) res ralim declim zlim norm a b c d e f wx wy wz h1 h2 h3 hp hx hy hw hxa hyc hze hres hlim
  refine ⟨g, sky, os.map (atLine line), nx, ny, nz, g1, g2, ?_, g3, g4, g5, g6, g7, g8, g9⟩
  rw [List.forall₂_map_right_iff]
  refine hos.imp ?_
  rintro k o ⟨r, hr, e1, e2, e3, e4⟩
  refine ⟨r, hr, e1, e2, ?_, e4⟩
  cases line with
  | none => exact e3
  | some f =>
    change f / (1 + o.z) = f / (1 + r.redshift)
    rw [e3]
    rfl

/-- **C127 (objects).** What a detector sees in a cell of a sky made of objects is what it receives of the objects. -/
theorem C127_seen (sky : Arr K) (objs : List (Source K)) (q : K) (R : K → K → K → K) (W : K → K) (N : ℕ → K)
    (nx ny nz m n : ℕ) (wx wy wz cx cy cz : K) (hx : 0 < wx) (hy : 0 < wy) (hz : 0 < wz)
    (hcells : ∀ i j k, i < nx → j < ny → k < nz → cell sky [i, j, k] 0 = q *
      ((objs.filter (fun o => InSpan nx wx cx o.x i ∧ InSpan ny wy cy o.y j ∧ InSpan nz wz cz o.z k)).map
        Source.v).sum) (i j : ℕ) :
    seen sky R W N nx ny nz m n wx wy wz cz i j = received objs q R W N nx ny nz m n wx wy wz cx cy cz i j := by
  unfold seen received Map.Spec.weightedMean Map.Spec.smeared
  congr 1
  rw [← smearedSum_all R W N nx ny nz m n wx wy wz cx cy cz i j hx hy hz, ← smearedSum_mul]
  unfold smearedSum
  congr 1
  refine List.map_congr_left (fun k hk => ?_)
  congr 1
  simp only
  congr 1
  refine List.map_congr_left (fun i' hi => ?_)
  congr 1
  refine List.map_congr_left (fun j' hj => ?_)
  rw [hcells i' j' k (List.mem_range.1 hi) (List.mem_range.1 hj) (List.mem_range.1 hk)]

/-- **C127 (units).** An instrument takes a sky without units, whatever its own units are. -/
theorem C127_added (s : State F D (Point K) (Grid K K) (Arr K) (Grid K K) K) (f : Name) (g : Grid K K) (a : Arr K)
    {nx ny nz : ℕ} {wx wy wz cx cy cz : K} (h : Sky g a nx ny nz wx wy wz cx cy cz)
    (hu : g.axunits = [none, none, none]) (hgu : g.gridunits = [none]) (hf : s.fields.has f = false)
    (hsp : ∀ r, s.bestSpatial = some r → wx ≤ r ∧ wy ≤ r) (hsc : ∀ r, s.bestSpectral = some r → wz ≤ r) :
    ∃ s', addField s { grid := asField g a, name := some f } = (s', .ok f) ∧
      s'.fields.get? f = some (asField g a) ∧ s'.detectors = s.detectors ∧ s'.detNames = s.detNames := by
  have hdim : (asField g a).ndim = 3 := h.dim
  have hact : (asField g a).active = true := by
    change g.grid.isSome = true
    rw [h.active]; rfl
  have hfou : (asField g a).fourier = false := by
    change g.fourier.any id = false
    rw [List.any_eq_false]
    intro x hx
    simp [h.real x hx]
  have hcomp : compatible s (asField g a) 0 = .ok () := by
    unfold compatible
    have e1 : (asField g a).axunits = [none, none, none] := hu
    have e2 : (asField g a).gridunits = [none] := hgu
    simp only [hact, hfou, hdim, e1, e2]
    simp [checkAxis, checkFlux]
  have hres : resolutionOk s (asField g a) = true := by
    have p0 : (asField g a).pixel[0]? = some wx := h.x.pix
    have p1 : (asField g a).pixel[1]? = some wy := h.y.pix
    have p2 : (asField g a).pixel[2]? = some wz := h.z.pix
    unfold resolutionOk
    rw [p0, p1, p2]
    rw [Bool.and_eq_true]
    constructor
    · rcases hb : s.bestSpatial with _ | r
      · rfl
      · have := hsp r hb
        simp [this.1, this.2]
    · rcases hb : s.bestSpectral with _ | r
      · rfl
      · have := hsc r hb
        simp [this]
  have hadd : addField s { grid := asField g a, name := some f } = ({ s with
      fields := s.fields.set f (asField g a)
      fieldProps := s.fieldProps.set f 0
      fieldNames := s.fieldNames ++ [f]
      fieldCounter := s.fieldCounter + 1
      consistent := s.consistent.set f false }, .ok f) := by
    unfold addField
    simp only [Option.getD_none, Option.getD_some, hdim, Int.toNat_zero, hcomp, hf, hres, storedField, if_true]
    rfl
  exact ⟨_, hadd, by simp [PyDict.get?_set], rfl, rfl⟩

variable [DecidableEq F] [DecidableEq D]

/-- What the detectors of an instrument with any history record of a sky made of objects, which it takes as a field. -/
theorem observed_of (g : Grid K (WithTop K)) (sky : Arr K) (objs : List (Source K)) (q : K) (nx ny nz : ℕ)
    (wx wy wz cx cy cz : K) (hx : 0 < wx) (hy : 0 < wy) (hw : 0 < wz)
    (g7 : Sky (plainGrid g) sky nx ny nz wx wy wz cx cy cz)
    (g8 : g.axunits = [none, none, none]) (g9 : g.gridunits = [none])
    (g10 : ∀ i j k, i < nx → j < ny → k < nz → cell sky [i, j, k] 0 = q *
      ((objs.filter (fun o => InSpan nx wx cx o.x i ∧ InSpan ny wy cy o.y j ∧ InSpan nz wz cz o.z k)).map
        Source.v).sum) :
    ∀ (lib : Lib F D T S K) (x : Setup F D K)
        (iops : List (Op F D (Point K) (Grid K K) (Arr K) (Grid K K) K (BeamNorm × PadArg)))
        (s : State F D (Point K) (Grid K K) (Arr K) (Grid K K) K) (f : Name) (m n : ℕ) (beam : BeamNorm) (pad : PadArg)
        (R : Name → K → K → K → K) (W : Name → K → K) (E : Name → List K) (sa : SampleArgs (Point K) T S),
        s = run (grids lib) (fresh x) iops → s.fields.has f = false →
        (∀ r, s.bestSpatial = some r → wx ≤ r ∧ wy ≤ r) → (∀ r, s.bestSpectral = some r → wz ≤ r) →
        Equipped lib s f nz m n wx wy wz cz beam pad R W E sa →
        (∀ u ∈ sa.positions, ∀ d det, s.detectors.get? d = some det → (u.isInt && det.pointing.isInt) = false) →
        ∃ s1 s2 cols, addField s { grid := asField (plainGrid g) sky, name := some f } = (s1, .ok f) ∧
          mapFields (grids lib) s1 [f] { kernel := some (.pair m n), opts := (beam, pad) } = (s2, .ok ()) ∧
          sampleFields (grids lib) s2 [f] sa = .ok [(f, cols)] ∧
          List.Forall₂ (RecordedOf s objs q nx ny nz m n wx wy wz cx cy cz
            beam R W E sa.positions) s.detNames cols := by
  intro lib x iops s f m n beam pad R W E sa hrun hf hsp hsc heq hfloat
  obtain ⟨s1, a1, a2, a3, a4⟩ := C127_added s f (plainGrid g) sky g7 g8 g9 hf hsp hsc
  have hobs : Observing lib s1 f (plainGrid g) sky nx ny nz m n wx wy wz cx cy cz beam
      pad R W E sa :=
    { sky := g7, field := a2, nonempty := by rw [a4]; exact heq.nonempty
      detects := by rw [a3, a4]; exact heq.detects
      kernelX := heq.kernelX, kernelY := heq.kernelY, known := heq.known
      beam := by rw [a4]; exact heq.beam
      padding := heq.padding
      weights := by rw [a4]; exact heq.weights
      shape := heq.shape, signal := heq.signal, time := heq.time
      noise := by
        rw [a4]
        intro d hd
        obtain ⟨n1, n2⟩ := heq.noise d hd
        refine ⟨?_, n2⟩
        unfold Noise at n1 ⊢
        rw [a3]
        exact n1 }
  have hs1 : s1 = run (grids lib) (fresh x)
      (iops ++ [.addField { grid := asField (plainGrid g) sky, name := some f }]) := by
    unfold run at hrun ⊢
    rw [List.foldl_append, ← hrun]
    simp only [List.foldl_cons, List.foldl_nil, step, a1]
  obtain ⟨s2, cols, b1, b2, b3⟩ := C125_observed_partial lib x _ s1 hs1 f (plainGrid g) sky nx ny nz m n wx wy wz _ _ _ beam
    pad R W E sa hobs (by rw [a3]; exact hfloat)
  refine ⟨s1, s2, cols, a1, b1, b2, ?_⟩
  rw [a4] at b3
  refine b3.imp ?_
  rintro dn cl ⟨det, N, c1, c2, c3, c4⟩
  rw [a3] at c1
  refine ⟨det, N, c1, c2, c3, ?_⟩
  intro t u er v t1 t2 t3
  have := c4 t u er v t1 t2 t3
  have hfun : seen sky (R dn) (W dn) N nx ny nz m n wx wy wz cz =
      received objs q (R dn) (W dn) N nx ny nz m n wx wy wz cx cy cz := by
    funext i j
    exact C127_seen sky objs _ (R dn) (W dn) N nx ny nz m n wx wy wz _ _ _ hx hy hw g10 i j
  rw [hfun] at this
  exact this

/-- **C127**, at positions that are not integers: the map of one property of a lightcone, after any calls of its
handler, is taken by an instrument with any history; what each detector then records is, at each position shifted by
its pointing offset, its noise plus what it receives of the selected objects of the lightcone. -/
theorem C127_observed_partial (hd : Handler.State K) (h : K) (rows : List (Row K)) (p : Handler.Name)
    (col : Handler.Name → ℤ × List K) (hs : Shows hd h rows [p] col) (ops : List (Handler.Op K))
    (hops : Untouched [p] ops) (useAll : Bool) (inH : Option Bool)
    (hsel : selection (Handler.run hd ops) useAll ≠ []) (meta' : LCH.Meta K) (line : Option K)
    (hz : line ≠ none → ∀ r ∈ rows, 1 + r.redshift ≠ 0)
    (res ralim declim zlim : Option (NArr K)) (norm : Option K) (a b c d e z wx wy wz : K)
    (h1 : Interval (raDefault meta') ralim a b) (h2 : Interval (decDefault meta') declim c d)
    (h3 : Interval (zDefault meta' line) zlim e z)
    (hp : pixels [b - a, d - c, z - e] res = [wx, wy, wz]) (hx : 0 < wx) (hy : 0 < wy) (hw : 0 < wz)
    (hxa : (1 + 1 / 20) * wx < b - a) (hyc : (1 + 1 / 20) * wy < d - c) (hze : (1 + 1 / 20) * wz < z - e)
    (hres : ∀ r, res = some r → r.isInt = false)
    (hlim : ∃ l ∈ [ralim, declim, zlim], ∀ r, l = some r → r.isInt = false) :
    ∃ (g : Grid K (WithTop K)) (sky : Arr K) (objs : List (Source K)) (nx ny nz : ℕ),
      lcGrid (Handler.run hd ops) meta' [p] line inH useAll res ralim declim zlim norm = some (.ok g) ∧
      List.Forall₂ (SourceOf rows line (shownAs h (col p).1 (inH.getD (Handler.run hd ops).inH) (col p).2))
        (selection (Handler.run hd ops) useAll) objs ∧
      (b - a - wx / 20 ≤ nx * wx ∧ nx * wx < b - a + 19 / 20 * wx) ∧
      (d - c - wy / 20 ≤ ny * wy ∧ ny * wy < d - c + 19 / 20 * wy) ∧
      (z - e - wz / 20 ≤ nz * wz ∧ nz * wz < z - e + 19 / 20 * wz) ∧
      (plainGrid g).grid = some sky ∧ NoNaN g 1 ∧
      ∀ (lib : Lib F D T S K) (x : Setup F D K)
        (iops : List (Op F D (Point K) (Grid K K) (Arr K) (Grid K K) K (BeamNorm × PadArg)))
        (s : State F D (Point K) (Grid K K) (Arr K) (Grid K K) K) (f : Name) (m n : ℕ) (beam : BeamNorm) (pad : PadArg)
        (R : Name → K → K → K → K) (W : Name → K → K) (E : Name → List K) (sa : SampleArgs (Point K) T S),
        s = run (grids lib) (fresh x) iops → s.fields.has f = false →
        (∀ r, s.bestSpatial = some r → wx ≤ r ∧ wy ≤ r) → (∀ r, s.bestSpectral = some r → wz ≤ r) →
        Equipped lib s f nz m n wx wy wz ((e + z) / 2) beam pad R W E sa →
        (∀ q ∈ sa.positions, ∀ d det, s.detectors.get? d = some det → (q.isInt && det.pointing.isInt) = false) →
        ∃ s1 s2 cols, addField s { grid := asField (plainGrid g) sky, name := some f } = (s1, .ok f) ∧
          mapFields (grids lib) s1 [f] { kernel := some (.pair m n), opts := (beam, pad) } = (s2, .ok ()) ∧
          sampleFields (grids lib) s2 [f] sa = .ok [(f, cols)] ∧
          List.Forall₂ (RecordedOf s objs (norm.getD 1) nx ny nz m n wx wy wz ((a + b) / 2) ((c + d) / 2) ((e + z) / 2)
            beam R W E sa.positions) s.detNames cols := by
  obtain ⟨g, sky, objs, nx, ny, nz, g1, g2, g3, g4, g5, g6, g7, g8, g9, g10⟩ := C127_sky hd h rows p col hs ops hops
    useAll inH hsel meta' line hz res ralim declim zlim norm a b c d e z wx wy wz h1 h2 h3 hp hx hy hw hxa hyc hze hres
    hlim
  refine ⟨g, sky, objs, nx, ny, nz, g1, g3, g4, g5, g6, g7.active, g2, ?_⟩
  exact observed_of g sky objs (norm.getD 1) nx ny nz wx wy wz _ _ _ hx hy hw g7 g8 g9 g10

/-- C127 as stated has this too: an instrument that measures angles in another unit does not take the map of a
lightcone, whose angles are in radians. -/
def C127_full : Prop :=
  ∀ (hd : Handler.State ℚ) (h : ℚ) (rows : List (Row ℚ)) (p : Handler.Name) (col : Handler.Name → ℤ × List ℚ),
    Shows hd h rows [p] col → ∀ (meta' : LCH.Meta ℚ) (g : Grid ℚ (WithTop ℚ)) (sky : Arr ℚ),
    lcGrid hd meta' [p] = some (.ok g) → (plainGrid g).grid = some sky → NoNaN g 1 →
    ∀ (lib : Lib Unit Unit Unit Unit ℚ) (x : Setup Unit Unit ℚ)
      (iops : List (Op Unit Unit (Point ℚ) (Grid ℚ ℚ) (Arr ℚ) (Grid ℚ ℚ) ℚ (BeamNorm × PadArg)))
      (f : Name) (s1 : State Unit Unit (Point ℚ) (Grid ℚ ℚ) (Arr ℚ) (Grid ℚ ℚ) ℚ),
      addField (run (grids lib) (fresh x) iops) { grid := asField (plainGrid g) sky, name := some f } = (s1, .ok f) →
      x.spatialUnit = none ∨ x.spatialUnit = some "rad"

end Verif.Inst
