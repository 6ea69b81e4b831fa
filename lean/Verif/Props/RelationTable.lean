import Verif.Props.Relation
import Verif.Props.LumFun
import Verif.Props.Schechter

/-!
# Properties of the saved tables and of the interpolated relations
-/

set_option linter.unusedSectionVars false

namespace Verif.Rel

open Verif.AM Spec
open Verif.Sim (Err)
open Verif.Gal (Fn)

variable {K : Type} [Field K] [LinearOrder K] [IsStrictOrderedRing K]

/-! ## What is written -/

theorem getSnap_self (sim : List (Snap K)) (hnd : (sim.map Snap.index).Nodup) (s : Snap K) (hs : s ∈ sim) :
    getSnap sim s.index = .ok s := by
  unfold getSnap
  rcases hf : sim.find? (fun t => t.index == s.index) with _ | t
  · have := List.find?_eq_none.1 hf s hs
    simp at this
  · have h1 := List.find?_some hf
    have h2 := List.mem_of_find?_eq_some hf
    have : t = s := List.inj_on_of_nodup_map hnd h2 hs (by simpa using h1)
    rw [hf, this]

theorem make_ok (fn : Fn K) (sim : List (Snap K)) (hnd : (sim.map Snap.index).Nodup)
    (law : K → Except Err (Law K)) (r : Request K) (ws : List (Write K)) (h : make fn sim law r = .ok ws) :
    ∃ u rows, chooseProp sim r.haloprop = .ok u ∧
      ws = [.axis (gridOf fn u r.massmin), .redshifts (sim.map Snap.redshift), .table rows] ∧
      rows.length = sim.length ∧
      ∀ (k : ℕ) (s : Snap K), sim[k]? = some s → ∃ l row', law s.redshift = .ok l ∧
        row l s u r.massmin (gridOf fn u r.massmin) = .ok row' ∧ rows[k]? = some row' := by
  unfold make at h
  rcases hu : chooseProp sim r.haloprop with e | u
  · rw [hu] at h; cases h
  · rw [hu] at h
    simp only at h
    split at h
    · cases h
    · rename_i rows hrows
      simp only [Except.ok.injEq] at h
      obtain ⟨h1, h2⟩ := (mapE_ok_iff _ _ _).1 hrows
      refine ⟨u, rows, rfl, h.symm, h1, ?_⟩
      intro k s hk
      obtain ⟨y, hy, hfy⟩ := h2 k s hk
      rw [getSnap_self sim hnd s (List.mem_of_getElem? hk)] at hfy
      simp only at hfy
      rcases hl : law s.redshift with e | l
      · rw [hl] at hfy; cases hfy
      · rw [hl] at hfy
        exact ⟨l, y, rfl, hfy, hy⟩

/-- The three files together. -/
theorem apply_all (d : Disk K) (x z : List K) (t : List (List (Option K))) :
    [Write.axis x, .redshifts z, .table t].foldl Write.apply d = ⟨some x, some z, some t⟩ := rfl

/-- The table is made anew. -/
def Fresh (r : Request K) (d : Disk K) : Prop := r.remake = true ∨ (r.comp = true ∧ d.table = none)

theorem fresh_iff (r : Request K) (d : Disk K) :
    (r.remake || (r.comp && d.table.isNone)) = true ↔ Fresh r d := by
  unfold Fresh
  rw [Bool.or_eq_true, Bool.and_eq_true, Option.isNone_iff_eq_none]

theorem construct_fresh (fn : Fn K) (sim : List (Snap K)) (law : K → Except Err (Law K)) (r : Request K)
    (d d' : Disk K) (o : Option (Interp K)) (hf : Fresh r d)
    (h : construct fn sim law r d = (d', .ok o)) :
    ∃ ws, make fn sim law r = .ok ws ∧ d' = ws.foldl Write.apply d ∧ load d' = .ok o := by
  unfold construct at h
  rw [if_pos ((fresh_iff r d).2 hf)] at h
  rcases hm : make fn sim law r with e | ws
  · rw [hm] at h; cases h
  · rw [hm] at h
    simp only [Prod.mk.injEq] at h
    exact ⟨ws, rfl, h.1.symm, by rw [← h.1]; exact h.2⟩

theorem load_some (d : Disk K) (p : Interp K) (h : load d = .ok (some p)) :
    ∃ x z t, d = ⟨some x, some z, some t⟩ ∧ interpolator x z t = .ok p := by
  obtain ⟨ax, rz, tb⟩ := d
  unfold load at h
  rcases tb with _ | t
  · cases h
  · simp only at h
    rcases ax with _ | x
    · cases h
    · rcases rz with _ | z
      · cases h
      · simp only at h
        rcases hi : interpolator x z t with e | i
        · rw [hi] at h; cases h
        · rw [hi] at h
          simp only [Except.ok.injEq, Option.some.injEq] at h
          exact ⟨x, z, t, rfl, by rw [hi, h]⟩

/-- What the interpolator of a new table holds. -/
theorem fresh_table (fn : Fn K) (sim : List (Snap K)) (hnd : (sim.map Snap.index).Nodup)
    (law : K → Except Err (Law K)) (r : Request K) (d d' : Disk K) (p : Interp K) (hf : Fresh r d)
    (h : construct fn sim law r d = (d', .ok (some p))) :
    ∃ u, chooseProp sim r.haloprop = .ok u ∧ p.axis = gridOf fn u r.massmin ∧
      ascending p.axis = true ∧ ascending p.redshifts = true ∧ p.redshifts.length = sim.length ∧
      ∀ (k : ℕ) (s : Snap K), sim[k]? = some s → ∃ (l : Law K) (row' : List (Option K)) (k' : ℕ),
        law s.redshift = .ok l ∧ row l s u r.massmin (gridOf fn u r.massmin) = .ok row' ∧ p.redshifts[k']? = some s.redshift ∧
        p.table[k']? = some row' := by
  obtain ⟨ws, hm, hd, hload⟩ := construct_fresh fn sim law r d d' _ hf h
  obtain ⟨u, rows, hu, hws, hlen, hrows⟩ := make_ok fn sim hnd law r ws hm
  subst hws
  rw [apply_all] at hd
  subst hd
  obtain ⟨x, z, t, e, hi⟩ := load_some _ _ hload
  simp only [Disk.mk.injEq, Option.some.injEq] at e
  obtain ⟨rfl, rfl, rfl⟩ := e
  obtain ⟨i1, i2, i3, i4, i5, i6, i7⟩ := interpolator_ok _ _ _ _ hi
  refine ⟨u, hu, i1, by rw [i1]; exact i2, i3, by rw [i4, List.length_map], ?_⟩
  intro k s hk
  obtain ⟨l, row', h1, h2, h3⟩ := hrows k s hk
  obtain ⟨k', h4, h5⟩ := i7 k s.redshift row' (by rw [List.getElem?_map, hk]; rfl) h3
  exact ⟨l, row', k', h1, h2, h4, h5⟩

/-- **The relation falls.** The heaviest halo of a snapshot gets less than a lighter one: less than what the
last value of the axis below it gets. -/
theorem C94_heaviest_loses (fn : Fn K) (sim : List (Snap K)) (hnd : (sim.map Snap.index).Nodup)
    (h2 : 2 ≤ sim.length) (law : K → Except Err (Law K)) (r : Request K) (d d' : Disk K) (p : Interp K)
    (hf : Fresh r d) (h : construct fn sim law r d = (d', .ok (some p)))
    (s : Snap K) (hs : s ∈ sim) (he : 0 < s.edge) (l : Law K) (hlaw : law s.redshift = .ok l) (hl : Fair l)
    (u : Bool) (hu : chooseProp sim r.haloprop = .ok u) (cat : List K)
    (hsel : selected s u r.massmin = .ok cat) (M : K) (hM : M ∈ cat) (hmax : ∀ a ∈ cat, a ≤ M)
    (j : ℕ) (x y : K) (hj : (gridOf fn u r.massmin)[j]? = some x)
    (hj' : (gridOf fn u r.massmin)[j + 1]? = some y) (hxM : x < M) (hMy : M ≤ y)
    (a : K) (ha : a ∈ cat) (hax : a < x) (hfew : (cat.length : K) * above cat a < l.total * s.edge ^ 3)
    (v w : K) (hv : p.eval x s.redshift = some v) (hw : p.eval M s.redshift = some w) : w < v := by
  obtain ⟨u', hu', p1, p2, p3, p4, p5⟩ := fresh_table fn sim hnd law r d d' p hf h
  rw [hu] at hu'
  simp only [Except.ok.injEq] at hu'
  subst hu'
  obtain ⟨k, hk⟩ := List.getElem?_of_mem hs
  obtain ⟨l', row', k', q1, q2, q3, q4⟩ := p5 k s hk
  rw [hlaw] at q1
  simp only [Except.ok.injEq] at q1
  subst q1
  have hlen2 : 2 ≤ cat.length := by
    rcases cat with _ | ⟨c0, _ | ⟨c1, cs⟩⟩
    · cases hM
    · simp only [List.mem_singleton] at hM ha
      rw [hM] at hxM; rw [ha] at hax
      exact absurd (hax.trans hxM) (lt_irrefl _)
    · simp
  have hxy : x < y := lt_of_lt_of_le hxM hMy
  -- entries
  obtain ⟨c, L, hc0, hc1, hL, hent, -, -⟩ := C94_abundance_partial l hl s he u r.massmin _ cat row' hsel q2 j x hj
    hlen2 a M ha hM hax.le hxM.le ⟨a, ha, hax⟩ ⟨M, hM, hxM⟩ hfew
  have hLpos : 0 < L := by
    obtain ⟨L', hL', e⟩ := hl.positive c hc0 hc1
    rw [hL] at e
    have : L = L' := by
      simp only [Option.some.injEq] at e
      exact WithTop.coe_inj.1 e
    rw [this]; exact hL'
  have hzero := C94_heaviest_zero l hl s he u r.massmin _ cat row' hsel q2 (j + 1) y hj' hlen2
    (fun b hb => (hmax b hb).trans hMy)
  have e0 : p.entry k' j = some L := by unfold Interp.entry; rw [q4]; simp only; rw [hent]; rfl
  have e1 : p.entry k' (j + 1) = some 0 := by unfold Interp.entry; rw [q4]; simp only; rw [hzero]; rfl
  have hz2 : 2 ≤ p.redshifts.length := by rw [p4]; exact h2
  have hj1 : p.axis[j]? = some x := by rw [p1]; exact hj
  have hj2 : p.axis[j + 1]? = some y := by rw [p1]; exact hj'
  -- the lighter halo
  have hcx := cell_mid p.axis p2 j x y x hj1 hj2 (le_refl _) hxy
  have hmx := eval_at p p3 hz2 k' _ q3 x v j _ hcx hv
  rw [sub_self, zero_div, e0, e1] at hmx
  have hvL : v = L := by
    have := mix_zero _ _ _ hmx
    simpa using this.symm
  rw [hvL]
  -- the heaviest halo
  rcases lt_or_eq_of_le hMy with hlt | heq
  · have hcM := cell_mid p.axis p2 j x y M hj1 hj2 hxM.le hlt
    have hmM := eval_at p p3 hz2 k' _ q3 M w j _ hcM hw
    rw [e0, e1] at hmM
    unfold mix at hmM
    simp only [Option.some.injEq] at hmM
    have ht : 0 < (M - x) / (y - x) := div_pos (by linarith) (by linarith)
    rw [← hmM]
    nlinarith
  · subst heq
    by_cases hlast : j + 2 < p.axis.length
    · have hj3 := List.getElem?_eq_getElem hlast
      have hlt : M < p.axis[j + 2] := by
        have hp := ascending_pairwise p.axis p2
        have hj1' : j + 1 < p.axis.length := by omega
        have := List.pairwise_iff_getElem.1 hp (j + 1) (j + 2) hj1' hlast (by omega)
        have e : p.axis[j + 1] = M := by
          rw [List.getElem?_eq_getElem hj1'] at hj2
          exact Option.some.inj hj2
        rw [e] at this
        exact this
      have hcM := cell_mid p.axis p2 (j + 1) M _ M hj2 hj3 (le_refl _) hlt
      have hmM := eval_at p p3 hz2 k' _ q3 M w (j + 1) _ hcM hw
      rw [sub_self, zero_div] at hmM
      have := mix_zero _ _ _ hmM
      rw [e1] at this
      simp only [Option.some.injEq] at this
      rw [← this]; exact hLpos
    · obtain ⟨hb, _⟩ := List.getElem?_eq_some_iff.1 hj2
      have hcM := cell_last p.axis p2 j x M hj1 hj2 (by omega)
      have hmM := eval_at p p3 hz2 k' _ q3 M w j _ hcM hw
      have := mix_one _ _ _ hmM
      rw [e1] at this
      simp only [Option.some.injEq] at this
      rw [← this]; exact hLpos

/-! ## The table can be made -/

theorem pairwise_ascending (zs : List K) (h : zs.Pairwise (· < ·)) : ascending zs = true := by
  induction zs with
  | nil => rfl
  | cons a rest ih =>
    rcases rest with _ | ⟨b, rest⟩
    · rfl
    · unfold ascending
      rw [Bool.and_eq_true, decide_eq_true_iff]
      obtain ⟨h1, h2⟩ := List.pairwise_cons.1 h
      exact ⟨h1 b (by simp), ih h2⟩

theorem grid_ascending (fn : Fn K) (u : Bool) (hf : u = true ∨ LF.Spec.Logs fn) (mm : K) :
    ascending (gridOf fn u mm) = true := by
  apply pairwise_ascending
  unfold gridOf
  cases u
  · rw [if_neg (by simp), List.pairwise_map]
    rcases hf with hf | hf
    · cases hf
    · exact (linspace_strict _ _ _ (by linarith)).imp (fun h => hf.strict _ _ h)
  · rw [if_pos rfl]
    exact linspace_strict _ _ _ (by norm_num)

/-- A simulation for which the relation can be made. -/
structure Usable (sim : List (Snap K)) (law : K → Except Err (Law K)) (r : Request K) (u : Bool) : Prop where
  distinct : (sim.map Snap.index).Nodup
  prop : chooseProp sim r.haloprop = .ok u
  order : (sim.map Snap.redshift).Pairwise (· < ·) ∨ (sim.map Snap.redshift).reverse.Pairwise (· < ·)
  snaps : ∀ s ∈ sim, 0 < s.edge ∧ (∃ l, law s.redshift = .ok l ∧ Fair l) ∧
    ∃ cat, selected s u r.massmin = .ok cat

/-- If every snapshot has the properties needed, the table is made and loaded. -/
theorem C94_made (fn : Fn K) (sim : List (Snap K)) (law : K → Except Err (Law K)) (r : Request K) (u : Bool)
    (hfn : u = true ∨ LF.Spec.Logs fn) (d : Disk K) (hu : Usable sim law r u) (hf : Fresh r d) :
    ∃ d' p, construct fn sim law r d = (d', .ok (some p)) := by
  have hmake : ∃ rows, make fn sim law r = .ok [.axis (gridOf fn u r.massmin),
      .redshifts (sim.map Snap.redshift), .table rows] := by
    unfold make
    rw [hu.prop]
    simp only
    split
    · rename_i e he
      exfalso
      obtain ⟨rows, hrows⟩ := mapE_total _ sim (fun s hs => by
        show ∃ y, (match getSnap sim s.index with
          | .error e => .error e
          | .ok s' =>
            match law s'.redshift with
            | .error e => .error e
            | .ok l => row l s' u r.massmin (gridOf fn u r.massmin)) = Except.ok y
        obtain ⟨h1, ⟨l, h2, h3⟩, cat, h4⟩ := hu.snaps s hs
        rw [getSnap_self sim hu.distinct s hs]
        simp only
        rw [h2]
        exact C94_accepted l h3 s h1 u r.massmin _ cat h4)
      cases he.symm.trans hrows
    · exact ⟨_, rfl⟩
  obtain ⟨rows, hmake⟩ := hmake
  obtain ⟨u', rows', hu', hw, hlen, hrow⟩ := make_ok fn sim hu.distinct law r _ hmake
  rw [hu.prop] at hu'
  simp only [Except.ok.injEq] at hu'
  subst hu'
  simp only [List.cons.injEq, Write.table.injEq, and_true, true_and] at hw
  subst hw
  have hshape : rows.length = (sim.map Snap.redshift).length ∧
      rows.all (fun q => decide (q.length = (gridOf fn u r.massmin).length)) = true := by
    refine ⟨by rw [hlen, List.length_map], ?_⟩
    rw [List.all_eq_true]
    intro q hq
    obtain ⟨k, hk⟩ := List.getElem?_of_mem hq
    obtain ⟨hk', _⟩ := List.getElem?_eq_some_iff.1 hk
    obtain ⟨l, row', -, h2, h3⟩ := hrow k _ (List.getElem?_eq_getElem (by omega))
    rw [hk] at h3
    simp only [Option.some.injEq] at h3
    subst h3
    simpa using row_length l _ u r.massmin _ _ h2
  have hint : ∃ p, interpolator (gridOf fn u r.massmin) (sim.map Snap.redshift) rows = .ok p := by
    unfold interpolator
    rw [if_pos hshape, if_pos (grid_ascending fn u hfn r.massmin)]
    by_cases ha : ascending (sim.map Snap.redshift) = true
    · rw [if_pos ha]; exact ⟨_, rfl⟩
    · rw [if_neg ha, if_pos]
      · exact ⟨_, rfl⟩
      · rcases hu.order with h | h
        · exact absurd (pairwise_ascending _ h) ha
        · exact pairwise_ascending _ h
  obtain ⟨p, hp⟩ := hint
  refine ⟨⟨some (gridOf fn u r.massmin), some (sim.map Snap.redshift), some rows⟩, p, ?_⟩
  unfold construct
  rw [if_pos ((fresh_iff r d).2 hf), hmake]
  simp only
  rw [apply_all]
  unfold load
  simp only
  rw [hp]

/-- Inside the axes the value of an interpolator whose table holds numbers is a number. -/
theorem eval_number (p : Interp K) (hx : ascending p.axis = true) (hz : ascending p.redshifts = true)
    (h2 : 2 ≤ p.redshifts.length)
    (hnum : ∀ i j, i < p.redshifts.length → j < p.axis.length → ∃ v, p.entry i j = some v)
    (j : ℕ) (a b x : K) (ha : p.axis[j]? = some a) (hb : p.axis[j + 1]? = some b) (h1 : a ≤ x) (h1' : x < b)
    (k : ℕ) (z : K) (hk : p.redshifts[k]? = some z) : ∃ v, p.eval x z = some v := by
  have hc := cell_mid p.axis hx j a b x ha hb h1 h1'
  obtain ⟨hb', _⟩ := List.getElem?_eq_some_iff.1 hb
  obtain ⟨hk', _⟩ := List.getElem?_eq_some_iff.1 hk
  have hall : ∀ i, i + 1 < p.redshifts.length → ∀ t s, ∃ v, mix t (mix s (p.entry i j) (p.entry i (j + 1)))
      (mix s (p.entry (i + 1) j) (p.entry (i + 1) (j + 1))) = some v := by
    intro i hi t s
    obtain ⟨v1, e1⟩ := hnum i j (by omega) (by omega)
    obtain ⟨v2, e2⟩ := hnum i (j + 1) (by omega) hb'
    obtain ⟨v3, e3⟩ := hnum (i + 1) j hi (by omega)
    obtain ⟨v4, e4⟩ := hnum (i + 1) (j + 1) hi hb'
    rw [e1, e2, e3, e4]
    exact ⟨_, rfl⟩
  unfold Interp.eval
  rw [hc]
  rcases cell_at p.redshifts hz h2 k z hk with ⟨e, hlt⟩ | ⟨i, rfl, e⟩
  · rw [e]; exact hall k hlt _ _
  · rw [e]; exact hall i hk' _ _

theorem interpolator_rows (x z : List K) (t : List (List (Option K))) (p : Interp K)
    (h : interpolator x z t = .ok p) : p.table.Perm t := by
  unfold interpolator at h
  split at h
  · split at h
    · split at h
      · simp only [Except.ok.injEq] at h; subst h; exact List.Perm.refl _
      · split at h
        · simp only [Except.ok.injEq] at h; subst h; exact List.reverse_perm t
        · cases h
    · cases h
  · cases h

theorem fresh_rows (fn : Fn K) (sim : List (Snap K)) (hnd : (sim.map Snap.index).Nodup)
    (law : K → Except Err (Law K)) (r : Request K) (d d' : Disk K) (p : Interp K) (hf : Fresh r d)
    (h : construct fn sim law r d = (d', .ok (some p))) (u : Bool) (hu : chooseProp sim r.haloprop = .ok u) :
    p.table.length = sim.length ∧ ∀ row' ∈ p.table, ∃ s ∈ sim, ∃ l, law s.redshift = .ok l ∧
      row l s u r.massmin (gridOf fn u r.massmin) = .ok row' := by
  obtain ⟨ws, hm, hd, hload⟩ := construct_fresh fn sim law r d d' _ hf h
  obtain ⟨u', rows, hu', hws, hlen, hrows⟩ := make_ok fn sim hnd law r ws hm
  rw [hu] at hu'
  simp only [Except.ok.injEq] at hu'
  subst hu'
  subst hws
  rw [apply_all] at hd
  subst hd
  obtain ⟨x, z, t, e, hi⟩ := load_some _ _ hload
  simp only [Disk.mk.injEq, Option.some.injEq] at e
  obtain ⟨rfl, rfl, rfl⟩ := e
  have hperm := interpolator_rows _ _ _ _ hi
  refine ⟨by rw [hperm.length_eq, hlen], ?_⟩
  intro row' hrow
  obtain ⟨k, hk⟩ := List.getElem?_of_mem (hperm.mem_iff.1 hrow)
  obtain ⟨hk', _⟩ := List.getElem?_eq_some_iff.1 hk
  have hs := List.getElem?_eq_getElem (l := sim) (i := k) (by omega)
  obtain ⟨l, row'', h1, h2, h3⟩ := hrows k _ hs
  rw [hk] at h3
  simp only [Option.some.injEq] at h3
  subst h3
  exact ⟨_, List.getElem_mem _, l, h1, h2⟩

/-- If no snapshot has more halos than galaxies, every value of the table is a number. -/
theorem C94_table_numbers (fn : Fn K) (sim : List (Snap K)) (hnd : (sim.map Snap.index).Nodup)
    (law : K → Except Err (Law K)) (r : Request K) (d d' : Disk K) (p : Interp K) (hf : Fresh r d)
    (h : construct fn sim law r d = (d', .ok (some p))) (u : Bool) (hu : chooseProp sim r.haloprop = .ok u)
    (hgood : ∀ s ∈ sim, 0 < s.edge ∧ ∀ l, law s.redshift = .ok l → Fair l ∧
      ∀ cat, selected s u r.massmin = .ok cat → cat ≠ [] ∧ (cat.length : K) ≤ l.total * s.edge ^ 3)
    (i j : ℕ) (hi : i < sim.length) (hj : j < p.axis.length) : ∃ v, p.entry i j = some v := by
  obtain ⟨hlen, hrows⟩ := fresh_rows fn sim hnd law r d d' p hf h u hu
  obtain ⟨u', hu', p1, -⟩ := fresh_table fn sim hnd law r d d' p hf h
  rw [hu] at hu'
  simp only [Except.ok.injEq] at hu'
  subst hu'
  have hi' : i < p.table.length := by omega
  obtain ⟨s, hs, l, hl, hrow⟩ := hrows _ (List.getElem_mem hi')
  obtain ⟨he, hall⟩ := hgood s hs
  obtain ⟨hfair, hcat⟩ := hall l hl
  obtain ⟨cat, hsel⟩ : ∃ cat, selected s u r.massmin = .ok cat := by
    rcases hsel : selected s u r.massmin with e | cat
    · unfold row at hrow; rw [hsel] at hrow; cases hrow
    · exact ⟨cat, rfl⟩
  obtain ⟨h1, h2⟩ := hcat cat hsel
  rw [p1] at hj
  obtain ⟨v, hv⟩ := C94_numbers l hfair s he u r.massmin _ cat _ hsel hrow j _ (List.getElem?_eq_getElem hj) h1 h2
  refine ⟨v, ?_⟩
  unfold Interp.entry
  rw [List.getElem?_eq_getElem hi']
  simp only
  rw [hv]
  rfl

/-! ## The two luminosity functions -/

theorem tab_fair (fn : Fn K) (hf : LF.Spec.Logs fn) (d : LF.Tab K) (ha : d.accepted = true) (hx : 0 < d.xmin)
    (hp : LF.Spec.Positive d.shape d.xmin) : Fair (ofTab fn d) where
  zero := by
    show (d.cdf fn 0).getD 0 = 0
    rw [(LF.C91_cumulative fn hf d ha hx hp).below 0 hx.le]
    rfl
  top := rfl
  total := by
    have ht : (ofTab fn d).total = d.count fn d.xmin := by simp only [ofTab]
    rw [ht, (LF.C91_count fn hf d hx hp).2 d.xmin (le_refl _)]
    obtain ⟨N, hN⟩ : ∃ N : ℕ, N = 10001 := ⟨_, rfl⟩
    rw [← hN]
    have : 0 < LF.Spec.sumBelow fn d.shape d.xmin N := LF.sumBelow_lt fn hf _ _ hx hp (i := 0) (by omega)
    exact div_pos this (by norm_num)
  positive := by
    intro c h0 h1
    have e := LF.ppf_inside fn d ha c h0 h1
    have e0 : d.ppf fn 0 = some d.xmin := by
      unfold LF.Tab.ppf
      rw [if_neg (by simp [ha]), if_pos rfl]
    have hle := LF.C91_quantiles_increase fn hf d ha hx hp 0 c _ _ h0.le e0 e
    refine ⟨_, lt_of_lt_of_le hx hle, ?_⟩
    show (d.ppf fn c).map _ = _
    rw [e]
    rfl

/-- The infrared luminosity function of the repository is one of positive values with a positive number of
galaxies at every redshift above -1. -/
theorem C94_infrared_fair (fn : Fn K) (hf : LF.Spec.Logs fn) (lirmin z : K) (hm : 0 < lirmin) (hz : -1 < z) :
    Fair (infrared fn (evolve fn (defaultPars fn) z) lirmin) := by
  have h10 : (0 : K) < 10 := by norm_num
  have hl : 0 < lstarAt fn (defaultPars fn).lstar z := by
    have h0 : 0 < (defaultPars fn).lstar := hf.pow_pos _ _ h10
    unfold lstarAt
    split
    · exact mul_pos h0 (hf.pow_pos _ _ (by linarith))
    · exact mul_pos (mul_pos h0 (hf.pow_pos _ _ (by norm_num)))
        (hf.pow_pos _ _ (div_pos (by linarith) (by norm_num)))
  have hp : 0 < phistarAt fn (defaultPars fn).phistar z := by
    have h0 : 0 < (defaultPars fn).phistar := hf.pow_pos _ _ h10
    unfold phistarAt
    split
    · exact mul_pos h0 (hf.pow_pos _ _ (by linarith))
    · exact mul_pos (mul_pos h0 (hf.pow_pos _ _ (by norm_num)))
        (hf.pow_pos _ _ (div_pos (by linarith) (by norm_num)))
  refine tab_fair fn hf _ ?_ hm (LF.modified_positive fn hf _ _ _ _ _ hp hl hm)
  have hs : (0 : K) < 5 / 10 := by norm_num
  have hs' : ¬ ((5 : K) / 10 ≤ 0) := not_le.2 hs
  show decide (¬ (_ ≤ (0 : K) ∨ _ ≤ (0 : K) ∨ _ ≤ (0 : K))) = true
  rw [decide_eq_true_iff]
  push Not
  exact ⟨hl, hm, hs⟩

/-- So is every Schechter function with galaxies in it, as used for stellar masses. -/
theorem C94_schechter_fair (sp : LF.Special) (hs : LF.Spec.Lawful sp) (d : LF.Schechter)
    (h : LF.Spec.Inhabited d) : Fair (ofSchechter sp d) where
  zero := by
    show (match d.cdf sp [0] with | .ok [some c] => c | _ => 0) = 0
    rw [LF.C92_single sp hs d h 0]
    show LF.Spec.partBelow _ _ _ = 0
    unfold LF.Spec.partBelow
    rw [if_pos (LF.Inhabited.xmin h).le]
  top := rfl
  total := by
    show 0 < d.countNumber sp d.xmin
    rw [(LF.C92_count_partial sp hs d h d.xmin (le_refl _)).1]
    exact LF.total_pos d h
  positive := by
    intro c h0 h1
    refine ⟨LF.interpD (d.quantiles sp) c, ?_, ?_⟩
    · have q0 := LF.quantiles_get sp hs d h 0 (by omega)
      have hpos : 0 < LF.point d.xmin 0 := lt_of_lt_of_le (LF.Inhabited.xmin h) (LF.point_ge d h 0)
      have hzero : LF.Spec.partBelow (LF.Spec.schechter d.x0 d.parts) d.xmin (LF.point d.xmin 0) = 0 := by
        unfold LF.Spec.partBelow
        exact if_pos (LF.node_zero _ LF.realFn_logs d.xmin (LF.Inhabited.xmin h)).le
      have := LF.interpD_mono _ (LF.quantiles_incr sp hs d h) 0 c h0.le
      have e := LF.interpD_at _ (LF.quantiles_strict sp hs d h) 0 _ q0
      simp only [hzero] at e
      rw [e] at this
      exact lt_of_lt_of_le hpos this
    · show d.ppf sp c = _
      unfold LF.Schechter.ppf
      rw [if_neg (by simp [h.1, h0.le, h1.le]), if_neg h0.ne', if_neg h1.ne]

/-- The law used for infrared luminosities. -/
def g13Law (fn : Fn K) (lirmin : K) (z : K) : Except Err (Law K) :=
  .ok (infrared fn (evolve fn (defaultPars fn) z) lirmin)

theorem g13_eq (fn : Fn K) (sim : List (Snap K)) (r : Request K) (lirmin : K) (lf : Pars K) (d : Disk K) :
    g13 fn sim r lirmin lf d = match construct fn sim (g13Law fn lirmin) r d with
      | (d', .ok o) => (d', .ok (o, lf))
      | (d', .error e) => (d', .error e) := rfl

/-- The full property: in the relation between halos and infrared luminosities that was just made, heavier
halos never get less at the redshift of a snapshot. -/
def C94_full : Prop :=
  ∀ (sim : List (Snap ℝ)) (r : Request ℝ) (lirmin : ℝ) (lf : Pars ℝ) (d d' : Disk ℝ) (p : Interp ℝ)
    (q : Pars ℝ), Fresh r d → 0 < lirmin → (sim.map Snap.index).Nodup → 2 ≤ sim.length →
    (∀ s ∈ sim, 0 ≤ s.redshift ∧ 0 < s.edge) →
    g13 (Gal.realFn (fun _ => 0)) sim r lirmin lf d = (d', .ok (some p, q)) →
    ∀ s ∈ sim, Rising p.eval s.redshift

/-- Two snapshots with two halos each. -/
noncomputable def twoSnaps (E : ℝ) : List (Snap ℝ) :=
  [⟨1, 1, E, some [1, 1], some [1 / 2, 2]⟩, ⟨0, 0, E, some [1, 1], some [1 / 2, 2]⟩]

noncomputable def anew : Request ℝ := ⟨true, true, .vmax, 1⟩

theorem C94_full_false : ¬ C94_full := by
  intro H
  obtain ⟨fn, hfn⟩ : ∃ fn, fn = Gal.realFn (fun _ => 0) := ⟨_, rfl⟩
  have hlogs : LF.Spec.Logs fn := by rw [hfn]; exact LF.realFn_logs
  have f1 := C94_infrared_fair fn hlogs 1 1 one_pos (by norm_num)
  have f0 := C94_infrared_fair fn hlogs 1 0 one_pos (by norm_num)
  obtain ⟨l1, hl1⟩ : ∃ l, l = infrared fn (evolve fn (defaultPars fn) 1) 1 := ⟨_, rfl⟩
  obtain ⟨l0, hl0⟩ : ∃ l, l = infrared fn (evolve fn (defaultPars fn) 0) 1 := ⟨_, rfl⟩
  rw [← hl1] at f1
  rw [← hl0] at f0
  have t1 := f1.total
  have t0 := f0.total
  obtain ⟨E, hE⟩ : ∃ E, E = 2 / l1.total + 2 / l0.total + 1 := ⟨_, rfl⟩
  have hE1 : 1 ≤ E := by
    have := div_pos two_pos t1
    have := div_pos two_pos t0
    rw [hE]; linarith
  have hE3 : E ≤ E ^ 3 := le_self_pow₀ hE1 (by norm_num)
  have many1 : 2 < l1.total * E ^ 3 := by
    have h : l1.total * (2 / l1.total) = 2 := by field_simp
    have := div_pos two_pos t0
    have : 2 < l1.total * E := by rw [hE]; nlinarith
    nlinarith
  have many0 : 2 < l0.total * E ^ 3 := by
    have h : l0.total * (2 / l0.total) = 2 := by field_simp
    have := div_pos two_pos t1
    have : 2 < l0.total * E := by rw [hE]; nlinarith
    nlinarith
  have hnd : ((twoSnaps E).map Snap.index).Nodup := by simp [twoSnaps]
  have hsel : ∀ s ∈ twoSnaps E, selected s true 1 = .ok [1 / 2, 2] := by
    intro s hs
    simp only [twoSnaps, List.mem_cons, List.not_mem_nil, or_false] at hs
    rcases hs with rfl | rfl <;> simp [selected]
  have hus : Usable (twoSnaps E) (g13Law fn 1) anew true := by
    refine ⟨hnd, rfl, .inr (by simp [twoSnaps]), ?_⟩
    intro s hs
    refine ⟨?_, ?_, _, hsel s hs⟩ <;>
    simp only [twoSnaps, List.mem_cons, List.not_mem_nil, or_false] at hs
    · rcases hs with rfl | rfl <;> exact lt_of_lt_of_le one_pos hE1
    · rcases hs with rfl | rfl
      · exact ⟨l1, by rw [hl1]; rfl, f1⟩
      · exact ⟨l0, by rw [hl0]; rfl, f0⟩
  have hfresh : Fresh anew (Spec.nothing : Disk ℝ) := .inl rfl
  obtain ⟨d', p, hc⟩ := C94_made fn (twoSnaps E) (g13Law fn 1) anew true (.inl rfl) Spec.nothing hus hfresh
  have hg : g13 fn (twoSnaps E) anew 1 (defaultPars fn) Spec.nothing = (d', .ok (some p, defaultPars fn)) := by
    rw [g13_eq, hc]
  have hs0 : (⟨0, 0, E, some [1, 1], some [1 / 2, 2]⟩ : Snap ℝ) ∈ twoSnaps E := by simp [twoSnaps]
  have hrise := H (twoSnaps E) anew 1 (defaultPars fn) Spec.nothing d' p (defaultPars fn) hfresh one_pos hnd
    (by simp [twoSnaps]) (by
      intro s hs
      simp only [twoSnaps, List.mem_cons, List.not_mem_nil, or_false] at hs
      rcases hs with rfl | rfl
      · exact ⟨zero_le_one, lt_of_lt_of_le one_pos hE1⟩
      · exact ⟨le_refl _, lt_of_lt_of_le one_pos hE1⟩) (by rw [← hfn]; exact hg) _ hs0
  obtain ⟨u', hu', p1, p2, p3, p4, p5⟩ := fresh_table fn _ hnd _ _ _ _ p hfresh hc
  have hu'' : u' = true := by
    have : chooseProp (twoSnaps E) anew.haloprop = .ok true := rfl
    rw [this] at hu'
    simp only [Except.ok.injEq] at hu'
    exact hu'.symm
  subst hu''
  have hax : ∀ i : ℕ, i < 5000 → p.axis[i]? = some ((i : ℝ) * (5000 / 4999)) := by
    intro i hi
    rw [p1]
    unfold gridOf
    rw [if_pos rfl, linspace_get _ _ _ _ hi]
    congr 1
    push_cast
    ring
  have hnum := C94_table_numbers fn (twoSnaps E) hnd (g13Law fn 1) anew _ d' p hfresh hc true rfl (by
    intro s hs
    have hs' := hs
    simp only [twoSnaps, List.mem_cons, List.not_mem_nil, or_false] at hs
    refine ⟨?_, ?_⟩
    · rcases hs with rfl | rfl <;> exact lt_of_lt_of_le one_pos hE1
    · intro l hl
      rcases hs with rfl | rfl
      · have : l = l1 := by rw [hl1]; exact (Except.ok.inj hl).symm
        subst this
        refine ⟨f1, fun cat hcat => ?_⟩
        have e := (hsel _ hs').symm.trans hcat
        simp only [Except.ok.injEq] at e
        subst e
        exact ⟨by simp, by simpa using many1.le⟩
      · have : l = l0 := by rw [hl0]; exact (Except.ok.inj hl).symm
        subst this
        refine ⟨f0, fun cat hcat => ?_⟩
        have e := (hsel _ hs').symm.trans hcat
        simp only [Except.ok.injEq] at e
        subst e
        exact ⟨by simp, by simpa using many0.le⟩)
  obtain ⟨_, _, k, -, -, hk, -⟩ := p5 1 _ rfl
  have hz2 : 2 ≤ p.redshifts.length := by rw [p4]; simp [twoSnaps]
  have hnum' : ∀ i j, i < p.redshifts.length → j < p.axis.length → ∃ v, p.entry i j = some v := by
    intro i j hi hj
    exact hnum i j (by rw [← p4]; exact hi) hj
  have a1 := hax 1 (by norm_num)
  have a2 := hax 2 (by norm_num)
  obtain ⟨v, hv⟩ := eval_number p p2 p3 hz2 hnum' 1 _ _ _ a1 a2 (le_refl _) (by norm_num) k _ hk
  obtain ⟨w, hw⟩ := eval_number p p2 p3 hz2 hnum' 1 _ _ 2 a1 a2 (by norm_num) (by norm_num) k _ hk
  have hlt := C94_heaviest_loses fn (twoSnaps E) hnd (by simp [twoSnaps]) (g13Law fn 1) anew _ d' p hfresh hc
    _ hs0 (lt_of_lt_of_le one_pos hE1) l0 (by rw [hl0]; rfl) f0 true rfl [1 / 2, 2] (hsel _ hs0) 2 (by simp)
    (by intro a ha; simp only [List.mem_cons, List.not_mem_nil, or_false] at ha; rcases ha with rfl | rfl <;> norm_num)
    1 _ _ (by rw [← p1]; exact a1) (by rw [← p1]; exact a2) (by norm_num) (by norm_num) (1 / 2) (by simp)
    (by norm_num) (by
      have : above [1 / 2, 2] (1 / 2 : ℝ) = 1 := by
        unfold above
        norm_num
      rw [this]
      simpa using many0) v w hv hw
  exact absurd (hrise _ _ v w (by norm_num) hv hw) (not_le.2 hlt)

end Verif.Rel
