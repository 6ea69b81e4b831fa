import Verif.Lemmas.SnapMeta
import Verif.Props.SimLookup
import Mathlib.Tactic.Positivity
import Mathlib.Tactic.Ring

/-!
# C16 (snapshot intervals tile cosmic time) and C49 (metadata collection)
-/

namespace Verif.Sim
open Spec

variable {K : Type} [Field K] [LinearOrder K]

omit [Field K] in
theorem Spec.Tiles.isChain {l : List (SnapMeta K)} : ∀ {lo hi : K}, Tiles l lo hi →
    l.IsChain (fun a b => a.zmax = b.zmin) := by
  induction l with
  | nil => intro lo hi _; exact List.IsChain.nil
  | cons a rest ih =>
    intro lo hi h
    obtain ⟨h1, h2, h3⟩ := h
    cases rest with
    | nil => exact List.IsChain.singleton a
    | cons b rest => exact List.IsChain.cons_cons h3.1.symm (ih h3)

variable [IsStrictOrderedRing K]

/-! ## C16 -/

/-- C16.  For every list of snapshots in order of strictly decreasing redshift and every
cosmology with strictly decreasing age, the metadata table has the snapshots in their order;
every snapshot's own redshift is in its interval; the lower end (redshift, time,
distances) of each is the upper end of the next; the intervals are non-empty and tile the range from
redshift 0 to the redshift of the first; every redshift below that lies in exactly one interval;
times and distances are those of the interval ends. -/
theorem C16_tiling (c : Cosmo K) (hc : Physical c) (hd0 : c.dist 0 = 0) (ht0 : c.tdist 0 = 0)
    (h : K) (a : Snapshot K) (rest : List (Snapshot K)) (hpos : 0 < a.redshift)
    (hnn : ∀ s ∈ rest, 0 ≤ s.redshift)
    (hs : (a :: rest).Pairwise (fun a b => a.redshift > b.redshift)) :
    ∃ t, buildMeta c h (a :: rest) = .ok t ∧
      t.map (fun r => (r.index, r.redshift)) = (a :: rest).map (fun s => (s.index, s.redshift)) ∧
      (∀ r ∈ t, r.zmin ≤ r.redshift ∧ r.redshift ≤ r.zmax ∧
        r.tstart = c.age r.zmax ∧ r.tend = c.age r.zmin ∧
        r.dmin = c.dist r.zmin * h ∧ r.dmax = c.dist r.zmax * h ∧
        r.tdmin = c.tdist r.zmin * h ∧ r.tdmax = c.tdist r.zmax * h) ∧
      t.IsChain (fun r s => r.zmin = s.zmax ∧ r.tend = s.tstart ∧ r.dmin = s.dmax ∧
        r.tdmin = s.tdmax) ∧
      Tiles t.reverse 0 a.redshift ∧
      ∀ z, 0 ≤ z → z < a.redshift → ∃ r ∈ t, Covers r z ∧ ∀ r' ∈ t, Covers r' z → r' = r := by
  obtain ⟨l, t, e1, e2, e3, e4, e5⟩ := chainFrom_table c hc h hd0 ht0 rest a a.redshift hpos
    (le_of_lt hpos) (le_refl _) hnn hs
  refine ⟨t, ?_, e3, ?_, ?_, e4, ?_⟩
  · unfold buildMeta
    rw [chain_eq, e1]
    exact e2
  · intro r hr
    have := e5 r hr
    exact ⟨this.lo, this.hi, this.tstart, this.tend, this.dmin, this.dmax, this.tdmin, this.tdmax⟩
  · have h1 : t.IsChain (fun r s => s.zmax = r.zmin) := by
      have := e4.isChain
      rw [List.isChain_reverse] at this
      exact this
    have h2 : t.IsChain (fun r s => RowOK c h r ∧ RowOK c h s ∧ s.zmax = r.zmin) := by
      have key : ∀ t : List (SnapMeta K), (∀ r ∈ t, RowOK c h r) →
          t.IsChain (fun r s => s.zmax = r.zmin) →
          t.IsChain (fun r s => RowOK c h r ∧ RowOK c h s ∧ s.zmax = r.zmin) := by
        intro t ht hch
        induction hch with
        | nil => exact List.IsChain.nil
        | singleton x => exact List.IsChain.singleton x
        | cons_cons hab _ ih =>
          exact List.IsChain.cons_cons ⟨ht _ (by simp), ht _ (by simp), hab⟩
            (ih (fun r hr => ht r (List.mem_cons_of_mem _ hr)))
      exact key t e5 h1
    refine h2.imp ?_
    rintro r s ⟨hr, hs', hz⟩
    refine ⟨hz.symm, ?_, ?_, ?_⟩
    · rw [hr.tend, hs'.tstart, hz]
    · rw [hr.dmin, hs'.dmax, hz]
    · rw [hr.tdmin, hs'.tdmax, hz]
  · intro z hz0 hz1
    obtain ⟨i, r, f1, f2, -, f4⟩ := e4.count z hz0 hz1
    refine ⟨r, List.mem_reverse.1 (List.mem_of_getElem? f1), f2, ?_⟩
    intro r' hr' hcov
    obtain ⟨j, hj⟩ := List.getElem?_of_mem (List.mem_reverse.2 hr')
    have := f4 j r' hj hcov
    subst this
    rw [hj] at f1
    exact Option.some.inj f1

/-- C16 and C10 together: on a simulation whose metadata was built from its snapshots, looking up a
redshift below that of the first snapshot finds a snapshot whose interval contains it, and
that snapshot is one of those given. -/
theorem C16_lookup (c : Cosmo K) (hc : Physical c) (hd0 : c.dist 0 = 0) (ht0 : c.tdist 0 = 0)
    (h : K) (a : Snapshot K) (rest : List (Snapshot K)) (hpos : 0 < a.redshift)
    (hnn : ∀ s ∈ rest, 0 ≤ s.redshift)
    (hs : (a :: rest).Pairwise (fun a b => a.redshift > b.redshift)) (z : K) (hz0 : 0 ≤ z)
    (hz1 : z < a.redshift) :
    ∃ t, buildMeta c h (a :: rest) = .ok t ∧ ∃ r ∈ t, Covers r z ∧ zToSnap t z = .ok r.index ∧
      ∃ s ∈ a :: rest, s.index = r.index ∧ s.redshift = r.redshift := by
  obtain ⟨t, e1, e2, -, -, e5, -⟩ := C16_tiling c hc hd0 ht0 h a rest hpos hnn hs
  refine ⟨t, e1, ?_⟩
  have htab : Table t 0 a.redshift := by
    refine ⟨t.reverse, List.reverse_perm _, ?_, ?_, e5⟩
    · rw [List.pairwise_reverse]
      have h1 : (t.map (fun r => (r.index, r.redshift))).Pairwise (fun a b => a.2 > b.2) := by
        rw [e2, List.pairwise_map]; exact hs
      rw [List.pairwise_map] at h1
      exact h1
    · intro h0
      have : t = [] := by simpa using h0
      rw [this] at e2
      simp at e2
  obtain ⟨r, hr, h1, h2, -⟩ := (C10_lookup_partial t 0 a.redshift htab (le_refl _) z).1 ⟨hz0, hz1⟩
  refine ⟨r, hr, h1, h2, ?_⟩
  have hm : (r.index, r.redshift) ∈ t.map (fun r => (r.index, r.redshift)) :=
    List.mem_map.2 ⟨r, hr, rfl⟩
  rw [e2] at hm
  obtain ⟨s, hs1, hs2⟩ := List.mem_map.1 hm
  exact ⟨s, hs1, (Prod.ext_iff.1 hs2).1, (Prod.ext_iff.1 hs2).2⟩

omit [IsStrictOrderedRing K] in
/-- C16, other orders: a list in which some snapshot has a higher redshift than an earlier one is
rejected, so a table is never built from snapshots out of order. -/
theorem C16_misordered_rejected (c : Cosmo K) (h : K) (l : List (Snapshot K))
    (hn : ¬ l.Pairwise (fun a b => a.redshift ≥ b.redshift)) :
    ∃ e, buildMeta c h l = .error e := by
  cases l with
  | nil => exact absurd List.Pairwise.nil hn
  | cons a rest =>
    unfold buildMeta
    rw [chain_eq]
    cases hr : chainFrom c (setHigh c a.redshift (c.age a.redshift) a) rest with
    | error e => exact ⟨e, rfl⟩
    | ok l =>
      have := chainFrom_ok c rest _ _ hr
      rw [List.pairwise_cons] at this hn
      exact absurd this hn

/-- An example cosmology: age `1/(1+z)`. -/
def demoCosmo : Cosmo ℚ where
  age z := 1 / (1 + z)
  zAt t := 1 / t - 1
  dist z := z
  tdist z := z

theorem demoCosmo_physical : Physical demoCosmo := by
  refine ⟨?_, ?_, ?_⟩
  · intro a b ha hab
    simp only [demoCosmo]
    apply one_div_lt_one_div_of_lt <;> linarith
  · intro a b t ha hb h1 h2
    simp only [demoCosmo] at *
    have hpos : 0 < t := lt_of_lt_of_le (by positivity) h1
    have : 1 / (1 + a) ≤ 1 := by
      rw [div_le_one (by linarith)]; linarith
    have h3 : t ≤ 1 := le_trans h2 this
    have : 1 ≤ 1 / t := by rw [le_div_iff₀ hpos]; linarith
    linarith
  · intro a b t ha hb h1 h2
    simp only [demoCosmo] at *
    have hpos : 0 < t := lt_of_lt_of_le (by positivity) h1
    have : 1 + (1 / t - 1) = 1 / t := by ring
    rw [this, one_div_one_div]

/-- Non-vacuity: three snapshots at redshifts 3, 1, 0; the boundaries are the redshifts of the
mean ages. -/
example : (buildMeta demoCosmo (7/10)
    [{ index := 0, redshift := 3 }, { index := 1, redshift := 1 }, { index := 2, redshift := 0 }]).map
      (fun t => t.map (fun r => (r.index, r.zmin, r.zmax))) =
    .ok [(0, 5/3, 3), (1, 1/3, 5/3), (2, 0, 1/3)] := by decide +kernel

/-! ## C49 -/

/-- C49 at full strength for the Illustris server: whatever the order in which the server lists the
snapshots, the snapshots used are those requested, in increasing order of number, with
the redshift the server gave. -/
def C49_illustris_full : Prop :=
  ∀ (raw : List (ℕ × ℚ)) (snaps : List ℕ), (raw.map (·.1)).Nodup →
    ∃ l, illustrisClasses raw snaps = .ok l ∧
      l.Pairwise (fun a b => a.index < b.index) ∧
      ∀ n z, (∃ s ∈ l, s.index = n ∧ s.redshift = z) ↔ ((n, z) ∈ raw ∧ n ∈ snaps)

omit [Field K] [LinearOrder K] [IsStrictOrderedRing K] in
/-- C49, proved part (Illustris): it holds when the server lists the snapshots by increasing
number.  Missing: other orders (false, see below). -/
theorem C49_illustris_partial (raw : List (ℕ × K)) (snaps : List ℕ)
    (hs : raw.Pairwise (fun a b => a.1 < b.1)) :
    ∃ l, illustrisClasses raw snaps = .ok l ∧
      l.Pairwise (fun a b => a.index < b.index) ∧
      ∀ n z, (∃ s ∈ l, s.index = n ∧ s.redshift = z) ↔ ((n, z) ∈ raw ∧ n ∈ snaps) := by
  have hmono : ∀ i j, i < j → j < raw.length →
      (raw.map (·.1)).getD i 0 ≤ (raw.map (·.1)).getD j 0 := by
    intro i j hij hj
    have hi : i < raw.length := by omega
    have := List.pairwise_iff_getElem.1 hs i j hi hj hij
    simp only [List.getD_eq_getElem?_getD, List.getElem?_map, List.getElem?_eq_getElem hi,
      List.getElem?_eq_getElem hj, Option.map_some, Option.getD_some]
    exact le_of_lt this
  have hord : argsort (fun i => (raw.map (·.1)).getD i 0) (raw.map (·.1)).length =
      List.range raw.length := by
    rw [List.length_map]
    exact argsort_of_sorted _ _ hmono
  let classes := raw.map (fun p => ({ index := p.1, redshift := p.2 } : Snapshot K))
  have hlen : classes.length = raw.length := by simp [classes]
  have h1 : pick classes (List.range raw.length) = .ok classes := by
    have := pick_self classes (fun _ => true)
    rw [hlen] at this
    simpa [List.zipIdx_map_fst] using this
  have h2 : illustrisClasses raw snaps = .ok ((classes.zipIdx.filter (fun q =>
      decide ((raw.map (·.1)).getD q.2 0 ∈ snaps))).map (·.1)) := by
    unfold illustrisClasses
    simp only [hord]
    have h1' : pick (raw.map (fun p => ({ index := p.1, redshift := p.2 } : Snapshot K)))
        (List.range raw.length) = .ok classes := h1
    rw [h1']
    have := pick_self classes (fun i => decide ((raw.map (·.1)).getD i 0 ∈ snaps))
    rw [hlen] at this
    exact this
  refine ⟨_, h2, ?_, ?_⟩
  · have hsub : ((classes.zipIdx.filter (fun q =>
        decide ((raw.map (·.1)).getD q.2 0 ∈ snaps))).map (·.1)).Sublist classes := by
      have := (List.filter_sublist (p := fun q : Snapshot K × ℕ =>
        decide ((raw.map (·.1)).getD q.2 0 ∈ snaps)) (l := classes.zipIdx)).map (·.1)
      rwa [List.zipIdx_map_fst] at this
    refine List.Pairwise.sublist hsub ?_
    simp only [classes]
    rw [List.pairwise_map]
    exact hs
  · intro n z
    constructor
    · rintro ⟨s, hsm, rfl, rfl⟩
      obtain ⟨⟨s', i⟩, hq, rfl⟩ := List.mem_map.1 hsm
      rw [List.mem_filter] at hq
      have hi : classes[i]? = some s' := by
        have := List.mk_mem_zipIdx_iff_getElem?.1 hq.1
        simpa using this
      simp only [classes, List.getElem?_map, Option.map_eq_some_iff] at hi
      obtain ⟨p, hp, rfl⟩ := hi
      have h3 := hq.2
      simp only [List.getD_eq_getElem?_getD, List.getElem?_map, hp, Option.map_some,
        Option.getD_some, decide_eq_true_eq] at h3
      exact ⟨List.mem_of_getElem? hp, h3⟩
    · rintro ⟨hm, hn⟩
      obtain ⟨i, hi⟩ := List.getElem?_of_mem hm
      refine ⟨{ index := n, redshift := z }, ?_, rfl, rfl⟩
      refine List.mem_map.2 ⟨({ index := n, redshift := z }, i), ?_, rfl⟩
      rw [List.mem_filter]
      refine ⟨List.mk_mem_zipIdx_iff_getElem?.2 (by simp [classes, hi]), ?_⟩
      simp only [List.getD_eq_getElem?_getD, List.getElem?_map, hi, Option.map_some,
        Option.getD_some, decide_eq_true_eq]
      exact hn

/-- C49 is false for the Illustris server: the list of snapshots is put in order twice.  With
the snapshots listed as 1, 2, 0 and snapshot 0 requested, the metadata describe snapshot 2. -/
theorem C49_illustris_full_false : ¬ C49_illustris_full := by
  intro h
  obtain ⟨l, e1, -, e3⟩ := h [(1, 1), (2, 0), (0, 3)] [0] (by decide)
  have hl : illustrisClasses [(1, 1), (2, 0), (0, (3 : ℚ))] [0] =
      .ok [{ index := 2, redshift := 0 }] := by decide +kernel
  rw [hl] at e1
  simp only [Except.ok.injEq] at e1
  subst e1
  have := (e3 2 0).1 ⟨_, List.mem_singleton.2 rfl, rfl, rfl⟩
  simp at this

/-- The wrong snapshot ends up in the metadata table, without any error. -/
example : (illustrisMeta demoCosmo (7/10) [(2, 0), (0, 3), (1, 1)] [0]).map
    (fun t => t.map (fun r => r.index)) = .ok [1] := by decide +kernel

/-- C49 at full strength for UniverseMachine: each snapshot of the metadata has the redshift of
the raw file that is read for its number, whatever the order of the list of files. -/
def C49_universemachine_full : Prop :=
  ∀ (files : List ℚ) (snaps : List ℕ), files.Nodup → (∀ a ∈ files, 0 < a ∧ a ≤ 1) →
    ∀ s ∈ umClasses files snaps, ∃ a, umFile files s.index = some a ∧ s.redshift = 1 / a - 1

omit [IsStrictOrderedRing K] in
/-- The entries of the list of snapshots built for UniverseMachine. -/
theorem umClasses_mem (files : List K) (snaps : List ℕ) (s : Snapshot K) :
    s ∈ umClasses files snaps ↔ s.index < files.length ∧ s.index ∈ snaps ∧
      s = { index := s.index,
            redshift := ((argsort (fun i => files.getD i 0) files.length).map
              (fun i => 1 / files.getD i 0 - 1)).getD s.index 0 } := by
  unfold umClasses
  simp only [List.mem_map, List.mem_filter]
  constructor
  · rintro ⟨⟨s', i⟩, ⟨hq, hi⟩, rfl⟩
    have hi' := List.mk_mem_zipIdx_iff_getElem?.1 hq
    rw [List.getElem?_map] at hi'
    by_cases hlt : i < files.length
    · rw [List.getElem?_range hlt] at hi'
      simp only [Option.map_some, Option.some.injEq] at hi'
      subst hi'
      exact ⟨hlt, by simpa using hi, rfl⟩
    · rw [List.getElem?_eq_none (by simpa using hlt)] at hi'
      cases hi'
  · rintro ⟨h1, h2, h3⟩
    refine ⟨(s, s.index), ⟨List.mk_mem_zipIdx_iff_getElem?.2 ?_, by simpa using h2⟩, rfl⟩
    rw [List.getElem?_map, List.getElem?_range h1]
    simp only [Option.map_some, Option.some.injEq]
    exact h3.symm

omit [IsStrictOrderedRing K] in
/-- C49, proved part (UniverseMachine), any order of files: the metadata list exactly the
requested snapshot numbers that exist, in increasing order. -/
theorem C49_universemachine_numbers (files : List K) (snaps : List ℕ) :
    (umClasses files snaps).Pairwise (fun a b => a.index < b.index) ∧
    ∀ n, (∃ s ∈ umClasses files snaps, s.index = n) ↔ (n < files.length ∧ n ∈ snaps) := by
  constructor
  · unfold umClasses
    dsimp only
    rw [List.pairwise_map]
    apply List.Pairwise.filter
    generalize (argsort (fun i => files.getD i 0) files.length).map
      (fun i => 1 / files.getD i 0 - 1) = rs
    rw [List.pairwise_iff_getElem]
    intro i j hi hj hij
    simpa using hij
  · intro n
    constructor
    · rintro ⟨s, hs, rfl⟩
      have := (umClasses_mem files snaps s).1 hs
      exact ⟨this.1, this.2.1⟩
    · rintro ⟨h1, h2⟩
      exact ⟨{ index := n,
               redshift := ((argsort (fun i => files.getD i 0) files.length).map
                 (fun i => 1 / files.getD i 0 - 1)).getD n 0 },
        (umClasses_mem files snaps _).2 ⟨h1, h2, rfl⟩, rfl⟩

omit [IsStrictOrderedRing K] in
/-- C49, proved part (UniverseMachine): every snapshot is paired with its own file when the files
are listed by increasing scale factor.  Missing: other orders (false, see below). -/
theorem C49_universemachine_partial (files : List K) (snaps : List ℕ)
    (hs : files.Pairwise (· < ·)) :
    ∀ s ∈ umClasses files snaps, ∃ a, umFile files s.index = some a ∧ s.redshift = 1 / a - 1 := by
  have hmono : ∀ i j, i < j → j < files.length → files.getD i 0 ≤ files.getD j 0 := by
    intro i j hij hj
    have hi : i < files.length := by omega
    have := List.pairwise_iff_getElem.1 hs i j hi hj hij
    simp only [List.getD_eq_getElem?_getD, List.getElem?_eq_getElem hi,
      List.getElem?_eq_getElem hj, Option.getD_some]
    exact le_of_lt this
  intro s hsm
  obtain ⟨h1, h2, h3⟩ := (umClasses_mem files snaps s).1 hsm
  rw [argsort_of_sorted _ _ hmono] at h3
  refine ⟨files[s.index], by simp [umFile, h1], ?_⟩
  have h4 := congrArg Snapshot.redshift h3
  simpa [List.getD_eq_getElem?_getD, List.getElem?_range h1, h1] using h4

/-- C49 is false for UniverseMachine: the redshifts are sorted, the files are not. -/
theorem C49_universemachine_full_false : ¬ C49_universemachine_full := by
  intro h
  have hl : umClasses [1, (1/2 : ℚ)] [0] = [{ index := 0, redshift := 1 }] := by decide +kernel
  obtain ⟨a, e1, e2⟩ := h [1, 1/2] [0] (by decide +kernel) (by decide +kernel)
    { index := 0, redshift := 1 } (by rw [hl]; simp)
  simp only [umFile, List.getElem?_cons_zero, Option.some.injEq] at e1
  subst e1
  norm_num at e2

/-- Non-vacuity: three files in order. -/
example : umClasses [1/4, 1/2, (1 : ℚ)] [0, 2] =
    [{ index := 0, redshift := 3 }, { index := 2, redshift := 0 }] := by decide +kernel

end Verif.Sim
