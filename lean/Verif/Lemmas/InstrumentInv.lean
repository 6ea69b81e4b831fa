import Verif.Lemmas.Instrument

/-!
# Invariants of instruments
-/

set_option linter.unusedSectionVars false

namespace Verif.Inst
open Spec
variable {F D O X G B H M P V T S Q K : Type}

theorem foldl_erase_get? {α : Type _} (ns : List Name) (d : PyDict Name α) (k : Name) :
    (ns.foldl (fun t x => PyDict.erase t x) d).get? k = if k ∈ ns then none else d.get? k := by
  induction ns generalizing d with
  | nil => simp
  | cons n ns ih =>
    rw [List.foldl_cons, ih, PyDict.get?_erase]
    by_cases h1 : k ∈ ns
    · simp [h1]
    · by_cases h2 : n = k
      · simp [h2]
      · have : ¬ k = n := fun e => h2 e.symm
        simp [h1, h2, this]

theorem foldl_erase_list (ns l : List Name) (hl : l.Nodup) :
    (ns.foldl (fun t x => List.erase t x) l).Nodup ∧
    ∀ k, k ∈ ns.foldl (fun t x => List.erase t x) l ↔ k ∈ l ∧ k ∉ ns := by
  induction ns generalizing l with
  | nil => simp [hl]
  | cons n ns ih =>
    obtain ⟨h1, h2⟩ := ih (l.erase n) (hl.erase n)
    refine ⟨h1, fun k => ?_⟩
    rw [List.foldl_cons, h2, hl.mem_erase_iff]
    simp only [List.mem_cons, not_or, ne_eq]
    tauto

/-- Removing detectors. -/
theorem delDetectors_cases (s : State F D O X G M K) (names : List Name) :
    ((delDetectors s names).1 = s ∧ ∃ e, (delDetectors s names).2 = .error e) ∨
    ((delDetectors s names).2 = .ok () ∧ (∀ n ∈ names, n ∈ s.detNames) ∧ names.Nodup ∧
      Frame { s with detNames := names.foldl (fun t x => List.erase t x) s.detNames }
        (delDetectors s names).1 ∧
      (delDetectors s names).1.detectors = names.foldl (fun t x => PyDict.erase t x) s.detectors ∧
      (names = [] → (delDetectors s names).1.consistent = s.consistent) ∧
      (names ≠ [] → ∀ x, (delDetectors s names).1.consistent.get? x =
        if x ∈ s.fieldNames then some false else s.consistent.get? x)) := by
  unfold delDetectors
  rcases hc : checkNames s.detNames names with e | u
  · left; exact ⟨rfl, e, rfl⟩
  · right
    obtain ⟨h1, h2⟩ := checkNames_ok hc
    refine ⟨rfl, h1, h2, ?_⟩
    simp only
    by_cases hn : names = []
    · subst hn
      refine ⟨⟨rfl, rfl, rfl, rfl, rfl, rfl, rfl, rfl⟩, rfl, fun _ => rfl, fun h => absurd rfl h⟩
    · rw [if_pos hn]
      refine ⟨⟨rfl, rfl, rfl, rfl, rfl, rfl, rfl, rfl⟩, rfl, fun h => absurd h hn, fun _ x => ?_⟩
      rw [markAll_get?]

/-- Adding a field. -/
theorem addField_cases [LinearOrder K] (s : State F D O X G M K) (a : FieldArgs X G K) :
    (∃ e, addField s a = (s, .error e)) ∨
    (∃ n g j, addField s a = ({ s with
        fields := s.fields.set n g, fieldProps := s.fieldProps.set n j,
        fieldNames := s.fieldNames ++ [n], fieldCounter := s.fieldCounter + 1,
        consistent := s.consistent.set n false }, .ok n) ∧
      n = a.name.getD (Nat.repr s.fieldCounter) ∧ s.fields.has n = false ∧
      0 ≤ a.idx.getD 0 ∧ a.idx.getD 0 ≤ (a.grid.ndim : ℤ) - 1 ∧
      (a.check = true → compatible s a.grid (a.idx.getD 0).toNat = .ok ()) ∧
      storedField a.grid (a.idx.getD 0) a.inPlace = .ok (g, j)) := by
  unfold addField
  simp only
  split
  · left; exact ⟨_, rfl⟩
  rename_i h1
  simp only [Bool.or_eq_true, decide_eq_true_eq, not_or, gt_iff_lt] at h1
  split
  · left; exact ⟨_, rfl⟩
  rename_i h2
  split
  · left; exact ⟨_, rfl⟩
  rename_i h3
  split
  · left; exact ⟨_, rfl⟩
  split
  · left; exact ⟨_, rfl⟩
  rename_i g j h4
  right
  refine ⟨_, g, j, rfl, rfl, by simpa using h3, by omega, by omega, fun hk => ?_, h4⟩
  rw [if_pos hk] at h2
  exact h2

theorem dropField_cons (s : State F D O X G M K) (f k : Name) :
    (dropField s f).consistent.get? k =
      if k = f ∧ s.maps.has f = true then none else s.consistent.get? k := by
  unfold dropField
  by_cases h : s.maps.has f = true
  · simp only [h, if_true, and_true, PyDict.get?_erase]
    by_cases h2 : f = k
    · simp [h2]
    · have : ¬ k = f := fun e => h2 e.symm
      simp [h2, this]
  · simp [h]

theorem dropField_maps (s : State F D O X G M K) (f k : Name) :
    (dropField s f).maps.get? k = if k = f then none else s.maps.get? k := by
  unfold dropField
  by_cases h : s.maps.has f = true
  · simp only [h, if_true, PyDict.get?_erase]
    by_cases h2 : f = k
    · simp [h2]
    · have : ¬ k = f := fun e => h2 e.symm
      simp [h2, this]
  · simp only [h, Bool.false_eq_true, if_false]
    by_cases h2 : k = f
    · subst h2
      simp only [if_true]
      unfold PyDict.has at h
      simpa using h
    · simp [h2]

theorem dropField_fields (s : State F D O X G M K) (f k : Name) :
    (dropField s f).fields.get? k = if k = f then none else s.fields.get? k := by
  have : (dropField s f).fields = s.fields.erase f := by
    unfold dropField; simp only; split <;> rfl
  rw [this, PyDict.get?_erase]
  by_cases h2 : f = k
  · simp [h2]
  · have : ¬ k = f := fun e => h2 e.symm
    simp [h2, this]

theorem dropField_rest (s : State F D O X G M K) (f : Name) :
    (dropField s f).detectors = s.detectors ∧ (dropField s f).detNames = s.detNames ∧
    (dropField s f).bestSpatial = s.bestSpatial ∧
    (dropField s f).detCounter = s.detCounter ∧
    (dropField s f).fieldCounter = s.fieldCounter ∧
    (dropField s f).fieldNames = s.fieldNames.erase f := by
  unfold dropField; simp only; split <;> exact ⟨rfl, rfl, rfl, rfl, rfl, rfl⟩

/-! ### What a map depends on -/

/-- The same detectors, in the same order, and the same resolution. -/
structure SameDets (s s' : State F D O X G M K) : Prop where
  detectors : s'.detectors = s.detectors
  detNames : s'.detNames = s.detNames
  bestSpatial : s'.bestSpatial = s.bestSpatial

theorem mapField_congr (ph : Phys F D O X G B H M P V T S Q K) {s s' : State F D O X G M K}
    (h : SameDets s s') (groups : List (List Name)) (a : MapArgs B Q) (g : Field X G K) :
    mapField ph s' groups a g = mapField ph s groups a g := by
  have hb : ∀ r, setupBeam ph s' g r a.kernel a.opts = setupBeam ph s g r a.kernel a.opts := by
    intro r; unfold setupBeam; rw [h.bestSpatial]
  have hg : ∀ gr, groupBeam ph s' g a gr = groupBeam ph s g a gr := by
    intro gr
    unfold groupBeam
    cases a.beam with
    | some b => rfl
    | none =>
      cases gr with
      | nil => rfl
      | cons d ds =>
        simp only [h.detectors]
        cases (s.detectors.get? d).bind (·.spatial) with
        | none => rfl
        | some r => exact hb r
  have hd : ∀ conv d, detectorMap ph s' g conv d = detectorMap ph s g conv d := by
    intro conv d; unfold detectorMap; rw [h.detectors]
  have hm : ∀ gr, groupMaps ph s' g a gr = groupMaps ph s g a gr := by
    intro gr; unfold groupMaps; rw [hg]
    cases groupBeam ph s g a gr with
    | error e => rfl
    | ok b =>
      simp only
      cases mapE (fun c => ph.conv g.axes c b a.opts) g.props with
      | error e => rfl
      | ok conv => simp only [hd]
  have : groupMaps ph s' g a = groupMaps ph s g a := funext hm
  unfold mapField
  rw [this, h.detNames]

theorem sameSpatial_congr [DecidableEq F] [DecidableEq D] {s s' : State F D O X G M K}
    (h : SameDets s s') : sameSpatial s' = sameSpatial s := by
  funext d d0
  unfold sameSpatial
  rw [h.detectors]

theorem beamGroups_congr [DecidableEq F] [DecidableEq D] {s s' : State F D O X G M K}
    (h : SameDets s s') (a : MapArgs B Q) : beamGroups s' a = beamGroups s a := by
  unfold beamGroups
  rw [h.detNames, sameSpatial_congr h]

/-- The checks on beam and kernel size at the start of `map_fields` are passed. -/
def ArgsOk (s : State F D O X G M K) (a : MapArgs B Q) : Prop :=
  (a.beam.isNone && a.kernel.isNone && s.bestSpatial.isNone) = false ∧
    (a.beam.isSome && a.kernel.isSome) = false

/-- Mapping field `f` now gives `m`. -/
def Cur [DecidableEq F] [DecidableEq D] (ph : Phys F D O X G B H M P V T S Q K)
    (s : State F D O X G M K) (a : MapArgs B Q) (f : Name) (m : MapData X M) : Prop :=
  ∃ g groups, s.fields.get? f = some g ∧ ArgsOk s a ∧ beamGroups s a = .ok groups ∧
    mapField ph s groups a g = .ok m

theorem Cur.congr [DecidableEq F] [DecidableEq D] {ph : Phys F D O X G B H M P V T S Q K}
    {s s' : State F D O X G M K} {a : MapArgs B Q} {f : Name} {m : MapData X M}
    (hc : Cur ph s a f m) (h : SameDets s s') (hf : s'.fields.get? f = s.fields.get? f) :
    Cur ph s' a f m := by
  obtain ⟨g, groups, h1, h2, h3, h4⟩ := hc
  refine ⟨g, groups, by rw [hf, h1], ?_, by rw [beamGroups_congr h, h3],
    by rw [mapField_congr ph h, h4]⟩
  unfold ArgsOk at h2 ⊢
  rw [h.bestSpatial]
  exact h2

theorem Cur.mapFields [DecidableEq F] [DecidableEq D]
    {ph : Phys F D O X G B H M P V T S Q K} {s : State F D O X G M K} {a : MapArgs B Q}
    {f : Name} {m : MapData X M} (hc : Cur ph s a f m) :
    mapFields ph s [f] a = ({ s with
      maps := s.maps.set f m, consistent := s.consistent.set f true }, .ok ()) := by
  obtain ⟨g, groups, h1, h2, h3, h4⟩ := hc
  have hk : f ∈ s.fields.keys := by rw [PyDict.mem_keys_iff, h1]; rfl
  unfold Inst.mapFields chosenFields
  rw [if_neg (by simp), checkNames_one hk]
  simp only [h2.1, h2.2, Bool.false_eq_true, if_false, h3]
  simp only [mapLoop, h1, h4]

theorem Cur.upToDate [DecidableEq F] [DecidableEq D]
    {ph : Phys F D O X G B H M P V T S Q K} {s : State F D O X G M K} {a : MapArgs B Q}
    {f : Name} {m : MapData X M} (hc : Cur ph s a f m) (hm : s.maps.get? f = some m) :
    UpToDate ph s f := by
  refine ⟨a, m, ?_, ?_, hm⟩
  · rw [hc.mapFields]
  · rw [hc.mapFields]; simp

/-- Maps that are marked as consistent are what mapping would give now. -/
def Good [DecidableEq F] [DecidableEq D] (ph : Phys F D O X G B H M P V T S Q K)
    (s : State F D O X G M K) : Prop :=
  ∀ f, s.consistent.get? f = some true → ∃ a m, Cur ph s a f m ∧ s.maps.get? f = some m

theorem Good.of_same [DecidableEq F] [DecidableEq D]
    {ph : Phys F D O X G B H M P V T S Q K} {s s' : State F D O X G M K} (hg : Good ph s)
    (h : SameDets s s') (hf : s'.fields = s.fields) (hm : s'.maps = s.maps)
    (hc : ∀ f, s'.consistent.get? f = some true → s.consistent.get? f = some true) :
    Good ph s' := by
  intro f hf1
  obtain ⟨a, m, h1, h2⟩ := hg f (hc f hf1)
  exact ⟨a, m, h1.congr h (by rw [hf]), by rw [hm, h2]⟩

/-- Nothing is consistent any more. -/
theorem Good.of_none [DecidableEq F] [DecidableEq D]
    {ph : Phys F D O X G B H M P V T S Q K} {s : State F D O X G M K}
    (h : ∀ f, s.consistent.get? f ≠ some true) : Good ph s :=
  fun f hf => absurd hf (h f)

theorem Good.none_left [DecidableEq F] [DecidableEq D]
    {ph : Phys F D O X G B H M P V T S Q K} {s : State F D O X G M K} (hg : Good ph s)
    (ho : Ordered s) (c : PyDict Name Bool)
    (h1 : ∀ k ∈ s.fieldNames, c.get? k = some false)
    (h2 : ∀ k, k ∉ s.fieldNames → c.get? k = s.consistent.get? k) (f : Name) :
    c.get? f ≠ some true := by
  by_cases hf : f ∈ s.fieldNames
  · rw [h1 f hf]; simp
  · rw [h2 f hf]
    intro ht
    obtain ⟨a, m, ⟨g, _, hg, _⟩, _⟩ := hg f ht
    exact hf ((ho.fields f).2 (by rw [hg]; rfl))

/-- The loop that maps fields. -/
theorem mapLoop_inv [DecidableEq F] [DecidableEq D]
    (ph : Phys F D O X G B H M P V T S Q K) (groups : List (List Name)) (a : MapArgs B Q)
    (fs : List Name) (s : State F D O X G M K) (hb : beamGroups s a = .ok groups)
    (ha : ArgsOk s a) (hg : Good ph s) :
    ∃ ms cs, (mapLoop ph groups a s fs).1 = { s with maps := ms, consistent := cs } ∧
      Good ph (mapLoop ph groups a s fs).1 ∧
      (∀ n, (s.consistent.get? n).isSome → (cs.get? n).isSome) ∧
      ((mapLoop ph groups a s fs).2 = .ok () → ∀ f ∈ fs, cs.get? f = some true ∧
        ∃ m, Cur ph s a f m ∧ ms.get? f = some m) ∧
      (∀ f, f ∉ fs → ms.get? f = s.maps.get? f ∧ cs.get? f = s.consistent.get? f) := by
  induction fs generalizing s with
  | nil => exact ⟨s.maps, s.consistent, rfl, hg, fun _ h => h, fun _ f hf => by simp at hf,
      fun _ _ => ⟨rfl, rfl⟩⟩
  | cons f rest ih =>
    simp only [mapLoop]
    rcases hf : s.fields.get? f with _ | g
    · exact ⟨s.maps, s.consistent, rfl, hg, fun _ h => h, fun h => (by cases h), fun _ _ => ⟨rfl, rfl⟩⟩
    rcases hm : mapField ph s groups a g with e | m
    · simp only [hm]
      exact ⟨s.maps, s.consistent, rfl, hg, fun _ h => h, fun h => (by cases h), fun _ _ => ⟨rfl, rfl⟩⟩
    simp only [hm]
    have hs : SameDets s
      { s with maps := s.maps.set f m, consistent := s.consistent.set f true } := ⟨rfl, rfl, rfl⟩
    have hcur : Cur ph s a f m := ⟨g, groups, hf, ha, hb, hm⟩
    have hg' : Good ph { s with maps := s.maps.set f m, consistent := s.consistent.set f true } := by
      intro f' hf'
      simp only [PyDict.get?_set] at hf' ⊢
      by_cases he : f = f'
      · subst he
        exact ⟨a, m, hcur.congr hs rfl, by simp⟩
      · simp only [he, if_false] at hf' ⊢
        obtain ⟨a', m', h1, h2⟩ := hg f' hf'
        exact ⟨a', m', h1.congr hs rfl, h2⟩
    obtain ⟨ms, cs, e1, e2, e3, e4, e5⟩ := ih
      { s with maps := s.maps.set f m, consistent := s.consistent.set f true }
      (by rw [beamGroups_congr hs, hb]) ha hg'
    refine ⟨ms, cs, e1, e2, fun n hn => e3 n ?_, fun hok f' hf' => ?_, fun f' hf' => ?_⟩
    · simp only [PyDict.get?_set]
      split
      · rfl
      · exact hn
    · by_cases hr : f' ∈ rest
      · obtain ⟨q1, m', q2, q3⟩ := e4 hok f' hr
        exact ⟨q1, m', q2.congr ⟨rfl, rfl, rfl⟩ rfl, q3⟩
      · obtain ⟨q1, q2⟩ := e5 f' hr
        have : f' = f := by simpa [hr] using hf'
        subst this
        simp only [PyDict.get?_set, if_true] at q1 q2
        exact ⟨q2, m, hcur, q1⟩
    · simp only [List.mem_cons, not_or] at hf'
      obtain ⟨q1, q2⟩ := e5 f' hf'.2
      have : ¬ f = f' := fun e => hf'.1 e.symm
      simp only [PyDict.get?_set, this, if_false] at q1 q2
      exact ⟨q1, q2⟩

/-- Mapping fields. -/
theorem mapFields_inv [DecidableEq F] [DecidableEq D]
    (ph : Phys F D O X G B H M P V T S Q K) (s : State F D O X G M K) (names : List Name)
    (a : MapArgs B Q) (hg : Good ph s) :
    ∃ ms cs, (mapFields ph s names a).1 = { s with maps := ms, consistent := cs } ∧
      Good ph (mapFields ph s names a).1 ∧
      (∀ n, (s.consistent.get? n).isSome → (cs.get? n).isSome) := by
  unfold mapFields
  rcases h1 : chosenFields s names with e | fs
  · exact ⟨s.maps, s.consistent, rfl, hg, fun _ h => h⟩
  simp only
  by_cases h2 : (a.beam.isNone && a.kernel.isNone && s.bestSpatial.isNone) = true
  · rw [if_pos h2]; exact ⟨s.maps, s.consistent, rfl, hg, fun _ h => h⟩
  rw [if_neg h2]
  by_cases h3 : (a.beam.isSome && a.kernel.isSome) = true
  · rw [if_pos h3]; exact ⟨s.maps, s.consistent, rfl, hg, fun _ h => h⟩
  rw [if_neg h3]
  rcases h4 : beamGroups s a with e | groups
  · exact ⟨s.maps, s.consistent, rfl, hg, fun _ h => h⟩
  obtain ⟨ms, cs, e1, e2, e3, -⟩ := mapLoop_inv ph groups a fs s h4
    ⟨Bool.eq_false_iff.2 h2, Bool.eq_false_iff.2 h3⟩ hg
  exact ⟨ms, cs, e1, e2, e3⟩

/-- Mapping changes nothing but maps and flags. -/
theorem mapLoop_shape (ph : Phys F D O X G B H M P V T S Q K) (groups : List (List Name))
    (a : MapArgs B Q) (fs : List Name) (s : State F D O X G M K) :
    ∃ ms cs, (mapLoop ph groups a s fs).1 = { s with maps := ms, consistent := cs } ∧
      (∀ n, (s.consistent.get? n).isSome → (cs.get? n).isSome) := by
  induction fs generalizing s with
  | nil => exact ⟨s.maps, s.consistent, rfl, fun _ h => h⟩
  | cons f rest ih =>
    simp only [mapLoop]
    rcases hf : s.fields.get? f with _ | g
    · exact ⟨s.maps, s.consistent, rfl, fun _ h => h⟩
    rcases hm : mapField ph s groups a g with e | m
    · simp only [hm]
      exact ⟨s.maps, s.consistent, rfl, fun _ h => h⟩
    simp only [hm]
    obtain ⟨ms, cs, e1, e3⟩ := ih
      { s with maps := s.maps.set f m, consistent := s.consistent.set f true }
    refine ⟨ms, cs, e1, fun n hn => e3 n ?_⟩
    simp only [PyDict.get?_set]
    split
    · rfl
    · exact hn

theorem mapFields_shape [DecidableEq F] [DecidableEq D]
    (ph : Phys F D O X G B H M P V T S Q K) (s : State F D O X G M K) (names : List Name)
    (a : MapArgs B Q) :
    ∃ ms cs, (mapFields ph s names a).1 = { s with maps := ms, consistent := cs } ∧
      (∀ n, (s.consistent.get? n).isSome → (cs.get? n).isSome) := by
  unfold mapFields
  have key : ∃ ms cs, s = { s with maps := ms, consistent := cs } ∧
      (∀ n, (s.consistent.get? n).isSome → (cs.get? n).isSome) :=
    ⟨s.maps, s.consistent, rfl, fun _ h => h⟩
  split
  · exact key
  split
  · exact key
  split
  · exact key
  split
  · exact key
  · exact mapLoop_shape ph _ a _ s

theorem dropFields_ordered (names : List Name) (s : State F D O X G M K) (ho : Ordered s) :
    Ordered (names.foldl dropField s) := by
  induction names generalizing s with
  | nil => exact ho
  | cons f rest ih =>
    rw [List.foldl_cons]
    obtain ⟨r1, r2, r3, -, -, r4⟩ := dropField_rest s f
    refine ih (dropField s f) ⟨?_, ?_, ?_, ?_, ?_⟩
    · rw [r2]; exact ho.detNodup
    · rw [r4]; exact ho.fieldNodup.erase f
    · rw [r1, r2]; exact ho.dets
    · intro n
      rw [r4, ho.fieldNodup.mem_erase_iff, dropField_fields, ho.fields n]
      by_cases h : n = f <;> simp [h]
    · intro n hn
      rw [r4, ho.fieldNodup.mem_erase_iff] at hn
      rw [dropField_cons, if_neg (fun h => hn.1 h.1)]
      exact ho.flags n hn.2

/-- Removing fields. -/
theorem dropFields_inv [DecidableEq F] [DecidableEq D]
    (ph : Phys F D O X G B H M P V T S Q K) (names : List Name) (s : State F D O X G M K)
    (ho : Ordered s) (hg : Good ph s) :
    Ordered (names.foldl dropField s) ∧ Good ph (names.foldl dropField s) := by
  induction names generalizing s with
  | nil => exact ⟨ho, hg⟩
  | cons f rest ih =>
    rw [List.foldl_cons]
    obtain ⟨r1, r2, r3, -, -, r4⟩ := dropField_rest s f
    refine ih (dropField s f) (dropFields_ordered [f] s ho) ?_
    · intro k hk
      rw [dropField_cons] at hk
      by_cases h1 : k = f
      · subst h1
        exfalso
        by_cases h2 : s.maps.has k = true
        · simp [h2] at hk
        · simp [h2] at hk
          obtain ⟨a, m, _, hm⟩ := hg k hk
          apply h2
          unfold PyDict.has
          rw [hm]; rfl
      · simp only [h1, false_and, if_false] at hk
        obtain ⟨a, m, q1, q2⟩ := hg k hk
        refine ⟨a, m, q1.congr ⟨r1, r2, r3⟩ ?_, ?_⟩
        · rw [dropField_fields, if_neg h1]
        · rw [dropField_maps, if_neg h1, q2]

/-- One operation keeps the bookkeeping in order. -/
theorem step_ordered [DecidableEq F] [DecidableEq D] [LinearOrder K]
    (ph : Phys F D O X G B H M P V T S Q K) (s : State F D O X G M K) (op : Op F D O X G B K Q)
    (ho : Ordered s) : Ordered (step ph s op) := by
  cases op with
  | setResponse names m fn kw =>
    simp only [step]
    rcases setResponse_cases ph s names m fn kw with ⟨h, -⟩ | ⟨-, hf, h0, h1⟩
    · rw [h]; exact ho
    · have hd : ∀ n, ((setResponse ph s names m fn kw).1.detectors.get? n).isSome =
          (s.detectors.get? n).isSome := by
        intro n
        by_cases ht : targets s names = []
        · rw [(h0 ht).1]
        · obtain ⟨f, k, -, e, -⟩ := h1 ht
          rw [e, assign_get?]
          split <;> simp
      have hc : ∀ n, n ∈ s.fieldNames →
          ((setResponse ph s names m fn kw).1.consistent.get? n).isSome := by
        intro n hn
        by_cases ht : targets s names = []
        · rw [(h0 ht).2]; exact ho.flags n hn
        · obtain ⟨f, k, -, -, e⟩ := h1 ht
          rw [e, if_pos hn]; rfl
      exact ⟨by rw [hf.detNames]; exact ho.detNodup, by rw [hf.fieldNames]; exact ho.fieldNodup,
        fun n => by rw [hf.detNames, hd]; exact ho.dets n,
        fun n => by rw [hf.fieldNames, hf.fields]; exact ho.fields n,
        fun n hn => by rw [hf.fieldNames] at hn; exact hc n hn⟩
  | addDetector a =>
    simp only [step]
    rcases addDetector_cases ph s ho a with ⟨e, u, v, w, h, -⟩ |
      ⟨n, x, c, u, v, w, h, -, hn, -, hc, hc2, -⟩
    · rw [h]; exact ⟨ho.1, ho.2, ho.3, ho.4, ho.5⟩
    · rw [h]
      refine ⟨?_, ho.2, ?_, ho.4, ?_⟩
      · simp only
        rw [List.nodup_append]
        refine ⟨ho.1, by simp, ?_⟩
        intro x hx y hy
        simp only [List.mem_singleton] at hy
        subst hy
        exact fun e => hn (e ▸ hx)
      · intro k
        simp only [List.mem_append, List.mem_singleton, PyDict.get?_set]
        by_cases hk : n = k
        · simp [hk]
        · have : ¬ k = n := fun e => hk e.symm
          simp only [hk, this, or_false, if_false]
          exact ho.3 k
      · intro k hk
        simp only
        rw [hc k hk]; rfl
  | delDetectors names =>
    simp only [step]
    rcases delDetectors_cases s names with ⟨h, -⟩ | ⟨-, h1, h2, hf, hd, h3, h4⟩
    · rw [h]; exact ho
    · obtain ⟨l1, l2⟩ := foldl_erase_list names s.detNames ho.detNodup
      refine ⟨by rw [hf.detNames]; exact l1, by rw [hf.fieldNames]; exact ho.2, fun n => ?_,
        fun n => by rw [hf.fieldNames, hf.fields]; exact ho.4 n, fun n hn => ?_⟩
      · rw [hf.detNames, hd, foldl_erase_get?]
        simp only [l2, ho.3 n]
        by_cases hk : n ∈ names <;> simp [hk]
      · rw [hf.fieldNames] at hn
        by_cases hk : names = []
        · rw [h3 hk]; exact ho.5 n hn
        · rw [h4 hk, if_pos hn]; rfl
  | addField a =>
    simp only [step]
    rcases addField_cases s a with ⟨e, h⟩ | ⟨n, g, j, h, -, hn, -⟩
    · rw [h]; exact ho
    · rw [h]
      have hn' : n ∉ s.fieldNames := by
        rw [ho.4 n]
        unfold PyDict.has at hn
        simpa using hn
      refine ⟨ho.1, ?_, ho.3, ?_, ?_⟩
      · simp only
        rw [List.nodup_append]
        refine ⟨ho.2, by simp, ?_⟩
        intro x hx y hy
        simp only [List.mem_singleton] at hy
        subst hy
        exact fun e => hn' (e ▸ hx)
      · intro k
        simp only [List.mem_append, List.mem_singleton, PyDict.get?_set]
        by_cases hk : n = k
        · simp [hk]
        · have : ¬ k = n := fun e => hk e.symm
          simp only [hk, this, or_false, if_false]
          exact ho.4 k
      · intro k hk
        simp only [List.mem_append, List.mem_singleton, PyDict.get?_set] at hk ⊢
        by_cases hkn : n = k
        · simp [hkn]
        · have : ¬ k = n := fun e => hkn e.symm
          simp only [hkn, this, or_false, if_false] at hk ⊢
          exact ho.5 k hk
  | delFields names =>
    simp only [step, delFields]
    split
    · exact ho
    · exact dropFields_ordered names s ho
  | mapFields names a =>
    simp only [step]
    obtain ⟨ms, cs, h, h2⟩ := mapFields_shape ph s names a
    rw [h]
    exact ⟨ho.1, ho.2, ho.3, ho.4, fun n hn => h2 n (ho.5 n hn)⟩
  | editGrid f g =>
    simp only [step]
    refine ⟨ho.1, ho.2, ho.3, fun n => ?_, ho.5⟩
    simp only
    split
    · rename_i hf
      rw [ho.4 n, PyDict.get?_set]
      by_cases hk : f = n
      · subst hk
        unfold PyDict.has at hf
        simp [hf]
      · simp [hk]
    · exact ho.4 n

/-- One of the instrument's own operations keeps consistent maps up to date. -/
theorem step_good [DecidableEq F] [DecidableEq D] [LinearOrder K]
    (ph : Phys F D O X G B H M P V T S Q K) (s : State F D O X G M K) (op : Op F D O X G B K Q)
    (ho : Ordered s) (hg : Good ph s) (hown : Own op) : Good ph (step ph s op) := by
  cases op with
  | setResponse names m fn kw =>
    simp only [step]
    rcases setResponse_cases ph s names m fn kw with ⟨h, -⟩ | ⟨-, hf, h0, h1⟩
    · rw [h]; exact hg
    · by_cases ht : targets s names = []
      · obtain ⟨e1, e2⟩ := h0 ht
        exact hg.of_same ⟨e1, hf.detNames, hf.bestSpatial⟩ hf.fields hf.maps
          (fun f h => by rw [e2] at h; exact h)
      · obtain ⟨f, k, -, -, e⟩ := h1 ht
        refine Good.of_none (hg.none_left ho _ ?_ ?_)
        · intro x hx; rw [e, if_pos hx]
        · intro x hx; rw [e, if_neg hx]
  | addDetector a =>
    simp only [step]
    rcases addDetector_cases ph s ho a with ⟨e, u, v, w, h, -⟩ |
      ⟨n, x, c, u, v, w, h, -, hn, -, hc, hc2, -⟩
    · rw [h]
      exact hg.of_same ⟨rfl, rfl, rfl⟩ rfl rfl (fun _ h => h)
    · rw [h]
      exact Good.of_none (hg.none_left ho c hc hc2)
  | delDetectors names =>
    simp only [step]
    rcases delDetectors_cases s names with ⟨h, -⟩ | ⟨-, h1, h2, hf, hd, h3, h4⟩
    · rw [h]; exact hg
    · by_cases hk : names = []
      · have e3 := h3 hk
        subst hk
        exact hg.of_same ⟨hd, hf.detNames, hf.bestSpatial⟩ hf.fields hf.maps
          (fun f h => by rw [e3] at h; exact h)
      · have e := h4 hk
        refine Good.of_none (hg.none_left ho _ ?_ ?_)
        · intro x hx; rw [e, if_pos hx]
        · intro x hx; rw [e, if_neg hx]
  | addField a =>
    simp only [step]
    rcases addField_cases s a with ⟨e, h⟩ | ⟨n, g, j, h, -, hn, -⟩
    · rw [h]; exact hg
    · rw [h]
      intro f hf
      simp only [PyDict.get?_set] at hf
      by_cases hk : n = f
      · simp [hk] at hf
      · simp only [hk, if_false] at hf
        obtain ⟨a', m, q1, q2⟩ := hg f hf
        exact ⟨a', m, q1.congr ⟨rfl, rfl, rfl⟩ (by simp [hk]), q2⟩
  | delFields names =>
    simp only [step, delFields]
    split
    · exact hg
    · exact (dropFields_inv ph names s ho hg).2
  | mapFields names a =>
    simp only [step]
    obtain ⟨ms, cs, h, h2, -⟩ := mapFields_inv ph s names a hg
    exact h2
  | editGrid f g => exact absurd hown (by simp [Own])

end Verif.Inst
