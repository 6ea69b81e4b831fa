import Verif.Props.Format

set_option linter.unusedSectionVars false

/-!
# C55: snapshots of one simulation are formatted alike
-/

namespace Verif.Format

open Verif.Sim (Err SnapMeta)
open Verif.Format.Spec

variable {K : Type} [LinearOrder K]

/-- Field tables as they are meant to be: the two further tables have different fields, every
field has a property, the first property of a field is one that is stored, and all names
are different from each other and from `mass_cuts`. -/
structure Spec.Tables (basic dm matter : Fields) : Prop where
  disjoint : ∀ k ∈ dm.keys, k ∉ matter.keys
  dmKeys : dm.keys.Nodup
  matterKeys : matter.keys.Nodup
  nonempty : ∀ f ∈ dm ++ matter, f.2 ≠ []
  first : ∀ f ∈ dm ++ matter, ∀ s rest, f.2 = s :: rest → rest ≠ [] →
    s.name.toList.take 4 ≠ ['n', 'o', 'n', 'e']
  names : (namesOf false basic ++ namesOf true (dm ++ matter)).Nodup
  cuts : "mass_cuts" ∉ namesOf true (dm ++ matter)

/-- Two groups hold the same properties, with the same units and h dependences. -/
def Spec.SameProperties (g g' : Group K) : Prop :=
  ∀ name, (g.data.get? name).map (fun D => (D.units, D.hdep))
    = (g'.data.get? name).map (fun D => (D.units, D.hdep))

/-- All groups of the file hold the same properties. -/
def Spec.Alike (d : Disk K) : Prop :=
  ∀ i j g g', groupOf d i = some g → groupOf d j = some g' → SameProperties g g'

/-- C55 in full: after any sequence of completed calls for the same simulation, started without a
file, the snapshots have the same properties. -/
def C55_full : Prop :=
  ∀ (basic dm matter : Fields) (d0 d : Disk ℚ) (hs : List (Run ℚ × Disk ℚ)), d0.file = none →
    History d0 hs d →
    (∀ r ∈ hs, r.1.cat.basic = basic ∧ r.1.cat.dm = dm ∧ r.1.cat.matter = matter) → Alike d

theorem mem_merge (a b : Fields) (ha : a.keys.Nodup) (hb : b.keys.Nodup)
    (hd : ∀ k ∈ a.keys, k ∉ b.keys) (f : Name × List Sub) : f ∈ merge a b ↔ f ∈ a ∨ f ∈ b := by
  unfold merge
  induction b generalizing a with
  | nil => simp
  | cons p b ih =>
    simp only [List.foldl_cons]
    have hb' : PyDict.keys b |>.Nodup := by
      simp only [PyDict.keys, List.map_cons, List.nodup_cons] at hb; exact hb.2
    have hpb : p.1 ∉ PyDict.keys b := by
      simp only [PyDict.keys, List.map_cons, List.nodup_cons] at hb; exact hb.1
    have hpa : p.1 ∉ PyDict.keys a := fun h => hd _ h (by simp [PyDict.keys])
    have hset : PyDict.set a p.1 p.2 = a ++ [p] := by
      clear ih hd ha
      induction a with
      | nil => rfl
      | cons q a iha =>
        obtain ⟨qk, qv⟩ := q
        have h1 : qk ≠ p.1 := by
          intro h; apply hpa; simp [PyDict.keys, h]
        have h2 : p.1 ∉ PyDict.keys a := by
          intro h; apply hpa; simp only [PyDict.keys, List.map_cons, List.mem_cons]; right; exact h
        have := iha h2
        simp only [PyDict.set, List.cons_append]
        simp [h1, this]
    rw [hset, ih (a ++ [p]) ?_ hb' ?_]
    · simp only [List.mem_append, List.mem_cons, List.not_mem_nil, or_false]
      tauto
    · simp only [PyDict.keys, List.map_append, List.map_cons, List.map_nil]
      rw [List.nodup_append]
      refine ⟨ha, by simp, ?_⟩
      intro x hx y hy
      simp only [List.mem_singleton] at hy
      subst hy
      rintro rfl
      exact hpa hx
    · intro k hk
      simp only [PyDict.keys, List.map_append, List.map_cons, List.map_nil, List.mem_append,
        List.mem_singleton] at hk
      rcases hk with hk | rfl
      · intro h; exact hd k hk (by simp only [PyDict.keys, List.map_cons, List.mem_cons]; right; exact h)
      · exact hpb

theorem promised_congr {a b : Fields} (h : ∀ f, f ∈ a ↔ f ∈ b) (e : Entry) :
    Promised a e ↔ Promised b e := by
  unfold Promised
  constructor
  · rintro ⟨subs, h1, h2⟩; exact ⟨subs, (h _).1 h1, h2⟩
  · rintro ⟨subs, h1, h2⟩; exact ⟨subs, (h _).2 h1, h2⟩

theorem stored_congr {basic a b : Fields} (h : ∀ f, f ∈ a ↔ f ∈ b) (e : Entry) :
    Stored basic a e ↔ Stored basic b e := by
  unfold Stored; rw [promised_congr h e]

/-- A group holds exactly the properties of the tables. -/
def Holds (basic other : Fields) (g : Group K) : Prop :=
  (∀ e, Stored basic other e → ∃ D, g.data.get? e.sub.name = some D ∧
    D.units = some e.sub.units ∧ D.hdep = some e.sub.hdep) ∧
  (∀ name ∈ g.data.keys, ∃ e, Stored basic other e ∧ e.sub.name = name)

theorem complete_holds {cat : Cat K} {other : Fields} {raw : Raw K} {i : ℕ} {g : Group K}
    (h : Complete cat other raw i g) : Holds cat.basic other g := by
  refine ⟨?_, h.only⟩
  obtain ⟨p, -, hp⟩ := h.rows
  intro e he
  obtain ⟨D, h1, h2, h3, -⟩ := hp e he
  exact ⟨D, h1, h2, h3⟩

theorem Holds.same {basic other : Fields} {g g' : Group K} (h : Holds basic other g)
    (h' : Holds basic other g') : SameProperties g g' := by
  intro name
  cases hn : g.data.get? name with
  | some D =>
    obtain ⟨e, he, rfl⟩ := h.2 name ((PyDict.mem_keys_iff _ _).2 (by rw [hn]; simp))
    obtain ⟨D1, a1, a2, a3⟩ := h.1 e he
    obtain ⟨D2, b1, b2, b3⟩ := h'.1 e he
    rw [hn] at a1
    simp only [Option.some.injEq] at a1
    subst a1
    simp [b1, a2, a3, b2, b3]
  | none =>
    cases hn' : g'.data.get? name with
    | none => rfl
    | some D =>
      obtain ⟨e, he, rfl⟩ := h'.2 name ((PyDict.mem_keys_iff _ _).2 (by rw [hn']; simp))
      obtain ⟨D1, a1, -⟩ := h.1 e he
      rw [hn] at a1
      cases a1

theorem stored_name_mem {basic other : Fields} {e : Entry} (h : Stored basic other e) :
    e.sub.name ∈ namesOf false basic ∨ e.sub.name ∈ namesOf true other := by
  rcases h with ⟨subs, h1, h2, h3⟩ | ⟨⟨subs, h1, h2, h3⟩, h4⟩
  · left
    simp only [namesOf, List.mem_flatMap]
    refine ⟨_, h1, ?_⟩
    simp only [Bool.false_and, Bool.not_false, List.filter_true]
    exact List.mem_map.2 ⟨e.sub, List.mem_of_getElem? h3, rfl⟩
  · right
    simp only [namesOf, List.mem_flatMap]
    refine ⟨_, h1, List.mem_filter.2 ⟨List.mem_map.2 ⟨e.sub, List.mem_of_getElem? h3, rfl⟩, ?_⟩⟩
    simp only [Bool.true_and, Bool.not_eq_true', Bool.and_eq_false_iff, decide_eq_false_iff_not]
    rw [h2] at h4
    tauto

/-- After completed calls all groups hold the basic properties only (if some call was made with
`basic`), or all properties. -/
theorem history_holds (basic dm matter : Fields) (hT : Tables basic dm matter) (d0 d : Disk K)
    (h0 : d0.file = none) (hs : List (Run K × Disk K)) (h : History d0 hs d)
    (hr : ∀ r ∈ hs, r.1.cat.basic = basic ∧ r.1.cat.dm = dm ∧ r.1.cat.matter = matter) :
    ∃ all : Bool, (all = false → ∃ r ∈ hs, r.1.opts.basicOnly = true) ∧
      ∀ i g, groupOf d i = some g → Holds basic (if all then dm ++ matter else []) g := by
  have hU0 : Unique d0 := by intro f hf; rw [h0] at hf; cases hf
  induction h with
  | nil => exact ⟨true, (by simp), fun i g hg => by simp [groupOf, h0] at hg⟩
  | raw h raw ih => exact ih hr
  | @run hs d h r es hsound hcons hf ih =>
    obtain ⟨all, hall, ih⟩ := ih (fun q hq => hr q (by simp [hq]))
    obtain ⟨hb, hdm, hma⟩ := hr (r, d) (by simp)
    simp only at hb hdm hma
    obtain ⟨other, hu, h1, h2⟩ := C14_one_run r.cat hsound r.opts r.answers d (h.unique hU0) es hf
      hcons
    rw [← hb]
    rcases hu with ⟨hn, ho⟩ | ⟨hn, k, g0, hg0, ho⟩
    · -- a new file
      refine ⟨!r.opts.basicOnly, fun hb => ⟨(r, d), by simp, by simpa using hb⟩, fun i g hg => ?_⟩
      by_cases hform : Formats r.cat r.opts d i
      · obtain ⟨raw, g', -, r2, r3⟩ := h1 i hform
        rw [r2] at hg
        simp only [Option.some.injEq] at hg
        subst hg
        have hh := complete_holds r3
        have hmem : ∀ f, f ∈ other ↔ f ∈ (if (!r.opts.basicOnly) = true then dm ++ matter else []) := by
          intro f
          rw [ho]
          cases r.opts.basicOnly
          · simp only [Bool.false_eq_true, if_false, Bool.not_false, if_true, List.mem_append]
            rw [hdm, hma, mem_merge _ _ hT.dmKeys hT.matterKeys hT.disjoint]
          · simp
        exact ⟨fun e he => hh.1 e ((stored_congr hmem e).2 he), fun n hn => by
          obtain ⟨e, he, h⟩ := hh.2 n hn
          exact ⟨e, (stored_congr hmem e).1 he, h⟩⟩
      · rw [(h2 i hform).1 hn] at hg; cases hg
    · -- adding to a file
      refine ⟨all, fun hb => ?_, fun i g hg => ?_⟩
      · obtain ⟨q, hq, hq'⟩ := hall hb
        exact ⟨q, by simp [hq], hq'⟩
      by_cases hform : Formats r.cat r.opts d i
      · obtain ⟨raw, g', -, r2, r3⟩ := h1 i hform
        rw [r2] at hg
        simp only [Option.some.injEq] at hg
        subst hg
        have hh := complete_holds r3
        have hg0' := ih k g0 hg0
        have hmm : ∀ f, f ∈ merge r.cat.matter r.cat.dm ↔ f ∈ dm ++ matter := by
          intro f
          rw [hdm, hma, mem_merge _ _ hT.matterKeys hT.dmKeys
            (fun x hx hy => hT.disjoint x hy hx), List.mem_append, or_comm]
        have hmem : ∀ f, f ∈ other ↔ f ∈ (if all = true then dm ++ matter else []) := by
          intro f
          rw [ho f, hmm f]
          cases all with
          | true =>
            simp only [if_true]
            refine ⟨fun h => h.1, fun hf => ⟨hf, ?_⟩⟩
            cases hf2 : f.2 with
            | nil => exact absurd hf2 (hT.nonempty f hf)
            | cons s rest =>
              refine ⟨s, rest, rfl, ?_⟩
              have hst : Stored basic (if true = true then dm ++ matter else [])
                  ⟨f.1, f.2.length, 0, s⟩ := by
                right
                refine ⟨⟨f.2, by simpa using hf, rfl, by simp [hf2]⟩, ?_⟩
                rintro ⟨hw, hno⟩
                refine hT.first f hf s rest hf2 ?_ hno
                rintro rfl
                simp [hf2] at hw
              obtain ⟨D, hD, -⟩ := hg0'.1 _ hst
              simp only [Group.names, List.mem_append]
              right
              exact (PyDict.mem_keys_iff _ _).2 (by simp only at hD; rw [hD]; simp)
          | false =>
            simp only [Bool.false_eq_true, if_false, List.not_mem_nil, iff_false]
            rintro ⟨hf, s, rest, hf2, hs⟩
            have hsn : s.name ∈ namesOf true (dm ++ matter) := by
              simp only [namesOf, List.mem_flatMap]
              refine ⟨f, hf, List.mem_filter.2 ⟨by simp [hf2], ?_⟩⟩
              simp only [Bool.true_and, Bool.not_eq_true', Bool.and_eq_false_iff,
                decide_eq_false_iff_not]
              by_cases hrest : rest = []
              · left; simp [hf2, hrest]
              · right; exact hT.first f hf s rest hf2 hrest
            simp only [Group.names, List.mem_append] at hs
            rcases hs with hs | hs
            · split at hs
              · simp only [List.mem_singleton] at hs
                exact hT.cuts (hs ▸ hsn)
              · simp at hs
            · obtain ⟨e, he, hen⟩ := hg0'.2 _ hs
              rcases stored_name_mem he with h3 | h3
              · rw [hen] at h3
                exact (List.nodup_append.1 hT.names).2.2 _ h3 _ hsn rfl
              · simp [namesOf] at h3
        exact ⟨fun e he => hh.1 e ((stored_congr hmem e).2 he), fun n hn => by
          obtain ⟨e, he, h⟩ := hh.2 n hn
          exact ⟨e, (stored_congr hmem e).1 he, h⟩⟩
      · rw [(h2 i hform).2 hn] at hg
        rw [hb]
        exact ih i g hg

/-- C55 for well-formed tables: the snapshots have the same properties, with the same units. -/
theorem C55_alike_partial (basic dm matter : Fields) (hT : Tables basic dm matter) (d0 d : Disk K)
    (h0 : d0.file = none) (hs : List (Run K × Disk K)) (h : History d0 hs d)
    (hr : ∀ r ∈ hs, r.1.cat.basic = basic ∧ r.1.cat.dm = dm ∧ r.1.cat.matter = matter) :
    Alike d := by
  obtain ⟨all, -, H⟩ := history_holds basic dm matter hT d0 d h0 hs h hr
  intro i j g g' hg hg'
  exact (H i g hg).same (H j g' hg')

/-- What was done before a call is itself a sequence of calls. -/
theorem history_prefix {d0 d : Disk K} {hs : List (Run K × Disk K)} (h : History d0 hs d)
    (pre post : List (Run K × Disk K)) (s : Run K × Disk K) (he : hs = pre ++ s :: post) :
    History d0 pre s.2 := by
  induction h generalizing post with
  | nil => simp at he
  | @run hs d h r es hsound hcons hf ih =>
    rcases List.eq_nil_or_concat post with rfl | ⟨post', x, rfl⟩
    · have : hs ++ [(r, d)] = pre ++ [s] := he
      obtain ⟨e1, e2⟩ := List.append_inj' this rfl
      simp only [List.cons.injEq, and_true] at e2
      subst e1; subst e2
      exact h
    · have : hs ++ [(r, d)] = (pre ++ s :: post') ++ [x] := by simpa using he
      obtain ⟨e1, -⟩ := List.append_inj' this rfl
      exact ih post' e1
  | raw h raw ih => exact ih post he

/-- The fields used by the call that formatted a snapshot, if no call was made with `basic`. -/
theorem history_fields (basic dm matter : Fields) (hT : Tables basic dm matter) (d0 d : Disk K)
    (h0 : d0.file = none) (hs : List (Run K × Disk K)) (h : History d0 hs d)
    (hr : ∀ r ∈ hs, r.1.cat.basic = basic ∧ r.1.cat.dm = dm ∧ r.1.cat.matter = matter)
    (hall : ∀ r ∈ hs, r.1.opts.basicOnly = false) (s : Run K × Disk K) (i : ℕ)
    (hl : LastToFormat hs s i) (other : Fields) (hu : Uses s.1.cat s.1.opts s.2 other)
    (f : Name × List Sub) : f ∈ other ↔ f ∈ dm ++ matter := by
  obtain ⟨pre, post, he, -, -⟩ := hl
  have hs' : s ∈ hs := by rw [he]; simp
  obtain ⟨hb, hdm, hma⟩ := hr s hs'
  rcases hu with ⟨hn, ho⟩ | ⟨hn, k, g0, hg0, ho⟩
  · rw [ho, hall s hs']
    simp only [Bool.false_eq_true, if_false, List.mem_append]
    rw [hdm, hma, mem_merge _ _ hT.dmKeys hT.matterKeys hT.disjoint]
  · obtain ⟨all, ha, H⟩ := history_holds basic dm matter hT d0 s.2 h0 pre
      (history_prefix h pre post s he) (fun r hr' => hr r (by rw [he]; simp [hr']))
    have htrue : all = true := by
      by_contra hc
      obtain ⟨r, hr', hb'⟩ := ha (by simpa using hc)
      rw [hall r (by rw [he]; simp [hr'])] at hb'
      cases hb'
    subst htrue
    have hg0' := H k g0 hg0
    have hmm : ∀ f, f ∈ merge s.1.cat.matter s.1.cat.dm ↔ f ∈ dm ++ matter := by
      intro f
      rw [hdm, hma, mem_merge _ _ hT.matterKeys hT.dmKeys
        (fun x hx hy => hT.disjoint x hy hx), List.mem_append, or_comm]
    rw [ho f, hmm f]
    refine ⟨fun h => h.1, fun hf => ⟨hf, ?_⟩⟩
    cases hf2 : f.2 with
    | nil => exact absurd hf2 (hT.nonempty f hf)
    | cons s rest =>
      refine ⟨s, rest, rfl, ?_⟩
      have hst : Stored basic (if true = true then dm ++ matter else [])
          ⟨f.1, f.2.length, 0, s⟩ := by
        right
        refine ⟨⟨f.2, by simpa using hf, rfl, by simp [hf2]⟩, ?_⟩
        rintro ⟨hw, hno⟩
        refine hT.first f hf s rest hf2 ?_ hno
        rintro rfl
        simp [hf2] at hw
      obtain ⟨D, hD, -⟩ := hg0'.1 _ hst
      simp only [Group.names, List.mem_append]
      right
      exact (PyDict.mem_keys_iff _ _).2 (by simp only at hD; rw [hD]; simp)

/-! ## Concrete cases -/

theorem demo_tables : Tables demoCat.basic demoCat.dm demoCat.matter where
  disjoint := by decide
  dmKeys := by decide
  matterKeys := by decide
  nonempty := by decide
  first := by
    intro f hf s rest h1 h2
    simp only [demoCat, List.cons_append, List.nil_append, List.mem_cons, List.not_mem_nil,
      or_false] at hf
    rcases hf with rfl | rfl
    · simp only [List.cons.injEq] at h1; exact absurd h1.2.symm h2
    · simp only [List.cons.injEq] at h1; rw [← h1.1]; decide
  names := by decide
  cuts := by decide

/-- A catalogue of one snapshot whose extra field begins with a column that is not stored. -/
def noneFirst (i : ℕ) : Cat ℚ where
  snaps := [i]
  metas := [demoMeta 0 1, demoMeta 1 0]
  numberSnaps := 2
  basic := [("Mass", [⟨"mass", "Msun/h", -1⟩])]
  dm := []
  matter := [("Type", [⟨"none", "Msun/h", -1⟩, ⟨"m_stars", "Msun/h", -1⟩])]
  transform := []
  h := 7 / 10
  cuts := [30, 20, 10]
  argsort := demoArgsort

theorem noneFirst_sound (i : ℕ) (h : i ∈ [0, 1]) : Sound (noneFirst i) := by
  refine ⟨by simp [noneFirst], ?_, ?_, demoArgsort_ok⟩
  · simp [noneFirst, demoMeta]
  · intro j hj
    simp only [noneFirst, List.mem_singleton] at hj
    subst hj
    simpa [noneFirst, demoMeta] using h

/-- The two snapshots, formatted one after the other. -/
def firstRun : List (Eff ℚ) :=
  ((format (noneFirst 0) {} [] demoDisk).map (·.1)).getD []
def secondRun : List (Eff ℚ) :=
  ((format (noneFirst 1) {} [] (applyAll demoDisk firstRun)).map (·.1)).getD []

/-- Did the call end normally? -/
def ended (r : Option (List (Eff ℚ) × Except Err Unit)) : Bool :=
  match r with
  | some (_, .ok ()) => true
  | _ => false

theorem ended_spec (r : Option (List (Eff ℚ) × Except Err Unit)) (h : ended r = true) :
    r = some ((r.map (·.1)).getD [], .ok ()) := by
  match r with
  | some (es, .ok ()) => rfl
  | some (_, .error e) => simp [ended] at h
  | none => simp [ended] at h

/-- The names of the properties of a snapshot. -/
def propsOf (d : Disk ℚ) (i : ℕ) : Option (List Name) := (groupOf d i).map (fun g => g.data.keys)

/-- The second snapshot lacks `m_stars`. -/
example : propsOf (applyAll (applyAll demoDisk firstRun) secondRun) 0 = some ["mass", "m_stars"] ∧
    propsOf (applyAll (applyAll demoDisk firstRun) secondRun) 1 = some ["mass"] := by decide +kernel

theorem C55_full_false : ¬ C55_full := by
  intro H
  have e1 : ended (format (noneFirst 0) {} [] demoDisk) = true := by decide +kernel
  have e2 : ended (format (noneFirst 1) {} [] (applyAll demoDisk firstRun)) = true := by
    decide +kernel
  have h1 : History demoDisk [(⟨noneFirst 0, {}, []⟩, demoDisk)] (applyAll demoDisk firstRun) :=
    History.run (History.nil demoDisk) ⟨noneFirst 0, {}, []⟩ _ (noneFirst_sound 0 (by decide))
      (by intro h; cases h) (ended_spec _ e1)
  have h2 := History.run h1 ⟨noneFirst 1, {}, []⟩ secondRun (noneFirst_sound 1 (by decide))
      (by intro h; cases h) (ended_spec _ e2)
  have hA := H (noneFirst 0).basic [] (noneFirst 0).matter demoDisk _ _ rfl h2 (by
    intro r hr
    simp only [List.cons_append, List.nil_append, List.mem_cons, List.not_mem_nil, or_false] at hr
    rcases hr with rfl | rfl <;> exact ⟨rfl, rfl, rfl⟩)
  have key : ∀ g g', groupOf (applyAll (applyAll demoDisk firstRun) secondRun) 0 = some g →
      groupOf (applyAll (applyAll demoDisk firstRun) secondRun) 1 = some g' → False := by
    intro g g' hg hg'
    have hs := hA 0 1 g g' hg hg' "m_stars"
    have w0 : ((groupOf (applyAll (applyAll demoDisk firstRun) secondRun) 0).bind
        (fun g => (g.data.get? "m_stars").map (fun D => (D.units, D.hdep)))).isSome = true := by
      decide +kernel
    have w1 : ((groupOf (applyAll (applyAll demoDisk firstRun) secondRun) 1).bind
        (fun g => (g.data.get? "m_stars").map (fun D => (D.units, D.hdep)))).isSome = false := by
      decide +kernel
    rw [hg] at w0
    rw [hg'] at w1
    simp only [Option.bind_some] at w0 w1
    rw [hs, w1] at w0
    cases w0
  have p0 : (groupOf (applyAll (applyAll demoDisk firstRun) secondRun) 0).isSome = true := by
    decide +kernel
  have p1 : (groupOf (applyAll (applyAll demoDisk firstRun) secondRun) 1).isSome = true := by
    decide +kernel
  obtain ⟨g, hg⟩ := Option.isSome_iff_exists.1 p0
  obtain ⟨g', hg'⟩ := Option.isSome_iff_exists.1 p1
  exact key g g' hg hg'

end Verif.Format
