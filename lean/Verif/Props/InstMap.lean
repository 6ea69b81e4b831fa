import Verif.Lemmas.InstrumentGroups
import Mathlib.Data.Rat.Defs

/-!
# C39, C40: maps and samples of an instrument
-/

set_option linter.unusedSectionVars false

namespace Verif.Inst
open Spec
variable {F D O X G B H M P V T S Q K : Type}

theorem fresh_ordered (x : Setup F D K) : Ordered (fresh x : State F D O X G M K) :=
  ⟨List.nodup_nil, List.nodup_nil, fun n => by simp [fresh], fun n => by simp [fresh],
    fun n h => by simp [fresh] at h⟩

theorem fresh_good [DecidableEq F] [DecidableEq D] (ph : Phys F D O X G B H M P V T S Q K)
    (x : Setup F D K) : Good ph (fresh x) :=
  fun f h => by simp [fresh] at h

theorem run_ordered [DecidableEq F] [DecidableEq D] [LinearOrder K]
    (ph : Phys F D O X G B H M P V T S Q K) (ops : List (Op F D O X G B K Q))
    (s : State F D O X G M K) (ho : Ordered s) : Ordered (run ph s ops) := by
  induction ops generalizing s with
  | nil => exact ho
  | cons op rest ih => exact ih _ (step_ordered ph s op ho)

theorem run_good [DecidableEq F] [DecidableEq D] [LinearOrder K]
    (ph : Phys F D O X G B H M P V T S Q K) (ops : List (Op F D O X G B K Q))
    (s : State F D O X G M K) (ho : Ordered s) (hg : Good ph s) (hown : ∀ op ∈ ops, Own op) :
    Good ph (run ph s ops) := by
  induction ops generalizing s with
  | nil => exact hg
  | cons op rest ih =>
    exact ih _ (step_ordered ph s op ho) (step_good ph s op ho hg (hown op (by simp)))
      (fun o h => hown o (List.mem_cons_of_mem _ h))

/-- The steps of a successful call of `sample_fields`. -/
theorem sampleFields_ok [DecidableEq O] (ph : Phys F D O X G B H M P V T S Q K)
    (s : State F D O X G M K) (names : List Name) (a : SampleArgs P T S)
    (out : List (Name × List (List V))) (h : sampleFields ph s names a = .ok out) :
    ∃ fs groups, chosenFields s names = .ok fs ∧
      (∀ f ∈ fs, s.consistent.get? f = some true) ∧
      cloneGroups (samePointing s) s.detNames = .ok groups ∧
      out.map Prod.fst = fs ∧
      ∀ p ∈ out, sampleField ph s groups a p.1 = .ok p.2 := by
  unfold sampleFields at h
  rcases h1 : chosenFields s names with e | fs
  · rw [h1] at h; cases h
  rw [h1] at h
  simp only at h
  rcases h2 : mapE (checkConsistent s) fs with e | us
  · rw [h2] at h; cases h
  rw [h2] at h
  simp only at h
  split at h
  · cases h
  split at h
  · cases h
  split at h
  · cases h
  rcases h3 : cloneGroups (samePointing s) s.detNames with e | groups
  · rw [h3] at h; cases h
  rw [h3] at h
  simp only at h
  refine ⟨fs, groups, rfl, ?_, rfl, ?_, ?_⟩
  · intro f hf
    obtain ⟨y, -, hy⟩ := mapE_mem' h2 f hf
    unfold checkConsistent at hy
    split at hy
    · cases hy
    · cases hy
    · assumption
  · clear h2
    induction fs generalizing out with
    | nil =>
      simp only [mapE, Except.ok.injEq] at h
      subst h; rfl
    | cons f fs ih =>
      simp only [mapE] at h
      rcases h4 : sampleField ph s groups a f with e | c
      · rw [h4] at h; cases h
      rw [h4] at h
      simp only at h
      split at h
      · cases h
      rename_i ys hys
      simp only [Except.ok.injEq] at h
      subst h
      have hind : ys.map Prod.fst = fs := by
        clear ih h4 h1
        induction fs generalizing ys with
        | nil =>
          simp only [mapE, Except.ok.injEq] at hys
          subst hys; rfl
        | cons f' fs ih' =>
          simp only [mapE] at hys
          rcases h5 : sampleField ph s groups a f' with e | c'
          · rw [h5] at hys; cases hys
          rw [h5] at hys
          simp only at hys
          split at hys
          · cases hys
          rename_i zs hzs
          simp only [Except.ok.injEq] at hys
          subst hys
          simp [ih' zs hzs]
      simp [hind]
  · intro p hp
    obtain ⟨f, -, hf⟩ := mapE_mem h p hp
    rcases h4 : sampleField ph s groups a f with e | c
    · rw [h4] at hf; cases hf
    rw [h4] at hf
    simp only [Except.ok.injEq] at hf
    subst hf
    exact h4

/-- C39: after any history of an instrument, if sampling succeeds then for each field that
was sampled mapping it now, with the current detectors, gives the map that is held, and the
samples of each detector are its noise plus its own map of the field as it is now. -/
theorem C39_samples_partial [DecidableEq F] [DecidableEq D] [DecidableEq O] [LinearOrder K]
    (ph : Phys F D O X G B H M P V T S Q K) (x : Setup F D K) (ops : List (Op F D O X G B K Q))
    (hown : ∀ op ∈ ops, Own op) (s : State F D O X G M K) (hs : s = run ph (fresh x) ops)
    (names : List Name) (a : SampleArgs P T S) (out : List (Name × List (List V)))
    (h : sampleFields ph s names a = .ok out) (f : Name) (cols : List (List V))
    (hp : (f, cols) ∈ out) :
    UpToDate ph s f ∧ ∃ g ma, s.fields.get? f = some g ∧
      List.Forall₂ (Recorded ph s f g ma 0 a) s.detNames cols := by
  have ho : Ordered s := hs ▸ run_ordered ph ops _ (fresh_ordered x)
  have hg : Good ph s := hs ▸ run_good ph ops _ (fresh_ordered x) (fresh_good ph x) hown
  obtain ⟨fs, groups, h1, h2, h3, h4, h5⟩ := sampleFields_ok ph s names a out h
  have hf : s.consistent.get? f = some true :=
    h2 f (by rw [← h4]; exact List.mem_map_of_mem hp)
  obtain ⟨ma, md, hcur, hmap⟩ := hg f hf
  refine ⟨hcur.upToDate hmap, ?_⟩
  have hcur' := hcur
  obtain ⟨g, -, hgf, -⟩ := hcur'
  obtain ⟨-, -, hax, hF⟩ := (cur_iff ph s ho.detNodup ma f g hgf md).1 hcur
  obtain ⟨-, q2, q3⟩ := sampleField_spec ph s ho.detNodup a f groups h3 md hmap cols (h5 _ hp)
  refine ⟨g, ma, hgf, forall₂_of_get q2.symm ?_⟩
  intro k d xs hd hx
  obtain ⟨nz, n1, n2⟩ := q3 k d xs hd hx
  refine ⟨nz, noiseOf_ok ph s a f d nz n1, ?_⟩
  by_cases hsig : a.signal = true
  · rw [if_pos hsig] at n2 ⊢
    obtain ⟨c, sg, c1, c2, c3, c4⟩ := n2
    obtain ⟨c', e1, ms, e2⟩ := forall₂_get hF k d hd
    rw [c1] at e1
    simp only [Option.some.injEq] at e1
    subst e1
    rw [hax] at c2
    exact ⟨c, sg, single_column ph s g ma d _ e2 0 c rfl, c2, c3, c4⟩
  · rw [if_neg hsig] at n2 ⊢
    exact n2

/-! ### Sampling is refused after a change -/

/-- No map is marked as consistent. -/
def NoTrue (s : State F D O X G M K) : Prop := ∀ f, s.consistent.get? f ≠ some true

/-- Only fields that exist and are mapped can be marked as consistent. -/
def Tame (s : State F D O X G M K) : Prop :=
  ∀ f, s.consistent.get? f = some true → (s.fields.get? f).isSome ∧ (s.maps.get? f).isSome

theorem mapLoop_tame (ph : Phys F D O X G B H M P V T S Q K) (groups : List (List Name))
    (a : MapArgs B Q) (fs : List Name) (s : State F D O X G M K) (ht : Tame s) :
    Tame (mapLoop ph groups a s fs).1 := by
  induction fs generalizing s with
  | nil => exact ht
  | cons f rest ih =>
    simp only [mapLoop]
    rcases hf : s.fields.get? f with _ | g
    · exact ht
    rcases hm : mapField ph s groups a g with e | m
    · simp only [hm]; exact ht
    simp only [hm]
    refine ih _ (fun k hk => ?_)
    simp only [PyDict.get?_set] at hk ⊢
    by_cases he : f = k
    · subst he; simp [hf]
    · simp only [he, if_false] at hk ⊢
      exact ht k hk

theorem dropField_tame (s : State F D O X G M K) (f : Name) (ht : Tame s) :
    Tame (dropField s f) := by
  intro k hk
  rw [dropField_cons] at hk
  by_cases h1 : k = f
  · subst h1
    exfalso
    by_cases h2 : s.maps.has k = true
    · simp [h2] at hk
    · simp [h2] at hk
      exact h2 (ht k hk).2
  · simp only [h1, false_and, if_false] at hk
    rw [dropField_fields, dropField_maps, if_neg h1, if_neg h1]
    exact ht k hk

theorem Tame.none_left {s : State F D O X G M K} (ht : Tame s) (ho : Ordered s)
    (c : PyDict Name Bool) (h1 : ∀ k ∈ s.fieldNames, c.get? k = some false)
    (h2 : ∀ k, k ∉ s.fieldNames → c.get? k = s.consistent.get? k) (f : Name) :
    c.get? f ≠ some true := by
  by_cases hf : f ∈ s.fieldNames
  · rw [h1 f hf]; simp
  · rw [h2 f hf]
    intro ht'
    exact hf ((ho.fields f).2 (ht f ht').1)

/-- A change of detectors leaves no map consistent. -/
theorem changes_noTrue [DecidableEq F] [DecidableEq D] [LinearOrder K]
    (ph : Phys F D O X G B H M P V T S Q K) (s : State F D O X G M K) (op : Op F D O X G B K Q)
    (ho : Ordered s) (ht : Tame s) (hc : Changes ph s op) : NoTrue (step ph s op) := by
  cases op with
  | setResponse names m fn kw =>
    simp only [step]
    rcases setResponse_cases ph s names m fn kw with ⟨-, e, h⟩ | ⟨-, hf, h0, h1⟩
    · rw [hc.1] at h; cases h
    · obtain ⟨f, k, -, -, e⟩ := h1 hc.2
      refine ht.none_left ho _ ?_ ?_
      · intro x hx; rw [e, if_pos hx]
      · intro x hx; rw [e, if_neg hx]
  | addDetector a =>
    simp only [step]
    obtain ⟨n, hn⟩ := hc
    rcases addDetector_cases ph s ho a with ⟨e, u, v, w, h, -⟩ |
      ⟨n, x, c, u, v, w, h, -, -, -, hc, hc2, -⟩
    · rw [h] at hn; cases hn
    · rw [h]
      exact ht.none_left ho c hc hc2
  | delDetectors names =>
    simp only [step]
    rcases delDetectors_cases s names with ⟨-, e, h⟩ | ⟨-, h1, h2, hf, hd, h3, h4⟩
    · rw [hc.1] at h; cases h
    · have e := h4 hc.2
      refine ht.none_left ho _ ?_ ?_
      · intro x hx; rw [e, if_pos hx]
      · intro x hx; rw [e, if_neg hx]
  | addField a => exact absurd hc (by simp [Changes])
  | delFields names => exact absurd hc (by simp [Changes])
  | mapFields names a => exact absurd hc (by simp [Changes])
  | editGrid f g => exact absurd hc (by simp [Changes])

/-- Only mapping makes a map consistent. -/
theorem step_noTrue [DecidableEq F] [DecidableEq D] [LinearOrder K]
    (ph : Phys F D O X G B H M P V T S Q K) (s : State F D O X G M K) (op : Op F D O X G B K Q)
    (ho : Ordered s) (hn : NoTrue s) (hm : NoMapping op) : NoTrue (step ph s op) := by
  have ht : Tame s := fun f h => absurd h (hn f)
  cases op with
  | setResponse names m fn kw =>
    by_cases hc : Changes ph s (.setResponse names m fn kw : Op F D O X G B K Q)
    · exact changes_noTrue ph s _ ho ht hc
    simp only [step]
    rcases setResponse_cases ph s names m fn kw with ⟨h, -⟩ | ⟨hok, hf, h0, h1⟩
    · rw [h]; exact hn
    · have htg : targets s names = [] := by
        by_contra h
        exact hc ⟨hok, h⟩
      intro f
      rw [(h0 htg).2]
      exact hn f
  | addDetector a =>
    simp only [step]
    rcases addDetector_cases ph s ho a with ⟨e, u, v, w, h, -⟩ |
      ⟨n, x, c, u, v, w, h, -, -, -, hc, hc2, -⟩
    · rw [h]; exact hn
    · rw [h]; exact ht.none_left ho c hc hc2
  | delDetectors names =>
    by_cases hc : Changes ph s (.delDetectors names : Op F D O X G B K Q)
    · exact changes_noTrue ph s _ ho ht hc
    simp only [step]
    rcases delDetectors_cases s names with ⟨h, -⟩ | ⟨hok, h1, h2, hf, hd, h3, h4⟩
    · rw [h]; exact hn
    · have htg : names = [] := by
        by_contra h
        exact hc ⟨hok, h⟩
      intro f
      rw [h3 htg]
      exact hn f
  | addField a =>
    simp only [step]
    rcases addField_cases s a with ⟨e, h⟩ | ⟨n, g, j, h, -⟩
    · rw [h]; exact hn
    · rw [h]
      intro f
      simp only [PyDict.get?_set]
      split
      · simp
      · exact hn f
  | delFields names =>
    simp only [step, delFields]
    split
    · exact hn
    · rename_i hq
      clear ho ht hq hm
      show NoTrue (names.foldl dropField s)
      induction names generalizing s with
      | nil => exact hn
      | cons f rest ih =>
        rw [List.foldl_cons]
        refine ih (dropField s f) ?_
        intro k hk
        rw [dropField_cons] at hk
        split at hk
        · cases hk
        · exact hn k hk
  | mapFields names a => exact absurd hm (by simp [NoMapping])
  | editGrid f g => exact hn

theorem step_tame [DecidableEq F] [DecidableEq D] [LinearOrder K]
    (ph : Phys F D O X G B H M P V T S Q K) (s : State F D O X G M K) (op : Op F D O X G B K Q)
    (ho : Ordered s) (ht : Tame s) : Tame (step ph s op) := by
  cases op with
  | setResponse names m fn kw =>
    by_cases hc : Changes ph s (.setResponse names m fn kw : Op F D O X G B K Q)
    · exact fun f h => absurd h (changes_noTrue ph s _ ho ht hc f)
    simp only [step]
    rcases setResponse_cases ph s names m fn kw with ⟨h, -⟩ | ⟨hok, hf, h0, h1⟩
    · rw [h]; exact ht
    · have htg : targets s names = [] := by
        by_contra h
        exact hc ⟨hok, h⟩
      intro f h
      rw [(h0 htg).2] at h
      rw [hf.fields, hf.maps]
      exact ht f h
  | addDetector a =>
    by_cases hc : Changes ph s (.addDetector a : Op F D O X G B K Q)
    · exact fun f h => absurd h (changes_noTrue ph s _ ho ht hc f)
    simp only [step]
    rcases addDetector_cases ph s ho a with ⟨e, u, v, w, h, -⟩ | ⟨n, x, c, u, v, w, h, -⟩
    · rw [h]; exact ht
    · exact absurd ⟨n, by rw [h]⟩ hc
  | delDetectors names =>
    by_cases hc : Changes ph s (.delDetectors names : Op F D O X G B K Q)
    · exact fun f h => absurd h (changes_noTrue ph s _ ho ht hc f)
    simp only [step]
    rcases delDetectors_cases s names with ⟨h, -⟩ | ⟨hok, h1, h2, hf, hd, h3, h4⟩
    · rw [h]; exact ht
    · have htg : names = [] := by
        by_contra h
        exact hc ⟨hok, h⟩
      intro f h
      rw [h3 htg] at h
      rw [hf.fields, hf.maps]
      exact ht f h
  | addField a =>
    simp only [step]
    rcases addField_cases s a with ⟨e, h⟩ | ⟨n, g, j, h, -⟩
    · rw [h]; exact ht
    · rw [h]
      intro f hf
      simp only [PyDict.get?_set] at hf ⊢
      by_cases hk : n = f
      · simp [hk] at hf
      · simp only [hk, if_false] at hf ⊢
        exact ht f hf
  | delFields names =>
    simp only [step, delFields]
    split
    · exact ht
    · rename_i hq
      clear ho hq
      show Tame (names.foldl dropField s)
      induction names generalizing s with
      | nil => exact ht
      | cons f rest ih =>
        rw [List.foldl_cons]
        exact ih (dropField s f) (dropField_tame s f ht)
  | mapFields names a =>
    simp only [step, mapFields]
    split
    · exact ht
    split
    · exact ht
    split
    · exact ht
    split
    · exact ht
    · exact mapLoop_tame ph _ a _ s ht
  | editGrid f g =>
    intro k hk
    simp only [step] at hk ⊢
    have := ht k hk
    refine ⟨?_, this.2⟩
    split
    · rw [PyDict.get?_set]
      split
      · rfl
      · exact this.1
    · exact this.1

theorem run_tame [DecidableEq F] [DecidableEq D] [LinearOrder K]
    (ph : Phys F D O X G B H M P V T S Q K) (ops : List (Op F D O X G B K Q))
    (s : State F D O X G M K) (ho : Ordered s) (ht : Tame s) : Tame (run ph s ops) := by
  induction ops generalizing s with
  | nil => exact ht
  | cons op rest ih => exact ih _ (step_ordered ph s op ho) (step_tame ph s op ho ht)

theorem run_noTrue [DecidableEq F] [DecidableEq D] [LinearOrder K]
    (ph : Phys F D O X G B H M P V T S Q K) (ops : List (Op F D O X G B K Q))
    (s : State F D O X G M K) (ho : Ordered s) (hn : NoTrue s)
    (hm : ∀ op ∈ ops, NoMapping op) : NoTrue (run ph s ops) := by
  induction ops generalizing s with
  | nil => exact hn
  | cons op rest ih =>
    exact ih _ (step_ordered ph s op ho) (step_noTrue ph s op ho hn (hm op (by simp)))
      (fun o h => hm o (List.mem_cons_of_mem _ h))

theorem sampleFields_refused [DecidableEq O] (ph : Phys F D O X G B H M P V T S Q K)
    (s : State F D O X G M K) (ho : Ordered s) (hn : NoTrue s) (names : List Name)
    (a : SampleArgs P T S) (hne : names ≠ [] ∨ s.fieldNames ≠ []) :
    sampleFields ph s names a = .error .value := by
  unfold sampleFields
  have hch : chosenFields s names = .error .value ∨ ∃ f fs, chosenFields s names = .ok (f :: fs) ∧
      f ∈ s.fieldNames := by
    unfold chosenFields
    by_cases h1 : names = []
    · rw [if_pos h1]
      rcases hf : s.fieldNames with _ | ⟨f, fs⟩
      · exact absurd hf (hne.resolve_left (by simpa using h1))
      · right; exact ⟨f, fs, rfl, by simp⟩
    · rw [if_neg h1]
      rcases hk : checkNames s.fields.keys names with e | u
      · left
        unfold checkNames at hk
        split at hk
        · split at hk
          · cases hk
          · cases hk; rfl
        · cases hk; rfl
      · right
        cases names with
        | nil => exact absurd rfl h1
        | cons f fs =>
          refine ⟨f, fs, rfl, ?_⟩
          rw [ho.fields f, ← PyDict.mem_keys_iff]
          exact (checkNames_ok hk).1 f (by simp)
  rcases hch with h | ⟨f, fs, h, hf⟩
  · rw [h]
  · rw [h]
    simp only [mapE]
    have : checkConsistent s f = .error .value := by
      unfold checkConsistent
      have h1 := ho.flags f hf
      have h2 := hn f
      rcases hc : s.consistent.get? f with _ | b
      · rw [hc] at h1; cases h1
      · cases b
        · rfl
        · rw [hc] at h2; exact absurd rfl h2
    rw [this]

/-- C39: once detectors or responses have changed, sampling is refused (`ValueError`) for
every field, whatever else happens, until fields are mapped again. -/
theorem C39_refused [DecidableEq F] [DecidableEq D] [DecidableEq O] [LinearOrder K]
    (ph : Phys F D O X G B H M P V T S Q K) (x : Setup F D K)
    (before after : List (Op F D O X G B K Q)) (op : Op F D O X G B K Q)
    (hc : Changes ph (run ph (fresh x) before) op) (hm : ∀ o ∈ after, NoMapping o)
    (s : State F D O X G M K) (hs : s = run ph (fresh x) (before ++ op :: after))
    (names : List Name) (a : SampleArgs P T S) (hne : names ≠ [] ∨ s.fieldNames ≠ []) :
    sampleFields ph s names a = .error .value := by
  have ho1 := run_ordered ph before (fresh x : State F D O X G M K) (fresh_ordered x)
  have ht1 := run_tame ph before (fresh x : State F D O X G M K) (fresh_ordered x)
    (fun f h => by simp [fresh] at h)
  have e : s = run ph (step ph (run ph (fresh x) before) op) after := by
    rw [hs]; simp [run, List.foldl_append]
  have ho2 := step_ordered ph _ op ho1
  have hn := run_noTrue ph after _ ho2 (changes_noTrue ph _ op ho1 ht1 hc) hm
  refine sampleFields_refused ph s ?_ ?_ names a hne
  · rw [e]; exact run_ordered ph after _ ho2
  · rw [e]; exact hn

theorem signalLoop_congr (ph : Phys F D O X G B H M P V T S Q K) (s t : State F D O X G M K)
    (hd : t.detectors = s.detectors) (hn : t.detNames = s.detNames) (m : MapData X M)
    (a : SampleArgs P T S) (groups : List (List Name)) (acc : List (List V)) :
    signalLoop ph t m a acc groups = signalLoop ph s m a acc groups := by
  induction groups generalizing acc with
  | nil => rfl
  | cons gr rest ih =>
    cases gr with
    | nil => rfl
    | cons d ds => simp only [signalLoop, hd, hn, ih]

theorem sampleField_congr (ph : Phys F D O X G B H M P V T S Q K) (s t : State F D O X G M K)
    (hd : t.detectors = s.detectors) (hn : t.detNames = s.detNames) (hm : t.maps = s.maps)
    (groups : List (List Name)) (a : SampleArgs P T S) (f : Name) :
    sampleField ph t groups a f = sampleField ph s groups a f := by
  have : noiseOf ph t a f = noiseOf ph s a f := by
    funext d; simp only [noiseOf, hd]
  simp only [sampleField, hm, hn, this, signalLoop_congr ph s t hd hn]

/-- C39, against: a change, by other code, of a grid that was added by reference is not
noticed: sampling gives exactly what it gave before. -/
theorem C39_edit_unnoticed [DecidableEq F] [DecidableEq D] [DecidableEq O] [LinearOrder K]
    (ph : Phys F D O X G B H M P V T S Q K) (s : State F D O X G M K) (f : Name)
    (g : Field X G K) (names : List Name) (a : SampleArgs P T S) :
    sampleFields ph (step ph s (.editGrid f g)) names a = sampleFields ph s names a := by
  have hk : ∀ n, n ∈ (step ph s (.editGrid f g : Op F D O X G B K Q)).fields.keys ↔
      n ∈ s.fields.keys := by
    intro n
    simp only [step]
    split
    · rename_i hf
      rw [PyDict.mem_keys_iff, PyDict.mem_keys_iff, PyDict.get?_set]
      by_cases he : f = n
      · subst he
        unfold PyDict.has at hf
        simp [hf]
      · simp [he]
    · rfl
  have hc : chosenFields (step ph s (.editGrid f g : Op F D O X G B K Q)) names =
      chosenFields s names := by
    unfold chosenFields
    have : checkNames (step ph s (.editGrid f g : Op F D O X G B K Q)).fields.keys names =
        checkNames s.fields.keys names := by
      unfold checkNames
      have : names.all (fun n =>
          (step ph s (.editGrid f g : Op F D O X G B K Q)).fields.keys.contains n) =
          names.all (fun n => s.fields.keys.contains n) := by
        congr 1
        funext n
        rw [Bool.eq_iff_iff, List.contains_iff_mem, List.contains_iff_mem, hk]
      rw [this]
    rw [this]
    rfl
  unfold sampleFields
  have hs : sampleField ph (step ph s (.editGrid f g : Op F D O X G B K Q)) =
      sampleField ph s := by
    funext groups a' k
    exact sampleField_congr ph s (step ph s (.editGrid f g : Op F D O X G B K Q)) rfl rfl rfl
      groups a' k
  rw [hc, hs]
  rfl

/-- C39 in full: after any history, including changes of grids held by reference, samples
belong to an up-to-date map. -/
def C39_full : Prop :=
  ∀ (F D O X G B H M P V T S Q K : Type) [DecidableEq F] [DecidableEq D] [DecidableEq O]
    [LinearOrder K] (ph : Phys F D O X G B H M P V T S Q K) (x : Setup F D K)
    (ops : List (Op F D O X G B K Q)) (names : List Name) (a : SampleArgs P T S)
    (out : List (Name × List (List V))),
    sampleFields ph (run ph (fresh x) ops) names a = .ok out →
    ∀ p ∈ out, UpToDate ph (run ph (fresh x) ops : State F D O X G M K) p.1

/-! ### C40 -/

/-- C40: the groups of detectors that share a beam contain each detector exactly once. -/
theorem C40_beam_groups [DecidableEq F] [DecidableEq D] [LinearOrder K]
    (ph : Phys F D O X G B H M P V T S Q K) (x : Setup F D K) (ops : List (Op F D O X G B K Q))
    (s : State F D O X G M K) (hs : s = run ph (fresh x) ops) (a : MapArgs B Q)
    (groups : List (List Name)) (h : beamGroups s a = .ok groups) :
    groups.flatten.Nodup ∧ (∀ d, d ∈ groups.flatten ↔ d ∈ s.detNames) ∧
    (a.beam = none → ∀ gr ∈ groups, ∀ d ∈ gr, ∀ d' ∈ gr, ∃ r,
      (s.detectors.get? d).bind (·.spatial) = some r ∧
      (s.detectors.get? d').bind (·.spatial) = some r) := by
  have ho : Ordered s := hs ▸ run_ordered ph ops _ (fresh_ordered x)
  unfold beamGroups at h
  rcases hb : a.beam with _ | b
  · rw [hb] at h
    simp only at h
    obtain ⟨h1, h2⟩ := cloneGroups_spec _ _ (sameSpatial_refl s) groups h
    refine ⟨h1.nodup_iff.2 ho.detNodup, fun d => h1.mem_iff, fun _ gr hgr d hd d' hd' => ?_⟩
    obtain ⟨d0, ds, -, h3⟩ := h2 gr hgr
    obtain ⟨r, q1, q2⟩ := sameSpatial_true (h3 d hd)
    obtain ⟨r', q3, q4⟩ := sameSpatial_true (h3 d' hd')
    rw [q2] at q4
    simp only [Option.some.injEq] at q4
    subst q4
    exact ⟨r, q1, q3⟩
  · rw [hb] at h
    simp only [Except.ok.injEq] at h
    subst h
    exact ⟨by simpa using ho.detNodup, fun d => by simp, fun h => by cases h⟩

/-- C40: the groups of detectors that share a pointing contain each detector exactly once. -/
theorem C40_pointing_groups [DecidableEq F] [DecidableEq D] [DecidableEq O] [LinearOrder K]
    (ph : Phys F D O X G B H M P V T S Q K) (x : Setup F D K) (ops : List (Op F D O X G B K Q))
    (s : State F D O X G M K) (hs : s = run ph (fresh x) ops)
    (groups : List (List Name)) (h : cloneGroups (samePointing s) s.detNames = .ok groups) :
    groups.flatten.Nodup ∧ (∀ d, d ∈ groups.flatten ↔ d ∈ s.detNames) ∧
    (∀ gr ∈ groups, ∀ d ∈ gr, ∀ d' ∈ gr, ∃ e e',
      s.detectors.get? d = some e ∧ s.detectors.get? d' = some e' ∧ e.pointing = e'.pointing) := by
  have ho : Ordered s := hs ▸ run_ordered ph ops _ (fresh_ordered x)
  obtain ⟨h1, h2⟩ := cloneGroups_spec _ _ (samePointing_refl s) groups h
  refine ⟨h1.nodup_iff.2 ho.detNodup, fun d => h1.mem_iff, fun gr hgr d hd d' hd' => ?_⟩
  obtain ⟨d0, ds, -, h3⟩ := h2 gr hgr
  obtain ⟨y, y0, q1, q2, q3⟩ := samePointing_true (h3 d hd)
  obtain ⟨z, z0, q4, q5, q6⟩ := samePointing_true (h3 d' hd')
  rw [q2] at q5
  simp only [Option.some.injEq] at q5
  subst q5
  exact ⟨y, z, q1, q4, by rw [q3, q6]⟩

/-- C40: mapping a field with all detectors succeeds exactly if there is a detector and
mapping succeeds with each detector alone; the maps are then those of each detector alone, in
the order of the detector list. -/
theorem C40_map [DecidableEq F] [DecidableEq D] [LinearOrder K]
    (ph : Phys F D O X G B H M P V T S Q K) (x : Setup F D K) (ops : List (Op F D O X G B K Q))
    (s : State F D O X G M K) (hs : s = run ph (fresh x) ops) (f : Name) (g : Field X G K)
    (hf : s.fields.get? f = some g) (a : MapArgs B Q) (md : MapData X M) :
    ((mapFields ph s [f] a).2 = .ok () ∧ (mapFields ph s [f] a).1.maps.get? f = some md) ↔
    (s.detNames ≠ [] ∧ md.axes = g.axes ∧
      List.Forall₂ (fun d c => (mapFields ph (only s d) [f] a).2 = .ok () ∧
        (mapFields ph (only s d) [f] a).1.maps.get? f = some ⟨g.axes, [c]⟩)
        s.detNames md.cols) := by
  have ho : Ordered s := hs ▸ run_ordered ph ops _ (fresh_ordered x)
  rw [mapFields_one_iff, cur_iff ph s ho.detNodup a f g hf]
  simp only [mapFields_one_iff, cur_only_iff ph s a f g hf]
  constructor
  · rintro ⟨h1, h2, h3, h4⟩
    exact ⟨h2, h3, h4.imp (fun d c h => ⟨h1, h⟩)⟩
  · rintro ⟨h2, h3, h4⟩
    refine ⟨?_, h2, h3, h4.imp (fun d c h => h.2)⟩
    obtain ⟨d, ds, hd⟩ := List.exists_cons_of_ne_nil h2
    obtain ⟨c, -, h, -⟩ := forall₂_get h4 0 d (by simp [hd])
    exact h

/-- C40: sampling with all detectors gives for each detector what sampling with that detector
alone gives. -/
theorem C40_samples [DecidableEq F] [DecidableEq D] [DecidableEq O] [LinearOrder K]
    (ph : Phys F D O X G B H M P V T S Q K) (x : Setup F D K) (ops : List (Op F D O X G B K Q))
    (s : State F D O X G M K) (hs : s = run ph (fresh x) ops) (f : Name)
    (a : SampleArgs P T S) (cols : List (List V))
    (h : sampleFields ph s [f] a = .ok [(f, cols)]) :
    cols.length = s.detNames.length ∧
    ∀ (k : ℕ) d xs, s.detNames[k]? = some d → cols[k]? = some xs →
      sampleFields ph (onlyMapped s d k) [f] a = .ok [(f, [xs])] := by
  have ho : Ordered s := hs ▸ run_ordered ph ops _ (fresh_ordered x)
  have h' := h
  obtain ⟨fs, groups, h1, h2, h3, h4, h5⟩ := sampleFields_ok ph s [f] a _ h
  have hfs : fs = [f] := by rw [← h4]; rfl
  subst hfs
  have hsf := h5 (f, cols) (by simp)
  rcases hmap : s.maps.get? f with _ | md
  · unfold sampleField at hsf
    rw [hmap] at hsf
    cases hsf
  obtain ⟨q1, q2, q3⟩ := sampleField_spec ph s ho.detNodup a f groups h3 md hmap cols hsf
  refine ⟨q2, ?_⟩
  intro k d xs hd hx
  obtain ⟨nz, n1, n2⟩ := q3 k d xs hd hx
  obtain ⟨det, hdet⟩ := Option.isSome_iff_exists.1 ((ho.dets d).1 (List.mem_of_getElem? hd))
  have hmap' : (onlyMapped s d k).maps.get? f = some ⟨md.axes, (md.cols[k]?).toList⟩ := by
    have : ∀ l : PyDict Name (MapData X M), PyDict.get? (l.map fun p =>
        (p.1, (⟨p.2.axes, (p.2.cols[k]?).toList⟩ : MapData X M))) f =
        (l.get? f).map fun m => ⟨m.axes, (m.cols[k]?).toList⟩ := by
      intro l
      induction l with
      | nil => rfl
      | cons p l ih =>
        obtain ⟨n, v⟩ := p
        simp only [List.map_cons, PyDict.get?]
        split
        · rfl
        · exact ih
    show PyDict.get? (s.maps.map _) f = _
    rw [this, hmap]
    rfl
  have hgr : cloneGroups (samePointing (onlyMapped s d k)) (onlyMapped s d k).detNames =
      .ok [[d]] := by
    have e : samePointing (onlyMapped s d k) d d = .ok true := by
      unfold samePointing
      have : (onlyMapped s d k).detectors.get? d = some det := hdet
      rw [this]
      simp
    show groupLoop (samePointing (onlyMapped s d k)) 1 [d] = _
    simp [groupLoop, mapE, e]
  unfold sampleFields at h' ⊢
  have hch : chosenFields (onlyMapped s d k) [f] = chosenFields s [f] := rfl
  have hcc : mapE (checkConsistent (onlyMapped s d k)) [f] = mapE (checkConsistent s) [f] := rfl
  rw [hch, h1]
  rw [h1] at h'
  simp only at h' ⊢
  rw [hcc]
  rcases hck : mapE (checkConsistent s) [f] with e | us
  · rw [hck] at h'; cases h'
  rw [hck] at h'
  simp only at h' ⊢
  split at h'
  · cases h'
  split at h'
  · cases h'
  split at h'
  · cases h'
  rename_i c1 c2 c3
  rw [if_neg c1, if_neg c2, if_neg c3, hgr]
  have hgoal : sampleField ph (onlyMapped s d k) [[d]] a f = .ok [xs] := by
    unfold sampleField
    rw [hmap']
    have hnz : mapE (noiseOf ph (onlyMapped s d k) a f) (onlyMapped s d k).detNames = .ok [nz] := by
      have : noiseOf ph (onlyMapped s d k) a f d = .ok nz := n1
      show mapE (noiseOf ph (onlyMapped s d k) a f) [d] = _
      simp only [mapE, this]
    simp only [hnz]
    by_cases hsig : a.signal = true
    · rw [if_pos hsig] at n2
      simp only [hsig, if_true]
      obtain ⟨c, sg, e1, ⟨det', e2, e3⟩, e4, e5⟩ := n2
      rw [hdet] at e2
      simp only [Option.some.injEq] at e2
      subst e2
      have hl : signalLoop ph (onlyMapped s d k) ⟨md.axes, (md.cols[k]?).toList⟩ a [nz] [[d]] =
          .ok [xs] := by
        have hdet' : (onlyMapped s d k).detectors.get? d = some det := hdet
        have hi : groupIdxs (onlyMapped s d k).detNames [d] = [0] := by
          show groupIdxs [d] [d] = [0]
          simp [groupIdxs]
        simp only [signalLoop, hdet', hi, sampleCols, mapE, e1, Option.toList_some,
          List.getElem?_cons_zero, e3, List.zip_cons_cons, List.zip_nil_right, addGroup,
          addArrays, e4, if_true, List.set_cons_zero, e5]
      rw [hl]
      simp
    · rw [if_neg hsig] at n2
      simp only [hsig, Bool.false_eq_true, if_false, n2]
      simp
  simp only [mapE, hgoal]

end Verif.Inst
