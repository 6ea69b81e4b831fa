import Verif.Props.InstMap
import Std.Data.String.ToNat

/-!
# C41, C76: detectors, their names and their responses
-/

set_option linter.unusedSectionVars false

namespace Verif.Inst
open Spec
variable {F D O X G B H M P V T S Q K : Type}

/-- C41: after every history the names of detectors are unique, so are those of fields, and
they are the names of the detectors and fields that exist. -/
theorem C41_unique [DecidableEq F] [DecidableEq D] [LinearOrder K]
    (ph : Phys F D O X G B H M P V T S Q K) (x : Setup F D K) (ops : List (Op F D O X G B K Q))
    (s : State F D O X G M K) (hs : s = run ph (fresh x) ops) :
    s.detNames.Nodup ∧ s.fieldNames.Nodup ∧
    (∀ n, n ∈ s.detNames ↔ (s.detectors.get? n).isSome) ∧
    (∀ n, n ∈ s.fieldNames ↔ (s.fields.get? n).isSome) := by
  have ho : Ordered s := hs ▸ run_ordered ph ops _ (fresh_ordered x)
  exact ⟨ho.detNodup, ho.fieldNodup, ho.dets, ho.fields⟩

/-- C41: if adding a detector fails, the instrument is exactly as before, unless the name
given is `'instrument'`; with that name everything but the defaults is as before. -/
theorem C41_failed_partial [DecidableEq F] [DecidableEq D] [LinearOrder K]
    (ph : Phys F D O X G B H M P V T S Q K) (x : Setup F D K) (ops : List (Op F D O X G B K Q))
    (s : State F D O X G M K) (hs : s = run ph (fresh x) ops) (a : DetArgs F D O) (e : Err)
    (h : (addDetector ph s a).2 = .error e) :
    (a.name ≠ some "instrument" → (addDetector ph s a).1 = s) ∧
    ∃ u v w, (addDetector ph s a).1 = { s with spatial := u, spectral := v, noise := w } := by
  have ho : Ordered s := hs ▸ run_ordered ph ops _ (fresh_ordered x)
  rcases addDetector_cases ph s ho a with ⟨e', u, v, w, h', hk⟩ | ⟨n, y, c, u, v, w, h', -⟩
  · rw [h']
    refine ⟨fun hn => ?_, u, v, w, rfl⟩
    obtain ⟨rfl, rfl, rfl⟩ := hk hn
    rfl
  · rw [h'] at h; cases h

/-- C41 in full: a failed call changes nothing, whatever the name. -/
def C41_full : Prop :=
  ∀ (F D O X G B H M P V T S Q K : Type) [DecidableEq F] [DecidableEq D] [LinearOrder K]
    (ph : Phys F D O X G B H M P V T S Q K) (x : Setup F D K) (ops : List (Op F D O X G B K Q))
    (a : DetArgs F D O) (e : Err),
    (addDetector ph (run ph (fresh x) ops : State F D O X G M K) a).2 = .error e →
    (addDetector ph (run ph (fresh x) ops : State F D O X G M K) a).1 = run ph (fresh x) ops

/-- C41, against: a call with the name `'instrument'`, a good spatial response and a spectral
response that is not a function fails and replaces the default spatial response. -/
theorem C41_instrument_failed [DecidableEq F] [DecidableEq D] [LinearOrder K]
    (ph : Phys F D O X G B H M P V T S Q K) (s : State F D O X G M K)
    (hn : "instrument" ∉ s.detNames) (f g : F) (k : D) (a : DetArgs F D O)
    (ha : a = ⟨some "instrument", .fn f, .dict k, .bad, .none, .fn g, .none, .none⟩) :
    (addDetector ph s a).2 = .error .value ∧
      (addDetector ph s a).1.spatial = ⟨some f, some k⟩ := by
  subst ha
  have hc : checkNames (s.detNames ++ ["instrument"]) ["instrument"] = .ok () :=
    checkNames_one (by simp)
  have h0 : ∀ t : State F D O X G M K, targets t ["instrument"] = [] := targets_instrument
  have hk : ∀ l : List Name, checkNames l [] = .ok () := fun l => by simp [checkNames]
  simp [addDetector, detChecks, hn, noFunction, noKeywords, choose, setThree, setResponse,
    responseArgs, h0, hk, newResponse, newDefault, setDefault, offsetOf, delDetectors, hc]
  unfold markAll
  simp

/-- C41, against: if a detector of the name `'instrument'` is added, it has no responses, and
mapping any field fails from then on until it is removed. -/
theorem C41_instrument_added [DecidableEq F] [DecidableEq D] [LinearOrder K]
    (ph : Phys F D O X G B H M P V T S Q K) (x : Setup F D K) (ops : List (Op F D O X G B K Q))
    (s s' : State F D O X G M K) (hs : s = run ph (fresh x) ops) (a : DetArgs F D O)
    (h : addDetector ph s a = (s', .ok "instrument")) (f : Name) (g : Field X G K)
    (hf : s'.fields.get? f = some g) (ma : MapArgs B Q) :
    (∃ det, s'.detectors.get? "instrument" = some det ∧
      det.spatial = none ∧ det.spectral = none ∧ det.noise = none) ∧
    ¬ ∃ md, (mapFields ph s' [f] ma).2 = .ok () ∧
      (mapFields ph s' [f] ma).1.maps.get? f = some md := by
  have ho : Ordered s := hs ▸ run_ordered ph ops _ (fresh_ordered x)
  have ho' : Ordered s' := by
    have := step_ordered ph s (.addDetector a : Op F D O X G B K Q) ho
    simp only [step, h] at this
    exact this
  rcases addDetector_cases ph s ho a with ⟨e', u, v, w, h', hk⟩ |
    ⟨n, y, c, u, v, w, h', hn, -, -, -, -, -, hi⟩
  · rw [h'] at h; simp at h
  · rw [h'] at h
    simp only [Prod.mk.injEq, Except.ok.injEq] at h
    obtain ⟨h1, h2⟩ := h
    obtain ⟨q1, q2, q3⟩ := hi h2
    subst h2
    have hdet : s'.detectors.get? "instrument" = some y := by
      rw [← h1]
      simp [PyDict.get?_set]
    refine ⟨⟨y, hdet, q1, q2, q3⟩, ?_⟩
    rintro ⟨md, hmd⟩
    have hcur := (mapFields_one_iff ph s' ma f md).1 hmd
    obtain ⟨-, -, -, hF⟩ := (cur_iff ph s' ho'.detNodup ma f g hf md).1 hcur
    have hin : "instrument" ∈ s'.detNames := by rw [← h1]; simp
    obtain ⟨k, hk⟩ := List.getElem?_of_mem hin
    obtain ⟨c', -, ms, hms⟩ := forall₂_get hF k "instrument" hk
    obtain ⟨det, cube, b, hh, r, e1, -, -, -, e5, -⟩ :=
      single_column ph s' g ma "instrument" _ hms 0 c' rfl
    rw [hdet] at e1
    simp only [Option.some.injEq] at e1
    subst e1
    rw [q2] at e5
    cases e5

/-! ### Automatic names -/

/-- Names that look like numbers were given automatically. -/
structure Counted (s : State F D O X G M K) : Prop where
  dets : ∀ n ∈ s.detNames, ∀ k : ℕ, n = Nat.repr k → k < s.detCounter
  fields : ∀ n ∈ s.fieldNames, ∀ k : ℕ, n = Nat.repr k → k < s.fieldCounter

theorem erase_sub (l m : List Name) (n : Name) (h : n ∈ l.foldl (fun t d => t.erase d) m) :
    n ∈ m := by
  induction l generalizing m with
  | nil => exact h
  | cons a l ih => exact List.mem_of_mem_erase (ih _ h)

theorem mapLoop_frame (ph : Phys F D O X G B H M P V T S Q K) (groups : List (List Name))
    (a : MapArgs B Q) (fs : List Name) (s : State F D O X G M K) :
    (mapLoop ph groups a s fs).1.detNames = s.detNames ∧
    (mapLoop ph groups a s fs).1.fieldNames = s.fieldNames ∧
    (mapLoop ph groups a s fs).1.detCounter = s.detCounter ∧
    (mapLoop ph groups a s fs).1.fieldCounter = s.fieldCounter := by
  induction fs generalizing s with
  | nil => exact ⟨rfl, rfl, rfl, rfl⟩
  | cons f rest ih =>
    simp only [mapLoop]
    split
    · exact ⟨rfl, rfl, rfl, rfl⟩
    split
    · exact ⟨rfl, rfl, rfl, rfl⟩
    exact ih _

theorem step_counted [DecidableEq F] [DecidableEq D] [LinearOrder K]
    (ph : Phys F D O X G B H M P V T S Q K) (s : State F D O X G M K) (op : Op F D O X G B K Q)
    (ho : Ordered s) (hc : Counted s) (hp : PlainNames op) : Counted (step ph s op) := by
  cases op with
  | setResponse names m fn kw =>
    simp only [step]
    rcases setResponse_cases ph s names m fn kw with ⟨h, -⟩ | ⟨-, hf, -, -⟩
    · rw [h]; exact hc
    · constructor
      · rw [hf.detNames, hf.detCounter]; exact hc.dets
      · rw [hf.fieldNames, hf.fieldCounter]; exact hc.fields
  | addDetector a =>
    simp only [step]
    rcases addDetector_cases ph s ho a with ⟨e, u, v, w, h, -⟩ | ⟨n, y, c, u, v, w, h, hn, -⟩
    · rw [h]; exact ⟨hc.dets, hc.fields⟩
    · rw [h]
      refine ⟨?_, hc.fields⟩
      intro n' hn' k hk
      simp only at hn' ⊢
      rcases List.mem_append.1 hn' with h1 | h1
      · exact Nat.lt_succ_of_lt (hc.dets n' h1 k hk)
      · simp only [List.mem_singleton] at h1
        subst h1
        cases ha : a.name with
        | none =>
          rw [ha] at hn
          simp only [Option.getD_none] at hn
          rw [hn] at hk
          have := Nat.repr_injective hk
          omega
        | some n0 =>
          rw [ha] at hn
          simp only [Option.getD_some] at hn
          exact absurd (hn ▸ hk) (hp n0 ha k)
  | delDetectors names =>
    simp only [step, delDetectors]
    split
    · exact hc
    · have : Counted ({ s with
          detectors := names.foldl (fun t d => t.erase d) s.detectors
          detNames := names.foldl (fun t d => t.erase d) s.detNames } : State F D O X G M K) :=
        ⟨fun n h k hk => hc.dets n (erase_sub names _ n h) k hk, hc.fields⟩
      split
      · exact ⟨this.dets, this.fields⟩
      · exact this
  | addField a =>
    simp only [step]
    rcases addField_cases s a with ⟨e, h⟩ | ⟨n, g, j, h, hn, -⟩
    · rw [h]; exact hc
    · rw [h]
      refine ⟨hc.dets, ?_⟩
      intro n' hn' k hk
      simp only at hn' ⊢
      rcases List.mem_append.1 hn' with h1 | h1
      · exact Nat.lt_succ_of_lt (hc.fields n' h1 k hk)
      · simp only [List.mem_singleton] at h1
        subst h1
        cases ha : a.name with
        | none =>
          rw [ha] at hn
          simp only [Option.getD_none] at hn
          rw [hn] at hk
          have := Nat.repr_injective hk
          omega
        | some n0 =>
          rw [ha] at hn
          simp only [Option.getD_some] at hn
          exact absurd (hn ▸ hk) (hp n0 ha k)
  | delFields names =>
    simp only [step, delFields]
    split
    · exact hc
    · rename_i hq
      clear ho hq hp
      show Counted (names.foldl dropField s)
      induction names generalizing s with
      | nil => exact hc
      | cons f rest ih =>
        rw [List.foldl_cons]
        refine ih (dropField s f) ?_
        unfold dropField
        simp only
        split
        · exact ⟨hc.dets, fun n h k hk => hc.fields n (List.mem_of_mem_erase h) k hk⟩
        · exact ⟨hc.dets, fun n h k hk => hc.fields n (List.mem_of_mem_erase h) k hk⟩
  | mapFields names a =>
    simp only [step, mapFields]
    split
    · exact hc
    split
    · exact hc
    split
    · exact hc
    split
    · exact hc
    · obtain ⟨a1, a2, a3, a4⟩ := mapLoop_frame ph (by assumption) a (by assumption) s
      rename_i groups hgr
      constructor
      · intro n hn k hk
        rw [(mapLoop_frame ph groups a _ s).1] at hn
        rw [(mapLoop_frame ph groups a _ s).2.2.1]
        exact hc.dets n hn k hk
      · intro n hn k hk
        rw [(mapLoop_frame ph groups a _ s).2.1] at hn
        rw [(mapLoop_frame ph groups a _ s).2.2.2]
        exact hc.fields n hn k hk
  | editGrid f g => exact ⟨hc.dets, hc.fields⟩

theorem run_counted [DecidableEq F] [DecidableEq D] [LinearOrder K]
    (ph : Phys F D O X G B H M P V T S Q K) (ops : List (Op F D O X G B K Q))
    (s : State F D O X G M K) (ho : Ordered s) (hc : Counted s)
    (hp : ∀ op ∈ ops, PlainNames op) : Counted (run ph s ops) := by
  induction ops generalizing s with
  | nil => exact hc
  | cons op rest ih =>
    exact ih _ (step_ordered ph s op ho) (step_counted ph s op ho hc (hp op (by simp)))
      (fun o h => hp o (List.mem_cons_of_mem _ h))

/-- C41: as long as nobody names a detector or a field by a number, the names chosen
automatically are never in use. -/
theorem C41_automatic_partial [DecidableEq F] [DecidableEq D] [LinearOrder K]
    (ph : Phys F D O X G B H M P V T S Q K) (x : Setup F D K) (ops : List (Op F D O X G B K Q))
    (hp : ∀ op ∈ ops, PlainNames op) (s : State F D O X G M K) (hs : s = run ph (fresh x) ops) :
    Nat.repr s.detCounter ∉ s.detNames ∧ Nat.repr s.fieldCounter ∉ s.fieldNames := by
  have hc : Counted s := hs ▸ run_counted ph ops _ (fresh_ordered x)
    ⟨fun n h => by simp [fresh] at h, fun n h => by simp [fresh] at h⟩ hp
  exact ⟨fun h => absurd (hc.dets _ h _ rfl) (lt_irrefl _),
    fun h => absurd (hc.fields _ h _ rfl) (lt_irrefl _)⟩

/-- C41: without such names adding without a name is never refused because of the name: the
call does exactly what it does with the automatic name written out, and a detector or field
that is added gets that new name. -/
theorem C41_automatic_name_partial [DecidableEq F] [DecidableEq D] [LinearOrder K]
    (ph : Phys F D O X G B H M P V T S Q K) (x : Setup F D K) (ops : List (Op F D O X G B K Q))
    (hp : ∀ op ∈ ops, PlainNames op) (s : State F D O X G M K) (hs : s = run ph (fresh x) ops)
    (a : DetArgs F D O) (hn : a.name = none) (n : Name) (h : (addDetector ph s a).2 = .ok n) :
    n ∉ s.detNames ∧ (addDetector ph s a).1.detNames = s.detNames ++ [n] ∧
      n = Nat.repr s.detCounter := by
  have ho : Ordered s := hs ▸ run_ordered ph ops _ (fresh_ordered x)
  rcases addDetector_cases ph s ho a with ⟨e, u, v, w, h', -⟩ | ⟨m, y, c, u, v, w, h', hm, -⟩
  · rw [h'] at h; cases h
  · rw [h'] at h ⊢
    simp only [Except.ok.injEq] at h
    subst h
    rw [hn] at hm
    simp only [Option.getD_none] at hm
    exact ⟨hm ▸ (C41_automatic_partial ph x ops hp s hs).1, rfl, hm⟩

/-- C41, against: a detector named by the number that comes next makes every later automatic
name collide: adding without a name is refused, and refused again, since the counter does not
move. -/
theorem C41_number_blocks [DecidableEq F] [DecidableEq D] [LinearOrder K]
    (ph : Phys F D O X G B H M P V T S Q K) (s : State F D O X G M K) (ho : Ordered s)
    (b : DetArgs F D O) (hb : b.name = some (Nat.repr (s.detCounter + 1)))
    (h : (addDetector ph s b).2 = .ok (Nat.repr (s.detCounter + 1)))
    (tries : List (DetArgs F D O)) (ht : ∀ a ∈ tries, a.name = none) :
    ∀ a ∈ tries, addDetector ph
      (run ph (step ph s (.addDetector b : Op F D O X G B K Q)) (tries.map .addDetector)) a =
      (step ph s (.addDetector b : Op F D O X G B K Q), .error .value) := by
  have hs' : ∀ a : DetArgs F D O, a.name = none → addDetector ph
      (step ph s (.addDetector b : Op F D O X G B K Q)) a =
      (step ph s (.addDetector b : Op F D O X G B K Q), .error .value) := by
    intro a ha
    rcases addDetector_cases ph s ho b with ⟨e, u, v, w, h', -⟩ |
      ⟨m, y, c, u, v, w, h', hm, -⟩
    · rw [h'] at h; cases h
    · rw [hb] at hm
      simp only [Option.getD_some] at hm
      simp only [step, h']
      unfold addDetector detChecks
      simp [ha, hm]
  have hrun : ∀ l : List (DetArgs F D O), (∀ a ∈ l, a.name = none) →
      run ph (step ph s (.addDetector b : Op F D O X G B K Q)) (l.map .addDetector) =
      step ph s (.addDetector b : Op F D O X G B K Q) := by
    intro l
    induction l with
    | nil => intro _; rfl
    | cons a l ih =>
      intro hl
      have e : step ph (step ph s (.addDetector b : Op F D O X G B K Q))
          (.addDetector a : Op F D O X G B K Q) =
          step ph s (.addDetector b : Op F D O X G B K Q) := by
        show (addDetector ph _ a).1 = _
        rw [hs' a (hl a (by simp))]
      show run ph (step ph (step ph s (.addDetector b : Op F D O X G B K Q))
          (.addDetector a : Op F D O X G B K Q)) (l.map .addDetector) = _
      rw [e]
      exact ih (fun c hc => hl c (List.mem_cons_of_mem _ hc))
  intro a ha
  rw [hrun tries ht]
  exact hs' a (ht a ha)

/-- C41: adding a field, removing detectors or fields and setting responses change nothing if
they fail. -/
theorem C41_other_failures [LinearOrder K]
    (ph : Phys F D O X G B H M P V T S Q K) (s : State F D O X G M K) :
    (∀ a e, (addField s a).2 = .error e → (addField s a).1 = s) ∧
    (∀ names e, (delDetectors s names).2 = .error e → (delDetectors s names).1 = s) ∧
    (∀ names e, (delFields s names).2 = .error e → (delFields s names).1 = s) ∧
    (∀ names m fn kw e, (setResponse ph s names m fn kw).2 = .error e →
      (setResponse ph s names m fn kw).1 = s) := by
  refine ⟨?_, ?_, ?_, ?_⟩
  · intro a e h
    rcases addField_cases s a with ⟨e', h'⟩ | ⟨n, g, j, h', -⟩
    · rw [h']
    · rw [h'] at h; cases h
  · intro names e h
    rcases delDetectors_cases s names with ⟨h1, -⟩ | ⟨h1, -⟩
    · exact h1
    · rw [h1] at h; cases h
  · intro names e h
    unfold delFields at h ⊢
    split
    · rfl
    · rename_i hq
      rw [hq] at h
      cases h
  · intro names m fn kw e h
    rcases setResponse_cases ph s names m fn kw with ⟨h1, -⟩ | ⟨h1, -⟩
    · exact h1
    · rw [h1] at h; cases h

/-! ### C76: responses are what was asked for -/

theorem setResponse_known (ph : Phys F D O X G B H M P V T S Q K) (s : State F D O X G M K)
    {n : Name} (hn : n ≠ "instrument") (hin : n ∈ s.detNames) (m : Mode) (fn : FnArg F)
    (kw : KwArg D) :
    setResponse ph s [n] m fn kw =
      match fn, kw with
      | .fn f, .none => (markAll { s with detectors := assign ph s.detectors [n] m f none }, .ok ())
      | .fn f, .dict k =>
        (markAll { s with detectors := assign ph s.detectors [n] m f (some k) }, .ok ())
      | _, _ => (s, .error .value) := by
  have hd : ¬ ([n].contains "instrument" = true) := by
    simp only [List.contains_cons, List.contains_nil, Bool.or_false, beq_iff_eq]
    exact fun e => hn e.symm
  unfold setResponse responseArgs
  simp only [targets_one s hn, checkNames_one hin, newDefault, if_neg hd]
  cases fn <;> cases kw <;> simp [newResponse]

theorem wanted_choose (ph : Phys F D O X G B H M P V T S Q K) (fn : FnArg F) (kw : KwArg D)
    (d : Default F D) :
    match wanted ph fn kw d with
    | some r => noFunction fn d = false ∧ noKeywords fn kw d = false ∧
        choose ph fn kw d = (.fn r.fn, .dict r.kw)
    | none => noFunction fn d = true ∨ noKeywords fn kw d = true ∨
        (choose ph fn kw d).1 = .bad ∨ (choose ph fn kw d).2 = .bad := by
  rcases d with ⟨df, dk⟩
  cases fn <;> cases kw <;> cases df <;> cases dk <;>
    simp [wanted, noFunction, noKeywords, choose]

/-- C76: adding a detector (under any name but `'instrument'`) succeeds exactly if its name
is new, the offset is a pair and the three responses are well defined.  The new detector has
exactly these responses and this offset; all other detectors are as before. -/
theorem C76_added_partial [DecidableEq F] [DecidableEq D] [LinearOrder K]
    (ph : Phys F D O X G B H M P V T S Q K) (x : Setup F D K) (ops : List (Op F D O X G B K Q))
    (s : State F D O X G M K) (_hs : s = run ph (fresh x) ops) (a : DetArgs F D O) (n : Name)
    (hn : n = a.name.getD (Nat.repr s.detCounter)) (hi : n ≠ "instrument") :
    (∃ s', addDetector ph s a = (s', .ok n) ∧ ∃ o r₁ r₂ r₃,
      s'.detectors = s.detectors.set n ⟨some r₁, some r₂, some r₃, o⟩ ∧
      n ∉ s.detNames ∧ Offset ph a.offsets o ∧
      wanted ph a.spatial a.spatialKw s.spatial = some r₁ ∧
      wanted ph a.spectral a.spectralKw s.spectral = some r₂ ∧
      wanted ph a.noise a.noiseKw s.noise = some r₃) ∨
    (∃ e, (addDetector ph s a).2 = .error e ∧
      (n ∈ s.detNames ∨ (¬ ∃ o, Offset ph a.offsets o) ∨
      wanted ph a.spatial a.spatialKw s.spatial = none ∨
      wanted ph a.spectral a.spectralKw s.spectral = none ∨
      wanted ph a.noise a.noiseKw s.noise = none)) := by
  by_cases h0 : n ∈ s.detNames
  · right
    refine ⟨.value, ?_, Or.inl h0⟩
    unfold addDetector detChecks
    rw [← hn]
    simp [h0]
  rcases hoff : offsetOf ph a.offsets with e | o
  · right
    refine ⟨e, ?_, Or.inr (Or.inl ?_)⟩
    rotate_left
    · rintro ⟨o, ho | ⟨ho, -⟩⟩
      · rw [ho] at hoff; cases hoff
      · rw [ho] at hoff; cases hoff
    unfold addDetector detChecks
    rw [← hn]
    simp [h0, hoff]
  have w1 := wanted_choose ph a.spatial a.spatialKw s.spatial
  have w2 := wanted_choose ph a.spectral a.spectralKw s.spectral
  have w3 := wanted_choose ph a.noise a.noiseKw s.noise
  unfold addDetector detChecks
  rw [← hn]
  simp only [List.contains_iff_mem, h0, if_false, hoff, Bool.or_eq_true]
  by_cases f1 : (noFunction a.spatial s.spatial = true ∨ noFunction a.spectral s.spectral = true)
      ∨ noFunction a.noise s.noise = true
  · right
    refine ⟨.value, by rw [if_pos f1], Or.inr (Or.inr ?_)⟩
    rcases h1 : wanted ph a.spatial a.spatialKw s.spatial with _ | r₁
    · exact Or.inl rfl
    rcases h2 : wanted ph a.spectral a.spectralKw s.spectral with _ | r₂
    · exact Or.inr (Or.inl rfl)
    rcases h3 : wanted ph a.noise a.noiseKw s.noise with _ | r₃
    · exact Or.inr (Or.inr rfl)
    rw [h1] at w1; rw [h2] at w2; rw [h3] at w3
    simp only at w1 w2 w3
    simp [w1.1, w2.1, w3.1] at f1
  by_cases f2 : (noKeywords a.spatial a.spatialKw s.spatial = true ∨
      noKeywords a.spectral a.spectralKw s.spectral = true) ∨
      noKeywords a.noise a.noiseKw s.noise = true
  · right
    refine ⟨.value, by rw [if_neg f1, if_pos f2], Or.inr (Or.inr ?_)⟩
    rcases h1 : wanted ph a.spatial a.spatialKw s.spatial with _ | r₁
    · exact Or.inl rfl
    rcases h2 : wanted ph a.spectral a.spectralKw s.spectral with _ | r₂
    · exact Or.inr (Or.inl rfl)
    rcases h3 : wanted ph a.noise a.noiseKw s.noise with _ | r₃
    · exact Or.inr (Or.inr rfl)
    rw [h1] at w1; rw [h2] at w2; rw [h3] at w3
    simp only at w1 w2 w3
    simp [w1.2.1, w2.2.1, w3.2.1] at f2
  rw [if_neg f1, if_neg f2]
  push Not at f1 f2
  simp only
  have hin : ∀ t : State F D O X G M K, t.detNames = s.detNames ++ [n] → n ∈ t.detNames := by
    intro t ht; rw [ht]; simp
  unfold setThree
  rw [setResponse_known ph _ hi (by simp)]
  rcases h1 : wanted ph a.spatial a.spatialKw s.spatial with _ | r₁
  · right
    rw [h1] at w1
    simp only at w1
    have w1 := (w1.resolve_left f1.1.1).resolve_left f2.1.1
    refine ⟨.value, ?_, Or.inr (Or.inr (Or.inl rfl))⟩
    rcases hc : choose ph a.spatial a.spatialKw s.spatial with ⟨c1, c2⟩
    rw [hc] at w1
    simp only at w1 ⊢
    cases c1 <;> cases c2 <;> simp_all
  rw [h1] at w1
  simp only at w1
  rw [w1.2.2]
  simp only
  rw [setResponse_known ph _ hi (by simp [markAll])]
  rcases h2 : wanted ph a.spectral a.spectralKw s.spectral with _ | r₂
  · right
    rw [h2] at w2
    simp only at w2
    have w2 := (w2.resolve_left f1.1.2).resolve_left f2.1.2
    refine ⟨.value, ?_, Or.inr (Or.inr (Or.inr (Or.inl rfl)))⟩
    rcases hc : choose ph a.spectral a.spectralKw s.spectral with ⟨c1, c2⟩
    rw [hc] at w2
    simp only at w2 ⊢
    cases c1 <;> cases c2 <;> simp_all
  rw [h2] at w2
  simp only at w2
  rw [w2.2.2]
  simp only
  rw [setResponse_known ph _ hi (by simp [markAll])]
  rcases h3 : wanted ph a.noise a.noiseKw s.noise with _ | r₃
  · right
    rw [h3] at w3
    simp only at w3
    have w3 := (w3.resolve_left f1.2).resolve_left f2.2
    refine ⟨.value, ?_, Or.inr (Or.inr (Or.inr (Or.inr rfl)))⟩
    rcases hc : choose ph a.noise a.noiseKw s.noise with ⟨c1, c2⟩
    rw [hc] at w3
    simp only at w3 ⊢
    cases c1 <;> cases c2 <;> simp_all
  rw [h3] at w3
  simp only at w3
  rw [w3.2.2]
  left
  have hO : Offset ph a.offsets o := by
    unfold offsetOf at hoff
    split at hoff
    · rename_i he
      simp only [Except.ok.injEq] at hoff
      exact Or.inr ⟨he, hoff.symm⟩
    · rename_i he
      simp only [Except.ok.injEq] at hoff
      exact Or.inl (hoff ▸ he)
    · cases hoff
    · cases hoff
  refine ⟨_, rfl, o, r₁, r₂, r₃, ?_, not_false, hO, rfl, rfl, rfl⟩
  simp only [markAll, assign_one]
  rfl

/-- C76: setting a response changes that response of exactly the detectors named (all of them
if none is named), to the given function and keywords, and nothing else about detectors. -/
theorem C76_set (ph : Phys F D O X G B H M P V T S Q K) (s : State F D O X G M K)
    (names : List Name) (m : Mode) (f : F) (kw : KwArg D)
    (h : (setResponse ph s names m (.fn f) kw).2 = .ok ()) (d : Name) :
    ∃ k, (kw = .none ∧ k = ph.emptyKw ∨ kw = .dict k) ∧
    (setResponse ph s names m (.fn f) kw).1.detectors.get? d =
      if (names = [] ∧ d ∈ s.detNames) ∨ (d ∈ names ∧ d ≠ "instrument") then
        (s.detectors.get? d).map fun x => match m with
          | .spatial => { x with spatial := some ⟨f, k⟩ }
          | .spectral => { x with spectral := some ⟨f, k⟩ }
          | .noise => { x with noise := some ⟨f, k⟩ }
      else s.detectors.get? d := by
  have hmem : d ∈ targets s names ↔
      ((names = [] ∧ d ∈ s.detNames) ∨ (d ∈ names ∧ d ≠ "instrument")) := by
    unfold targets
    by_cases h1 : names = []
    · subst h1; simp
    · simp [h1]
  have hkw : kw ≠ .bad := by
    intro e
    subst e
    unfold setResponse responseArgs at h
    split at h
    · cases h
    · rename_i hr
      split at hr
      · cases hr
      · cases hr
  obtain ⟨k, hk⟩ : ∃ k, (kw = .none ∧ k = ph.emptyKw ∨ kw = .dict k) := by
    cases kw with
    | none => exact ⟨ph.emptyKw, Or.inl ⟨rfl, rfl⟩⟩
    | dict k => exact ⟨k, Or.inr rfl⟩
    | bad => exact absurd rfl hkw
  refine ⟨k, hk, ?_⟩
  rcases setResponse_cases ph s names m (.fn f) kw with ⟨-, e, h'⟩ | ⟨-, -, q1, q2⟩
  · rw [h'] at h; cases h
  by_cases ht : targets s names = []
  · rw [(q1 ht).1, if_neg]
    rw [← hmem, ht]
    simp
  · obtain ⟨f', k', e1, e2, -⟩ := q2 ht
    rw [e2, assign_get?]
    have hk' : f' = f ∧ k'.getD ph.emptyKw = k := by
      unfold responseArgs at e1
      split at e1
      · cases e1
      · rcases hk with ⟨rfl, rfl⟩ | rfl
        · simp only [Except.ok.injEq, Prod.mk.injEq, Option.some.injEq] at e1
          obtain ⟨rfl, rfl⟩ := e1
          exact ⟨rfl, rfl⟩
        · simp only [Except.ok.injEq, Prod.mk.injEq, Option.some.injEq] at e1
          obtain ⟨rfl, rfl⟩ := e1
          exact ⟨rfl, rfl⟩
    rw [hk'.1, hk'.2]
    by_cases hd : d ∈ targets s names
    · rw [if_pos hd, if_pos (hmem.1 hd)]
      cases m <;> rfl
    · rw [if_neg hd, if_neg (fun h => hd (hmem.2 h))]

theorem checkNames_iff {known names : List Name} :
    checkNames known names = .ok () ↔ (∀ n ∈ names, n ∈ known) ∧ names.Nodup :=
  ⟨fun h => checkNames_ok h, fun h => checkNames_of h.1 h.2⟩

/-- C76: a response can be set exactly if all detectors named exist and none is named twice, the
function and the keywords are of the right kind, and no detector would get no function; otherwise
nothing changes. -/
theorem C76_set_iff (ph : Phys F D O X G B H M P V T S Q K) (s : State F D O X G M K)
    (names : List Name) (m : Mode) (fn : FnArg F) (kw : KwArg D) :
    ((setResponse ph s names m fn kw).2 = .ok () ↔
      (∀ d ∈ names, d ≠ "instrument" → d ∈ s.detNames ∧ names.count d = 1) ∧
      fn ≠ .bad ∧ kw ≠ .bad ∧
      (fn = .none → if names = [] then s.detNames = [] else ∀ d ∈ names, d = "instrument")) ∧
    ((setResponse ph s names m fn kw).2 ≠ .ok () → (setResponse ph s names m fn kw).1 = s) := by
  constructor
  swap
  · intro h
    rcases setResponse_cases ph s names m fn kw with ⟨h1, -⟩ | ⟨h1, -⟩
    · exact h1
    · exact absurd h1 h
  have hlist : (if names = [] then .ok () else checkNames s.detNames (targets s names) :
      Except Err Unit) = .ok () ↔
      ∀ d ∈ names, d ≠ "instrument" → d ∈ s.detNames ∧ names.count d = 1 := by
    by_cases h0 : names = []
    · subst h0; simp
    · rw [if_neg h0, checkNames_iff]
      unfold targets
      rw [if_neg h0]
      constructor
      · rintro ⟨h1, h2⟩ d hd hi
        have hm : d ∈ names.filter (fun d => d ≠ "instrument") := by simp [hd, hi]
        refine ⟨h1 d hm, ?_⟩
        have := List.count_eq_one_of_mem h2 hm
        rw [List.count_filter (by simpa using hi)] at this
        exact this
      · intro h
        refine ⟨fun n hn => ?_, ?_⟩
        · simp only [ne_eq, decide_not, List.mem_filter, Bool.not_eq_true', decide_eq_false_iff_not] at hn
          exact (h n hn.1 hn.2).1
        · rw [List.nodup_iff_count]
          intro a
          by_cases ha : a ∈ names.filter (fun d => d ≠ "instrument")
          · have ha' := ha
            simp only [ne_eq, decide_not, List.mem_filter, Bool.not_eq_true',
              decide_eq_false_iff_not] at ha'
            rw [List.count_filter (by simpa using ha'.2), (h a ha'.1 ha'.2).2]
          · rw [List.count_eq_zero_of_not_mem ha]; omega
  have htar : targets s names = [] ↔
      (if names = [] then s.detNames = [] else ∀ d ∈ names, d = "instrument") := by
    unfold targets
    by_cases h0 : names = []
    · simp [h0]
    · simp [h0]
  rw [← hlist, ← htar]
  unfold setResponse responseArgs
  rcases hc : (if names = [] then .ok () else checkNames s.detNames (targets s names) :
      Except Err Unit) with e | ⟨⟩
  · simp
  · by_cases ht : targets s names = [] <;> cases fn <;> cases kw <;> simp [ht]

/-- C76: the default of the instrument is replaced exactly if `'instrument'` is named; the
other two defaults stay. -/
theorem C76_default (ph : Phys F D O X G B H M P V T S Q K) (s : State F D O X G M K)
    (names : List Name) (f : F) (k : D)
    (h : (setResponse ph s names .spatial (.fn f) (.dict k)).2 = .ok ()) :
    (setResponse ph s names .spatial (.fn f) (.dict k)).1.spatial =
      (if "instrument" ∈ names then ⟨some f, some k⟩ else s.spatial) ∧
    (setResponse ph s names .spatial (.fn f) (.dict k)).1.spectral = s.spectral ∧
    (setResponse ph s names .spatial (.fn f) (.dict k)).1.noise = s.noise := by
  have key : ∀ (t : State F D O X G M K) ds f' k',
      (newResponse ph t ds .spatial f' k').spatial = t.spatial ∧
      (newResponse ph t ds .spatial f' k').spectral = t.spectral ∧
      (newResponse ph t ds .spatial f' k').noise = t.noise := by
    intro t ds f' k'
    unfold newResponse
    split <;> exact ⟨rfl, rfl, rfl⟩
  unfold setResponse at h ⊢
  rcases hr : responseArgs s names (.fn f) (.dict k) with e | ⟨f', k'⟩
  · rw [hr] at h; cases h
  have hfk : f' = some f ∧ k' = some k := by
    unfold responseArgs at hr
    split at hr
    · cases hr
    · simp only [Except.ok.injEq, Prod.mk.injEq] at hr
      exact ⟨hr.1.symm, hr.2.symm⟩
  obtain ⟨rfl, rfl⟩ := hfk
  simp only [newDefault, List.contains_iff_mem]
  split
  · exact ⟨rfl, (key ..).2.1, (key ..).2.2⟩
  · exact key ..

/-- C76: the same for every kind of response, and also without a function or keywords. -/
theorem C76_defaults (ph : Phys F D O X G B H M P V T S Q K) (s : State F D O X G M K)
    (names : List Name) (m : Mode) (fn : FnArg F) (kw : KwArg D)
    (h : (setResponse ph s names m fn kw).2 = .ok ()) :
    ∃ f k, (fn = .none ∧ f = none ∨ ∃ f', fn = .fn f' ∧ f = some f') ∧
      (kw = .none ∧ k = none ∨ ∃ k', kw = .dict k' ∧ k = some k') ∧
    (setResponse ph s names m fn kw).1.spatial =
      (if "instrument" ∈ names ∧ m = .spatial then ⟨f, k⟩ else s.spatial) ∧
    (setResponse ph s names m fn kw).1.spectral =
      (if "instrument" ∈ names ∧ m = .spectral then ⟨f, k⟩ else s.spectral) ∧
    (setResponse ph s names m fn kw).1.noise =
      (if "instrument" ∈ names ∧ m = .noise then ⟨f, k⟩ else s.noise) := by
  have key : ∀ (t : State F D O X G M K) ds f' k',
      (newResponse ph t ds m f' k').spatial = t.spatial ∧
      (newResponse ph t ds m f' k').spectral = t.spectral ∧
      (newResponse ph t ds m f' k').noise = t.noise := by
    intro t ds f' k'
    unfold newResponse
    split <;> exact ⟨rfl, rfl, rfl⟩
  unfold setResponse at h ⊢
  rcases hr : responseArgs s names fn kw with e | ⟨f, k⟩
  · rw [hr] at h; cases h
  refine ⟨f, k, ?_⟩
  have hfk : (fn = .none ∧ f = none ∨ ∃ f', fn = .fn f' ∧ f = some f') ∧
      (kw = .none ∧ k = none ∨ ∃ k', kw = .dict k' ∧ k = some k') := by
    unfold responseArgs at hr
    split at hr
    · cases hr
    · clear h
      by_cases ht : targets s names = [] <;> cases fn <;> cases kw <;> simp [ht] at hr ⊢ <;>
        exact ⟨hr.1.symm, hr.2.symm⟩
  refine ⟨hfk.1, hfk.2, ?_⟩
  simp only [newDefault, List.contains_iff_mem]
  by_cases hi : "instrument" ∈ names
  · simp only [hi, true_and, if_true]
    cases m <;> simp [setDefault, key]
  · simp only [hi, false_and, if_false]
    exact key ..

end Verif.Inst
