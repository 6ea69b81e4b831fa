import Verif.Spec.Instrument
import Mathlib.Data.List.Basic
import Mathlib.Data.List.Nodup
import Std.Data.String.ToNat

/-!
# Lemmas about instruments
-/

set_option linter.unusedSectionVars false

namespace Verif.Inst
open Spec
variable {F D O X G B H M P V T S Q K : Type}

theorem erase_set {α : Type _} (d : PyDict Name α) (k : Name) (v : α) :
    (d.set k v).erase k = d.erase k := by
  induction d with
  | nil => simp [PyDict.set, PyDict.erase]
  | cons p rest ih =>
    obtain ⟨q, w⟩ := p
    by_cases h : q = k
    · subst h; simp [PyDict.set, PyDict.erase]
    · simp only [PyDict.set, h, if_false]
      unfold PyDict.erase at ih ⊢
      rw [List.filter_cons, List.filter_cons, ih]

theorem erase_of_get? {α : Type _} (d : PyDict Name α) (k : Name)
    (h : (d.get? k).isSome = false) : d.erase k = d := by
  unfold PyDict.erase
  rw [List.filter_eq_self]
  intro p hp
  have : ¬ (p.1 ∈ d.keys → False) ∨ True := Or.inr trivial
  by_contra hc
  have he : p.1 = k := by simpa using hc
  have hm : k ∈ d.keys := by
    rw [← he]; exact List.mem_map_of_mem hp
  rw [PyDict.mem_keys_iff, h] at hm
  cases hm

theorem set_set {α : Type _} (d : PyDict Name α) (k : Name) (v w : α) :
    (d.set k v).set k w = d.set k w := by
  induction d with
  | nil => simp [PyDict.set]
  | cons p rest ih =>
    obtain ⟨q, x⟩ := p
    by_cases h : q = k
    · subst h; simp [PyDict.set]
    · simp [PyDict.set, h, ih]

/-! ### Marking maps -/

theorem foldl_set_false (ns : List Name) (c : PyDict Name Bool) (k : Name) :
    (ns.foldl (fun c k => c.set k false) c).get? k =
      if k ∈ ns then some false else c.get? k := by
  induction ns generalizing c with
  | nil => simp
  | cons n ns ih =>
    rw [List.foldl_cons, ih, PyDict.get?_set]
    by_cases h1 : k ∈ ns
    · simp [h1]
    · by_cases h2 : n = k
      · simp [h2]
      · have : ¬ k = n := fun e => h2 e.symm
        simp [h1, h2, this]

theorem markAll_get? (s : State F D O X G M K) (k : Name) :
    (markAll s).consistent.get? k =
      if k ∈ s.fieldNames then some false else s.consistent.get? k :=
  foldl_set_false _ _ _

/-! ### Names -/

theorem checkNames_ok {known names : List Name} (h : checkNames known names = .ok ()) :
    (∀ n ∈ names, n ∈ known) ∧ names.Nodup := by
  unfold checkNames at h
  split at h
  · rename_i h1
    split at h
    · rename_i h2
      exact ⟨by simpa using h1, by simpa using h2⟩
    · cases h
  · cases h

theorem checkNames_of {known names : List Name} (h1 : ∀ n ∈ names, n ∈ known)
    (h2 : names.Nodup) : checkNames known names = .ok () := by
  unfold checkNames
  rw [if_pos (by simpa using h1), if_pos (by simpa using h2)]

theorem checkNames_one {known : List Name} {n : Name} (h : n ∈ known) :
    checkNames known [n] = .ok () :=
  checkNames_of (by simpa using h) (by simp)

theorem repr_ne_instrument (k : ℕ) : Nat.repr k ≠ "instrument" := by
  intro h
  have h1 : (Nat.repr k).toList.all Char.isDigit = true := by
    rw [List.all_eq_true]
    intro c hc
    exact Nat.isDigit_of_mem_toDigits (b := 10) (n := k) (by decide) (by decide) (by simpa [Nat.repr] using hc)
  rw [h] at h1
  revert h1
  decide

/-! ### Responses -/

theorem assign_get? (ph : Phys F D O X G B H M P V T S Q K) (dets : PyDict Name (Det F D O))
    (ds : List Name) (m : Mode) (f : F) (kw : Option D) (d : Name) :
    (assign ph dets ds m f kw).get? d =
      if d ∈ ds then (dets.get? d).map (setSlot m ⟨f, kw.getD ph.emptyKw⟩)
      else dets.get? d := by
  unfold assign
  induction ds generalizing dets with
  | nil => simp
  | cons n ns ih =>
    rw [List.foldl_cons, ih]
    unfold modify
    cases hg : dets.get? n with
    | none =>
      by_cases h1 : d ∈ ns
      · simp [h1]
      · by_cases h2 : d = n
        · subst h2; simp [h1, hg]
        · simp [h1, h2]
    | some x =>
      simp only [PyDict.get?_set]
      by_cases h2 : n = d
      · subst h2
        by_cases h1 : n ∈ ns
        · simp only [h1, if_true, List.mem_cons, or_true, hg, Option.map_some]
          cases m <;> rfl
        · simp [h1, hg]
      · have : ¬ d = n := fun e => h2 e.symm
        simp [h2, this]

theorem assign_one (ph : Phys F D O X G B H M P V T S Q K) (dets : PyDict Name (Det F D O))
    (n : Name) (x : Det F D O) (m : Mode) (f : F) (kw : Option D) :
    assign ph (dets.set n x) [n] m f kw =
      dets.set n (setSlot m ⟨f, kw.getD ph.emptyKw⟩ x) := by
  simp [assign, modify, set_set]

/-- Everything but detectors, flags and defaults is as before. -/
structure Frame (s s' : State F D O X G M K) : Prop where
  detNames : s'.detNames = s.detNames
  detCounter : s'.detCounter = s.detCounter
  fields : s'.fields = s.fields
  fieldProps : s'.fieldProps = s.fieldProps
  fieldNames : s'.fieldNames = s.fieldNames
  fieldCounter : s'.fieldCounter = s.fieldCounter
  maps : s'.maps = s.maps
  bestSpatial : s'.bestSpatial = s.bestSpatial

theorem setDefault_frame (m : Mode) (v : Default F D) (s : State F D O X G M K) :
    Frame s (setDefault m v s) ∧ (setDefault m v s).detectors = s.detectors ∧
      (setDefault m v s).consistent = s.consistent := by
  cases m <;> exact ⟨⟨rfl, rfl, rfl, rfl, rfl, rfl, rfl, rfl⟩, rfl, rfl⟩

/-- A call that sets responses either fails and changes nothing, or leaves all other things
alone, replaces the responses of the named detectors, and marks all maps (if there are such
detectors). -/
theorem setResponse_cases (ph : Phys F D O X G B H M P V T S Q K) (s : State F D O X G M K)
    (names : List Name) (m : Mode) (fn : FnArg F) (kw : KwArg D) :
    ((setResponse ph s names m fn kw).1 = s ∧
      ∃ e, (setResponse ph s names m fn kw).2 = .error e) ∨
    ((setResponse ph s names m fn kw).2 = .ok () ∧
      Frame s (setResponse ph s names m fn kw).1 ∧
      (targets s names = [] →
        (setResponse ph s names m fn kw).1.detectors = s.detectors ∧
        (setResponse ph s names m fn kw).1.consistent = s.consistent) ∧
      (targets s names ≠ [] → ∃ f k,
        responseArgs s names fn kw = .ok (some f, k) ∧
        (setResponse ph s names m fn kw).1.detectors =
          assign ph s.detectors (targets s names) m f k ∧
        ∀ x, (setResponse ph s names m fn kw).1.consistent.get? x =
          if x ∈ s.fieldNames then some false else s.consistent.get? x)) := by
  unfold setResponse
  rcases hr : responseArgs s names fn kw with e | ⟨f, k⟩
  · left; exact ⟨rfl, e, rfl⟩
  · right
    have key : ∀ t : State F D O X G M K,
        Frame t (newDefault names m ⟨f, k⟩ t) ∧
        (newDefault names m ⟨f, k⟩ t).detectors = t.detectors ∧
        (newDefault names m ⟨f, k⟩ t).consistent = t.consistent := by
      intro t
      unfold newDefault
      split
      · exact setDefault_frame m _ t
      · exact ⟨⟨rfl, rfl, rfl, rfl, rfl, rfl, rfl, rfl⟩, rfl, rfl⟩
    rcases hd : targets s names with _ | ⟨d, ds⟩
    · have e2 := key s
      exact ⟨rfl, e2.1, fun _ => e2.2, fun h => absurd rfl h⟩
    · cases f with
      | none =>
        exfalso
        unfold responseArgs at hr
        split at hr
        · cases hr
        · split at hr
          · cases hr
          · rw [if_pos (by simp [hd])] at hr; cases hr
          · split at hr <;> simp at hr
      | some f =>
        have e2 := key (markAll
          { s with detectors := assign ph s.detectors (d :: ds) m f k })
        refine ⟨rfl, ?_, fun h => absurd h (by simp), fun _ => ⟨f, k, rfl, e2.2.1, ?_⟩⟩
        · obtain ⟨a1, a2, a3, a4, a5, a6, a7, a8⟩ := e2.1
          exact ⟨a1, a2, a3, a4, a5, a6, a7, a8⟩
        · intro x
          show (newDefault names m ⟨some f, k⟩ _).consistent.get? x = _
          simp only [newResponse]
          rw [e2.2.2, markAll_get?]

/-! ### One detector by name -/

theorem targets_one (s : State F D O X G M K) {n : Name} (h : n ≠ "instrument") :
    targets s [n] = [n] := by
  simp [targets, h]

theorem targets_instrument (s : State F D O X G M K) : targets s ["instrument"] = [] := by
  simp [targets]

/-- Setting a response of the new detector touches that detector and the flags only. -/
theorem setResponse_one (ph : Phys F D O X G B H M P V T S Q K) (s : State F D O X G M K)
    {n : Name} (hn : n ≠ "instrument") (base : PyDict Name (Det F D O)) (x : Det F D O)
    (hb : s.detectors = base.set n x) (m : Mode) (fn : FnArg F) (kw : KwArg D) :
    ∃ x' c', (setResponse ph s [n] m fn kw).1 =
        { s with detectors := base.set n x', consistent := c' } ∧ x'.pointing = x.pointing ∧
      (∀ k, k ∉ s.fieldNames → c'.get? k = s.consistent.get? k) ∧
      ((setResponse ph s [n] m fn kw).2 = .ok () → ∃ f k, fn = .fn f ∧
        x' = setSlot m ⟨f, (k : Option D).getD ph.emptyKw⟩ x) := by
  unfold setResponse
  rcases hr : responseArgs s [n] fn kw with e | ⟨f, k⟩
  · exact ⟨x, s.consistent, by rw [← hb], rfl, fun _ _ => rfl, fun h => by cases h⟩
  · have hd : ¬ ([n].contains "instrument" = true) := by
      simp only [List.contains_cons, List.contains_nil, Bool.or_false, beq_iff_eq]
      exact fun e => hn e.symm
    simp only [newDefault, if_neg hd, targets_one s hn]
    cases f with
    | none =>
      exact ⟨x, s.consistent, by simp only [newResponse]; rw [← hb], rfl, fun _ _ => rfl, fun _ => by
        exfalso
        unfold responseArgs at hr
        rw [targets_one s hn] at hr
        split at hr
        · cases hr
        · split at hr
          · cases hr
          · simp at hr
          · split at hr <;> simp at hr⟩
    | some f =>
      refine ⟨setSlot m ⟨f, k.getD ph.emptyKw⟩ x, (markAll s).consistent, ?_, by cases m <;> rfl,
        fun j hj => by rw [markAll_get?, if_neg hj], fun _ => ⟨f, k, ?_, rfl⟩⟩
      · simp only [newResponse, markAll]
        rw [hb, assign_one]
      · unfold responseArgs at hr
        split at hr
        · cases hr
        · split at hr
          · cases hr
          · split at hr
            · cases hr
            · split at hr <;> simp at hr
          · split at hr <;> simp_all

/-- The same for the three responses in a row. -/
theorem setThree_one (ph : Phys F D O X G B H M P V T S Q K) (s : State F D O X G M K)
    {n : Name} (hn : n ≠ "instrument") (base : PyDict Name (Det F D O)) (x : Det F D O)
    (hb : s.detectors = base.set n x) (sp fr no : FnArg F × KwArg D) :
    ∃ x' c', (setThree ph s n sp fr no).1 =
        { s with detectors := base.set n x', consistent := c' } ∧ x'.pointing = x.pointing ∧
      (∀ k, k ∉ s.fieldNames → c'.get? k = s.consistent.get? k) ∧
      ((setThree ph s n sp fr no).2 = .ok () →
        x'.spatial.isSome ∧ x'.spectral.isSome ∧ x'.noise.isSome) := by
  unfold setThree
  obtain ⟨x1, c1, e1, p1, t1, q1⟩ := setResponse_one ph s hn base x hb .spatial sp.1 sp.2
  rcases h1 : setResponse ph s [n] .spatial sp.1 sp.2 with ⟨s1, r1⟩
  rw [h1] at e1 q1
  simp only at e1 q1
  rcases r1 with e | u
  · exact ⟨x1, c1, e1, p1, t1, fun h => by cases h⟩
  obtain ⟨f1, k1, -, w1⟩ := q1 rfl
  simp only
  obtain ⟨x2, c2, e2, p2, t2, q2⟩ := setResponse_one ph s1 hn base x1 (by rw [e1]) .spectral fr.1 fr.2
  rcases h2 : setResponse ph s1 [n] .spectral fr.1 fr.2 with ⟨s2, r2⟩
  rw [h2] at e2 q2
  simp only at e2 q2
  rcases r2 with e | u
  · exact ⟨x2, c2, by rw [e2, e1], by rw [p2, p1],
      fun j hj => by rw [t2 j (by rw [e1]; exact hj), e1]; exact t1 j hj, fun h => by cases h⟩
  obtain ⟨f2, k2, -, w2⟩ := q2 rfl
  simp only
  obtain ⟨x3, c3, e3, p3, t3, q3⟩ := setResponse_one ph s2 hn base x2 (by rw [e2]) .noise no.1 no.2
  refine ⟨x3, c3, by rw [e3, e2, e1], by rw [p3, p2, p1], fun j hj => by
    rw [t3 j (by rw [e2, e1]; exact hj), e2]
    show c2.get? j = _
    rw [t2 j (by rw [e1]; exact hj), e1]
    exact t1 j hj, fun h => ?_⟩
  obtain ⟨f3, k3, -, w3⟩ := q3 h
  subst w3 w2 w1
  simp [setSlot]

/-- With the name `'instrument'` only the defaults change. -/
theorem setResponse_inst (ph : Phys F D O X G B H M P V T S Q K) (s : State F D O X G M K)
    (m : Mode) (fn : FnArg F) (kw : KwArg D) :
    ∃ a b c, (setResponse ph s ["instrument"] m fn kw).1 =
      { s with spatial := a, spectral := b, noise := c } := by
  unfold setResponse
  split
  · exact ⟨_, _, _, rfl⟩
  · rename_i f k _
    simp only [targets_instrument, newResponse, newDefault]
    split
    · cases m <;> exact ⟨_, _, _, rfl⟩
    · exact ⟨_, _, _, rfl⟩

theorem setThree_inst (ph : Phys F D O X G B H M P V T S Q K) (s : State F D O X G M K)
    (sp fr no : FnArg F × KwArg D) :
    ∃ a b c, (setThree ph s "instrument" sp fr no).1 =
      { s with spatial := a, spectral := b, noise := c } := by
  unfold setThree
  obtain ⟨a1, b1, c1, e1⟩ := setResponse_inst ph s .spatial sp.1 sp.2
  rcases h1 : setResponse ph s ["instrument"] .spatial sp.1 sp.2 with ⟨s1, r1⟩
  rw [h1] at e1
  simp only at e1
  subst e1
  rcases r1 with e | u
  · exact ⟨_, _, _, rfl⟩
  simp only
  obtain ⟨a2, b2, c2, e2⟩ := setResponse_inst ph
    { s with spatial := a1, spectral := b1, noise := c1 } .spectral fr.1 fr.2
  rcases h2 : setResponse ph { s with spatial := a1, spectral := b1, noise := c1 }
    ["instrument"] .spectral fr.1 fr.2 with ⟨s2, r2⟩
  rw [h2] at e2
  simp only at e2
  subst e2
  rcases r2 with e | u
  · exact ⟨_, _, _, rfl⟩
  simp only
  obtain ⟨a3, b3, c3, e3⟩ := setResponse_inst ph
    { s with spatial := a2, spectral := b2, noise := c2 } .noise no.1 no.2
  exact ⟨a3, b3, c3, by rw [e3]⟩

/-- Removing the detector that was just added. -/
theorem delDetectors_new (s : State F D O X G M K) (names : List Name) (n : Name)
    (base : PyDict Name (Det F D O)) (x : Det F D O) (h1 : n ∉ names)
    (h2 : (base.get? n).isSome = false) (hn : s.detNames = names ++ [n])
    (hd : s.detectors = base.set n x) :
    ∃ c', (delDetectors s [n]).1 =
      { s with detectors := base, detNames := names, consistent := c' } := by
  unfold delDetectors
  rw [checkNames_one (by rw [hn]; simp)]
  refine ⟨(markAll s).consistent, ?_⟩
  simp only [List.foldl_cons, List.foldl_nil, ne_eq, List.cons_ne_nil, not_false_eq_true,
    if_true, markAll]
  rw [hd, erase_set, erase_of_get? base n h2, hn, List.erase_append_right _ h1]
  simp

/-- What adding a detector does: if it fails, everything but perhaps the defaults is as
before, and the defaults are too unless the name is `'instrument'`; if it succeeds, there is
one more detector, and all maps are marked. -/
theorem addDetector_cases (ph : Phys F D O X G B H M P V T S Q K) (s : State F D O X G M K)
    (ho : Ordered s) (a : DetArgs F D O) :
    (∃ e u v w, addDetector ph s a =
        ({ s with spatial := u, spectral := v, noise := w }, .error e) ∧
      (a.name ≠ some "instrument" → u = s.spatial ∧ v = s.spectral ∧ w = s.noise)) ∨
    (∃ n x c u v w, addDetector ph s a = ({ s with
        detectors := s.detectors.set n x, detNames := s.detNames ++ [n],
        detCounter := s.detCounter + 1, consistent := c, spatial := u, spectral := v,
        noise := w }, .ok n) ∧
      n = a.name.getD (Nat.repr s.detCounter) ∧ n ∉ s.detNames ∧
      offsetOf ph a.offsets = .ok x.pointing ∧
      (∀ k ∈ s.fieldNames, c.get? k = some false) ∧
      (∀ k, k ∉ s.fieldNames → (c.get? k = s.consistent.get? k)) ∧
      (n ≠ "instrument" → u = s.spatial ∧ v = s.spectral ∧ w = s.noise ∧
        x.spatial.isSome ∧ x.spectral.isSome ∧ x.noise.isSome) ∧
      (n = "instrument" → x.spatial = none ∧ x.spectral = none ∧ x.noise = none)) := by
  unfold addDetector
  rcases hc : detChecks ph s a with e | ⟨n, o⟩
  · left; exact ⟨e, _, _, _, rfl, fun _ => ⟨rfl, rfl, rfl⟩⟩
  have hn : n = a.name.getD (Nat.repr s.detCounter) ∧ n ∉ s.detNames ∧
      offsetOf ph a.offsets = .ok o := by
    unfold detChecks at hc
    simp only at hc
    split at hc
    · cases hc
    · rename_i h1
      split at hc
      · cases hc
      · rename_i o' ho'
        split at hc
        · cases hc
        · split at hc
          · cases hc
          · simp only [Except.ok.injEq, Prod.mk.injEq] at hc
            obtain ⟨rfl, rfl⟩ := hc
            exact ⟨rfl, by simpa using h1, ho'⟩
  obtain ⟨hn1, hn2, hn3⟩ := hn
  have hget : (s.detectors.get? n).isSome = false := by
    have := (ho.dets n).not.1 hn2
    simpa using this
  simp only
  by_cases hi : n = "instrument"
  · subst hi
    obtain ⟨u, v, w, hu⟩ := setThree_inst ph { s with
      detectors := s.detectors.set "instrument" { pointing := o }
      detNames := s.detNames ++ ["instrument"] }
      (choose ph a.spatial a.spatialKw s.spatial) (choose ph a.spectral a.spectralKw s.spectral)
      (choose ph a.noise a.noiseKw s.noise)
    rcases h3 : setThree ph { s with
      detectors := s.detectors.set "instrument" { pointing := o }
      detNames := s.detNames ++ ["instrument"] } "instrument"
      (choose ph a.spatial a.spatialKw s.spatial) (choose ph a.spectral a.spectralKw s.spectral)
      (choose ph a.noise a.noiseKw s.noise) with ⟨s2, e | r⟩
    · rw [h3] at hu
      simp only at hu
      subst hu
      left
      obtain ⟨c', hc'⟩ := delDetectors_new { s with
        detectors := s.detectors.set "instrument" { pointing := o }
        detNames := s.detNames ++ ["instrument"], spatial := u, spectral := v, noise := w }
        s.detNames "instrument" s.detectors _ hn2 hget rfl rfl
      refine ⟨e, u, v, w, ?_, fun h => ?_⟩
      · simp only [hc']
      · exfalso
        apply h
        cases ha : a.name with
        | none =>
          rw [ha] at hn1
          exact absurd hn1.symm (repr_ne_instrument _)
        | some n' => rw [ha] at hn1; simp at hn1; rw [hn1]
    · rw [h3] at hu
      simp only at hu
      subst hu
      right
      refine ⟨"instrument", { pointing := o }, _, u, v, w, rfl, hn1, hn2, hn3, ?_, ?_,
        fun h => absurd rfl h, fun _ => ⟨rfl, rfl, rfl⟩⟩
      · intro k hk
        rw [foldl_set_false, if_pos hk]
      · intro k hk
        rw [foldl_set_false, if_neg hk]
  · obtain ⟨x', c1, hu, hp, hcons, hx⟩ := setThree_one ph { s with
      detectors := s.detectors.set n { pointing := o }
      detNames := s.detNames ++ [n] } hi s.detectors { pointing := o } rfl
      (choose ph a.spatial a.spatialKw s.spatial) (choose ph a.spectral a.spectralKw s.spectral)
      (choose ph a.noise a.noiseKw s.noise)
    rcases h3 : setThree ph { s with
      detectors := s.detectors.set n { pointing := o }
      detNames := s.detNames ++ [n] } n
      (choose ph a.spatial a.spatialKw s.spatial) (choose ph a.spectral a.spectralKw s.spectral)
      (choose ph a.noise a.noiseKw s.noise) with ⟨s2, e | r⟩
    · rw [h3] at hu
      simp only at hu
      subst hu
      left
      obtain ⟨c', hc'⟩ := delDetectors_new { s with
        detectors := s.detectors.set n x'
        detNames := s.detNames ++ [n], consistent := c1 }
        s.detNames n s.detectors _ hn2 hget rfl rfl
      refine ⟨e, s.spatial, s.spectral, s.noise, ?_, fun _ => ⟨rfl, rfl, rfl⟩⟩
      simp only [hc']
    · rw [h3] at hu hx
      simp only at hu
      subst hu
      right
      have hx := hx rfl
      refine ⟨n, x', _, s.spatial, s.spectral, s.noise, rfl, hn1, hn2, by rw [hp]; exact hn3, ?_, ?_,
        fun _ => ⟨rfl, rfl, rfl, hx.1, hx.2.1, hx.2.2⟩, fun h => absurd h hi⟩
      · intro k hk
        rw [foldl_set_false, if_pos hk]
      · intro k hk
        rw [foldl_set_false, if_neg hk]
        exact hcons k hk

end Verif.Inst
