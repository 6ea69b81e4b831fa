import Verif.Props.InstNames

/-!
# C42, C75: the property of a field that is mapped, and the size of the kernel
-/

set_option linter.unusedSectionVars false

namespace Verif.Inst
open Spec
variable {F D O X G B H M P V T S Q K : Type}

/-- A successful call of `map_fields` for one field leaves a map of it. -/
theorem mapFields_ok_cur [DecidableEq F] [DecidableEq D]
    (ph : Phys F D O X G B H M P V T S Q K) (s : State F D O X G M K) (a : MapArgs B Q)
    (f : Name) (h : (mapFields ph s [f] a).2 = .ok ()) : ∃ m, Cur ph s a f m := by
  have h' := h
  unfold mapFields at h'
  rcases hc : chosenFields s [f] with e | fs
  · rw [hc] at h'; cases h'
  rw [hc] at h'
  simp only at h'
  have hfs : fs = [f] := by
    unfold chosenFields at hc
    rw [if_neg (by simp)] at hc
    split at hc
    · cases hc
    · simp only [Except.ok.injEq] at hc; exact hc.symm
  subst hfs
  split at h'
  · cases h'
  split at h'
  · cases h'
  rename_i g1 g2
  rcases hb : beamGroups s a with e | groups
  · rw [hb] at h'; cases h'
  rw [hb] at h'
  simp only [mapLoop] at h'
  rcases hg : s.fields.get? f with _ | g
  · rw [hg] at h'; cases h'
  rw [hg] at h'
  simp only at h'
  rcases hm : mapField ph s groups a g with e | m
  · rw [hm] at h'; cases h'
  exact ⟨m, g, groups, hg, ⟨Bool.eq_false_iff.2 g1, Bool.eq_false_iff.2 g2⟩, hb, hm⟩

/-- C42: whatever index was chosen, a map that is made shows the first property of the field
for every detector. -/
theorem C42_first_property [DecidableEq F] [DecidableEq D] [LinearOrder K]
    (ph : Phys F D O X G B H M P V T S Q K) (x : Setup F D K) (ops : List (Op F D O X G B K Q))
    (s : State F D O X G M K) (hs : s = run ph (fresh x) ops) (f : Name) (g : Field X G K)
    (hf : s.fields.get? f = some g) (a : MapArgs B Q)
    (h : (mapFields ph s [f] a).2 = .ok ()) :
    ∃ md, (mapFields ph s [f] a).1.maps.get? f = some md ∧ md.axes = g.axes ∧
      List.Forall₂ (fun d c => Column ph s g a d 0 c) s.detNames md.cols := by
  have ho : Ordered s := hs ▸ run_ordered ph ops _ (fresh_ordered x)
  obtain ⟨md, hcur⟩ := mapFields_ok_cur ph s a f h
  obtain ⟨-, -, hax, hF⟩ := (cur_iff ph s ho.detNodup a f g hf md).1 hcur
  exact ⟨md, ((mapFields_one_iff ph s a f md).2 hcur).2, hax,
    hF.imp fun d c ⟨ms, e⟩ => single_column ph s g a d _ e 0 c rfl⟩

/-- C42: a grid with one property (and its unit), added with checks: the index is accepted
only if it is 0 (or left out), and maps of the field show that property. -/
theorem C42_one_property_partial [DecidableEq F] [DecidableEq D] [LinearOrder K]
    (ph : Phys F D O X G B H M P V T S Q K) (x : Setup F D K) (ops : List (Op F D O X G B K Q))
    (s : State F D O X G M K) (hs : s = run ph (fresh x) ops) (fa : FieldArgs X G K)
    (h1 : fa.grid.props.length = 1) (h2 : fa.grid.gridunits.length = 1) (hc : fa.check = true)
    (n : Name) (h : (addField s fa).2 = .ok n) :
    (0 ≤ fa.idx.getD 0 ∧ fa.idx.getD 0 < fa.grid.props.length) ∧
    ∀ (s' : State F D O X G M K), s' = (addField s fa).1 → ∀ a,
      (mapFields ph s' [n] a).2 = .ok () →
      ∃ md, (mapFields ph s' [n] a).1.maps.get? n = some md ∧
        List.Forall₂ (fun d c => Column ph s' fa.grid a d (fa.idx.getD 0).toNat c)
          s'.detNames md.cols := by
  have ho : Ordered s := hs ▸ run_ordered ph ops _ (fresh_ordered x)
  rcases addField_cases s fa with ⟨e, h'⟩ | ⟨m, g, j, h', hm, -, q1, q2, q3, q4⟩
  · rw [h'] at h; cases h
  rw [h'] at h
  simp only [Except.ok.injEq] at h
  subst h
  have hi : (fa.idx.getD 0).toNat = 0 := by
    have := q3 hc
    unfold compatible at this
    split at this
    · cases this
    split at this
    · cases this
    split at this
    · cases this
    split at this
    · cases this
    split at this
    · cases this
    split at this
    · cases this
    unfold checkFlux at this
    rcases hk : fa.grid.gridunits[(fa.idx.getD 0).toNat]? with _ | u
    · rw [hk] at this; cases this
    · have := (List.getElem?_eq_some_iff.1 hk).1
      omega
  have hi' : fa.idx.getD 0 = 0 := by omega
  refine ⟨⟨q1, by rw [hi', h1]; decide⟩, ?_⟩
  intro s' hs' a hmap
  have hfull : s' = run ph (fresh x) (ops ++ [.addField fa]) := by
    rw [hs', hs]; simp [run, step]
  have hg : g = fa.grid := by
    unfold storedField at q4
    split at q4
    · simp only [Except.ok.injEq, Prod.mk.injEq] at q4; exact q4.1.symm
    · unfold copyField at q4
      obtain ⟨c, hc'⟩ := List.length_eq_one_iff.1 h1
      simp only [hi, hc', List.getElem?_cons_zero, h2, if_true, Except.ok.injEq,
        Prod.mk.injEq] at q4
      rw [← q4.1]
      cases hgrid : fa.grid
      rw [hgrid] at hc'
      simp only at hc'
      simp [hc']
  have hf : s'.fields.get? m = some fa.grid := by
    rw [hs', h']
    simp [PyDict.get?_set, hg]
  obtain ⟨md, e1, -, e3⟩ := C42_first_property ph x _ s' hfull m fa.grid hf a hmap
  exact ⟨md, e1, by rw [hi]; exact e3⟩

/-- C42: negative indices are always refused. -/
theorem C42_negative_refused [LinearOrder K] (s : State F D O X G M K) (fa : FieldArgs X G K)
    (i : ℤ) (hi : fa.idx = some i) (h : i < 0) : addField s fa = (s, .error .value) := by
  unfold addField
  simp [hi, h]

/-- C42, against: the index of any property from the fourth on is refused for every field of
three dimensions, however many properties it has. -/
theorem C42_fourth_refused [LinearOrder K] (s : State F D O X G M K) (fa : FieldArgs X G K)
    (i : ℤ) (hi : fa.idx = some i) (hd : fa.grid.ndim = 3) (h : 3 ≤ i) :
    addField s fa = (s, .error .value) := by
  unfold addField
  have : ¬ (3 : ℤ) - 1 ≥ i := by omega
  simp only [hi, Option.getD_some, hd]
  rw [if_pos (by simp; omega)]

/-- C42, against: without the checks index 1 or 2 is accepted for a grid of three dimensions
that has no such property. -/
theorem C42_missing_accepted [LinearOrder K] (s : State F D O X G M K) (fa : FieldArgs X G K)
    (i : ℤ) (hi : fa.idx = some i) (hd : fa.grid.ndim = 3) (h : i = 1 ∨ i = 2)
    (hp : fa.grid.props.length = 1) (hc : fa.check = false) (hin : fa.inPlace = true)
    (hn : ∀ n, fa.name = some n → s.fields.has n = false)
    (hn' : fa.name = none → s.fields.has (Nat.repr s.fieldCounter) = false)
    (hr : resolutionOk s fa.grid = true) :
    ∃ n, (addField s fa).2 = .ok n ∧ ¬ i < fa.grid.props.length := by
  have hname : s.fields.has (fa.name.getD (Nat.repr s.fieldCounter)) = false := by
    cases hk : fa.name with
    | none => exact hn' hk
    | some n => exact hn n hk
  refine ⟨fa.name.getD (Nat.repr s.fieldCounter), ?_, by rw [hp]; omega⟩
  unfold addField
  simp only [hi, Option.getD_some, hd, hc, hname, hr, storedField, hin]
  rw [if_neg (by simp; omega)]
  simp

/-- C42, against: a copy of a field with two or more units is always refused. -/
theorem C42_copy_refused [LinearOrder K] (s : State F D O X G M K) (fa : FieldArgs X G K)
    (hin : fa.inPlace = false) (h2 : 2 ≤ fa.grid.gridunits.length) :
    ∃ e, addField s fa = (s, .error e) := by
  rcases addField_cases s fa with h | ⟨n, g, j, -, -, -, -, -, -, q⟩
  · exact h
  · exfalso
    unfold storedField copyField at q
    rw [hin] at q
    simp only [Bool.false_eq_true, if_false] at q
    split at q
    · cases q
    · rename_i hq
      split at hq
      · cases hq
      · rw [if_neg (by omega)] at hq; cases hq

/-- C42, against: a field with two or more units is always refused by an instrument with a
flux unit if the chosen property has a unit, even the right one. -/
theorem C42_units_refused [LinearOrder K] (s : State F D O X G M K) (fa : FieldArgs X G K)
    (hc : fa.check = true) (h2 : 2 ≤ fa.grid.gridunits.length) (u v : String)
    (hu : fa.grid.gridunits[(fa.idx.getD 0).toNat]? = some (some u)) (hv : s.fluxUnit = some v) :
    ∃ e, addField s fa = (s, .error e) := by
  rcases addField_cases s fa with h | ⟨n, g, j, -, -, -, -, -, q, -⟩
  · exact h
  · exfalso
    have := q hc
    unfold compatible at this
    split at this
    · cases this
    split at this
    · cases this
    split at this
    · cases this
    split at this
    · cases this
    split at this
    · cases this
    split at this
    · cases this
    unfold checkFlux at this
    rw [hu, hv] at this
    simp only at this
    have hne : ¬ fa.grid.gridunits.length = 1 := by omega
    simp [hne] at this

/-- C42, against: a field with two or more units cannot be mapped unless a beam is given. -/
theorem C42_no_beam_fails [DecidableEq F] [DecidableEq D] [LinearOrder K]
    (ph : Phys F D O X G B H M P V T S Q K) (x : Setup F D K) (ops : List (Op F D O X G B K Q))
    (s : State F D O X G M K) (hs : s = run ph (fresh x) ops) (f : Name) (g : Field X G K)
    (hf : s.fields.get? f = some g) (h2 : 2 ≤ g.gridunits.length) (a : MapArgs B Q)
    (hb : a.beam = none) : (mapFields ph s [f] a).2 ≠ .ok () := by
  intro h
  have ho : Ordered s := hs ▸ run_ordered ph ops _ (fresh_ordered x)
  obtain ⟨md, hcur⟩ := mapFields_ok_cur ph s a f h
  obtain ⟨-, hne, -, hF⟩ := (cur_iff ph s ho.detNodup a f g hf md).1 hcur
  obtain ⟨d, ds, hd⟩ := List.exists_cons_of_ne_nil hne
  obtain ⟨c, -, ms, e⟩ := forall₂_get hF 0 d (by simp [hd])
  obtain ⟨det, cube, b, hh, r, -, -, e3, -⟩ := single_parts ph s g a d _ e 0 c rfl
  rw [hb] at e3
  obtain ⟨r', -, e4⟩ := e3
  unfold setupBeam at e4
  have hne1 : ¬ g.gridunits.length = 1 := by omega
  split at e4
  · cases e4
  · cases e4
  · rw [if_neg hne1] at e4; cases e4
  · rw [if_neg hne1] at e4; cases e4

/-- C42 in full: an index is accepted only if the field has such a property, is never refused
because of its size if the field has it, and the map shows that property. -/
def C42_full : Prop :=
  ∀ (F D O X G B H M P V T S Q K : Type) [DecidableEq F] [DecidableEq D] [LinearOrder K]
    (ph : Phys F D O X G B H M P V T S Q K) (x : Setup F D K) (ops : List (Op F D O X G B K Q))
    (fa : FieldArgs X G K) (s : State F D O X G M K), s = run ph (fresh x) ops →
    (∀ n, (addField s fa).2 = .ok n →
      (0 ≤ fa.idx.getD 0 ∧ fa.idx.getD 0 < fa.grid.props.length) ∧
      ∀ (s' : State F D O X G M K), s' = (addField s fa).1 → ∀ a,
        (mapFields ph s' [n] a).2 = .ok () →
        ∃ md, (mapFields ph s' [n] a).1.maps.get? n = some md ∧
          List.Forall₂ (fun d c => Column ph s' fa.grid a d (fa.idx.getD 0).toNat c)
            s'.detNames md.cols) ∧
    (∀ i : ℤ, 0 ≤ i → i < fa.grid.props.length → (∃ n, (addField s { fa with idx := none }).2 = .ok n) →
      ∃ n, (addField s { fa with idx := some i }).2 = .ok n)

/-! ### C75: the size of the kernel -/

/-- C75, against: with a kernel size that is a whole number, as documented, mapping fails for
every instrument and every field. -/
theorem C75_integer_fails [DecidableEq F] [DecidableEq D] [LinearOrder K]
    (ph : Phys F D O X G B H M P V T S Q K) (x : Setup F D K) (ops : List (Op F D O X G B K Q))
    (s : State F D O X G M K) (hs : s = run ph (fresh x) ops) (f : Name) (n : ℤ) (q : Q) :
    (mapFields ph s [f] ⟨some (.int n), none, q⟩).2 ≠ .ok () := by
  intro h
  have ho : Ordered s := hs ▸ run_ordered ph ops _ (fresh_ordered x)
  obtain ⟨md, hcur⟩ := mapFields_ok_cur ph s _ f h
  have hcur' := hcur
  obtain ⟨g, -, hf, -⟩ := hcur'
  obtain ⟨-, hne, -, hF⟩ := (cur_iff ph s ho.detNodup _ f g hf md).1 hcur
  obtain ⟨d, ds, hd⟩ := List.exists_cons_of_ne_nil hne
  obtain ⟨c, -, ms, e⟩ := forall₂_get hF 0 d (by simp [hd])
  obtain ⟨det, cube, b, hh, r, -, -, ⟨r', -, e4⟩, -⟩ := single_parts ph s g _ d _ e 0 c rfl
  simp [setupBeam] at e4

/-- C75: with one number per axis, or with none if the resolution of the instrument is known,
mapping a field with one property succeeds, if there is a detector, no detector is called
`'instrument'` and the response functions themselves do not fail. -/
theorem C75_pair_partial [DecidableEq F] [DecidableEq D] [LinearOrder K]
    (ph : Phys F D O X G B H M P V T S Q K) (s : State F D O X G M K) (ho : Ordered s)
    (hd : s.detNames ≠ []) (hr : ∀ d ∈ s.detNames, ∀ det, s.detectors.get? d = some det →
      det.spatial.isSome ∧ det.spectral.isSome)
    (f : Name) (g : Field X G K) (hf : s.fields.get? f = some g) (hp : g.props ≠ [])
    (hu : g.gridunits.length = 1) (k : Option Kernel)
    (hk : (∃ m n, k = some (.pair m n)) ∨ (k = none ∧ s.bestSpatial ≠ none)) (q : Q)
    (hb : ∀ x fn kw o r, ∃ b, ph.beam x fn kw q o r = .ok b)
    (hc : ∀ x c b, ∃ h, ph.conv x c b q = .ok h)
    (hl : ∀ x h fn kw, ∃ m, ph.collapse x h fn kw = .ok m) :
    (mapFields ph s [f] ⟨k, none, q⟩).2 = .ok () := by
  have key : ∀ d ∈ s.detNames, ∃ c ms, single ph s g ⟨k, none, q⟩ d = .ok (c :: ms) := by
    intro d hd
    obtain ⟨det, hdet⟩ := Option.isSome_iff_exists.1 ((ho.dets d).1 hd)
    obtain ⟨r1, r2⟩ := hr d hd det hdet
    obtain ⟨a1, ha1⟩ := Option.isSome_iff_exists.1 r1
    obtain ⟨a2, ha2⟩ := Option.isSome_iff_exists.1 r2
    have hbeam : ∃ b, setupBeam ph s g a1 k q = .ok b := by
      unfold setupBeam
      rcases hk with ⟨m, n, rfl⟩ | ⟨rfl, hbest⟩
      · simp only [hu, if_true]
        exact hb ..
      · rcases hbs : s.bestSpatial with _ | r
        · exact absurd hbs hbest
        · simp only [hu, if_true]
          exact hb ..
    obtain ⟨b, hb'⟩ := hbeam
    obtain ⟨conv, hconv⟩ := mapE_total (fun c => ph.conv g.axes c b q) g.props
      (fun c _ => hc ..)
    obtain ⟨ms, hms⟩ := mapE_total (fun h => ph.collapse g.axes h a2.fn a2.kw) conv
      (fun h _ => hl ..)
    have hlen : ms.length = g.props.length := by
      rw [mapE_length hms, mapE_length hconv]
    cases ms with
    | nil => exact absurd (List.length_eq_zero_iff.1 hlen.symm) hp
    | cons c ms =>
      refine ⟨c, ms, ?_⟩
      unfold single groupBeam detectorMap
      simp only [hdet, Option.bind_some, ha1, hb', hconv, ha2, hms]
  have hall : ∃ cols, List.Forall₂ (fun d c => ∃ ms, single ph s g ⟨k, none, q⟩ d = .ok (c :: ms))
      s.detNames cols := by
    clear hd hr
    generalize s.detNames = l at key
    induction l with
    | nil => exact ⟨[], .nil⟩
    | cons d l ih =>
      obtain ⟨c, ms, h1⟩ := key d (by simp)
      obtain ⟨cols, h2⟩ := ih (fun d' h' => key d' (List.mem_cons_of_mem _ h'))
      exact ⟨c :: cols, .cons ⟨ms, h1⟩ h2⟩
  obtain ⟨cols, hF⟩ := hall
  have hargs : ArgsOk s (⟨k, none, q⟩ : MapArgs B Q) := by
    rcases hk with ⟨m, n, rfl⟩ | ⟨rfl, hbest⟩
    · simp [ArgsOk]
    · rcases hbs : s.bestSpatial with _ | r
      · exact absurd hbs hbest
      · simp [ArgsOk, hbs]
  exact ((mapFields_one_iff ph s _ f ⟨g.axes, cols⟩).2
    ((cur_iff ph s ho.detNodup _ f g hf _).2 ⟨hargs, hd, rfl, hF⟩)).1

/-- C75 in full: with any positive whole number the same holds. -/
def C75_full : Prop :=
  ∀ (F D O X G B H M P V T S Q K : Type) [DecidableEq F] [DecidableEq D] [LinearOrder K]
    (ph : Phys F D O X G B H M P V T S Q K) (x : Setup F D K) (ops : List (Op F D O X G B K Q))
    (s : State F D O X G M K), s = run ph (fresh x) ops → ∀ (f : Name) (n m : ℤ) (q : Q),
    (mapFields ph s [f] ⟨some (.pair n m), none, q⟩).2 = .ok () → 0 < n →
    (mapFields ph s [f] ⟨some (.int n), none, q⟩).2 = .ok ()

end Verif.Inst
