import Verif.Lemmas.LCCalls

set_option linter.unusedSectionVars false

/-!
# C121: calls for sets of lightcones
-/

namespace Verif.LCI

open Verif.Handler (Name V Err State Arg Op run)
open Verif.Handler.Spec (changes selection seen)
open Verif.LCH (Attrs EvoArgs evalStatEvo)
open Verif.LC (Env Folder Sky Described Left buildPlan exec openCone coneMeta buildCone)
open Verif.LC.Spec (columns attr Shown)
open Verif.LCI.Spec

variable {K : Type} [Field K] [LinearOrder K] [IsStrictOrderedRing K] {α : Type}

/-- **C121 (one call).** A call that returns: the results are listed by lightcone, in the order of the
set; each lightcone is as after the same call for it alone, and the result is that of this call. -/
theorem C121_each (m : Method K α) (hs hs' : PyDict ℕ (State K)) (rs : PyDict ℕ (Res K α))
    (h : callAll m hs = (hs', .ok rs)) :
    hs'.keys = hs.keys ∧ rs.keys = hs.keys ∧
    ∀ k s, hs.get? k = some s → ∃ r, callOne s m = ((callOne s m).1, .ok r) ∧
      hs'.get? k = some (callOne s m).1 ∧ rs.get? k = some r := by
  have h2 : (callAll m hs).2 = .ok rs := by rw [h]
  have h1 : (callAll m hs).1 = hs' := by rw [h]
  refine ⟨by rw [← h1]; exact callAll_keys m hs, callAll_rs_keys m hs rs h2, ?_⟩
  intro k s hk
  obtain ⟨g1, r, g2, g3⟩ := callAll_get_ok m hs rs h2 k s hk
  exact ⟨r, by rw [← g3], by rw [← h1]; exact g1, g2⟩

/-- **C121 (one call).** A call returns if it returns for each of the lightcones. -/
theorem C121_returns (m : Method K α) (hs : PyDict ℕ (State K))
    (h : ∀ q ∈ hs, ∃ r, (callOne q.2 m).2 = .ok r) : ∃ hs' rs, callAll m hs = (hs', .ok rs) := by
  obtain ⟨rs, hr⟩ := callAll_completes m hs h
  exact ⟨_, rs, by rw [← hr]⟩

/-- **C121 (a call that raises).** The lightcones before the one that raises are changed, those after it
are not; the results are lost. -/
theorem C121_raises (m : Method K α) (hs hs' : PyDict ℕ (State K)) (e : Err)
    (h : callAll m hs = (hs', .error e)) :
    ∃ before k s rest, hs = before ++ (k, s) :: rest ∧
      (∀ q ∈ before, ∃ r, (callOne q.2 m).2 = .ok r) ∧ (callOne s m).2 = .error e ∧
      hs' = before.map (fun q => (q.1, (callOne q.2 m).1)) ++ (k, (callOne s m).1) :: rest := by
  induction hs generalizing hs' with
  | nil => simp [callAll_nil] at h
  | cons q rest ih =>
    obtain ⟨k, s⟩ := q
    rw [callAll_cons] at h
    rcases hc : (callOne s m).2 with e' | r
    · rw [hc] at h
      simp only [Prod.mk.injEq, Except.error.injEq] at h
      obtain ⟨rfl, rfl⟩ := h
      exact ⟨[], k, s, rest, rfl, by simp, hc, rfl⟩
    · rw [hc] at h
      simp only [Prod.mk.injEq] at h
      obtain ⟨rfl, h2⟩ := h
      rcases hr : (callAll m rest).2 with e' | rs
      · rw [hr] at h2
        simp only [Except.error.injEq] at h2
        subst h2
        obtain ⟨before, k', s', rest', g1, g2, g3, g4⟩ := ih _ (by rw [← hr])
        refine ⟨(k, s) :: before, k', s', rest', by rw [g1]; rfl, ?_, g3, by rw [g4]; rfl⟩
        intro q hq
        rcases List.mem_cons.1 hq with rfl | hq
        · exact ⟨r, hc⟩
        · exact g2 q hq
      · rw [hr] at h2; cases h2

/-- **C121 (histories).** After any sequence of calls, some of which may have raised, each lightcone is as
after a part of these calls for it alone; if all calls returned, as after all of them. -/
theorem C121_history (ms : List (Method K α)) (hs : PyDict ℕ (State K)) :
    (session hs ms).keys = hs.keys ∧
    ∀ k s, hs.get? k = some s → ∃ ms' : List (Method K α), ms'.Sublist ms ∧
      (session hs ms).get? k = some (run s (ms'.filterMap op)) ∧
      ((∀ n m, ms[n]? = some m → ∃ rs, (callAll m (session hs (ms.take n))).2 = .ok rs) → ms' = ms) := by
  induction ms generalizing hs with
  | nil => exact ⟨rfl, fun k s h => ⟨[], List.Sublist.refl _, h, fun _ => rfl⟩⟩
  | cons m ms ih =>
    obtain ⟨h1, h2⟩ := ih (callAll m hs).1
    refine ⟨h1.trans (callAll_keys m hs), ?_⟩
    intro k s hk
    have split : ∀ (s' : State K), (callAll m hs).1.get? k = some s' → ∃ ms' : List (Method K α),
        ms'.Sublist ms ∧ (session hs (m :: ms)).get? k = some (run s' (ms'.filterMap op)) ∧
        ((∀ n m', (m :: ms)[n]? = some m' → ∃ rs, (callAll m' (session hs ((m :: ms).take n))).2 = .ok rs) →
          ms' = ms) := by
      intro s' hs'
      obtain ⟨ms', g1, g2, g3⟩ := h2 k s' hs'
      refine ⟨ms', g1, g2, ?_⟩
      intro hall
      refine g3 ?_
      intro n m' hn
      exact hall (n + 1) m' hn
    rcases hres : (callAll m hs).2 with e | rs
    · rcases callAll_get m hs k s hk with hs' | hs'
      · obtain ⟨ms', g1, g2, g3⟩ := split _ hs'
        refine ⟨ms', g1.cons m, g2, ?_⟩
        intro hall
        obtain ⟨rs, hrs⟩ := hall 0 m rfl
        have : (callAll m hs).2 = .ok rs := hrs
        rw [hres] at this
        cases this
      · obtain ⟨ms', g1, g2, g3⟩ := split _ hs'
        refine ⟨m :: ms', g1.cons_cons m, ?_, fun hall => by rw [g3 hall]⟩
        rw [g2, callOne_run]
        cases ho : op m <;> simp [ho, run]
    · obtain ⟨ms', g1, g2, g3⟩ := split _ (callAll_get_ok m hs rs hres k s hk).1
      refine ⟨m :: ms', g1.cons_cons m, ?_, fun hall => by rw [g3 hall]⟩
      rw [g2, callOne_run]
      cases ho : op m <;> simp [ho, run]

/-- **C121 (opening).** Lightcones were built and properties added, the last call of which may have been
interrupted: the set of any of the lightcones can be opened, with any list of distinct numbers; it has a
handler for each of them, that of the lightcone alone. -/
theorem C121_opens [FloorRing K] (e : Env K) (sim : String → Option (String × ℤ)) (hs : Described e sim)
    (skies : List (Sky K)) (bins : List K) (hn : e.n = skies.length) (d d0 d' : Folder K)
    (hbuild : exec (buildPlan e.st skies e.metas e.data bins) d = (d0, .ok ()))
    (hleft : Left e d0 d') (h : K) (inH : Bool) (more : PyDict Name K) (cosmo : ℕ) (files l : List ℕ)
    (require : Bool) (hne : l ≠ []) (hlt : ∀ i ∈ l, i < skies.length) (hnd : l.Nodup)
    (numbers : Numbers) (hl : numbers = .list l ∨ numbers = .all ∧ files = l) :
    ∃ it : Iter K, openSet (fun i => openCone sim (d' i) h inH more)
        (fun _ => ⟨cosmo, coneMeta e.st h inH⟩) files numbers require = .ok it ∧
      it.n = l.length ∧ it.numbers = l ∧ it.handlers.keys = l ∧ it.consistent = true ∧
      ∀ i ∈ l, ∃ st, openCone sim (d' i) h inH more = .ok st ∧ it.handlers.get? i = some st := by
  have hopen : ∀ i ∈ l, ∃ s, openCone sim (d' i) h inH more = .ok s := by
    intro i hi
    obtain ⟨c, f, st, -, -, -, h4, -⟩ := LC.C119_opens e sim hs skies bins hn d d0 d' hbuild hleft i
      (skies[i]'(hlt i hi)) (List.getElem?_eq_getElem (hlt i hi)) h inH more
    exact ⟨st, h4⟩
  obtain ⟨H, h1, h2, -⟩ := openHandlers_ok (fun i => openCone sim (d' i) h inH more) l [] hopen
  have hkeys := openHandlers_keys _ _ _ _ h1
  rw [show PyDict.keys ([] : PyDict ℕ (State K)) = [] from rfl, foldl_keys_nodup l [] (by simpa using hnd),
    List.nil_append] at hkeys
  have hinit : LCH.iterInit (l.map (fun _ => (⟨cosmo, coneMeta e.st h inH⟩ : Attrs K))) require = .ok true := by
    rcases l with - | ⟨i, is⟩
    · exact absurd rfl hne
    · refine LCH.C74_accepts_partial _ _ require ?_ ?_
      · cases hm : e.st.mode <;> simp [coneMeta, LC.shapeOf, hm]
      · intro x hx
        obtain ⟨j, -, rfl⟩ := List.mem_map.1 hx
        exact ⟨rfl, rfl⟩
  have hgo : openSet.go (fun i => openCone sim (d' i) h inH more)
      (fun _ => (⟨cosmo, coneMeta e.st h inH⟩ : Attrs K)) require l = .ok ⟨l.length, l, H, true⟩ := by
    unfold openSet.go
    rw [h1]
    simp only
    rw [hinit]
  refine ⟨⟨l.length, l, H, true⟩, ?_, rfl, rfl, hkeys, rfl, h2⟩
  rcases hl with rfl | ⟨rfl, rfl⟩ <;> exact hgo

/-- **C121 (values).** In such a set, after any calls, also such that raised, that do not change a
property: `return_property` returns for each lightcone the values of the selected objects of this
lightcone. -/
theorem C121_values [FloorRing K] (e : Env K) (sim : String → Option (String × ℤ)) (hs : Described e sim)
    (skies : List (Sky K)) (bins : List K) (hn : e.n = skies.length) (d d0 d' : Folder K)
    (hbuild : exec (buildPlan e.st skies e.metas e.data bins) d = (d0, .ok ()))
    (hleft : Left e d0 d') (h : K) (inH : Bool) (more : PyDict Name K) (cosmo : ℕ) (files l : List ℕ)
    (require : Bool) (hne : l ≠ []) (hlt : ∀ i ∈ l, i < skies.length) (hnd : l.Nodup)
    (numbers : Numbers) (hl : numbers = .list l ∨ numbers = .all ∧ files = l) (it : Iter K)
    (hopen : openSet (fun i => openCone sim (d' i) h inH more)
        (fun _ => ⟨cosmo, coneMeta e.st h inH⟩) files numbers require = .ok it)
    (ms : List (Method K α)) (name : Name) (hms : ∀ m ∈ ms, ∀ o, op m = some o → ¬ changes name o)
    (hcuts : name ≠ "mass_cuts")
    (hhas : ∀ i ∈ l, ∃ f, d' i = some f ∧ (f.dataset name).isSome) (useAll : Bool) (b : Option Bool) :
    ∃ (hs' : PyDict ℕ (State K)) (rs : PyDict ℕ (Res K α)),
      callAll (.ret name useAll b) (session it.handlers ms) = (hs', .ok rs) ∧
      rs.keys = l ∧
      ∀ i ∈ l, ∃ st out f vals u ε, (session it.handlers ms).get? i = some st ∧
        rs.get? i = some (.values (some out)) ∧ d' i = some f ∧ f.dataset name = some vals ∧
        attr sim name = some (u, ε) ∧ out.length = (selection st useAll).length ∧
        ∀ j k : ℕ, (selection st useAll)[j]? = some k →
          ∃ x, vals[k]? = some x ∧ out[j]? = some (seen h ε (b.getD st.inH) (some x)) := by
  obtain ⟨it', g1, g2, g3, g4, g5, g6⟩ := C121_opens e sim hs skies bins hn d d0 d' hbuild hleft h inH more
    cosmo files l require hne hlt hnd numbers hl
  rw [hopen] at g1
  simp only [Except.ok.injEq] at g1
  subst g1
  obtain ⟨hk, hhist⟩ := C121_history ms it.handlers
  have hone : ∀ i ∈ l, ∃ st out f vals u ε, (session it.handlers ms).get? i = some st ∧
        Handler.returnProperty st name useAll b = .ok (some out) ∧ d' i = some f ∧
        f.dataset name = some vals ∧
        attr sim name = some (u, ε) ∧ out.length = (selection st useAll).length ∧
        ∀ j k : ℕ, (selection st useAll)[j]? = some k →
          ∃ x, vals[k]? = some x ∧ out[j]? = some (seen h ε (b.getD st.inH) (some x)) := by
    intro i hi
    obtain ⟨st0, o1, o2⟩ := g6 i hi
    obtain ⟨ms', hsub, hget, -⟩ := hhist i st0 o2
    obtain ⟨c, f, st1, a1, a2, a3, a4, -, -, -, -, -, -, a11⟩ := LC.C119_opens e sim hs skies bins hn d d0 d'
      hbuild hleft i (skies[i]'(hlt i hi)) (List.getElem?_eq_getElem (hlt i hi)) h inH more
    rw [o1] at a4
    cases a4
    obtain ⟨f', hf', hsome⟩ := hhas i hi
    rw [a2] at hf'
    cases hf'
    obtain ⟨vals, hv⟩ := Option.isSome_iff_exists.1 hsome
    obtain ⟨u, ε, b1, b2⟩ := a11 name vals hcuts hv
    obtain ⟨out, c1, c2, c3⟩ := b2 (ms'.filterMap op) (by
      intro o ho
      obtain ⟨m, hm, hmo⟩ := List.mem_filterMap.1 ho
      exact hms m (hsub.subset hm) o hmo) useAll b
    exact ⟨_, out, f, vals, u, ε, hget, c1, a2, hv, b1, c2, c3⟩
  have hnd' : (session it.handlers ms).keys.Nodup := by rw [hk, g4]; exact hnd
  obtain ⟨hs', rs, hc⟩ := C121_returns (α := α) (.ret name useAll b) (session it.handlers ms) (by
    rintro ⟨i, s⟩ hq
    have hget := mem_get? _ hnd' i s hq
    have hi : i ∈ l := by
      rw [← g4, ← hk]
      exact List.mem_map.2 ⟨_, hq, rfl⟩
    obtain ⟨st, out, f, vals, u, ε, q1, q2, -⟩ := hone i hi
    rw [hget] at q1
    cases q1
    exact ⟨.values (some out), by simp only [callOne, q2]⟩)
  obtain ⟨-, e2, e3⟩ := C121_each _ _ _ _ hc
  refine ⟨hs', rs, hc, by rw [e2, hk, g4], ?_⟩
  intro i hi
  obtain ⟨st, out, f, vals, u, ε, q1, q2, q3⟩ := hone i hi
  obtain ⟨r, r1, -, r2⟩ := e3 i st q1
  refine ⟨st, out, f, vals, u, ε, q1, ?_, q3⟩
  rw [r2]
  simp only [callOne, q2, Prod.mk.injEq, Except.ok.injEq, true_and] at r1
  rw [← r1]

/-- **C121 (numbers).** With a number given twice there are fewer lightcones than the set says; a single
number that is not in a list is refused, and so is an empty list. -/
theorem C121_numbers (open1 : ℕ → Except Err (State K)) (attrs : ℕ → Attrs K) (files : List ℕ)
    (require : Bool) :
    (∀ l it, openSet open1 attrs files (.list l) require = .ok it →
      it.n = l.length ∧ it.handlers.keys.Nodup ∧ (∀ i, i ∈ it.handlers.keys ↔ i ∈ l) ∧
      (¬ l.Nodup → it.handlers.keys.length < it.n)) ∧
    (∀ n, openSet open1 attrs files (.scalar n) require = .error .typeError) ∧
    openSet open1 attrs files (.list []) require = .error .indexError := by
  refine ⟨?_, fun _ => rfl, rfl⟩
  intro l it h
  have h' : openSet.go open1 attrs require l = .ok it := h
  unfold openSet.go at h'
  rcases ho : openHandlers open1 l [] with e | H
  · rw [ho] at h'; cases h'
  rw [ho] at h'
  simp only at h'
  rcases hi : LCH.iterInit (l.map attrs) require with e | c
  · rw [hi] at h'; cases h'
  rw [hi] at h'
  simp only [Except.ok.injEq] at h'
  subst h'
  have hkeys := openHandlers_keys _ _ _ _ ho
  obtain ⟨k1, k2⟩ := foldl_keys l (PyDict.keys ([] : PyDict ℕ (State K))) (by simp [PyDict.keys])
  rw [← hkeys] at k1 k2
  have hmem : ∀ i, i ∈ H.keys ↔ i ∈ l := by
    intro i
    rw [k2]
    simp [PyDict.keys]
  refine ⟨rfl, k1, hmem, ?_⟩
  intro hnd
  have hsub : H.keys ⊆ l := fun i hi => (hmem i).1 hi
  obtain ⟨t, t1, t2⟩ := List.subperm_of_subset k1 hsub
  have hle : H.keys.length ≤ l.length := by rw [← t1.length_eq]; exact t2.length_le
  rcases Nat.lt_or_ge H.keys.length l.length with hlt | hge
  · exact hlt
  · exfalso
    have : t = l := t2.eq_of_length_le (by rw [t1.length_eq]; exact hge)
    subst this
    exact hnd (t1.nodup_iff.2 k1)

/-! ## Statistics in redshift bins -/

/-- **C121 (statistics in bins).** Keywords `zmin` and `zmax` are not given by the caller (or are set for
each bin): then the statistics of each lightcone are those of the call for it alone. -/
theorem C121_evo_partial (f : PyDict Name (Arg K) → Except Err α) (hf : Keyworded f) (a : EvoArgs K)
    (vol : ℕ → Bool → K → K → Except Err K) (bins : List K) (hs hs' : PyDict ℕ (State K))
    (other o' : PyDict Name (Arg K)) (rs : PyDict ℕ (List K × List α))
    (hread : ∀ q ∈ hs, ∃ zs, Handler.returnProperty q.2 "redshift" true (some q.2.inH) = .ok (some zs))
    (h1 : a.zminKw = true ∨ other.get? "zmin" = none) (h2 : a.zmaxKw = true ∨ other.get? "zmax" = none)
    (h : evoAll bins f a vol hs other = ((hs', o'), .ok rs)) :
    hs'.keys = hs.keys ∧
    List.Forall₂ (fun q r => r.1 = q.1 ∧ (evalStatEvo q.2 bins f a (vol q.1) other).2 = .ok r.2) hs rs ∧
    List.Forall₂ (fun q q' => q'.1 = q.1 ∧ q'.2 = (evalStatEvo q.2 bins f a (vol q.1) other).1.1) hs hs' := by
  refine ⟨(each_ok _ _ _ _ _ _ h).1, ?_⟩
  have key : ∀ (hs hs' : PyDict ℕ (State K)) (o o' : PyDict Name (Arg K)) (rs : PyDict ℕ (List K × List α)),
      (∀ q ∈ hs, ∃ zs, Handler.returnProperty q.2 "redshift" true (some q.2.inH) = .ok (some zs)) →
      SameKws a o other → evoAll bins f a vol hs o = ((hs', o'), .ok rs) →
      List.Forall₂ (fun q r => r.1 = q.1 ∧ (evalStatEvo q.2 bins f a (vol q.1) other).2 = .ok r.2) hs rs ∧
      List.Forall₂ (fun q q' => q'.1 = q.1 ∧ q'.2 = (evalStatEvo q.2 bins f a (vol q.1) other).1.1) hs hs' := by
    intro hs
    induction hs with
    | nil =>
      intro hs' o o' rs _ _ h
      simp only [evoAll, each, Prod.mk.injEq, Except.ok.injEq] at h
      obtain ⟨⟨rfl, -⟩, rfl⟩ := h
      exact ⟨.nil, .nil⟩
    | cons q rest ih =>
      obtain ⟨k, s⟩ := q
      intro hs' o o' rs hread hsame h
      unfold evoAll each at h
      rcases he : evalStatEvo s bins f a (vol k) o with ⟨⟨s1, o1⟩, e | r⟩
      · simp only [he] at h; simp at h
      simp only [he] at h
      rcases hr : each (fun k s o => evalStatEvo s bins f a (vol k) o) rest o1 with ⟨⟨rest', o2⟩, e | rs1⟩
      · simp only [hr] at h; simp at h
      simp only [hr, Prod.mk.injEq, Except.ok.injEq] at h
      obtain ⟨⟨rfl, rfl⟩, rfl⟩ := h
      obtain ⟨e1, e2⟩ := evo_same f hf a (vol k) bins s o other hsame
      rw [he] at e1 e2
      obtain ⟨zs, hz⟩ := hread (k, s) List.mem_cons_self
      have hsame1 : SameKws a o1 other := by
        obtain ⟨bs, vs⟩ := r
        obtain ⟨c1, -, -, c4, c5⟩ := LCH.evo_ok s s1 bins f a (vol k) o o1 bs vs zs hz he
        cases hl : (bs.zip bs.tail).getLast? with
        | none =>
          have hlen : bs.length ≤ 1 := by
            rw [List.getLast?_eq_none_iff] at hl
            have := congrArg List.length hl
            simp only [List.length_zip, List.length_tail, List.length_nil] at this
            omega
          rw [(c5 hlen).2]
          exact hsame
        | some p =>
          obtain ⟨-, d1, d2, d3, d4, d5⟩ := c4 p hl
          intro k'
          by_cases k1 : k' = "zmin"
          · subst k1
            rcases h1 with h1 | h1
            · exact Or.inr (Or.inl ⟨rfl, h1⟩)
            · left; rw [d2, h1]
          by_cases k2 : k' = "zmax"
          · subst k2
            rcases h2 with h2 | h2
            · exact Or.inr (Or.inr (Or.inl ⟨rfl, h2⟩))
            · left; rw [d3, h2]
          by_cases k3 : k' = "volume"
          · subst k3
            cases hv : a.volumeKw with
            | true => exact Or.inr (Or.inr (Or.inr ⟨rfl, rfl⟩))
            | false =>
              left
              rw [d4 hv]
              rcases hsame "volume" with h | h | h | h
              · exact h
              · exact absurd h.1 (by decide)
              · exact absurd h.1 (by decide)
              · rw [hv] at h; exact absurd h.2 (by decide)
          · left
            rw [d1 k' k1 k2 k3]
            rcases hsame k' with h | h | h | h
            · exact h
            · exact absurd h.1 k1
            · exact absurd h.1 k2
            · exact absurd h.1 k3
      obtain ⟨i1, i2⟩ := ih _ _ _ _ (fun q hq => hread q (List.mem_cons_of_mem _ hq)) hsame1 hr
      exact ⟨.cons ⟨rfl, e1.symm⟩ i1, .cons ⟨rfl, e2⟩ i2⟩
  exact key hs hs' other o' rs hread (sameKws_refl a other) h

/-- **C121 (statistics in bins), against.** Keywords `zmin` and `zmax` the caller gives reach only the
first lightcone of the set: all others are evaluated as if they were not given. -/
theorem C121_evo_lost (f : PyDict Name (Arg K) → Except Err α) (hf : Keyworded f) (a : EvoArgs K)
    (vol : ℕ → Bool → K → K → Except Err K) (bins : List K) (hb : 2 ≤ bins.length) (k : ℕ) (s : State K)
    (rest hs' : PyDict ℕ (State K)) (other o' : PyDict Name (Arg K)) (rs : PyDict ℕ (List K × List α))
    (hread : ∀ q ∈ (k, s) :: rest,
      ∃ zs, Handler.returnProperty q.2 "redshift" true (some q.2.inH) = .ok (some zs))
    (h : evoAll bins f a vol ((k, s) :: rest) other = ((hs', o'), .ok rs)) :
    ∃ r rs1, rs = (k, r) :: rs1 ∧ (evalStatEvo s bins f a (vol k) other).2 = .ok r ∧
      List.Forall₂ (fun q r => r.1 = q.1 ∧
        (evalStatEvo q.2 bins f a (vol q.1) ((other.erase "zmin").erase "zmax")).2 = .ok r.2) rest rs1 := by
  unfold evoAll each at h
  rcases he : evalStatEvo s bins f a (vol k) other with ⟨⟨s1, o1⟩, e | r⟩
  · simp only [he] at h; simp at h
  simp only [he] at h
  rcases hr : each (fun k s o => evalStatEvo s bins f a (vol k) o) rest o1 with ⟨⟨rest', o2⟩, e | rs1⟩
  · simp only [hr] at h; simp at h
  simp only [hr, Prod.mk.injEq, Except.ok.injEq] at h
  obtain ⟨⟨rfl, rfl⟩, rfl⟩ := h
  refine ⟨r, rs1, rfl, rfl, ?_⟩
  obtain ⟨zs, hz⟩ := hread (k, s) List.mem_cons_self
  obtain ⟨bs, vs⟩ := r
  obtain ⟨c1, -, -, c4, -⟩ := LCH.evo_ok s s1 bins f a (vol k) other o1 bs vs zs hz he
  have hlen : 2 ≤ bs.length := by rw [c1, List.length_insertionSort]; exact hb
  obtain ⟨p, hp⟩ : ∃ p, (bs.zip bs.tail).getLast? = some p := by
    cases hl : (bs.zip bs.tail).getLast? with
    | some p => exact ⟨p, rfl⟩
    | none =>
      rw [List.getLast?_eq_none_iff] at hl
      have := congrArg List.length hl
      simp only [List.length_zip, List.length_tail, List.length_nil] at this
      omega
  obtain ⟨-, d1, d2, d3, d4, d5⟩ := c4 p hp
  obtain ⟨-, g1, -⟩ := C121_evo_partial f hf a vol bins rest rest' o1 o2 rs1
    (fun q hq => hread q (List.mem_cons_of_mem _ hq)) (Or.inr d2) (Or.inr d3) hr
  refine List.Forall₂.imp ?_ g1
  rintro q ⟨k', r'⟩ ⟨e1, e2⟩
  refine ⟨e1, ?_⟩
  rw [← e2]
  symm
  refine (evo_same f hf a (vol q.1) bins q.2 o1 _ ?_).1
  intro k'
  by_cases k1 : k' = "zmin"
  · subst k1; left; rw [d2]; simp
  by_cases k2 : k' = "zmax"
  · subst k2; left; rw [d3]; simp
  by_cases k3 : k' = "volume"
  · subst k3
    cases hv : a.volumeKw with
    | true => exact Or.inr (Or.inr (Or.inr ⟨rfl, rfl⟩))
    | false => left; rw [d4 hv]; simp
  · left
    rw [d1 k' k1 k2 k3, PyDict.get?_erase, if_neg (fun e => k2 e.symm), PyDict.get?_erase,
      if_neg (fun e => k1 e.symm)]

end Verif.LCI
