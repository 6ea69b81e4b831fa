import Verif.Lemmas.LCOpen
import Verif.Props.LCFileEx

set_option linter.unusedSectionVars false

/-!
# C119: a lightcone read with a handler shows its objects
-/

namespace Verif.LC

open Verif.Sim (Err SnapMeta)
open Verif.Handler (Dataset State V)
open Verif.Handler.Spec (WF Reachable seen)
open Verif.LC.Spec

variable {K : Type} [Field K] [LinearOrder K] [IsStrictOrderedRing K] [FloorRing K]

/-- The simulation gives units and the power of `h` of its properties; it has positions and masses,
and vectors have three components. -/
structure Described (e : Env K) (sim : String → Option (String × ℤ)) : Prop where
  basic : ∀ k ∈ ["pos_x", "pos_y", "pos_z", "mass"], (sim k).isSome
  known : ∀ k ∈ e.known, (sim k).isSome
  vector : ∀ key, key ++ "_x" ∈ e.known → key ++ "_y" ∈ e.known ∧ key ++ "_z" ∈ e.known

/-- What can be found in the folder: after completed calls that add properties, one more call was
interrupted (or failed, or completed) after `k` steps. -/
def Left (e : Env K) (d d' : Folder K) : Prop :=
  ∃ (cs : List Call) (d1 : Folder K) (c : Call) (k : ℕ), session e cs d = (d1, .ok ()) ∧
    d' = (exec ((c.plan e d1).take k) d1).1

theorem attr_some {sim : String → Option (String × ℤ)} {k : String}
    (hm : (sim "mass").isSome) (h : (sim k).isSome ∨ k = "masscheck") : (attr sim k).isSome := by
  unfold attr
  by_cases h1 : k ∈ ["ra", "dec"]
  · simp [h1]
  · rw [if_neg h1]
    by_cases h2 : k = "redshift"
    · simp [h2]
    · rw [if_neg h2]
      by_cases h3 : k = "masscheck"
      · simp [h3, hm]
      · rw [if_neg h3]
        exact h.resolve_right h3

theorem plan_cases (e : Env K) (sim : String → Option (String × ℤ)) (hs : Described e sim)
    (c : Call) (d : Folder K) :
    (∃ er, c.plan e d = [Step.fail er]) ∨
    ∃ (add : Adding K) (new : List String) (P : LCFile K → String → Row K → K → Prop),
      c.plan e d = addPlanG (snapsUsed e.st e.metas) add e.n new d ∧ (∀ f, Fills add f (P f)) ∧
      ∀ k ∈ new.flatMap add.names, (attr sim k).isSome := by
  have hm := hs.basic "mass" (by simp)
  cases c with
  | scalar keys =>
    simp only [Call.plan]
    unfold addPlan
    rcases d 0 with - | f0
    · exact Or.inl ⟨_, rfl⟩
    simp only
    rcases f0.full with - | full
    · exact Or.inl ⟨_, rfl⟩
    simp only
    refine Or.inr ⟨_, _, _, rfl, scalar_fills e.st e.data e.cat e.store, ?_⟩
    intro k hk
    obtain ⟨key, hkey, hk⟩ := List.mem_flatMap.1 hk
    simp only [scalarAdding, List.mem_singleton] at hk
    subst hk
    rw [(List.perm_insertionSort _ _).mem_iff] at hkey
    have := (List.mem_filter.1 hkey).2
    simp only [Bool.and_eq_true, Bool.or_eq_true, decide_eq_true_eq, beq_iff_eq] at this
    rcases this.2 with h1 | h1
    · exact attr_some hm (Or.inl (hs.known _ h1))
    · exact attr_some hm (Or.inr h1)
  | vector keys =>
    simp only [Call.plan]
    unfold addPosPlan
    rcases d 0 with - | f0
    · exact Or.inl ⟨_, rfl⟩
    simp only
    rcases f0.full with - | full
    · exact Or.inl ⟨_, rfl⟩
    simp only
    refine Or.inr ⟨_, _, _, rfl, vector_fills e.st e.data e.cat e.store, ?_⟩
    intro k hk
    obtain ⟨key, hkey, hk⟩ := List.mem_flatMap.1 hk
    rw [(List.perm_insertionSort _ _).mem_iff] at hkey
    have := (List.mem_filter.1 hkey).2
    simp only [Bool.and_eq_true, decide_eq_true_eq] at this
    have h1 := this.2
    obtain ⟨h2, h3⟩ := hs.vector key h1
    simp only [vectorAdding, List.mem_cons, List.not_mem_nil, or_false] at hk
    rcases hk with rfl | rfl | rfl
    · exact attr_some hm (Or.inl (hs.known _ h1))
    · exact attr_some hm (Or.inl (hs.known _ h2))
    · exact attr_some hm (Or.inl (hs.known _ h3))

/-- Any part of a call leaves a file that can be opened and that has what was there. -/
theorem call_tidy (e : Env K) (sim : String → Option (String × ℤ)) (hs : Described e sim)
    (c : Call) (d : Folder K) (k i : ℕ) (hi : i < e.n) (f : LCFile K) (rows : List (Row K))
    (old full : PyDict String (List K)) (hd : d i = some f) (hr : f.rows = some rows)
    (hf : f.full = some full) (ht : Tidy (fun k => (attr sim k).isSome) rows old full) :
    ∃ f' full', (exec ((c.plan e d).take k) d).1 i = some f' ∧ f'.rows = some rows ∧
      f'.full = some full' ∧ Tidy (fun k => (attr sim k).isSome) rows old full' := by
  obtain ⟨p1, hp, hnf, hrun⟩ := crash_file (c.plan e d) d k
  have h := hrun i
  rw [hd] at h
  generalize (exec ((c.plan e d).take k) d).1 i = g at h
  rcases plan_cases e sim hs c d with ⟨er, hpl⟩ | ⟨add, new, P, hpl, hP, hk⟩
  · rw [hpl] at hp
    rcases p1 with - | ⟨a, p1⟩
    · simp only [effsOf, List.filterMap_nil, runFile, Except.ok.injEq] at h
      exact ⟨f, full, h.symm, hr, hf, ht⟩
    · obtain ⟨rfl, -⟩ := List.cons_prefix_cons.1 hp
      exact absurd rfl (hnf _ (by simp) er)
  · rw [hpl] at hp
    have hpre := effsOf_prefix hp i
    rw [effsOf_addPlanG _ add e.n new d i hi f rows hd hr] at hpre
    obtain ⟨f', full', h1, h2, h3, h4⟩ := tidy_add (known := fun k => (attr sim k).isSome) _ add new f
      rows full hr hf ⟨ht.nodup, ht.lengths, ht.mass, fun _ _ h => h⟩ hk (P f) (hP f) _ hpre g h
    exact ⟨f', full', h1, h2, h3, h4.nodup, h4.lengths, h4.mass,
      fun k l hl => h4.kept k l (ht.kept k l hl)⟩

theorem session_tidy (e : Env K) (sim : String → Option (String × ℤ)) (hs : Described e sim)
    (cs : List Call) (d d' : Folder K) (h : session e cs d = (d', .ok ())) (i : ℕ) (hi : i < e.n)
    (f : LCFile K) (rows : List (Row K)) (old full : PyDict String (List K)) (hd : d i = some f)
    (hr : f.rows = some rows) (hf : f.full = some full)
    (ht : Tidy (fun k => (attr sim k).isSome) rows old full) :
    ∃ f' full', d' i = some f' ∧ f'.rows = some rows ∧ f'.full = some full' ∧
      Tidy (fun k => (attr sim k).isSome) rows old full' := by
  induction cs generalizing d f full with
  | nil =>
    simp only [session, Prod.mk.injEq, and_true] at h
    subst h
    exact ⟨f, full, hd, hr, hf, ht⟩
  | cons c cs ih =>
    unfold session at h
    rcases hx : exec (c.plan e d) d with ⟨d1, er | u⟩
    · rw [hx] at h; simp at h
    · rw [hx] at h
      simp only at h
      obtain ⟨f1, full1, h1, h2, h3, h4⟩ := call_tidy e sim hs c d (c.plan e d).length i hi f rows old
        full hd hr hf ht
      rw [List.take_length, hx] at h1
      exact ih d1 h f1 full1 h1 h2 h3 h4

theorem basic_tidy (e : Env K) (sim : String → Option (String × ℤ)) (hs : Described e sim)
    (rows : List (Row K)) :
    Tidy (fun k => (attr sim k).isSome) rows (basicData rows) (basicData rows) := by
  have hx := hs.basic "pos_x" (by simp)
  have hy := hs.basic "pos_y" (by simp)
  have hz := hs.basic "pos_z" (by simp)
  have hm := hs.basic "mass" (by simp)
  refine ⟨by simp [basicData, PyDict.keys], ?_, by simp [basicData, PyDict.get?], fun _ _ h => h⟩
  intro k l hl
  have := Format.dict_mem _ k l hl
  simp only [basicData, List.mem_cons, List.not_mem_nil, or_false, Prod.mk.injEq] at this
  rcases this with ⟨rfl, rfl⟩ | ⟨rfl, rfl⟩ | ⟨rfl, rfl⟩ | ⟨rfl, rfl⟩ | ⟨rfl, rfl⟩ | ⟨rfl, rfl⟩ | ⟨rfl, rfl⟩ <;>
    simp [attr, hx, hy, hz, hm]

/-- **C119 (opening).** Lightcones were built, properties were added in any calls, and a last call was
interrupted at any step: then each lightcone can be opened; the handler has exactly its objects, lists
exactly the datasets of the file, and shows for each of them what the file holds; positions, angles,
redshifts and masses are those of the objects. -/
theorem C119_opens (e : Env K) (sim : String → Option (String × ℤ)) (hs : Described e sim)
    (skies : List (Sky K)) (bins : List K) (hn : e.n = skies.length) (d d0 d' : Folder K)
    (hbuild : exec (buildPlan e.st skies e.metas e.data bins) d = (d0, .ok ()))
    (hleft : Left e d0 d') (i : ℕ) (sky : Sky K) (hi : skies[i]? = some sky) (h : K) (inH : Bool)
    (more : PyDict Handler.Name K) :
    ∃ c f st, buildCone e.st sky e.metas e.data bins = .ok c ∧ d' i = some f ∧
      f.rows = some c.rows ∧ openCone sim (d' i) h inH more = .ok st ∧ Reachable st ∧
      st.inH = inH ∧ st.nAll = c.rows.length ∧ st.active = List.range c.rows.length ∧
      (∀ name, name ∈ st.all ↔ name ≠ "mass_cuts" ∧ (f.dataset name).isSome) ∧
      (∀ q ∈ columns, ∃ u ε, attr sim q.1 = some (u, ε) ∧ Shown st q.1 ε h (c.rows.map q.2)) ∧
      ∀ name l, name ≠ "mass_cuts" → f.dataset name = some l →
        ∃ u ε, attr sim name = some (u, ε) ∧ Shown st name ε h l := by
  obtain ⟨hlt, -⟩ := List.getElem?_eq_some_iff.1 hi
  rw [← hn] at hlt
  obtain ⟨g, hg, -, -, -, ⟨⟨c, hc, hgr, -, hgf⟩, -, -⟩⟩ := C34_build_again e.st skies e.metas e.data
    bins d d0 hbuild i sky hi
  obtain ⟨cs, d1, cl, k, h1, rfl⟩ := hleft
  obtain ⟨f1, full1, a1, a2, a3, a4⟩ := session_tidy e sim hs cs d0 d1 h1 i hlt g c.rows _ _ hg hgr hgf
    (basic_tidy e sim hs c.rows)
  obtain ⟨f, full, b1, b2, b3, b4⟩ := call_tidy e sim hs cl d1 k i hlt f1 c.rows _ _ a1 a2 a3 a4
  obtain ⟨st, s1, s2, s3, s4, s5, s6, s7⟩ := openCone_ok sim f c.rows _ full b3 b4 h inH more
  have hds : ∀ name, f.dataset name = full.get? name := by
    intro name
    unfold LCFile.dataset
    rw [b3]
    rfl
  refine ⟨c, f, st, hc, b1, b2, by rw [b1]; exact s1, s2, s3, s4, s5, ?_, ?_, ?_⟩
  · intro name
    rw [hds]
    exact s6 name
  · intro q hq
    refine s7 q.1 _ ?_ (b4.kept q.1 (c.rows.map q.2) ?_)
    · rintro e0
      rw [columns] at hq
      revert e0
      simp only [List.mem_cons, List.not_mem_nil, or_false] at hq
      rcases hq with rfl | rfl | rfl | rfl | rfl | rfl | rfl <;> simp
    · rw [columns] at hq
      simp only [List.mem_cons, List.not_mem_nil, or_false] at hq
      rcases hq with rfl | rfl | rfl | rfl | rfl | rfl | rfl <;> simp [basicData, PyDict.get?]
  · intro name l hne hl
    rw [hds] at hl
    exact s7 name l hne hl

theorem session_append {e : Env K} {cs cs' : List Call} {d d1 : Folder K}
    (h : session e cs d = (d1, .ok ())) : session e (cs ++ cs') d = session e cs' d1 := by
  induction cs generalizing d with
  | nil =>
    simp only [session, Prod.mk.injEq, and_true] at h
    subst h
    rfl
  | cons c cs ih =>
    rw [List.cons_append]
    unfold session at h
    conv_lhs => unfold session
    rcases hx : exec (c.plan e d) d with ⟨dm, er | u⟩
    · rw [hx] at h; simp at h
    · rw [hx] at h
      simp only at h ⊢
      exact ih h

/-- **C119 (added properties).** After building, a property is added; other properties may be added
before and after it; all calls complete.  The handler then shows, for each object, the value of the
source of the object. -/
theorem C119_read_partial (e : Env K) (sim : String → Option (String × ℤ)) (hs : Described e sim)
    (skies : List (Sky K)) (bins : List K) (hn : e.n = skies.length)
    (hnd : (e.metas.map (·.index)).Nodup) (before after : List Call) (keys : List String)
    (d d0 d1 d2 : Folder K)
    (hbuild : exec (buildPlan e.st skies e.metas e.data bins) d = (d0, .ok ()))
    (h1 : session e before d0 = (d1, .ok ()))
    (h2 : session e (.scalar keys :: after) d1 = (d2, .ok ()))
    (key : String) (hkey : key ∈ keys) (hpos : key ∉ posKeys) (hne : key ≠ "mass_cuts")
    (hknown : key ∈ e.known ∨ key = "masscheck")
    (hnew : ∀ f0, d1 0 = some f0 → f0.dataset key = none) (i : ℕ) (sky : Sky K)
    (hi : skies[i]? = some sky) (h : K) (inH : Bool) (more : PyDict Handler.Name K) :
    ∃ c st l u ε, buildCone e.st sky e.metas e.data bins = .ok c ∧
      openCone sim (d2 i) h inH more = .ok st ∧ Reachable st ∧ st.nAll = c.rows.length ∧
      List.Forall₂ (fun r x => ∃ v, SourceValue e.data e.cat r.snap key r.index v ∧ x = e.store v)
        c.rows l ∧
      attr sim key = some (u, ε) ∧ Shown st key ε h l := by
  obtain ⟨c, f, l, hc, hf, hr, hl, hall⟩ := C33_session e skies bins hn hnd before after keys d d0 d1 d2
    hbuild h1 h2 key hkey hpos hknown hnew i sky hi
  obtain ⟨c', f', st, g1, g2, g3, g4, g5, g6, g7, g8, g9, g10, g11⟩ := C119_opens e sim hs skies bins hn
    d d0 d2 hbuild ⟨before ++ .scalar keys :: after, d2, .scalar [], 0,
      by rw [session_append h1]; exact h2, rfl⟩ i sky hi h inH more
  rw [hc] at g1
  cases g1
  rw [hf] at g2
  cases g2
  obtain ⟨u, ε, w1, w2⟩ := g11 key l hne hl
  exact ⟨c, st, l, u, ε, hc, g4, g5, g7, hall, w1, w2⟩

/-- **C119 (unfinished lightcones are not opened).** The construction of lightcones in a folder that
had none is interrupted at any step: what can be opened afterwards has all the objects of the finished
lightcone, and only those. -/
theorem C119_unfinished (e : Env K) (sim : String → Option (String × ℤ)) (hs : Described e sim)
    (skies : List (Sky K)) (bins : List K) (d : Folder K) (k i : ℕ) (sky : Sky K)
    (hi : skies[i]? = some sky) (hd : d i = none) (h : K) (inH : Bool)
    (more : PyDict Handler.Name K) (st : State K)
    (ho : openCone sim ((exec ((buildPlan e.st skies e.metas e.data bins).take k) d).1 i) h inH more =
      .ok st) :
    ∃ c, buildCone e.st sky e.metas e.data bins = .ok c ∧ Reachable st ∧ st.nAll = c.rows.length ∧
      ∀ q ∈ columns, ∃ u ε, attr sim q.1 = some (u, ε) ∧ Shown st q.1 ε h (c.rows.map q.2) := by
  rcases C34_build e.st skies e.metas e.data bins d k i sky hi with h1 | ⟨f, h1, h2⟩
  · rw [h1, hd] at ho
    cases ho
  · rw [h1] at ho
    have hfull : f.full.isSome := by
      rcases hf : f.full with - | full
      · simp [openCone, hf] at ho
      · rfl
    obtain ⟨⟨c, hc, hr, -, hf⟩, -, -⟩ := h2 (Or.inl hfull)
    obtain ⟨st', s1, s2, s3, s4, s5, s6, s7⟩ := openCone_ok sim f c.rows _ _ hf
      (basic_tidy e sim hs c.rows) h inH more
    rw [s1] at ho
    cases ho
    refine ⟨c, hc, s2, s4, ?_⟩
    intro q hq
    rw [columns] at hq
    simp only [List.mem_cons, List.not_mem_nil, or_false] at hq
    rcases hq with rfl | rfl | rfl | rfl | rfl | rfl | rfl <;>
      exact s7 _ _ (by simp) (by simp [basicData, PyDict.get?])

/-- **C119 (numbers without a lightcone).** Lightcones are built in a folder, to the end or up to any step:
opening a number that is not among theirs, and was not in the folder before, is refused. -/
theorem C119_absent (e : Env K) (sim : String → Option (String × ℤ)) (skies : List (Sky K))
    (bins : List K) (d : Folder K) (k i : ℕ) (hi : skies.length ≤ i) (hd : d i = none) (h : K)
    (inH : Bool) (more : PyDict Handler.Name K) :
    openCone sim ((exec ((buildPlan e.st skies e.metas e.data bins).take k) d).1 i) h inH more =
      .error .valueError := by
  rw [C69_rest_kept e.st skies e.metas e.data bins d k i hi, hd]
  rfl

theorem exec_append_ok {a b : List (Step K)} {d d' : Folder K}
    (h : exec (a ++ b) d = (d', .ok ())) : ∃ d1, exec a d = (d1, .ok ()) := by
  induction a generalizing d with
  | nil => exact ⟨d, rfl⟩
  | cons s a ih =>
    rw [List.cons_append] at h
    cases s with
    | fail er => simp [exec] at h
    | eff j ef =>
      unfold exec at h ⊢
      rcases hx : stepFile (d j) ef with er | f
      · rw [hx] at h; simp at h
      · rw [hx] at h
        simp only at h ⊢
        exact ih h

/-- What is shown depends only on the datasets. -/
theorem openCone_congr (sim : String → Option (String × ℤ)) {f f' : LCFile K} (hf : f.full = f'.full)
    (h : K) (inH : Bool) (more : PyDict Handler.Name K) :
    openCone sim (some f) h inH more = openCone sim (some f') h inH more := by
  simp only [openCone, hf]

/-- **C119 fails: zeros are shown.** If a call that adds a property is interrupted before the first
values are written, every lightcone can still be opened, and the handler shows 0 for every object,
with the units of the property.  Repeating the call does not help: it completes, marks the lightcones
as complete, and the handler still shows 0. -/
theorem C119_zeros (e : Env K) (sim : String → Option (String × ℤ)) (hs : Described e sim)
    (skies : List (Sky K)) (bins : List K) (hn : e.n = skies.length) (hsk : skies ≠ [])
    (hnd : (e.metas.map (·.index)).Nodup) (before : List Call) (keys : List String)
    (d d0 d1 d2 : Folder K)
    (hbuild : exec (buildPlan e.st skies e.metas e.data bins) d = (d0, .ok ()))
    (h1 : session e before d0 = (d1, .ok ()))
    (h2 : exec ((Call.scalar keys).plan e d1) d1 = (d2, .ok ()))
    (key : String) (hkey : key ∈ keys) (hpos : key ∉ posKeys) (hne : key ≠ "mass_cuts")
    (hknown : key ∈ e.known ∨ key = "masscheck")
    (hnew : ∀ f0, d1 0 = some f0 → f0.dataset key = none) :
    ∃ k d' d'', exec (((Call.scalar keys).plan e d1).take k) d1 = (d', .ok ()) ∧ Left e d0 d' ∧
      exec ((Call.scalar keys).plan e d') d' = (d'', .ok ()) ∧
      ∀ (i : ℕ) (sky : Sky K), skies[i]? = some sky →
        (∃ f, d'' i = some f ∧ f.extraDone = some true) ∧
        ∀ (h : K) (inH : Bool) (more : PyDict Handler.Name K),
          ∃ c st u ε, buildCone e.st sky e.metas e.data bins = .ok c ∧
            openCone sim (d' i) h inH more = .ok st ∧ openCone sim (d'' i) h inH more = .ok st ∧
            attr sim key = some (u, ε) ∧ key ∈ st.all ∧
            Shown st key ε h (List.replicate c.rows.length 0) := by
  simp only [Call.plan] at h2 ⊢
  obtain ⟨f0, full0, new, hf0, hfull0, hmem, hplan⟩ := addPlan_ok h2
  have hkn : key ∈ new := by
    rw [hmem]
    refine ⟨hkey, hpos, ?_, hknown⟩
    have := hnew f0 hf0
    unfold LCFile.dataset at this
    rw [hfull0] at this
    exact this
  have h3 := h2
  rw [hplan, addPlanG_eq, List.append_assoc] at h3
  obtain ⟨d', hd'⟩ := exec_append_ok h3
  have htake : (addPlan e.st e.metas e.data e.cat e.store e.known (some e.n) keys d1).take
      (startPlan (scalarAdding e.st e.data e.cat e.store) e.n new).length =
      startPlan (scalarAdding e.st e.data e.cat e.store) e.n new := by
    rw [hplan, addPlanG_eq, List.append_assoc, List.take_left]
  have hleft : Left e d0 d' := ⟨before, d1, .scalar keys, _, h1, by
    simp only [Call.plan]
    rw [htake, hd']⟩
  have hr0 := built_ready e.st skies e.metas e.data bins d d0 hbuild hnd
  rw [← hn] at hr0
  obtain ⟨-, hr1⟩ := C33_kept e before d0 d1 h1 hr0
  obtain ⟨-, hrunA⟩ := exec_ok hd'
  have hstate : ∀ i, i < e.n → ∃ f1 f rows full full', d1 i = some f1 ∧ d' i = some f ∧
      f1.rows = some rows ∧ f1.full = some full ∧ f.rows = some rows ∧ f.full = some full' ∧
      ∀ k, full'.get? k = if k ∈ new then some (List.replicate rows.length 0) else full.get? k := by
    intro i hlt
    obtain ⟨f1, rows, full, a1, a2, a3, -⟩ := hr1 i hlt
    have hrun := hrunA i
    rw [effsOf_startPlan _ e.n new i hlt, a1] at hrun
    rw [runFile] at hrun
    simp only [stepFile, LCFile.step] at hrun
    rw [runFile] at hrun
    simp only [stepFile, LCFile.step] at hrun
    obtain ⟨full', b1, -, -, b2⟩ := runFile_newSets _ _ _ rows full (by exact a2) (by exact a3) hrun
    refine ⟨f1, _, rows, full, full', a1, b1, a2, a3, a2, rfl, ?_⟩
    intro k
    rw [b2 k]
    simp [scalarAdding]
  have hpos0 : 0 < e.n := by
    rw [hn]
    exact List.length_pos_of_ne_nil hsk
  obtain ⟨f1, f0', rows0, full1, full0', a1, a2, a3, a4, a5, a6, a7⟩ := hstate 0 hpos0
  rw [hf0] at a1
  cases a1
  rw [hfull0] at a4
  cases a4
  obtain ⟨d'', hd'', hall⟩ := C34_add_again e.st e.metas e.data e.cat e.store e.known e.n keys d' f0' a2
    (by rw [a6]; rfl) (by
      intro k hk hk1 hk2
      unfold LCFile.dataset
      rw [a6]
      simp only [Option.bind_some]
      rw [a7]
      by_cases hkm : k ∈ new
      · rw [if_pos hkm]
        rfl
      · rw [if_neg hkm]
        rcases hg : full0.get? k with - | l
        · exact absurd ((hmem k).2 ⟨hk, hk1, hg, hk2⟩) hkm
        · rfl) (by
      intro i hi
      obtain ⟨-, f, -, -, -, -, b1, -⟩ := hstate i hi
      rw [b1]
      rfl)
  refine ⟨_, d', d'', by rw [htake]; exact hd', hleft, hd'', ?_⟩
  intro i sky hi
  obtain ⟨hlt, -⟩ := List.getElem?_eq_some_iff.1 hi
  rw [← hn] at hlt
  obtain ⟨f, f'', b1, b2, -, b3, b4⟩ := hall i hlt
  refine ⟨⟨f'', b2, b4⟩, ?_⟩
  intro h inH more
  obtain ⟨c, fx, st, g1, g2, g3, g4, g5, g6, g7, g8, g9, g10, g11⟩ := C119_opens e sim hs skies bins hn
    d d0 d' hbuild hleft i sky hi h inH more
  obtain ⟨-, fy, rows, full, full', -, c2, -, -, c5, c6, c7⟩ := hstate i hlt
  rw [g2] at b1 c2
  cases b1
  cases c2
  rw [g3] at c5
  cases c5
  have hds : f.dataset key = some (List.replicate c.rows.length 0) := by
    unfold LCFile.dataset
    rw [c6]
    simp only [Option.bind_some]
    rw [c7, if_pos hkn]
  obtain ⟨u, ε, w1, w2⟩ := g11 key _ hne hds
  refine ⟨c, st, u, ε, g1, g4, ?_, w1, (g9 key).2 ⟨hne, by rw [hds]; rfl⟩, w2⟩
  rw [b2, openCone_congr sim b3, ← g2]
  exact g4

/-- In h units the values are shown as they are. -/
theorem Shown.eq {st : State K} {name : String} {ε : ℤ} {h : K} {l l' : List K}
    (h1 : Shown st name ε h l) (h2 : Shown st name ε h l') (j : ℕ) (hj : j < st.nAll) (x y : K)
    (hx : l[j]? = some x) (hy : l'[j]? = some y) : x = y := by
  obtain ⟨o1, a1, a2, a3⟩ := h1 [] (by simp) true (some true)
  obtain ⟨o2, b1, b2, b3⟩ := h2 [] (by simp) true (some true)
  rw [a1] at b1
  cases b1
  have hsel : (Handler.Spec.selection (Handler.run st []) true)[j]? = some j := by
    simp [Handler.Spec.selection, Handler.run, hj]
  obtain ⟨x', a4, a5⟩ := a3 j j hsel
  obtain ⟨y', b4, b5⟩ := b3 j j hsel
  rw [hx] at a4
  cases a4
  rw [hy] at b4
  cases b4
  rw [a5] at b5
  simpa [seen] using b5

/-! ## The property as stated -/

/-- C119 as stated: whatever happened to the calls that add properties, a property a handler shows for
a lightcone has the values of the sources of the objects. -/
def C119_full : Prop :=
  ∀ (e : Env ℚ) (sim : String → Option (String × ℤ)) (skies : List (Sky ℚ)) (bins : List ℚ)
    (d d0 d' : Folder ℚ) (i : ℕ) (sky : Sky ℚ) (c : Cone ℚ) (h : ℚ) (inH : Bool)
    (more : PyDict Handler.Name ℚ) (st : State ℚ),
    Described e sim → e.n = skies.length → (e.metas.map (·.index)).Nodup →
    exec (buildPlan e.st skies e.metas e.data bins) d = (d0, .ok ()) → Left e d0 d' →
    skies[i]? = some sky → buildCone e.st sky e.metas e.data bins = .ok c →
    openCone sim (d' i) h inH more = .ok st →
    ∀ key ∈ e.known, key ∉ posKeys → key ∉ (columns (K := ℚ)).map (·.1) → key ∈ st.all →
      ∃ l u ε, List.Forall₂ (fun r x => ∃ v, SourceValue e.data e.cat r.snap key r.index v ∧
          x = e.store v) c.rows l ∧
        attr sim key = some (u, ε) ∧ Shown st key ε h l

/-- Units of the properties of the example. -/
def exSim : String → Option (String × ℤ) := fun k =>
  if k ∈ ["pos_x", "pos_y", "pos_z"] then some ("Mpc/h", -1)
  else if k = "mass" then some ("Msun/h", -1)
  else if k = "sfr" then some ("Msun/yr", 0)
  else if k ∈ ["v_x", "v_y", "v_z"] then some ("km/s", 0)
  else none

theorem ex_described : Described exEnv exSim := by
  refine ⟨by decide +kernel, by decide +kernel, ?_⟩
  intro key hk
  have : key = "v" := by
    have hk' : key ++ "_x" = "v_x" ∨ key ++ "_x" = "v_y" ∨ key ++ "_x" = "v_z" ∨ key ++ "_x" = "sfr" := by
      simpa [exEnv, exKnown] using hk
    have hx : ∀ s t : String, key ++ "_x" = s → s = t ++ "_x" → key = t := by
      intro s t h1 h2
      rw [h2] at h1
      exact String.append_left_inj "_x" |>.1 h1
    have hlast : (key ++ "_x").toList.getLast? = some 'x' := by
      simp
    rcases hk' with h | h | h | h
    · exact hx _ "v" h rfl
    · rw [h] at hlast; exact absurd hlast (by decide)
    · rw [h] at hlast; exact absurd hlast (by decide)
    · rw [h] at hlast; exact absurd hlast (by decide)
  subst this
  decide +kernel

theorem exBuild_fresh : after exBuild (fun d => atFile 0 d (fun f =>
    decide (f.dataset "sfr" = none))) = true := by
  decide +kernel

theorem exSfr_ok : after (exec ((Call.scalar ["sfr"]).plan exEnv exBuild.1) exBuild.1) (fun _ => true) =
    true := by
  decide +kernel

theorem exSfr_new : ∀ f0, exBuild.1 0 = some f0 → f0.dataset "sfr" = none := by
  intro f0 h0
  have := (after_ok exBuild_fresh).2
  unfold atFile at this
  rw [h0] at this
  simpa using this

theorem exRows : (match buildCone (exSt 5) exSky exMetas (exData 10 15) exBins with
    | .ok c => decide (c.rows.map (fun r : Row ℚ => (r.snap, r.index)) = [(9, 0), (7, 1)])
    | .error _ => false) = true := by
  decide +kernel

theorem C119_full_false : ¬ C119_full := by
  intro H
  obtain ⟨k, d', d'', -, h1, -, h2⟩ := C119_zeros exEnv exSim ex_described [exSky, exSky] exBins rfl (by simp)
    (by decide +kernel) [] ["sfr"] (fun _ => none) exBuild.1 exBuild.1 _ (after_ok exBuild_ok).1 rfl
    (after_ok exSfr_ok).1 "sfr" (by simp) (by decide +kernel) (by decide +kernel)
    (Or.inl (by decide +kernel)) exSfr_new
  obtain ⟨c, st, u, ε, hc, ho, -, hu, hmem, hz⟩ := (h2 0 exSky rfl).2 1 true []
  obtain ⟨l, u', ε', hl, hu', hsh⟩ := H exEnv exSim [exSky, exSky] exBins (fun _ => none) exBuild.1 d' 0
    exSky c 1 true [] st ex_described rfl (by decide +kernel) (after_ok exBuild_ok).1 h1 rfl hc ho "sfr"
    (by decide +kernel) (by decide +kernel) (by decide +kernel) hmem
  rw [hu] at hu'
  cases hu'
  have hrows := exRows
  have hc' : buildCone (exSt 5) exSky exMetas (exData 10 15) exBins = .ok c := hc
  rw [hc'] at hrows
  simp only [decide_eq_true_eq] at hrows
  obtain ⟨c2, f2, st2, g1, g2, g3, g4, g5, g6, g7, -⟩ := C119_opens exEnv exSim ex_described
    [exSky, exSky] exBins rfl (fun _ => none) exBuild.1 d' (after_ok exBuild_ok).1 h1 0 exSky rfl 1 true []
  rw [hc] at g1
  cases g1
  rw [ho] at g4
  cases g4
  rcases hr : c.rows with - | ⟨r, rs⟩
  · rw [hr] at hrows; simp at hrows
  rw [hr] at hrows hl hz g7
  cases hl with
  | cons hv _ =>
    obtain ⟨v, hv, rfl⟩ := hv
    have h0 := Shown.eq hsh hz 0 (by rw [g7]; simp) _ 0 rfl (by simp)
    simp only [List.map_cons, List.cons.injEq, Prod.mk.injEq] at hrows
    obtain ⟨⟨hs1, hs2⟩, -⟩ := hrows
    rw [hs1, hs2] at hv
    obtain ⟨w, hw1, hw2⟩ := hv
    have e1 : (exCat 9).get? "sfr" = some [(9 : ℚ) + 1/2, 9] := by decide +kernel
    have hw1' : (exCat 9).get? "sfr" = some w := hw1
    rw [e1] at hw1'
    cases hw1'
    simp only [List.getElem?_cons_zero, Option.some.injEq] at hw2
    subst hw2
    have : (9 : ℚ) + 1/2 = 0 := h0
    norm_num at this

/-- The theorem on complete calls applies to this lightcone: the handler shows the rates of the
sources. -/
example : ∃ c st l u ε, buildCone (exSt 5) exSky exMetas (exData 10 15) exBins = .ok c ∧
    openCone exSim ((exec ((Call.scalar ["sfr"]).plan exEnv exBuild.1) exBuild.1).1 1) (7/10) false [] =
      .ok st ∧ Reachable st ∧ st.nAll = c.rows.length ∧
    List.Forall₂ (fun r x => ∃ v, SourceValue (exData 10 15) exCat r.snap "sfr" r.index v ∧ x = id v)
      c.rows l ∧
    attr exSim "sfr" = some (u, ε) ∧ Shown st "sfr" ε (7/10) l :=
  C119_read_partial exEnv exSim ex_described [exSky, exSky] exBins rfl (by decide +kernel) [] [] ["sfr"]
    (fun _ => none) exBuild.1 exBuild.1 _ (after_ok exBuild_ok).1 rfl (by
      unfold session
      have := (after_ok exSfr_ok).1
      rw [this]
      rfl) "sfr" (by simp) (by decide +kernel) (by decide +kernel) (Or.inl (by decide +kernel)) exSfr_new 1
    exSky rfl (7/10) false []

/-- An unfinished lightcone cannot be opened; a finished one can. -/
example : (match openCone exSim ((exec ((buildPlan (exSt 5) [exSky, exSky] exMetas (exData 10 15)
      exBins).take 6) (fun _ => none)).1 0) 1 true [] with
    | .error er => decide (er = .keyError)
    | .ok _ => false) = true ∧
    (match openCone exSim (exBuild.1 0) (7/10) false [("number", 0)] with
    | .error _ => false
    | .ok st => decide (st.nAll = 2 ∧ st.all.length = 7 ∧ st.units.get? "ra" = some "radians")) = true := by
  constructor <;> decide +kernel

end Verif.LC
