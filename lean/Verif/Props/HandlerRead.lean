import Mathlib.Algebra.Field.Rat
import Mathlib.Data.List.Induction
import Mathlib.Algebra.Order.Ring.Rat
import Verif.Lemmas.HandlerMake

/-!
# C03, C04, C05: reading and selecting
-/

namespace Verif.Handler
open Spec

variable {K : Type} [DivisionRing K] [LE K] [DecidableLE K]

/-! ## C04 row alignment -/

/-- C04.  In every state a handler can reach, what is returned for the active objects is the rows
`active[0], active[1], ..` of what is returned for all objects; every property has one
row per object; the active indices are distinct, increasing and in range. -/
theorem C04_row_alignment (s : State K) (hr : Reachable s) :
    s.active.Pairwise (· < ·) ∧ (∀ i ∈ s.active, i < s.nAll) ∧ s.nActive = s.active.length ∧
    ∀ (p : Name) (b : Option Bool) (act : List (V K)), p ≠ "mass_cuts" →
      returnProperty s p false b = .ok (some act) →
      ∃ full, returnProperty s p true b = .ok (some full) ∧ full.length = s.nAll ∧
        act.length = s.nActive ∧
        ∀ (j i : ℕ), s.active[j]? = some i → act[j]? = full[i]? := by
  have hI := reachable_inv hr
  refine ⟨hI.sorted, hI.bound, hI.count, ?_⟩
  intro p b act hp hact
  obtain ⟨hall, e, arr, he, ha, -, hlen, hbd, hget⟩ := returnProperty_inv s hI p false b act hact
  obtain ⟨full, f1, f2, f3⟩ := returnProperty_ok s hI p true b hall hp e he arr ha
  refine ⟨full, f1, by simpa [inds] using f2, by rw [hlen, hI.count]; rfl, ?_⟩
  intro j i hj
  have hi : i < s.nAll := hI.bound i (List.mem_of_getElem? hj)
  have h1 : (inds s false)[j]? = some i := hj
  have h2 : (inds s true)[i]? = some i := by simp [inds, hi]
  rw [hget j, f3 i, h1, h2]

/-- C04, two properties: position `j` of any two returned arrays is the same object. -/
theorem C04_same_object (s : State K) (hr : Reachable s) (p q : Name) (b c : Option Bool)
    (vp vq : List (V K)) (hp : p ≠ "mass_cuts") (hq : q ≠ "mass_cuts")
    (h1 : returnProperty s p false b = .ok (some vp))
    (h2 : returnProperty s q false c = .ok (some vq)) :
    vp.length = vq.length ∧ ∃ fp fq, returnProperty s p true b = .ok (some fp) ∧
      returnProperty s q true c = .ok (some fq) ∧
      ∀ j < vp.length, ∃ i < s.nAll, vp[j]? = fp[i]? ∧ vq[j]? = fq[i]? := by
  obtain ⟨-, hb, -, H⟩ := C04_row_alignment s hr
  obtain ⟨fp, a1, -, a2, a3⟩ := H p b vp hp h1
  obtain ⟨fq, b1, -, b2, b3⟩ := H q c vq hq h2
  refine ⟨by omega, fp, fq, a1, b1, ?_⟩
  intro j hj
  have hcount := (reachable_inv hr).count
  have hj' : j < s.active.length := by omega
  exact ⟨s.active[j], hb _ (List.getElem_mem hj'), a3 j _ (List.getElem?_eq_getElem hj'),
    b3 j _ (List.getElem?_eq_getElem hj')⟩

/-! ## C05 caching is invisible -/

/-- C05.  After any history of calls that do not create, write or delete `p`, reading `p` gives
the values that were in the file when it was opened, for the selected objects, in the units asked
for. -/
theorem C05_reads_file_values (file : PyDict Name (Dataset K)) (n : ℕ) (hwf : WF file n) (h : K)
    (inH : Bool) (s0 : State K) (h0 : init file h inH = .ok s0) (ops : List (Op K)) (p : Name)
    (d : Dataset K) (hp : p ≠ "mass_cuts") (hd : file.get? p = some d)
    (hops : ∀ op ∈ ops, ¬ changes p op) (useAll : Bool) (b : Option Bool) :
    ∃ e out, d.hdep = some e ∧ returnProperty (run s0 ops) p useAll b = .ok (some out) ∧
      out.length = (selection (run s0 ops) useAll).length ∧
      ∀ (j i : ℕ), (selection (run s0 ops) useAll)[j]? = some i →
        out[j]? = (d.vals[i]?).map (seen h e (b.getD (run s0 ops).inH)) := by
  obtain ⟨e, he, hu⟩ := init_un file n hwf h inH s0 h0 p d hp hd
  have hu' := run_un s0 ops hops hu
  have hI : Inv (run s0 ops) := run_inv _ _ (inv_init file n hwf h inH s0 h0)
  obtain ⟨out, o1, o2, o3⟩ := returnProperty_ok _ hI p useAll b hu'.all hp e hu'.hdep _ hu'.held
  refine ⟨e, out, he, o1, o2, ?_⟩
  intro j i hj
  rw [o3 j]
  rw [selection_eq] at hj
  rw [hj, hu'.hh]
  rfl

/-- C05, comparison of two histories: loading, unloading, restricting and changing the default
units in between make no difference to what is returned for all objects in given
units. -/
theorem C05_history_invisible (file : PyDict Name (Dataset K)) (n : ℕ) (hwf : WF file n) (h : K)
    (inH : Bool) (s0 : State K) (h0 : init file h inH = .ok s0) (ops ops' : List (Op K)) (p : Name)
    (hp : p ≠ "mass_cuts") (hf : (file.get? p).isSome)
    (hops : ∀ op ∈ ops, ¬ changes p op) (hops' : ∀ op ∈ ops', ¬ changes p op) (b : Bool) :
    returnProperty (run s0 ops) p true (some b) = returnProperty (run s0 ops') p true (some b) := by
  obtain ⟨d, hd⟩ := Option.isSome_iff_exists.1 hf
  obtain ⟨e, he, hu⟩ := init_un file n hwf h inH s0 h0 p d hp hd
  have h1 := run_un s0 ops hops hu
  have h2 := run_un s0 ops' hops' hu
  have I1 : Inv (run s0 ops) := run_inv _ _ (inv_init file n hwf h inH s0 h0)
  have I2 : Inv (run s0 ops') := run_inv _ _ (inv_init file n hwf h inH s0 h0)
  rw [returnProperty_held _ p true (some b) h1.all e h1.hdep I1.savedFile,
    returnProperty_held _ p true (some b) h2.all e h2.hdep I2.savedFile, h1.held, h2.held]
  simp only [inds, if_true, h1.nn, h2.nn, h1.hh, h2.hh, Option.getD_some]

/-! ## C03 active selection -/

theorem mem_nonzeroRange (lo hi : Option K) (vals : List (V K)) (i : ℕ) :
    i ∈ nonzeroRange lo hi vals ↔ ∃ v, vals[i]? = some v ∧ inRange lo hi v = true := by
  unfold nonzeroRange
  rw [List.mem_filter, List.mem_range]
  constructor
  · rintro ⟨h1, h2⟩
    rw [List.getElem?_eq_getElem h1] at h2
    exact ⟨_, List.getElem?_eq_getElem h1, h2⟩
  · rintro ⟨v, h1, h2⟩
    refine ⟨?_, by rw [h1]; exact h2⟩
    by_contra hc
    rw [List.getElem?_eq_none (by omega)] at h1
    simp at h1

theorem inRange_iff (c : Constraint K) (v : V K) : inRange c.lo c.hi v = true ↔ Inside c v := by
  cases v with
  | none => simp [inRange, Inside]
  | some x =>
    simp only [inRange, Inside, Bool.and_eq_true]
    cases c.lo <;> cases c.hi <;> simp

/-- C03, one call in any reachable state: afterwards exactly the objects are active whose value is
within the bounds (and, without reset, that were active before). -/
theorem C03_restrict_step (s : State K) (hr : Reachable s) (p : Name) (lo hi : Option K)
    (reset : Bool) (b : Option Bool) (hp : p ≠ "mass_cuts") (full : List (V K))
    (hfull : returnProperty s p true (some (b.getD s.inH)) = .ok (some full)) :
    (setRange s (some p) lo hi reset b).2 = .ok () ∧
    let s' := (setRange s (some p) lo hi reset b).1
    s'.nActive = s'.active.length ∧ s'.active.Pairwise (· < ·) ∧
    ∀ i, i ∈ s'.active ↔ i < s.nAll ∧ (reset = true ∨ i ∈ s.active) ∧
      ∃ v, full[i]? = some v ∧ Inside { prop := p, lo := lo, hi := hi, inH := b.getD s.inH } v := by
  have hI := reachable_inv hr
  have hlen : full.length = s.nAll := by
    obtain ⟨_, _, _, _, _, _, hlen, _⟩ := returnProperty_inv s hI p true _ full hfull
    simpa [inds] using hlen
  have hI' := setRange_inv s (some p) lo hi reset b hI
  refine ⟨by simp [setRange, hfull], hI'.count, hI'.sorted, ?_⟩
  intro i
  have key : i ∈ nonzeroRange lo hi full ↔ ∃ v, full[i]? = some v ∧
      Inside { prop := p, lo := lo, hi := hi, inH := b.getD s.inH } v := by
    rw [mem_nonzeroRange]
    constructor
    · rintro ⟨v, h1, h2⟩; exact ⟨v, h1, (inRange_iff ⟨p, lo, hi, b.getD s.inH⟩ v).1 h2⟩
    · rintro ⟨v, h1, h2⟩; exact ⟨v, h1, (inRange_iff ⟨p, lo, hi, b.getD s.inH⟩ v).2 h2⟩
  have hlt : (∃ v, full[i]? = some v ∧
      Inside { prop := p, lo := lo, hi := hi, inH := b.getD s.inH } v) → i < s.nAll := by
    rintro ⟨v, hv, -⟩
    by_contra hc; rw [List.getElem?_eq_none (by omega)] at hv; simp at hv
  simp only [setRange, hfull]
  cases reset
  · simp only [Bool.false_eq_true, if_false, List.mem_filter, decide_eq_true_eq, false_or]
    rw [key]
    constructor
    · rintro ⟨h1, h2⟩; exact ⟨hlt h1, h2, h1⟩
    · rintro ⟨-, h2, h1⟩; exact ⟨h1, h2⟩
  · simp only [if_true, true_or, true_and]
    rw [key]
    constructor
    · intro h1; exact ⟨hlt h1, h1⟩
    · exact fun h => h.2

/-- C03: a refused restriction (unknown property) leaves the selection as it was. -/
theorem C03_refused (s : State K) (p : Option Name) (lo hi : Option K) (reset : Bool)
    (b : Option Bool) (h : (setRange s p lo hi reset b).2 ≠ .ok ()) :
    (setRange s p lo hi reset b).1 = s := by
  unfold setRange at h ⊢
  split at h
  · simp at h
  · split at h
    · rfl
    · rfl
    · simp at h

/-- The value of property `p` of object `i` in the file, in the given units. -/
def Spec.fileValue (file : PyDict Name (Dataset K)) (h : K) (p : Name) (i : ℕ) (inH : Bool) :
    Option (V K) :=
  (file.get? p).bind fun d => (d.vals[i]?).map (seen h (d.hdep.getD 0) inH)

/-- Objects satisfying all constraints. -/
def Spec.Satisfies (file : PyDict Name (Dataset K)) (h : K) (cs : List (Constraint K)) (i : ℕ) :
    Prop :=
  ∀ c ∈ cs, ∃ v, fileValue file h c.prop i c.inH = some v ∧ Inside c v

/-- Properties a newly opened handler knows. -/
def Spec.known (file : PyDict Name (Dataset K)) (p : Name) : Bool :=
  decide (p ≠ "mass_cuts") && (file.get? p).isSome

theorem step_inH_active (s : State K) (op : Op K)
    (hno : ∀ p lo hi r i, op ≠ .range p lo hi r i) (hno2 : ∀ b, op ≠ .setInH b) :
    (step s op).active = s.active ∧ (step s op).inH = s.inH ∧ (step s op).nAll = s.nAll := by
  cases op with
  | load ps =>
    exact forEach_preserves loadOne (fun t => t.active = s.active ∧ t.inH = s.inH ∧ t.nAll = s.nAll) ps
      (fun t x _ ht => by unfold loadOne; split; split; exact ht; exact ht; exact ht) s ⟨rfl, rfl, rfl⟩
  | unload ps => exact ⟨rfl, rfl, rfl⟩
  | ret q u i => exact ⟨rfl, rfl, rfl⟩
  | make m o =>
    have hw : ∀ (ns : List Name) (t : State K) ov, (write t ns ov).1.active = t.active ∧
        (write t ns ov).1.inH = t.inH ∧ (write t ns ov).1.nAll = t.nAll := by
      intro ns t ov
      refine forEach_preserves _ (fun u => u.active = t.active ∧ u.inH = t.inH ∧ u.nAll = t.nAll) ns
        (fun u x _ hu => ?_) t ⟨rfl, rfl, rfl⟩
      unfold writeOne
      split
      · exact hu
      · split
        · exact hu
        · dsimp only
          split
          · exact hu
          · split
            · exact hu
            · split
              · exact hu
              · exact hu
    simp only [step, make]
    split
    · exact ⟨rfl, rfl, rfl⟩
    · split
      · exact ⟨rfl, rfl, rfl⟩
      · split
        · exact ⟨rfl, rfl, rfl⟩
        · split
          · exact ⟨rfl, rfl, rfl⟩
          · rename_i _ names _ _ exist _ _ vals _
            have hb := forEach_preserves (storeOne m.units m.hdep (inds s o.useAll)) (SameBase s)
              (items m.names names exist vals)
              (fun t x _ ht => ht.trans (storeOne_base _ _ _ t x)) s (SameBase.refl s)
            split
            · rename_i s1 e hs1; rw [hs1] at hb; exact ⟨hb.active, hb.inH, hb.nAll⟩
            · rename_i s1 hs1
              rw [hs1] at hb
              have hw1 := hw names s1 o.overwriteDisk
              rw [hb.active, hb.inH, hb.nAll] at hw1
              split
              · split
                · rename_i s2 e hs2; rw [hs2] at hw1; exact hw1
                · rename_i s2 hs2
                  rw [hs2] at hw1
                  dsimp only
                  split
                  · exact hw1
                  · exact hw1
              · exact ⟨hb.active, hb.inH, hb.nAll⟩
  | write ps ov =>
    refine forEach_preserves _ (fun u => u.active = s.active ∧ u.inH = s.inH ∧ u.nAll = s.nAll) ps
      (fun u x _ hu => ?_) s ⟨rfl, rfl, rfl⟩
    unfold writeOne
    split
    · exact hu
    · split
      · exact hu
      · dsimp only
        split
        · exact hu
        · split
          · exact hu
          · split
            · exact hu
            · exact hu
  | delete ps =>
    refine forEach_preserves _ (fun u => u.active = s.active ∧ u.inH = s.inH ∧ u.nAll = s.nAll) ps
      (fun u x _ hu => ?_) s ⟨rfl, rfl, rfl⟩
    unfold deleteOne
    split
    · split
      · exact hu
      · exact hu
    · exact hu
  | range q lo hi r i => exact absurd rfl (hno q lo hi r i)
  | setInH b => exact absurd rfl (hno2 b)

/-- A property the handler does not know stays unknown unless a call creates it. -/
theorem step_unknown (s : State K) (op : Op K) (p : Name) (hop : ¬ changes p op)
    (h : p ∉ s.all) : p ∉ (step s op).all := by
  have hstore : ∀ (u : PyDict Name String) hd is (its : List (Item K)) (t : State K),
      (∀ it ∈ its, it.newName ≠ p) → p ∉ t.all → p ∉ (forEach (storeOne u hd is) t its).1.all := by
    intro u hd is its t hits ht
    refine forEach_preserves _ (fun t => p ∉ t.all) its (fun t x hx ht => ?_) t ht
    unfold storeOne
    split
    · exact ht
    · split
      · exact ht
      · dsimp only
        split
        · exact ht
        · split
          · exact ht
          · split
            · exact ht
            · split
              · exact ht
              · simp only [List.mem_append, List.mem_singleton, not_or]
                exact ⟨ht, fun e => hits x hx e.symm⟩
  have hwrite : ∀ (ns : List Name) ov (t : State K), p ∉ t.all → p ∉ (write t ns ov).1.all := by
    intro ns ov t ht
    refine forEach_preserves _ (fun t => p ∉ t.all) ns (fun t x hx ht => ?_) t ht
    unfold writeOne
    split
    · exact ht
    · split
      · exact ht
      · dsimp only
        split
        · exact ht
        · split
          · exact ht
          · split
            · exact ht
            · exact ht
  cases op with
  | load ps =>
    exact forEach_preserves loadOne (fun t => p ∉ t.all) ps
      (fun t x _ ht => by unfold loadOne; split; split; exact ht; exact ht; exact ht) s h
  | unload ps => exact h
  | ret q u i => exact h
  | make m o =>
    simp only [step, make]
    split
    · exact h
    · split
      · exact h
      · split
        · exact h
        · split
          · exact h
          · rename_i _ names hnames _ exist _ _ vals _
            have hne : p ∉ names := by rw [(makeNames_eq m o.rename names hnames).1]; exact hop
            have hb := hstore m.units m.hdep (inds s o.useAll) (items m.names names exist vals) s
              (fun it hit e => hne (e ▸ items_newName _ _ _ _ it hit)) h
            split
            · rename_i s1 e hs1; rw [hs1] at hb; exact hb
            · rename_i s1 hs1
              rw [hs1] at hb
              have hw1 := hwrite names o.overwriteDisk s1 hb
              split
              · split
                · rename_i s2 e hs2; rw [hs2] at hw1; exact hw1
                · rename_i s2 hs2
                  rw [hs2] at hw1
                  dsimp only
                  split
                  · exact hw1
                  · exact hw1
              · exact hb
  | write ps ov => exact hwrite ps ov s h
  | delete ps =>
    refine forEach_preserves _ (fun t => p ∉ t.all) ps (fun t x _ ht => ?_) s h
    unfold deleteOne
    split
    · split
      · exact ht
      · simp [ht]
    · exact ht
  | range q lo hi r i =>
    obtain ⟨a, c, hac⟩ := setRange_fields s q lo hi r i
    simp only [step, hac]
    exact h
  | setInH b => exact h

/-- C03.  After any history of calls on a catalogue, in which the properties used to restrict the
selection are not themselves created, rewritten or deleted: the active objects are
exactly those that satisfy every constraint set since the last reset, in
increasing order, and the reported number of active objects is their number. -/
theorem C03_active_selection (file : PyDict Name (Dataset K)) (n : ℕ) (hwf : WF file n) (h : K)
    (inH : Bool) (s0 : State K) (h0 : init file h inH = .ok s0) (ops : List (Op K))
    (hops : ∀ op ∈ ops, ∀ p, (∃ op' ∈ ops, restricts p op') → ¬ changes p op) :
    let s := run s0 ops
    let r := restrictions (known file) inH ops
    (∀ i, i ∈ s.active ↔ i < n ∧ Satisfies file h r.constraints i) ∧
    s.active.Pairwise (· < ·) ∧ s.nActive = s.active.length ∧ s.inH = r.inH := by
  -- generalise over the list of calls already made
  have key : ∀ (done todo : List (Op K)), done ++ todo = ops →
      let s := run s0 done
      let r := restrictions (known file) inH done
      (∀ i, i ∈ s.active ↔ i < n ∧ Satisfies file h r.constraints i) ∧ s.inH = r.inH ∧ s.nAll = n := by
    intro done
    induction done using List.reverseRecOn with
    | nil =>
      intro todo _
      obtain ⟨s', hs', -, hn, -, hi, -, -, ha, -⟩ := init_ok file n hwf h inH
      rw [h0] at hs'; cases hs'
      simp only [run, List.foldl_nil, restrictions]
      refine ⟨?_, hi, hn⟩
      intro i; rw [ha]; simp [Satisfies]
    | append_singleton done op ih =>
      intro todo htodo
      obtain ⟨i1, i2, i3⟩ := ih (op :: todo) (by rw [← htodo]; simp)
      have hin : ∀ op' ∈ done ++ [op], op' ∈ ops := by
        intro o ho; rw [← htodo]; simp only [List.mem_append] at ho ⊢; exact Or.inl ho
      have hrun : run s0 (done ++ [op]) = step (run s0 done) op := by simp [run]
      have hres : restrictions (known file) inH (done ++ [op])
          = restrict (known file) (restrictions (known file) inH done) op := by simp [restrictions]
      dsimp only
      rw [hrun, hres]
      have hI : Inv (run s0 done) := run_inv _ _ (inv_init file n hwf h inH s0 h0)
      cases op with
      | range q lo hi reset b =>
        cases q with
        | none =>
          simp only [step, setRange, restrict]
          refine ⟨?_, i2, i3⟩
          intro i; rw [i3]; simp [Satisfies]
        | some p =>
          have hnc : ∀ o ∈ done, ¬ changes p o := fun o ho =>
            hops o (hin o (by simp [ho])) p
              ⟨.range (some p) lo hi reset b, hin _ (by simp), by simp [restricts]⟩
          by_cases hk : known file p = true
          · simp only [known, Bool.and_eq_true, decide_eq_true_eq] at hk
            obtain ⟨d, hd⟩ := Option.isSome_iff_exists.1 hk.2
            obtain ⟨e, he, hu⟩ := init_un file n hwf h inH s0 h0 p d hk.1 hd
            have hu' := run_un s0 done hnc hu
            obtain ⟨full, f1, f2, f3⟩ := returnProperty_ok _ hI p true
              (some (b.getD (run s0 done).inH)) hu'.all hk.1 e hu'.hdep _ hu'.held
            have hfv : ∀ i < n, full[i]? = fileValue file h p i (b.getD (run s0 done).inH) := by
              intro i hi
              rw [f3 i]
              simp [inds, i3, hi, fileValue, hd, he, hu'.hh]
            obtain ⟨-, -, -, hmem⟩ := C03_restrict_step (run s0 done)
              ⟨file, n, h, inH, s0, s0.extra, done, hwf, h0, rfl⟩ p lo hi reset b hk.1 full f1
            have hkn : known file p = true := by simp [known, hk.1, hk.2]
            obtain ⟨a, c, hac⟩ := setRange_fields (run s0 done) (some p) lo hi reset b
            refine ⟨?_, ?_, ?_⟩
            · intro i
              simp only [step]
              rw [hmem i, i3]
              simp only [restrict, hkn, if_true]
              constructor
              · rintro ⟨h1, h2, v, h3, h4⟩
                refine ⟨h1, ?_⟩
                intro c hc
                simp only [List.mem_append, List.mem_singleton] at hc
                rcases hc with hc | rfl
                · cases reset
                  · simp only [Bool.false_eq_true, false_or] at h2
                    exact ((i1 i).1 h2).2 c (by simpa using hc)
                  · simp at hc
                · refine ⟨v, ?_, ?_⟩
                  · rw [← i2, ← hfv i h1, h3]
                  · rw [← i2]; exact h4
              · rintro ⟨h1, h2⟩
                obtain ⟨v, h3, h4⟩ := h2 ⟨p, lo, hi, b.getD (restrictions (known file) inH done).inH⟩ (by simp)
                refine ⟨h1, ?_, v, ?_, ?_⟩
                · cases reset
                  · right
                    exact (i1 i).2 ⟨h1, fun c hc => h2 c (by simp [hc])⟩
                  · left; rfl
                · rw [hfv i h1, i2]; exact h3
                · rw [i2]; exact h4
            · simp only [step, hac, restrict, hkn, if_true]; exact i2
            · simp only [step, hac]; exact i3
          · have hk' : known file p = false := by simpa using hk
            have hun : p ∉ (run s0 done).all := by
              have hb : ∀ l : List (Op K), (∀ o ∈ l, ¬ changes p o) → p ∉ (run s0 l).all := by
                intro l
                induction l using List.reverseRecOn with
                | nil =>
                  intro _
                  obtain ⟨s', hs', -, -, -, -, -, -, -, -, hall, -⟩ := init_ok file n hwf h inH
                  rw [h0] at hs'; cases hs'
                  simp only [run, List.foldl_nil]
                  rw [hall p]
                  rintro ⟨h1, h2⟩
                  simp [known, h1, h2] at hk'
                | append_singleton l o ihl =>
                  intro hl
                  have := ihl (fun o ho => hl o (by simp [ho]))
                  simp only [run, List.foldl_append, List.foldl_cons, List.foldl_nil]
                  exact step_unknown _ o p (hl o (by simp)) this
              exact hb done hnc
            have hst : step (run s0 done) (.range (some p) lo hi reset b) = run s0 done := by
              simp [step, setRange, returnProperty, hun]
            rw [hst]
            simp only [restrict, hk']
            exact ⟨i1, i2, i3⟩
      | setInH b =>
        simp only [step, setInH, restrict]
        exact ⟨i1, trivial, i3⟩
      | load ps =>
        obtain ⟨e1, e2, e3⟩ := step_inH_active (run s0 done) (.load ps) (by simp) (by simp)
        rw [e1, e2, e3]; exact ⟨i1, i2, i3⟩
      | unload ps =>
        obtain ⟨e1, e2, e3⟩ := step_inH_active (run s0 done) (.unload ps) (by simp) (by simp)
        rw [e1, e2, e3]; exact ⟨i1, i2, i3⟩
      | ret q u b =>
        obtain ⟨e1, e2, e3⟩ := step_inH_active (run s0 done) (.ret q u b) (by simp) (by simp)
        rw [e1, e2, e3]; exact ⟨i1, i2, i3⟩
      | make m o =>
        obtain ⟨e1, e2, e3⟩ := step_inH_active (run s0 done) (.make m o) (by simp) (by simp)
        rw [e1, e2, e3]; exact ⟨i1, i2, i3⟩
      | write ps ov =>
        obtain ⟨e1, e2, e3⟩ := step_inH_active (run s0 done) (.write ps ov) (by simp) (by simp)
        rw [e1, e2, e3]; exact ⟨i1, i2, i3⟩
      | delete ps =>
        obtain ⟨e1, e2, e3⟩ := step_inH_active (run s0 done) (.delete ps) (by simp) (by simp)
        rw [e1, e2, e3]; exact ⟨i1, i2, i3⟩
  have hI : Inv (run s0 ops) := run_inv _ _ (inv_init file n hwf h inH s0 h0)
  obtain ⟨k1, k2, -⟩ := key ops [] (by simp)
  exact ⟨k1, hI.sorted, hI.count, k2⟩

/-! ## Examples -/

/-- A file with four objects. -/
def demoFile : PyDict Name (Dataset ℚ) :=
  [("mass", ⟨[some 4, some 3, some 2, some 1], some "Msun/h", some (-1), false⟩),
   ("sfr", ⟨[some 10, none, some 5, some 7], some "Msun/yr", some 0, false⟩),
   ("mass_cuts", ⟨[some 9], none, none, false⟩)]

theorem demoFile_wf : WF demoFile 4 where
  nodup := by decide
  mass := ⟨_, rfl, rfl⟩
  lengths := by
    intro p d hd hp
    simp only [demoFile, PyDict.get?_cons, PyDict.get?_nil] at hd
    split at hd
    · cases hd; rfl
    · split at hd
      · cases hd; rfl
      · split at hd
        · rename_i h; exact absurd h.symm hp
        · simp at hd
  units := by
    intro p d hd hp
    simp only [demoFile, List.mem_cons, Prod.mk.injEq, List.not_mem_nil, or_false] at hd
    rcases hd with ⟨-, rfl⟩ | ⟨-, rfl⟩ | ⟨h, -⟩
    · rfl
    · rfl
    · exact absurd h hp
  hdep := by
    intro p d hd hp
    simp only [demoFile, List.mem_cons, Prod.mk.injEq, List.not_mem_nil, or_false] at hd
    rcases hd with ⟨-, rfl⟩ | ⟨-, rfl⟩ | ⟨h, -⟩
    · rfl
    · rfl
    · exact absurd h hp

/-- The handler just opened on `demoFile`, with h = 1/2. -/
def demo0 : State ℚ where
  file := demoFile
  h := 1/2
  all := ["mass", "sfr"]
  units := [("mass", "Msun/h"), ("sfr", "Msun/yr")]
  hdep := [("mass", -1), ("sfr", 0)]
  saved := ["mass", "sfr"]
  nAll := 4
  loaded := []
  generated := []
  active := [0, 1, 2, 3]
  nActive := 4
  inH := true
  extra := [("h", 1/2)]

theorem demo0_init : init demoFile (1/2) true = .ok demo0 := rfl

theorem demo0_reachable (ops : List (Op ℚ)) : Reachable (run demo0 ops) :=
  ⟨demoFile, 4, 1/2, true, demo0, demo0.extra, ops, demoFile_wf, demo0_init, rfl⟩

def demoOps : List (Op ℚ) :=
  [.load ["mass"], .range (some "mass") (some 2) (some 5) true (some true), .unload ["mass"],
   .range (some "sfr") (some 6) none false none]

/-- The hypotheses of C03-C05 hold for a concrete history that selects object 0 only. -/
example : ∃ s0, init demoFile (7/10) true = .ok s0 ∧ (run s0 demoOps).active = [0] ∧
    (∀ op ∈ demoOps, ∀ p, (∃ op' ∈ demoOps, restricts p op') → ¬ changes p op) ∧
    returnProperty (run s0 demoOps) "mass" false (some false) = .ok (some [some (40/7)]) := by
  refine ⟨_, rfl, by decide +kernel, ?_, by decide +kernel⟩
  intro op hop p _
  simp only [demoOps, List.mem_cons, List.not_mem_nil, or_false] at hop
  rcases hop with rfl | rfl | rfl | rfl <;> simp [changes]

end Verif.Handler
