import Verif.Lemmas.FormatTotal
import Mathlib.Algebra.Order.Ring.Rat
import Mathlib.Algebra.Field.Rat

/-!
# C12-C15: formatting simulation snapshots
-/

namespace Verif.Format

open Verif.Sim (Err SnapMeta)
open Spec

variable {K : Type} [LinearOrder K]

/-! ## C12 -/

/-- C12: after a call of `format` that ends normally, every snapshot it formatted has its masses in
non-increasing order, and there is one permutation `p` of the raw halos such that row `k` of every
stored property is the (unit-converted) raw value of halo `p[k]`; every property of the field tables
is stored and nothing else is. -/
theorem C12_sorted_rows (cat : Cat K) (hc : Sound cat) (o : Opts) (ans : List String) (d : Disk K)
    (hd : Unique d) (es : List (Eff K)) (h : format cat o ans d = some (es, .ok ()))
    (hcons : Consents o ans) :
    ∃ other, Uses cat o d other ∧ ∀ i, Formats cat o d i →
      ∃ raw g, d.raw.get? i = some raw ∧ groupOf (applyAll d es) i = some g ∧
        (∃ D ms, g.data.get? "mass" = some D ∧ D.data = .one ms ∧ ms.Pairwise (· ≥ ·)) ∧
        (∃ p : List ℕ, p.Perm (List.range raw.n) ∧
          ∀ e, Stored cat.basic other e → ∃ D, g.data.get? e.sub.name = some D ∧
            D.units = some e.sub.units ∧ D.hdep = some e.sub.hdep ∧ size D.data = raw.n ∧
            ∀ (k j : ℕ), p[k]? = some j →
              ∃ v, row D.data k = some v ∧ value cat raw e j = some v) ∧
        (∀ name, name ∈ g.data.keys → ∃ e, Stored cat.basic other e ∧ e.sub.name = name) := by
  obtain ⟨other, hu, h1, _⟩ := format_success cat hc o ans d hd es h hcons
  refine ⟨other, hu, ?_⟩
  intro i hi
  obtain ⟨raw, g, r1, r2, r3, _⟩ := h1 i hi
  obtain ⟨D, ms, m1, m2, m3, _⟩ := r3.sorted
  exact ⟨raw, g, r1, r2, ⟨D, ms, m1, m2, m3⟩, r3.rows, r3.only⟩

/-- Raw data that are usable are formatted without an exception, so that `C12_sorted_rows`
applies. -/
theorem C12_usable_data_are_formatted (cat : Cat K) (hc : Sound cat) (o : Opts)
    (ans : List String) (d : Disk K) (hd : Unique d) (hcons : Consents o ans)
    (hfile : ¬ NewFile o d → (metasOf d).isSome ∧ (numOf d).isSome ∧
      ∀ f ∈ merge cat.matter cat.dm, f.2 ≠ [])
    (hraw : ∀ other, Uses cat o d other → ∀ i, Formats cat o d i →
      ∃ raw, d.raw.get? i = some raw ∧ Usable cat other raw) :
    ∃ es, format cat o ans d = some (es, .ok ()) := by
  -- the call goes ahead
  have hgo : ∃ es r, format cat o ans d = some (es, r) ∧ Plan cat o d es r := by
    have hsome : ∃ q, format cat o ans d = some q ∧ (q.1 = [] → q.2 ≠ .ok () →
        ¬ NewFile o d → False) := by
      unfold format
      rw [(consents_iff o ans).1 hcons]
      simp only
      by_cases hfr : fresh d o = true
      · simp only [hfr, if_true]
        split
        · exact ⟨_, rfl, fun _ _ hn => hn ((fresh_iff d o).1 hfr)⟩
        · exact ⟨_, rfl, fun _ _ hn => hn ((fresh_iff d o).1 hfr)⟩
      · simp only [hfr, Bool.false_eq_true, if_false]
        have hn : ¬ NewFile o d := fun hn => hfr ((fresh_iff d o).2 hn)
        obtain ⟨q1, q2, q3⟩ := hfile hn
        cases hf : d.file with
        | none => simp [metasOf, hf] at q1
        | some file =>
          simp only
          cases hg : firstGroup file.groups with
          | none =>
            exfalso
            refine hn (Or.inr ?_)
            intro i
            have : file.groups = [] := by
              cases hgr : file.groups with
              | nil => rfl
              | cons p rest => rw [hgr] at hg; simp [firstGroup] at hg
            simp [groupOf, hf, this]
          | some g =>
            simp only
            have hoth : ∃ other, otherOf cat g.names = .ok other := by
              unfold otherOf
              generalize merge cat.matter cat.dm = m at q3
              induction m with
              | nil => exact ⟨[], rfl⟩
              | cons p m ih =>
                obtain ⟨l, hl⟩ := ih (fun f hf => q3 f (List.mem_cons_of_mem _ hf))
                rw [List.foldr_cons, hl]
                simp only
                cases hp : p.2 with
                | nil => exact absurd hp (q3 p (by simp))
                | cons s rest =>
                  simp only
                  split
                  · exact ⟨_, rfl⟩
                  · exact ⟨_, rfl⟩
            obtain ⟨other, hoth⟩ := hoth
            rw [hoth]
            simp only
            cases hm : file.metas with
            | none => simp [metasOf, hf, hm] at q1
            | some old =>
              cases hk : file.num with
              | none => simp [numOf, hf, hk] at q2
              | some n =>
                simp only
                generalize (if o.overwrite = true then
                  cat.snaps.filter (fun i => !file.groups.has i) ++
                    cat.snaps.filter (fun i => file.groups.has i)
                  else cat.snaps.filter (fun i => !file.groups.has i)) = todo
                by_cases ht : todo = []
                · simp only [ht, if_true]
                  exact ⟨_, rfl, fun h _ _ => by simp at h⟩
                · simp only [ht, if_false]
                  exact ⟨_, rfl, fun h _ _ => by simp at h⟩
    obtain ⟨⟨es, r⟩, hq, hempty⟩ := hsome
    refine ⟨es, r, hq, ?_⟩
    rcases format_plan cat o ans d es r hq with ⟨h1, h2⟩ | ⟨_, hp⟩
    · exfalso
      by_cases hr : r = .ok ()
      · exact h2 hr hcons
      · by_cases hn : NewFile o d
        · -- a new file always starts with a write
          have hfr := (fresh_iff d o).2 hn
          unfold format at hq
          rw [(consents_iff o ans).1 hcons] at hq
          simp only [hfr, if_true] at hq
          split at hq
          · simp only [Option.some.injEq, Prod.mk.injEq] at hq
            rw [h1] at hq
            simp at hq
          · simp only [Option.some.injEq, Prod.mk.injEq] at hq
            rw [h1] at hq
            simp at hq
        · exact hempty h1 hr hn
    · exact hp
  obtain ⟨es, r, hq, hp⟩ := hgo
  refine ⟨es, ?_⟩
  rw [hq]
  obtain ⟨other, hu, hcase⟩ := hp.uses hd
  have hok : r = .ok () := by
    rcases hcase with ⟨hn, hes, hr⟩ | ⟨hn, todo, all, file, old, hf, hold, htodo, hnd, hall, hes, hr⟩
    · rw [hr]
      refine formatLoop_total cat hc.argsort other o.clean cat.snaps hc.snaps _ ?_ ?_
      · rw [start_new]; rfl
      · intro i hi
        obtain ⟨raw, h1, h2⟩ := hraw other hu i ⟨hi, Or.inl hn⟩
        exact ⟨raw, by rw [start_new]; exact h1, h2⟩
    · rw [hr]
      refine formatLoop_total cat hc.argsort other o.clean todo (hnd hc.snaps) _ ?_ ?_
      · rw [start_add d file hf]; rfl
      · intro i hi
        obtain ⟨raw, h1, h2⟩ := hraw other hu i ((htodo i).1 hi)
        exact ⟨raw, by rw [start_add d file hf]; exact h1, h2⟩
  rw [hok]

/-! ## C13 -/

/-- C13: the cut table stored with a formatted snapshot has one entry per cut, the number of halos
with mass at or above the cut; the first that many rows are exactly those halos; and the entries do
not decrease as the cuts decrease. -/
theorem C13_mass_cut_table (cat : Cat K) (hc : Sound cat) (o : Opts) (ans : List String)
    (d : Disk K) (hd : Unique d) (es : List (Eff K)) (h : format cat o ans d = some (es, .ok ()))
    (hcons : Consents o ans) (i : ℕ) (hi : Formats cat o d i) :
    ∃ g D ms t, groupOf (applyAll d es) i = some g ∧ g.data.get? "mass" = some D ∧
      D.data = .one ms ∧ g.cuts = some t ∧ t.map (·.1) = cat.cuts ∧
      (∀ c ∈ t, c.2 = ms.countP (fun m => decide (c.1 ≤ m))) ∧
      (∀ c ∈ t, ∀ (k : ℕ) (m : K), ms[k]? = some m → (k < c.2 ↔ c.1 ≤ m)) ∧
      (∀ a ∈ t, ∀ b ∈ t, b.1 ≤ a.1 → a.2 ≤ b.2) := by
  obtain ⟨other, hu, h1, _⟩ := format_success cat hc o ans d hd es h hcons
  obtain ⟨raw, g, r1, r2, r3, _⟩ := h1 i hi
  obtain ⟨D, ms, m1, m2, m3, t, t1, t2, t3⟩ := r3.sorted
  refine ⟨g, D, ms, t, r2, m1, m2, t1, t2, t3, ?_, ?_⟩
  · intro c hct k m hk
    rw [t3 c hct]
    exact Verif.Sim.lt_countP_of_sorted ms m3 c.1 k m hk
  · intro a ha b hb hab
    rw [t3 a ha, t3 b hb]
    refine List.countP_mono_left ?_
    intro m _ hm
    simp only [decide_eq_true_eq] at hm ⊢
    exact le_trans hab hm

/-- C13, for the reader of the table: if the cuts decrease (as the values used do) the table is a
cut table in the sense used by the mass-limited reads of C11. -/
theorem C13_table_for_reads (cat : Cat K) (hc : Sound cat) (hcuts : cat.cuts.Pairwise (· > ·))
    (o : Opts) (ans : List String)
    (d : Disk K) (hd : Unique d) (es : List (Eff K)) (h : format cat o ans d = some (es, .ok ()))
    (hcons : Consents o ans) (i : ℕ) (hi : Formats cat o d i) :
    ∃ g D ms t, groupOf (applyAll d es) i = some g ∧ g.data.get? "mass" = some D ∧
      D.data = .one ms ∧ g.cuts = some t ∧ ms.Pairwise (· ≥ ·) ∧ Verif.Sim.Spec.CutTable ms t := by
  obtain ⟨other, hu, h1, _⟩ := format_success cat hc o ans d hd es h hcons
  obtain ⟨raw, g, r1, r2, r3, _⟩ := h1 i hi
  obtain ⟨D, ms, m1, m2, m3, t, t1, t2, t3⟩ := r3.sorted
  refine ⟨g, D, ms, t, r2, m1, m2, t1, m3, ?_, t3⟩
  have : (t.map (·.1)).Pairwise (· > ·) := by rw [t2]; exact hcuts
  rwa [List.pairwise_map] at this

/-! ## C14 -/

/-- C14 for one call that ends normally: the snapshots it formats hold the data of this run; the
others are untouched, or gone if a new file was started. -/
theorem C14_one_run (cat : Cat K) (hc : Sound cat) (o : Opts) (ans : List String) (d : Disk K)
    (hd : Unique d) (es : List (Eff K)) (h : format cat o ans d = some (es, .ok ()))
    (hcons : Consents o ans) :
    ∃ other, Uses cat o d other ∧
      (∀ i, Formats cat o d i → ∃ raw g, d.raw.get? i = some raw ∧
        groupOf (applyAll d es) i = some g ∧ Complete cat other raw i g) ∧
      (∀ i, ¬ Formats cat o d i →
        (NewFile o d → groupOf (applyAll d es) i = none) ∧
        (¬ NewFile o d → groupOf (applyAll d es) i = groupOf d i)) := by
  obtain ⟨other, hu, h1, h2, _⟩ := format_success cat hc o ans d hd es h hcons
  refine ⟨other, hu, ?_, fun i hi => (h2 i hi).2⟩
  intro i hi
  obtain ⟨raw, g, r1, r2, r3, _⟩ := h1 i hi
  exact ⟨raw, g, r1, r2, r3⟩

/-- A call of `format`. -/
structure Run (K : Type) where
  cat : Cat K
  opts : Opts
  answers : List String

/-- A sequence of calls that end normally, each with the disk it started from; between calls the raw
data can change in any way (downloads, clean-up). -/
inductive History : Disk K → List (Run K × Disk K) → Disk K → Prop
  | nil (d) : History d [] d
  | run {d0 hs d} (h : History d0 hs d) (r : Run K) (es : List (Eff K)) (hsound : Sound r.cat)
      (hc : Consents r.opts r.answers)
      (hf : format r.cat r.opts r.answers d = some (es, .ok ())) :
      History d0 (hs ++ [(r, d)]) (applyAll d es)
  | raw {d0 hs d} (h : History d0 hs d) (raw : PyDict ℕ (Raw K)) :
      History d0 hs { d with raw := raw }

theorem History.unique {d0 : Disk K} (h0 : Unique d0) {hs : List (Run K × Disk K)} {d : Disk K}
    (h : History d0 hs d) : Unique d := by
  induction h with
  | nil => exact h0
  | run _ r es _ _ _ ih => exact unique_applyAll es _ ih
  | raw _ raw ih => exact ih

/-- `s` is the last call that formatted snapshot `i`, and no later call started a new file. -/
def LastToFormat (hs : List (Run K × Disk K)) (s : Run K × Disk K) (i : ℕ) : Prop :=
  ∃ pre post, hs = pre ++ s :: post ∧ Formats s.1.cat s.1.opts s.2 i ∧
    ∀ q ∈ post, ¬ Formats q.1.cat q.1.opts q.2 i ∧ ¬ NewFile q.1.opts q.2

/-- C14 for any sequence of calls, starting without a file: a snapshot is in the file exactly if
some call formatted it and no later call dropped it, and then its group is the
complete data of the last call that formatted it. -/
theorem C14_history (d0 : Disk K) (h0 : d0.file = none) (hs : List (Run K × Disk K)) (d : Disk K)
    (h : History d0 hs d) (i : ℕ) :
    (groupOf d i ≠ none ↔ ∃ s, LastToFormat hs s i) ∧
    (∀ g, groupOf d i = some g → ∃ s, LastToFormat hs s i ∧ ∃ other raw,
      Uses s.1.cat s.1.opts s.2 other ∧ s.2.raw.get? i = some raw ∧
      Complete s.1.cat other raw i g) := by
  have hU0 : Unique d0 := by intro f hf; rw [h0] at hf; cases hf
  induction h with
  | nil =>
    refine ⟨⟨fun h => ?_, ?_⟩, ?_⟩
    · simp [groupOf, h0] at h
    · rintro ⟨s, pre, post, he, _⟩
      simp at he
    · intro g hg
      simp [groupOf, h0] at hg
  | raw h raw ih => exact ih
  | @run hs d h r es hsound hcons hf ih =>
    obtain ⟨ih1, ih2⟩ := ih
    obtain ⟨other, hu, h1, h2⟩ := C14_one_run r.cat hsound r.opts r.answers d (h.unique hU0) es hf
      hcons
    by_cases hform : Formats r.cat r.opts d i
    · obtain ⟨raw, g, r1, r2, r3⟩ := h1 i hform
      have hlast : LastToFormat (hs ++ [(r, d)]) (r, d) i :=
        ⟨hs, [], by simp, hform, by simp⟩
      refine ⟨⟨fun _ => ⟨_, hlast⟩, fun _ => by rw [r2]; simp⟩, ?_⟩
      intro g' hg'
      rw [r2] at hg'
      simp only [Option.some.injEq] at hg'
      subst hg'
      exact ⟨_, hlast, other, raw, hu, r1, r3⟩
    · by_cases hn : NewFile r.opts d
      · have hnone := (h2 i hform).1 hn
        refine ⟨⟨fun h => absurd hnone h, ?_⟩, ?_⟩
        · rintro ⟨s, pre, post, he, hfs, hpost⟩
          exfalso
          rcases List.eq_nil_or_concat post with rfl | ⟨post', q, rfl⟩
          · have := List.append_inj_right' he rfl
            simp only [List.cons.injEq, and_true] at this
            subst this
            exact hform hfs
          · have hq : (r, d) = q := by
              rw [List.concat_eq_append, ← List.cons_append, ← List.append_assoc] at he
              have := List.append_inj_right' he rfl
              simpa using this
            exact (hpost q (by simp)).2 (by rw [← hq]; exact hn)
        · intro g hg
          rw [hnone] at hg
          cases hg
      · have hsame := (h2 i hform).2 hn
        have hlift : ∀ s, LastToFormat hs s i → LastToFormat (hs ++ [(r, d)]) s i := by
          rintro s ⟨pre, post, rfl, hfs, hpost⟩
          refine ⟨pre, post ++ [(r, d)], by simp, hfs, ?_⟩
          intro q hq
          rcases List.mem_append.1 hq with hq | hq
          · exact hpost q hq
          · simp only [List.mem_singleton] at hq
            subst hq
            exact ⟨hform, hn⟩
        refine ⟨⟨?_, ?_⟩, ?_⟩
        · intro h
          rw [hsame] at h
          obtain ⟨s, hl⟩ := ih1.1 h
          exact ⟨s, hlift s hl⟩
        · rintro ⟨s, pre, post, he, hfs, hpost⟩
          rw [hsame]
          refine ih1.2 ?_
          rcases List.eq_nil_or_concat post with rfl | ⟨post', q, rfl⟩
          · have := List.append_inj_right' he rfl
            simp only [List.cons.injEq, and_true] at this
            subst this
            exact absurd hfs hform
          · rw [List.concat_eq_append, ← List.cons_append, ← List.append_assoc] at he
            have := List.append_inj_left' he rfl
            exact ⟨s, pre, post', this, hfs, fun q hq => hpost q (by simp [hq])⟩
        · intro g hg
          rw [hsame] at hg
          obtain ⟨s, hl, rest⟩ := ih2 g hg
          exact ⟨s, hlift s hl, rest⟩

/-- States reached by any sequence of calls, each completed, failed or interrupted at any point. -/
inductive Reached : Disk K → Disk K → Prop
  | refl (d) : Reached d d
  | run {d0 d} (h : Reached d0 d) (r : Run K) (es P : List (Eff K)) (out : Except Err Unit)
      (hs : Sound r.cat) (hf : format r.cat r.opts r.answers d = some (es, out)) (hP : P <+: es) :
      Reached d0 (applyAll d P)
  | raw {d0 d} (h : Reached d0 d) (raw : PyDict ℕ (Raw K)) : Reached d0 { d with raw := raw }

theorem Reached.unique {d0 d : Disk K} (h0 : Unique d0) (h : Reached d0 d) : Unique d := by
  induction h with
  | refl => exact h0
  | run _ r es P out _ _ _ ih => exact unique_applyAll P _ ih
  | raw _ raw ih => exact ih

/-- C14, metadata: whatever was called before, also if calls failed or were interrupted anywhere, the
file's metadata list every formatted snapshot, no snapshot twice, by increasing number. -/
theorem C14_metadata_listed (d0 : Disk K) (h0 : d0.file = none) (d : Disk K) (h : Reached d0 d) :
    Listed d := by
  have hU0 : Unique d0 := by intro f hf; rw [h0] at hf; cases hf
  induction h with
  | refl => rintro ⟨i, hi⟩; simp [groupOf, h0] at hi
  | run h r es P out hs hf hP ih =>
    exact format_listed r.cat hs r.opts r.answers _ (h.unique hU0) ih es out hf P hP
  | raw h raw ih => exact ih

/-- C14, metadata of one call that ends normally: a new file lists the metadata of the catalogue;
otherwise the rows of formatted snapshots are those of this run's catalogue, the other rows are
kept, and the number of snapshots is the number of rows. -/
theorem C14_metadata_rows (cat : Cat K) (hc : Sound cat) (o : Opts) (ans : List String) (d : Disk K)
    (hd : Unique d) (es : List (Eff K)) (h : format cat o ans d = some (es, .ok ()))
    (hcons : Consents o ans) :
    (NewFile o d → metasOf (applyAll d es) = some cat.metas ∧
      numOf (applyAll d es) = some cat.numberSnaps) ∧
    (¬ NewFile o d → ∃ old l, metasOf d = some old ∧ metasOf (applyAll d es) = some l ∧
      numOf (applyAll d es) = some l.length ∧
      ∀ m, m ∈ l ↔ (m ∈ old ∧ ¬ Formats cat o d m.index) ∨
        (m ∈ cat.metas ∧ Formats cat o d m.index)) := by
  obtain ⟨_, _, _, _, h3, h4⟩ := format_success cat hc o ans d hd es h hcons
  refine ⟨h3, fun hn => ?_⟩
  obtain ⟨old, l, e1, e2, e3, _, e5⟩ := h4 hn
  exact ⟨old, l, e1, e2, e3, e5⟩

/-! ## C15 -/

/-- A declined call (raw files would be deleted and the first answer that counts is not `y`) does
nothing. -/
theorem C15_declined (cat : Cat K) (o : Opts) (ans : List String) (d : Disk K)
    (es : List (Eff K)) (r : Except Err Unit) (h : format cat o ans d = some (es, r))
    (hno : ¬ Consents o ans) : applyAll d es = d := by
  rcases format_plan cat o ans d es r h with ⟨h1, _⟩ | ⟨h1, _⟩
  · rw [h1]; rfl
  · exact absurd h1 hno

/-- C15, raw data: at whatever point a call is interrupted, raw data of a snapshot are there
unchanged, or they were to be deleted and their snapshot is in the file, completely formatted. -/
theorem C15_raw_deleted_last (cat : Cat K) (hc : Sound cat) (o : Opts) (ans : List String)
    (d : Disk K) (hd : Unique d) (es : List (Eff K)) (r : Except Err Unit)
    (h : format cat o ans d = some (es, r)) (P : List (Eff K)) (hP : P <+: es)
    (i : ℕ) (raw : Raw K) (hraw : d.raw.get? i = some raw) :
    (applyAll d P).raw.get? i = some raw ∨
    (o.clean = true ∧ Consents o ans ∧ ∃ other g, Uses cat o d other ∧
      groupOf (applyAll d P) i = some g ∧ Complete cat other raw i g) := by
  obtain ⟨other, h1, h2, _⟩ := format_prefix cat hc o ans d hd es r h P hP
  rcases h2 i raw hraw with h2 | ⟨h2, h3, h4, g, h5, h6⟩
  · exact Or.inl h2
  · rcases h1 with rfl | ⟨hcons, hu⟩
    · left; exact hraw
    · exact Or.inr ⟨h2, hcons, other, g, hu, h5, h6⟩

/-- C15 without `remake`, the part that holds: at whatever point a call is interrupted, a snapshot
that had formatted or raw data has its raw data unchanged, or its formatted data unchanged, or
complete formatted data made from its raw data.  Missing: the metadata do list snapshots without
data, and `remake` destroys data (below). -/
theorem C15_nothing_lost_partial (cat : Cat K) (hc : Sound cat) (o : Opts)
    (hre : o.remake = false) (ans : List String)
    (d : Disk K) (hd : Unique d) (es : List (Eff K)) (r : Except Err Unit)
    (h : format cat o ans d = some (es, r)) (P : List (Eff K)) (hP : P <+: es)
    (i : ℕ) (hav : groupOf d i ≠ none ∨ d.raw.get? i ≠ none) :
    (∃ raw, d.raw.get? i = some raw ∧ (applyAll d P).raw.get? i = some raw) ∨
    (groupOf d i ≠ none ∧ groupOf (applyAll d P) i = groupOf d i) ∨
    (∃ raw other g, d.raw.get? i = some raw ∧ groupOf (applyAll d P) i = some g ∧
      Complete cat other raw i g) := by
  obtain ⟨other, h1, h2, h3⟩ := format_prefix cat hc o ans d hd es r h P hP
  cases hr : d.raw.get? i with
  | some raw =>
    rcases h2 i raw hr with h2 | ⟨_, _, _, g, h5, h6⟩
    · exact Or.inl ⟨raw, rfl, h2⟩
    · exact Or.inr (Or.inr ⟨raw, other, g, rfl, h5, h6⟩)
  | none =>
    have hg : groupOf d i ≠ none := by
      rcases hav with h | h
      · exact h
      · exact absurd hr h
    obtain ⟨_, h4⟩ := h3 i (Or.inr hr)
    rcases h4 with h4 | ⟨hn, _⟩
    · exact Or.inr (Or.inl ⟨hg, h4⟩)
    · rcases hn with hn | hn
      · rw [hre] at hn; cases hn
      · exact absurd (hn i) hg

/-- C15 at full strength: if every snapshot of the catalogue has formatted or raw data, and
the file lists only formatted snapshots, then at whatever point a call is interrupted (1) every
snapshot listed has formatted or raw data, (2) raw data are deleted only once their snapshot is
formatted, and (3) the metadata do not list a snapshot without formatted data. -/
def C15_full : Prop :=
  ∀ (cat : Cat ℚ), Sound cat → ∀ (o : Opts) (ans : List String) (d : Disk ℚ), Unique d →
    (∀ m ∈ cat.metas, groupOf d m.index ≠ none ∨ d.raw.get? m.index ≠ none) →
    (∀ l, metasOf d = some l → ∀ m ∈ l, groupOf d m.index ≠ none) →
    ∀ es r, format cat o ans d = some (es, r) → ∀ P, P <+: es →
      (∀ l, metasOf (applyAll d P) = some l → ∀ m ∈ l,
        groupOf (applyAll d P) m.index ≠ none ∨ (applyAll d P).raw.get? m.index ≠ none) ∧
      (∀ i raw, d.raw.get? i = some raw → (applyAll d P).raw.get? i = none →
        ∃ other g, groupOf (applyAll d P) i = some g ∧ Complete cat other raw i g) ∧
      (∀ l, metasOf (applyAll d P) = some l → ∀ m ∈ l, groupOf (applyAll d P) m.index ≠ none)

/-- `remake` destroys: for every catalogue, disk and snapshot whose raw data are gone (they are, if
it was formatted with `realtime_clean_raw`), a call with `remake` removes its formatted data with
its first write and never restores them, although the metadata it writes still list it. -/
theorem C15_remake_destroys (cat : Cat K) (hc : Sound cat) (o : Opts) (hre : o.remake = true)
    (ans : List String) (hcons : Consents o ans) (d : Disk K) (hd : Unique d)
    (es : List (Eff K)) (r : Except Err Unit)
    (h : format cat o ans d = some (es, r)) (i : ℕ) (hi : i ∈ cat.snaps)
    (hraw : d.raw.get? i = none) :
    groupOf (applyAll d es) i = none ∧ (applyAll d es).raw.get? i = none ∧
      r ≠ .ok () ∧ ∃ l, metasOf (applyAll d es) = some l ∧ i ∈ l.map (·.index) := by
  have hn : NewFile o d := Or.inl hre
  rcases format_plan cat o ans d es r h with ⟨h1, h2⟩ | ⟨_, hp⟩
  · exfalso
    have hfr := (fresh_iff d o).2 hn
    unfold format at h
    rw [(consents_iff o ans).1 hcons] at h
    simp only [hfr, if_true] at h
    split at h
    · simp only [Option.some.injEq, Prod.mk.injEq] at h
      rw [h1] at h
      simp at h
    · simp only [Option.some.injEq, Prod.mk.injEq] at h
      rw [h1] at h
      simp at h
  · obtain ⟨other, hu, hcase⟩ := hp.uses hd
    rcases hcase with ⟨_, hes, hr⟩ | ⟨hn', _⟩
    · have hst : (applyAll d [.truncate, .setNum cat.numberSnaps, .setMetas cat.metas]).file.isSome :=
        by rw [start_new]; rfl
      have inv := formatLoop_prefix cat hc.argsort other o.clean cat.snaps hc.snaps _ hst _
        List.prefix_rfl
      have happ : applyAll d es = applyAll
          (applyAll d [.truncate, .setNum cat.numberSnaps, .setMetas cat.metas])
          (formatLoop cat other o.clean
            (applyAll d [.truncate, .setNum cat.numberSnaps, .setMetas cat.metas]) cat.snaps).1 := by
        conv_lhs => rw [hes]
        rw [applyAll_append]
      obtain ⟨m1, m2⟩ := inv.missing i (by rw [start_new]; exact hraw)
      refine ⟨by rw [happ, m1, start_new]; rfl, by rw [happ, m2], ?_, ?_⟩
      · intro hok
        rw [hok] at hr
        obtain ⟨raw, g, h1, _⟩ := formatLoop_done cat hc.argsort other o.clean cat.snaps hc.snaps _
          hst hr.symm i hi
        rw [start_new] at h1
        simp only [hraw] at h1
        cases h1
      · exact ⟨cat.metas, by rw [happ, inv.metas, start_new]; rfl, hc.listed i hi⟩
    · exact absurd hn hn'

/-- The metadata come first: for every call that starts a new file there is a point at which an
interruption leaves all snapshots of the catalogue listed and none of them with data. -/
theorem C15_listed_without_data (cat : Cat K) (o : Opts) (ans : List String)
    (hcons : Consents o ans) (d : Disk K) (hn : NewFile o d) :
    ∃ es r P, format cat o ans d = some (es, r) ∧ P <+: es ∧
      metasOf (applyAll d P) = some cat.metas ∧ ∀ i, groupOf (applyAll d P) i = none := by
  have hfr := (fresh_iff d o).2 hn
  unfold format
  rw [(consents_iff o ans).1 hcons]
  simp only [hfr, if_true]
  split
  · exact ⟨_, _, _, rfl, List.prefix_rfl, rfl, fun i => rfl⟩
  · exact ⟨_, _, _, rfl, List.prefix_append _ _, rfl, fun i => rfl⟩

/-- A snapshot that was only started is taken for finished: if its group exists in any state
(for example still empty, because the call writing it was interrupted), later calls without
`overwrite` and `remake` leave it as it is, at every point. -/
theorem C15_incomplete_kept (cat : Cat K) (hc : Sound cat) (o : Opts)
    (hre : o.remake = false) (hov : o.overwrite = false) (ans : List String)
    (d : Disk K) (hd : Unique d) (es : List (Eff K)) (r : Except Err Unit)
    (h : format cat o ans d = some (es, r)) (P : List (Eff K)) (hP : P <+: es)
    (i : ℕ) (g : Group K) (hg : groupOf d i = some g) : groupOf (applyAll d P) i = some g := by
  have hnn : ¬ NewFile o d := by
    rintro (h | h)
    · rw [hre] at h; cases h
    · rw [h i] at hg; cases hg
  have hnf : ¬ Formats cat o d i := by
    rintro ⟨_, h | h | h⟩
    · exact hnn h
    · rw [hov] at h; cases h
    · rw [hg] at h; cases h
  obtain ⟨other, _, _, h3⟩ := format_prefix cat hc o ans d hd es r h P hP
  rcases (h3 i (Or.inl hnf)).2 with h4 | ⟨h4, _⟩
  · rw [h4, hg]
  · exact absurd h4 hnn

/-- Such a state is reached: whenever the first snapshot of a new file has usable raw data, there is
a point at which an interruption leaves an empty group for it. -/
theorem C15_incomplete_reached (cat : Cat K) (hc : Sound cat) (o : Opts) (ans : List String)
    (hcons : Consents o ans) (d : Disk K) (hn : NewFile o d) (i : ℕ) (rest : List ℕ)
    (hs : cat.snaps = i :: rest) (raw : Raw K) (hraw : d.raw.get? i = some raw)
    (hU : Usable cat (if o.basicOnly then [] else merge cat.dm cat.matter) raw) :
    ∃ es r P, format cat o ans d = some (es, r) ∧ P <+: es ∧
      groupOf (applyAll d P) i = some {} ∧ metasOf (applyAll d P) = some cat.metas := by
  have hfr := (fresh_iff d o).2 hn
  obtain ⟨f, hf, hw⟩ := writeOne_total cat hc.argsort _ raw hU o.clean false i
  unfold format
  rw [(consents_iff o ans).1 hcons]
  simp only [hfr, if_true, hs, List.cons_ne_nil, if_false]
  refine ⟨_, _, [.truncate, .setNum cat.numberSnaps, .setMetas cat.metas] ++ [.newGroup i], rfl,
    ?_, ?_, rfl⟩
  · rw [List.prefix_append_right_inj]
    unfold formatLoop
    rw [start_new]
    simp only [hraw, hf]
    have hpres : hasGroup (K := K)
        ⟨some ⟨some cat.metas, some cat.numberSnaps, []⟩, d.raw⟩ i = false := rfl
    rw [hpres]
    have hpre : [.newGroup i] <+: (writeOne cat
        (if o.basicOnly = true then [] else merge cat.dm cat.matter) o.clean false i f).1 := by
      unfold writeOne
      cases hwd : writeData i ["mass_cuts"] (items f
          (if o.basicOnly = true then [] else merge cat.dm cat.matter)) with
      | mk es r =>
        cases r with
        | error e => exact ⟨_, rfl⟩
        | ok u => exact ⟨_, rfl⟩
    cases hwo : writeOne cat (if o.basicOnly = true then [] else merge cat.dm cat.matter)
        o.clean false i f with
    | mk es r =>
      rw [hwo] at hpre hw
      simp only at hw
      subst hw
      exact hpre.trans (List.prefix_append _ _)
  · simp [applyAll, apply, groupOf]

/-! ## An example -/

/-- An argsort. -/
def demoArgsort (ms : List ℚ) : List ℕ := Verif.Sim.argsort (fun i => ms.getD i 0) ms.length

theorem demoArgsort_ok : IsArgsort demoArgsort := by
  intro ms
  refine ⟨Verif.Sim.argsort_perm _ _, ?_⟩
  refine (Verif.Sim.argsort_sorted (fun i => ms.getD i 0) ms.length).imp ?_
  intro a b h x y hx hy
  simpa [List.getD_eq_getElem?_getD, hx, hy] using h

/-- Metadata of snapshot `i` at redshift `z`. -/
def demoMeta (i : ℕ) (z : ℚ) : SnapMeta ℚ := ⟨i, z, z, z + 1, 0, 1, 0, 1, 0, 1⟩

/-- A catalogue: mass (to be multiplied by 10), three position columns, and an extra
field with a column that is skipped. -/
def demoCat : Cat ℚ where
  snaps := [0, 1]
  metas := [demoMeta 0 1, demoMeta 1 0]
  numberSnaps := 2
  basic := [("Mass", [⟨"mass", "Msun/h", -1⟩]), ("Pos", [⟨"pos_x", "Mpc/h", -1⟩, ⟨"pos_y", "Mpc/h", -1⟩])]
  dm := [("Vel", [⟨"vel", "km/s", 0⟩])]
  matter := [("Type", [⟨"m_gas", "Msun/h", -1⟩, ⟨"none", "Msun/h", -1⟩, ⟨"m_stars", "Msun/h", -1⟩])]
  transform := [("Mass", fun c _ => match c with
    | .one v => .one (v.map (10 * ·))
    | .many r => .many r)]
  h := 7 / 10
  cuts := [30, 20, 10]
  argsort := demoArgsort

theorem demoCat_sound : Sound demoCat := by
  refine ⟨by decide, ?_, ?_, demoArgsort_ok⟩
  · simp [demoCat, demoMeta]
  · intro i hi
    simp [demoCat, demoMeta] at hi ⊢
    tauto

/-- Raw data of three halos, two of them with equal mass. -/
def demoRaw : Raw ℚ where
  n := 3
  fields := [("Mass", .one [1, 2, 2]), ("Pos", .many [[1, 10], [2, 20], [3, 30]]),
    ("Vel", .one [7, 8, 9]), ("Type", .many [[1, 0, 4], [2, 0, 5], [3, 0, 6]])]

def demoDisk : Disk ℚ := { file := none, raw := [(0, demoRaw), (1, { demoRaw with n := 0 })] }

theorem demoDisk_unique : Unique demoDisk := by
  intro f hf; cases hf

/-- The hypotheses of C12-C14 hold for this call. -/
example : (format demoCat {} [] demoDisk).map (fun r => match r.2 with
    | .ok () => true
    | .error _ => false) = some true := by decide +kernel

/-- And this is the first formatted snapshot. -/
example : (format demoCat {} [] demoDisk).bind (fun r => groupOf (applyAll demoDisk r.1) 0) =
    some { cuts := some [(30, 0), (20, 2), (10, 3)],
           data := [("mass", ⟨.one [20, 20, 10], some "Msun/h", some (-1)⟩),
                    ("pos_x", ⟨.one [3, 2, 1], some "Mpc/h", some (-1)⟩),
                    ("pos_y", ⟨.one [30, 20, 10], some "Mpc/h", some (-1)⟩),
                    ("vel", ⟨.one [9, 8, 7], some "km/s", some 0⟩),
                    ("m_gas", ⟨.one [3, 2, 1], some "Msun/h", some (-1)⟩),
                    ("m_stars", ⟨.one [6, 5, 4], some "Msun/h", some (-1)⟩)],
           info := some [demoMeta 0 1] } := by decide +kernel

/-- The hypotheses of `C14_history` and `C14_metadata_listed` are met by a history with a call. -/
example : ∃ es, History demoDisk [(⟨demoCat, {}, []⟩, demoDisk)] (applyAll demoDisk es) ∧
    Reached demoDisk (applyAll demoDisk es) := by
  have h : (format demoCat {} [] demoDisk).map (fun r => match r.2 with
    | .ok () => true
    | .error _ => false) = some true := by decide +kernel
  cases hf : format demoCat {} [] demoDisk with
  | none => rw [hf] at h; cases h
  | some q =>
    obtain ⟨es, r⟩ := q
    rw [hf] at h
    cases r with
    | error e => cases h
    | ok u =>
      refine ⟨es, ?_, ?_⟩
      · exact History.run (History.nil demoDisk) ⟨demoCat, {}, []⟩ es demoCat_sound
          (by intro h; cases h) hf
      · exact Reached.run (Reached.refl demoDisk) ⟨demoCat, {}, []⟩ es es _ demoCat_sound hf
          List.prefix_rfl

/-- A disk after formatting with `realtime_clean_raw`: the raw data are gone. -/
def cleanedDisk : Disk ℚ :=
  { file := some { metas := some [demoMeta 0 1, demoMeta 1 0], num := some 2,
                   groups := [(0, {}), (1, {})] }, raw := [] }

/-- The hypotheses of `C15_remake_destroys` are met, and this is what happens. -/
example : (format demoCat { remake := true } [] cleanedDisk).map
    (fun r => (groupOf (applyAll cleanedDisk r.1) 0, match r.2 with
      | .ok () => true
      | .error _ => false)) = some (none, false) := by decide +kernel

/-- C15 is false at full strength: here the call is interrupted once the metadata are written. -/
theorem C15_full_false : ¬ C15_full := by
  intro h
  obtain ⟨es, r, P, h1, h2, h3, h4⟩ := C15_listed_without_data demoCat {} [] (by
    intro h; cases h) demoDisk (Or.inr (fun i => rfl))
  have := (h demoCat demoCat_sound {} [] demoDisk demoDisk_unique (by
    intro m hm
    right
    simp [demoCat, demoMeta] at hm
    rcases hm with rfl | rfl <;> simp [demoDisk, PyDict.get?]) (by
    intro l hl; cases hl) es r h1 P h2).2.2 _ h3 (demoMeta 0 1) (by simp [demoCat])
  exact this (h4 _)

end Verif.Format
