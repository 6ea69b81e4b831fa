import Verif.Spec.Tables
import Verif.Props.FormatAlike
import Mathlib.Tactic.Ring
import Mathlib.Algebra.BigOperators.Group.List.Basic

set_option linter.unusedSectionVars false

/-!
# C48: the field tables; C55 for the simulations there are tables for
-/

namespace Verif.Format

open Verif.Sim (Err SnapMeta)
open Verif.Format.Spec

/-! ## Dictionary literals -/

theorem foldl_set_get? {α : Type} (lines : List (Name × α)) (d : PyDict Name α) (key : Name) :
    (lines.foldl (fun d p => d.set p.1 p.2) d).get? key
      = match (lines.filter (fun p => decide (p.1 = key))).getLast? with
        | some p => some p.2
        | none => d.get? key := by
  induction lines generalizing d with
  | nil => simp
  | cons p lines ih =>
    rw [List.foldl_cons, ih, List.filter_cons]
    by_cases hp : p.1 = key
    · simp only [hp, decide_true, if_true]
      generalize lines.filter (fun p => decide (p.1 = key)) = l
      rcases l with _ | ⟨q, l⟩
      · simp [PyDict.get?_set, hp]
      · simp [List.getLast?_cons_cons]
        cases h : (q :: l).getLast? with
        | none => simp at h
        | some x => rfl
    · simp only [hp, decide_false, Bool.false_eq_true, if_false, PyDict.get?_set]

theorem lit_get? {α : Type} (lines : List (Name × α)) (key : Name) :
    (lit lines).get? key
      = ((lines.filter (fun p => decide (p.1 = key))).getLast?).map (·.2) := by
  unfold lit
  rw [foldl_set_get?]
  cases (lines.filter (fun p => decide (p.1 = key))).getLast? <;> simp

theorem lit_nodup {α : Type} (lines : List (Name × α)) : (lit lines).keys.Nodup := by
  unfold lit
  have : ∀ d : PyDict Name α, d.keys.Nodup →
      (lines.foldl (fun d p => d.set p.1 p.2) d).keys.Nodup := by
    induction lines with
    | nil => intro d h; exact h
    | cons p lines ih => intro d h; exact ih _ (PyDict.keys_set_nodup d p.1 p.2 h)
  exact this [] (by simp [PyDict.keys])

theorem mem_of_get?' {α : Type} (d : PyDict Name α) (key : Name) (v : α) (h : d.get? key = some v) :
    (key, v) ∈ d := by
  induction d with
  | nil => simp at h
  | cons q d ih =>
    obtain ⟨a, b⟩ := q
    rw [PyDict.get?_cons] at h
    split at h
    · rename_i hq
      simp only [Option.some.injEq] at h
      subst h; subst hq; simp
    · exact List.mem_cons_of_mem _ (ih h)

theorem get?_map_snd {α β : Type} (f : α → β) (d : PyDict Name α) (key : Name) :
    PyDict.get? (d.map (fun p => (p.1, f p.2))) key = (d.get? key).map f := by
  induction d with
  | nil => rfl
  | cons q d ih =>
    obtain ⟨a, b⟩ := q
    rw [List.map_cons, PyDict.get?_cons, PyDict.get?_cons, ih]
    split <;> rfl

/-! ## The tables -/

theorem tables_first (k : Kind) : ∀ f ∈ lit (dmLines k) ++ lit (matterLines k),
    (f.2.length ≤ 1 ∨ (f.2.head?.map (fun s => s.name.toList.take 4)) ≠ some ['n', 'o', 'n', 'e']) := by
  cases k <;> decide +kernel

/-- The tables of all simulations are well formed. -/
theorem shipped_tables (k : Kind) :
    Tables (lit (basicLines k)) (lit (dmLines k)) (lit (matterLines k)) where
  disjoint := by cases k <;> decide +kernel
  dmKeys := lit_nodup _
  matterKeys := lit_nodup _
  nonempty := by cases k <;> decide +kernel
  first := by
    intro f hf s rest h1 h2
    rcases tables_first k f hf with h | h
    · rw [h1] at h
      cases rest with
      | nil => exact absurd rfl h2
      | cons a b => simp at h
    · rw [h1] at h
      simpa using h
  names := by cases k <;> decide +kernel
  cuts := by cases k <;> decide +kernel

/-- C55 for the simulations: after any sequence of completed calls all snapshots have the same
properties, with the same units. -/
theorem C55_simulations {K : Type} [Field K] [LinearOrder K] (k : Kind) (d0 d : Disk K)
    (h0 : d0.file = none) (hs : List (Run K × Disk K)) (h : History d0 hs d)
    (hr : ∀ r ∈ hs, r.1.cat.IsA k) : Alike d :=
  C55_alike_partial _ _ _ (shipped_tables k) d0 d h0 hs h
    (fun r hr' => ⟨(hr r hr').basic, (hr r hr').dm, (hr r hr').matter⟩)

/-- The lines that count: all but that of `sfr_hr`. -/
theorem basic_last (k : Kind) : ∀ p ∈ basicLines k,
    ((basicLines k).filter (fun q => decide (q.1 = p.1))).getLast? = some p := by
  cases k <;> decide +kernel

theorem other_last (k : Kind) : ∀ p ∈ dmLines k ++ matterLines k, (∀ s ∈ p.2, s.name ≠ "sfr_hr") →
    (p ∈ dmLines k → ((dmLines k).filter (fun q => decide (q.1 = p.1))).getLast? = some p) ∧
    (p ∈ matterLines k →
      ((matterLines k).filter (fun q => decide (q.1 = p.1))).getLast? = some p) := by
  cases k <;> decide +kernel

theorem conv_once (k : Kind) : ∀ p ∈ convLines k, p.1 ≠ "SubhaloBHMdot" →
    (convLines k).filter (fun q => decide (q.1 = p.1)) = [p] := by
  cases k <;> decide +kernel

theorem documented_stored (k : Kind) (e : Entry) (h : Documented k e)
    (hl : ∀ subs, (e.key, subs) ∈ dmLines k ++ matterLines k → subs[e.column]? = some e.sub →
      ∀ s ∈ subs, s.name ≠ "sfr_hr") :
    Stored (lit (basicLines k)) (lit (dmLines k) ++ lit (matterLines k)) e := by
  rcases h with ⟨subs, h1, h2, h3⟩ | ⟨⟨subs, h1, h2, h3⟩, h4⟩
  · left
    refine ⟨subs, mem_of_get?' _ _ _ ?_, h2, h3⟩
    rw [lit_get?, basic_last k _ h1]; rfl
  · right
    refine ⟨⟨subs, ?_, h2, h3⟩, h4⟩
    have h5 := other_last k _ h1 (hl subs h1 h3)
    rcases List.mem_append.1 h1 with h1 | h1
    · refine List.mem_append.2 (Or.inl (mem_of_get?' _ _ _ ?_))
      rw [lit_get?, h5.1 h1]; rfl
    · refine List.mem_append.2 (Or.inr (mem_of_get?' _ _ _ ?_))
      rw [lit_get?, h5.2 h1]; rfl

/-- In every table a line of `sfr_hr` has this property only. -/
theorem sfr_alone (k : Kind) : ∀ p ∈ dmLines k ++ matterLines k,
    (∃ s ∈ p.2, s.name = "sfr_hr") → p.2 = [⟨"sfr_hr", "Msun/yr", 0⟩] := by
  cases k <;> decide +kernel

/-! ## Conversions -/

variable {K : Type} [Field K]

theorem on_eq (c : Conv) (x h : K) : c.on x h = x * factor h c := by
  cases c <;> simp [Conv.on, factor, div_eq_mul_inv]

theorem row_mapNum (c : Col K) (a : K) (j : ℕ) :
    row (c.mapNum (fun x => x * a)) j = (row c j).map (Cell.times a) := by
  cases c with
  | one v => simp only [Col.mapNum, row, List.getElem?_map]; cases v[j]? <;> rfl
  | many rows => simp only [Col.mapNum, row, List.getElem?_map]; cases rows[j]? <;> rfl

theorem times_one (c : Cell K) : Cell.times 1 c = c := by
  cases c <;> simp [Cell.times]

/-- The value the program stores: the last conversion only. -/
theorem value_last (k : Kind) (cat : Cat K) (hc : cat.IsA k) (raw : Raw K) (e : Entry) (j : ℕ) (a : K)
    (ha : (((lit (convLines k)).get? e.key).map (factor cat.h)).getD 1 = a) :
    value cat raw e j = (rawValue raw e j).map (Cell.times a) := by
  have hconv : converted cat raw e.key
      = (raw.fields.get? e.key).map (fun c => c.mapNum (fun x => x * a)) := by
    unfold converted
    rw [hc.transform, transformOf, get?_map_snd (fun c => Conv.fn c)]
    rcases hl : (lit (convLines k)).get? e.key with _ | c
    · rw [hl] at ha
      simp only [Option.map_none, Option.getD_none] at ha
      subst ha
      congr 1
      funext x
      cases x <;> simp [Col.mapNum]
    · rw [hl] at ha
      simp only [Option.map_some, Option.getD_some] at ha
      subst ha
      congr 1
      funext x
      simp only [Option.map_some, Conv.fn]
      congr 1
      funext y
      exact on_eq c y cat.h
  unfold value rawValue
  rw [hconv]
  rcases raw.fields.get? e.key with _ | c
  · rfl
  · simp only [Option.map_some]
    by_cases hw : e.width > 1
    · rw [if_pos hw, if_pos hw, row_mapNum]
      rcases row c j with _ | (x | l)
      · rfl
      · rfl
      · simp only [Option.map_some, Cell.times, List.getElem?_map]
        cases l[e.column]? <;> rfl
    · rw [if_neg hw, if_neg hw, row_mapNum]

theorem value_documented (k : Kind) (cat : Cat K) (hc : cat.IsA k) (raw : Raw K) (e : Entry) (j : ℕ)
    (hk : e.key ≠ "SubhaloBHMdot") : value cat raw e j = documentedValue k cat.h raw e j := by
  unfold documentedValue
  apply value_last k cat hc raw e j
  rw [lit_get?]
  unfold factorOf
  rcases hl : (convLines k).filter (fun p => decide (p.1 = e.key)) with _ | ⟨p, l⟩
  · rw [hl]; rfl
  · have hp : p ∈ (convLines k).filter (fun p => decide (p.1 = e.key)) := by rw [hl]; simp
    rw [List.mem_filter] at hp
    have hpk : p.1 = e.key := by simpa using hp.2
    have := conv_once k p hp.1 (by rw [hpk]; exact hk)
    rw [hpk, hl] at this
    rw [hl, this]
    simp

/-! ## C48 -/

variable [LinearOrder K]

/-- The properties whose line is not followed: `sfr_hr`, whose line is replaced by a later one for the
same raw field, and `bhmdot`, one of whose two conversions is replaced by the other. -/
def Spec.Overridden (e : Entry) : Prop :=
  e.sub.name = "sfr_hr" ∨ e.key = "SubhaloBHMdot"

/-- C48 in full: after any sequence of completed calls of `format` for a simulation (none of them
limited to the basic properties), every documented property is in every formatted snapshot, with its
units and the documented value of every halo, all in one order; and different properties are different
columns of the raw data. -/
def C48_full : Prop :=
  ∀ (k : Kind) (d0 d : Disk ℚ) (hs : List (Run ℚ × Disk ℚ)), d0.file = none → History d0 hs d →
    (∀ r ∈ hs, r.1.cat.IsA k ∧ r.1.opts.basicOnly = false) →
    (∀ i g, groupOf d i = some g → ∃ (s : Run ℚ × Disk ℚ) (raw : Raw ℚ) (p : List ℕ), LastToFormat hs s i ∧ s.2.raw.get? i = some raw ∧
      p.Perm (List.range raw.n) ∧ ∀ e, Documented k e → ∃ D, g.data.get? e.sub.name = some D ∧
        D.units = some e.sub.units ∧ D.hdep = some e.sub.hdep ∧ size D.data = raw.n ∧
        ∀ (m j : ℕ), p[m]? = some j →
          ∃ v, row D.data m = some v ∧ documentedValue k s.1.cat.h raw e j = some v) ∧
    (∀ e e', Documented k e → Documented k e' → e.key = e'.key → e.column = e'.column →
      e.sub.name = e'.sub.name)

/-- C48 for all properties but `sfr_hr` and `bhmdot` of Illustris and TNG. -/
theorem C48_documented_partial (k : Kind) (d0 d : Disk K) (hs : List (Run K × Disk K))
    (h0 : d0.file = none) (h : History d0 hs d)
    (hr : ∀ r ∈ hs, r.1.cat.IsA k ∧ r.1.opts.basicOnly = false) (i : ℕ) (g : Group K)
    (hg : groupOf d i = some g) :
    ∃ (s : Run K × Disk K) (raw : Raw K) (p : List ℕ), LastToFormat hs s i ∧ s.2.raw.get? i = some raw ∧
      p.Perm (List.range raw.n) ∧ ∀ e, Documented k e → ¬ Overridden e →
        ∃ D, g.data.get? e.sub.name = some D ∧
        D.units = some e.sub.units ∧ D.hdep = some e.sub.hdep ∧ size D.data = raw.n ∧
        ∀ (m j : ℕ), p[m]? = some j →
          ∃ v, row D.data m = some v ∧ documentedValue k s.1.cat.h raw e j = some v := by
  obtain ⟨s, hl, other, raw, hu, hraw, hC⟩ := (C14_history d0 h0 hs d h i).2 g hg
  have hs' : s ∈ hs := by obtain ⟨pre, post, he, -⟩ := hl; rw [he]; simp
  have hk := (hr s hs').1
  have hf := history_fields _ _ _ (shipped_tables k) d0 d h0 hs h
    (fun r hr' => ⟨(hr r hr').1.basic, (hr r hr').1.dm, (hr r hr').1.matter⟩)
    (fun r hr' => (hr r hr').2) s i hl other hu
  obtain ⟨p, hp, hp'⟩ := hC.rows
  refine ⟨s, raw, p, hl, hraw, hp, ?_⟩
  intro e he hov
  have hst : Stored s.1.cat.basic other e := by
    rw [hk.basic]
    refine (stored_congr hf e).2 (documented_stored k e he ?_)
    intro subs hm hcol x hx hname
    have := sfr_alone k _ hm ⟨x, hx, hname⟩
    simp only at this
    rw [this] at hcol
    apply hov
    left
    have := List.mem_of_getElem? hcol
    simp only [List.mem_singleton] at this
    rw [this]
  obtain ⟨D, a1, a2, a3, a4, a5⟩ := hp' e hst
  refine ⟨D, a1, a2, a3, a4, ?_⟩
  intro m j hm
  obtain ⟨v, b1, b2⟩ := a5 m j hm
  refine ⟨v, b1, ?_⟩
  rw [← value_documented k s.1.cat hk raw e j (fun hc => hov (Or.inr hc))]
  exact b2

/-- The names of the stored properties of a table. -/
theorem sfr_not_stored (k : Kind) :
    "sfr_hr" ∉ namesOf false (lit (basicLines k)) ∧
    "sfr_hr" ∉ namesOf true (lit (dmLines k) ++ lit (matterLines k)) := by
  cases k <;> decide +kernel

/-- No formatted snapshot of any simulation has the star formation rate within the stellar half mass
radius, although there is a line for it in the table of Illustris and TNG. -/
theorem C48_sfr_hr_missing (k : Kind) (d0 d : Disk K) (hs : List (Run K × Disk K))
    (h0 : d0.file = none) (h : History d0 hs d) (hr : ∀ r ∈ hs, r.1.cat.IsA k)
    (i : ℕ) (g : Group K) (hg : groupOf d i = some g) : g.data.get? "sfr_hr" = none := by
  obtain ⟨all, -, H⟩ := history_holds _ _ _ (shipped_tables k) d0 d h0 hs h
    (fun r hr' => ⟨(hr r hr').basic, (hr r hr').dm, (hr r hr').matter⟩)
  by_contra hc
  have hmem : "sfr_hr" ∈ g.data.keys := (PyDict.mem_keys_iff _ _).2 (Option.isSome_iff_ne_none.2 hc)
  obtain ⟨e, he, hn⟩ := (H i g hg).2 _ hmem
  obtain ⟨n1, n2⟩ := sfr_not_stored k
  rcases stored_name_mem he with h1 | h1
  · exact n1 (hn ▸ h1)
  · cases all
    · simp [namesOf] at h1
    · exact n2 (hn ▸ h1)

/-- The accretion rates of black holes: stored as the raw value times 0.978, without the
factor `10^10` that the table lists for the same field. -/
theorem C48_bhmdot (k : Kind) (hk : k = .illustris ∨ k = .tng) (d0 d : Disk K)
    (hs : List (Run K × Disk K)) (h0 : d0.file = none) (h : History d0 hs d)
    (hr : ∀ r ∈ hs, r.1.cat.IsA k ∧ r.1.opts.basicOnly = false) (i : ℕ) (g : Group K)
    (hg : groupOf d i = some g) :
    ∃ (s : Run K × Disk K) (raw : Raw K) (p : List ℕ) (D : Data K), LastToFormat hs s i ∧ s.2.raw.get? i = some raw ∧ p.Perm (List.range raw.n) ∧
      g.data.get? "bhmdot" = some D ∧ D.units = some "Msun/h / (Gyr/h)" ∧
      ∀ (m j : ℕ), p[m]? = some j → ∃ c x, raw.fields.get? "SubhaloBHMdot" = some c ∧
        row c j = some x ∧ row D.data m = some (Cell.times (978 / 1000) x) := by
  obtain ⟨s, hl, other, raw, hu, hraw, hC⟩ := (C14_history d0 h0 hs d h i).2 g hg
  have hs' : s ∈ hs := by obtain ⟨pre, post, he, -⟩ := hl; rw [he]; simp
  have hk' := (hr s hs').1
  have hf := history_fields _ _ _ (shipped_tables k) d0 d h0 hs h
    (fun r hr' => ⟨(hr r hr').1.basic, (hr r hr').1.dm, (hr r hr').1.matter⟩)
    (fun r hr' => (hr r hr').2) s i hl other hu
  obtain ⟨p, hp, hp'⟩ := hC.rows
  have hd : Stored (lit (basicLines k)) (lit (dmLines k) ++ lit (matterLines k))
      ⟨"SubhaloBHMdot", 1, 0, ⟨"bhmdot", "Msun/h / (Gyr/h)", 0⟩⟩ := by
    right
    refine ⟨⟨[⟨"bhmdot", "Msun/h / (Gyr/h)", 0⟩], ?_, rfl, rfl⟩, by simp⟩
    rcases hk with rfl | rfl <;> decide +kernel
  have hst := hd
  rw [← hk'.basic] at hst
  obtain ⟨D, a1, a2, a3, a4, a5⟩ := hp' _ ((stored_congr hf _).2 hst)
  refine ⟨s, raw, p, D, hl, hraw, hp, a1, a2, ?_⟩
  intro m j hm
  obtain ⟨v, b1, b2⟩ := a5 m j hm
  have hfac : (((lit (convLines k)).get? "SubhaloBHMdot").map (factor s.1.cat.h)).getD 1
      = (978 / 1000 : K) := by
    rw [lit_get?]
    have : ((convLines k).filter (fun p => decide (p.1 = "SubhaloBHMdot"))).getLast?
        = some ("SubhaloBHMdot", .bhMassUnit) := by
      rcases hk with rfl | rfl <;> decide +kernel
    rw [this]; rfl
  rw [value_last k s.1.cat hk' raw _ j _ hfac] at b2
  simp only [rawValue] at b2
  rcases hc : raw.fields.get? "SubhaloBHMdot" with _ | c
  · rw [hc] at b2; simp at b2
  · rw [hc] at b2
    simp only [gt_iff_lt, Nat.lt_irrefl, if_false] at b2
    rcases hx : row c j with _ | x
    · rw [hx] at b2; simp at b2
    · rw [hx] at b2
      simp only [Option.map_some, Option.some.injEq] at b2
      exact ⟨c, x, rfl, hx, by rw [b1, b2]⟩

/-- Halo radii of UniverseMachine: labelled `kpc/h` but divided by 1000, that is, in Mpc/h. -/
theorem C48_radius_label (k : Kind) (hk : k = .umBolshoi ∨ k = .umTest ∨ k = .umBinary)
    (d0 d : Disk K) (hs : List (Run K × Disk K)) (h0 : d0.file = none) (h : History d0 hs d)
    (hr : ∀ r ∈ hs, r.1.cat.IsA k ∧ r.1.opts.basicOnly = false) (i : ℕ) (g : Group K)
    (hg : groupOf d i = some g) :
    ∃ (s : Run K × Disk K) (raw : Raw K) (p : List ℕ) (D : Data K), LastToFormat hs s i ∧ s.2.raw.get? i = some raw ∧ p.Perm (List.range raw.n) ∧
      g.data.get? "r" = some D ∧ D.units = some "kpc/h" ∧
      ∀ (m j : ℕ), p[m]? = some j → ∃ c x, raw.fields.get? "r" = some c ∧
        row c j = some x ∧ row D.data m = some (Cell.times (1 / 1000) x) := by
  obtain ⟨s, raw, p, hl, hraw, hp, H⟩ := C48_documented_partial k d0 d hs h0 h hr i g hg
  obtain ⟨D, a1, a2, a3, a4, a5⟩ := H ⟨"r", 1, 0, ⟨"r", "kpc/h", -1⟩⟩ (by
    right
    refine ⟨⟨[⟨"r", "kpc/h", -1⟩], ?_, rfl, rfl⟩, by simp⟩
    rcases hk with rfl | rfl | rfl <;> decide +kernel) (by
    rintro (h | h) <;> exact absurd h (by decide))
  refine ⟨s, raw, p, D, hl, hraw, hp, a1, a2, ?_⟩
  intro m j hm
  obtain ⟨v, b1, b2⟩ := a5 m j hm
  have hfac : factorOf k s.1.cat.h "r" = (1 / 1000 : K) := by
    unfold factorOf
    have : (convLines k).filter (fun p => decide (p.1 = "r")) = [("r", .kpcToMpc)] := by
      rcases hk with rfl | rfl | rfl <;> decide +kernel
    rw [this]; simp [factor]
  simp only [documentedValue, hfac, rawValue] at b2
  rcases hc : raw.fields.get? "r" with _ | c
  · rw [hc] at b2; simp at b2
  · rw [hc] at b2
    simp only [gt_iff_lt, Nat.lt_irrefl, if_false] at b2
    rcases hx : row c j with _ | x
    · rw [hx] at b2; simp at b2
    · rw [hx] at b2
      simp only [Option.map_some, Option.some.injEq] at b2
      exact ⟨c, x, rfl, hx, by rw [b1, b2]⟩

/-- The conversions listed for a field are those the label calls for, for every line of the tables. -/
theorem illustris_convs (k : Kind)
    (hk : k = .illustris ∨ k = .illustrisDark ∨ k = .tng ∨ k = .tngDark) :
    ∀ l ∈ basicLines k ++ (dmLines k ++ matterLines k), ∀ s ∈ l.2,
      s.units ≠ "Msun/h / (Gyr/h)" →
      ((convLines k).filter (fun p => decide (p.1 = l.1))).map (·.2) =
        (if s.units = "Msun/h" then [.power10]
         else if s.units = "Mpc/h" ∨ s.units = "Mpc/h km/s" then [.kpcToMpc] else []) := by
  rcases hk with rfl | rfl | rfl | rfl <;> decide +kernel

/-- In the Illustris and TNG simulations every documented property but the accretion rate is
converted from the units of the raw data to those of its label. -/
theorem C48_labels_partial (k : Kind)
    (hk : k = .illustris ∨ k = .illustrisDark ∨ k = .tng ∨ k = .tngDark) (h : K) (e : Entry)
    (he : Documented k e) (hb : e.sub.units ≠ "Msun/h / (Gyr/h)") :
    factorOf k h e.key = toLabel e.sub.units := by
  have hline : ∃ l ∈ basicLines k ++ (dmLines k ++ matterLines k), l.1 = e.key ∧ e.sub ∈ l.2 := by
    rcases he with ⟨subs, hm, -, hc⟩ | ⟨⟨subs, hm, -, hc⟩, -⟩
    · exact ⟨_, List.mem_append_left _ hm, rfl, List.mem_of_getElem? hc⟩
    · exact ⟨_, List.mem_append_right _ hm, rfl, List.mem_of_getElem? hc⟩
  obtain ⟨l, hl, hkey, hs⟩ := hline
  have hc := illustris_convs k hk l hl e.sub hs hb
  rw [hkey] at hc
  unfold factorOf
  have : ((convLines k).filter (fun p => decide (p.1 = e.key))).map (fun p => factor h p.2)
      = (((convLines k).filter (fun p => decide (p.1 = e.key))).map (·.2)).map (factor h) := by
    rw [List.map_map]; rfl
  rw [this, hc]
  by_cases h1 : e.sub.units = "Msun/h"
  · rw [h1]; simp [factor, toLabel]
  · by_cases h2 : e.sub.units = "Mpc/h"
    · rw [h2]; simp [factor, toLabel]
    · by_cases h3 : e.sub.units = "Mpc/h km/s"
      · rw [h3]; simp [factor, toLabel]
      · rw [if_neg h1, if_neg (by tauto)]
        unfold toLabel
        split <;> simp_all

/-- The gas mass in a stellar half mass radius is one of these properties. -/
example : factorOf .tng (7 / 10 : ℚ) "SubhaloMassInHalfRadType" = 10 ^ 10 :=
  C48_labels_partial .tng (by simp) _
    ⟨"SubhaloMassInHalfRadType", 6, 0, ⟨"m_gas_hr", "Msun/h", (-1)⟩⟩
    (Or.inr ⟨⟨_, by
      rw [show dmLines .tng ++ matterLines .tng = illDm ++ (illMatter ++ tngMatter) from rfl]
      exact List.mem_append_right _ (List.mem_append_left _ (by
        unfold illMatter; repeat (first | exact List.mem_cons_self | apply List.mem_cons_of_mem))),
      rfl, rfl⟩, by decide⟩) (by decide)

theorem powers_listed (k : Kind) : ∀ l ∈ basicLines k ++ (dmLines k ++ matterLines k), ∀ s ∈ l.2,
    s.hdep = powerInLabel s.units := by
  cases k <;> decide +kernel

/-- In every simulation the power of `h` stored for a property is the one in its label. -/
theorem C48_powers (k : Kind) (e : Entry) (he : Documented k e) :
    e.sub.hdep = powerInLabel e.sub.units := by
  rcases he with ⟨subs, hm, -, hc⟩ | ⟨⟨subs, hm, -, hc⟩, -⟩
  · exact powers_listed k _ (List.mem_append_left _ hm) _ (List.mem_of_getElem? hc)
  · exact powers_listed k _ (List.mem_append_right _ hm) _ (List.mem_of_getElem? hc)

theorem um_convs (k : Kind) (hk : k = .umBolshoi ∨ k = .umTest ∨ k = .umBinary ∨ k = .uchuu) :
    ∀ l ∈ basicLines k ++ (dmLines k ++ matterLines k), l.1 ≠ "r" →
      ((convLines k).filter (fun p => decide (p.1 = l.1))).map (·.2) =
        (if inSolarMasses k l.1 = true then [.applyH] else []) ∧
      (inSolarMasses k l.1 = true → ∀ s ∈ l.2, s.units = "Msun/h") := by
  rcases hk with rfl | rfl | rfl | rfl <;> decide +kernel

/-- In UniverseMachine and Uchuu exactly the masses that are in `Msun` are multiplied by `h`, and
these are labelled `Msun/h`; all other numbers but the radii (`C48_radius_label`) stay as they are. -/
theorem C48_masses (k : Kind) (hk : k = .umBolshoi ∨ k = .umTest ∨ k = .umBinary ∨ k = .uchuu) (h : K)
    (e : Entry) (he : Documented k e) (hr : e.key ≠ "r") :
    factorOf k h e.key = (if inSolarMasses k e.key then h else 1) ∧
      (inSolarMasses k e.key = true → e.sub.units = "Msun/h") := by
  have hline : ∃ l ∈ basicLines k ++ (dmLines k ++ matterLines k), l.1 = e.key ∧ e.sub ∈ l.2 := by
    rcases he with ⟨subs, hm, -, hc⟩ | ⟨⟨subs, hm, -, hc⟩, -⟩
    · exact ⟨_, List.mem_append_left _ hm, rfl, List.mem_of_getElem? hc⟩
    · exact ⟨_, List.mem_append_right _ hm, rfl, List.mem_of_getElem? hc⟩
  obtain ⟨l, hl, hkey, hs⟩ := hline
  obtain ⟨hc, hu⟩ := um_convs k hk l hl (by rw [hkey]; exact hr)
  rw [hkey] at hc hu
  refine ⟨?_, fun hm => hu hm _ hs⟩
  unfold factorOf
  have : ((convLines k).filter (fun p => decide (p.1 = e.key))).map (fun p => factor h p.2)
      = (((convLines k).filter (fun p => decide (p.1 = e.key))).map (·.2)).map (factor h) := by
    rw [List.map_map]; rfl
  rw [this, hc]
  by_cases h1 : inSolarMasses k e.key = true
  · simp [h1, factor]
  · simp [h1]

/-- Both speak of properties of every simulation. -/
example : Documented .uchuu ⟨"Mvir", 1, 0, ⟨"mass", "Msun/h", -1⟩⟩ ∧
    Documented .umBinary ⟨"sm", 1, 0, ⟨"m_stars", "Msun/h", -1⟩⟩ ∧
    inSolarMasses .umBinary "sm" = true ∧ inSolarMasses .uchuu "Mvir" = false :=
  ⟨.inl ⟨[⟨"mass", "Msun/h", -1⟩], by decide +kernel, rfl, rfl⟩,
    .inr ⟨⟨[⟨"m_stars", "Msun/h", -1⟩], by decide +kernel, rfl, rfl⟩, by decide +kernel⟩,
    by decide +kernel, by decide +kernel⟩

/-- Apart from `sfr_hr` and `sfr_2hr`, different properties are different columns of the raw data. -/
theorem C48_distinct_partial (k : Kind) (e e' : Entry) (h : Documented k e) (h' : Documented k e')
    (hk : e.key = e'.key) (hc : e.column = e'.column) (ho : ¬ Overridden e) (ho' : ¬ Overridden e') :
    e.sub.name = e'.sub.name := by
  have hno : ∀ e : Entry, ¬ Overridden e → ∀ subs, (e.key, subs) ∈ dmLines k ++ matterLines k →
      subs[e.column]? = some e.sub → ∀ s ∈ subs, s.name ≠ "sfr_hr" := by
    intro e ho subs hm hcol x hx hname
    have := sfr_alone k _ hm ⟨x, hx, hname⟩
    simp only at this
    rw [this] at hcol
    apply ho
    left
    have := List.mem_of_getElem? hcol
    simp only [List.mem_singleton] at this
    rw [this]
  have hst := documented_stored k e h (hno e ho)
  have hst' := documented_stored k e' h' (hno e' ho')
  have hall : ((lit (basicLines k)).keys ++ (lit (dmLines k)).keys ++ (lit (matterLines k)).keys).Nodup := by
    cases k <;> decide +kernel
  have hmem : ∀ e, Stored (lit (basicLines k)) (lit (dmLines k) ++ lit (matterLines k)) e →
      ∃ subs, (e.key, subs) ∈ lit (basicLines k) ++ lit (dmLines k) ++ lit (matterLines k) ∧
        subs[e.column]? = some e.sub := by
    rintro e (⟨subs, h1, -, h3⟩ | ⟨⟨subs, h1, -, h3⟩, -⟩)
    · exact ⟨subs, by simp [h1], h3⟩
    · refine ⟨subs, ?_, h3⟩
      rw [List.append_assoc]
      exact List.mem_append_right _ h1
  obtain ⟨subs, a1, a2⟩ := hmem e hst
  obtain ⟨subs', b1, b2⟩ := hmem e' hst'
  have huniq : ∀ (l : List (Name × List Sub)), (l.map (·.1)).Nodup → ∀ a b b', (a, b) ∈ l →
      (a, b') ∈ l → b = b' := by
    intro l hl a b b' hb hb'
    have := List.inj_on_of_nodup_map hl hb hb' rfl
    simpa using this
  have hE := huniq _ (by simpa [PyDict.keys] using hall) _ _ _ a1 (by rw [hk]; exact b1)
  rw [hE, hc, b2] at a2
  simp only [Option.some.injEq] at a2
  rw [a2]

/-- C85: all fields of the tables of Uchuu are in the data files 1 to 3, those that are downloaded. -/
theorem C85_table (f : Name) (hf : f ∈ (lit (basicLines .uchuu)).keys ++ (lit (dmLines .uchuu)).keys ++
    (lit (matterLines .uchuu)).keys) : ∃ n ∈ [1, 2, 3], uchuuIndex.get? f = some n := by
  have : ∀ f ∈ (lit (basicLines .uchuu)).keys ++ (lit (dmLines .uchuu)).keys ++
    (lit (matterLines .uchuu)).keys, ∃ n ∈ [1, 2, 3], uchuuIndex.get? f = some n := by decide +kernel
  exact this f hf

/-! ## Concrete cases -/

/-- Raw data with two halos for given lines. -/
def rawFor (lines : List (Name × List Sub)) : Raw ℚ where
  fields := lit (lines.map (fun f => (f.1,
    if f.2.length > 1 then Col.many [f.2.map (fun _ => (1 : ℚ)), f.2.map (fun _ => (2 : ℚ))]
    else Col.one [1, 2])))
  n := 2

/-- A catalogue of one snapshot of a simulation. -/
def catFor (k : Kind) : Cat ℚ where
  snaps := [0]
  metas := [demoMeta 0 1]
  numberSnaps := 1
  basic := lit (basicLines k)
  dm := lit (dmLines k)
  matter := lit (matterLines k)
  transform := transformOf k
  h := 7 / 10
  cuts := [30, 20, 10]
  argsort := demoArgsort

theorem catFor_isA (k : Kind) : (catFor k).IsA k := ⟨rfl, rfl, rfl, rfl⟩

theorem catFor_sound (k : Kind) : Sound (catFor k) := by
  refine ⟨by simp [catFor], ?_, ?_, demoArgsort_ok⟩
  · simp [catFor, demoMeta]
  · intro j hj
    simp only [catFor, List.mem_singleton] at hj
    subst hj
    simp [catFor, demoMeta]

/-- A disk with the raw data of one snapshot. -/
def diskFor (k : Kind) : Disk ℚ :=
  { file := none, raw := [(0, rawFor (basicLines k ++ dmLines k ++ matterLines k))] }

/-- The effects of formatting it. -/
def runFor (k : Kind) : List (Eff ℚ) := ((format (catFor k) {} [] (diskFor k)).map (·.1)).getD []

theorem runFor_ended (k : Kind) : ended (format (catFor k) {} [] (diskFor k)) = true := by
  cases k <;> decide +kernel

/-- The snapshot of every simulation can be formatted. -/
theorem historyFor (k : Kind) :
    History (diskFor k) [(⟨catFor k, {}, []⟩, diskFor k)] (applyAll (diskFor k) (runFor k)) :=
  History.run (History.nil (diskFor k)) ⟨catFor k, {}, []⟩ _ (catFor_sound k)
    (by intro h; cases h) (ended_spec _ (runFor_ended k))

theorem groupFor (k : Kind) : (groupOf (applyAll (diskFor k) (runFor k)) 0).isSome = true := by
  cases k <;> decide +kernel

/-- Two of the formatted values: masses in `Msun/h`, accretion rates without the factor `10^10`. -/
example : (groupOf (applyAll (diskFor .illustris) (runFor .illustris)) 0).map (fun g =>
    (g.data.get? "mass", g.data.get? "bhmdot", g.data.get? "sfr_hr"))
    = some (some ⟨.one [2 * 10 ^ 10, 10 ^ 10], some "Msun/h", some (-1)⟩,
        some ⟨.one [1956 / 1000, 978 / 1000], some "Msun/h / (Gyr/h)", some 0⟩, none) := by
  decide +kernel

theorem C48_full_false : ¬ C48_full := by
  intro H
  obtain ⟨g, hg⟩ := Option.isSome_iff_exists.1 (groupFor .illustris)
  have hr : ∀ r ∈ [((⟨catFor .illustris, {}, []⟩ : Run ℚ), diskFor .illustris)],
      r.1.cat.IsA .illustris ∧ r.1.opts.basicOnly = false := by
    intro r hr
    simp only [List.mem_singleton] at hr
    subst hr
    exact ⟨catFor_isA _, rfl⟩
  obtain ⟨s, raw, p, -, -, -, h⟩ := (H .illustris _ _ _ rfl (historyFor .illustris) hr).1 0 g hg
  obtain ⟨D, hD, -⟩ := h ⟨"SubhaloSFRinHalfRad", 1, 0, ⟨"sfr_hr", "Msun/yr", 0⟩⟩ (by
    right
    refine ⟨⟨[⟨"sfr_hr", "Msun/yr", 0⟩], ?_, rfl, rfl⟩, by simp⟩
    decide +kernel)
  have := C48_sfr_hr_missing .illustris _ _ _ rfl (historyFor .illustris) (fun r hr' => (hr r hr').1) 0 g hg
  simp only at hD
  rw [this] at hD
  cases hD

end Verif.Format
