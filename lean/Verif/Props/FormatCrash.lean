import Verif.Lemmas.FormatCrash
import Verif.Lemmas.FormatTotal
import Verif.Props.FormatRead
import Mathlib.Tactic.NormNum

set_option linter.unusedSectionVars false

/-!
# C129: what can be read of a file left by interrupted calls
-/

namespace Verif.Format

open Verif.Sim (Err SnapMeta)
open Verif.Format.Spec
open Verif.Handler (Dataset V State init returnProperty run)
open Verif.Handler.Spec (WF Reachable)
open Verif.SimAll (Sim getSnap snapInit)

section
variable {K : Type}

/-! ## Reading a group -/

theorem readCol_some (c : Col K) (v : List (V K)) (h : readCol c = some v) :
    v.length = size c ∧ ∀ (k : ℕ) w, row c k = some w → ∃ x, w = .num x ∧ v[k]? = some (some x) := by
  cases c with
  | one l =>
    simp only [readCol, Option.some.injEq] at h
    subst h
    refine ⟨by simp [size], ?_⟩
    intro k w hw
    simp only [row, Option.map_eq_some_iff] at hw
    obtain ⟨x, hx, rfl⟩ := hw
    exact ⟨x, rfl, by simp [hx]⟩
  | many rows =>
    cases rows with
    | nil =>
      simp only [readCol, Option.some.injEq] at h
      subst h
      refine ⟨by simp [size], ?_⟩
      intro k w hw
      simp [row] at hw
    | cons r rows => cases h

theorem readAttrs_inv {α : Type} (attr : Dataset K → Option α) (l : PyDict Handler.Name (Dataset K))
    (out : PyDict Handler.Name α) (h : Handler.readAttrs attr l = .ok out) :
    ∀ q ∈ l, (attr q.2).isSome := by
  induction l generalizing out with
  | nil => intro q hq; cases hq
  | cons q l ih =>
    obtain ⟨p, d⟩ := q
    unfold Handler.readAttrs at h
    cases ha : attr d with
    | none => rw [ha] at h; cases h
    | some a =>
      rw [ha] at h
      simp only at h
      cases hr : Handler.readAttrs attr l with
      | error e => rw [hr] at h; cases h
      | ok o =>
        intro x hx
        rcases List.mem_cons.1 hx with rfl | hx
        · simp [ha]
        · exact ih o hr x hx

end

variable {K : Type} [Field K] [LinearOrder K]

/-- What a handler reads from a group. -/
theorem group_read_part (cat : Cat K) (other : Fields) (raw : Raw K) (g : Group K) (p : List ℕ)
    (hc : PartOf cat other raw g p) (hnd : g.data.keys.Nodup)
    (G : PyDict Handler.Name (Dataset K)) (hG : readGroup g = some G) :
    G.keys = g.data.keys ∧ (∀ name, name ∈ G.keys → name ≠ "mass_cuts") ∧
    (∀ name d, G.get? name = some d → ∃ D, g.data.get? name = some D ∧ d.units = D.units ∧
      d.hdep = D.hdep ∧ d.vals.length = raw.n ∧ ∃ e, Stored cat.basic other e ∧ e.sub.name = name ∧
        (D.hdep = none ∨ D.hdep = some e.sub.hdep) ∧
        ∀ k r : ℕ, p[k]? = some r → ∃ x, value cat raw e r = some (.num x) ∧ d.vals[k]? = some (some x)) := by
  obtain ⟨hk, hget⟩ := readAll_get readData g.data G hG
  refine ⟨hk, ?_, ?_⟩
  · intro name hn
    rw [hk, PyDict.mem_keys_iff] at hn
    obtain ⟨D, hD⟩ := Option.isSome_iff_exists.1 hn
    exact (hc.data name D hD).1
  · intro name d hd
    rw [hget] at hd
    cases hD : g.data.get? name with
    | none => rw [hD] at hd; cases hd
    | some D =>
      rw [hD] at hd
      simp only [Option.bind_some, readData, Option.map_eq_some_iff] at hd
      obtain ⟨v, hv, rfl⟩ := hd
      obtain ⟨r1, r2⟩ := readCol_some D.data v hv
      obtain ⟨-, e, he, en, -, eh, es, ev⟩ := hc.data name D hD
      refine ⟨D, rfl, rfl, rfl, by rw [r1, es], e, he, en, eh, ?_⟩
      intro k r hkr
      obtain ⟨w, w1, w2⟩ := ev k r hkr
      obtain ⟨x, rfl, hx⟩ := r2 k w w1
      exact ⟨x, w2, hx⟩

/-- When a group can be opened. -/
theorem part_wf (cat : Cat K) (other : Fields) (raw : Raw K) (g : Group K) (p : List ℕ)
    (hc : PartOf cat other raw g p) (hnd : g.data.keys.Nodup)
    (G : PyDict Handler.Name (Dataset K)) (hG : readGroup g = some G) (z h box : K) (inH : Bool) :
    ((∃ st, snapInit G z h box inH = .ok st) ↔
      "mass" ∈ g.data.keys ∧ ∀ q ∈ g.data, Marked q.2) ∧
    ("mass" ∈ g.data.keys → (∀ q ∈ g.data, Marked q.2) → WF G raw.n) := by
  obtain ⟨hk, hne, hd⟩ := group_read_part cat other raw g p hc hnd G hG
  have hnd' : G.keys.Nodup := by rw [hk]; exact hnd
  have hwf : "mass" ∈ g.data.keys → (∀ q ∈ g.data, Marked q.2) → WF G raw.n := by
    intro hm hq
    refine ⟨hnd', ?_, ?_, ?_, ?_⟩
    · rw [← hk, PyDict.mem_keys_iff] at hm
      obtain ⟨m, hm⟩ := Option.isSome_iff_exists.1 hm
      obtain ⟨-, -, -, -, h4, -⟩ := hd "mass" m hm
      exact ⟨m, hm, h4⟩
    · intro q d hqd _
      obtain ⟨-, -, -, -, h4, -⟩ := hd q d hqd
      exact h4
    · intro q d hqd _
      obtain ⟨D, h1, h2, -⟩ := hd q d (dict_of_mem _ hnd' _ _ hqd)
      rw [h2, Option.isSome_iff_ne_none]
      exact (hq _ (dict_mem _ _ _ h1)).1
    · intro q d hqd _
      obtain ⟨D, h1, -, h3, -⟩ := hd q d (dict_of_mem _ hnd' _ _ hqd)
      rw [h3, Option.isSome_iff_ne_none]
      exact (hq _ (dict_mem _ _ _ h1)).2
  refine ⟨⟨?_, ?_⟩, hwf⟩
  · rintro ⟨st, hst⟩
    unfold snapInit at hst
    cases hi : init G h inH with
    | error e => rw [hi] at hst; cases hst
    | ok s =>
      have hfil : ∀ q ∈ G, q ∈ G.filter (fun p => decide (p.1 ≠ "mass_cuts")) := by
        intro q hq
        rw [List.mem_filter]
        exact ⟨hq, by simpa using hne q.1 (List.mem_map_of_mem (f := Prod.fst) hq)⟩
      unfold init at hi
      simp only at hi
      cases hu : Handler.readAttrs Dataset.units (G.filter (fun p => decide (p.1 ≠ "mass_cuts"))) with
      | error e => rw [hu] at hi; cases hi
      | ok us =>
        rw [hu] at hi
        simp only at hi
        cases hh : Handler.readAttrs Dataset.hdep (G.filter (fun p => decide (p.1 ≠ "mass_cuts"))) with
        | error e => rw [hh] at hi; cases hi
        | ok hs =>
          rw [hh] at hi
          simp only at hi
          cases hm : G.get? "mass" with
          | none => rw [hm] at hi; cases hi
          | some m =>
            refine ⟨by rw [← hk, PyDict.mem_keys_iff, hm]; rfl, ?_⟩
            rintro ⟨name, D⟩ hq
            have hD := dict_of_mem _ hnd _ _ hq
            have hkey : name ∈ G.keys := by rw [hk, PyDict.mem_keys_iff, hD]; rfl
            obtain ⟨d, hgd⟩ := Option.isSome_iff_exists.1 ((PyDict.mem_keys_iff _ _).1 hkey)
            obtain ⟨D', e1, e2, e3, -⟩ := hd name d hgd
            rw [hD] at e1; cases e1
            have a1 := readAttrs_inv _ _ _ hu _ (hfil _ (dict_mem _ _ _ hgd))
            have a2 := readAttrs_inv _ _ _ hh _ (hfil _ (dict_mem _ _ _ hgd))
            simp only [e2] at a1
            simp only [e3] at a2
            exact ⟨Option.isSome_iff_ne_none.1 a1, Option.isSome_iff_ne_none.1 a2⟩
  · rintro ⟨hm, hq⟩
    obtain ⟨s0, hs0, -, -, -, hin, -⟩ := Handler.init_ok G raw.n (hwf hm hq) h inH
    unfold snapInit
    simp only [hs0, SimAll.snapSetInH]
    subst hin
    exact ⟨_, rfl⟩

theorem snapInit_part (cat : Cat K) (other : Fields) (raw : Raw K) (g : Group K) (p : List ℕ)
    (hc : PartOf cat other raw g p) (hnd : g.data.keys.Nodup)
    (G : PyDict Handler.Name (Dataset K)) (hG : readGroup g = some G) (z h box : K) (inH : Bool)
    (st : State K) (hst : snapInit G z h box inH = .ok st) :
    Reachable st ∧ ShowsPart cat other raw h p st ∧ ∀ name, name ∈ st.all ↔ name ∈ g.data.keys := by
  obtain ⟨hk, hne, hval⟩ := group_read_part cat other raw g p hc hnd G hG
  obtain ⟨hiff, hwf⟩ := part_wf cat other raw g p hc hnd G hG z h box inH
  obtain ⟨hm, hq⟩ := hiff.1 ⟨st, hst⟩
  have hwf := hwf hm hq
  obtain ⟨s0, hs0, hf, hn, hh, hin, -, -, ha, -, hall, -⟩ := Handler.init_ok G raw.n hwf h inH
  have hst' : ∃ ex, snapInit G z h box inH = .ok { s0 with extra := ex } := by
    unfold snapInit
    simp only [hs0, SimAll.snapSetInH]
    subst hin
    exact ⟨_, rfl⟩
  obtain ⟨ex, hst'⟩ := hst'
  rw [hst'] at hst
  simp only [Except.ok.injEq] at hst
  subst hst
  have hall' : ∀ name, name ∈ s0.all ↔ name ∈ g.data.keys := by
    intro name
    rw [hall name, ← hk, PyDict.mem_keys_iff]
    refine ⟨fun h => h.2, fun h => ⟨hne name ((PyDict.mem_keys_iff _ _).2 h), h⟩⟩
  refine ⟨⟨G, raw.n, h, inH, s0, ex, [], hwf, hs0, rfl⟩, ⟨hc.order, ⟨hn, ha⟩, ?_⟩, hall'⟩
  intro name hname
  obtain ⟨hname1, hname2⟩ := (hall name).1 hname
  obtain ⟨d, hd⟩ := Option.isSome_iff_exists.1 hname2
  obtain ⟨D, hD, -, hDh, -, e, he, en, hdep, hv⟩ := hval name d hd
  refine ⟨e, he, en, ?_⟩
  intro ops hops useAll b
  have hhd : d.hdep = some e.sub.hdep := by
    rcases hdep with h1 | h1
    · exact absurd h1 (hq _ (dict_mem _ _ _ hD)).2
    · rw [hDh, h1]
  obtain ⟨e', he', hu⟩ := Handler.init_un G raw.n hwf h inH s0 hs0 name d hname1 hd
  rw [hhd] at he'; cases he'
  have hu0 : Handler.Un name d e.sub.hdep h raw.n ({ s0 with extra := ex } : State K) :=
    ⟨hu.file, hu.all, hu.saved, hu.hdep, hu.loaded, hu.hh, hu.nn⟩
  have hu' := Handler.run_un _ ops hops hu0
  obtain ⟨a1, a2, a3, a4, a5, a6, a7, a8⟩ := Handler.inv_init G raw.n hwf h inH s0 hs0
  have hI : Handler.Inv (run ({ s0 with extra := ex } : State K) ops) :=
    Handler.run_inv _ _ ⟨a1, a2, a3, a4, a5, a6, a7, a8⟩
  obtain ⟨out, o1, o2, o3⟩ := Handler.returnProperty_ok _ hI name useAll b hu'.all hname1 _
    hu'.hdep _ hu'.held
  refine ⟨out, o1, o2, ?_⟩
  intro j k hj
  have hkn : k < raw.n := by
    have := List.mem_of_getElem? hj
    unfold Handler.Spec.selection at this
    split at this
    · rw [hu'.nn] at this; simpa using this
    · have := hI.bound k this; rwa [hu'.nn] at this
  have hkp : k < p.length := by rw [hc.order.length_eq, List.length_range]; exact hkn
  obtain ⟨x, x1, x2⟩ := hv k p[k] (List.getElem?_eq_getElem hkp)
  refine ⟨p[k], x, List.getElem?_eq_getElem hkp, x1, ?_⟩
  rw [o3 j]
  rw [Handler.selection_eq] at hj
  rw [hj, hu'.hh]
  simp only [Option.bind_some, x2, Option.map_some, Handler.Spec.seen]
  split <;> rfl

/-! ## Any sequence of calls, completed, failed or interrupted -/

section Reached

variable (d0 : Disk K) (h0 : d0.file = none) (d : Disk K) (hd : Reached d0 d)

include h0 hd

/-- **C129, in the file.** Whatever was called before, also if calls failed or were interrupted
anywhere, what is in the file for a snapshot is part of the raw data of one call: every property
there has its values for all halos, in an order that is the same for all of them. -/
theorem C129_groups (i : ℕ) (g : Group K) (hg : groupOf d i = some g) :
    ∃ (r : Run K) (d1 : Disk K) (other : Fields) (raw : Raw K) (p : List ℕ), Reached d0 d1 ∧ Sound r.cat ∧
      Uses r.cat r.opts d1 other ∧ Formats r.cat r.opts d1 i ∧ d1.raw.get? i = some raw ∧
      PartOf r.cat other raw g p := by
  have hU0 : Unique d0 := by intro f hf; rw [h0] at hf; cases hf
  induction hd generalizing g with
  | refl => simp [groupOf, h0] at hg
  | @run d hd r es P out hs hf hP ih =>
    rcases format_part r.cat hs r.opts r.answers d (hd.unique hU0) es out hf P hP i g hg with
      h1 | ⟨other, raw, p, h1, h2, h3, h4⟩
    · exact ih g h1
    · exact ⟨r, d, other, raw, p, hd, hs, h1, h2, h3, h4⟩
  | raw hd raw ih => exact ih g hg

theorem reached_names : NamesUnique d := by
  refine hd.names ?_
  intro i g hg
  simp [groupOf, h0] at hg

/-- The group behind a snapshot of an opened simulation. -/
theorem opened_group (file : File K) (hf : d.file = some file) (h box : K) (inH : Bool) (S : Sim K)
    (hS : openFile file h box false inH = some (.ok S)) (i : ℕ) (g : Group K)
    (hg : groupOf d i = some g) : ∃ G z, readGroup g = some G ∧
      getSnap S i = snapInit G z h box false := by
  have hgroup : ∀ k, groupOf d k = file.groups.get? k := by intro k; simp [groupOf, hf]
  obtain ⟨l, disk, hl, hdisk, hSe⟩ := openFile_inv file h box false inH S hS
  obtain ⟨l', hl', hsort, hlist⟩ := C14_metadata_listed d0 h0 d hd ⟨i, by rw [hg]; simp⟩
  have hll : l' = l := by
    simp only [metasOf, hf, Option.bind_some, hl, Option.some.injEq] at hl'
    exact hl'.symm
  subst hll
  obtain ⟨m, hm, hmi⟩ := List.mem_map.1 (hlist i (by rw [hg]; simp))
  obtain ⟨hk, hget⟩ := readAll_get readGroup file.groups disk hdisk
  have hmem : i ∈ disk.keys := by
    rw [hk, PyDict.mem_keys_iff, ← hgroup, hg]; rfl
  obtain ⟨G, hG⟩ := Option.isSome_iff_exists.1 ((PyDict.mem_keys_iff _ _).1 hmem)
  have hG' : readGroup g = some G := by
    rw [hget, ← hgroup, hg] at hG
    exact hG
  refine ⟨G, m.redshift, hG', ?_⟩
  have hnd : (S.snaps.map Prod.fst).Nodup := by
    rw [hSe]
    simp only [List.map_map, Function.comp_def]
    exact nodup_of_sorted _ hsort
  have hr : (m.index, m.redshift) ∈ S.snaps := by
    rw [hSe]; exact List.mem_map.2 ⟨m, hm, rfl⟩
  have := SimAll.getSnap_fresh S hnd (by rw [hSe]) (m.index, m.redshift) hr G (by
    rw [hSe, hmi]; exact hG)
  rw [hmi] at this
  rw [this, hSe]

/-- **C129, reading.** Whatever was called before, also if calls failed or were interrupted
anywhere: a snapshot that can be opened shows nothing but the raw data of one call, row by row; it
has exactly the properties that are in the file. Missing: it need not have all properties (below). -/
theorem C129_reads_partial (file : File K) (hf : d.file = some file) (h box : K) (inH : Bool) (S : Sim K)
    (hS : openFile file h box false inH = some (.ok S)) (i : ℕ) (g : Group K)
    (hg : groupOf d i = some g) (st : State K) (hst : getSnap S i = .ok st) :
    ∃ (r : Run K) (d1 : Disk K) (other : Fields) (raw : Raw K) (p : List ℕ), Reached d0 d1 ∧ Sound r.cat ∧
      Uses r.cat r.opts d1 other ∧ Formats r.cat r.opts d1 i ∧ d1.raw.get? i = some raw ∧
      Reachable st ∧ ShowsPart r.cat other raw h p st ∧ ∀ name, name ∈ st.all ↔ name ∈ g.data.keys := by
  obtain ⟨r, d1, other, raw, p, k1, k2, k3, k4, k5, k6⟩ := C129_groups d0 h0 d hd i g hg
  obtain ⟨G, z, hG, hget⟩ := opened_group d0 h0 d hd file hf h box inH S hS i g hg
  rw [hget] at hst
  obtain ⟨a1, a2, a3⟩ := snapInit_part r.cat other raw g p k6 (reached_names d0 h0 d hd i g hg) G hG z h
    box false st hst
  exact ⟨r, d1, other, raw, p, k1, k2, k3, k4, k5, a1, a2, a3⟩

/-- **C129, opening.** Whatever was called before: a snapshot can be opened just if its masses are in
the file and every property that is there has its units and its h dependence. -/
theorem C129_opens_iff (file : File K) (hf : d.file = some file) (h box : K) (inH : Bool) (S : Sim K)
    (hS : openFile file h box false inH = some (.ok S)) (i : ℕ) (g : Group K)
    (hg : groupOf d i = some g) :
    (∃ st, getSnap S i = .ok st) ↔ "mass" ∈ g.data.keys ∧ ∀ q ∈ g.data, Marked q.2 := by
  obtain ⟨r, d1, other, raw, p, -, -, -, -, -, k6⟩ := C129_groups d0 h0 d hd i g hg
  obtain ⟨G, z, hG, hget⟩ := opened_group d0 h0 d hd file hf h box inH S hS i g hg
  rw [hget]
  exact (part_wf r.cat other raw g p k6 (reached_names d0 h0 d hd i g hg) G hG z h box false).1

end Reached

/-! ## Interrupted between the basic and the other fields -/

/-- **C129 fails.** For every catalogue, and every usable raw data of the first snapshot of a new
file, there is a point at which an interruption leaves a simulation that can be opened, with a
snapshot that can be opened and has the basic properties only. -/
theorem C129_basic_only (cat : Cat K) (hc : Sound cat) (o : Opts) (ans : List String)
    (hcons : Consents o ans) (d : Disk K) (hn : NewFile o d) (i : ℕ) (rest : List ℕ)
    (hs : cat.snaps = i :: rest) (raw : Raw K) (hraw : d.raw.get? i = some raw)
    (hU : Usable cat (if o.basicOnly then [] else merge cat.dm cat.matter) raw) :
    ∃ es r P g, format cat o ans d = some (es, r) ∧ P <+: es ∧
      groupOf (applyAll d P) i = some g ∧ (∀ j, j ≠ i → groupOf (applyAll d P) j = none) ∧
      metasOf (applyAll d P) = some cat.metas ∧
      (∀ name, name ∈ g.data.keys ↔ ∃ e, Promised cat.basic e ∧ e.sub.name = name) ∧
      g.data.keys.Nodup ∧
      ∀ q ∈ g.data, Marked q.2 ∧ ∃ v, q.2.data = .one v := by
  have hfr := (fresh_iff d o).2 hn
  obtain ⟨f, xs, hf, hitems, hnames⟩ := formatOne_total cat hc.argsort _ raw hU
  obtain ⟨inds, hF⟩ := formatOne_ok cat hc.argsort _ raw f hf
  let tail : List (SnapMeta K) → List (Eff K) := fun l => [.truncate, .setNum cat.numberSnaps, .setMetas l]
  -- the basic datasets
  let bs : List (Item K) := f.basic.map (fun p => ⟨p.1.name, .one p.2, p.1.units, p.1.hdep⟩)
  obtain ⟨ys, hys⟩ : ∃ ys, xs = bs ++ ys := by
    unfold items at hitems
    obtain ⟨l1, l2, e1, e2, e3⟩ := List.map_eq_append_iff.1 hitems.symm
    refine ⟨l2, ?_⟩
    rw [e1]
    congr 1
    have : l1.map (Except.ok : Item K → Except Err (Item K)) = bs.map .ok := by
      rw [e2]; simp [bs, Function.comp_def]
    exact List.map_injective_iff.2 (fun a b h => by simpa using h) this
  have hndb : (bs.map (·.name)).Nodup := by
    simpa [bs, Function.comp_def] using hF.names
  have hwd : ∃ es, writeData i ["mass_cuts"] (items f (if o.basicOnly then [] else merge cat.dm cat.matter)) =
      (es, .ok ()) ∧ bs.flatMap (dataEffs i) <+: es := by
    have := writeData_total i xs ["mass_cuts"] (by
      intro x hx hm
      simp only [List.mem_singleton] at hm
      refine hU.cuts ?_
      rw [← hnames, ← hm]
      exact List.mem_map.2 ⟨x, hx, rfl⟩) (by rw [hnames]; exact hU.names)
    cases hw : writeData i ["mass_cuts"] (items f (if o.basicOnly then [] else merge cat.dm cat.matter)) with
    | mk es r =>
      rw [hitems] at hw
      rw [hw] at this
      simp only at this
      subst this
      refine ⟨es, rfl, ?_⟩
      obtain ⟨xs', e1, -, -, e4⟩ := writeData_ok i _ _ es hw
      have : xs' = xs := (List.map_injective_iff.2 (fun a b h => by simpa using h) e1).symm
      subst this
      rw [e4, hys, List.flatMap_append]
      exact List.prefix_append _ _
  obtain ⟨des, hw, hpre⟩ := hwd
  let st : Disk K := applyAll d [.truncate, .setNum cat.numberSnaps, .setMetas cat.metas]
  have hst : st.file.isSome := by simp only [st]; rw [start_new]; rfl
  have hno : hasGroup st i = false := by simp only [st]; rw [start_new]; rfl
  let A : List (Eff K) := [.newGroup i, .newCuts i f.cuts] ++ bs.flatMap (dataEffs i)
  have hA : ∀ e ∈ A, Eff.At i e := by
    intro e he
    rcases List.mem_append.1 he with he | he
    · simp only [List.mem_cons, List.not_mem_nil, or_false] at he
      rcases he with rfl | rfl
      · exact .new
      · exact .cuts _
    · have := writeData_at i (items f (if o.basicOnly then [] else merge cat.dm cat.matter)) ["mass_cuts"]
      rw [hw] at this
      exact this e (hpre.subset he)
  obtain ⟨fr, -, gr⟩ := applyAll_at i A hA st hst
  obtain ⟨D, D1, D2, D3⟩ := dataEffs_all i bs hndb { cuts := some f.cuts }
  have hg : groupOf (applyAll st A) i = some { cuts := some f.cuts, data := D } := by
    rw [gr]
    simp only [A, List.foldl_append, List.foldl_cons, List.foldl_nil, gapply, Option.map_some]
    exact D1
  have hnames' : NamesUnique (applyAll st A) := by
    refine names_applyAll A _ ?_
    simp only [st]
    rw [start_new]
    intro k g hk
    cases hk
  have hDnd : D.keys.Nodup := hnames' i _ hg
  have hbase : ∀ x ∈ bs, ∃ p ∈ f.basic, x = ⟨p.1.name, .one p.2, p.1.units, p.1.hdep⟩ := by
    intro x hx
    obtain ⟨p, hp, rfl⟩ := List.mem_map.1 hx
    exact ⟨p, hp, rfl⟩
  have hget : ∀ name X, D.get? name = some X → ∃ x ∈ bs, x.name = name ∧ X = full x := by
    intro name X hX
    by_cases hm : name ∈ bs.map (·.name)
    · obtain ⟨x, hx, rfl⟩ := List.mem_map.1 hm
      rw [D2 x hx] at hX
      cases hX
      exact ⟨x, hx, rfl, rfl⟩
    · rw [D3 name hm] at hX
      cases hX
  refine ⟨[.truncate, .setNum cat.numberSnaps, .setMetas cat.metas] ++
      (formatLoop cat (if o.basicOnly then [] else merge cat.dm cat.matter) o.clean st cat.snaps).1,
    (formatLoop cat (if o.basicOnly then [] else merge cat.dm cat.matter) o.clean st cat.snaps).2,
    [.truncate, .setNum cat.numberSnaps, .setMetas cat.metas] ++ A,
    { cuts := some f.cuts, data := D }, ?_, ?_, ?_, ?_, ?_, ?_, hDnd, ?_⟩
  · unfold format
    rw [(consents_iff o ans).1 hcons]
    have hne : cat.snaps ≠ [] := by rw [hs]; simp
    simp only [hfr, if_true, if_neg hne]
    rfl
  · rw [List.prefix_append_right_inj, hs]
    unfold formatLoop
    have hr : st.raw.get? i = some raw := by simp only [st]; rw [start_new]; exact hraw
    simp only [hr, hf]
    have hpre : A <+: (writeOne cat (if o.basicOnly = true then [] else merge cat.dm cat.matter)
        o.clean (hasGroup st i) i f).1 := by
      unfold writeOne
      rw [hw, hno]
      simp only [Bool.false_eq_true, if_false, List.nil_append, A, List.append_assoc]
      rw [List.prefix_append_right_inj]
      exact hpre.trans (List.prefix_append _ _)
    cases hwo : writeOne cat (if o.basicOnly = true then [] else merge cat.dm cat.matter)
        o.clean (hasGroup st i) i f with
    | mk es r =>
      rw [hwo] at hpre
      cases r with
      | error e => exact hpre
      | ok u => exact hpre.trans (List.prefix_append _ _)
  · rw [applyAll_append]; exact hg
  · intro j hj
    rw [applyAll_append, fr.groups j hj]
    simp only [st]
    rw [start_new]; rfl
  · rw [applyAll_append, fr.metas]
    simp only [st]
    rw [start_new]; rfl
  · intro name
    rw [PyDict.mem_keys_iff]
    constructor
    · intro h
      obtain ⟨X, hX⟩ := Option.isSome_iff_exists.1 h
      obtain ⟨x, hx, hxn, -⟩ := hget name X hX
      obtain ⟨p, hp, rfl⟩ := hbase x hx
      obtain ⟨e, he, h1, -⟩ := hF.basicMem p hp
      exact ⟨e, he, by rw [← h1]; exact hxn⟩
    · rintro ⟨e, he, rfl⟩
      obtain ⟨p, hp, h1, -⟩ := hF.basicAll e he
      have := D2 ⟨p.1.name, .one p.2, p.1.units, p.1.hdep⟩ (List.mem_map.2 ⟨p, hp, rfl⟩)
      simp only [h1] at this
      rw [this]; rfl
  · rintro ⟨name, X⟩ hq
    obtain ⟨x, hx, -, rfl⟩ := hget name X (dict_of_mem _ hDnd _ _ hq)
    obtain ⟨p, hp, rfl⟩ := hbase x hx
    exact ⟨⟨by simp [full], by simp [full]⟩, p.2, rfl⟩

/-- A file with a single group, whose datasets have their attributes, can be opened. -/
theorem opens_single (d : Disk K) (hd : Unique d) (i : ℕ) (g : Group K) (hg : groupOf d i = some g)
    (hother : ∀ j, j ≠ i → groupOf d j = none) (l : List (SnapMeta K)) (hl : metasOf d = some l)
    (hne : l ≠ []) (hq : ∀ q ∈ g.data, Marked q.2 ∧ ∃ v, q.2.data = .one v) (h box : K) (inH : Bool) :
    ∃ file S, d.file = some file ∧ openFile file h box false inH = some (.ok S) := by
  cases hf : d.file with
  | none => simp [groupOf, hf] at hg
  | some file =>
    have hgroup : ∀ k, groupOf d k = file.groups.get? k := by intro k; simp [groupOf, hf]
    have hl' : file.metas = some l := by simpa [metasOf, hf] using hl
    have hun := hd file hf
    have honly : ∀ k g', file.groups.get? k = some g' → g' = g := by
      intro k g' hk
      rw [← hgroup] at hk
      by_cases hki : k = i
      · subst hki; rw [hg] at hk; cases hk; rfl
      · rw [hother k hki] at hk; cases hk
    have hread : (readGroup g).isSome := by
      obtain ⟨G, hG⟩ := readAll_some readData g.data (fun q hqm => by
        obtain ⟨-, v, hv⟩ := hq q hqm
        simp [readData, hv, readCol])
      show (readAll readData g.data).isSome
      rw [hG]; rfl
    obtain ⟨disk, hdisk⟩ := readAll_some readGroup file.groups (fun q hqm => by
      rw [honly q.1 q.2 (dict_of_mem _ hun _ _ hqm)]; exact hread)
    have hfirst : firstKeys file = .ok () := by
      unfold firstKeys
      cases hfg : firstGroup file.groups with
      | none =>
        exfalso
        rw [hgroup] at hg
        cases hgr : file.groups with
        | nil => rw [hgr] at hg; cases hg
        | cons q qs => rw [hgr] at hfg; simp [firstGroup] at hfg
      | some g' =>
        obtain ⟨k, hk⟩ := firstGroup_mem file.groups hun g' hfg
        have := honly k g' hk
        subst this
        have : g'.data.all (fun p => p.2.units.isSome && p.2.hdep.isSome) = true := by
          rw [List.all_eq_true]
          intro q hqm
          obtain ⟨⟨h1, h2⟩, -⟩ := hq q hqm
          simp [Option.isSome_iff_ne_none, h1, h2]
        simp [this]
    have hlen : ¬ (l.map (fun m => (m.index, m.redshift))).length = 0 := by
      simpa using hne
    refine ⟨file, ⟨l.map (fun m => (m.index, m.redshift)), disk, h, box, inH, none⟩, rfl, ?_⟩
    simp only [openFile, hl', hdisk, if_neg hne, hfirst, SimAll.openSim, if_neg hlen, Bool.false_eq_true,
      if_false]

/-- **C129 fails, as seen.** For every catalogue, and every usable raw data of the first snapshot of
the first file, there is a point at which an interruption leaves a simulation that opens without
complaint, with a snapshot that opens without complaint and has no property but the basic ones. -/
theorem C129_looks_complete (cat : Cat K) (hc : Sound cat) (o : Opts) (ans : List String)
    (hcons : Consents o ans) (d : Disk K) (hfile : d.file = none) (i : ℕ) (rest : List ℕ)
    (hs : cat.snaps = i :: rest) (raw : Raw K) (hraw : d.raw.get? i = some raw)
    (hU : Usable cat (if o.basicOnly then [] else merge cat.dm cat.matter) raw) (h box : K) (inH : Bool) :
    ∃ es r P file S st, format cat o ans d = some (es, r) ∧ P <+: es ∧
      (applyAll d P).file = some file ∧ openFile file h box false inH = some (.ok S) ∧
      getSnap S i = .ok st ∧
      ∀ name, name ∈ st.all ↔ ∃ e, Promised cat.basic e ∧ e.sub.name = name := by
  have hn : NewFile o d := Or.inr (fun j => by simp [groupOf, hfile])
  obtain ⟨es, r, P, g, k1, k2, k3, k4, k5, k6, -, k8⟩ :=
    C129_basic_only cat hc o ans hcons d hn i rest hs raw hraw hU
  have hreach : Reached d (applyAll d P) :=
    .run (.refl d) ⟨cat, o, ans⟩ es P r hc k1 k2
  have hU0 : Unique d := by intro f hf; rw [hfile] at hf; cases hf
  have hne : cat.metas ≠ [] := by
    intro he
    have := hc.listed i (by rw [hs]; simp)
    rw [he] at this; simp at this
  obtain ⟨file, S, f1, f2⟩ := opens_single (applyAll d P) (hreach.unique hU0) i g k3 k4 cat.metas k5 hne k8
    h box inH
  have hmass : "mass" ∈ g.data.keys := by
    rw [k6]
    have := hU.mass
    unfold namesOf at this
    obtain ⟨f, hf, hm⟩ := List.mem_flatMap.1 this
    simp only [Bool.false_and, Bool.not_false, List.filter_true] at hm
    obtain ⟨s, hsm, hsn⟩ := List.mem_map.1 hm
    obtain ⟨c, hc⟩ := List.mem_iff_getElem?.1 hsm
    exact ⟨⟨f.1, f.2.length, c, s⟩, ⟨f.2, hf, rfl, hc⟩, hsn⟩
  obtain ⟨st, hst⟩ := (C129_opens_iff d hfile _ hreach file f1 h box inH S f2 i g k3).2
    ⟨hmass, fun q hq => (k8 q hq).1⟩
  obtain ⟨-, -, -, -, -, -, -, -, -, -, -, -, hall⟩ := C129_reads_partial d hfile _ hreach file f1 h box inH S f2
    i g k3 st hst
  exact ⟨es, r, P, file, S, st, k1, k2, f1, f2, hst, fun name => (hall name).trans (k6 name)⟩

/-! ## What later calls do about it -/

/-- **C129, it spreads.** If no snapshot in the file has the first property of any further field (as
after such an interruption), every later call without `remake` formats all its snapshots, new or
overwritten, without the further fields, and ends normally. -/
theorem C129_spreads (cat : Cat K) (hc : Sound cat) (o : Opts) (hre : o.remake = false)
    (ans : List String) (d : Disk K) (hd : Unique d) (hex : ∃ i, groupOf d i ≠ none)
    (hbasic : ∀ i g, groupOf d i = some g → ∀ f ∈ merge cat.matter cat.dm, ∀ s rest, f.2 = s :: rest →
      s.name ∉ g.names)
    (es : List (Eff K)) (h : format cat o ans d = some (es, .ok ())) (hcons : Consents o ans) (j : ℕ)
    (hj : j ∈ cat.snaps) (hov : o.overwrite = true ∨ groupOf d j = none) :
    ∃ raw g, d.raw.get? j = some raw ∧ groupOf (applyAll d es) j = some g ∧ Complete cat [] raw j g := by
  have hnn : ¬ NewFile o d := by
    rintro (h | h)
    · rw [hre] at h; cases h
    · obtain ⟨i, hi⟩ := hex; exact hi (h i)
  obtain ⟨other, hu, h1, -⟩ := C14_one_run cat hc o ans d hd es h hcons
  have hother : other = [] := by
    rcases hu with ⟨hn, -⟩ | ⟨-, i, g, hg, hf⟩
    · exact absurd hn hnn
    · rw [List.eq_nil_iff_forall_not_mem]
      intro f hfo
      obtain ⟨m1, s, rest, m2, m3⟩ := (hf f).1 hfo
      exact hbasic i g hg f m1 s rest m2 m3
  subst hother
  exact h1 j ⟨hj, Or.inr hov⟩

/-- **C129, after an interruption.** The two together: after the interruption of
`C129_looks_complete`, calls of the same catalogue without `remake` -- whether or not they overwrite
-- write no further fields for any snapshot. -/
theorem C129_never_repaired (cat : Cat K) (hc : Sound cat) (o : Opts) (ans : List String)
    (hcons : Consents o ans) (d : Disk K) (hfile : d.file = none) (i : ℕ) (rest : List ℕ)
    (hs : cat.snaps = i :: rest) (raw : Raw K) (hraw : d.raw.get? i = some raw)
    (hU : Usable cat (if o.basicOnly then [] else merge cat.dm cat.matter) raw)
    (hfirst : ∀ f ∈ merge cat.matter cat.dm, ∀ s r, f.2 = s :: r → s.name ≠ "mass_cuts" ∧
      ¬ ∃ e, Promised cat.basic e ∧ e.sub.name = s.name) :
    ∃ es r P, format cat o ans d = some (es, r) ∧ P <+: es ∧ groupOf (applyAll d P) i ≠ none ∧
      ∀ (raws : PyDict ℕ (Raw K)) (o' : Opts) (ans' : List String) (es' : List (Eff K)), o'.remake = false →
        Consents o' ans' →
        format cat o' ans' { applyAll d P with raw := raws } = some (es', .ok ()) →
        ∀ j ∈ cat.snaps, o'.overwrite = true ∨ j ≠ i →
          ∃ raw' g', raws.get? j = some raw' ∧
            groupOf (applyAll { applyAll d P with raw := raws } es') j = some g' ∧
            Complete cat [] raw' j g' := by
  have hn : NewFile o d := Or.inr (fun j => by simp [groupOf, hfile])
  obtain ⟨es, r, P, g, k1, k2, k3, k4, k5, k6, -, k8⟩ :=
    C129_basic_only cat hc o ans hcons d hn i rest hs raw hraw hU
  have hU0 : Unique d := by intro f hf; rw [hfile] at hf; cases hf
  have hreach : Reached d (applyAll d P) := .run (.refl d) ⟨cat, o, ans⟩ es P r hc k1 k2
  refine ⟨es, r, P, k1, k2, by rw [k3]; simp, ?_⟩
  intro raws o' ans' es' hre' hcons' hf' j hj hov
  have hun := hreach.unique hU0
  refine C129_spreads cat hc o' hre' ans' { applyAll d P with raw := raws } hun ⟨i, ?_⟩ ?_ es' hf' hcons' j hj ?_
  · have : groupOf ({ applyAll d P with raw := raws } : Disk K) i = some g := k3
    rw [this]; simp
  · intro k gk hk f hfm s rr hsr
    have hk' : groupOf (applyAll d P) k = some gk := hk
    by_cases hki : k = i
    · subst hki
      rw [k3] at hk'; cases hk'
      obtain ⟨n1, n2⟩ := hfirst f hfm s rr hsr
      unfold Group.names
      rw [List.mem_append]
      rintro (hm | hm)
      · split at hm
        · simp only [List.mem_singleton] at hm; exact n1 hm
        · cases hm
      · exact n2 ((k6 _).1 hm)
    · rw [k4 k hki] at hk'; cases hk'
  · rcases hov with h | h
    · exact Or.inl h
    · exact Or.inr (k4 j h)

/-- **C129, repair.** Whatever happened before, a call with `remake` that ends normally formats its
snapshots completely, with the further fields. -/
theorem C129_remake (cat : Cat K) (hc : Sound cat) (o : Opts) (hre : o.remake = true)
    (hb : o.basicOnly = false) (ans : List String) (d : Disk K) (hd : Unique d) (es : List (Eff K))
    (h : format cat o ans d = some (es, .ok ())) (hcons : Consents o ans) (j : ℕ) (hj : j ∈ cat.snaps) :
    ∃ raw g, d.raw.get? j = some raw ∧ groupOf (applyAll d es) j = some g ∧
      Complete cat (merge cat.dm cat.matter) raw j g := by
  obtain ⟨other, hu, h1, -⟩ := C14_one_run cat hc o ans d hd es h hcons
  have hn : NewFile o d := Or.inl hre
  have hother : other = merge cat.dm cat.matter := by
    rcases hu with ⟨-, ho⟩ | ⟨hn', -⟩
    · rw [ho, hb]; rfl
    · exact absurd hn hn'
  subst hother
  exact h1 j ⟨hj, Or.inl hn⟩

/-! ## In full -/

/-- C129 in full: after a call that was completed, failed or interrupted at any point, every snapshot
that can be opened has all the properties the call was to write. -/
def C129_full : Prop :=
  ∀ (cat : Cat ℚ), Sound cat → ∀ (o : Opts) (ans : List String) (d : Disk ℚ), d.file = none →
    o.basicOnly = false → ∀ es r P, format cat o ans d = some (es, r) → P <+: es →
      ∀ (file : File ℚ), (applyAll d P).file = some file → ∀ (h box : ℚ) (inH : Bool) (S : Sim ℚ),
        openFile file h box false inH = some (.ok S) → ∀ i st, getSnap S i = .ok st →
          ∀ e, Stored cat.basic (merge cat.dm cat.matter) e → e.sub.name ∈ st.all

/-- The raw data of the demonstration can be formatted. -/
theorem demo_usable : Usable demoCat (merge demoCat.dm demoCat.matter) demoRaw := by
  refine ⟨?_, ?_, by decide +kernel, by decide +kernel, by decide +kernel⟩
  · intro f hf
    simp only [demoCat, List.mem_cons, List.not_mem_nil, or_false] at hf
    rcases hf with rfl | rfl
    · refine ⟨by simp, fun _ => ⟨.one [10, 20, 20], ?_, by simp, fun _ => ⟨_, rfl, rfl⟩⟩⟩
      simp [converted, demoCat, demoRaw, PyDict.get?]
      norm_num
    · refine ⟨by simp, fun _ => ⟨.many [[1, 10], [2, 20], [3, 30]], ?_, fun _ => ⟨_, rfl, rfl, ?_⟩, by simp⟩⟩
      · simp [converted, demoCat, demoRaw, PyDict.get?]
      · intro r hr
        simp only [List.mem_cons, List.not_mem_nil, or_false] at hr
        rcases hr with rfl | rfl | rfl <;> simp
  · intro f hf
    simp only [demoCat, merge, List.foldl, PyDict.set] at hf
    simp at hf
    rcases hf with rfl | rfl
    · refine ⟨by simp, fun _ => ⟨.one [7, 8, 9], ?_, rfl, by simp⟩⟩
      simp [converted, demoCat, demoRaw, PyDict.get?]
    · refine ⟨by simp, fun _ => ⟨.many [[1, 0, 4], [2, 0, 5], [3, 0, 6]], ?_, rfl, fun _ => ⟨_, rfl, ?_⟩⟩⟩
      · simp [converted, demoCat, demoRaw, PyDict.get?]
      · intro r hr
        simp only [List.mem_cons, List.not_mem_nil, or_false] at hr
        rcases hr with rfl | rfl | rfl <;> simp

/-- The interrupted call of the demonstration, and what is lost. -/
theorem C129_full_false : ¬ C129_full := by
  intro hfull
  obtain ⟨es, r, P, file, S, st, k1, k2, k3, k4, k5, k6⟩ :=
    C129_looks_complete demoCat demoCat_sound {} [] (by intro h; cases h) demoDisk rfl 0 [1] rfl demoRaw rfl
      demo_usable 1 1 false
  have hv := hfull demoCat demoCat_sound {} [] demoDisk rfl rfl es r P k1 k2 file k3 1 1 false S k4 0 st k5
    ⟨"Vel", 1, 0, ⟨"vel", "km/s", 0⟩⟩ (Or.inr ⟨⟨[⟨"vel", "km/s", 0⟩], by decide +kernel, rfl, rfl⟩, by simp⟩)
  obtain ⟨e, ⟨subs, h1, -, h3⟩, he⟩ := (k6 _).1 hv
  have hmem : e.sub.name ∈ subs.map (·.name) := List.mem_map.2 ⟨e.sub, List.mem_of_getElem? h3, rfl⟩
  have hall : ∀ f ∈ demoCat.basic, "vel" ∉ f.2.map (·.name) := by decide +kernel
  rw [he] at hmem
  exact hall _ h1 hmem

/-- The hypotheses of `C129_never_repaired` are met by the demonstration. -/
example : ∀ f ∈ merge demoCat.matter demoCat.dm, ∀ s r, f.2 = s :: r → s.name ≠ "mass_cuts" ∧
    ¬ ∃ e, Promised demoCat.basic e ∧ e.sub.name = s.name := by
  have hall : ∀ f ∈ merge demoCat.matter demoCat.dm, ∀ s ∈ f.2.head?, s.name ≠ "mass_cuts" ∧
      ∀ b ∈ demoCat.basic, s.name ∉ b.2.map (·.name) := by decide +kernel
  intro f hf s r hs
  obtain ⟨h1, h2⟩ := hall f hf s (by rw [hs]; rfl)
  refine ⟨h1, ?_⟩
  rintro ⟨e, ⟨subs, a1, -, a3⟩, he⟩
  exact h2 _ a1 (List.mem_map.2 ⟨e.sub, List.mem_of_getElem? a3, he⟩)

/-- The demonstration after its call is interrupted at step `n`, opened. -/
def demoAt (n : ℕ) : Option (Sim ℚ) :=
  match format demoCat {} [] demoDisk with
  | some (es, _) =>
    match (applyAll demoDisk (es.take n)).file with
    | some f =>
      match openFile f (1 / 2) 10 false false with
      | some (.ok S) => some S
      | _ => none
    | none => none
  | none => none

/-- Interrupted after the masses (step 8), the snapshot opens and shows the masses, and nothing else; one step
earlier, without the h dependence, the simulation does not open. -/
example : (match demoAt 8 with
    | some S =>
      match getSnap S 0 with
      | .ok st => decide (st.all = ["mass"]) &&
          (okSome (returnProperty st "mass" true (some true)) == some [some 20, some 20, some 10])
      | .error _ => false
    | none => false) = true ∧ (demoAt 7).isNone = true := by decide +kernel

/-- Continued without `remake`, the second snapshot has no further fields either; with `overwrite` both have none;
with `remake` both have them. -/
def demoNext (o : Opts) (n : ℕ) : List (List Name) :=
  match format demoCat {} [] demoDisk with
  | some (es, _) =>
    match format demoCat o [] (applyAll demoDisk (es.take n)) with
    | some (es', .ok ()) =>
      [0, 1].map (fun i => match groupOf (applyAll (applyAll demoDisk (es.take n)) es') i with
        | some g => g.data.keys
        | none => [])
    | _ => []
  | none => []

example : demoNext {} 14 = [["mass", "pos_x", "pos_y"], ["mass", "pos_x", "pos_y"]] ∧
    demoNext { overwrite := true } 14 = [["mass", "pos_x", "pos_y"], ["mass", "pos_x", "pos_y"]] ∧
    demoNext { remake := true } 14 = [["mass", "pos_x", "pos_y", "vel", "m_gas", "m_stars"],
      ["mass", "pos_x", "pos_y", "vel", "m_gas", "m_stars"]] := by decide +kernel

end Verif.Format
