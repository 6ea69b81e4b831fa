import Verif.Lemmas.FormatRead
import Mathlib.Algebra.Order.Field.Rat

set_option linter.unusedSectionVars false

/-!
# C117: what was formatted is read back
-/

namespace Verif.Format

open Verif.Sim (SnapMeta)
open Verif.Format.Spec
open Verif.Handler (Dataset V State init returnProperty setRange run)
open Verif.Handler.Spec (WF Reachable)
open Verif.SimAll (Sim openSim getSnap snapInit initializeAll makeProperty deleteProperty)

variable {K : Type} [Field K] [LinearOrder K]

/-! ## Opening a snapshot -/

theorem snapInit_shows (cat : Cat K) (other : Fields) (raw : Raw K) (i : ℕ) (g : Group K)
    (hc : Complete cat other raw i g) (hnd : g.data.keys.Nodup) (hnum : Numbers cat other raw)
    (z h box : K) (inH : Bool) :
    ∃ G p st, readGroup g = some G ∧ WF G raw.n ∧ snapInit G z h box inH = .ok st ∧ Reachable st ∧
      st.inH = inH ∧ st.file = G ∧ Shows cat other raw h p st := by
  obtain ⟨G, p, hG, hwf, hp, hnames, -, hval⟩ := group_read cat other raw i g hc hnd hnum
  obtain ⟨s0, hs0, hf, hn, hh, hin, -, -, ha, -, hall, -⟩ := Handler.init_ok G raw.n hwf h inH
  have hst : ∃ ex, snapInit G z h box inH = .ok { s0 with extra := ex } := by
    unfold snapInit
    simp only [hs0, SimAll.snapSetInH]
    subst hin
    exact ⟨_, rfl⟩
  obtain ⟨ex, hst⟩ := hst
  refine ⟨G, p, _, hG, hwf, hst, ⟨G, raw.n, h, inH, s0, ex, [], hwf, hs0, rfl⟩, hin, hf, hp, ⟨hn, ha⟩, ?_, ?_⟩
  · intro name
    rw [show ({ s0 with extra := ex } : State K).all = s0.all from rfl, hall name, hnames name]
  · intro e he hne ops hops useAll b
    obtain ⟨d, hd, hhd, hv⟩ := hval e he
    obtain ⟨e', he', hu⟩ := Handler.init_un G raw.n hwf h inH s0 hs0 e.sub.name d hne hd
    rw [hhd] at he'; cases he'
    have hu0 : Handler.Un e.sub.name d e.sub.hdep h raw.n ({ s0 with extra := ex } : State K) :=
      ⟨hu.file, hu.all, hu.saved, hu.hdep, hu.loaded, hu.hh, hu.nn⟩
    have hu' := Handler.run_un _ ops hops hu0
    obtain ⟨a1, a2, a3, a4, a5, a6, a7, a8⟩ := Handler.inv_init G raw.n hwf h inH s0 hs0
    have hI : Handler.Inv (run ({ s0 with extra := ex } : State K) ops) :=
      Handler.run_inv _ _ ⟨a1, a2, a3, a4, a5, a6, a7, a8⟩
    obtain ⟨out, o1, o2, o3⟩ := Handler.returnProperty_ok _ hI e.sub.name useAll b hu'.all hne _
      hu'.hdep _ hu'.held
    refine ⟨out, o1, o2, ?_⟩
    intro j k hj
    have hk : k < raw.n := by
      have := List.mem_of_getElem? hj
      unfold Handler.Spec.selection at this
      split at this
      · rw [hu'.nn] at this; simpa using this
      · have := hI.bound k this; rwa [hu'.nn] at this
    have hkp : k < p.length := by rw [hp.length_eq, List.length_range]; exact hk
    obtain ⟨x, x1, x2⟩ := hv k p[k] (List.getElem?_eq_getElem hkp)
    refine ⟨p[k], x, List.getElem?_eq_getElem hkp, x1, ?_⟩
    rw [o3 j]
    rw [Handler.selection_eq] at hj
    rw [hj, hu'.hh]
    simp only [Option.bind_some, x2, Option.map_some, Handler.Spec.seen]
    split <;> rfl

/-- All the properties formatted in these calls are one number per halo. -/
def Spec.AllNumbers (hs : List (Run K × Disk K)) : Prop :=
  ∀ s i other raw, LastToFormat hs s i → Uses s.1.cat s.1.opts s.2 other →
    s.2.raw.get? i = some raw → Numbers s.1.cat other raw

theorem openFile_inv (file : File K) (h box : K) (b inH : Bool) (S : Sim K)
    (hS : openFile file h box b inH = some (.ok S)) :
    ∃ l disk, file.metas = some l ∧ readAll readGroup file.groups = some disk ∧
      S = ⟨l.map (fun m => (m.index, m.redshift)), disk, h, box, inH, none⟩ := by
  unfold openFile at hS
  cases hl : file.metas with
  | none => rw [hl] at hS; simp at hS
  | some l =>
    rw [hl] at hS
    simp only at hS
    cases hd : readAll readGroup file.groups with
    | none => rw [hd] at hS; simp at hS
    | some disk =>
      rw [hd] at hS
      simp only at hS
      split at hS
      · simp at hS
      · split at hS
        · simp at hS
        · refine ⟨l, disk, rfl, rfl, ?_⟩
          unfold openSim at hS
          split at hS
          · simp at hS
          · split at hS
            · simp at hS
            · simp only [Option.some.injEq, Except.ok.injEq] at hS
              exact hS.symm

section History

variable (d0 : Disk K) (h0 : d0.file = none) (hs : List (Run K × Disk K)) (d : Disk K)
  (hist : History d0 hs d) (hnum : AllNumbers hs)

include h0 hist

theorem start_names : NamesUnique d := by
  refine hist.names ?_
  intro i g hg
  simp [groupOf, h0] at hg

theorem start_unique : Unique d := by
  refine hist.unique ?_
  intro f hf
  rw [h0] at hf; cases hf

include hnum

/-- C117, opening: after any sequence of completed calls of `format` that left a snapshot in the
file, the simulation can be opened; it lists the snapshots of the file's metadata. -/
theorem C117_opens (file : File K) (hf : d.file = some file) (hi : ∃ i, groupOf d i ≠ none)
    (h box : K) (inH : Bool) :
    ∃ l S, file.metas = some l ∧ openFile file h box false inH = some (.ok S) ∧
      S.snaps = l.map (fun m => (m.index, m.redshift)) ∧
      (∀ i, groupOf d i ≠ none → i ∈ S.snaps.map Prod.fst) ∧ (S.snaps.map Prod.fst).Nodup := by
  have hgroup : ∀ k, groupOf d k = file.groups.get? k := by intro k; simp [groupOf, hf]
  have hnames := start_names d0 h0 hs d hist
  have hun := start_unique d0 h0 hs d hist file hf
  obtain ⟨l, hl, hsort, hlist⟩ := C14_metadata_listed d0 h0 d hist.reached hi
  have hl' : file.metas = some l := by simpa [metasOf, hf] using hl
  have hcompl := fun i => (C14_history d0 h0 hs d hist i).2
  have hread : ∀ k g, file.groups.get? k = some g → (readGroup g).isSome ∧
      ∀ q ∈ g.data, q.2.units.isSome ∧ q.2.hdep.isSome := by
    intro k g hg
    rw [← hgroup] at hg
    obtain ⟨s, hs1, other, raw, hu, hraw, hc⟩ := hcompl k g hg
    obtain ⟨G, p, hG, -, -, -, hat, -⟩ := group_read s.1.cat other raw k g hc (hnames k g hg)
      (hnum s k other raw hs1 hu hraw)
    exact ⟨by rw [hG]; rfl, hat⟩
  obtain ⟨disk, hdisk⟩ := readAll_some readGroup file.groups (fun q hq =>
    (hread q.1 q.2 (dict_of_mem _ hun _ _ hq)).1)
  have hfirst : firstKeys file = .ok () := by
    unfold firstKeys
    cases hg : firstGroup file.groups with
    | none =>
      exfalso
      obtain ⟨i, hi⟩ := hi
      rw [hgroup] at hi
      cases hgr : file.groups with
      | nil => rw [hgr] at hi; exact hi rfl
      | cons q qs => rw [hgr] at hg; simp [firstGroup] at hg
    | some g =>
      obtain ⟨k, hk⟩ := firstGroup_mem file.groups hun g hg
      have : g.data.all (fun p => p.2.units.isSome && p.2.hdep.isSome) = true := by
        rw [List.all_eq_true]
        intro q hq
        obtain ⟨h1, h2⟩ := (hread k g hk).2 q hq
        simp [h1, h2]
      simp [this]
  have hne : l ≠ [] := by
    rintro rfl
    obtain ⟨i, hi⟩ := hi
    simpa using hlist i hi
  have hlen : ¬ (l.map (fun m => (m.index, m.redshift))).length = 0 := by
    simpa using hne
  refine ⟨l, ⟨l.map (fun m => (m.index, m.redshift)), disk, h, box, inH, none⟩, hl', ?_, rfl, ?_, ?_⟩
  · simp only [openFile, hl', hdisk, if_neg hne, hfirst, openSim, if_neg hlen, Bool.false_eq_true, if_false]
  · intro i hi
    simpa [List.map_map, Function.comp_def] using hlist i hi
  · simp only [List.map_map, Function.comp_def]
    exact nodup_of_sorted l hsort

/-- C117, reading: a handler got for a formatted snapshot shows the raw data of the last call that
formatted it, whatever is done with it. -/
theorem C117_read (file : File K) (hf : d.file = some file) (h box : K) (inH : Bool) (S : Sim K)
    (hS : openFile file h box false inH = some (.ok S)) (i : ℕ) (hi : groupOf d i ≠ none) :
    ∃ s other raw p st, LastToFormat hs s i ∧ Uses s.1.cat s.1.opts s.2 other ∧
      s.2.raw.get? i = some raw ∧ getSnap S i = .ok st ∧ Reachable st ∧ st.inH = false ∧
      Shows s.1.cat other raw h p st := by
  have hgroup : ∀ k, groupOf d k = file.groups.get? k := by intro k; simp [groupOf, hf]
  obtain ⟨g, hg⟩ := Option.ne_none_iff_exists'.1 hi
  obtain ⟨s, hs1, other, raw, hu, hraw, hc⟩ := (C14_history d0 h0 hs d hist i).2 g hg
  obtain ⟨l', S', hl', hS', hsn, hlist, hnd⟩ := C117_opens d0 h0 hs d hist hnum file hf ⟨i, hi⟩ h box inH
  rw [hS] at hS'; cases hS'
  obtain ⟨l, disk, hl, hdisk, hSe⟩ := openFile_inv file h box false inH S hS
  obtain ⟨r, hr, hri⟩ := List.mem_map.1 (hlist i hi)
  obtain ⟨G, p, st, hG, hwf, hst, hreach, hin, -, hsh⟩ := snapInit_shows s.1.cat other raw i g hc
    (start_names d0 h0 hs d hist i g hg) (hnum s i other raw hs1 hu hraw) r.2 h box false
  refine ⟨s, other, raw, p, st, hs1, hu, hraw, ?_, hreach, hin, hsh⟩
  have hget : S.disk.get? r.1 = some G := by
    rw [hSe]
    simp only
    rw [(readAll_get readGroup file.groups disk hdisk).2, hri, ← hgroup, hg]
    exact hG
  have := SimAll.getSnap_fresh S hnd (by rw [hSe]) r hr G hget
  rw [hri] at this
  rw [this]
  have e1 : S.h = h := by rw [hSe]
  have e2 : S.boxH = box := by rw [hSe]
  rw [e1, e2]
  exact hst

end History

/-! ## Selecting -/

/-- C117, selecting: restricting a handler to a range of a property selects as many halos as the raw
data have in that range. -/
theorem C117_select (cat : Cat K) (other : Fields) (raw : Raw K) (h : K) (p : List ℕ) (st : State K)
    (hsh : Shows cat other raw h p st) (hr : Reachable st) (e : Entry)
    (he : Stored cat.basic other e) (hne : e.sub.name ≠ "mass_cuts") (lo hi : Option K)
    (b : Option Bool) :
    (setRange st (some e.sub.name) lo hi true b).2 = .ok () ∧
    (setRange st (some e.sub.name) lo hi true b).1.nActive =
      (List.range raw.n).countP (within cat raw e h (b.getD st.inH) lo hi) := by
  obtain ⟨full, f1, f2, f3⟩ := hsh.values e he hne [] (by simp) true (some (b.getD st.inH))
  obtain ⟨r1, r2, r3, r4⟩ := Handler.C03_restrict_step st hr e.sub.name lo hi true b hne full f1
  refine ⟨r1, ?_⟩
  simp only at r2 r3 r4
  rw [r2]
  have hpl : p.length = raw.n := by rw [hsh.order.length_eq, List.length_range]
  have hperm : (setRange st (some e.sub.name) lo hi true b).1.active.Perm
      ((List.range raw.n).filter (fun k => within cat raw e h (b.getD st.inH) lo hi (p.getD k 0))) := by
    refine (List.perm_ext_iff_of_nodup (r3.imp (fun h => Nat.ne_of_lt h))
      (List.nodup_range.filter _)).2 (fun k => ?_)
    rw [r4 k, List.mem_filter, List.mem_range, hsh.count.1]
    refine and_congr_right (fun hk => ?_)
    have hsel : (Handler.Spec.selection (run st []) true)[k]? = some k := by
      have : (run st []).nAll = raw.n := hsh.count.1
      simp only [Handler.Spec.selection, if_true, this]
      exact List.getElem?_range hk
    obtain ⟨r, x, g1, g2, g3⟩ := f3 k k hsel
    have hgd : p.getD k 0 = r := by simp [List.getD_eq_getElem?_getD, g1]
    simp only [Option.getD_some] at g3
    simp only [true_or, true_and, g3, Option.some.injEq, exists_eq_left', hgd, within, g2,
      Handler.Spec.Inside, Bool.and_eq_true]
    cases lo <;> cases hi <;> simp
  rw [hperm.length_eq, ← List.countP_eq_length_filter]
  refine Eq.trans ?_ (hsh.order.countP_eq _)
  have hmap : p = (List.range raw.n).map (fun k => p.getD k 0) := by
    refine List.ext_getElem? (fun k => ?_)
    rw [List.getElem?_map]
    by_cases hk : k < raw.n
    · rw [List.getElem?_range hk]
      have : k < p.length := by omega
      simp [List.getD_eq_getElem?_getD, List.getElem?_eq_getElem this]
    · rw [List.getElem?_eq_none (by omega), List.getElem?_eq_none (by simp; omega)]
      rfl
  conv_rhs => rw [hmap, List.countP_map]
  rfl

/-! ## Snapshots that are listed but were not formatted -/

/-- A loop over the snapshots of a simulation does not end normally if it meets one that is not in
the file. -/
theorem loop_missing (f : Bool → State K → State K × Except Handler.Err Unit) (j : ℕ) (r : ℕ × K)
    (hrj : r.1 = j) (xs : List (Bool × ℕ)) (hx : ∃ x ∈ xs, x.2 = j) :
    ∀ S : Sim K, SimAll.extractMeta S j = .ok r → S.disk.get? j = none →
      (Handler.forEach (SimAll.onSnap f) S xs).2 ≠ .ok () := by
  induction xs with
  | nil => obtain ⟨x, hx, -⟩ := hx; cases hx
  | cons x xs ih =>
    intro S hm hd
    have hmiss : getSnap S j = .error .keyError := by
      simp only [getSnap, hm, hrj, hd]
    simp only [Handler.forEach]
    cases hg : getSnap S x.2 with
    | error e =>
      have : SimAll.onSnap f S x = (S, .error e) := by simp only [SimAll.onSnap, hg]
      rw [this]; simp
    | ok s =>
      have hxj : x.2 ≠ j := by
        intro e; rw [e, hmiss] at hg; cases hg
      have : SimAll.onSnap f S x = (SimAll.putSnap S x.2 (f x.1 s).1, (f x.1 s).2) := by
        simp only [SimAll.onSnap, hg]
      rw [this]
      cases hr : (f x.1 s).2 with
      | error e => simp
      | ok u =>
        refine ih ?_ _ ?_ ?_
        · obtain ⟨y, hy, hyj⟩ := hx
          rcases List.mem_cons.1 hy with rfl | hy
          · exact absurd hyj hxj
          · exact ⟨y, hy, hyj⟩
        · exact hm
        · simp only [SimAll.putSnap, PyDict.get?_set, if_neg hxj]
          exact hd

theorem init_missing (S : Sim K) (r : ℕ × K) (xs : List (ℕ × K)) (hx : r ∈ xs)
    (hd : S.disk.get? r.1 = none) : ∀ D, (Handler.forEach (SimAll.initOne S) D xs).2 ≠ .ok () := by
  induction xs with
  | nil => cases hx
  | cons x xs ih =>
    intro D
    simp only [Handler.forEach]
    rcases List.mem_cons.1 hx with rfl | hx
    · have : SimAll.initOne S D r = (D, .error .keyError) := by simp only [SimAll.initOne, hd]
      rw [this]; simp
    · cases hb : SimAll.initOne S D x with
      | mk D' res =>
        cases res with
        | error e => simp
        | ok u => exact ih hx D'

/-- C117 fails when a new file is made by a catalogue with metadata of more snapshots than it is
asked for (as when metadata were downloaded for all snapshots): the file lists every one of
them, those that were not asked for cannot be opened, and no operation on all snapshots of the
simulation succeeds. -/
theorem C117_missing (cat : Cat K) (hc : Sound cat) (o : Opts) (ans : List String) (d : Disk K)
    (hd : Unique d) (hnew : NewFile o d) (es : List (Eff K))
    (hf : format cat o ans d = some (es, .ok ())) (hcons : Consents o ans)
    (m : SnapMeta K) (hm : m ∈ cat.metas) (hj : m.index ∉ cat.snaps)
    (file : File K) (hfile : (applyAll d es).file = some file) (h box : K) (inH : Bool) (S : Sim K)
    (hS : openFile file h box false inH = some (.ok S)) :
    (m.index, m.redshift) ∈ S.snaps ∧ getSnap S m.index = .error .keyError ∧
    (∀ remake, (initializeAll S remake).2 ≠ .ok ()) ∧
    (∀ mp mo write', (makeProperty S mp mo write').2 ≠ .ok ()) ∧
    (∀ names, (deleteProperty S names).2 ≠ .ok ()) := by
  obtain ⟨l, disk, hl, hdisk, hSe⟩ := openFile_inv file h box false inH S hS
  have hmetas := ((C14_metadata_rows cat hc o ans d hd es hf hcons).1 hnew).1
  have hl2 : l = cat.metas := by
    rw [metasOf, hfile] at hmetas
    simp only [Option.bind_some, hl, Option.some.injEq] at hmetas
    exact hmetas
  obtain ⟨other, -, -, hkeep⟩ := C14_one_run cat hc o ans d hd es hf hcons
  have hnone : groupOf (applyAll d es) m.index = none :=
    ((hkeep m.index (fun hF => hj hF.1)).1 hnew)
  have hgone : S.disk.get? m.index = none := by
    rw [hSe]
    simp only
    rw [(readAll_get readGroup file.groups disk hdisk).2]
    have : file.groups.get? m.index = none := by simpa [groupOf, hfile] using hnone
    rw [this]; rfl
  have hin : (m.index, m.redshift) ∈ S.snaps := by
    rw [hSe]
    exact List.mem_map.2 ⟨m, hl2 ▸ hm, rfl⟩
  have hnd : (S.snaps.map Prod.fst).Nodup := by
    rw [hSe]
    simp only [List.map_map, Function.comp_def]
    rw [hl2]
    exact nodup_of_sorted _ hc.sorted
  have hhand : S.handlers = none := by rw [hSe]
  have hext : SimAll.extractMeta S m.index = .ok (m.index, m.redshift) := by
    simp only [SimAll.extractMeta]
    rw [SimAll.find_snap S.snaps hnd _ hin]
  have hloop : ∃ x ∈ SimAll.loopOver S.snaps, x.2 = m.index := by
    obtain ⟨b, hb⟩ := SimAll.mem_loopOver S.snaps _ hin
    exact ⟨_, hb, rfl⟩
  refine ⟨hin, ?_, ?_, ?_, ?_⟩
  · simp only [getSnap, hext, hgone]
  · intro remake
    have := init_missing S (m.index, m.redshift) S.snaps hin hgone []
    unfold initializeAll
    simp only [hhand, Option.isSome_none, Bool.false_and, Bool.false_eq_true, if_false]
    cases hfe : Handler.forEach (SimAll.initOne S) [] S.snaps with
    | mk D res =>
      rw [hfe] at this
      cases res with
      | error e => simp
      | ok u => exact absurd rfl this
  · intro mp mo write'
    unfold makeProperty
    split
    · simp
    · exact loop_missing _ m.index _ rfl _ hloop S hext hgone
  · intro names
    exact loop_missing _ m.index _ rfl _ hloop S hext hgone

/-- Every snapshot in the file's metadata has a group. -/
theorem listed_present (d0 : Disk K) (h0 : d0.file = none) (hs : List (Run K × Disk K)) (d : Disk K)
    (hist : History d0 hs d)
    (hm : ∀ r ∈ hs, ∀ m ∈ r.1.cat.metas, m.index ∈ r.1.cat.snaps) (l : List (SnapMeta K))
    (hl : metasOf d = some l) : ∀ m ∈ l, groupOf d m.index ≠ none := by
  have hU0 : Unique d0 := by intro f hf; rw [h0] at hf; cases hf
  induction hist generalizing l with
  | nil => simp [metasOf, h0] at hl
  | @run hs d hist r es hsound hcons hf ih =>
    have hU := hist.unique hU0
    obtain ⟨other, -, hdone, hkeep⟩ := C14_one_run r.cat hsound r.opts r.answers d hU es hf hcons
    have hrows := C14_metadata_rows r.cat hsound r.opts r.answers d hU es hf hcons
    have hform : ∀ i, Formats r.cat r.opts d i → groupOf (applyAll d es) i ≠ none := by
      intro i hi
      obtain ⟨raw, g, -, hg, -⟩ := hdone i hi
      rw [hg]; simp
    intro m hml
    by_cases hn : NewFile r.opts d
    · rw [(hrows.1 hn).1] at hl
      cases hl
      exact hform _ ⟨hm (r, d) (by simp) m hml, Or.inl hn⟩
    · obtain ⟨old, l', e1, e2, -, e3⟩ := hrows.2 hn
      rw [e2] at hl; cases hl
      rcases (e3 m).1 hml with ⟨h1, h2⟩ | ⟨-, h2⟩
      · rw [(hkeep m.index h2).2 hn]
        exact ih (fun r hr => hm r (by simp [hr])) old e1 m h1
      · exact hform _ h2
  | raw hist raw ih => exact ih hm l hl

/-- C117 for catalogues with metadata of just the snapshots they are asked for: everything that is
listed can be opened, and the file is one to which the claims about all snapshots of a
simulation (C53, C54, C77-C82) apply. -/
theorem C117_all_partial (d0 : Disk K) (h0 : d0.file = none) (hs : List (Run K × Disk K)) (d : Disk K)
    (hist : History d0 hs d) (hnum : AllNumbers hs)
    (hm : ∀ r ∈ hs, ∀ m ∈ r.1.cat.metas, m.index ∈ r.1.cat.snaps) (file : File K)
    (hf : d.file = some file) (h box : K) (inH : Bool) (S : Sim K)
    (hS : openFile file h box false inH = some (.ok S)) :
    SimAll.Spec.Formatted S.snaps S.disk ∧
    ∀ r ∈ S.snaps, groupOf d r.1 ≠ none ∧ ∃ st, getSnap S r.1 = .ok st := by
  obtain ⟨l, disk, hl, hdisk, hSe⟩ := openFile_inv file h box false inH S hS
  have hgroup : ∀ k, groupOf d k = file.groups.get? k := by intro k; simp [groupOf, hf]
  have hpres : ∀ r ∈ S.snaps, groupOf d r.1 ≠ none := by
    intro r hr
    rw [hSe] at hr
    obtain ⟨m, hml, rfl⟩ := List.mem_map.1 hr
    exact listed_present d0 h0 hs d hist hm l (by rw [metasOf, hf]; exact hl) m hml
  have hwf : ∀ r ∈ S.snaps, ∃ g n, S.disk.get? r.1 = some g ∧ WF g n := by
    intro r hr
    obtain ⟨g, hg⟩ := Option.ne_none_iff_exists'.1 (hpres r hr)
    obtain ⟨s, hs1, other, raw, hu, hraw, hc⟩ := (C14_history d0 h0 hs d hist r.1).2 g hg
    obtain ⟨G, p, st, hG, hwf, -⟩ := snapInit_shows s.1.cat other raw r.1 g hc
      (start_names d0 h0 hs d hist r.1 g hg) (hnum s r.1 other raw hs1 hu hraw) r.2 h box false
    refine ⟨G, raw.n, ?_, hwf⟩
    rw [hSe]
    simp only
    rw [(readAll_get readGroup file.groups disk hdisk).2, ← hgroup, hg]
    exact hG
  have hnd : (S.snaps.map Prod.fst).Nodup := by
    by_cases he : ∃ i, groupOf d i ≠ none
    · obtain ⟨l', S', -, hS', -, -, hnd⟩ := C117_opens d0 h0 hs d hist hnum file hf he h box inH
      rw [hS] at hS'; cases hS'
      exact hnd
    · cases hsn : S.snaps with
      | nil => exact List.Pairwise.nil
      | cons r rs => exact absurd ⟨r.1, hpres r (by rw [hsn]; exact List.mem_cons_self)⟩ he
  refine ⟨⟨hnd, hwf⟩, fun r hr => ⟨hpres r hr, ?_⟩⟩
  obtain ⟨s, other, raw, p, st, -, -, -, hst, -⟩ := C117_read d0 h0 hs d hist hnum file hf h box inH S hS
    r.1 (hpres r hr)
  exact ⟨st, hst⟩

/-- **C117, nothing there.** A file without snapshots, as an interrupted first run leaves it, is not
opened as a simulation. -/
theorem C117_empty_refused (d : Disk K) (file : File K) (hf : d.file = some file)
    (hno : ∀ i, groupOf d i = none) (h box : K) (b inH : Bool) :
    ∃ e, openFile file h box b inH = some (.error e) := by
  have hg : file.groups = [] := by
    cases hgr : file.groups with
    | nil => rfl
    | cons q qs =>
      have := hno q.1
      simp [groupOf, hf, hgr, PyDict.get?] at this
  unfold openFile
  cases hm : file.metas with
  | none => exact ⟨_, rfl⟩
  | some l =>
    simp only [hg, readAll]
    by_cases hl : l = []
    · exact ⟨_, by rw [if_pos hl]⟩
    · exact ⟨.indexError, by rw [if_neg hl]; simp [firstKeys, hg, firstGroup]⟩

/-- Such a file is left by a run that is interrupted before the first snapshot. -/
example : (match format demoCat {} [] demoDisk with
    | some (es, _) => (List.range es.length).any (fun n =>
        match (applyAll demoDisk (es.take n)).file with
        | some f => f.groups.isEmpty && f.metas.isSome
        | none => false)
    | none => false) = true := by decide +kernel

/-- The value of a call that ends normally, if it is one. -/
def okSome {ε α : Type} : Except ε (Option α) → Option α
  | .ok (some x) => some x
  | _ => none

/-! ## In full -/

/-- C117 in full: after any sequence of completed calls of `format`, every snapshot the opened
simulation lists can be read. -/
def C117_full : Prop :=
  ∀ (d0 : Disk ℚ) (hs : List (Run ℚ × Disk ℚ)) (d : Disk ℚ), d0.file = none → History d0 hs d →
    AllNumbers hs → ∀ (file : File ℚ), d.file = some file → ∀ (h box : ℚ) (inH : Bool) (S : Sim ℚ),
      openFile file h box false inH = some (.ok S) → ∀ r ∈ S.snaps, ∃ st, getSnap S r.1 = .ok st

/-- The catalogue of Props/Format, asked for one of the two snapshots it has metadata of. -/
def oneOfTwo : Cat ℚ := { demoCat with snaps := [0] }

theorem oneOfTwo_sound : Sound oneOfTwo := by
  obtain ⟨-, h2, h3, h4⟩ := demoCat_sound
  exact ⟨by simp [oneOfTwo], h2, fun i hi => h3 i (by simp [oneOfTwo] at hi; subst hi; simp [demoCat]), h4⟩

/-- The disk after that catalogue was formatted. -/
def oneDisk : Disk ℚ :=
  match format oneOfTwo {} [] demoDisk with
  | some (es, _) => applyAll demoDisk es
  | none => demoDisk

theorem oneOfTwo_formats : ∃ es, format oneOfTwo {} [] demoDisk = some (es, .ok ()) ∧
    oneDisk = applyAll demoDisk es := by
  have h : (format oneOfTwo {} [] demoDisk).map (fun r => match r.2 with
    | .ok () => true
    | .error _ => false) = some true := by decide +kernel
  unfold oneDisk
  cases hf : format oneOfTwo {} [] demoDisk with
  | none => rw [hf] at h; cases h
  | some q =>
    obtain ⟨es, r⟩ := q
    rw [hf] at h
    cases r with
    | error e => cases h
    | ok u => exact ⟨es, rfl, rfl⟩

/-- Properties are numbers if the raw fields with a single property are. -/
theorem numbers_of {K : Type} (cat : Cat K) (other : Fields) (raw : Raw K)
    (h : ∀ f, f ∈ cat.basic ++ other → ¬ f.2.length > 1 → ∀ c, converted cat raw f.1 = some c →
      ∃ v, c = .one v) : Numbers cat other raw := by
  intro e he j v hv
  have hprom : ∃ subs, (e.key, subs) ∈ cat.basic ++ other ∧ e.width = subs.length := by
    rcases he with ⟨subs, h1, h2, -⟩ | ⟨⟨subs, h1, h2, -⟩, -⟩
    · exact ⟨subs, List.mem_append_left _ h1, h2⟩
    · exact ⟨subs, List.mem_append_right _ h1, h2⟩
  obtain ⟨subs, h1, h2⟩ := hprom
  unfold value at hv
  cases hc : converted cat raw e.key with
  | none => rw [hc] at hv; cases hv
  | some c =>
    rw [hc] at hv
    simp only at hv
    split at hv
    · cases hr : row c j with
      | none => rw [hr] at hv; cases hv
      | some w =>
        rw [hr] at hv
        cases w with
        | num x => cases hv
        | vec l =>
          simp only [Option.map_eq_some_iff] at hv
          obtain ⟨x, -, rfl⟩ := hv
          exact ⟨x, rfl⟩
    · rename_i hw
      obtain ⟨w, rfl⟩ := h _ h1 (by rw [← h2]; exact hw) c hc
      simp only [row, Option.map_eq_some_iff] at hv
      obtain ⟨x, -, rfl⟩ := hv
      exact ⟨x, rfl⟩

/-- The fields of the demonstration are numbers. -/
theorem demo_numbers (n : ℕ) :
    Numbers oneOfTwo (merge demoCat.dm demoCat.matter) { demoRaw with n := n } := by
  refine numbers_of _ _ _ ?_
  intro f hf hw c hc
  simp only [oneOfTwo, demoCat, merge, List.foldl, PyDict.set, List.mem_append, List.mem_cons,
    List.not_mem_nil, or_false] at hf
  rcases hf with (rfl | rfl) | hf
  · simp [converted, oneOfTwo, demoCat, demoRaw, PyDict.get?] at hc
    exact ⟨_, hc.symm⟩
  · simp at hw
  · simp at hf
    rcases hf with rfl | rfl
    · simp [converted, oneOfTwo, demoCat, demoRaw, PyDict.get?] at hc
      exact ⟨_, hc.symm⟩
    · simp at hw

/-- The calls made: one, for one snapshot. -/
def oneRun : List (Run ℚ × Disk ℚ) := [(⟨oneOfTwo, {}, []⟩, demoDisk)]

theorem oneRun_history : History demoDisk oneRun oneDisk := by
  obtain ⟨es, hf, he⟩ := oneOfTwo_formats
  rw [he]
  exact History.run (History.nil demoDisk) ⟨oneOfTwo, {}, []⟩ es oneOfTwo_sound (by intro h; cases h) hf

theorem oneRun_numbers : AllNumbers oneRun := by
  intro s i other raw hl hu hraw
  obtain ⟨pre, post, he, -, -⟩ := hl
  have hs : s ∈ oneRun := by rw [he]; simp
  simp only [oneRun, List.mem_singleton] at hs
  subst hs
  rcases hu with ⟨-, ho⟩ | ⟨hn, -⟩
  · simp only [Bool.false_eq_true, if_false] at ho
    have ho' : other = merge demoCat.dm demoCat.matter := ho
    subst ho'
    simp only [demoDisk, PyDict.get?] at hraw
    split at hraw
    · cases hraw; exact demo_numbers 3
    · split at hraw
      · cases hraw; exact demo_numbers 0
      · cases hraw
  · exact absurd (Or.inr (fun i => rfl)) hn

/-- The file made. -/
def oneFile : File ℚ := oneDisk.file.getD {}

theorem oneDisk_file : oneDisk.file = some oneFile := by
  have h : oneDisk.file.isSome = true := by decide +kernel
  obtain ⟨f, hf⟩ := Option.isSome_iff_exists.1 h
  rw [oneFile, hf]; rfl

/-- The hypotheses of the theorems of this file are met: this is what the handler of the snapshot
that was formatted returns, in h units and without. -/
example : (match openFile oneFile (1 / 2) 10 false true with
    | some (.ok S) =>
      match getSnap S 0 with
      | .ok st => okSome (returnProperty st "mass" true (some true)) == some [some 20, some 20, some 10] &&
          okSome (returnProperty st "mass" true none) == some [some 40, some 40, some 20] &&
          okSome (returnProperty st "pos_x" true (some true)) == some [some 3, some 2, some 1] &&
          (setRange st (some "mass") (some 15) none true (some true)).1.nActive == 2
      | .error _ => false
    | _ => false) = true := by decide +kernel

/-- The hypotheses of `C117_all_partial` are met by the catalogue asked for both snapshots. -/
example : ∃ es, History demoDisk [(⟨demoCat, {}, []⟩, demoDisk)] (applyAll demoDisk es) ∧
    (∀ m ∈ demoCat.metas, m.index ∈ demoCat.snaps) ∧
    Numbers demoCat (merge demoCat.dm demoCat.matter) demoRaw := by
  have h : (format demoCat {} [] demoDisk).map (fun r => match r.2 with
    | .ok () => true
    | .error _ => false) = some true := by decide +kernel
  cases hf : format demoCat {} [] demoDisk with
  | none => rw [hf] at h; cases h
  | some q =>
    obtain ⟨es, r⟩ := q
    rw [hf] at h
    cases r with
    | error e => cases h
    | ok u =>
      exact ⟨es, History.run (History.nil demoDisk) ⟨demoCat, {}, []⟩ es demoCat_sound
        (by intro h; cases h) hf, by decide +kernel, demo_numbers 3⟩

/-- C117 is false at full strength. -/
theorem C117_full_false : ¬ C117_full := by
  intro H
  obtain ⟨es, hf, he⟩ := oneOfTwo_formats
  obtain ⟨l, S, -, hS, -⟩ := C117_opens demoDisk rfl oneRun oneDisk oneRun_history oneRun_numbers oneFile
    oneDisk_file ⟨0, by
      have : (groupOf oneDisk 0).isSome = true := by decide +kernel
      intro h; rw [h] at this; cases this⟩ (1 / 2) 10 true
  obtain ⟨h1, h2, -⟩ := C117_missing oneOfTwo oneOfTwo_sound {} [] demoDisk demoDisk_unique
    (Or.inr (fun i => rfl)) es hf (by intro h; cases h) (demoMeta 1 0) (by simp [oneOfTwo, demoCat])
    (by simp [oneOfTwo, demoMeta]) oneFile (by rw [← he]; exact oneDisk_file) (1 / 2) 10 true S hS
  obtain ⟨st, hst⟩ := H demoDisk oneRun oneDisk rfl oneRun_history oneRun_numbers oneFile oneDisk_file
    (1 / 2) 10 true S hS _ h1
  rw [show ((demoMeta 1 0).index, (demoMeta 1 0).redshift).1 = (demoMeta 1 0).index from rfl, h2] at hst
  cases hst

end Verif.Format
