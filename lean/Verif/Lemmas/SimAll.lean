import Verif.Spec.SimAll
import Verif.Props.HandlerDisk

set_option linter.unusedSectionVars false

/-!
# Lemmas about loops over the snapshots of a simulation
-/

namespace Verif.SimAll
open Verif.Handler Verif.SimAll.Spec

variable {K : Type} [DivisionRing K]

/-! ## The loop -/

theorem putSnap_disk (S : Sim K) (i j : ℕ) (s : State K) :
    (putSnap S i s).disk.get? j = if i = j then some s.file else S.disk.get? j := by
  simp [putSnap]

theorem putSnap_get (S : Sim K) (i j : ℕ) (s : State K) (h : i ≠ j) :
    getSnap (putSnap S i s) j = getSnap S j := by
  unfold getSnap extractMeta
  have e1 : (putSnap S i s).snaps = S.snaps := rfl
  rw [e1]
  rcases hf : S.snaps.find? (fun r => decide (r.1 = j)) with _ | r
  · simp only [hf]
  · have hr : r.1 = j := by simpa using List.find?_some hf
    simp only [hf]
    rw [putSnap_disk, hr, if_neg h]
    rcases S.disk.get? j with _ | g
    · rfl
    · simp only
      have e2 : (putSnap S i s).handlers = S.handlers.map (fun d => d.set i s) := rfl
      rw [e2]
      rcases hh : S.handlers with _ | d
      · simp only [hh, Option.map_none]; rfl
      · simp only [hh, Option.map_some, PyDict.get?_set, if_neg h]

theorem onSnap_same (f : Bool → State K → State K × Except Err Unit) (S : Sim K) (x : Bool × ℕ) :
    (onSnap f S x).1.snaps = S.snaps ∧ (onSnap f S x).1.h = S.h ∧
    (onSnap f S x).1.boxH = S.boxH ∧ (onSnap f S x).1.inH = S.inH ∧
    ((onSnap f S x).1.handlers.isSome = S.handlers.isSome) := by
  unfold onSnap
  split
  · exact ⟨rfl, rfl, rfl, rfl, rfl⟩
  · refine ⟨rfl, rfl, rfl, rfl, ?_⟩
    simp [putSnap]

theorem onSnap_other (f : Bool → State K → State K × Except Err Unit) (S : Sim K) (x : Bool × ℕ)
    (j : ℕ) (h : x.2 ≠ j) :
    getSnap (onSnap f S x).1 j = getSnap S j ∧ (onSnap f S x).1.disk.get? j = S.disk.get? j := by
  unfold onSnap
  split
  · exact ⟨rfl, rfl⟩
  · exact ⟨putSnap_get _ _ _ _ h, by rw [putSnap_disk, if_neg h]⟩

/-- A snapshot was treated by the loop without an exception. -/
def Done (f : Bool → State K → State K × Except Err Unit) (S S' : Sim K) (x : Bool × ℕ) : Prop :=
  ∃ s s', getSnap S x.2 = .ok s ∧ f x.1 s = (s', .ok ()) ∧ S'.disk.get? x.2 = some s'.file ∧
    (S'.handlers.isSome → getSnap S' x.2 = .ok s')

/-- A snapshot was not touched by the loop. -/
def Untouched (S S' : Sim K) (j : ℕ) : Prop :=
  getSnap S' j = getSnap S j ∧ S'.disk.get? j = S.disk.get? j

/-- The loop failed at this snapshot. -/
def FailedAt (f : Bool → State K → State K × Except Err Unit) (S S' : Sim K) (x : Bool × ℕ) (e : Err) :
    Prop :=
  (getSnap S x.2 = .error e ∧ Untouched S S' x.2) ∨
  ∃ s s', getSnap S x.2 = .ok s ∧ f x.1 s = (s', .error e) ∧ S'.disk.get? x.2 = some s'.file ∧
    (S'.handlers.isSome → getSnap S' x.2 = .ok s')

theorem getSnap_put_self (S : Sim K) (i : ℕ) (s s' : State K) (h : getSnap S i = .ok s)
    (hs : S.handlers.isSome) : getSnap (putSnap S i s') i = .ok s' := by
  unfold getSnap extractMeta at h ⊢
  have e1 : (putSnap S i s').snaps = S.snaps := rfl
  rw [e1]
  rcases hf : S.snaps.find? (fun r => decide (r.1 = i)) with _ | r
  · rw [hf] at h; simp at h
  · have hr : r.1 = i := by simpa using List.find?_some hf
    simp only [hf, hr, putSnap_disk, if_true]
    have e2 : (putSnap S i s').handlers = S.handlers.map (fun d => d.set i s') := rfl
    rw [e2]
    rcases hd : S.handlers with _ | d
    · rw [hd] at hs; simp at hs
    · simp

theorem loop_spec (f : Bool → State K → State K × Except Err Unit) (xs : List (Bool × ℕ))
    (hnd : (xs.map Prod.snd).Nodup) (S S' : Sim K) (r : Except Err Unit)
    (h : forEach (onSnap f) S xs = (S', r)) :
    (S'.snaps = S.snaps ∧ S'.h = S.h ∧ S'.boxH = S.boxH ∧ S'.inH = S.inH ∧
      S'.handlers.isSome = S.handlers.isSome) ∧
    (∀ j, j ∉ xs.map Prod.snd → Untouched S S' j) ∧
    ((r = .ok () ∧ ∀ x ∈ xs, Done f S S' x) ∨
     ∃ e pre x post, r = .error e ∧ xs = pre ++ x :: post ∧ (∀ y ∈ pre, Done f S S' y) ∧
       FailedAt f S S' x e ∧ ∀ y ∈ post, Untouched S S' y.2) := by
  induction xs generalizing S with
  | nil =>
    simp only [forEach, Prod.mk.injEq] at h
    obtain ⟨rfl, rfl⟩ := h
    exact ⟨⟨rfl, rfl, rfl, rfl, rfl⟩, fun j _ => ⟨rfl, rfl⟩, Or.inl ⟨rfl, by simp⟩⟩
  | cons x xs ih =>
    simp only [List.map_cons, List.nodup_cons] at hnd
    have hs := onSnap_same f S x
    rcases hb : onSnap f S x with ⟨S1, e | ⟨⟩⟩
    · -- exception
      simp only [forEach, hb, Prod.mk.injEq] at h
      obtain ⟨rfl, rfl⟩ := h
      rw [hb] at hs
      have hother := fun j (hj : x.2 ≠ j) => onSnap_other f S x j hj
      rw [hb] at hother
      refine ⟨hs, ?_, Or.inr ⟨e, [], x, xs, rfl, rfl, by simp, ?_, ?_⟩⟩
      · intro j hj
        simp only [List.map_cons, List.mem_cons, not_or] at hj
        exact hother j (fun e => hj.1 e.symm)
      · unfold onSnap at hb
        rcases hg : getSnap S x.2 with e' | s
        · rw [hg] at hb
          simp only [Prod.mk.injEq, Except.error.injEq] at hb
          obtain ⟨rfl, rfl⟩ := hb
          exact Or.inl ⟨hg, rfl, rfl⟩
        · rw [hg] at hb
          simp only [Prod.mk.injEq] at hb
          obtain ⟨rfl, hb2⟩ := hb
          refine Or.inr ⟨s, (f x.1 s).1, hg, Prod.ext rfl hb2, by rw [putSnap_disk, if_pos rfl], ?_⟩
          intro hh
          exact getSnap_put_self S x.2 s _ hg (by simpa [putSnap] using hh)
      · intro y hy
        exact hother y.2 (fun e => hnd.1 (e ▸ List.mem_map_of_mem hy))
    · simp only [forEach, hb] at h
      rw [hb] at hs
      have hother := fun j (hj : x.2 ≠ j) => onSnap_other f S x j hj
      rw [hb] at hother
      obtain ⟨i1, i2, i3⟩ := ih hnd.2 S1 h
      obtain ⟨a1, a2, a3, a4, a5⟩ := hs
      obtain ⟨b1, b2, b3, b4, b5⟩ := i1
      simp only at a1 a2 a3 a4 a5
      have hx : Done f S S' x := by
        unfold onSnap at hb
        rcases hg : getSnap S x.2 with e' | s
        · rw [hg] at hb; simp at hb
        · rw [hg] at hb
          simp only [Prod.mk.injEq] at hb
          obtain ⟨rfl, hb2⟩ := hb
          obtain ⟨u1, u2⟩ := i2 x.2 hnd.1
          refine ⟨s, (f x.1 s).1, hg, Prod.ext rfl hb2, by rw [u2, putSnap_disk, if_pos rfl], ?_⟩
          intro hh
          rw [u1]
          exact getSnap_put_self S x.2 s _ hg (by rw [← a5, ← b5]; exact hh)
      have hne : ∀ y ∈ xs, x.2 ≠ y.2 := fun y hy e => hnd.1 (e ▸ List.mem_map_of_mem hy)
      have lift : ∀ y ∈ xs, Done f S1 S' y → Done f S S' y := by
        intro y hy ⟨s, s', c1, c2⟩
        exact ⟨s, s', by rw [← (hother y.2 (hne y hy)).1]; exact c1, c2⟩
      have liftU : ∀ j, x.2 ≠ j → Untouched S1 S' j → Untouched S S' j := by
        intro j hj ⟨c1, c2⟩
        exact ⟨by rw [c1, (hother j hj).1], by rw [c2, (hother j hj).2]⟩
      refine ⟨⟨b1.trans a1, b2.trans a2, b3.trans a3, b4.trans a4, b5.trans a5⟩, ?_, ?_⟩
      · intro j hj
        simp only [List.map_cons, List.mem_cons, not_or] at hj
        exact liftU j (fun e => hj.1 e.symm) (i2 j hj.2)
      · rcases i3 with ⟨rfl, hall⟩ | ⟨e, pre, y, post, rfl, rfl, h1, h2, h3⟩
        · refine Or.inl ⟨rfl, ?_⟩
          intro y hy
          rcases List.mem_cons.1 hy with rfl | hy
          · exact hx
          · exact lift y hy (hall y hy)
        · refine Or.inr ⟨e, x :: pre, y, post, rfl, rfl, ?_, ?_, ?_⟩
          · intro z hz
            rcases List.mem_cons.1 hz with rfl | hz
            · exact hx
            · exact lift z (by simp [hz]) (h1 z hz)
          · have hy := hother y.2 (hne y (by simp))
            rcases h2 with ⟨c1, c2⟩ | ⟨s, s', c1, c2⟩
            · exact Or.inl ⟨by rw [← hy.1]; exact c1, liftU _ (hne y (by simp)) c2⟩
            · exact Or.inr ⟨s, s', by rw [← hy.1]; exact c1, c2⟩
          · intro z hz
            exact liftU z.2 (hne z (by simp [hz])) (h3 z hz)

theorem loopOver_snd (snaps : List (ℕ × K)) : (loopOver snaps).map Prod.snd = snaps.map Prod.fst := by
  cases snaps with
  | nil => rfl
  | cons r rs => simp [loopOver, List.map_map, Function.comp_def]

/-! ## Opening a snapshot -/

theorem snapInit_ok (g : PyDict Name (Dataset K)) (n : ℕ) (hwf : Handler.Spec.WF g n) (z h box : K)
    (b : Bool) :
    ∃ s, snapInit g z h box b = .ok s ∧ s.file = g ∧ s.nAll = n ∧ s.h = h ∧ s.inH = b ∧
      s.loaded = [] ∧ s.active = List.range n ∧
      (∀ p, p ∈ s.all ↔ (p ≠ "mass_cuts" ∧ (g.get? p).isSome)) ∧
      (∀ p, p ∈ s.saved ↔ (p ≠ "mass_cuts" ∧ (g.get? p).isSome)) ∧
      (∀ p, p ≠ "mass_cuts" → s.hdep.get? p = (g.get? p).bind Dataset.hdep) ∧
      ∃ s0 extra, init g h b = .ok s0 ∧ s = { s0 with extra := extra } := by
  obtain ⟨s0, h0, h1, h2, h3, h4, h5, h6, h7, h8, h9, h10, h11, h12, h13⟩ := init_ok g n hwf h b
  have hs : ∃ ex, snapInit g z h box b = .ok { s0 with extra := ex } := by
    simp only [snapInit, h0, snapSetInH]
    simp only [← h4]
    exact ⟨_, rfl⟩
  obtain ⟨ex, hs⟩ := hs
  exact ⟨_, hs, h1, h2, h3, h4, h5, h7, h9, h10, h11, s0, _, h0, rfl⟩

variable [LE K] [DecidableLE K]

theorem snapInit_reachable (g : PyDict Name (Dataset K)) (n : ℕ) (hwf : Handler.Spec.WF g n) (z h box : K)
    (b : Bool) (s : State K) (hs : snapInit g z h box b = .ok s) : Handler.Spec.Reachable s := by
  obtain ⟨s', h0, -, -, -, -, -, -, -, -, -, s0, extra, h1, h2⟩ := snapInit_ok g n hwf z h box b
  rw [hs] at h0; cases h0
  exact ⟨g, n, h, b, s0, extra, [], hwf, h1, h2⟩

/-! ## One snapshot of `make_property` -/

theorem scatter_filled (n : ℕ) (sel : List ℕ) (vals out : List (V K)) (hnd : sel.Nodup)
    (hb : ∀ i ∈ sel, i < n) (h : scatter (List.replicate n (none : V K)) sel vals = .ok out) :
    Filled n sel vals out := by
  have hlen : out.length = n := by rw [scatter_length _ _ _ _ h]; simp
  by_cases hl : vals.length = sel.length
  · obtain ⟨out', d1, -, d3, d4⟩ := scatter_spec (List.replicate n (none : V K)) sel vals hl hnd
      (by simpa using hb)
    rw [h] at d1; cases d1
    refine ⟨hlen, ?_, Or.inl ⟨hl, d3⟩⟩
    intro i hi hni
    rw [d4 i hni]; simp [hi]
  · unfold scatter at h
    rw [if_neg hl] at h
    split at h
    · rename_i v
      simp only [Except.ok.injEq] at h
      subst h
      refine ⟨hlen, ?_, Or.inr ⟨v, rfl, ?_⟩⟩
      · intro i hi hni
        have := foldl_set_get_notin (sel.map (fun i => (i, v)))
            (List.replicate n (none : V K)) i (by
              rw [List.map_map]
              have he : (Prod.fst ∘ fun i : ℕ => (i, v)) = id := rfl
              rw [he, List.map_id]
              exact hni)
        rw [List.foldl_map] at this
        rw [this]; simp [hi]
      · have key : ∀ (l : List ℕ) (a : List (V K)) (i : ℕ), i < a.length →
            (i ∈ l ∨ a[i]? = some v) → (l.foldl (fun a i => a.set i v) a)[i]? = some v := by
          intro l
          induction l with
          | nil => intro a i _ h; simpa using h
          | cons x l ih =>
            intro a i hi h
            simp only [List.foldl_cons]
            apply ih
            · simpa using hi
            · by_cases hx : x = i
              · subst hx; right; simp [List.getElem?_set_self, hi]
              · rcases h with h | h
                · rcases List.mem_cons.1 h with h | h
                  · exact absurd h.symm hx
                  · exact Or.inl h
                · right; rw [List.getElem?_set_ne hx]; exact h
        intro i hi
        exact key sel _ i (by simpa using hb i hi) (Or.inl hi)
    · simp at h

theorem write_succeeds (ov : Bool) (names : List Name) (s : State K) (hnd : names.Nodup)
    (h : ∀ n ∈ names, ∃ v, s.loaded.get? n = some v ∧ (s.units.get? n).isSome ∧
      (s.hdep.get? n).isSome ∧ (ov = true ∨ n ∉ s.saved) ∧
      ∀ d, s.file.get? n = some d → d.vals.length = v.length) :
    ∃ s', write s names ov = (s', .ok ()) := by
  unfold write
  induction names generalizing s with
  | nil => exact ⟨s, rfl⟩
  | cons n ns ih =>
    simp only [List.nodup_cons] at hnd
    obtain ⟨v, h1, h2, h3, h4, h5⟩ := h n (by simp)
    obtain ⟨u, hu⟩ := Option.isSome_iff_exists.1 h2
    obtain ⟨e, he⟩ := Option.isSome_iff_exists.1 h3
    have hne : (decide (n ∈ s.saved) && !ov) = false := by
      rcases h4 with h4 | h4 <;> simp [h4]
    have hw : ∃ d, writeOne ov s n = ({ s with
        file := s.file.set n d
        saved := if n ∈ s.saved then s.saved else s.saved ++ [n] }, .ok ()) := by
      unfold writeOne
      simp only [h1, hne, Bool.false_eq_true, if_false]
      rcases hf : s.file.get? n with _ | d
      · simp only [hu, he]; exact ⟨_, rfl⟩
      · simp only [h5 d hf, if_true, hu, he]; exact ⟨_, rfl⟩
    obtain ⟨d, hw⟩ := hw
    have := ih { s with file := s.file.set n d
                        saved := if n ∈ s.saved then s.saved else s.saved ++ [n] } hnd.2 (by
      intro q hq
      have hqn : ¬ n = q := fun e => hnd.1 (e ▸ hq)
      obtain ⟨v, c1, c2, c3, c4, c5⟩ := h q (by simp [hq])
      refine ⟨v, c1, c2, c3, ?_, ?_⟩
      · rcases c4 with c4 | c4
        · exact Or.inl c4
        · right
          simp only
          split
          · exact c4
          · simp only [List.mem_append, List.mem_singleton, not_or]
            exact ⟨c4, fun e => hqn e.symm⟩
      · intro d' hd'
        simp only [PyDict.get?_set, if_neg hqn] at hd'
        exact c5 d' hd')
    obtain ⟨s', hs'⟩ := this
    exact ⟨s', by simp only [forEach, hw]; exact hs'⟩

/-- Everything known after the in-memory part of `make_property`. -/
theorem make_facts (s s' : State K) (hI : Inv s) (m : MultiProp K) (o : MakeOpts K)
    (hnd : (o.rename.getD m.names).Nodup)
    (hm : make s m { o with writeDisk := false } = (s', .ok ())) :
    Inv s' ∧ SameBase s s' ∧
    (o.overwrite = false → ∀ n ∈ o.rename.getD m.names, n ∉ s.all) ∧
    ∃ vals, evaluateAll m s o.useAll o.remap o.otherKws = .ok vals ∧
      vals.length = (o.rename.getD m.names).length ∧
      (o.rename.getD m.names).length = m.names.length ∧
      ∀ (k : ℕ) (orig name : Name) (arr : Arr K), m.names[k]? = some orig →
        (o.rename.getD m.names)[k]? = some name → vals[k]? = some arr →
        ∃ out un hd e, Filled s.nAll (Handler.Spec.selection s o.useAll) arr.vals out ∧
          m.units.get? orig = some un ∧ m.hdep = some hd ∧ hd.get? orig = some e ∧
          s'.loaded.get? name = some out ∧ s'.units.get? name = some un ∧
          s'.hdep.get? name = some e := by
  have hI' : Inv s' := by
    have := make_inv s m { o with writeDisk := false } hI; rw [hm] at this; exact this
  obtain ⟨exist, vals, hl, hex, hev, hst⟩ := make_ok s s' m _ rfl hm
  simp only at hl hex hev hst
  obtain ⟨x1, x2⟩ := checkNames_ok s _ _ _ hex
  have hvl := evaluateAll_length _ _ _ _ _ _ hev
  have hnames := items_names m.names (o.rename.getD m.names) exist vals hl (by omega) hvl
  obtain ⟨b1, b2, b3, b4⟩ := storeAll_ok _ _ _ _ s s' (by rw [hnames]; exact hnd) (by
    intro it hit hite
    obtain ⟨k, hk⟩ := List.getElem?_of_mem hit
    rw [items_get] at hk
    simp only [Option.bind_eq_some_iff, Option.map_eq_some_iff] at hk
    obtain ⟨n, -, nm, hnm, b, hb, a, -, rfl⟩ := hk
    exact (x2 k nm b hnm hb).1 hite) hst
  refine ⟨hI', b1, ?_, vals, hev, by omega, hl, ?_⟩
  · intro hov n hn hin
    have key : ∀ (l : List Name) bs, checkNames s o.overwrite l = .ok bs → n ∈ l → False := by
      intro l
      induction l with
      | nil => intro bs _ h; simp at h
      | cons x l ih =>
        intro bs hc hmem
        unfold checkNames at hc
        by_cases hx : x ∈ s.all
        · rw [if_pos hx, hov] at hc; simp at hc
        · rw [if_neg hx] at hc
          rcases hc' : checkNames s o.overwrite l with e | bs'
          · rw [hc'] at hc; simp at hc
          · rcases List.mem_cons.1 hmem with rfl | hmem
            · exact hx hin
            · exact ih bs' hc' hmem
    exact key _ _ hex hn
  · intro k orig name arr ho hk hv
    have hkl : k < m.names.length := by
      by_contra hc; rw [List.getElem?_eq_none (by omega)] at ho; simp at ho
    have hit : (items m.names (o.rename.getD m.names) exist vals)[k]? =
        some ⟨orig, name, exist[k]'(by omega), arr⟩ := by
      rw [items_get, hk, hv, ho, List.getElem?_eq_getElem (by omega : k < exist.length)]
      rfl
    obtain ⟨-, -, out, un, hd', e, c1, c2, c3, c4, c5, c6, c7⟩ := b4 _ (List.mem_of_getElem? hit)
    exact ⟨out, un, hd', e, scatter_filled _ _ _ _ (inds_nodup s hI _)
      (fun i hi => inds_bound s hI _ i hi) c1, c2, c3, c4, c5, c6, c7⟩

theorem makeSnap_ok (s s' : State K) (hI : Inv s) (m : MultiProp K) (o : MakeOpts K) (first : Bool)
    (hnd : (o.rename.getD m.names).Nodup) (hm : makeSnap m o true first s = (s', .ok ())) :
    (o.overwrite = false → ∀ n ∈ o.rename.getD m.names, n ∉ s.all) ∧
    (first = true → ∀ n ∈ o.rename.getD m.names, ∀ d, s.file.get? n = some d →
      d.userdefined = true) ∧
    ∃ vals, evaluateAll m s o.useAll o.remap o.otherKws = .ok vals ∧
      Stored s.file s'.file m (o.rename.getD m.names) vals s.nAll
        (Handler.Spec.selection s o.useAll) := by
  unfold makeSnap at hm
  rcases h1 : make s m { o with writeDisk := false } with ⟨s1, e | ⟨⟩⟩
  · rw [h1] at hm; simp at hm
  · rw [h1] at hm
    simp only [Bool.not_true, Bool.false_eq_true, if_false] at hm
    obtain ⟨-, hb, hno, vals, hev, hvl, hl, hfacts⟩ := make_facts s s1 hI m o hnd h1
    have hmk : makeNames m o.rename = .ok (o.rename.getD m.names) := by
      unfold makeNames
      cases hro : o.rename with
      | none => rfl
      | some r => rw [hro] at hl; simp only [Option.getD_some] at hl ⊢; simp [hl]
    rw [hmk] at hm
    simp only at hm
    rcases h2 : (if first then checkFirst o.overwrite s1.file (o.rename.getD m.names) else .ok ())
      with e | ⟨⟩
    · rw [h2] at hm; simp at hm
    · rw [h2] at hm
      simp only at hm
      rcases h3 : write s1 (o.rename.getD m.names) o.overwrite with ⟨s2, e | ⟨⟩⟩
      · rw [h3] at hm; simp at hm
      · rw [h3] at hm
        simp only [Prod.mk.injEq, and_true] at hm
        subst hm
        refine ⟨hno, ?_, vals, hev, ?_, ?_, hvl, hl⟩
        · intro hf
          rw [hf] at h2
          simp only [if_true] at h2
          rw [← hb.file]
          have key : ∀ l, checkFirst o.overwrite s1.file l = .ok () → ∀ n ∈ l, ∀ d,
              s1.file.get? n = some d → d.userdefined = true := by
            intro l
            induction l with
            | nil => intro _ n hn; simp at hn
            | cons x l ih =>
              intro hc n hn d hd
              unfold checkFirst at hc
              rcases hx : s1.file.get? x with _ | d'
              · rw [hx] at hc
                rcases List.mem_cons.1 hn with rfl | hn
                · rw [hd] at hx; simp at hx
                · exact ih hc n hn d hd
              · rw [hx] at hc
                simp only at hc
                by_cases ho : o.overwrite = true
                · rw [ho] at hc
                  simp only [Bool.not_true, Bool.false_eq_true, if_false] at hc
                  by_cases hu : d'.userdefined = true
                  · rw [hu] at hc
                    simp only [Bool.not_true, Bool.false_eq_true, if_false] at hc
                    rcases List.mem_cons.1 hn with rfl | hn
                    · rw [hd] at hx; cases hx; exact hu
                    · exact ih (by rw [ho]; exact hc) n hn d hd
                  · rw [Bool.eq_false_iff.2 hu] at hc; simp at hc
                · rw [Bool.eq_false_iff.2 ho] at hc; simp at hc
          exact key _ h2
        · intro k orig name arr ho hk hv
          obtain ⟨out, un, hd, e, f1, f2, f3, f4, f5, f6, f7⟩ := hfacts k orig name arr ho hk hv
          obtain ⟨d, vals', e', u', g1, g2, g3, g4, g5, g6, g7, g8⟩ :=
            write_ok_file _ _ _ _ h3 name (List.mem_of_getElem? hk)
          rw [f5] at g2; cases g2
          rw [f7] at g4; cases g4
          rw [f6] at g6; cases g6
          refine ⟨d, hd, g1, by rw [g3]; exact f1, g8, by rw [f2, g7], by simp [g7], f3,
            by rw [f4, g5], by simp [g5]⟩
        · intro q hq
          have := write_file o.overwrite s1 _ q hq
          rw [h3] at this
          rw [← hb.file]
          exact this

/-- On a newly opened snapshot a failed `make_property` leaves the file alone, and it fails only if
the property cannot be made or the first snapshot's check refuses it. -/
theorem makeSnap_error (s s' : State K) (hI : Inv s) (m : MultiProp K) (o : MakeOpts K) (first : Bool)
    (hnd : (o.rename.getD m.names).Nodup) (hmc : "mass_cuts" ∉ o.rename.getD m.names)
    (hsaved : ∀ p ∈ s.saved, p ∈ s.all) (e : Err)
    (hm : makeSnap m o true first s = (s', .error e)) : s'.file = s.file ∧
      ((make s m { o with writeDisk := false }).2 = .error e ∨
        (first = true ∧ checkFirst o.overwrite s.file (o.rename.getD m.names) = .error e)) := by
  unfold makeSnap at hm
  rcases h1 : make s m { o with writeDisk := false } with ⟨s1, e | ⟨⟩⟩
  · rw [h1] at hm
    simp only [Prod.mk.injEq] at hm
    obtain ⟨rfl, he⟩ := hm
    refine ⟨?_, Or.inl he⟩
    have := step_file_same s (.make m { o with writeDisk := false }) (by simp [Handler.Spec.writesFile])
    simp only [step, h1] at this
    exact this
  · rw [h1] at hm
    simp only [Bool.not_true, Bool.false_eq_true, if_false] at hm
    obtain ⟨hI1, hb, hno, vals, hev, hvl, hl, hfacts⟩ := make_facts s s1 hI m o hnd h1
    have hmk : makeNames m o.rename = .ok (o.rename.getD m.names) := by
      unfold makeNames
      cases hro : o.rename with
      | none => rfl
      | some r => rw [hro] at hl; simp only [Option.getD_some] at hl ⊢; simp [hl]
    rw [hmk] at hm
    simp only at hm
    rcases h2 : (if first then checkFirst o.overwrite s1.file (o.rename.getD m.names) else .ok ())
      with e | ⟨⟩
    · rw [h2] at hm
      simp only [Prod.mk.injEq, Except.error.injEq] at hm
      obtain ⟨rfl, rfl⟩ := hm
      rw [hb.file] at h2 ⊢
      refine ⟨rfl, Or.inr ?_⟩
      cases first with
      | false => simp at h2
      | true => exact ⟨rfl, by simpa using h2⟩
    · rw [h2] at hm
      simp only at hm
      obtain ⟨s2, hs2⟩ := write_succeeds o.overwrite (o.rename.getD m.names) s1 hnd (by
        intro n hn
        obtain ⟨k, hk⟩ := List.getElem?_of_mem hn
        have hkl : k < (o.rename.getD m.names).length := by
          by_contra hc; rw [List.getElem?_eq_none (by omega)] at hk; simp at hk
        obtain ⟨out, un, hd, e, f1, f2, f3, f4, f5, f6, f7⟩ := hfacts k _ n _
          (List.getElem?_eq_getElem (by omega)) hk (List.getElem?_eq_getElem (by omega))
        have hne : n ≠ "mass_cuts" := fun e => hmc (e ▸ hn)
        refine ⟨out, f5, by simp [f6], by simp [f7], ?_, ?_⟩
        · cases hov : o.overwrite with
          | true => exact Or.inl rfl
          | false =>
            right
            rw [hb.saved]
            exact fun h => hno hov n hn (hsaved n h)
        · intro d hd
          rw [hI1.fileLen n d hd hne, hI1.loadedLen n out f5 hne])
      rw [hs2] at hm
      simp at hm

end Verif.SimAll
