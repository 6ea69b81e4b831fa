import Verif.Lemmas.InstrumentInv
import Mathlib.Data.List.Perm.Basic
import Mathlib.Data.List.Perm.Subperm

/-!
# Groups of detectors

Groups partition the detectors, and evaluating detectors in groups gives the same as
evaluating each one alone.
-/

set_option linter.unusedSectionVars false

namespace Verif.Inst
open Spec
variable {F D O X G B H M P V T S Q K : Type}

/-- The comparison succeeded and says yes. -/
def yes : Except Err Bool → Bool
  | .ok b => b
  | .error _ => false

theorem filter_flags (f : Name → Except Err Bool) (l : List Name) (flags : List Bool)
    (h : mapE f l = .ok flags) :
    ((l.zip flags).filter (fun p => p.2)).map (fun p => p.1) = l.filter (fun d => yes (f d)) := by
  induction l generalizing flags with
  | nil => simp
  | cons x xs ih =>
    simp only [mapE] at h
    rcases hx : f x with e | b
    · rw [hx] at h; cases h
    rw [hx] at h
    simp only at h
    rcases hm : mapE f xs with e | bs
    · rw [hm] at h; cases h
    rw [hm] at h
    simp only [Except.ok.injEq] at h
    subst h
    have := ih bs hm
    cases b
    · rw [List.zip_cons_cons, List.filter_cons_of_neg (by simp),
        List.filter_cons_of_neg (by simp [hx, yes]), this]
    · rw [List.zip_cons_cons, List.filter_cons_of_pos (by simp),
        List.filter_cons_of_pos (by simp [hx, yes]), List.map_cons, this]

/-- Groups partition the names; each group is not empty and all its members match its first. -/
theorem groupLoop_spec (same : Name → Name → Except Err Bool) (n : ℕ) (names : List Name)
    (hn : names.length ≤ n) (hr : ∀ d b, same d d = .ok b → b = true)
    (groups : List (List Name)) (h : groupLoop same n names = .ok groups) :
    groups.flatten.Perm names ∧
    ∀ g ∈ groups, ∃ d0 ds, g = d0 :: ds ∧ ∀ d ∈ g, same d d0 = .ok true := by
  induction n generalizing names groups with
  | zero =>
    have : names = [] := List.length_eq_zero_iff.1 (by omega)
    subst this
    simp only [groupLoop, Except.ok.injEq] at h
    subst h
    simp
  | succ n ih =>
    cases names with
    | nil =>
      simp only [groupLoop, Except.ok.injEq] at h
      subst h
      simp
    | cons d0 rest =>
      simp only [groupLoop] at h
      rcases hm : mapE (fun d => same d d0) (d0 :: rest) with e | flags
      · rw [hm] at h; cases h
      rw [hm] at h
      simp only at h
      rw [filter_flags (fun d => same d d0) _ _ hm] at h
      rcases hg : groupLoop same n (List.filter (fun d =>
          !(List.filter (fun d => yes (same d d0)) (d0 :: rest)).contains d) (d0 :: rest)) with e | gs
      · rw [hg] at h; cases h
      rw [hg] at h
      simp only [Except.ok.injEq] at h
      have hf : List.filter (fun d =>
          !(List.filter (fun d => yes (same d d0)) (d0 :: rest)).contains d) (d0 :: rest) =
          List.filter (fun d => !yes (same d d0)) (d0 :: rest) := by
        apply List.filter_congr
        intro x hx
        by_cases hy : yes (same x d0) = true
        · have hm : x ∈ List.filter (fun d => yes (same d d0)) (d0 :: rest) :=
            List.mem_filter.2 ⟨hx, hy⟩
          simp only [List.contains_iff_mem.2 hm, hy]
        · have hm : ¬ (List.filter (fun d => yes (same d d0)) (d0 :: rest)).contains x = true := by
            rw [List.contains_iff_mem, List.mem_filter]
            exact fun h => hy h.2
          simp only [Bool.eq_false_iff.2 hm, Bool.eq_false_iff.2 hy]
      rw [hf] at hg
      have hself : yes (same d0 d0) = true := by
        obtain ⟨b, _, hb⟩ := mapE_mem' hm d0 (by simp)
        have := hr d0 b hb
        rw [hb, this]; rfl
      have hlen : (List.filter (fun d => !yes (same d d0)) (d0 :: rest)).length ≤ n := by
        rw [List.filter_cons_of_neg (by simp [hself])]
        have := List.length_filter_le (fun d => !yes (same d d0)) rest
        simp only [List.length_cons] at hn
        omega
      obtain ⟨p1, p2⟩ := ih _ hlen gs hg
      subst h
      refine ⟨?_, ?_⟩
      · rw [List.flatten_cons]
        refine (List.Perm.append_left _ p1).trans ?_
        exact List.filter_append_perm (fun d => yes (same d d0)) (d0 :: rest)
      · intro g hg'
        rcases List.mem_cons.1 hg' with rfl | hg'
        · rw [List.filter_cons_of_pos (by simpa using hself)]
          refine ⟨d0, _, rfl, ?_⟩
          rw [← List.filter_cons_of_pos (p := fun d => yes (same d d0)) hself]
          intro d hd
          have := (List.mem_filter.1 hd).2
          unfold yes at this
          split at this
          · rename_i b hb
            rw [hb, this]
          · cases this
        · exact p2 g hg'

theorem cloneGroups_spec (same : Name → Name → Except Err Bool) (names : List Name)
    (hr : ∀ d b, same d d = .ok b → b = true) (groups : List (List Name))
    (h : cloneGroups same names = .ok groups) :
    groups.flatten.Perm names ∧
    ∀ g ∈ groups, ∃ d0 ds, g = d0 :: ds ∧ ∀ d ∈ g, same d d0 = .ok true :=
  groupLoop_spec same _ names (Nat.le_refl _) hr groups h

/-- The groups can be found if no comparison raises. -/
theorem groupLoop_total (same : Name → Name → Except Err Bool) (n : ℕ) (names : List Name)
    (ht : ∀ d ∈ names, ∀ d0 ∈ names, ∃ b, same d d0 = .ok b) :
    ∃ groups, groupLoop same n names = .ok groups := by
  induction n generalizing names with
  | zero => cases names <;> exact ⟨[], rfl⟩
  | succ n ih =>
    cases names with
    | nil => exact ⟨[], rfl⟩
    | cons d0 rest =>
      simp only [groupLoop]
      obtain ⟨flags, hm⟩ := mapE_total (fun d => same d d0) (d0 :: rest)
        (fun d hd => ht d hd d0 (by simp))
      rw [hm]
      simp only
      obtain ⟨gs, hg⟩ := ih (List.filter (fun d =>
        !((((d0 :: rest).zip flags).filter (fun p => p.2)).map (fun p => p.1)).contains d)
        (d0 :: rest)) (fun d hd d1 hd1 =>
          ht d (List.mem_of_mem_filter hd) d1 (List.mem_of_mem_filter hd1))
      rw [hg]
      exact ⟨_, rfl⟩

theorem sameSpatial_refl [DecidableEq F] [DecidableEq D] (s : State F D O X G M K) (d : Name)
    (b : Bool) (h : sameSpatial s d d = .ok b) : b = true := by
  unfold sameSpatial at h
  split at h
  · rename_i a b' h1 h2
    rw [h1] at h2
    simp only [Option.some.injEq] at h2
    simp only [Except.ok.injEq] at h
    subst h2
    simp at h
    exact h
  · cases h

theorem sameSpatial_true [DecidableEq F] [DecidableEq D] {s : State F D O X G M K}
    {d d0 : Name} (h : sameSpatial s d d0 = .ok true) :
    ∃ r, (s.detectors.get? d).bind (·.spatial) = some r ∧
      (s.detectors.get? d0).bind (·.spatial) = some r := by
  unfold sameSpatial at h
  split at h
  · rename_i a b h1 h2
    simp only [Except.ok.injEq, decide_eq_true_eq] at h
    subst h
    exact ⟨a, h1, h2⟩
  · cases h

theorem samePointing_refl [DecidableEq O] (s : State F D O X G M K) (d : Name)
    (b : Bool) (h : samePointing s d d = .ok b) : b = true := by
  unfold samePointing at h
  split at h
  · rename_i a b' h1 h2
    rw [h1] at h2
    simp only [Option.some.injEq] at h2
    simp only [Except.ok.injEq] at h
    subst h2
    simp at h
    exact h
  · cases h

theorem samePointing_true [DecidableEq O] {s : State F D O X G M K} {d d0 : Name}
    (h : samePointing s d d0 = .ok true) :
    ∃ x x0, s.detectors.get? d = some x ∧ s.detectors.get? d0 = some x0 ∧
      x.pointing = x0.pointing := by
  unfold samePointing at h
  split at h
  · rename_i a b h1 h2
    simp only [Except.ok.injEq, decide_eq_true_eq] at h
    exact ⟨a, b, h1, h2, h⟩
  · cases h

/-! ### The maps of a group -/

/-- The map of one detector alone (all properties). -/
def single (ph : Phys F D O X G B H M P V T S Q K) (s : State F D O X G M K)
    (g : Field X G K) (a : MapArgs B Q) (d : Name) : Except Err (List M) :=
  match groupBeam ph s g a [d] with
  | .error e => .error e
  | .ok b =>
    match mapE (fun c => ph.conv g.axes c b a.opts) g.props with
    | .error e => .error e
    | .ok conv => detectorMap ph s g conv d

/-- A group whose members share the beam of its first member. -/
def Shares (ph : Phys F D O X G B H M P V T S Q K) (s : State F D O X G M K)
    (g : Field X G K) (a : MapArgs B Q) (group : List Name) : Prop :=
  ∀ d ∈ group, groupBeam ph s g a [d] = groupBeam ph s g a group

theorem groupMaps_ok (ph : Phys F D O X G B H M P V T S Q K) (s : State F D O X G M K)
    (g : Field X G K) (a : MapArgs B Q) (group : List Name) (hs : Shares ph s g a group)
    (part : List (Name × List M)) (h : groupMaps ph s g a group = .ok part) :
    part.map Prod.fst = group ∧ ∀ p ∈ part, single ph s g a p.1 = .ok p.2 := by
  unfold groupMaps at h
  rcases hb : groupBeam ph s g a group with e | b
  · rw [hb] at h; cases h
  rw [hb] at h
  simp only at h
  rcases hc : mapE (fun c => ph.conv g.axes c b a.opts) g.props with e | conv
  · rw [hc] at h; cases h
  rw [hc] at h
  simp only at h
  have key : ∀ (grp : List Name) (part : List (Name × List M)), (∀ d ∈ grp, d ∈ group) →
      mapE (fun d => match detectorMap ph s g conv d with
        | .error e => .error e
        | .ok m => .ok (d, m)) grp = .ok part →
      part.map Prod.fst = grp ∧ ∀ p ∈ part, single ph s g a p.1 = .ok p.2 := by
    intro grp
    induction grp with
    | nil =>
      intro part _ hp
      simp only [mapE, Except.ok.injEq] at hp
      subst hp
      simp
    | cons d ds ih =>
      intro part hsub hp
      simp only [mapE] at hp
      rcases hd : detectorMap ph s g conv d with e | m
      · rw [hd] at hp; cases hp
      rw [hd] at hp
      simp only at hp
      split at hp
      · cases hp
      rename_i ys hys
      simp only [Except.ok.injEq] at hp
      subst hp
      obtain ⟨q1, q2⟩ := ih ys (fun x hx => hsub x (List.mem_cons_of_mem _ hx)) hys
      refine ⟨by simp [q1], ?_⟩
      intro p hp
      rcases List.mem_cons.1 hp with rfl | hp
      · unfold single
        simp only
        rw [hs d (hsub d (by simp)), hb]
        simp only
        rw [hc]
        exact hd
      · exact q2 p hp
  exact key group part (fun _ h => h) h

theorem groupMaps_total (ph : Phys F D O X G B H M P V T S Q K) (s : State F D O X G M K)
    (g : Field X G K) (a : MapArgs B Q) (group : List Name) (hs : Shares ph s g a group)
    (hne : group ≠ []) (ht : ∀ d ∈ group, ∃ m, single ph s g a d = .ok m) :
    ∃ part, groupMaps ph s g a group = .ok part := by
  obtain ⟨d0, hd0⟩ := List.exists_mem_of_ne_nil _ hne
  have key : ∀ d ∈ group, ∃ b conv m, groupBeam ph s g a group = .ok b ∧
      mapE (fun c => ph.conv g.axes c b a.opts) g.props = .ok conv ∧
      detectorMap ph s g conv d = .ok m := by
    intro d hd
    obtain ⟨m, hm⟩ := ht d hd
    unfold single at hm
    rw [hs d hd] at hm
    rcases hb : groupBeam ph s g a group with e | b
    · rw [hb] at hm; cases hm
    rw [hb] at hm
    simp only at hm
    rcases hc : mapE (fun c => ph.conv g.axes c b a.opts) g.props with e | conv
    · rw [hc] at hm; cases hm
    rw [hc] at hm
    exact ⟨b, conv, m, rfl, hc, hm⟩
  obtain ⟨b, conv, m, hb, hc, -⟩ := key d0 hd0
  unfold groupMaps
  rw [hb]
  simp only
  rw [hc]
  apply mapE_total
  intro d hd
  obtain ⟨b', conv', m', hb', hc', hm'⟩ := key d hd
  rw [hb] at hb'
  simp only [Except.ok.injEq] at hb'
  subst hb'
  rw [hc] at hc'
  simp only [Except.ok.injEq] at hc'
  subst hc'
  rw [hm']
  exact ⟨_, rfl⟩

/-! ### Placing the maps in the order of the detectors -/

theorem place_length (names : List Name) (L : List (Name × List M))
    (slots : List (Option (List M))) : (L.foldl (place names) slots).length = slots.length := by
  induction L generalizing slots with
  | nil => rfl
  | cons p L ih => rw [List.foldl_cons, ih]; simp [place]

theorem place_other (names : List Name) (L : List (Name × List M))
    (slots : List (Option (List M))) (d : Name) (hd : d ∈ names) (hn : d ∉ L.map Prod.fst) :
    (L.foldl (place names) slots)[names.idxOf d]? = slots[names.idxOf d]? := by
  induction L generalizing slots with
  | nil => rfl
  | cons p L ih =>
    simp only [List.map_cons, List.mem_cons, not_or] at hn
    rw [List.foldl_cons, ih _ hn.2]
    unfold place
    rw [List.getElem?_set_ne]
    intro he
    exact hn.1 ((List.idxOf_inj hd).1 he.symm)

theorem place_get (names : List Name) (L : List (Name × List M))
    (slots : List (Option (List M))) (hl : slots.length = names.length)
    (hL : (L.map Prod.fst).Nodup) (p : Name × List M) (hp : p ∈ L) (hd : p.1 ∈ names) :
    (L.foldl (place names) slots)[names.idxOf p.1]? = some (some p.2) := by
  induction L generalizing slots with
  | nil => cases hp
  | cons q L ih =>
    simp only [List.map_cons, List.nodup_cons] at hL
    rw [List.foldl_cons]
    rcases List.mem_cons.1 hp with rfl | hp
    · rw [place_other names L _ p.1 hd hL.1]
      unfold place
      rw [List.getElem?_set_self]
      rw [hl]
      exact List.idxOf_lt_length_iff.2 hd
    · exact ih _ (by simp [place, hl]) hL.2 hp

theorem mapE_flatten_fst (ph : Phys F D O X G B H M P V T S Q K) (s : State F D O X G M K)
    (g : Field X G K) (a : MapArgs B Q) (groups : List (List Name))
    (hs : ∀ gr ∈ groups, Shares ph s g a gr) (parts : List (List (Name × List M)))
    (h : mapE (groupMaps ph s g a) groups = .ok parts) :
    parts.flatten.map Prod.fst = groups.flatten ∧
      ∀ p ∈ parts.flatten, single ph s g a p.1 = .ok p.2 := by
  induction groups generalizing parts with
  | nil =>
    simp only [mapE, Except.ok.injEq] at h
    subst h
    simp
  | cons gr rest ih =>
    simp only [mapE] at h
    rcases hx : groupMaps ph s g a gr with e | part
    · rw [hx] at h; cases h
    rw [hx] at h
    simp only at h
    rcases hm : mapE (groupMaps ph s g a) rest with e | ps
    · rw [hm] at h; cases h
    rw [hm] at h
    simp only [Except.ok.injEq] at h
    subst h
    obtain ⟨q1, q2⟩ := ih (fun x hx => hs x (List.mem_cons_of_mem _ hx)) ps hm
    obtain ⟨r1, r2⟩ := groupMaps_ok ph s g a gr (hs gr (by simp)) part hx
    refine ⟨by simp only [List.flatten_cons, List.map_append, r1, q1], ?_⟩
    intro p hp
    rw [List.flatten_cons] at hp
    rcases List.mem_append.1 hp with hp | hp
    · exact r2 p hp
    · exact q2 p hp

/-- What is stacked: one map per detector, in order. -/
theorem slots_get (ph : Phys F D O X G B H M P V T S Q K) (s : State F D O X G M K)
    (hn : s.detNames.Nodup) (g : Field X G K) (a : MapArgs B Q) (groups : List (List Name))
    (hp : groups.flatten.Perm s.detNames) (L : List (Name × List M))
    (h1 : L.map Prod.fst = groups.flatten) (h2 : ∀ p ∈ L, single ph s g a p.1 = .ok p.2)
    (k : ℕ) (d : Name) (hd : s.detNames[k]? = some d) :
    ∃ m, (L.foldl (place s.detNames) (List.replicate s.detNames.length none))[k]? = some (some m) ∧
      single ph s g a d = .ok m := by
  have hmem : d ∈ s.detNames := List.mem_of_getElem? hd
  have hin : d ∈ L.map Prod.fst := by rw [h1]; exact hp.mem_iff.2 hmem
  obtain ⟨p, hpL, hpd⟩ := List.mem_map.1 hin
  have hk : s.detNames.idxOf d = k := by
    obtain ⟨hlt, he⟩ := List.getElem?_eq_some_iff.1 hd
    rw [← he]
    exact hn.idxOf_getElem k hlt
  have := place_get s.detNames L (List.replicate s.detNames.length none) (by simp)
    (by rw [h1]; exact hp.nodup_iff.2 hn) p hpL (by rw [hpd]; exact hmem)
  rw [hpd, hk] at this
  refine ⟨p.2, this, ?_⟩
  rw [← hpd]
  exact h2 p hpL

theorem forall₂_of_get {α β : Type _} {R : α → β → Prop} {xs : List α} {ys : List β}
    (hl : xs.length = ys.length)
    (h : ∀ (k : ℕ) x y, xs[k]? = some x → ys[k]? = some y → R x y) : List.Forall₂ R xs ys := by
  rw [List.forall₂_iff_get]
  refine ⟨hl, fun i h1 h2 => h i _ _ ?_ ?_⟩
  · simp [h1]
  · simp [h2]

theorem forall₂_get {α β : Type _} {R : α → β → Prop} {xs : List α} {ys : List β}
    (h : List.Forall₂ R xs ys) (k : ℕ) (x : α) (hx : xs[k]? = some x) :
    ∃ y, ys[k]? = some y ∧ R x y := by
  rw [List.forall₂_iff_get] at h
  obtain ⟨h1, h2⟩ := List.getElem?_eq_some_iff.1 hx
  have h3 : k < ys.length := by rw [← h.1]; exact h1
  refine ⟨ys[k], by simp [h3], ?_⟩
  have := h.2 k h1 h3
  simpa [h2] using this

/-- Mapping in groups gives, in the order of the detectors, the first property of each
detector's own map; and it succeeds if all of these exist and there is a detector. -/
theorem mapField_iff (ph : Phys F D O X G B H M P V T S Q K) (s : State F D O X G M K)
    (hn : s.detNames.Nodup) (g : Field X G K) (a : MapArgs B Q) (groups : List (List Name))
    (hp : groups.flatten.Perm s.detNames) (hne : ∀ gr ∈ groups, s.detNames ≠ [] → gr ≠ [])
    (hs : ∀ gr ∈ groups, Shares ph s g a gr) (md : MapData X M) :
    mapField ph s groups a g = .ok md ↔ s.detNames ≠ [] ∧ md.axes = g.axes ∧
      List.Forall₂ (fun d c => ∃ ms, single ph s g a d = .ok (c :: ms)) s.detNames md.cols := by
  have fwd : ∀ md, mapField ph s groups a g = .ok md → s.detNames ≠ [] ∧ md.axes = g.axes ∧
      List.Forall₂ (fun d c => ∃ ms, single ph s g a d = .ok (c :: ms)) s.detNames md.cols := by
    intro md h
    unfold mapField at h
    rcases hm : mapE (groupMaps ph s g a) groups with e | parts
    · rw [hm] at h; cases h
    rw [hm] at h
    simp only at h
    obtain ⟨h1, h2⟩ := mapE_flatten_fst ph s g a groups hs parts hm
    have hg := slots_get ph s hn g a groups hp parts.flatten h1 h2
    have hl := place_length s.detNames parts.flatten
      (List.replicate s.detNames.length (none : Option (List M)))
    generalize List.foldl (place s.detNames)
      (List.replicate s.detNames.length (none : Option (List M))) parts.flatten = slots at h hg hl
    unfold stackFirst at h
    by_cases he : slots = []
    · rw [if_pos he] at h; cases h
    rw [if_neg he] at h
    split at h
    · cases h
    rename_i cols hc
    simp only [Except.ok.injEq] at h
    subst h
    simp only [List.length_replicate] at hl
    refine ⟨?_, rfl, ?_⟩
    · intro hd
      rw [hd] at hl
      exact he (List.length_eq_zero_iff.1 hl)
    · refine forall₂_of_get (by rw [mapE_length hc, hl]) ?_
      intro k d c hd hck
      obtain ⟨m, hm1, hm2⟩ := hg k d hd
      obtain ⟨x, hx1, hx2⟩ := mapE_get hc k c hck
      rw [hm1] at hx1
      simp only [Option.some.injEq] at hx1
      subst hx1
      cases m with
      | nil => cases hx2
      | cons m0 ms =>
        simp only [firstOf, Except.ok.injEq] at hx2
        subst hx2
        exact ⟨ms, hm2⟩
  refine ⟨fwd md, ?_⟩
  rintro ⟨hd, hax, hF⟩
  have hsing : ∀ d ∈ s.detNames, ∃ c ms, single ph s g a d = .ok (c :: ms) := by
    intro d hd
    obtain ⟨k, hk⟩ := List.getElem?_of_mem hd
    obtain ⟨c, -, ms, h⟩ := forall₂_get hF k d hk
    exact ⟨c, ms, h⟩
  obtain ⟨parts, hm⟩ := mapE_total (groupMaps ph s g a) groups (fun gr hgr => by
    refine groupMaps_total ph s g a gr (hs gr hgr) (hne gr hgr hd) (fun d hdg => ?_)
    obtain ⟨c, ms, h⟩ := hsing d (hp.mem_iff.1 (List.mem_flatten.2 ⟨gr, hgr, hdg⟩))
    exact ⟨_, h⟩)
  obtain ⟨h1, h2⟩ := mapE_flatten_fst ph s g a groups hs parts hm
  have hg := slots_get ph s hn g a groups hp parts.flatten h1 h2
  have hl := place_length s.detNames parts.flatten
    (List.replicate s.detNames.length (none : Option (List M)))
  have hex : ∃ md', mapField ph s groups a g = .ok md' := by
    unfold mapField
    rw [hm]
    simp only
    generalize List.foldl (place s.detNames)
      (List.replicate s.detNames.length (none : Option (List M))) parts.flatten = slots at hg hl
    simp only [List.length_replicate] at hl
    have he : slots ≠ [] := by
      intro e
      rw [e] at hl
      exact hd (List.length_eq_zero_iff.1 hl.symm)
    obtain ⟨cols, hc⟩ := mapE_total firstOf slots (fun x hx => by
        obtain ⟨k, hk⟩ := List.getElem?_of_mem hx
        obtain ⟨hlt, -⟩ := List.getElem?_eq_some_iff.1 hk
        obtain ⟨m, hm1, hm2⟩ := hg k (s.detNames[k]'(by omega)) (by simp)
        rw [hk] at hm1
        simp only [Option.some.injEq] at hm1
        subst hm1
        obtain ⟨c, ms, h⟩ := hsing (s.detNames[k]'(by omega)) (by simp)
        rw [h] at hm2
        simp only [Except.ok.injEq] at hm2
        subst hm2
        exact ⟨c, rfl⟩)
    unfold stackFirst
    rw [if_neg he, hc]
    exact ⟨_, rfl⟩
  obtain ⟨md', hmd⟩ := hex
  obtain ⟨-, hax', hF'⟩ := fwd md' hmd
  rw [hmd]
  have hcols : md'.cols = md.cols := by
    apply List.ext_getElem?
    intro k
    rcases hk : s.detNames[k]? with _ | d
    · have h3 : s.detNames.length ≤ k := List.getElem?_eq_none_iff.1 hk
      rw [List.getElem?_eq_none (by rw [← hF'.length_eq]; exact h3),
        List.getElem?_eq_none (by rw [← hF.length_eq]; exact h3)]
    · obtain ⟨c, e1, ms, q1⟩ := forall₂_get hF k d hk
      obtain ⟨c', e2, ms', q2⟩ := forall₂_get hF' k d hk
      rw [q1] at q2
      simp only [Except.ok.injEq, List.cons.injEq] at q2
      rw [e1, e2, q2.1]
  cases md; cases md'
  simp_all

/-! ### The groups used for mapping -/

theorem groupBeam_given (ph : Phys F D O X G B H M P V T S Q K) (s : State F D O X G M K)
    (g : Field X G K) (a : MapArgs B Q) (b : B) (hb : a.beam = some b) (gr : List Name) :
    groupBeam ph s g a gr = .ok b := by
  unfold groupBeam; rw [hb]

theorem beamGroups_spec [DecidableEq F] [DecidableEq D]
    (ph : Phys F D O X G B H M P V T S Q K) (s : State F D O X G M K) (g : Field X G K)
    (a : MapArgs B Q) (groups : List (List Name)) (h : beamGroups s a = .ok groups) :
    groups.flatten.Perm s.detNames ∧ (∀ gr ∈ groups, s.detNames ≠ [] → gr ≠ []) ∧
      ∀ gr ∈ groups, Shares ph s g a gr := by
  unfold beamGroups at h
  rcases hb : a.beam with _ | b
  · rw [hb] at h
    simp only at h
    obtain ⟨h1, h2⟩ := cloneGroups_spec _ _ (sameSpatial_refl s) groups h
    refine ⟨h1, ?_, ?_⟩
    · intro gr hgr _
      obtain ⟨d0, ds, rfl, -⟩ := h2 gr hgr
      simp
    · intro gr hgr d hd
      obtain ⟨d0, ds, rfl, h3⟩ := h2 gr hgr
      obtain ⟨r, q1, q2⟩ := sameSpatial_true (h3 d hd)
      unfold groupBeam
      rw [hb]
      simp only
      rw [q1, q2]
  · rw [hb] at h
    simp only [Except.ok.injEq] at h
    subst h
    refine ⟨by simp, ?_, ?_⟩
    · intro gr hgr hne
      simp only [List.mem_singleton] at hgr
      rw [hgr]; exact hne
    · intro gr _ d _
      rw [groupBeam_given ph s g a b hb, groupBeam_given ph s g a b hb]

theorem beamGroups_total [DecidableEq F] [DecidableEq D] (s : State F D O X G M K)
    (a : MapArgs B Q)
    (h : a.beam = none → ∀ d ∈ s.detNames, ∃ r, (s.detectors.get? d).bind (·.spatial) = some r) :
    ∃ groups, beamGroups s a = .ok groups := by
  unfold beamGroups
  rcases hb : a.beam with _ | b
  · simp only
    refine groupLoop_total _ _ _ (fun d hd d0 hd0 => ?_)
    obtain ⟨r, hr⟩ := h hb d hd
    obtain ⟨r0, hr0⟩ := h hb d0 hd0
    unfold sameSpatial
    rw [hr, hr0]
    exact ⟨_, rfl⟩
  · exact ⟨_, rfl⟩

theorem single_spatial (ph : Phys F D O X G B H M P V T S Q K) (s : State F D O X G M K)
    (g : Field X G K) (a : MapArgs B Q) (d : Name) (ms : List M)
    (h : single ph s g a d = .ok ms) (hb : a.beam = none) :
    ∃ r, (s.detectors.get? d).bind (·.spatial) = some r := by
  unfold single groupBeam at h
  rw [hb] at h
  simp only at h
  rcases hr : (s.detectors.get? d).bind (·.spatial) with _ | r
  · rw [hr] at h; cases h
  · exact ⟨r, rfl⟩

theorem single_only (ph : Phys F D O X G B H M P V T S Q K) (s : State F D O X G M K)
    (g : Field X G K) (a : MapArgs B Q) (d d' : Name) :
    single ph (only s d) g a d' = single ph s g a d' := rfl

/-- The parts of a detector's own map. -/
theorem single_parts (ph : Phys F D O X G B H M P V T S Q K) (s : State F D O X G M K)
    (g : Field X G K) (a : MapArgs B Q) (d : Name) (ms : List M)
    (h : single ph s g a d = .ok ms) (i : ℕ) (c : M) (hc : ms[i]? = some c) :
    ∃ det cube b h r,
      s.detectors.get? d = some det ∧ g.props[i]? = some cube ∧
      (match a.beam with
        | some b' => b = b'
        | none => ∃ r', det.spatial = some r' ∧ setupBeam ph s g r' a.kernel a.opts = .ok b) ∧
      ph.conv g.axes cube b a.opts = .ok h ∧
      det.spectral = some r ∧ ph.collapse g.axes h r.fn r.kw = .ok c := by
  unfold single at h
  rcases hb : groupBeam ph s g a [d] with e | b
  · rw [hb] at h; cases h
  rw [hb] at h
  simp only at h
  rcases hv : mapE (fun c => ph.conv g.axes c b a.opts) g.props with e | conv
  · rw [hv] at h; cases h
  rw [hv] at h
  simp only at h
  unfold detectorMap at h
  rcases hr : (s.detectors.get? d).bind (·.spectral) with _ | r
  · rw [hr] at h; cases h
  rw [hr] at h
  simp only at h
  obtain ⟨det, hdet, hsp⟩ := Option.bind_eq_some_iff.1 hr
  obtain ⟨hh, q1, q2⟩ := mapE_get h i c hc
  obtain ⟨cube, q3, q4⟩ := mapE_get hv i hh q1
  refine ⟨det, cube, b, hh, r, hdet, q3, ?_, q4, hsp, q2⟩
  unfold groupBeam at hb
  rcases hB : a.beam with _ | b'
  · rw [hB] at hb
    simp only at hb ⊢
    rcases hr' : (s.detectors.get? d).bind (·.spatial) with _ | r'
    · rw [hr'] at hb; cases hb
    rw [hr'] at hb
    rw [hdet] at hr'
    exact ⟨r', hr', hb⟩
  · rw [hB] at hb
    simp only [Except.ok.injEq] at hb ⊢
    exact hb.symm

theorem single_column (ph : Phys F D O X G B H M P V T S Q K) (s : State F D O X G M K)
    (g : Field X G K) (a : MapArgs B Q) (d : Name) (ms : List M)
    (h : single ph s g a d = .ok ms) (i : ℕ) (c : M) (hc : ms[i]? = some c) :
    Column ph s g a d i c := by
  obtain ⟨det, cube, b, hh, r, h1, h2, h3, h4⟩ := single_parts ph s g a d ms h i c hc
  refine ⟨det, cube, b, hh, r, h1, h2, ?_, h4⟩
  unfold Beam
  rcases hB : a.beam with _ | b'
  · rw [hB] at h3
    simp only at h3 ⊢
    obtain ⟨r', e1, e2⟩ := h3
    unfold setupBeam at e2
    split at e2
    · cases e2
    · cases e2
    · rename_i hk
      split at e2
      · exact ⟨r', _, e1, Or.inl ⟨_, _, hk, rfl⟩, e2⟩
      · cases e2
    · rename_i hk hbest
      split at e2
      · refine ⟨r', _, e1, Or.inr ⟨hk, ?_, rfl⟩, e2⟩
        intro hn
        exact hbest hn
      · cases e2
  · rw [hB] at h3
    exact h3

theorem noiseOf_ok (ph : Phys F D O X G B H M P V T S Q K) (s : State F D O X G M K)
    (a : SampleArgs P T S) (f d : Name) (nz : List V) (h : noiseOf ph s a f d = .ok nz) :
    Noise ph s f a d nz := by
  unfold noiseOf at h
  unfold Noise
  split at h
  · rename_i hw
    rw [if_pos hw]
    split at h
    · rename_i r dt hr hdt
      obtain ⟨det, h1, h2⟩ := Option.bind_eq_some_iff.1 hr
      exact ⟨det, r, dt, h1, h2, hdt, h⟩
    · cases h
    · cases h
  · rename_i hw
    rw [if_neg hw]
    simp only [Except.ok.injEq] at h
    rw [← h]
    simp

/-- Mapping one field through the interface. -/
theorem mapFields_one_iff [DecidableEq F] [DecidableEq D]
    (ph : Phys F D O X G B H M P V T S Q K) (s : State F D O X G M K) (a : MapArgs B Q)
    (f : Name) (m : MapData X M) :
    ((mapFields ph s [f] a).2 = .ok () ∧ (mapFields ph s [f] a).1.maps.get? f = some m) ↔
      Cur ph s a f m := by
  constructor
  · rintro ⟨h1, h2⟩
    unfold mapFields at h1 h2
    rcases hc : chosenFields s [f] with e | fs
    · rw [hc] at h1; cases h1
    have hfs : fs = [f] := by
      unfold chosenFields at hc
      rw [if_neg (by simp)] at hc
      split at hc
      · cases hc
      · simp only [Except.ok.injEq] at hc; exact hc.symm
    subst hfs
    rw [hc] at h1 h2
    simp only at h1 h2
    by_cases g1 : (a.beam.isNone && a.kernel.isNone && s.bestSpatial.isNone) = true
    · rw [if_pos g1] at h1; cases h1
    rw [if_neg g1] at h1 h2
    by_cases g2 : (a.beam.isSome && a.kernel.isSome) = true
    · rw [if_pos g2] at h1; cases h1
    rw [if_neg g2] at h1 h2
    rcases g3 : beamGroups s a with e | groups
    · rw [g3] at h1; cases h1
    rw [g3] at h1 h2
    simp only [mapLoop] at h1 h2
    rcases g4 : s.fields.get? f with _ | g
    · rw [g4] at h1; cases h1
    rw [g4] at h1 h2
    simp only at h1 h2
    rcases g5 : mapField ph s groups a g with e | m'
    · rw [g5] at h1; cases h1
    rw [g5] at h1 h2
    simp only [PyDict.get?_set, if_true, Option.some.injEq] at h2
    subst h2
    exact ⟨g, groups, g4, ⟨Bool.eq_false_iff.2 g1, Bool.eq_false_iff.2 g2⟩, g3, g5⟩
  · intro h
    rw [h.mapFields]
    simp

/-- Mapping one field, in terms of each detector's own map. -/
theorem cur_iff [DecidableEq F] [DecidableEq D] (ph : Phys F D O X G B H M P V T S Q K)
    (s : State F D O X G M K) (hn : s.detNames.Nodup) (a : MapArgs B Q) (f : Name)
    (g : Field X G K) (hf : s.fields.get? f = some g) (m : MapData X M) :
    Cur ph s a f m ↔ ArgsOk s a ∧ s.detNames ≠ [] ∧ m.axes = g.axes ∧
      List.Forall₂ (fun d c => ∃ ms, single ph s g a d = .ok (c :: ms)) s.detNames m.cols := by
  constructor
  · rintro ⟨g', groups, h1, h2, h3, h4⟩
    rw [hf] at h1
    simp only [Option.some.injEq] at h1
    subst h1
    obtain ⟨p1, p2, p3⟩ := beamGroups_spec ph s g a groups h3
    exact ⟨h2, (mapField_iff ph s hn g a groups p1 p2 p3 m).1 h4⟩
  · rintro ⟨h2, h4⟩
    obtain ⟨groups, h3⟩ := beamGroups_total s a (fun hb d hd => by
      obtain ⟨k, hk⟩ := List.getElem?_of_mem hd
      obtain ⟨c, -, ms, h⟩ := forall₂_get h4.2.2 k d hk
      exact single_spatial ph s g a d _ h hb)
    obtain ⟨p1, p2, p3⟩ := beamGroups_spec ph s g a groups h3
    exact ⟨g, groups, hf, h2, h3, (mapField_iff ph s hn g a groups p1 p2 p3 m).2 h4⟩

/-- A detector alone. -/
theorem cur_only_iff [DecidableEq F] [DecidableEq D] (ph : Phys F D O X G B H M P V T S Q K)
    (s : State F D O X G M K) (a : MapArgs B Q) (f : Name) (g : Field X G K)
    (hf : s.fields.get? f = some g) (d : Name) (c : M) :
    Cur ph (only s d) a f ⟨g.axes, [c]⟩ ↔ ArgsOk s a ∧
      ∃ ms, single ph s g a d = .ok (c :: ms) := by
  rw [cur_iff ph (only s d) (by simp [only]) a f g hf]
  constructor
  · rintro ⟨h1, -, -, h2⟩
    refine ⟨h1, ?_⟩
    simp only [single_only] at h2
    cases h2 with
    | cons q _ => exact q
  · rintro ⟨h1, h2⟩
    refine ⟨h1, by simp [only], rfl, ?_⟩
    simp only [single_only]
    exact .cons h2 .nil

/-! ### Samples -/

theorem addGroup_append (ph : Phys F D O X G B H M P V T S Q K) (L1 L2 : List (ℕ × List V))
    (acc acc1 acc2 : List (List V)) (h1 : addGroup ph acc L1 = .ok acc1)
    (h2 : addGroup ph acc1 L2 = .ok acc2) : addGroup ph acc (L1 ++ L2) = .ok acc2 := by
  induction L1 generalizing acc with
  | nil =>
    simp only [addGroup, Except.ok.injEq] at h1
    subst h1
    exact h2
  | cons p L1 ih =>
    obtain ⟨i, ys⟩ := p
    rw [List.cons_append]
    simp only [addGroup] at h1 ⊢
    rcases hi : acc[i]? with _ | xs
    · rw [hi] at h1; cases h1
    rw [hi] at h1
    simp only at h1 ⊢
    rcases hz : addArrays ph xs ys with e | zs
    · rw [hz] at h1; cases h1
    rw [hz] at h1
    simp only at h1 ⊢
    exact ih _ h1

theorem addGroup_other (ph : Phys F D O X G B H M P V T S Q K) (L : List (ℕ × List V))
    (acc acc' : List (List V)) (h : addGroup ph acc L = .ok acc') :
    acc'.length = acc.length ∧ ∀ i, i ∉ L.map Prod.fst → acc'[i]? = acc[i]? := by
  induction L generalizing acc with
  | nil =>
    simp only [addGroup, Except.ok.injEq] at h
    subst h
    simp
  | cons p L ih =>
    obtain ⟨j, ys⟩ := p
    simp only [addGroup] at h
    rcases hi : acc[j]? with _ | xs
    · rw [hi] at h; cases h
    rw [hi] at h
    simp only at h
    rcases hz : addArrays ph xs ys with e | zs
    · rw [hz] at h; cases h
    rw [hz] at h
    simp only at h
    obtain ⟨q1, q2⟩ := ih _ h
    refine ⟨by rw [q1]; simp, ?_⟩
    intro i hi
    simp only [List.map_cons, List.mem_cons, not_or] at hi
    rw [q2 i hi.2, List.getElem?_set_ne (fun e => hi.1 e.symm)]

theorem addGroup_get (ph : Phys F D O X G B H M P V T S Q K) (L : List (ℕ × List V))
    (hL : (L.map Prod.fst).Nodup) (acc acc' : List (List V))
    (h : addGroup ph acc L = .ok acc') (p : ℕ × List V) (hp : p ∈ L) :
    ∃ xs zs, acc[p.1]? = some xs ∧ addArrays ph xs p.2 = .ok zs ∧ acc'[p.1]? = some zs := by
  induction L generalizing acc with
  | nil => cases hp
  | cons q L ih =>
    obtain ⟨j, ys⟩ := q
    simp only [List.map_cons, List.nodup_cons] at hL
    simp only [addGroup] at h
    rcases hi : acc[j]? with _ | xs
    · rw [hi] at h; cases h
    rw [hi] at h
    simp only at h
    rcases hz : addArrays ph xs ys with e | zs
    · rw [hz] at h; cases h
    rw [hz] at h
    simp only at h
    rcases List.mem_cons.1 hp with rfl | hp'
    · refine ⟨xs, zs, hi, hz, ?_⟩
      rw [(addGroup_other ph L _ _ h).2 j hL.1]
      rw [List.getElem?_set_self]
      exact (List.getElem?_eq_some_iff.1 hi).1
    · obtain ⟨xs', zs', e1, e2, e3⟩ := ih hL.2 _ h hp'
      refine ⟨xs', zs', ?_, e2, e3⟩
      rw [List.getElem?_set_ne] at e1
      · exact e1
      · rintro rfl
        exact hL.1 (List.mem_map_of_mem hp')

/-- The loop over groups adds to each detector's list the samples of its own map, with its
own offset. -/
theorem signalLoop_spec [DecidableEq O] (ph : Phys F D O X G B H M P V T S Q K)
    (s : State F D O X G M K) (md : MapData X M) (a : SampleArgs P T S)
    (groups : List (List Name))
    (hg : ∀ gr ∈ groups, ∃ d0 ds, gr = d0 :: ds ∧ ∀ d ∈ gr, samePointing s d d0 = .ok true)
    (acc acc' : List (List V)) (h : signalLoop ph s md a acc groups = .ok acc') :
    ∃ L : List (ℕ × List V), addGroup ph acc L = .ok acc' ∧
      (L.map Prod.fst).Perm (groups.flatten.map s.detNames.idxOf) ∧
      ∀ p ∈ L, ∃ d ∈ groups.flatten, p.1 = s.detNames.idxOf d ∧
        ∃ c, md.cols[p.1]? = some c ∧ Signal ph s md.axes c a.positions d p.2 := by
  induction groups generalizing acc with
  | nil =>
    simp only [signalLoop, Except.ok.injEq] at h
    subst h
    exact ⟨[], rfl, by simp, by simp⟩
  | cons gr rest ih =>
    obtain ⟨d0, ds, rfl, hsame⟩ := hg gr (by simp)
    simp only [signalLoop] at h
    rcases hd : s.detectors.get? d0 with _ | det
    · rw [hd] at h; cases h
    rw [hd] at h
    simp only at h
    rcases hc : sampleCols ph md (a.positions.map fun p => ph.shift p det.pointing)
      (groupIdxs s.detNames (d0 :: ds)) with e | cols
    · rw [hc] at h; cases h
    rw [hc] at h
    simp only at h
    rcases hz : addGroup ph acc ((groupIdxs s.detNames (d0 :: ds)).zip cols) with e | acc1
    · rw [hz] at h; cases h
    rw [hz] at h
    simp only at h
    obtain ⟨L, l1, l2, l3⟩ := ih (fun x hx => hg x (List.mem_cons_of_mem _ hx)) acc1 h
    have hlen : cols.length = (groupIdxs s.detNames (d0 :: ds)).length := mapE_length hc
    have hfst : ((groupIdxs s.detNames (d0 :: ds)).zip cols).map Prod.fst =
        groupIdxs s.detNames (d0 :: ds) := List.map_fst_zip (by omega)
    have hperm : (groupIdxs s.detNames (d0 :: ds)).Perm ((d0 :: ds).map s.detNames.idxOf) :=
      List.perm_insertionSort _ _
    refine ⟨_, addGroup_append ph _ _ _ _ _ hz l1, ?_, ?_⟩
    · rw [List.map_append, hfst, List.flatten_cons, List.map_append]
      exact hperm.append l2
    · intro p hp
      rcases List.mem_append.1 hp with hp | hp
      · obtain ⟨k, hk⟩ := List.getElem?_of_mem hp
        obtain ⟨k1, k2⟩ := List.getElem?_zip_eq_some.1 hk
        have hmem : p.1 ∈ (d0 :: ds).map s.detNames.idxOf :=
          hperm.mem_iff.1 (List.mem_of_getElem? k1)
        obtain ⟨d, hdm, hdi⟩ := List.mem_map.1 hmem
        refine ⟨d, by rw [List.flatten_cons]; exact List.mem_append_left _ hdm, hdi.symm, ?_⟩
        obtain ⟨i, i1, i2⟩ := mapE_get hc k p.2 k2
        rw [k1] at i1
        simp only [Option.some.injEq] at i1
        subst i1
        rcases hcol : md.cols[p.1]? with _ | c
        · rw [hcol] at i2; cases i2
        rw [hcol] at i2
        simp only at i2
        obtain ⟨x, x0, y1, y2, y3⟩ := samePointing_true (hsame d hdm)
        rw [hd] at y2
        simp only [Option.some.injEq] at y2
        subst y2
        refine ⟨c, rfl, x, y1, ?_⟩
        rw [y3]
        exact i2
      · obtain ⟨d, hdm, r⟩ := l3 p hp
        exact ⟨d, by rw [List.flatten_cons]; exact List.mem_append_right _ hdm, r⟩

/-- Samples of one field, detector by detector. -/
theorem sampleField_spec [DecidableEq O] (ph : Phys F D O X G B H M P V T S Q K)
    (s : State F D O X G M K) (hn : s.detNames.Nodup) (a : SampleArgs P T S) (f : Name)
    (groups : List (List Name)) (hgr : cloneGroups (samePointing s) s.detNames = .ok groups)
    (md : MapData X M) (hmd : s.maps.get? f = some md) (out : List (List V))
    (h : sampleField ph s groups a f = .ok out) :
    s.detNames ≠ [] ∧ out.length = s.detNames.length ∧
    ∀ (k : ℕ) d xs, s.detNames[k]? = some d → out[k]? = some xs →
      ∃ nz, noiseOf ph s a f d = .ok nz ∧
        if a.signal then ∃ c sg, md.cols[k]? = some c ∧
          Signal ph s md.axes c a.positions d sg ∧ nz.length = sg.length ∧
          xs = List.zipWith ph.add nz sg
        else xs = nz := by
  obtain ⟨hp, hg⟩ := cloneGroups_spec _ _ (samePointing_refl s) groups hgr
  unfold sampleField at h
  rw [hmd] at h
  simp only at h
  rcases hs : mapE (noiseOf ph s a f) s.detNames with e | start
  · rw [hs] at h; cases h
  rw [hs] at h
  simp only at h
  have hstart : ∀ (k : ℕ) d, s.detNames[k]? = some d →
      ∃ nz, start[k]? = some nz ∧ noiseOf ph s a f d = .ok nz :=
    ((mapE_ok_iff _ _ _).1 hs).2
  have hslen := mapE_length hs
  rcases hr : (if a.signal = true then signalLoop ph s md a start groups else .ok start) with e | r
  · rw [hr] at h; cases h
  rw [hr] at h
  have hout : r = out ∧ r ≠ [] := by
    cases r with
    | nil => cases h
    | cons c cs =>
      simp only at h
      split at h
      · simp only [Except.ok.injEq] at h
        exact ⟨h, by simp⟩
      · cases h
  obtain ⟨rfl, hne⟩ := hout
  have hlen : r.length = s.detNames.length ∧ ∀ (k : ℕ) d xs, s.detNames[k]? = some d →
      r[k]? = some xs → ∃ nz, noiseOf ph s a f d = .ok nz ∧
        if a.signal then ∃ c sg, md.cols[k]? = some c ∧
          Signal ph s md.axes c a.positions d sg ∧ nz.length = sg.length ∧
          xs = List.zipWith ph.add nz sg
        else xs = nz := by
    by_cases hsig : a.signal = true
    · rw [if_pos hsig] at hr
      obtain ⟨L, l1, l2, l3⟩ := signalLoop_spec ph s md a groups hg start r hr
      have hidx : (groups.flatten.map s.detNames.idxOf).Perm (List.range s.detNames.length) := by
        refine (hp.map _).trans ?_
        have : s.detNames.map s.detNames.idxOf = List.range s.detNames.length := by
          apply List.ext_getElem
          · simp
          · intro i h1 h2
            simp only [List.getElem_map, List.getElem_range]
            exact hn.idxOf_getElem i (by simpa using h1)
        rw [this]
      have hnd : (L.map Prod.fst).Nodup := by
        rw [(l2.trans hidx).nodup_iff]; exact List.nodup_range
      refine ⟨by rw [(addGroup_other ph L _ _ l1).1, hslen], ?_⟩
      intro k d xs hd hx
      obtain ⟨nz, n1, n2⟩ := hstart k d hd
      refine ⟨nz, n2, ?_⟩
      rw [if_pos hsig]
      have hkin : k ∈ L.map Prod.fst := by
        rw [(l2.trans hidx).mem_iff, List.mem_range]
        exact (List.getElem?_eq_some_iff.1 hd).1
      obtain ⟨p, hpL, hpk⟩ := List.mem_map.1 hkin
      obtain ⟨xs', zs, e1, e2, e3⟩ := addGroup_get ph L hnd _ _ l1 p hpL
      obtain ⟨d', hd', hi, c, c1, c2⟩ := l3 p hpL
      rw [hpk] at e1 e3 hi c1
      rw [n1] at e1
      simp only [Option.some.injEq] at e1
      subst e1
      rw [hx] at e3
      simp only [Option.some.injEq] at e3
      subst e3
      have hdd : d' = d := by
        have hm : d' ∈ s.detNames := hp.mem_iff.1 hd'
        have h1 : s.detNames[s.detNames.idxOf d']? = some d' := by
          rw [List.getElem?_eq_getElem (List.idxOf_lt_length_iff.2 hm)]
          simp
        rw [← hi, hd] at h1
        simpa using h1.symm
      subst hdd
      unfold addArrays at e2
      split at e2
      · rename_i hl
        simp only [Except.ok.injEq] at e2
        exact ⟨c, p.2, c1, c2, hl, e2.symm⟩
      · cases e2
    · rw [if_neg hsig] at hr
      simp only [Except.ok.injEq] at hr
      subst hr
      refine ⟨hslen, ?_⟩
      intro k d xs hd hx
      obtain ⟨nz, n1, n2⟩ := hstart k d hd
      rw [n1] at hx
      simp only [Option.some.injEq] at hx
      refine ⟨nz, n2, ?_⟩
      rw [if_neg hsig]
      exact hx.symm
  refine ⟨?_, hlen⟩
  intro he
  rw [he] at hlen
  exact hne (List.length_eq_zero_iff.1 hlen.1)

end Verif.Inst
