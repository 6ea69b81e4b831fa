import Verif.Lemmas.Sim

/-! # Lemmas about the metadata chain -/

namespace Verif.Sim
open Spec

variable {K : Type} [Field K] [LinearOrder K]

/-- The attributes set by `dif_higherz_snap`. -/
def setHigh (c : Cosmo K) (z t : K) (s : Snapshot K) : Snapshot K :=
  { s with zmax := some z, tstart := some t, dmax := some (c.dist z), tdmax := some (c.tdist z) }

/-- The attributes set by `dif_lowerz_snap` (with another snapshot). -/
def setLow (c : Cosmo K) (z t : K) (s : Snapshot K) : Snapshot K :=
  { s with zmin := some z, tend := some t, dmin := some (c.dist z), tdmin := some (c.tdist z) }

/-- The attributes set by `dif_lowerz_snap(0)`. -/
def setZero (c : Cosmo K) (s : Snapshot K) : Snapshot K :=
  { s with zmin := some 0, tend := some (c.age 0), dmin := some 0, tdmin := some 0 }

/-- Age half-way between two redshifts. -/
def midAge (c : Cosmo K) (a b : K) : K := (c.age a + c.age b) / 2

/-- The chain as one recursion. -/
def chainFrom (c : Cosmo K) : Snapshot K → List (Snapshot K) → Except Err (List (Snapshot K))
  | a, [] => .ok [setZero c a]
  | a, b :: rest =>
    if a.redshift < b.redshift then .error .valueError
    else
      let t := midAge c a.redshift b.redshift
      let t' := midAge c b.redshift a.redshift
      match chainFrom c (setHigh c (c.zAt t') t' b) rest with
      | .error e => .error e
      | .ok r => .ok (setLow c (c.zAt t) t a :: r)

theorem closeLast_setHigh (c : Cosmo K) (z t : K) (b : Snapshot K) (rest : List (Snapshot K)) :
    ∃ b2 r2, closeLast c (b :: rest) = .ok (b2 :: r2) ∧ b2.redshift = b.redshift ∧
      closeLast c (setHigh c z t b :: rest) = .ok (setHigh c z t b2 :: r2) := by
  cases rest with
  | nil => exact ⟨setZero c b, [], rfl, rfl, rfl⟩
  | cons d rest =>
    have key : ∀ (l : List (Snapshot K)) (d : Snapshot K), ∃ r, closeLast c (d :: l) = .ok r := by
      intro l
      induction l with
      | nil => intro d; exact ⟨_, rfl⟩
      | cons e l ih =>
        intro d
        obtain ⟨r, hr⟩ := ih e
        exact ⟨d :: r, by simp only [closeLast, hr]⟩
    obtain ⟨r, hr⟩ := key rest d
    exact ⟨b, r, by simp only [closeLast, hr], rfl, by simp only [closeLast, hr]⟩

theorem chainLoop_close (c : Cosmo K) (rest : List (Snapshot K)) :
    ∀ a : Snapshot K, ∃ l, closeLast c (a :: rest) = .ok l ∧ chainLoop c l = chainFrom c a rest := by
  induction rest with
  | nil =>
    intro a
    refine ⟨[setZero c a], rfl, ?_⟩
    unfold chainLoop
    rfl
  | cons b rest ih =>
    intro a
    let t' := midAge c b.redshift a.redshift
    obtain ⟨b2, r2, e1, e2, e3⟩ := closeLast_setHigh c (c.zAt t') t' b rest
    refine ⟨a :: b2 :: r2, by simp only [closeLast, e1], ?_⟩
    obtain ⟨l, f1, f2⟩ := ih (setHigh c (c.zAt t') t' b)
    rw [e3] at f1
    simp only [Except.ok.injEq] at f1
    subst f1
    rw [chainLoop]
    unfold chainFrom
    simp only [difLowerz, difHigherz, difSnap, e2]
    by_cases hlt : a.redshift < b.redshift
    · rw [if_pos hlt, if_pos hlt]
    · have hgt : ¬ b.redshift > a.redshift := hlt
      rw [if_neg hlt, if_neg hlt]
      simp only [if_neg hgt]
      have h3 : chainLoop c (setHigh c (c.zAt t') t' b2 :: r2) =
          chainFrom c (setHigh c (c.zAt t') t' b) rest := f2
      unfold setHigh at h3
      simp only [t', midAge, e2] at h3
      unfold midAge setHigh
      rw [h3]
      rfl

theorem chain_eq (c : Cosmo K) (a : Snapshot K) (rest : List (Snapshot K)) :
    chain c (a :: rest) = chainFrom c (setHigh c a.redshift (c.age a.redshift) a) rest := by
  obtain ⟨l, e1, e2⟩ := chainLoop_close c rest (setHigh c a.redshift (c.age a.redshift) a)
  have h0 : difHigherz c a none = .ok (setHigh c a.redshift (c.age a.redshift) a) := rfl
  unfold chain
  simp only [h0, e1]
  exact e2

omit [Field K] in
theorem Spec.Tiles.snoc {l : List (SnapMeta K)} : ∀ {lo mid : K}, Tiles l lo mid →
    ∀ s : SnapMeta K, s.zmin = mid → s.zmin < s.zmax → Tiles (l ++ [s]) lo s.zmax := by
  induction l with
  | nil =>
    intro lo mid h s h1 h2
    have h' : lo = mid := h
    exact ⟨by rw [h1, h'], h2, rfl⟩
  | cons t rest ih =>
    intro lo mid h s h1 h2
    obtain ⟨a1, a2, a3⟩ := h
    exact ⟨a1, a2, ih a3 s h1 h2⟩

variable [IsStrictOrderedRing K]

/-- The midpoint redshift lies strictly between the two redshifts. -/
theorem mid_between (c : Cosmo K) (hc : Physical c) (a b : K) (hb : 0 ≤ b) (hab : b < a) :
    b < c.zAt (midAge c a b) ∧ c.zAt (midAge c a b) < a ∧
      c.age (c.zAt (midAge c a b)) = midAge c a b := by
  have h1 := hc.anti b a hb hab
  have ha : 0 ≤ a := le_trans hb (le_of_lt hab)
  have l1 : c.age a ≤ midAge c a b := by unfold midAge; linarith
  have l2 : midAge c a b ≤ c.age b := by unfold midAge; linarith
  have l1' : c.age a < midAge c a b := by unfold midAge; linarith
  have l2' : midAge c a b < c.age b := by unfold midAge; linarith
  have h0 := hc.nonneg b a _ hb ha l1 l2
  have hi := hc.inverse b a _ hb ha l1 l2
  generalize c.zAt (midAge c a b) = z at h0 hi ⊢
  refine ⟨?_, ?_, hi⟩
  · by_contra hn
    rcases lt_or_eq_of_le (not_lt.1 hn) with hlt | heq
    · have := hc.anti z b h0 hlt
      rw [hi] at this
      exact lt_asymm this l2'
    · rw [heq] at hi
      rw [← hi] at l2'
      exact lt_irrefl _ l2'
  · by_contra hn
    rcases lt_or_eq_of_le (not_lt.1 hn) with hlt | heq
    · have := hc.anti a z ha hlt
      rw [hi] at this
      exact lt_asymm this l1'
    · rw [← heq] at hi
      rw [← hi] at l1'
      exact lt_irrefl _ l1'

omit [LinearOrder K] [IsStrictOrderedRing K] in
theorem midAge_comm (c : Cosmo K) (a b : K) : midAge c a b = midAge c b a := by
  unfold midAge; rw [add_comm]

/-- What a row of the table says about its snapshot. -/
structure RowOK (c : Cosmo K) (h : K) (r : SnapMeta K) : Prop where
  lo : r.zmin ≤ r.redshift
  hi : r.redshift ≤ r.zmax
  tstart : r.tstart = c.age r.zmax
  tend : r.tend = c.age r.zmin
  dmin : r.dmin = c.dist r.zmin * h
  dmax : r.dmax = c.dist r.zmax * h
  tdmin : r.tdmin = c.tdist r.zmin * h
  tdmax : r.tdmax = c.tdist r.zmax * h

theorem chainFrom_table (c : Cosmo K) (hc : Physical c) (h : K) (hd0 : c.dist 0 = 0)
    (ht0 : c.tdist 0 = 0) (rest : List (Snapshot K)) :
    ∀ (a : Snapshot K) (z : K), 0 < z → 0 ≤ a.redshift → a.redshift ≤ z →
      (∀ s ∈ rest, 0 ≤ s.redshift) →
      (a :: rest).Pairwise (fun a b => a.redshift > b.redshift) →
      ∃ l t, chainFrom c (setHigh c z (c.age z) a) rest = .ok l ∧ metaTable h l = .ok t ∧
        t.map (fun r => (r.index, r.redshift)) = (a :: rest).map (fun s => (s.index, s.redshift)) ∧
        Tiles t.reverse 0 z ∧ ∀ r ∈ t, RowOK c h r := by
  induction rest with
  | nil =>
    intro a z hz ha0 haz _ _
    refine ⟨_, _, rfl, rfl, rfl, ?_, ?_⟩
    · simp [Tiles, hz, setZero, setHigh]
    · intro r hr
      simp only [List.mem_singleton] at hr
      subst hr
      exact ⟨ha0, haz, rfl, rfl, by simp [hd0], rfl, by simp [ht0], rfl⟩
  | cons b rest ih =>
    intro a z hz ha0 haz hnn hs
    rw [List.pairwise_cons] at hs
    have hab : b.redshift < a.redshift := hs.1 b (by simp)
    have hb0 := hnn b (by simp)
    obtain ⟨m1, m2, m3⟩ := mid_between c hc a.redshift b.redshift hb0 hab
    have hm : midAge c b.redshift a.redshift = midAge c a.redshift b.redshift := midAge_comm c _ _
    obtain ⟨l, t, e1, e2, e3, e4, e5⟩ := ih b (c.zAt (midAge c a.redshift b.redshift))
      (lt_of_le_of_lt hb0 m1) hb0 (le_of_lt m1)
      (fun s hs' => hnn s (List.mem_cons_of_mem _ hs')) hs.2
    rw [m3] at e1
    refine ⟨setLow c (c.zAt (midAge c a.redshift b.redshift)) (midAge c a.redshift b.redshift)
      (setHigh c z (c.age z) a) :: l,
      { index := a.index, redshift := a.redshift, zmin := c.zAt (midAge c a.redshift b.redshift),
        zmax := z, tstart := c.age z, tend := midAge c a.redshift b.redshift,
        dmin := c.dist (c.zAt (midAge c a.redshift b.redshift)) * h, dmax := c.dist z * h,
        tdmin := c.tdist (c.zAt (midAge c a.redshift b.redshift)) * h,
        tdmax := c.tdist z * h } :: t, ?_, ?_, ?_, ?_, ?_⟩
    · unfold chainFrom
      have hn : ¬ (setHigh c z (c.age z) a).redshift < b.redshift := not_lt.2 (le_of_lt hab)
      rw [if_neg hn]
      have e1' : chainFrom c (setHigh c (c.zAt (midAge c b.redshift a.redshift))
          (midAge c b.redshift a.redshift) b) rest = .ok l := by rw [hm]; exact e1
      have hr : (setHigh c z (c.age z) a).redshift = a.redshift := rfl
      simp only [hr, e1']
    · unfold metaTable
      rw [e2]
      rfl
    · simp only [List.map_cons, e3]
    · rw [List.reverse_cons]
      exact Tiles.snoc e4 _ rfl (lt_of_lt_of_le m2 haz)
    · intro r hr
      rcases List.mem_cons.1 hr with rfl | hr
      · exact ⟨le_of_lt m2, haz, rfl, m3.symm, rfl, rfl, rfl, rfl⟩
      · exact e5 r hr

omit [IsStrictOrderedRing K] in
/-- If the chain succeeds then no snapshot has a higher redshift than the one before it. -/
theorem chainFrom_ok (c : Cosmo K) (rest : List (Snapshot K)) :
    ∀ (a : Snapshot K) (l : List (Snapshot K)), chainFrom c a rest = .ok l →
      (a :: rest).Pairwise (fun a b => a.redshift ≥ b.redshift) := by
  induction rest with
  | nil => intro a l _; simp
  | cons b rest ih =>
    intro a l h
    unfold chainFrom at h
    split at h
    · cases h
    · rename_i hn
      dsimp only at h
      split at h
      · cases h
      · rename_i r hr
        have h1 := ih _ _ hr
        rw [List.pairwise_cons] at h1 ⊢
        have hb : ∀ d ∈ rest, b.redshift ≥ d.redshift := h1.1
        have hba : b.redshift ≤ a.redshift := not_lt.1 hn
        refine ⟨?_, List.pairwise_cons.2 ⟨hb, h1.2⟩⟩
        intro d hd
        rcases List.mem_cons.1 hd with rfl | hd
        · exact hba
        · exact le_trans (hb d hd) hba

/-! ## argsort -/

section argsort
variable {α : Type} [LinearOrder α]

theorem argInsert_perm (key : ℕ → α) (i : ℕ) (l : List ℕ) : (argInsert key i l).Perm (i :: l) := by
  induction l with
  | nil => simp [argInsert]
  | cons j rest ih =>
    unfold argInsert
    split
    · exact List.Perm.refl _
    · exact (List.Perm.cons j ih).trans (List.Perm.swap i j rest)

theorem argInsert_sorted (key : ℕ → α) (i : ℕ) (l : List ℕ)
    (h : l.Pairwise (fun a b => key a ≤ key b)) :
    (argInsert key i l).Pairwise (fun a b => key a ≤ key b) := by
  induction l with
  | nil => simp [argInsert]
  | cons j rest ih =>
    unfold argInsert
    rw [List.pairwise_cons] at h
    split
    · rename_i hlt
      rw [List.pairwise_cons]
      refine ⟨?_, List.pairwise_cons.2 h⟩
      intro b hb
      rcases List.mem_cons.1 hb with rfl | hb
      · exact le_of_lt hlt
      · exact le_trans (le_of_lt hlt) (h.1 b hb)
    · rename_i hge
      rw [List.pairwise_cons]
      refine ⟨?_, ih h.2⟩
      intro b hb
      rcases List.mem_cons.1 ((argInsert_perm key i rest).mem_iff.1 hb) with rfl | hb
      · exact not_lt.1 hge
      · exact h.1 b hb

theorem argsort_perm (key : ℕ → α) (n : ℕ) : (argsort key n).Perm (List.range n) := by
  unfold argsort
  induction n with
  | zero => simp
  | succ n ih =>
    rw [List.range_succ, List.foldl_append]
    simp only [List.foldl_cons, List.foldl_nil]
    refine (argInsert_perm key n _).trans ?_
    exact (List.Perm.cons n ih).trans (List.perm_append_singleton n _).symm

theorem argsort_sorted (key : ℕ → α) (n : ℕ) :
    (argsort key n).Pairwise (fun a b => key a ≤ key b) := by
  unfold argsort
  induction n with
  | zero => simp
  | succ n ih =>
    rw [List.range_succ, List.foldl_append]
    simp only [List.foldl_cons, List.foldl_nil]
    exact argInsert_sorted key n _ ih

theorem argInsert_last (key : ℕ → α) (i : ℕ) (l : List ℕ) (h : ∀ j ∈ l, key j ≤ key i) :
    argInsert key i l = l ++ [i] := by
  induction l with
  | nil => simp [argInsert]
  | cons j rest ih =>
    unfold argInsert
    rw [if_neg (not_lt.2 (h j (by simp))), ih (fun k hk => h k (List.mem_cons_of_mem _ hk))]
    rfl

theorem argsort_of_sorted (key : ℕ → α) (n : ℕ) (h : ∀ i j, i < j → j < n → key i ≤ key j) :
    argsort key n = List.range n := by
  unfold argsort
  induction n with
  | zero => simp
  | succ n ih =>
    rw [List.range_succ, List.foldl_append]
    simp only [List.foldl_cons, List.foldl_nil]
    rw [ih (fun i j hij hj => h i j hij (by omega))]
    apply argInsert_last
    intro j hj
    exact h j n (List.mem_range.1 hj) (by omega)

theorem argsort_length (key : ℕ → α) (n : ℕ) : (argsort key n).length = n := by
  rw [(argsort_perm key n).length_eq, List.length_range]

theorem argsort_lt (key : ℕ → α) (n : ℕ) : ∀ i ∈ argsort key n, i < n := by
  intro i hi
  exact List.mem_range.1 ((argsort_perm key n).mem_iff.1 hi)

theorem argsort_nodup (key : ℕ → α) (n : ℕ) : (argsort key n).Nodup :=
  (argsort_perm key n).nodup_iff.2 List.nodup_range

end argsort

theorem pick_range {α : Type} (xs : List α) (is : List ℕ) (h : ∀ i ∈ is, i < xs.length) :
    ∃ out, pick xs is = .ok out ∧ out.length = is.length ∧
      ∀ k : ℕ, out[k]? = (is[k]?).bind (fun i => xs[i]?) := by
  induction is with
  | nil => exact ⟨[], rfl, rfl, by simp⟩
  | cons i is ih =>
    obtain ⟨out, e1, e2, e3⟩ := ih (fun j hj => h j (List.mem_cons_of_mem _ hj))
    have hi := h i (by simp)
    refine ⟨xs[i] :: out, ?_, by simp [e2], ?_⟩
    · simp [pick, List.getElem?_eq_getElem hi, e1]
    · intro k
      cases k with
      | zero => simp [List.getElem?_eq_getElem hi]
      | succ k => simpa using e3 k

theorem pick_self {α : Type} (xs : List α) (p : ℕ → Bool) :
    pick xs ((List.range xs.length).filter p) =
      .ok ((xs.zipIdx.filter (fun q => p q.2)).map (·.1)) := by
  have gen : ∀ (ys zs : List α) (n : ℕ), xs = zs ++ ys → n = zs.length →
      pick xs ((List.range' n ys.length).filter p) =
        .ok (((ys.zipIdx n).filter (fun q => p q.2)).map (·.1)) := by
    intro ys
    induction ys with
    | nil => intro zs n _ _; simp [pick]
    | cons y ys ih =>
      intro zs n hx hn
      have hxn : xs[n]? = some y := by rw [hx, hn]; simp
      have := ih (zs ++ [y]) (n + 1) (by simp [hx]) (by simp [hn])
      simp only [List.length_cons, List.range'_succ, List.zipIdx_cons]
      by_cases hp : p n
      · simp only [List.filter_cons, hp, if_true, pick, hxn, this, List.map_cons]
      · simp only [List.filter_cons, hp]
        simpa using this
  rw [List.range_eq_range']
  exact gen xs [] 0 rfl rfl

end Verif.Sim
