import Verif.Lemmas.GridConvRun

/-!
# C103: convolving a grid with another
-/

set_option linter.unusedSectionVars false

namespace Verif.Map

open Verif.Sim (Err)
open Spec

section
variable {V : Type} [CommSemiring V]

/-! ## Sums over cells -/

theorem sum_comm_list {α β : Type} (l : List α) (m : List β) (f : α → β → V) :
    (l.map (fun x => (m.map (f x)).sum)).sum = (m.map (fun y => (l.map (fun x => f x y)).sum)).sum := by
  induction l with
  | nil => simp
  | cons x l ih =>
    simp only [List.map_cons, List.sum_cons]
    rw [ih, ← sum_map_add']

theorem sum_mul_list {α : Type} (l : List α) (f : α → V) (v : V) :
    (l.map (fun x => v * f x)).sum = v * (l.map f).sum := by
  induction l with
  | nil => simp
  | cons x l ih => simp [ih, mul_add]

theorem sum_list_mul {α : Type} (l : List α) (f : α → V) (v : V) :
    (l.map (fun x => f x * v)).sum = (l.map f).sum * v := by
  induction l with
  | nil => simp
  | cons x l ih => simp [ih, add_mul]

theorem sum_shift (n s j : ℕ) (F : ℕ → V) (h1 : (s - 1) / 2 ≤ j) (h2 : j + s / 2 < n) :
    ((List.range n).map (fun k => if j ≤ k + (s - 1) / 2 ∧ k + (s - 1) / 2 - j < s then
      F (k + (s - 1) / 2 - j) else 0)).sum = ((List.range s).map F).sum := by
  obtain ⟨t, ht⟩ : ∃ t, n = (j - (s - 1) / 2) + (s + t) := ⟨n - (j - (s - 1) / 2) - s, by omega⟩
  rw [ht, List.range_add, List.range_add]
  simp only [List.map_append, List.sum_append, List.map_map]
  have e1 : (List.map (fun k => if j ≤ k + (s - 1) / 2 ∧ k + (s - 1) / 2 - j < s then
      F (k + (s - 1) / 2 - j) else 0) (List.range (j - (s - 1) / 2))).sum = 0 := by
    rw [List.map_congr_left (g := fun _ => (0 : V)) (fun k hk => by
      have := List.mem_range.1 hk
      rw [if_neg (by omega)])]
    exact sum_zero_list _
  rw [e1, zero_add]
  have e2 : ∀ k ∈ List.range s, ((fun k => if j ≤ k + (s - 1) / 2 ∧ k + (s - 1) / 2 - j < s then
      F (k + (s - 1) / 2 - j) else 0) ∘ fun x => j - (s - 1) / 2 + x) k = F k := by
    intro k hk
    have := List.mem_range.1 hk
    simp only [Function.comp_apply]
    rw [if_pos (by omega)]
    congr 1
    omega
  rw [List.map_congr_left e2]
  have e3 : ∀ k ∈ List.range t, (((fun k => if j ≤ k + (s - 1) / 2 ∧ k + (s - 1) / 2 - j < s then
      F (k + (s - 1) / 2 - j) else 0) ∘ fun x => j - (s - 1) / 2 + x) ∘ fun x => s + x) k = 0 := by
    intro k hk
    simp only [Function.comp_apply]
    rw [if_neg (by omega)]
  have e4 : (List.map (((fun k => if j ≤ k + (s - 1) / 2 ∧ k + (s - 1) / 2 - j < s then
      F (k + (s - 1) / 2 - j) else 0) ∘ fun x => j - (s - 1) / 2 + x) ∘ fun x => s + x) (List.range t)).sum = 0 := by
    rw [List.map_congr_left e3]
    exact sum_zero_list _
  rw [Function.comp_assoc] at e4
  rw [e4, add_zero]

/-- What spreads from one cell adds up to the whole source, if this does not reach over the border. -/
theorem spread_total : ∀ (ns ss c' : List ℕ) (F : List ℕ → V), ss.length = ns.length → c'.length = ns.length →
    Fits ns ss c' →
    ((allCells ns).map (fun c => match spreads ss c c' with
      | some o => F o
      | none => 0)).sum = ((allCells ss).map F).sum
  | [], [], [], F, _, _, _ => by simp [allCells, spreads]
  | n :: ns, s :: ss, j :: c', F, h1, h2, h3 => by
    simp only [List.length_cons, Nat.add_right_cancel_iff] at h1 h2
    obtain ⟨f1, f2, f3⟩ := h3
    simp only [allCells]
    rw [sum_flatMap_map, sum_flatMap_map]
    have e0 : ((List.range s).map (fun i => (List.map F ((allCells ss).map (fun c => i :: c))).sum)).sum =
        ((List.range s).map (fun o => ((allCells ss).map (fun c => F (o :: c))).sum)).sum := by
      simp only [List.map_map]; rfl
    rw [e0, ← sum_shift n s j (fun o => ((allCells ss).map (fun c => F (o :: c))).sum) f1 f2]
    congr 1
    apply List.map_congr_left
    intro k hk
    rw [List.map_map]
    by_cases hc : j ≤ k + (s - 1) / 2 ∧ k + (s - 1) / 2 - j < s
    · rw [if_pos hc, ← spread_total ns ss c' (fun o => F ((k + (s - 1) / 2 - j) :: o)) h1 h2 f3]
      congr 1
      apply List.map_congr_left
      intro c _
      simp only [Function.comp_apply, spreads]
      rw [if_pos hc]
      rcases spreads ss c c' with _ | o <;> rfl
    · rw [if_neg hc]
      have : ((fun c => match spreads (s :: ss) c (j :: c') with
          | some o => F o
          | none => 0) ∘ fun c => k :: c) = fun _ => 0 := by
        funext c
        simp only [Function.comp_apply, spreads]
        rw [if_neg hc]
      rw [this]
      exact sum_zero_list _

theorem spreads_append : ∀ (ss c e c' : List ℕ), c.length = ss.length → spreads ss (c ++ e) c' = spreads ss c c' := by
  intro ss
  induction ss with
  | nil => intro c e c' _; unfold spreads; rfl
  | cons s ss ih =>
    intro c e c' h
    cases c with
    | nil => simp at h
    | cons k c =>
      cases c' with
      | nil => rfl
      | cons j c' =>
        simp only [List.cons_append, spreads]
        rw [ih c e c' (by simpa using h)]

/-- The total of the convolution. -/
theorem smear_total (a b : Arr V) (ns ss e : List ℕ) (p q : ℕ) (hl : ss.length ≤ ns.length)
    (hfit : ∀ c' ∈ allCells (ns.take ss.length), cell a (c' ++ e) p ≠ 0 → Fits (ns.take ss.length) ss c') :
    ((allCells (ns.take ss.length)).map (fun c => smear a b ns ss (c ++ e) p q)).sum =
      ((allCells (ns.take ss.length)).map (fun c => cell a (c ++ e) p)).sum *
        ((allCells ss).map (fun o => cell b o q)).sum := by
  have hn1 : (ns.take ss.length).length = ss.length := by rw [List.length_take]; omega
  unfold smear
  rw [sum_comm_list, ← sum_list_mul]
  congr 1
  apply List.map_congr_left
  intro c' hc'
  have hcl : c'.length = ss.length := by rw [((mem_allCells _ c').1 hc').length, hn1]
  by_cases h0 : cell a (c' ++ e) p = 0
  · rw [h0, zero_mul]
    rw [List.map_congr_left (g := fun _ => (0 : V)) (fun c hc => by
      have hc2 : c.length = ss.length := by rw [((mem_allCells _ c).1 hc).length, hn1]
      unfold arrives
      have : (c ++ e).drop ss.length = e := by rw [← hc2]; simp
      rw [this, h0]
      split
      · exact zero_mul _
      · rfl)]
    exact sum_zero_list _
  · rw [← sum_mul_list, ← spread_total (ns.take ss.length) ss c' _ hn1.symm (by rw [hn1, hcl]) (hfit c' hc' h0)]
    congr 1
    apply List.map_congr_left
    intro c hc
    have hc2 : c.length = ss.length := by rw [((mem_allCells _ c).1 hc).length, hn1]
    unfold arrives
    have h1 : (c ++ e).drop ss.length = e := by rw [← hc2]; simp
    rw [h1, spreads_append ss c e c' hc2]
    rcases spreads ss c c' with _ | o <;> rfl

/-- The convolution of a single point. -/
theorem smear_point (a b : Arr V) (ns ss c0 c e : List ℕ) (p q : ℕ) (v : V) (hl : ss.length ≤ ns.length)
    (hp : Point a ns (c0 ++ e) p v) (hc0 : Valid (ns.take ss.length) c0) (hc : c.length = ss.length)
    (he : Valid (ns.drop ss.length) e) :
    smear a b ns ss (c ++ e) p q = response b ss c0 c q v := by
  have hn1 : (ns.take ss.length).length = ss.length := by rw [List.length_take]; omega
  have hdrop : (c ++ e).drop ss.length = e := by rw [← hc]; simp
  unfold smear
  have : ∀ c' ∈ allCells (ns.take ss.length), arrives a b ss (c ++ e) c' p q =
      if c' = c0 then response b ss c0 c q v else 0 := by
    intro c' hc'
    have hv := (mem_allCells _ c').1 hc'
    unfold arrives
    rw [hdrop, spreads_append ss c e c' hc]
    by_cases h : c' = c0
    · rw [if_pos h, h, hp.1]
      unfold response
      rcases spreads ss c c0 with _ | o <;> rfl
    · rw [if_neg h]
      rcases spreads ss c c' with _ | o
      · rfl
      · have h0 : cell a (c' ++ e) p = 0 := hp.2 _ (by
          have : Valid (ns.take ss.length ++ ns.drop ss.length) (c' ++ e) :=
            (valid_append (by rw [hv.length])).2 ⟨hv, he⟩
          rwa [List.take_append_drop] at this) (fun h' => h (List.append_cancel_right h'))
        simp only
        rw [h0, zero_mul]
  rw [List.map_congr_left this, sum_map_single _ (allCells_nodup _), if_pos ((mem_allCells _ c0).2 hc0)]

/-- One when the number of cells is even. -/
def evens (ss : List ℕ) : List ℕ := ss.map (fun s => if s % 2 = 0 then 1 else 0)

/-- Facing cells get opposite cells of the source. -/
theorem spreads_facing : ∀ (ss c0 c c' : List ℕ), (∀ s ∈ ss, 1 ≤ s) → Facing (evens ss) c0 c c' →
    (∀ o, spreads ss c c0 = some o → Valid ss o ∧ spreads ss c' c0 = some (opposite ss o)) ∧
    (spreads ss c c0 = none → spreads ss c' c0 = none)
  | [], [], [], [], _, _ => by
    simp [spreads, opposite, Valid]
  | s :: ss, j :: c0, k :: c, k' :: c', hs, hf => by
    simp only [evens, List.map_cons, Facing] at hf
    obtain ⟨h1, h2⟩ := spreads_facing ss c0 c c' (fun s h => hs s (List.mem_cons_of_mem _ h)) hf.2
    have hs1 := hs s (List.mem_cons_self ..)
    have hk := hf.1
    have hcond : (j ≤ k + (s - 1) / 2 ∧ k + (s - 1) / 2 - j < s) ↔
        (j ≤ k' + (s - 1) / 2 ∧ k' + (s - 1) / 2 - j < s) := by
      split at hk <;> omega
    by_cases hc : j ≤ k + (s - 1) / 2 ∧ k + (s - 1) / 2 - j < s
    · have hc' := hcond.1 hc
      simp only [spreads, if_pos hc, if_pos hc']
      constructor
      · intro o ho
        rcases h3 : spreads ss c c0 with _ | o'
        · rw [h3] at ho; simp at ho
        · rw [h3] at ho
          simp only [Option.map_some, Option.some.injEq] at ho
          subst ho
          obtain ⟨h4, h5⟩ := h1 o' h3
          refine ⟨valid_cons.2 ⟨hc.2, h4⟩, ?_⟩
          rw [h5]
          simp only [Option.map_some, opposite, List.zipWith_cons_cons, Option.some.injEq, List.cons.injEq, and_true]
          split at hk <;> omega
      · intro h
        simp only [Option.map_eq_none_iff] at h ⊢
        exact h2 h
    · have hc' := fun h => hc (hcond.2 h)
      simp only [spreads, if_neg hc, if_neg hc']
      exact ⟨fun o ho => (by simp at ho), fun _ => trivial⟩
  | [], _ :: _, _, _, _, h => by simp [evens, Facing] at h
  | [], [], _ :: _, _, _, h => by simp [evens, Facing] at h
  | [], [], [], _ :: _, _, h => by simp [evens, Facing] at h
  | _ :: _, [], _, _, _, h => by simp [evens, Facing] at h
  | _ :: _, _ :: _, [], _, _, h => by simp [evens, Facing] at h
  | _ :: _, _ :: _, _ :: _, [], _, h => by simp [evens, Facing] at h

/-- Facing cells get the same of a source that is the same on both sides. -/
theorem response_facing (b : Arr V) (ss c0 c c' : List ℕ) (q : ℕ) (v : V) (hs : ∀ s ∈ ss, 1 ≤ s)
    (hb : Spec.Even b ss q) (hf : Facing (evens ss) c0 c c') :
    response b ss c0 c q v = response b ss c0 c' q v := by
  obtain ⟨h1, h2⟩ := spreads_facing ss c0 c c' hs hf
  unfold response
  rcases h : spreads ss c c0 with _ | o
  · rw [h2 h]
  · obtain ⟨h3, h4⟩ := h1 o h
    rw [h4]
    simp only
    rw [hb o h3]

end

section
variable {K V : Type} [Field K] [LinearOrder K] [IsStrictOrderedRing K] [FloorRing K] [CommSemiring V]

/-! ## The property -/

/-- C103 in full: a map can be convolved along any axes, as many as the source has; the response to a point is the
source around this point, so that it is the same on both sides of it when the source is; the padding makes no
difference and is removed. -/
def C103_full (K V : Type) [Field K] [LinearOrder K] [FloorRing K] [CommSemiring V] : Prop :=
  ∀ (g s : Grid K V) (a b : Arr V) (pad : ℕ), Convolvable g s a b none (.int pad) → s.nProps = 1 →
    (∀ ax : List ℕ, ax.Nodup → (∀ i ∈ ax, i < g.dim) → ax.length = s.nPix.length →
      ∃ g', g.convolve s (some ax) (.int pad) = (g', .ok ())) ∧
    ∃ g', g.convolve s none (.int pad) = (g', .ok ()) ∧ Convolved g g' s (fun _ => 0) ∧
      ∀ r, g'.grid = some r → ∀ (p : ℕ) (v : V) (c0 c c' e : List ℕ), p < g.nProps →
        Point a g.nPix (c0 ++ e) p v → Spec.Even b s.nPix 0 → Valid g.nPix (c0 ++ e) → Valid g.nPix (c ++ e) →
        Valid g.nPix (c' ++ e) → Facing (List.replicate s.nPix.length 0) c0 c c' →
        cell r (c ++ e) p = cell r (c' ++ e) p

/-- Each cell of the result is the sum of what arrives from the cells around it, with any padding; all descriptions
of the grid stay the same.  (Only along the first axes; see the failures below.) -/
theorem C103_values_partial (g s : Grid K V) (a b : Arr V) (ax : Option (List ℕ)) (pad : PadArg)
    (h : Convolvable g s a b ax pad) (hm : s.nProps = g.nProps ∨ s.nProps = 1) :
    ∃ g', g.convolve s ax pad = (g', .ok ()) ∧
      Convolved g g' s (fun p => if s.nProps = g.nProps then p else 0) := by
  obtain ⟨g', h1, h2, h3⟩ := convolve_ok g s h.regular h.floats a b h.active h.source h.shape h.real h.map h.low h.high
    ax pad h.axes h.notList h.padLength h.aligned h.padPos (by tauto)
  refine ⟨g', h1, h2, ?_⟩
  intro a0 b0 ha hb
  obtain ⟨r, r1, r2, r3⟩ := h3 a0 b0 ha hb
  refine ⟨r, r1, r2, ?_⟩
  intro c p hc hp
  rw [r3 c p hc hp]
  unfold sourceProp
  rcases hm with hm | hm
  · rw [if_pos hm, if_pos hm]
  · by_cases he : s.nProps = g.nProps
    · rw [if_pos he, if_pos he]
    · rw [if_neg he, if_neg he, if_pos hm]

/-- The padding and the order of the axes make no difference. -/
theorem C103_padding (g s : Grid K V) (a b : Arr V) (ax ax' : Option (List ℕ)) (pad pad' : PadArg)
    (h : Convolvable g s a b ax pad) (h' : Convolvable g s a b ax' pad')
    (hm : s.nProps = g.nProps ∨ s.nProps = 1) :
    ∃ g1 g2, g.convolve s ax pad = (g1, .ok ()) ∧ g.convolve s ax' pad' = (g2, .ok ()) ∧ Same g1 g2 := by
  obtain ⟨g1, a1, a2, a3⟩ := C103_values_partial g s a b ax pad h hm
  obtain ⟨g2, b1, b2, b3⟩ := C103_values_partial g s a b ax' pad' h' hm
  refine ⟨g1, g2, a1, b1, ?_, a2.trans b2.symm⟩
  obtain ⟨r1, c1, c2, c3⟩ := a3 a b h.active h.source
  obtain ⟨r2, d1, d2, d3⟩ := b3 a b h.active h.source
  rw [c1, d1]
  refine ⟨c2.trans d2.symm, ?_⟩
  intro i hi
  rw [c2, h.regular.data a h.active] at hi
  obtain ⟨c, p, rfl, hc, hp⟩ := valid_split hi
  exact (c3 c p hc hp).trans (d3 c p hc hp).symm

theorem valid_parts {ns ss c e : List ℕ} (hl : ss.length ≤ ns.length) (hc : c.length = ss.length)
    (h : Valid ns (c ++ e)) : Valid (ns.take ss.length) c ∧ Valid (ns.drop ss.length) e := by
  have : Valid (ns.take ss.length ++ ns.drop ss.length) (c ++ e) := by rwa [List.take_append_drop]
  exact (valid_append (by rw [hc, List.length_take]; omega)).1 this

/-- The response to a single point: the source around this point. -/
theorem C103_response (g s : Grid K V) (a b : Arr V) (ax : Option (List ℕ)) (pad : PadArg)
    (h : Convolvable g s a b ax pad) (hm : s.nProps = 1) (p : ℕ) (hp : p < g.nProps) (v : V) (c0 e : List ℕ)
    (h0 : c0.length = s.nPix.length) (hv0 : Valid g.nPix (c0 ++ e)) (hpt : Point a g.nPix (c0 ++ e) p v) :
    ∃ g' r, g.convolve s ax pad = (g', .ok ()) ∧ g'.grid = some r ∧
      ∀ c e', c.length = s.nPix.length → Valid g.nPix (c ++ e') →
        cell r (c ++ e') p = if e' = e then response b s.nPix c0 c 0 v else 0 := by
  obtain ⟨g', h1, -, h3⟩ := C103_values_partial g s a b ax pad h (.inr hm)
  obtain ⟨r, r1, r2, r3⟩ := h3 a b h.active h.source
  have hle : s.nPix.length ≤ g.nPix.length := by rw [h.regular.nPix]; exact h.high
  have hq : (if s.nProps = g.nProps then p else 0) = 0 := by
    split
    · omega
    · rfl
  refine ⟨g', r, h1, r1, ?_⟩
  intro c e' hc hv
  rw [r3 _ p hv hp, hq]
  obtain ⟨p1, p2⟩ := valid_parts hle h0 hv0
  obtain ⟨q1, q2⟩ := valid_parts hle hc hv
  by_cases he : e' = e
  · subst he
    rw [if_pos rfl]
    exact smear_point a b g.nPix s.nPix c0 c e' p 0 v hle hpt p1 hc p2
  · rw [if_neg he]
    unfold smear
    rw [List.map_congr_left (g := fun _ => (0 : V)) (fun c' hc' => by
      have hvc := (mem_allCells _ c').1 hc'
      have hdrop : (c ++ e').drop s.nPix.length = e' := by rw [← hc]; simp
      unfold arrives
      rw [hdrop]
      have : cell a (c' ++ e') p = 0 := hpt.2 _ (by
        have : Valid (g.nPix.take s.nPix.length ++ g.nPix.drop s.nPix.length) (c' ++ e') :=
          (valid_append (by rw [hvc.length])).2 ⟨hvc, q2⟩
        rwa [List.take_append_drop] at this) (fun h' => he (by
          have hl1 : c'.length = c0.length := by rw [hvc.length, h0, List.length_take]; omega
          exact (List.append_inj h' hl1).2))
      rw [this]
      split
      · exact zero_mul _
      · rfl)]
    exact sum_zero_list _

/-- A source that is the same on both sides gives a response that is the same on both sides of the point, along axes
on which it has an odd number of cells; along axes with an even number, of the point half a cell above. -/
theorem C103_centre_partial (g s : Grid K V) (a b : Arr V) (ax : Option (List ℕ)) (pad : PadArg)
    (h : Convolvable g s a b ax pad) (hm : s.nProps = 1) (hs : ∀ n ∈ s.nPix, 1 ≤ n) (p : ℕ) (hp : p < g.nProps)
    (v : V) (c0 e : List ℕ)
    (h0 : c0.length = s.nPix.length) (hv0 : Valid g.nPix (c0 ++ e)) (hpt : Point a g.nPix (c0 ++ e) p v)
    (hb : Spec.Even b s.nPix 0) :
    ∃ g' r, g.convolve s ax pad = (g', .ok ()) ∧ g'.grid = some r ∧
      ∀ c c', c.length = s.nPix.length → c'.length = s.nPix.length → Valid g.nPix (c ++ e) →
        Valid g.nPix (c' ++ e) → Facing (s.nPix.map (fun n => if n % 2 = 0 then 1 else 0)) c0 c c' →
        cell r (c ++ e) p = cell r (c' ++ e) p := by
  obtain ⟨g', r, h1, h2, h3⟩ := C103_response g s a b ax pad h hm p hp v c0 e h0 hv0 hpt
  refine ⟨g', r, h1, h2, ?_⟩
  intro c c' hc hc' hv hv' hf
  rw [h3 c e hc hv, h3 c' e hc' hv', if_pos rfl, if_pos rfl]
  exact response_facing b s.nPix c0 c c' 0 v hs hb hf

/-- The total of a map is multiplied by the total of the source, if the source put on any cell with data does not
reach over the border. -/
theorem C103_total (g s : Grid K V) (a b : Arr V) (ax : Option (List ℕ)) (pad : PadArg)
    (h : Convolvable g s a b ax pad) (hm : s.nProps = 1) (p : ℕ) (hp : p < g.nProps) (e : List ℕ)
    (he : Valid (g.nPix.drop s.nPix.length) e)
    (hfit : ∀ c, Valid (g.nPix.take s.nPix.length) c → cell a (c ++ e) p ≠ 0 →
      Fits (g.nPix.take s.nPix.length) s.nPix c) :
    ∃ g' r, g.convolve s ax pad = (g', .ok ()) ∧ g'.grid = some r ∧
      ((allCells (g.nPix.take s.nPix.length)).map (fun c => cell r (c ++ e) p)).sum =
        ((allCells (g.nPix.take s.nPix.length)).map (fun c => cell a (c ++ e) p)).sum *
          ((allCells s.nPix).map (fun o => cell b o 0)).sum := by
  obtain ⟨g', h1, -, h3⟩ := C103_values_partial g s a b ax pad h (.inr hm)
  obtain ⟨r, r1, r2, r3⟩ := h3 a b h.active h.source
  have hle : s.nPix.length ≤ g.nPix.length := by rw [h.regular.nPix]; exact h.high
  have hq : (if s.nProps = g.nProps then p else 0) = 0 := by
    split
    · omega
    · rfl
  refine ⟨g', r, h1, r1, ?_⟩
  rw [← smear_total a b g.nPix s.nPix e p 0 hle (fun c hc => hfit c ((mem_allCells _ c).1 hc))]
  congr 1
  apply List.map_congr_left
  intro c hc
  have hvc := (mem_allCells _ c).1 hc
  rw [r3 _ p (by
    have : Valid (g.nPix.take s.nPix.length ++ g.nPix.drop s.nPix.length) (c ++ e) :=
      (valid_append (by rw [hvc.length])).2 ⟨hvc, he⟩
    rwa [List.take_append_drop] at this) hp, hq]

/-! ## Not in place -/

theorem smear_congr (a a' b : Arr V) (ns ss c : List ℕ) (p q : ℕ) (hl : ss.length ≤ ns.length) (hc : Valid ns c)
    (h : ∀ c', Valid ns c' → cell a c' p = cell a' c' p) : smear a b ns ss c p q = smear a' b ns ss c p q := by
  unfold smear
  congr 1
  apply List.map_congr_left
  intro c' hc'
  have hvc := (mem_allCells _ c').1 hc'
  unfold arrives
  have : Valid ns (c' ++ c.drop ss.length) := by
    have h1 : Valid (ns.take ss.length ++ ns.drop ss.length) (c.take ss.length ++ c.drop ss.length) := by
      rwa [List.take_append_drop, List.take_append_drop]
    have hcl := hc.length
    have h2 := ((valid_append (by rw [List.length_take, List.length_take]; omega)).1 h1).2
    have h3 : Valid (ns.take ss.length ++ ns.drop ss.length) (c' ++ c.drop ss.length) :=
      (valid_append (by rw [hvc.length])).2 ⟨hvc, h2⟩
    rwa [List.take_append_drop] at h3
  rw [h _ this]

/-- `in_place=False` gives a new grid with the same axes, units and number of objects and the same values as the
convolution in place. -/
theorem C103_new_partial (g s : Grid K V) (a b : Arr V) (ax : Option (List ℕ)) (pad : PadArg)
    (h : Convolvable g s a b ax pad) (hm : s.nProps = g.nProps ∨ s.nProps = 1) (hlab : Labelled g)
    (hu : g.gridunits.length = g.nProps) :
    ∃ g' r, g.convolveNew s ax pad = .ok g' ∧ SameAxes g g' ∧ g'.nProps = g.nProps ∧ g'.nObj = g.nObj ∧
      g'.gridunits = g.gridunits ∧ g'.fourier = g.fourier ∧ g'.isPow = g.isPow ∧ g'.grid = some r ∧
      r.shape = a.shape ∧ ∀ c p, Valid g.nPix c → p < g.nProps →
        cell r c p = smear a b g.nPix s.nPix c p (if s.nProps = g.nProps then p else 0) := by
  obtain ⟨x, hx, hcopy, hun, -⟩ := C28_copy_all g h.regular hlab hu
  obtain ⟨hxr, hxf, -⟩ := copy_regular g x h.regular h.floats hlab none hx
  obtain ⟨hobj, a', ha', hs', hv'⟩ := hcopy.values a h.active
  simp only [List.length_range] at hs'
  have hnp : x.nProps = g.nProps := by rw [hcopy.nProps]; simp
  have hdim : x.dim = g.dim := by simp [Grid.dim, hcopy.axes.center]
  have hsa := h.regular.data a h.active
  have hal2 : a.shape.length = g.dim + 1 := by simp [hsa, h.regular.nPix]
  have hconv : Convolvable x s a' b ax pad :=
    ⟨hxr, hxf, ha', h.source, h.shape, by rw [hcopy.spaces.1]; exact h.real, by rw [hcopy.spaces.2]; exact h.map,
      h.low, by rw [hdim]; exact h.high, h.axes, h.notList, h.padLength, h.aligned, h.padPos⟩
  obtain ⟨g', h1, h2, h3⟩ := C103_values_partial x s a' b ax pad hconv (by rw [hnp]; exact hm)
  obtain ⟨r, r1, r2, r3⟩ := h3 a' b ha' h.source
  have e0 : a'.shape.length = a.shape.length := by rw [hs', hsa]
  have hbl : b.shape.length = s.nPix.length + 1 := by simp [h.shape]
  -- the plan is the same for the copy
  have hdd : g.dim - (a.shape.length - b.shape.length) = s.nPix.length := by have := h.high; omega
  have k1 := convAxes_ok g.dim (a.shape.length - b.shape.length) ax (by rw [hdd]; exact h.axes)
  rw [hdd] at k1
  have haxl : (askedAxes s.nPix.length ax).length = s.nPix.length := by
    rw [h.axes.length_eq]; simp
  have hplan := convPlan_ok g s a b h.active h.source h.real h.map (by have := h.high; omega) ax pad _ k1 _ _
    (convPad_ok _ pad h.notList (by rw [haxl]; exact h.padLength))
  have hplan' : convPlan x s ax pad = convPlan g s ax pad := by
    rw [hplan]
    have := convPlan_ok x s a' b ha' h.source hconv.real hconv.map (by have := h.high; omega) ax pad _
      (by rw [hdim, e0]; exact k1) _ _ (convPad_ok _ pad h.notList (by rw [haxl]; exact h.padLength))
    rw [this, e0]
  have hrest : ∀ {α : Type} (f : Grid K V → α), (∀ y : Grid K V, f { y with grid := none } = f y) → f g' = f x := by
    intro α f hf
    rw [← hf g', ← hf x, h2]
  refine ⟨g', r, ?_, ?_, ?_, ?_, ?_, ?_, ?_, r1, by rw [r2, hs', hsa], ?_⟩
  · unfold Grid.convolve at h1
    unfold Grid.convolveNew
    rw [hplan'] at h1
    rw [hplan] at h1 ⊢
    simp only [hx] at h1 ⊢
    rw [h1]
  · have q := hcopy.axes
    exact ⟨(hrest (·.center) (fun _ => rfl)).trans q.center, (hrest (·.side.vals) (fun _ => rfl)).trans q.side,
      (hrest (·.pix) (fun _ => rfl)).trans q.pix, (hrest (·.nPix) (fun _ => rfl)).trans q.nPix,
      (hrest (·.axunits) (fun _ => rfl)).trans q.axunits, (hrest (·.faxunits) (fun _ => rfl)).trans q.faxunits,
      (hrest (·.axes) (fun _ => rfl)).trans q.axes, (hrest (·.centers) (fun _ => rfl)).trans q.centers,
      (hrest (·.faxes) (fun _ => rfl)).trans q.faxes, (hrest (·.fcenters) (fun _ => rfl)).trans q.fcenters⟩
  · exact (hrest (·.nProps) (fun _ => rfl)).trans hnp
  · exact (hrest (·.nObj) (fun _ => rfl)).trans hobj
  · exact (hrest (·.gridunits) (fun _ => rfl)).trans hun
  · exact (hrest (·.fourier) (fun _ => rfl)).trans hcopy.spaces.1
  · exact (hrest (·.isPow) (fun _ => rfl)).trans hcopy.spaces.2
  · intro c p hc hp
    have hnpix := hcopy.axes.nPix
    have := r3 c p (by rw [hnpix]; exact hc) (by rw [hnp]; exact hp)
    rw [hnpix, hnp] at this
    rw [this]
    apply smear_congr a' a b g.nPix s.nPix c p _ (by rw [h.regular.nPix]; exact h.high) hc
    intro c' hc'
    exact hv' c' p p hc' (by simp [hp])

/-! ## What is refused, and what fails -/

/-- Requests that cannot be fulfilled are refused before anything is changed. -/
theorem C103_refused (g s : Grid K V) (ax : Option (List ℕ)) (pad : PadArg)
    (h : g.grid = none ∨ true ∈ g.fourier ∨ s.grid = none ∨ g.isPow = true ∨
      (∃ a b, g.grid = some a ∧ s.grid = some b ∧ a.shape.length < b.shape.length) ∨
      (∃ l, ax = some l ∧ ∃ i ∈ l, g.dim ≤ i) ∨
      (∃ l l', ax = some l ∧ (pad = .list l' ∨ pad = .array l') ∧ l'.length ≠ l.length)) :
    g.convolve s ax pad = (g, .error .valueError) ∧ g.convolveNew s ax pad = .error .valueError := by
  have key : convPlan g s ax pad = .error .valueError := by
    unfold convPlan
    rcases ha : g.grid with _ | a
    · rfl
    simp only
    by_cases hf : true ∈ g.fourier
    · rw [if_pos hf]
    rw [if_neg hf]
    rcases hb : s.grid with _ | b
    · rfl
    simp only
    by_cases hp : g.isPow = true
    · rw [if_pos hp]
    rw [if_neg hp]
    by_cases hl : a.shape.length < b.shape.length
    · rw [if_pos hl]
    rw [if_neg hl]
    rw [ha, hb] at h
    rcases h with h | h | h | h | ⟨a', b', h1, h2, h3⟩ | ⟨l, h1, h2⟩ | ⟨l, l', h1, h2, h3⟩
    · cases h
    · exact absurd h hf
    · cases h
    · exact absurd h hp
    · simp only [Option.some.injEq] at h1 h2
      subst h1 h2
      exact absurd h3 hl
    · subst h1
      simp only [convAxes]
      rw [if_pos h2]
    · subst h1
      simp only [convAxes]
      split
      · rename_i e he
        split at he
        · simpa using he.symm
        · cases he
      · rename_i l2 he
        split at he
        · cases he
        · simp only [Except.ok.injEq] at he
          subst he
          rcases h2 with h2 | h2 <;> subst h2 <;> simp only [convPad] <;> rw [if_pos h3]
  unfold Grid.convolve Grid.convolveNew
  rw [key]
  exact ⟨rfl, rfl⟩

/-- A list of amounts of padding (instead of an array) always raises. -/
theorem C103_list_fails (g s : Grid K V) (ax : Option (List ℕ)) (l : List ℤ) :
    (∃ e, (g.convolve s ax (.list l)).2 = .error e) ∧ ∃ e, g.convolveNew s ax (.list l) = .error e := by
  have key : ∀ P, convPlan g s ax (.list l) = .ok P → P.negate = false := by
    intro P hP
    unfold convPlan at hP
    split at hP
    · cases hP
    split at hP
    · cases hP
    split at hP
    · cases hP
    split at hP
    · cases hP
    split at hP
    · cases hP
    split at hP
    · cases hP
    split at hP
    · cases hP
    rename_i p n hq
    simp only [Except.ok.injEq] at hP
    subst hP
    simp only [convPad] at hq
    split at hq
    · cases hq
    · simp only [Except.ok.injEq, Prod.mk.injEq] at hq
      exact hq.2.symm
  have run : ∀ (x : Grid K V) P, P.negate = false → ∃ e, (convRun x P).2 = .error e := by
    intro x P hP
    unfold convRun
    split
    · exact ⟨_, rfl⟩
    · split
      · exact ⟨_, rfl⟩
      · split
        · exact ⟨_, rfl⟩
        · simp only [hP, Bool.false_eq_true, if_false]
          exact ⟨_, rfl⟩
  unfold Grid.convolve Grid.convolveNew
  rcases hp : convPlan g s ax (.list l) with e | P
  · exact ⟨⟨e, rfl⟩, e, rfl⟩
  · have hn := key P hp
    simp only
    refine ⟨run g P hn, ?_⟩
    rcases g.copy none with e | c
    · exact ⟨e, rfl⟩
    · obtain ⟨e, he⟩ := run c P hn
      simp only
      split
      · exact ⟨_, rfl⟩
      · rename_i c' hc
        rw [hc] at he
        cases he

/-- It raises only after the map was convolved, and leaves the padding. -/
theorem C103_list_leaves (g s : Grid K V) (a b : Arr V) (p : ℕ) (h : Convolvable g s a b none (.int p))
    (hm : s.nProps = g.nProps ∨ s.nProps = 1) :
    ∃ g', g.convolve s none (.list (List.replicate s.nPix.length (p : ℤ))) = (g', .error .typeError) ∧
      ∀ i n, i < s.nPix.length → g.nPix[i]? = some n → g'.nPix[i]? = some (n + 2 * p) := by
  have hsa := h.regular.data a h.active
  have hal2 : a.shape.length = g.dim + 1 := by simp [hsa, h.regular.nPix]
  have hbl : b.shape.length = s.nPix.length + 1 := by simp [h.shape]
  have hle := h.high
  have hdd : g.dim - (a.shape.length - b.shape.length) = s.nPix.length := by omega
  have k1 : convAxes g.dim (a.shape.length - b.shape.length) none = .ok (List.range s.nPix.length) := by
    simp only [convAxes]; rw [hdd]
  have hplan := convPlan_ok g s a b h.active h.source h.real h.map (by omega) none
    (.list (List.replicate s.nPix.length (p : ℤ))) _ k1 (List.replicate s.nPix.length (p : ℤ)) false
    (by simp [convPad])
  obtain ⟨g1, a', p1, p2, p3, q1, q2, q3, q4, q5, q6, q7, q8, q9, hax', hash, hget⟩ :=
    conv_padded g h.regular h.floats a h.active (List.range s.nPix.length)
      (List.replicate s.nPix.length (p : ℤ)) (by simp; intro i hi; omega) List.nodup_range (by simp)
      h.aligned (by simp)
  have hlow := h.low
  obtain ⟨r, hr, -, -⟩ := fftConv_values a b g.nPix s.nPix (List.range s.nPix.length) g.nProps s.nProps hsa h.shape
    (by rw [h.regular.nPix]; exact hle) (by intro h0; simp [h0] at hlow) List.nodup_range (by simp) (by tauto)
  obtain ⟨ps, hps⟩ : ∃ ps, ps = (List.range g.dim).map
    (fun i => (amount (List.range s.nPix.length) (List.replicate s.nPix.length (p : ℤ)) i).toNat) := ⟨_, rfl⟩
  rw [← hps] at hash hget
  have hpl : ps.length = g.dim := by simp [hps]
  obtain ⟨r', hr', -, -⟩ := fftConv_pad a a' _ r (List.range s.nPix.length) (ps ++ [0]) (by simp [hpl, hal2])
    (by rw [convSource_length b _ (by omega)]; omega) (by
    intro i hi
    rw [List.getD_eq_getElem?_getD]
    by_cases hid : i < g.dim
    · rw [List.getElem?_append_left (by omega), hps, List.getElem?_map, List.getElem?_range hid]
      simp only [List.mem_range] at hi
      simp [amount, hi]
    · by_cases he : i = g.dim
      · rw [List.getElem?_append_right (by omega), he, hpl]
        simp
      · rw [List.getElem?_eq_none (by simp; omega)]
        rfl) hash hget hr
  refine ⟨{ g1 with grid := some r' }, ?_, ?_⟩
  · unfold Grid.convolve
    rw [hplan]
    simp only [convRun]
    rw [p1]
    simp only [q9, hr', Bool.false_eq_true, if_false]
  · intro i n hi hn
    obtain ⟨n', w, c, -, -, hx⟩ := h.regular.axis i (by omega)
    have := hx.nPix
    rw [hn] at this
    simp only [Option.some.injEq] at this
    subst this
    have := (hax' i n w c _ hx (List.getElem?_eq_getElem (by rw [h.regular.fourier]; omega))).nPix
    show g1.nPix[i]? = _
    rw [this]
    have hidx : (List.range s.nPix.length).idxOf i = i := by
      have := List.nodup_range (n := s.nPix.length) |>.idxOf_getElem i (by simpa using hi)
      simpa using this
    simp [amount, hi, hidx, List.getElem?_replicate]

/-- With padding, a single axis other than the first cannot be convolved. -/
theorem C103_padded_axis_fails (g s : Grid K V) (k p : ℕ) (hk : k ≠ 0) (hp : 0 < p) :
    ∃ e, (g.convolve s (some [k]) (.int p)).2 = .error e := by
  unfold Grid.convolve
  rcases hP : convPlan g s (some [k]) (.int p) with e | P
  · exact ⟨e, rfl⟩
  · have hd : k < g.dim := by
      by_contra hd
      have := C103_refused g s (some [k]) (.int p) (by
        right; right; right; right; right; left
        exact ⟨[k], rfl, k, by simp, by omega⟩)
      unfold Grid.convolve at this
      rw [hP] at this
      unfold convPlan at hP
      split at hP
      · cases hP
      split at hP
      · cases hP
      split at hP
      · cases hP
      split at hP
      · cases hP
      split at hP
      · cases hP
      simp only [convAxes] at hP
      rw [if_pos ⟨k, by simp, by omega⟩] at hP
      cases hP
    have hPax : P.ax = [k] ∧ P.pad = [(p : ℤ)] := by
      unfold convPlan at hP
      split at hP
      · cases hP
      split at hP
      · cases hP
      split at hP
      · cases hP
      split at hP
      · cases hP
      split at hP
      · cases hP
      simp only [convAxes] at hP
      rw [if_neg (by simpa using hd)] at hP
      simp only [convPad, Except.ok.injEq] at hP
      subst hP
      simp
    obtain ⟨e, he⟩ := C21_single_axis_fails g k hd hk (p : ℤ) (by omega) (0 : V)
    refine ⟨e, ?_⟩
    simp only [convRun]
    rw [hPax.1, hPax.2, he]

/-- Without padding, a source of one axis can be used along another axis than the first only if it has one cell or as
many as the first axis of the map. -/
theorem C103_other_axis_fails (g s : Grid K V) (a b : Arr V) (k : ℕ) (hk : k ≠ 0)
    (h : Convolvable g s a b none .none) (n0 n : ℕ) (hs : s.nPix = [n]) (h0 : g.nPix[0]? = some n0)
    (hn : n ≠ n0) (hn1 : n ≠ 1) : ∃ e, (g.convolve s (some [k]) .none).2 = .error e := by
  by_cases hd : k < g.dim
  swap
  · have := (C103_refused g s (some [k]) .none (by
        right; right; right; right; right; left
        exact ⟨[k], rfl, k, by simp, by omega⟩)).1
    exact ⟨_, by rw [this]⟩
  have hsa := h.regular.data a h.active
  have hal2 : a.shape.length = g.dim + 1 := by simp [hsa, h.regular.nPix]
  have hb : b.shape = [n] ++ [s.nProps] := by rw [h.shape, hs]
  have hbl : b.shape.length = 2 := by simp [hb]
  have k1 : convAxes g.dim (a.shape.length - b.shape.length) (some [k]) = .ok [k] := by
    simp only [convAxes]; rw [if_neg (by simpa using hd)]
  have hplan := convPlan_ok g s a b h.active h.source h.real h.map (by omega) (some [k]) .none _ k1 [0] true rfl
  obtain ⟨g1, a', p1, p2, p3, q1, q2, q3, q4, q5, q6, q7, q8, q9, hax', hash, hget⟩ :=
    conv_padded g h.regular h.floats a h.active [k] [0] (by simpa using hd) (by simp) rfl
      (by
        intro i hi
        exfalso; apply hi
        unfold amount
        split
        · have : i = k := by simpa using ‹i ∈ [k]›
          subst this; simp
        · rfl) (by simp)
  have hn0 : 2 ≤ n0 := by
    obtain ⟨n', w, c, h2, -, hx⟩ := h.regular.axis 0 (by omega)
    have := hx.nPix
    rw [h0] at this
    simp only [Option.some.injEq] at this
    omega
  have hz : ∀ i, (amount [k] [(0 : ℤ)] i).toNat = 0 := by
    intro i
    unfold amount
    split
    · have : i = k := by simpa using ‹i ∈ [k]›
      subst this; simp
    · rfl
  have hf : fftConv a' (convSource b (a.shape.length - b.shape.length)) [k] = .error .valueError := by
    unfold fftConv
    rw [if_neg (by simp), if_pos]
    refine ⟨((n0, n), 0), List.mem_zipIdx_iff_getElem?.2 ?_, by simp; omega, fun h => hn h.symm, by simp; omega, hn1⟩
    rw [List.getElem?_zip_eq_some]
    constructor
    · simp only
      rw [hash, List.getElem?_zipWith, hsa]
      have : ((List.range g.dim).map (fun i => (amount [k] [(0 : ℤ)] i).toNat) ++ [0])[0]? = some 0 := by
        rw [List.getElem?_append_left (by simp; omega), List.getElem?_map, List.getElem?_range (by omega)]
        simp [hz]
      rw [this, List.getElem?_append_left (by rw [h.regular.nPix]; omega), h0]
      simp
    · simp [convSource, hb]
  refine ⟨.valueError, ?_⟩
  unfold Grid.convolve
  rw [hplan]
  simp only [convRun]
  rw [p1]
  simp only [q9, hf]

/-- A map of one property convolved with a source of several uses the one before the middle, without notice. -/
theorem C103_property_chosen (g s : Grid K V) (a b : Arr V) (ax : Option (List ℕ)) (pad : PadArg)
    (h : Convolvable g s a b ax pad) (h1 : g.nProps = 1) (hm : 2 ≤ s.nProps) :
    ∃ g', g.convolve s ax pad = (g', .ok ()) ∧ Convolved g g' s (fun _ => (s.nProps - 1) / 2) := by
  obtain ⟨g', k1, k2, k3⟩ := convolve_ok g s h.regular h.floats a b h.active h.source h.shape h.real h.map h.low h.high
    ax pad h.axes h.notList h.padLength h.aligned h.padPos (by tauto)
  refine ⟨g', k1, k2, ?_⟩
  intro a0 b0 ha hb
  obtain ⟨r, r1, r2, r3⟩ := k3 a0 b0 ha hb
  refine ⟨r, r1, r2, ?_⟩
  intro c p hc hp
  rw [r3 c p hc hp]
  unfold sourceProp
  rw [if_neg (by omega), if_neg (by omega)]

/-- Different numbers of properties, neither of them one: this raises, but the padding stays. -/
theorem C103_properties_fail (g s : Grid K V) (a b : Arr V) (p : ℕ) (h : Convolvable g s a b none (.int p))
    (h1 : g.nProps ≠ 1) (h2 : s.nProps ≠ 1) (h3 : s.nProps ≠ g.nProps) :
    ∃ g', g.convolve s none (.int p) = (g', .error .valueError) ∧
      ∀ i n, i < s.nPix.length → g.nPix[i]? = some n → g'.nPix[i]? = some (n + 2 * p) := by
  have hsa := h.regular.data a h.active
  have hal2 : a.shape.length = g.dim + 1 := by simp [hsa, h.regular.nPix]
  have hbl : b.shape.length = s.nPix.length + 1 := by simp [h.shape]
  have hle := h.high
  have hdd : g.dim - (a.shape.length - b.shape.length) = s.nPix.length := by omega
  have k1 : convAxes g.dim (a.shape.length - b.shape.length) none = .ok (List.range s.nPix.length) := by
    simp only [convAxes]; rw [hdd]
  have hplan := convPlan_ok g s a b h.active h.source h.real h.map (by omega) none
    (.int p) _ k1 (List.replicate s.nPix.length (p : ℤ)) true (by simp [convPad])
  obtain ⟨g1, a', p1, p2, p3, q1, q2, q3, q4, q5, q6, q7, q8, q9, hax', hash, hget⟩ :=
    conv_padded g h.regular h.floats a h.active (List.range s.nPix.length)
      (List.replicate s.nPix.length (p : ℤ)) (by simp; intro i hi; omega) List.nodup_range (by simp)
      h.aligned (by simp)
  have hlow := h.low
  have hf : fftConv a' (convSource b (a.shape.length - b.shape.length)) (List.range s.nPix.length) =
      .error .valueError := by
    unfold fftConv
    rw [if_neg (by
      rintro (h0 | h0)
      · have := congrArg List.length h0
        simp at this
        rw [this] at hlow
        simp at hlow
      · exact h0 List.nodup_range), if_pos]
    refine ⟨((g.nProps, s.nProps), g.dim), List.mem_zipIdx_iff_getElem?.2 ?_, by simp; omega, fun h => h3 h.symm, h1, h2⟩
    rw [List.getElem?_zip_eq_some]
    constructor
    · simp only
      rw [hash, List.getElem?_zipWith, hsa, List.getElem?_append_right (by rw [h.regular.nPix]), h.regular.nPix,
        List.getElem?_append_right (by simp)]
      simp
    · simp only [convSource]
      rw [h.shape]
      simp only [List.length_append, List.length_singleton, Nat.add_sub_cancel, List.take_left, List.drop_left]
      rw [List.getElem?_append_right (by simp; omega)]
      simp
      have : g.dim - (s.nPix.length + (a.shape.length - (s.nPix.length + 1))) = 0 := by omega
      rw [this]
      rfl
  refine ⟨g1, ?_, ?_⟩
  · unfold Grid.convolve
    rw [hplan]
    simp only [convRun]
    rw [p1]
    simp only [q9, hf]
  · intro i n hi hn
    obtain ⟨n', w, c, -, -, hx⟩ := h.regular.axis i (by omega)
    have := hx.nPix
    rw [hn] at this
    simp only [Option.some.injEq] at this
    subst this
    have := (hax' i n w c _ hx (List.getElem?_eq_getElem (by rw [h.regular.fourier]; omega))).nPix
    rw [this]
    have hidx : (List.range s.nPix.length).idxOf i = i := by
      have := List.nodup_range (n := s.nPix.length) |>.idxOf_getElem i (by simpa using hi)
      simpa using this
    simp [amount, hi, hidx, List.getElem?_replicate]

/-- With an even number `2 h` of cells the response is never centred: `h` cells above the point there is the last cell
of the source, `h` cells below it nothing. -/
theorem C103_even_fails (g s : Grid K V) (a b : Arr V) (ax : Option (List ℕ)) (pad : PadArg)
    (h : Convolvable g s a b ax pad) (hm : s.nProps = 1) (k : ℕ) (hk : 1 ≤ k) (hs : s.nPix = [2 * k])
    (p : ℕ) (hp : p < g.nProps) (v : V) (j : ℕ) (e : List ℕ) (hv0 : Valid g.nPix (j :: e))
    (hpt : Point a g.nPix (j :: e) p v) (hj : k ≤ j) (hup : Valid g.nPix ((j + k) :: e)) :
    ∃ g' r, g.convolve s ax pad = (g', .ok ()) ∧ g'.grid = some r ∧
      cell r ((j + k) :: e) p = v * cell b [2 * k - 1] 0 ∧ cell r ((j - k) :: e) p = 0 := by
  obtain ⟨g', r, h1, h2, h3⟩ := C103_response g s a b ax pad h hm p hp v [j] e (by rw [hs]; rfl) hv0 hpt
  refine ⟨g', r, h1, h2, ?_, ?_⟩
  · have := h3 [j + k] e (by rw [hs]; rfl) hup
    rw [if_pos rfl, hs] at this
    simp only [List.singleton_append] at this
    rw [this]
    unfold response
    simp only [spreads]
    rw [if_pos (by omega)]
    simp only [Option.map_some]
    congr 3
    omega
  · have hdn : Valid g.nPix ((j - k) :: e) := by
      rcases hn : g.nPix with _ | ⟨n, ns⟩
      · rw [hn] at hv0; simp [Valid] at hv0
      · rw [hn] at hv0
        rw [valid_cons] at hv0 ⊢
        exact ⟨by omega, hv0.2⟩
    have := h3 [j - k] e (by rw [hs]; rfl) hdn
    rw [if_pos rfl, hs] at this
    simp only [List.singleton_append] at this
    rw [this]
    unfold response
    simp only [spreads]
    rw [if_neg (by omega)]

/-! ## Examples -/

/-- A map with cells of width one around the origin. -/
def plainGrid (ns : List ℕ) (np : ℕ) (d : List ℕ → V) : Grid K V where
  nProps := np
  nObj := 0
  center := ⟨false, ns.map (fun _ => 0)⟩
  side := ⟨false, ns.map (fun (n : ℕ) => (n : K) * 1)⟩
  pix := ⟨false, ns.map (fun _ => 1)⟩
  nPix := ns
  axunits := ns.map (fun _ => none)
  faxunits := ns.map (fun _ => none)
  gridunits := List.replicate np none
  axes := ns.map (fun n => edges n 1 0)
  centers := ns.map (fun n => middles n 1 0)
  faxes := ns.map (fun n => fedges n 1)
  fcenters := ns.map (fun n => freqs n 1)
  fourier := ns.map (fun _ => false)
  isPow := false
  grid := some ⟨ns ++ [np], d⟩

theorem plainGrid_regular (ns : List ℕ) (np : ℕ) (d : List ℕ → V) (h : ∀ n ∈ ns, 2 ≤ n) :
    Regular (plainGrid (K := K) ns np d) where
  nPix := by simp [plainGrid, Grid.dim]
  pix := by simp [plainGrid, Grid.dim]
  side := by simp [plainGrid, Grid.dim]
  axes := by simp [plainGrid, Grid.dim]
  centers := by simp [plainGrid, Grid.dim]
  fcenters := by simp [plainGrid, Grid.dim]
  faxes := by simp [plainGrid, Grid.dim]
  fourier := by simp [plainGrid, Grid.dim]
  axis := fun i hi => by
    have hi' : i < ns.length := by simpa [plainGrid, Grid.dim] using hi
    refine ⟨ns[i], 1, 0, h _ (List.getElem_mem _), one_pos, ?_⟩
    constructor <;> simp [plainGrid, List.getElem?_eq_getElem hi', List.getElem?_replicate, hi']
  data := fun a ha => by
    simp only [plainGrid, Option.some.injEq] at ha
    subst ha
    rfl

/-- Such maps and sources can be convolved, with any padding. -/
theorem plain_convolvable (ns ss : List ℕ) (np m : ℕ) (d d' : List ℕ → V) (pad : ℕ) (h : ∀ n ∈ ns, 2 ≤ n)
    (h1 : 1 ≤ ss.length) (h2 : ss.length ≤ ns.length) :
    Convolvable (plainGrid (K := K) ns np d) (plainGrid ss m d') ⟨ns ++ [np], d⟩ ⟨ss ++ [m], d'⟩ none (.int pad) where
  regular := plainGrid_regular ns np d h
  floats := ⟨rfl, rfl, rfl⟩
  active := rfl
  source := rfl
  shape := rfl
  real := by simp [plainGrid]
  map := rfl
  low := h1
  high := by simpa [plainGrid, Grid.dim] using h2
  axes := List.Perm.refl _
  notList := fun l h => by cases h
  padLength := by simp [askedPad]
  aligned := C21_aligned_range _ _ (by simp [askedPad])
  padPos := by simp [askedPad]

/-- The claim in full is false: a source of two equal cells on a map of five. -/
theorem C103_full_false [Nontrivial V] : ¬ C103_full K V := by
  intro hfull
  have hc := plain_convolvable (K := K) (V := V) [5] [2] 1 1 (fun i => if i = [2, 0] then 1 else 0) (fun _ => 1) 0
    (by simp) (by simp) (by simp)
  obtain ⟨-, g', h1, -, h3⟩ := hfull _ _ _ _ 0 hc rfl
  have hv : ∀ j, j < 5 → Valid (plainGrid (K := K) (V := V) [5] 1 (fun i => if i = [2, 0] then 1 else 0)).nPix [j] := by
    intro j hj
    show Valid [5] [j]
    exact valid_cons.2 ⟨hj, valid_nil⟩
  have hpt : Point (⟨[5] ++ [1], fun i => if i = [2, 0] then 1 else 0⟩ : Arr V) [5] [2] 0 1 := by
    refine ⟨by simp [cell], ?_⟩
    intro c _ hne
    simp only [cell]
    rw [if_neg]
    intro h
    exact hne (List.append_cancel_right (bs := [0]) (by simpa using h))
  obtain ⟨g2, r, k1, k2, k3, k4⟩ := C103_even_fails _ _ _ _ none (.int ((0 : ℕ) : ℤ)) hc rfl 1 le_rfl rfl 0
    (by simp [plainGrid]) 1 2 [] (hv 2 (by omega)) hpt (by omega) (hv 3 (by omega))
  rw [h1] at k1
  simp only [Prod.mk.injEq, and_true] at k1
  subst k1
  have := h3 r k2 0 1 [2] [3] [1] [] (by simp [plainGrid]) hpt (fun o _ => rfl) (hv 2 (by omega)) (hv 3 (by omega))
    (hv 1 (by omega)) (by simp [plainGrid, Facing])
  have e3 : cell r ([3] ++ []) 0 = cell r ((2 + 1) :: []) 0 := rfl
  have e1 : cell r ([1] ++ []) 0 = cell r ((2 - 1) :: []) 0 := rfl
  rw [e3, e1, k3, k4] at this
  simp [cell] at this

/-- A point in a map of `5 × 4` cells, a source of three cells with weights 1, 2, 1 and padding by two cells: the
response along the first axis is 1, 2, 1. -/
example : ∃ (g' : Grid ℚ ℚ) (r : Arr ℚ),
    (plainGrid [5, 4] 1 (fun i => if i = [2, 1, 0] then (1 : ℚ) else 0)).convolve
      (plainGrid [3] 1 (fun i => if i = [1, 0] then (2 : ℚ) else 1)) none (.int (2 : ℕ)) = (g', .ok ()) ∧
    g'.grid = some r ∧ g'.nPix = [5, 4] ∧ cell r [1, 1] 0 = 1 ∧ cell r [2, 1] 0 = 2 ∧ cell r [3, 1] 0 = 1 ∧
    cell r [4, 1] 0 = 0 ∧ cell r [2, 2] 0 = 0 := by
  have hc := plain_convolvable (K := ℚ) (V := ℚ) [5, 4] [3] 1 1 (fun i => if i = [2, 1, 0] then (1 : ℚ) else 0)
    (fun i => if i = [1, 0] then (2 : ℚ) else 1) 2 (by simp) (by simp) (by simp)
  obtain ⟨g', h1, h2, h3⟩ := C103_values_partial _ _ _ _ _ _ hc (.inl rfl)
  obtain ⟨r, r1, -, r3⟩ := h3 _ _ rfl rfl
  refine ⟨g', r, h1, r1, ?_, ?_, ?_, ?_, ?_, ?_⟩
  · have := congrArg Grid.nPix h2
    exact this
  · rw [r3 [1, 1] 0 (valid_cons.2 ⟨by decide, valid_cons.2 ⟨by decide, valid_nil⟩⟩) (by decide)]; decide +kernel
  · rw [r3 [2, 1] 0 (valid_cons.2 ⟨by decide, valid_cons.2 ⟨by decide, valid_nil⟩⟩) (by decide)]; decide +kernel
  · rw [r3 [3, 1] 0 (valid_cons.2 ⟨by decide, valid_cons.2 ⟨by decide, valid_nil⟩⟩) (by decide)]; decide +kernel
  · rw [r3 [4, 1] 0 (valid_cons.2 ⟨by decide, valid_cons.2 ⟨by decide, valid_nil⟩⟩) (by decide)]; decide +kernel
  · rw [r3 [2, 2] 0 (valid_cons.2 ⟨by decide, valid_cons.2 ⟨by decide, valid_nil⟩⟩) (by decide)]; decide +kernel

/-- Such a source fits around the second cell of five, and has the same weights on both sides. -/
example : Fits [5] [3] [1] ∧ Spec.Even (⟨[3] ++ [1], fun i => if i = [1, 0] then (2 : ℚ) else 1⟩ : Arr ℚ) [3] 0 := by
  refine ⟨by simp [Fits], ?_⟩
  intro o ho
  rcases o with _ | ⟨k, o⟩
  · simp [Valid] at ho
  · rw [valid_cons] at ho
    have : o = [] := by rcases o with _ | ⟨_, _⟩ <;> simp [Valid] at ho ⊢
    subst this
    obtain ⟨h1, -⟩ := ho
    have : k = 0 ∨ k = 1 ∨ k = 2 := by omega
    rcases this with rfl | rfl | rfl <;> decide +kernel

/-- Sources that cannot be used along the second axis. -/
example : ∃ e, ((plainGrid [5, 4] 1 (fun _ => (1 : ℚ)) : Grid ℚ ℚ).convolve (plainGrid [3] 1 (fun _ => 1))
    (some [1]) .none).2 = .error e := by
  have hc := plain_convolvable (K := ℚ) (V := ℚ) [5, 4] [3] 1 1 (fun _ => (1 : ℚ)) (fun _ => 1) 0
    (by simp) (by simp) (by simp)
  exact C103_other_axis_fails _ _ _ _ 1 (by decide) ⟨hc.regular, hc.floats, hc.active, hc.source, hc.shape, hc.real,
    hc.map, hc.low, hc.high, hc.axes, fun _ h => (by cases h), hc.padLength, hc.aligned, hc.padPos⟩ 5 3 rfl rfl
    (by decide) (by decide)

end

end Verif.Map
