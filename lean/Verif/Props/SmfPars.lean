import Verif.Model.SmfPars
import Verif.Spec.SmfPars
import Verif.Props.RelationOptions
import Mathlib.Tactic.NormNum
import Mathlib.Tactic.FieldSimp
import Mathlib.Tactic.Positivity

set_option linter.unusedSectionVars false

/-!
# C124: the stellar mass function that halos are matched to
-/

namespace Verif.Rel

open Verif.Sim (Err)
open Verif.Gal (Fn)
open Verif.Rel.Spec

/-- An entry of the program is the published one. -/
def Same (b : SmfBin) (q : Published) : Prop :=
  b.mstar = 10 ^ q.logMass ∧ b.alpha1 = q.slope1 ∧ b.phistar1 = q.amp1 ∧ b.alpha2 = q.slope2 ∧
    b.phistar2 = q.amp2 ∧ b.zmin = q.z0 ∧ b.zmax = q.z1

theorem imf_mass (x y : ℝ) (h : x = y) : 61 / 100 * (10 : ℝ) ^ x = 10 ^ (y + imf) := by
  subst h
  rw [Real.rpow_add (by norm_num), imf, Real.rpow_logb (by norm_num) (by norm_num) (by norm_num)]
  norm_num
  ring

theorem bins_published : List.Forall₂ Same binsUse published := by
  unfold binsUse published
  repeat' constructor
  all_goals first
    | exact imf_mass _ _ (by norm_num)
    | norm_num
    | skip

theorem bin_of (i : ℕ) (q : Published) (h : published[i]? = some q) :
    ∃ b, binsUse[i]? = some b ∧ Same b q := by
  have key : ∀ (bs : List SmfBin) (qs : List Published), List.Forall₂ Same bs qs → ∀ (i : ℕ) (q : Published), qs[i]? = some q →
      ∃ b, bs[i]? = some b ∧ Same b q := by
    intro bs qs hf
    induction hf with
    | nil => intro i q h; simp at h
    | cons hs _ ih =>
      intro i q h
      cases i with
      | zero =>
        simp only [List.getElem?_cons_zero, Option.some.injEq] at h
        subst h
        exact ⟨_, rfl, hs⟩
      | succ i => simpa using ih i q (by simpa using h)
  exact key _ _ bins_published i q h

theorem bins_strict : binsUse.Pairwise (fun a b => a.mid < b.mid) := by
  unfold binsUse SmfBin.mid
  simp only [List.pairwise_cons, List.mem_cons, List.not_mem_nil, or_false, forall_eq_or_imp, forall_eq]
  norm_num

theorem bins_good : ∀ b ∈ binsUse, 0 < b.mstar ∧ 0 ≤ b.phistar1 ∧ 0 < b.phistar2 ∧ 0 < b.mid := by
  unfold binsUse SmfBin.mid
  simp only [List.mem_cons, List.not_mem_nil, or_false, forall_eq_or_imp, forall_eq]
  refine ⟨?_, ?_, ?_, ?_, ?_, ?_, ?_, ?_, ?_, ?_, ?_, ?_, ?_⟩ <;> refine ⟨?_, ?_, ?_, ?_⟩ <;> positivity

theorem table_strict (vals : SmfBin → ℝ) : LF.Strict1 (binsUse.map (fun b => (1 + b.mid, vals b))) := by
  rw [LF.Strict1, List.pairwise_map]
  exact bins_strict.imp (fun h => by simpa using h)

theorem table_get (vals : SmfBin → ℝ) (i : ℕ) (b : SmfBin) (h : binsUse[i]? = some b) :
    (binsUse.map (fun b => (1 + b.mid, vals b)))[i]? = some (1 + b.mid, vals b) := by
  rw [List.getElem?_map, h]
  rfl

theorem overBins_at (vals : SmfBin → ℝ) (i : ℕ) (b : SmfBin) (h : binsUse[i]? = some b) :
    overBins vals b.mid = vals b :=
  LF.interpD_at _ (table_strict vals) i _ (table_get vals i b h)

theorem overBins_seg (vals : SmfBin → ℝ) (i : ℕ) (b b' : SmfBin) (h : binsUse[i]? = some b)
    (h' : binsUse[i + 1]? = some b') (z : ℝ) (h1 : b.mid ≤ z) (h2 : z ≤ b'.mid) :
    overBins vals z = (1 - (z - b.mid) / (b'.mid - b.mid)) * vals b +
      (z - b.mid) / (b'.mid - b.mid) * vals b' := by
  have hlt : b.mid < b'.mid := by
    have := LF.strict1_get (table_strict vals) (table_get vals i b h) (table_get vals (i + 1) b' h')
      (Nat.lt_succ_self i)
    simpa using this
  have hd : b'.mid - b.mid ≠ 0 := by linarith [sub_pos.2 hlt] |> ne_of_gt
  rcases lt_or_eq_of_le h2 with h2 | h2
  · unfold overBins
    rw [LF.interpD_seg _ _ (table_strict vals) i _ _ (table_get vals i b h) (table_get vals (i + 1) b' h')
      (by simpa using h1) (by simpa using h2)]
    have e : 1 + b'.mid - (1 + b.mid) = b'.mid - b.mid := by ring
    have e' : 1 + z - (1 + b.mid) = z - b.mid := by ring
    simp only [e, e']
    field_simp
    ring
  · subst h2
    rw [overBins_at vals (i + 1) b' h', div_self hd]
    ring

theorem overBins_low (vals : SmfBin → ℝ) (b : SmfBin) (h : binsUse[0]? = some b) (z : ℝ) (hz : z ≤ b.mid) :
    overBins vals z = vals b := by
  rcases lt_or_eq_of_le hz with hz | hz
  · exact LF.interpD_below _ _ _ (table_get vals 0 b h) (by simpa using hz)
  · rw [hz]; exact overBins_at vals 0 b h

theorem overBins_high (vals : SmfBin → ℝ) (b : SmfBin) (h : binsUse[12]? = some b) (z : ℝ) (hz : b.mid ≤ z) :
    overBins vals z = vals b := by
  refine LF.interpD_last _ _ (table_strict vals) (1 + b.mid, vals b) ?_ (by simpa using hz)
  have : (binsUse.map (fun b => (1 + b.mid, vals b))).length - 1 = 12 := by
    rw [List.length_map]; rfl
  rw [this]
  exact table_get vals 12 b h

/-- Everywhere the result is between two entries. -/
theorem overBins_mix (z : ℝ) : ∃ b ∈ binsUse, ∃ b' ∈ binsUse, ∃ t : ℝ, 0 ≤ t ∧ t ≤ 1 ∧
    ∀ vals, overBins vals z = (1 - t) * vals b + t * vals b' := by
  have hlen : binsUse.length = 13 := rfl
  obtain ⟨b0, h0⟩ : ∃ b, binsUse[0]? = some b := ⟨_, rfl⟩
  obtain ⟨bl, hl⟩ : ∃ b, binsUse[12]? = some b := ⟨_, rfl⟩
  by_cases hlow : z ≤ b0.mid
  · exact ⟨b0, List.mem_of_getElem? h0, b0, List.mem_of_getElem? h0, 0, le_refl _, zero_le_one,
      fun vals => by rw [overBins_low vals b0 h0 z hlow]; ring⟩
  by_cases hhigh : bl.mid ≤ z
  · exact ⟨bl, List.mem_of_getElem? hl, bl, List.mem_of_getElem? hl, 0, le_refl _, zero_le_one,
      fun vals => by rw [overBins_high vals bl hl z hhigh]; ring⟩
  have key : ∀ n, n ≤ 12 → (∃ i b b', binsUse[i]? = some b ∧ binsUse[i + 1]? = some b' ∧ b.mid ≤ z ∧
      z ≤ b'.mid) ∨ ∃ b, binsUse[n]? = some b ∧ b.mid ≤ z := by
    intro n
    induction n with
    | zero => intro _; exact Or.inr ⟨b0, h0, (not_le.1 hlow).le⟩
    | succ n ih =>
      intro hn
      rcases ih (by omega) with h | ⟨b, hb, hbz⟩
      · exact Or.inl h
      · have hlt : n + 1 < binsUse.length := by omega
        have hb' : binsUse[n + 1]? = some binsUse[n + 1] := List.getElem?_eq_getElem hlt
        by_cases hz : z ≤ (binsUse[n + 1]).mid
        · exact Or.inl ⟨n, b, _, hb, hb', hbz, hz⟩
        · exact Or.inr ⟨_, hb', (not_le.1 hz).le⟩
  rcases key 12 (le_refl _) with ⟨i, b, b', hb, hb', h1, h2⟩ | ⟨b, hb, hbz⟩
  · have hlt : b.mid < b'.mid := by
      have := LF.strict1_get (table_strict (fun _ => 0)) (table_get _ i b hb) (table_get _ (i + 1) b' hb')
        (Nat.lt_succ_self i)
      simpa using this
    refine ⟨b, List.mem_of_getElem? hb, b', List.mem_of_getElem? hb', (z - b.mid) / (b'.mid - b.mid),
      div_nonneg (by linarith) (by linarith), (div_le_one (by linarith)).2 (by linarith), ?_⟩
    intro vals
    exact overBins_seg vals i b b' hb hb' z h1 h2
  · rw [hl] at hb
    cases hb
    exact absurd hbz hhigh

section
variable (dlold dlnew vold vnew : ℝ → ℝ) (h1 : Positive dlold) (h2 : Positive dlnew) (h3 : Positive vold)
  (h4 : Positive vnew)
include h1 h2 h3 h4

theorem mass_of {b : SmfBin} {q : Published} (hs : Same b q) :
    b.mstar * (dlnew b.mid / dlold b.mid) ^ 2 = q.mass dlold dlnew := by
  obtain ⟨e1, -, -, -, -, e6, e7⟩ := hs
  have : b.mid = q.centre := by unfold SmfBin.mid Published.centre; rw [e6, e7]
  rw [this, e1, Published.mass, div_pow]
  ring

theorem perVolume_of {b : SmfBin} {q : Published} (hs : Same b q) (x : ℝ) :
    x * (vnew b.mid / vold b.mid)⁻¹ = q.perVolume x vold vnew := by
  obtain ⟨-, -, -, -, -, e6, e7⟩ := hs
  have : b.mid = q.centre := by unfold SmfBin.mid Published.centre; rw [e6, e7]
  rw [this, Published.perVolume, inv_div]
  ring

theorem mass_pos {b : SmfBin} (hb : b ∈ binsUse) : 0 < b.mstar * (dlnew b.mid / dlold b.mid) ^ 2 := by
  obtain ⟨g1, -, -, g4⟩ := bins_good b hb
  have := h1 _ g4
  have := h2 _ g4
  positivity

theorem perVolume_pos {b : SmfBin} (hb : b ∈ binsUse) : 0 < b.phistar2 * (vnew b.mid / vold b.mid)⁻¹ := by
  obtain ⟨-, -, g3, g4⟩ := bins_good b hb
  have := h3 _ g4
  have := h4 _ g4
  positivity

/-- **C124 (published redshifts).** At the middle of each published range of redshifts, the function has the published
slopes, the published characteristic mass corrected for the distance, and the published amplitudes corrected for the
volume. -/
theorem C124_centre (i : ℕ) (q : Published) (hq : published[i]? = some q) :
    smfpars dlold dlnew vold vnew q.centre = (q.mass dlold dlnew, q.slope1, q.perVolume q.amp1 vold vnew,
      q.slope2, q.perVolume q.amp2 vold vnew) := by
  obtain ⟨b, hb, hs⟩ := bin_of i q hq
  have hmem := List.mem_of_getElem? hb
  have hmid : q.centre = b.mid := by
    obtain ⟨-, -, -, -, -, e6, e7⟩ := hs
    unfold SmfBin.mid Published.centre; rw [e6, e7]
  unfold smfpars
  simp only [hmid, overBins_at _ i b hb]
  rw [Real.rpow_logb (by norm_num) (by norm_num) (mass_pos dlold dlnew vold vnew h1 h2 h3 h4 hmem),
    Real.rpow_logb (by norm_num) (by norm_num) (perVolume_pos dlold dlnew vold vnew h1 h2 h3 h4 hmem),
    mass_of dlold dlnew vold vnew h1 h2 h3 h4 hs, perVolume_of dlold dlnew vold vnew h1 h2 h3 h4 hs,
    perVolume_of dlold dlnew vold vnew h1 h2 h3 h4 hs]
  obtain ⟨-, e2, e3, e4, e5, -, -⟩ := hs
  rw [e2, e3, e4, e5]

/-- **C124 (between).** Between two neighbouring ranges the slopes and the first amplitude are mixed linearly, and
the characteristic mass and the second amplitude geometrically. -/
theorem C124_between (i : ℕ) (q q' : Published) (hq : published[i]? = some q) (hq' : published[i + 1]? = some q')
    (t : ℝ) (t0 : 0 ≤ t) (t1 : t ≤ 1) :
    smfpars dlold dlnew vold vnew ((1 - t) * q.centre + t * q'.centre) =
      (q.mass dlold dlnew ^ (1 - t) * q'.mass dlold dlnew ^ t,
        (1 - t) * q.slope1 + t * q'.slope1,
        (1 - t) * q.perVolume q.amp1 vold vnew + t * q'.perVolume q'.amp1 vold vnew,
        (1 - t) * q.slope2 + t * q'.slope2,
        q.perVolume q.amp2 vold vnew ^ (1 - t) * q'.perVolume q'.amp2 vold vnew ^ t) := by
  obtain ⟨b, hb, hs⟩ := bin_of i q hq
  obtain ⟨b', hb', hs'⟩ := bin_of (i + 1) q' hq'
  have hmem := List.mem_of_getElem? hb
  have hmem' := List.mem_of_getElem? hb'
  have mid : ∀ {b : SmfBin} {q : Published}, Same b q → q.centre = b.mid := by
    intro b q hs
    obtain ⟨-, -, -, -, -, e6, e7⟩ := hs
    unfold SmfBin.mid Published.centre; rw [e6, e7]
  have hlt : b.mid < b'.mid := by
    have := LF.strict1_get (table_strict (fun _ => 0)) (table_get _ i b hb) (table_get _ (i + 1) b' hb')
      (Nat.lt_succ_self i)
    simpa using this
  have hd : b'.mid - b.mid ≠ 0 := ne_of_gt (sub_pos.2 hlt)
  have key : ∀ vals, overBins vals ((1 - t) * q.centre + t * q'.centre) = (1 - t) * vals b + t * vals b' := by
    intro vals
    rw [mid hs, mid hs', overBins_seg vals i b b' hb hb' _ (by nlinarith) (by nlinarith)]
    have : ((1 - t) * b.mid + t * b'.mid - b.mid) / (b'.mid - b.mid) = t := by
      rw [div_eq_iff hd]; ring
    rw [this]
  have geo : ∀ x y : ℝ, 0 < x → 0 < y →
      (10 : ℝ) ^ ((1 - t) * Real.logb 10 x + t * Real.logb 10 y) = x ^ (1 - t) * y ^ t := by
    intro x y hx hy
    rw [Real.rpow_add (by norm_num), mul_comm (1 - t), mul_comm t, Real.rpow_mul (by norm_num),
      Real.rpow_mul (by norm_num), Real.rpow_logb (by norm_num) (by norm_num) hx,
      Real.rpow_logb (by norm_num) (by norm_num) hy]
  unfold smfpars
  simp only [key]
  rw [geo _ _ (mass_pos dlold dlnew vold vnew h1 h2 h3 h4 hmem) (mass_pos dlold dlnew vold vnew h1 h2 h3 h4 hmem'),
    geo _ _ (perVolume_pos dlold dlnew vold vnew h1 h2 h3 h4 hmem)
      (perVolume_pos dlold dlnew vold vnew h1 h2 h3 h4 hmem')]
  simp only [mass_of dlold dlnew vold vnew h1 h2 h3 h4 hs, perVolume_of dlold dlnew vold vnew h1 h2 h3 h4 hs,
    mass_of dlold dlnew vold vnew h1 h2 h3 h4 hs', perVolume_of dlold dlnew vold vnew h1 h2 h3 h4 hs']
  obtain ⟨-, e2, e3, e4, e5, -, -⟩ := hs
  obtain ⟨-, e2', e3', e4', e5', -, -⟩ := hs'
  rw [e2, e3, e4, e5, e2', e3', e4', e5']

/-- **C124 (outside).** Below the first and above the last published redshift the parameters are those there. -/
theorem C124_outside (z : ℝ) :
    (∀ q, published[0]? = some q → z ≤ q.centre →
      smfpars dlold dlnew vold vnew z = smfpars dlold dlnew vold vnew q.centre) ∧
    (∀ q, published[12]? = some q → q.centre ≤ z →
      smfpars dlold dlnew vold vnew z = smfpars dlold dlnew vold vnew q.centre) := by
  have mid : ∀ {b : SmfBin} {q : Published}, Same b q → q.centre = b.mid := by
    intro b q hs
    obtain ⟨-, -, -, -, -, e6, e7⟩ := hs
    unfold SmfBin.mid Published.centre; rw [e6, e7]
  constructor
  · intro q hq hz
    obtain ⟨b, hb, hs⟩ := bin_of 0 q hq
    rw [mid hs] at hz ⊢
    unfold smfpars
    simp only [overBins_low _ b hb z hz, overBins_low _ b hb b.mid le_rfl]
  · intro q hq hz
    obtain ⟨b, hb, hs⟩ := bin_of 12 q hq
    rw [mid hs] at hz ⊢
    unfold smfpars
    simp only [overBins_high _ b hb z hz, overBins_high _ b hb b.mid le_rfl]

/-- **C124 (at every redshift).** The parameters are always accepted: positive mass, amplitudes not negative, and
galaxies in the second component. -/
theorem C124_valid (z : ℝ) : ∃ ms a1 p1 a2 p2, smfpars dlold dlnew vold vnew z = (ms, a1, p1, a2, p2) ∧
    0 < ms ∧ 0 ≤ p1 ∧ 0 < p2 ∧ LF.Spec.Inhabited (LF.double ms a1 p1 a2 p2 (10 ^ 5)) := by
  have hms : (0 : ℝ) < 10 ^ overBins (fun b => Real.logb 10 (b.mstar * (dlnew b.mid / dlold b.mid) ^ 2)) z :=
    Real.rpow_pos_of_pos (by norm_num) _
  have hp2 : (0 : ℝ) < 10 ^ overBins (fun b => Real.logb 10 (b.phistar2 * (vnew b.mid / vold b.mid)⁻¹)) z :=
    Real.rpow_pos_of_pos (by norm_num) _
  have hp1 : 0 ≤ overBins (fun b => b.phistar1 * (vnew b.mid / vold b.mid)⁻¹) z := by
    obtain ⟨b, hb, b', hb', t, t0, t1, h⟩ := overBins_mix z
    rw [h]
    have pos : ∀ b ∈ binsUse, 0 ≤ b.phistar1 * (vnew b.mid / vold b.mid)⁻¹ := by
      intro b hb
      obtain ⟨-, g2, -, g4⟩ := bins_good b hb
      have := h3 _ g4
      have := h4 _ g4
      positivity
    have := mul_nonneg (sub_nonneg.2 t1) (pos b hb)
    have := mul_nonneg t0 (pos b' hb')
    linarith
  refine ⟨_, _, _, _, _, rfl, hms, hp1, hp2, ?_, ?_⟩
  · simp only [LF.Schechter.accepted, LF.double, Bool.and_eq_true, decide_eq_true_eq, not_or, not_le,
      List.all_cons, List.all_nil, Bool.and_true]
    exact ⟨⟨hms, by norm_num⟩, hp1, hp2.le⟩
  · exact ⟨(_, _), by unfold LF.double; exact List.mem_cons_of_mem _ (List.mem_singleton.2 rfl), hp2⟩

/-- **C124 (the relation is made).** With this function halos can be matched in every snapshot: for every simulation
that has masses (and `vmax`, if asked for) the relation is made and loaded, and each of its rows comes from a
distribution of positive masses, to which the theorems about relations (C94) apply. -/
theorem C124_made_partial (fn : Fn ℝ) (sp : LF.Special) (hsp : LF.Spec.Lawful sp) (sim : List (Snap ℝ)) (r : Request ℝ)
    (d : Disk ℝ) (u : Bool) (hfn : u = true ∨ LF.Spec.Logs fn) (hnd : (sim.map Snap.index).Nodup)
    (hu : chooseProp sim r.haloprop = .ok u)
    (hz : (sim.map Snap.redshift).Pairwise (· < ·) ∨ (sim.map Snap.redshift).reverse.Pairwise (· < ·))
    (hs : ∀ s ∈ sim, 0 < s.edge ∧ ∃ cat, selected s u r.massmin = .ok cat) (hf : Fresh r d) :
    (∃ d' p, b17 fn sp (smfpars dlold dlnew vold vnew) sim r d = (d', .ok (some p))) ∧
    ∀ z, ∃ ms a1 p1 a2 p2, smfpars dlold dlnew vold vnew z = (ms, a1, p1, a2, p2) ∧
      Fair (ofSchechter sp (LF.double ms a1 p1 a2 p2 (10 ^ 5))) := by
  have fair : ∀ z, ∃ ms a1 p1 a2 p2, smfpars dlold dlnew vold vnew z = (ms, a1, p1, a2, p2) ∧
      Fair (ofSchechter sp (LF.double ms a1 p1 a2 p2 (10 ^ 5))) := by
    intro z
    obtain ⟨ms, a1, p1, a2, p2, e, -, -, -, hi⟩ := C124_valid dlold dlnew vold vnew h1 h2 h3 h4 z
    exact ⟨ms, a1, p1, a2, p2, e, C94_schechter_fair sp hsp _ hi⟩
  refine ⟨?_, fair⟩
  refine C94_made fn sim _ r u hfn d ⟨hnd, hu, hz, ?_⟩ hf
  · intro s hss
    obtain ⟨g1, g2⟩ := hs s hss
    refine ⟨g1, ?_, g2⟩
    obtain ⟨ms, a1, p1, a2, p2, e, hfair⟩ := fair s.redshift
    exact ⟨_, by rw [e], hfair⟩

end

/-- With every law of positive values there are simulations for which the heaviest halo gets less than a lighter
one. -/
theorem law_loses (fn : Fn ℝ) (law : ℝ → Except Err (Law ℝ)) (hlaw : ∀ z, ∃ l, law z = .ok l ∧ Fair l) :
    ∃ sim d d' p, Fresh anew d ∧ (sim.map Snap.index).Nodup ∧ 2 ≤ sim.length ∧
      (∀ s ∈ sim, 0 ≤ s.redshift ∧ 0 < s.edge) ∧ construct fn sim law anew d = (d', .ok (some p)) ∧
      ∃ s ∈ sim, ¬ Rising p.eval s.redshift := by
  obtain ⟨l1, hl1, f1⟩ := hlaw 1
  obtain ⟨l0, hl0, f0⟩ := hlaw 0
  have t1 := f1.total
  have t0 := f0.total
  obtain ⟨E, hE⟩ : ∃ E, E = 2 / l1.total + 2 / l0.total + 1 := ⟨_, rfl⟩
  have hE1 : 1 ≤ E := by
    have := div_pos two_pos t1
    have := div_pos two_pos t0
    rw [hE]; linarith
  have hE3 : E ≤ E ^ 3 := le_self_pow₀ hE1 (by norm_num)
  have many1 : 2 < l1.total * E ^ 3 := by
    have h : l1.total * (2 / l1.total) = 2 := by field_simp
    have := div_pos two_pos t0
    have : 2 < l1.total * E := by rw [hE]; nlinarith
    nlinarith
  have many0 : 2 < l0.total * E ^ 3 := by
    have h : l0.total * (2 / l0.total) = 2 := by field_simp
    have := div_pos two_pos t1
    have : 2 < l0.total * E := by rw [hE]; nlinarith
    nlinarith
  have hnd : ((twoSnaps E).map Snap.index).Nodup := by simp [twoSnaps]
  have hsel : ∀ s ∈ twoSnaps E, selected s true 1 = .ok [1 / 2, 2] := by
    intro s hs
    simp only [twoSnaps, List.mem_cons, List.not_mem_nil, or_false] at hs
    rcases hs with rfl | rfl <;> simp [selected]
  have hus : Usable (twoSnaps E) (law) anew true := by
    refine ⟨hnd, rfl, .inr (by simp [twoSnaps]), ?_⟩
    intro s hs
    refine ⟨?_, ?_, _, hsel s hs⟩ <;>
    simp only [twoSnaps, List.mem_cons, List.not_mem_nil, or_false] at hs
    · rcases hs with rfl | rfl <;> exact lt_of_lt_of_le one_pos hE1
    · rcases hs with rfl | rfl
      · exact ⟨l1, hl1, f1⟩
      · exact ⟨l0, hl0, f0⟩
  have hfresh : Fresh anew (Spec.nothing : Disk ℝ) := .inl rfl
  obtain ⟨d', p, hc⟩ := C94_made fn (twoSnaps E) (law) anew true (.inl rfl) Spec.nothing hus hfresh
  have hs0 : (⟨0, 0, E, some [1, 1], some [1 / 2, 2]⟩ : Snap ℝ) ∈ twoSnaps E := by simp [twoSnaps]
  refine ⟨twoSnaps E, Spec.nothing, d', p, hfresh, hnd, by simp [twoSnaps], ?_, hc, ?_⟩
  · intro s hs
    simp only [twoSnaps, List.mem_cons, List.not_mem_nil, or_false] at hs
    rcases hs with rfl | rfl
    · exact ⟨zero_le_one, lt_of_lt_of_le one_pos hE1⟩
    · exact ⟨le_refl _, lt_of_lt_of_le one_pos hE1⟩
  refine ⟨_, hs0, fun hrise => ?_⟩
  obtain ⟨u', hu', p1, p2, p3, p4, p5⟩ := fresh_table fn _ hnd _ _ _ _ p hfresh hc
  have hu'' : u' = true := by
    have : chooseProp (twoSnaps E) anew.haloprop = .ok true := rfl
    rw [this] at hu'
    simp only [Except.ok.injEq] at hu'
    exact hu'.symm
  subst hu''
  have hax : ∀ i : ℕ, i < 5000 → p.axis[i]? = some ((i : ℝ) * (5000 / 4999)) := by
    intro i hi
    rw [p1]
    unfold gridOf
    rw [if_pos rfl, AM.linspace_get _ _ _ _ hi]
    congr 1
    push_cast
    ring
  have hnum := C94_table_numbers fn (twoSnaps E) hnd (law) anew _ d' p hfresh hc true rfl (by
    intro s hs
    have hs' := hs
    simp only [twoSnaps, List.mem_cons, List.not_mem_nil, or_false] at hs
    refine ⟨?_, ?_⟩
    · rcases hs with rfl | rfl <;> exact lt_of_lt_of_le one_pos hE1
    · intro l hl
      rcases hs with rfl | rfl
      · have : l = l1 := Except.ok.inj (hl.symm.trans hl1)
        subst this
        refine ⟨f1, fun cat hcat => ?_⟩
        have e := (hsel _ hs').symm.trans hcat
        simp only [Except.ok.injEq] at e
        subst e
        exact ⟨by simp, by simpa using many1.le⟩
      · have : l = l0 := Except.ok.inj (hl.symm.trans hl0)
        subst this
        refine ⟨f0, fun cat hcat => ?_⟩
        have e := (hsel _ hs').symm.trans hcat
        simp only [Except.ok.injEq] at e
        subst e
        exact ⟨by simp, by simpa using many0.le⟩)
  obtain ⟨_, _, k, -, -, hk, -⟩ := p5 1 _ rfl
  have hz2 : 2 ≤ p.redshifts.length := by rw [p4]; simp [twoSnaps]
  have hnum' : ∀ i j, i < p.redshifts.length → j < p.axis.length → ∃ v, p.entry i j = some v := by
    intro i j hi hj
    exact hnum i j (by rw [← p4]; exact hi) hj
  have a1 := hax 1 (by norm_num)
  have a2 := hax 2 (by norm_num)
  obtain ⟨v, hv⟩ := eval_number p p2 p3 hz2 hnum' 1 _ _ _ a1 a2 (le_refl _) (by norm_num) k _ hk
  obtain ⟨w, hw⟩ := eval_number p p2 p3 hz2 hnum' 1 _ _ 2 a1 a2 (by norm_num) (by norm_num) k _ hk
  have hlt := C94_heaviest_loses fn (twoSnaps E) hnd (by simp [twoSnaps]) (law) anew _ d' p hfresh hc
    _ hs0 (lt_of_lt_of_le one_pos hE1) l0 hl0 f0 true rfl [1 / 2, 2] (hsel _ hs0) 2 (by simp)
    (by intro a ha; simp only [List.mem_cons, List.not_mem_nil, or_false] at ha; rcases ha with rfl | rfl <;> norm_num)
    1 _ _ (by rw [← p1]; exact a1) (by rw [← p1]; exact a2) (by norm_num) (by norm_num) (1 / 2) (by simp)
    (by norm_num) (by
      have : above [1 / 2, 2] (1 / 2 : ℝ) = 1 := by
        unfold above
        norm_num
      rw [this]
      simpa using many0) v w hv hw
  exact absurd (hrise _ _ v w (by norm_num) hv hw) (not_le.2 hlt)

/-- The full property: in a relation between halos and stellar masses that was just made from the published
functions, heavier halos never get less at the redshift of a snapshot. -/
def C124_full : Prop :=
  ∀ (dlold dlnew vold vnew : ℝ → ℝ) (sp : LF.Special) (sim : List (Snap ℝ)) (r : Request ℝ) (d d' : Disk ℝ)
    (p : Interp ℝ), Positive dlold → Positive dlnew → Positive vold → Positive vnew → LF.Spec.Lawful sp →
    Fresh r d → (sim.map Snap.index).Nodup → 2 ≤ sim.length → (∀ s ∈ sim, 0 ≤ s.redshift ∧ 0 < s.edge) →
    b17 (Gal.realFn (fun _ => 0)) sp (smfpars dlold dlnew vold vnew) sim r d = (d', .ok (some p)) →
    ∀ s ∈ sim, Rising p.eval s.redshift

theorem b17_loses (dlold dlnew vold vnew : ℝ → ℝ) (h1 : Positive dlold) (h2 : Positive dlnew) (h3 : Positive vold)
    (h4 : Positive vnew) (sp : LF.Special) (hsp : LF.Spec.Lawful sp) (fn : Fn ℝ) :
    ∃ sim d d' p, Fresh anew d ∧ (sim.map Snap.index).Nodup ∧ 2 ≤ sim.length ∧
      (∀ s ∈ sim, 0 ≤ s.redshift ∧ 0 < s.edge) ∧
      b17 fn sp (smfpars dlold dlnew vold vnew) sim anew d = (d', .ok (some p)) ∧
      ∃ s ∈ sim, ¬ Rising p.eval s.redshift := by
  refine law_loses fn _ ?_
  intro z
  obtain ⟨ms, a1, p1, a2, p2, e, -, -, -, hi⟩ := C124_valid dlold dlnew vold vnew h1 h2 h3 h4 z
  exact ⟨_, by rw [e], C94_schechter_fair sp hsp _ hi⟩

/-- **C124 (heaviest halos).** Whatever the cosmologies are, there are simulations in which a heavier halo gets
less stellar mass than a lighter one of the same snapshot. -/
theorem C124_loses (dlold dlnew vold vnew : ℝ → ℝ) (h1 : Positive dlold) (h2 : Positive dlnew)
    (h3 : Positive vold) (h4 : Positive vnew) (sp : LF.Special) (hsp : LF.Spec.Lawful sp) (fn : Fn ℝ) :
    ∃ sim r d d' p, Fresh r d ∧ b17 fn sp (smfpars dlold dlnew vold vnew) sim r d = (d', .ok (some p)) ∧
      ∃ s ∈ sim, ∃ m m' v v', m ≤ m' ∧ p.eval m s.redshift = some v ∧
        p.eval m' s.redshift = some v' ∧ v' < v := by
  obtain ⟨sim, d, d', p, hf, -, -, -, hc, s, hs, hn⟩ := b17_loses dlold dlnew vold vnew h1 h2 h3 h4 sp hsp fn
  refine ⟨sim, anew, d, d', p, hf, hc, s, hs, ?_⟩
  unfold Rising at hn
  push Not at hn
  obtain ⟨m, m', v, v', hm, e1, e2, hlt⟩ := hn
  exact ⟨m, m', v, v', hm, e1, e2, hlt⟩

theorem C124_full_false : ¬ C124_full := by
  intro H
  have hp : Positive (fun z => z) := fun z hz => hz
  obtain ⟨sim, d, d', p, hf, hnd, h2, hz, hc, s, hs, hn⟩ := b17_loses _ _ _ _ hp hp hp hp LF.special
    LF.special_lawful (Gal.realFn (fun _ => 0))
  exact hn (H _ _ _ _ LF.special sim anew d d' p hp hp hp hp LF.special_lawful hf hnd h2 hz hc s hs)

/-- The hypotheses can be met: a cosmology in which everything is twice as far. -/
example : smfpars (fun z => z) (fun z => 2 * z) (fun z => z) (fun z => 8 * z) (0.35 : ℝ) =
    (4 * 10 ^ (10.83 : ℝ), -0.95, 10 ^ (-2.63 : ℝ) / 8, -1.82, 10 ^ (-4.01 : ℝ) / 8) := by
  have h := C124_centre (fun z => z) (fun z => 2 * z) (fun z => z) (fun z => 8 * z) (fun z hz => hz)
    (fun z hz => by positivity) (fun z hz => hz) (fun z hz => by positivity) 1 _ rfl
  have e : ((0.2 : ℝ) + 0.5) / 2 = 0.35 := by norm_num
  simp only [Published.centre, Published.mass, Published.perVolume, e] at h
  rw [h]
  norm_num
  refine ⟨?_, ?_, ?_⟩ <;> ring

/-- Between redshifts 3.25 and 4, where the first component is absent. -/
example : ∃ ms p2 : ℝ, smfpars (fun z => z) (fun z => z) (fun z => z) (fun z => z) (3.625 : ℝ) =
    (ms, 0, 0, -1.695, p2) := by
  have hp : Positive (fun z => z) := fun z hz => hz
  have h := C124_between (fun z => z) (fun z => z) (fun z => z) (fun z => z) hp hp hp hp 8 _ _ rfl rfl (1 / 2)
    (by norm_num) (by norm_num)
  have e : (1 - (1 : ℝ) / 2) * ((3 + 3.5) / 2) + 1 / 2 * ((3.5 + 4.5) / 2) = 3.625 := by norm_num
  simp only [Published.centre, Published.perVolume, e] at h
  rw [h]
  refine ⟨_, _, Prod.ext rfl (Prod.ext ?_ (Prod.ext ?_ (Prod.ext ?_ rfl)))⟩ <;> norm_num

/-- A relation can be made. -/
example : ∃ d' p, b17 (Gal.realFn (fun _ => 0)) LF.special (smfpars (fun z => z) (fun z => z) (fun z => z)
    (fun z => z)) light ⟨true, true, .mass, 1⟩ Spec.nothing = (d', .ok (some p)) := by
  have hp : Positive (fun z => z) := fun z hz => hz
  have hl := light_usable 1 true true
  exact (C124_made_partial _ _ _ _ hp hp hp hp _ _ LF.special_lawful light _ Spec.nothing false (.inr LF.realFn_logs)
    hl.distinct hl.prop hl.order (fun s hs => ⟨(hl.snaps s hs).1, (hl.snaps s hs).2.2⟩) (.inl rfl)).1

end Verif.Rel
