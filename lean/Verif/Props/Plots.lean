import Verif.Spec.Plots
import Verif.Props.HandlerRead
import Verif.Props.HandlerDisk

/-!
# C111: plots and histograms of properties
-/

set_option linter.unusedSectionVars false

namespace Verif.Plot

open Verif.Handler (Name V State Err returnProperty hasProperty)
open Verif.Handler.Spec (Reachable selection)
open Verif.Plot.Spec

variable {K : Type} [Field K] [LinearOrder K]

theorem has_false {κ α : Type} [DecidableEq κ] (d : PyDict κ α) (k : κ) : d.has k = false ↔ d.get? k = none := by
  unfold PyDict.has
  cases d.get? k <;> simp

theorem addStyle_get (kws : PyDict String String) (k : String) :
    (addStyle kws).get? k =
      if k = "ls" ∧ kws.get? "ls" = none ∧ kws.get? "linestyle" = none then some ""
      else if k = "marker" ∧ kws.get? "marker" = none then some "." else kws.get? k := by
  have hne : ("marker" : String) ≠ "ls" := by decide
  have key : ∀ d : PyDict String String, ∀ k : String,
      (if d.has "marker" then d else d.set "marker" ".").get? k =
        if k = "marker" ∧ d.get? "marker" = none then some "." else d.get? k := by
    intro d k
    by_cases h : d.has "marker" = true
    · have h' : ¬ d.get? "marker" = none := fun e => by rw [(has_false _ _).2 e] at h; cases h
      rw [if_pos h, if_neg (fun e => h' e.2)]
    · have h' : d.get? "marker" = none := (has_false _ _).1 (Bool.eq_false_iff.2 h)
      rw [if_neg h, PyDict.get?_set]
      by_cases e : k = "marker"
      · rw [if_pos e.symm, if_pos ⟨e, h'⟩]
      · rw [if_neg (Ne.symm e), if_neg (fun e' => e e'.1)]
  have first : ∀ k : String, (if (kws.has "ls" || kws.has "linestyle") then kws else kws.set "ls" "").get? k =
      if k = "ls" ∧ kws.get? "ls" = none ∧ kws.get? "linestyle" = none then some "" else kws.get? k := by
    intro k
    by_cases h : (kws.has "ls" || kws.has "linestyle") = true
    · rw [if_pos h, if_neg]
      rintro ⟨-, h1, h2⟩
      rw [(has_false _ _).2 h1, (has_false _ _).2 h2] at h
      cases h
    · rw [if_neg h, PyDict.get?_set]
      rw [Bool.or_eq_true, not_or] at h
      have h1 := (has_false _ _).1 (Bool.eq_false_iff.2 h.1)
      have h2 := (has_false _ _).1 (Bool.eq_false_iff.2 h.2)
      by_cases e : k = "ls"
      · rw [if_pos e.symm, if_pos ⟨e, h1, h2⟩]
      · rw [if_neg (Ne.symm e), if_neg (fun e' => e e'.1)]
  have shape : addStyle kws = (if (if (kws.has "ls" || kws.has "linestyle") then kws else kws.set "ls" "").has "marker"
      then (if (kws.has "ls" || kws.has "linestyle") then kws else kws.set "ls" "")
      else (if (kws.has "ls" || kws.has "linestyle") then kws else kws.set "ls" "").set "marker" ".") := by
    have e : (if !kws.has "ls" && !kws.has "linestyle" then kws.set "ls" "" else kws) =
        (if (kws.has "ls" || kws.has "linestyle") then kws else kws.set "ls" "") := by
      cases kws.has "ls" <;> cases kws.has "linestyle" <;> rfl
    unfold addStyle
    simp only [e]
    generalize (if (kws.has "ls" || kws.has "linestyle") then kws else kws.set "ls" "") = d
    cases d.has "marker" <;> rfl
  rw [shape, key, first, first, if_neg (fun e => hne e.1 : ¬ ("marker" = "ls" ∧ _))]
  by_cases e : k = "marker"
  · subst e
    simp only [hne, false_and, if_false]
  · rw [if_neg (fun e' => e e'.1 : ¬ (k = "marker" ∧ _)), if_neg (fun e' => e e'.1 : ¬ (k = "marker" ∧ _))]

theorem addStyle_styled (kws : PyDict String String) : Styled kws (addStyle kws) := by
  refine ⟨?_, ?_, ?_, ?_⟩
  · intro k v h
    rw [addStyle_get]
    split
    · rename_i h1; obtain ⟨rfl, h2, -⟩ := h1; rw [h] at h2; cases h2
    · split
      · rename_i h1; obtain ⟨rfl, h2⟩ := h1; rw [h] at h2; cases h2
      · exact h
  · intro h1 h2
    rw [addStyle_get]; simp [h1, h2]
  · intro h1
    rw [addStyle_get]; simp [h1]
  · intro k v h
    rw [addStyle_get] at h
    split at h
    · rename_i h1; exact .inl h1.1
    · split at h
      · rename_i h1; exact .inr (.inl h1.1)
      · exact .inr (.inr h)

theorem pair_points (s : State K) (hr : Reachable s) (xname yname : Name) (hx : xname ≠ "mass_cuts")
    (hy : yname ≠ "mass_cuts") (u b : Bool) (x y : List (V K))
    (h : pair s xname yname u (some b) = .ok (some x, some y)) (color : Option String) (label : Option Name)
    (st : PyDict String String) : Points s xname yname u b ⟨x, y, color, label, st⟩ := by
  unfold pair at h
  rcases h1 : returnProperty s xname u (some b) with e | ox
  · rw [h1] at h; cases h
  · rcases h2 : returnProperty s yname u (some b) with e | oy
    · rw [h1, h2] at h; cases h
    · rw [h1, h2] at h
      simp only [Except.ok.injEq, Prod.mk.injEq] at h
      obtain ⟨rfl, rfl⟩ := h
      have hI := Handler.reachable_inv hr
      have key : ∀ (p : Name) (v : List (V K)), p ≠ "mass_cuts" → returnProperty s p u (some b) = .ok (some v) →
          ∃ f, returnProperty s p true (some b) = .ok (some f) ∧ v.length = (selection s u).length ∧
            ∀ (j i : ℕ), (selection s u)[j]? = some i → v[j]? = f[i]? := by
        intro p v hp hv
        obtain ⟨hall, e, arr, he, ha, -, hlen, hbd, hget⟩ := Handler.returnProperty_inv s hI p u _ v hv
        obtain ⟨f, f1, f2, f3⟩ := Handler.returnProperty_ok s hI p true (some b) hall hp e he arr ha
        refine ⟨f, f1, by simpa [Handler.inds, selection] using hlen, ?_⟩
        intro j i hi
        have hi' : (Handler.inds s u)[j]? = some i := by simpa [Handler.inds, selection] using hi
        have hb : i < s.nAll := Handler.inds_bound s hI u i (List.mem_of_getElem? hi')
        rw [hget j, f3 i, hi']
        simp only [Option.bind_some, Handler.inds, if_true, List.getElem?_range hb]
      obtain ⟨fx, a1, a2, a3⟩ := key xname x hx h1
      obtain ⟨fy, b1, b2, b3⟩ := key yname y hy h2
      exact ⟨fx, fy, a1, b1, a2, b2, fun j i hi => ⟨a3 j i hi, b3 j i hi⟩⟩

theorem drawCurve_ok (x y : Option (List (V K))) (color : Option String) (label : Option Name)
    (kws : PyDict String String) (c : Curve K) (h : drawCurve x y color label kws = .ok c) :
    ∃ x' y', x = some x' ∧ y = some y' ∧ c = ⟨x', y', color, label, kws⟩ := by
  unfold drawCurve at h
  split at h
  · cases h
  · split at h
    · cases h
    · split at h
      · simp only [Except.ok.injEq] at h
        exact ⟨_, _, rfl, rfl, h.symm⟩
      · cases h

/-- What is drawn: for each name one set of points, one point for each selected object with both its properties; with
`compare` those of all objects and on top of them those of the active ones. -/
theorem C111_plot (s : State K) (hr : Reachable s) (xname : Name) (hx : xname ≠ "mass_cuts") (ynames : List Name)
    (hy : "mass_cuts" ∉ ynames) (pick : Pick) (kws : PyDict String String) (inH : Option Bool) (cs : List (Curve K))
    (h : (plot s xname ynames pick kws inH).1 = .ok cs) :
    ∃ groups : List (List (Curve K)), cs = groups.flatten ∧ groups.length = ynames.length ∧
      ∀ (k : ℕ) (y : Name), ynames[k]? = some y →
        match pick with
        | .compare => ∃ c1 c2, groups[k]? = some [c1, c2] ∧ Points s xname y true (inH.getD s.inH) c1 ∧
            Points s xname y false (inH.getD s.inH) c2 ∧ c1.label = some y ∧ c1.color = some "k" ∧
            c2.color = some "r" ∧ Styled kws c1.style ∧ Styled kws c2.style
        | _ => ∃ c, groups[k]? = some [c] ∧ Points s xname y (decide (pick = .all)) (inH.getD s.inH) c ∧
            c.label = some y ∧ c.color = none ∧ Styled kws c.style := by
  unfold plot at h
  simp only at h
  rcases hm : mapE (curves s xname pick (inH.getD s.inH) (addStyle kws)) ynames with e | groups
  · rw [hm] at h; cases h
  · rw [hm] at h
    simp only [Except.ok.injEq] at h
    obtain ⟨hl, hg⟩ := (mapE_ok_iff _ _ _).1 hm
    refine ⟨groups, h.symm, hl, ?_⟩
    intro k y hk
    have hym : y ≠ "mass_cuts" := fun e => hy (e ▸ List.mem_of_getElem? hk)
    obtain ⟨g, hgk, hc⟩ := hg k y hk
    have one : ∀ u : Bool, (match pair s xname y u (some (inH.getD s.inH)) with
        | .error e => (.error e : Except Err (List (Curve K)))
        | .ok (x, y') =>
          match drawCurve x y' none (some y) (addStyle kws) with
          | .error e => .error e
          | .ok c => .ok [c]) = .ok g →
        ∃ c, groups[k]? = some [c] ∧ Points s xname y u (inH.getD s.inH) c ∧
            c.label = some y ∧ c.color = none ∧ Styled kws c.style := by
      intro u hu
      rcases hp : pair s xname y u (some (inH.getD s.inH)) with e | ⟨x, y'⟩
      · rw [hp] at hu; cases hu
      · rw [hp] at hu
        simp only at hu
        rcases hd : drawCurve x y' none (some y) (addStyle kws) with e | c
        · rw [hd] at hu; cases hu
        · rw [hd] at hu
          simp only [Except.ok.injEq] at hu
          subst hu
          obtain ⟨x1, y1, rfl, rfl, rfl⟩ := drawCurve_ok _ _ _ _ _ _ hd
          exact ⟨_, hgk, pair_points s hr xname y hx hym u _ x1 y1 hp _ _ _, rfl, rfl, addStyle_styled kws⟩
    cases pick with
    | active => exact one false hc
    | all => exact one true hc
    | compare =>
      simp only [curves] at hc
      rcases hp : pair s xname y true (some (inH.getD s.inH)) with e | ⟨x, y'⟩
      · rw [hp] at hc; cases hc
      · rw [hp] at hc
        simp only at hc
        rcases hd : drawCurve x y' (some "k") (some y) (addStyle kws) with e | c1
        · rw [hd] at hc; cases hc
        · rw [hd] at hc
          simp only at hc
          rcases hp2 : pair s xname y false (some (inH.getD s.inH)) with e | ⟨x2, y2⟩
          · rw [hp2] at hc; cases hc
          · rw [hp2] at hc
            simp only at hc
            rcases hd2 : drawCurve x2 y2 (some "r") none (addStyle kws) with e | c2
            · rw [hd2] at hc; cases hc
            · rw [hd2] at hc
              simp only [Except.ok.injEq] at hc
              subst hc
              obtain ⟨xa, ya, rfl, rfl, rfl⟩ := drawCurve_ok _ _ _ _ _ _ hd
              obtain ⟨xb, yb, rfl, rfl, rfl⟩ := drawCurve_ok _ _ _ _ _ _ hd2
              exact ⟨_, _, hgk, pair_points s hr xname y hx hym true _ xa ya hp _ _ _,
                pair_points s hr xname y hx hym false _ xb yb hp2 _ _ _, rfl, rfl, rfl, addStyle_styled kws,
                addStyle_styled kws⟩

/-- A plot of properties that can be returned succeeds, unless the caller gives a label (or, for a comparison, a
color). -/
theorem C111_possible (s : State K) (xname : Name) (ynames : List Name) (pick : Pick) (kws : PyDict String String)
    (inH : Option Bool)
    (hv : ∀ p ∈ xname :: ynames, ∀ u, ∃ v, returnProperty s p u (some (inH.getD s.inH)) = .ok (some v))
    (hl : kws.get? "label" = none) (hc : pick = .compare → kws.get? "color" = none) :
    ∃ cs, (plot s xname ynames pick kws inH).1 = .ok cs := by
  have hl' : (addStyle kws).has "label" = false := by
    rw [has_false, addStyle_get]; simp [hl]
  have hc' : pick = .compare → (addStyle kws).has "color" = false := by
    intro e
    rw [has_false, addStyle_get]; simp [hc e]
  obtain ⟨groups, hg⟩ := mapE_total (curves s xname pick (inH.getD s.inH) (addStyle kws)) ynames (by
    intro y hy
    have hp : ∀ u, ∃ x y', pair s xname y u (some (inH.getD s.inH)) = .ok (some x, some y') := by
      intro u
      obtain ⟨x, hx⟩ := hv xname (by simp) u
      obtain ⟨y', hy'⟩ := hv y (List.mem_cons_of_mem _ hy) u
      exact ⟨x, y', by unfold pair; rw [hx]; simp only [hy']⟩
    have draw : ∀ (x y' : List (V K)) (color : Option String) (label : Option Name),
        (color.isSome = true → pick = .compare) →
        drawCurve (some x) (some y') color label (addStyle kws) = .ok ⟨x, y', color, label, addStyle kws⟩ := by
      intro x y' color label h
      unfold drawCurve
      have h1 : ¬ ((color.isSome && (addStyle kws).has "color") = true) := by
        cases color with
        | none => simp
        | some c => simp [hc' (h rfl)]
      have h2 : ¬ ((label.isSome && (addStyle kws).has "label") = true) := by simp [hl']
      rw [if_neg h1, if_neg h2]
    cases pick with
    | active =>
      obtain ⟨x, y', h⟩ := hp false
      have hd : decide (Pick.active = Pick.all) = false := by decide
      simp only [curves, hd, h, draw x y' none (some y) (by simp)]
      exact ⟨_, rfl⟩
    | all =>
      obtain ⟨x, y', h⟩ := hp true
      have hd : decide (Pick.all = Pick.all) = true := by decide
      rw [curves, hd, h]
      · simp only [draw x y' none (some y) (by simp)]
        exact ⟨_, rfl⟩
      · exact fun e => by cases e
    | compare =>
      obtain ⟨x, y', h⟩ := hp true
      obtain ⟨x2, y2, h2⟩ := hp false
      simp only [curves, h, h2, draw x y' (some "k") (some y) (by simp), draw x2 y2 (some "r") none (by simp)]
      exact ⟨_, rfl⟩)
  exact ⟨groups.flatten, by unfold plot; simp only [hg]⟩

/-- A plot with a name that is not a property, as abscissa or as one of the ordinates, raises and draws nothing that is
shown. -/
theorem C111_unknown (s : State K) (xname : Name) (ynames : List Name) (pick : Pick) (kws : PyDict String String)
    (inH : Option Bool) (p : Name) (hp : p ∈ ynames ∨ p = xname ∧ ynames ≠ []) (hn : hasProperty s p = false) :
    ∃ e, (plot s xname ynames pick kws inH).1 = .error e := by
  rcases h : (plot s xname ynames pick kws inH).1 with e | cs
  · exact ⟨e, rfl⟩
  · exfalso
    unfold plot at h
    simp only at h
    rcases hm : mapE (curves s xname pick (inH.getD s.inH) (addStyle kws)) ynames with e | groups
    · rw [hm] at h; cases h
    · have hret : ∀ u b, returnProperty s p u b = .error .valueError := by
        intro u b
        have : p ∉ s.all := by simpa [hasProperty] using hn
        simp [returnProperty, this]
      have hpair : ∀ y u b, (y = p ∨ p = xname) → ∃ e, pair s xname y u b = .error e := by
        intro y u b hy
        unfold pair
        rcases hx : returnProperty s xname u b with e | x
        · exact ⟨e, rfl⟩
        · rcases hy with rfl | rfl
          · simp only [hret]; exact ⟨_, rfl⟩
          · rw [hret] at hx; cases hx
      have hy : ∃ y ∈ ynames, y = p ∨ p = xname := by
        rcases hp with h0 | ⟨h0, hne⟩
        · exact ⟨p, h0, .inl rfl⟩
        · obtain ⟨y, l, rfl⟩ := List.exists_cons_of_ne_nil hne
          exact ⟨y, by simp, .inr h0⟩
      obtain ⟨y, hym, hyp⟩ := hy
      obtain ⟨g, -, hg⟩ := mapE_mem' hm y hym
      cases pick with
      | active =>
        obtain ⟨e, he⟩ := hpair y (decide (Pick.active = Pick.all)) (some (inH.getD s.inH)) hyp
        simp only [curves, he] at hg
        cases hg
      | all =>
        obtain ⟨e, he⟩ := hpair y (decide (Pick.all = Pick.all)) (some (inH.getD s.inH)) hyp
        rw [curves, he] at hg
        · cases hg
        · exact fun e => by cases e
      | compare =>
        obtain ⟨e, he⟩ := hpair y true (some (inH.getD s.inH)) hyp
        simp only [curves, he] at hg
        cases hg

theorem drawCurve_twice (x y : Option (List (V K))) (color : Option String) (label : Option Name)
    (kws : PyDict String String)
    (h : (label.isSome = true ∧ kws.has "label" = true) ∨ (color.isSome = true ∧ kws.has "color" = true)) :
    drawCurve x y color label kws = .error .typeError := by
  unfold drawCurve
  rcases h with ⟨h1, h2⟩ | ⟨h1, h2⟩
  · by_cases h3 : (color.isSome && kws.has "color") = true
    · rw [if_pos h3]
    · rw [if_neg h3, if_pos (by simp [h1, h2])]
  · rw [if_pos (by simp [h1, h2])]

/-- Keywords for the points that are documented to be passed on cannot be used: a label never, a color not for
comparisons. -/
theorem C111_label_fails (s : State K) (xname : Name) (ynames : List Name) (hne : ynames ≠ []) (pick : Pick)
    (kws : PyDict String String) (inH : Option Bool)
    (hk : kws.get? "label" ≠ none ∨ pick = .compare ∧ kws.get? "color" ≠ none) :
    ∃ e, (plot s xname ynames pick kws inH).1 = .error e := by
  rcases h : (plot s xname ynames pick kws inH).1 with e | cs
  · exact ⟨e, rfl⟩
  · exfalso
    have has : ∀ k, k ≠ "ls" → k ≠ "marker" → kws.get? k ≠ none → (addStyle kws).has k = true := by
      intro k h1 h2 h3
      unfold PyDict.has
      rw [addStyle_get]
      simp only [h1, h2, false_and, if_false]
      exact Option.isSome_iff_ne_none.2 h3
    unfold plot at h
    simp only at h
    rcases hm : mapE (curves s xname pick (inH.getD s.inH) (addStyle kws)) ynames with e | groups
    · rw [hm] at h; cases h
    · obtain ⟨y, l, rfl⟩ := List.exists_cons_of_ne_nil hne
      obtain ⟨g, -, hg⟩ := mapE_mem' hm y (by simp)
      rcases hp : pick with _ | _ | _
      · have hl := has "label" (by decide) (by decide) (by
          rcases hk with h | ⟨h, -⟩
          · exact h
          · rw [hp] at h; cases h)
        simp only [hp, curves] at hg
        split at hg
        · cases hg
        · rw [drawCurve_twice _ _ _ _ _ (.inl ⟨rfl, hl⟩)] at hg; cases hg
      · have hl := has "label" (by decide) (by decide) (by
          rcases hk with h | ⟨h, -⟩
          · exact h
          · rw [hp] at h; cases h)
        simp only [hp, curves] at hg
        split at hg
        · cases hg
        · rw [drawCurve_twice _ _ _ _ _ (.inl ⟨rfl, hl⟩)] at hg; cases hg
      · simp only [hp, curves] at hg
        split at hg
        · cases hg
        · rw [drawCurve_twice _ _ _ _ _ (by
            rcases hk with h | ⟨-, h⟩
            · exact .inl ⟨rfl, has "label" (by decide) (by decide) h⟩
            · exact .inr ⟨rfl, has "color" (by decide) (by decide) h⟩)] at hg
          cases hg

/-- The default dictionary as it is before or after a call. -/
theorem addStyle_default (d : PyDict String String) (h : d = [] ∨ d = [("ls", ""), ("marker", ".")]) :
    addStyle d = [("ls", ""), ("marker", ".")] := by
  rcases h with rfl | rfl <;> decide

/-- Earlier plots do not change later ones, although all calls without own keywords share one dictionary that they
change: each call draws what it would draw as the first one. -/
theorem C111_sequence : ∀ (calls : List (Call K)) (d : PyDict String String),
    d = [] ∨ d = [("ls", ""), ("marker", ".")] →
    session d calls = calls.map (fun c => (plot c.state c.xname c.ynames c.pick (c.kws.getD []) c.inH).1)
  | [], _, _ => rfl
  | c :: rest, d, hd => by
    simp only [session, List.map_cons]
    rcases hk : c.kws with _ | kws
    · simp only [Option.getD_none]
      have e : ∀ d', d' = [] ∨ d' = [("ls", ""), ("marker", ".")] →
          plot c.state c.xname c.ynames c.pick d' c.inH = plot c.state c.xname c.ynames c.pick [] c.inH := by
        intro d' h
        unfold plot
        rw [addStyle_default d' h, addStyle_default [] (.inl rfl)]
      rw [e d hd, C111_sequence rest _ ?_]
      right
      unfold plot
      simp only [addStyle_default [] (.inl rfl)]
      split <;> rfl
    · simp only [Option.getD_some]
      rw [C111_sequence rest d hd]

/-- The dictionary that the caller gave is changed, whether or not the plot succeeds: unless it has them, the entries
for lines and markers are added. -/
theorem C111_argument_changed (s : State K) (xname : Name) (ynames : List Name) (pick : Pick)
    (kws : PyDict String String) (inH : Option Bool) (h : kws.get? "marker" = none) :
    (plot s xname ynames pick kws inH).2.get? "marker" = some "." ∧ (plot s xname ynames pick kws inH).2 ≠ kws := by
  have e : (plot s xname ynames pick kws inH).2 = addStyle kws := by
    unfold plot
    simp only
    split <;> rfl
  rw [e]
  have h1 := (addStyle_styled kws).2.2.1 h
  exact ⟨h1, fun e' => by rw [e', h] at h1; cases h1⟩

/-- A histogram is made of the values of the selected objects in the units asked for, or of their logarithms; negative
numbers have none. -/
theorem C111_hist (log10 : K → K) (s : State K) (names : List Name) (useAll logT : Bool) (kws : PyDict String String)
    (inH : Option Bool) (hs : List (Hist K)) (h : hist log10 s names useAll logT kws inH = .ok hs) :
    hs.length = names.length ∧ ∀ (k : ℕ) (p : Name), names[k]? = some p →
      ∃ hh v, hs[k]? = some hh ∧ returnProperty s p useAll (some (inH.getD s.inH)) = .ok (some v) ∧
        hh.label = p ∧ hh.style = kws ∧ hh.values.length = v.length ∧ ∀ (j : ℕ) (x : V K), v[j]? = some x →
          hh.values[j]? = some (if logT then x.bind (fun x => if x < 0 ∨ x = 0 then none else some (log10 x)) else x) ∧
          (logT = true → kws.get? "range" = none → x ≠ some 0) := by
  unfold hist at h
  obtain ⟨hl, hg⟩ := (mapE_ok_iff _ _ _).1 h
  refine ⟨hl, ?_⟩
  intro k p hp
  obtain ⟨hh, h1, h2⟩ := hg k p hp
  unfold histOne at h2
  rcases hv : returnProperty s p useAll (some (inH.getD s.inH)) with e | _ | v
  · rw [hv] at h2; cases h2
  · rw [hv] at h2; cases h2
  · rw [hv] at h2
    simp only at h2
    by_cases hlab : kws.has "label" = true
    · rw [if_pos hlab] at h2; cases h2
    · rw [if_neg hlab] at h2
      generalize hq : (!kws.has "range" && ((if logT then v.map (logOf log10) else v.map some).any (fun v => v.isNone) ||
        (!v.isEmpty && (if logT then v.map (logOf log10) else v.map some).all (fun v => decide (v = some none))))) = q at h2
      by_cases hno : q = true
      · rw [if_pos hno] at h2; cases h2
      · rw [if_neg hno] at h2
        simp only [Except.ok.injEq] at h2
        subst h2
        refine ⟨_, v, h1, rfl, rfl, rfl, by cases logT <;> simp, ?_⟩
        intro j x hx
        constructor
        · cases logT with
          | false => simp [hx]
          | true =>
            simp only [if_true, List.getElem?_map, hx, Option.map_some, Option.some.injEq]
            rcases x with _ | x
            · rfl
            · simp only [logOf, Option.bind_some]
              by_cases hz : x = 0
              · simp [hz]
              · by_cases hneg : x < 0
                · simp [hz, hneg]
                · simp [hz, hneg]
        · rintro rfl hr rfl
          apply hno
          rw [← hq]
          have hr' : kws.has "range" = false := (has_false _ _).2 hr
          have : ((v.map (logOf log10)).any fun v => v.isNone) = true := by
            rw [List.any_eq_true]
            refine ⟨none, ?_, rfl⟩
            rw [List.mem_map]
            exact ⟨some 0, List.mem_of_getElem? hx, by simp [logOf]⟩
          simp [hr', this]

/-- A histogram of values that can be returned succeeds if some of them are numbers and, for logarithms, none is zero
and some are positive. -/
theorem C111_hist_possible (log10 : K → K) (s : State K) (names : List Name) (useAll logT : Bool)
    (kws : PyDict String String) (inH : Option Bool) (hl : kws.get? "label" = none)
    (hv : ∀ p ∈ names, ∃ v, returnProperty s p useAll (some (inH.getD s.inH)) = .ok (some v) ∧
      (v = [] ∨ ∃ x, some x ∈ v ∧ (logT = true → 0 < x)) ∧ (logT = true → some 0 ∉ v)) :
    ∃ hs, hist log10 s names useAll logT kws inH = .ok hs := by
  apply mapE_total
  intro p hp
  obtain ⟨v, h1, h2, h3⟩ := hv p hp
  unfold histOne
  rw [h1]
  simp only
  rw [if_neg (by rw [(has_false _ _).2 hl]; simp)]
  have hnone : ((if logT then v.map (logOf log10) else v.map some).any fun v => v.isNone) = false := by
    cases logT with
    | false => simp
    | true =>
      simp only [if_true]
      rw [Bool.eq_false_iff]
      intro hc
      rw [List.any_eq_true] at hc
      obtain ⟨w, hw, hwn⟩ := hc
      obtain ⟨x, hx, rfl⟩ := List.mem_map.1 hw
      rcases x with _ | x
      · simp [logOf] at hwn
      · simp only [logOf] at hwn
        by_cases hz : x = 0
        · subst hz; exact h3 rfl hx
        · by_cases hneg : x < 0 <;> simp [hz, hneg] at hwn
  have hall : (!v.isEmpty && (if logT then v.map (logOf log10) else v.map some).all
      fun v => decide (v = some none)) = false := by
    rcases h2 with rfl | ⟨x, hx, hpos⟩
    · simp
    · rw [Bool.eq_false_iff]
      intro hc
      simp only [Bool.and_eq_true, List.all_eq_true, decide_eq_true_eq] at hc
      cases logT with
      | false =>
        have := hc.2 (some (some x)) (by simpa using hx)
        simp at this
      | true =>
        have hp' := hpos rfl
        have := hc.2 (logOf log10 (some x)) (by simp only [if_true]; exact List.mem_map.2 ⟨_, hx, rfl⟩)
        simp [logOf, hp'.ne', not_lt.2 hp'.le] at this
  rw [if_neg (by rw [hnone, hall]; simp)]
  exact ⟨_, rfl⟩

/-- The whole property for plots: if all the properties can be returned, the plot is drawn and the keywords that the
caller gave are passed on and left as they are. -/
def C111_full : Prop :=
  ∀ (s : State ℚ) (xname : Name) (ynames : List Name) (pick : Pick) (kws : PyDict String String),
    Reachable s → (∀ p ∈ xname :: ynames, ∀ u, ∃ v, returnProperty s p u (some s.inH) = .ok (some v)) →
    ∃ cs, plot s xname ynames pick kws none = (.ok cs, kws)

theorem C111_full_false : ¬ C111_full := by
  intro H
  obtain ⟨cs, h⟩ := H Handler.demo0 "mass" ["sfr"] .active [] (Handler.demo0_reachable []) (by
    have hs : Reachable Handler.demo0 := Handler.demo0_reachable []
    have hI := Handler.reachable_inv hs
    intro p hp u
    have key : ∀ p : Name, p ∈ Handler.demo0.all → p ≠ "mass_cuts" →
        (∃ e, Handler.demo0.hdep.get? p = some e) → (∃ a, Handler.held Handler.demo0 p = some a) →
        ∃ v, returnProperty Handler.demo0 p u (some Handler.demo0.inH) = .ok (some v) := by
      intro p h1 h2 ⟨e, h3⟩ ⟨a, h4⟩
      obtain ⟨v, hv, -⟩ := Handler.returnProperty_ok Handler.demo0 hI p u _ h1 h2 e h3 a h4
      exact ⟨v, hv⟩
    simp only [List.mem_cons, List.not_mem_nil, or_false] at hp
    rcases hp with rfl | rfl <;> exact key _ (by decide) (by decide) ⟨_, rfl⟩ ⟨_, rfl⟩)
  exact (C111_argument_changed Handler.demo0 "mass" ["sfr"] .active [] none rfl).2 (by rw [h])

/-- A plot of a selection compared with everything. -/
example : ∃ cs : List (Curve ℚ), (plot (Handler.run Handler.demo0 [.range (some "mass") (some 2) none true none]) "mass"
    ["sfr"] .compare [] none).1 = .ok cs ∧ cs.map (fun c => (c.xs.length, c.color)) = [(4, some "k"), (3, some "r")] :=
  ⟨_, rfl, by decide +kernel⟩

/-- A histogram of logarithms. -/
example : ∃ hs : List (Hist ℚ), hist (fun x => x) Handler.demo0 ["mass"] true true [] none = .ok hs ∧ hs.length = 1 :=
  ⟨_, rfl, by decide +kernel⟩

end Verif.Plot
