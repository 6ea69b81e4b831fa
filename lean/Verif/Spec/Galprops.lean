import Verif.Model.Galprops

/-!
# What users expect of the galaxy property functions
-/

namespace Verif.Gal.Spec

variable {K G : Type}

/-- Zero for everything that is switched off, unchanged for everything else, in the same order. -/
def Switched [Zero K] (on : ℕ → Prop) (before after : List K) : Prop :=
  after.length = before.length ∧
    ∀ (i : ℕ) (x : K), before[i]? = some x →
      ∃ y, after[i]? = some y ∧ (on i → y = x) ∧ (¬ on i → y = 0)

/-- A fraction. -/
def Fraction [Zero K] [One K] [LE K] (f : K) : Prop := 0 ≤ f ∧ f ≤ 1

/-- Generators give as many numbers as are asked for. -/
structure Lawful (R : Rng K G) : Prop where
  normal : ∀ n g, (R.normal n g).1.length = n
  uniform : ∀ n g, (R.uniform n g).1.length = n

/-- Facts about powers and the error function. -/
structure Usual [Field K] [LinearOrder K] (fn : Fn K) : Prop where
  pos : ∀ x y, 0 < x → 0 < fn.pow x y
  nonneg : ∀ x y, 0 ≤ x → 0 ≤ fn.pow x y
  erf_le : ∀ x, fn.erf x ≤ 1
  le_erf : ∀ x, -1 ≤ fn.erf x

/-- Every galaxy of an array gets the value it gets when it is passed alone. -/
def Alone {α : Type} (F : List α → Except Err (Arg K)) : Prop :=
  ∀ xs : List α, ∃ ys : List K, F xs = .ok (.many ys) ∧ ys.length = xs.length ∧
    ∀ (i : ℕ) (x : α), xs[i]? = some x → ∃ y, ys[i]? = some y ∧ F [x] = .ok (.many [y])

/-- The number of elements of two arrays together, one of which may be stretched. -/
def together (a b : ℕ) : ℕ := if a = 1 then b else a

/-- The number of galaxies in a call. -/
def galaxies : Call K → ℕ
  | .keating16 mass _ _ _ _ => mass.size
  | .li16 sfr _ _ _ _ _ _ => sfr.size
  | .pullen13 _ mass z _ _ => together mass.size z.size
  | .lidz11 mass _ _ => mass.size
  | .kamenetzky16 sfr _ => sfr.size
  | .hcnGao sfr _ _ _ _ _ _ => sfr.size
  | .hcnBreysse mass _ _ => mass.size
  | .delooze14 sfr _ _ _ _ => sfr.size
  | .uzgil14 _ sfr _ _ _ _ => sfr.size
  | .spinoglio12 _ sfr _ _ _ _ => sfr.size
  | .schaerer20 sfr _ _ _ => sfr.size
  | .zhao13 sfr _ _ _ => sfr.size
  | .padmanabhan19 mass z _ _ _ _ _ _ => together mass.size z.size
  | .yang22 _ mass z _ _ _ _ => together mass.size z.size
  | .behroozi _ _ z mass _ _ => together z.size mass.size

/-- The calls that use other random numbers than those of the generator passed: `yang22` with duty cycle
and `sfr` and `stellarmass` of `sfr_behroozi13` with scatter. -/
def UsesOther : Call K → Prop
  | .yang22 _ _ _ _ fduty _ _ => fduty = true
  | .behroozi _ _ _ _ scatter _ => scatter = true
  | _ => False

/-- The generators after a call: every number that was drawn is used up. -/
def usedUp (R : Rng K G) (c : Call K) (w : World G) : World G :=
  let normals := fun (on : Bool) (n : ℕ) => if on then { w with own := (R.normal n w.own).2 } else w
  let uniforms := fun (on : Bool) (n : ℕ) => if on then { w with own := (R.uniform n w.own).2 } else w
  match c with
  | .keating16 mass _ _ s _ => normals s mass.size
  | .li16 sfr _ _ _ _ s _ => normals s sfr.size
  | .pullen13 _ mass _ r _ => uniforms r mass.size
  | .lidz11 mass _ r => uniforms r mass.size
  | .kamenetzky16 _ _ => w
  | .hcnGao sfr _ _ _ _ s _ => normals s sfr.size
  | .hcnBreysse mass _ r => uniforms r mass.size
  | .delooze14 sfr _ _ s _ => normals s sfr.size
  | .uzgil14 _ sfr _ _ s _ => normals s sfr.size
  | .spinoglio12 _ sfr _ _ s _ => normals s sfr.size
  | .schaerer20 sfr _ s _ => normals s sfr.size
  | .zhao13 sfr _ s _ => normals s sfr.size
  | .padmanabhan19 mass z _ _ _ _ s _ => normals s (together mass.size z.size)
  | .yang22 _ mass z _ d s _ =>
    let w' := normals s (together mass.size z.size)
    if d then { w' with glob := (R.uniform (together mass.size z.size) w.glob).2 } else w'
  | .behroozi _ _ z mass s _ =>
    if s then { w with deflt := (R.normal (together z.size mass.size) w.deflt).2 } else w

/-- `sfr` and `stellarmass` of `sfr_behroozi13` before the set-up. -/
def NotSetUp : Call K → Prop
  | .behroozi pathSet _ _ _ _ _ => pathSet = false
  | _ => False

/-- The galaxy sets of `delooze14` according to its documentation (`line_fir.py:15-18`). -/
def DeloozeDoc (line : String) (set : Option String) : Prop :=
  (line ∈ ["[CII]", "[OI]", "[OIII]"] ∧
    set ∈ [none, some "DGS", some "dwarfs", some "starbursts", some "comp/agn"]) ∨
  (line = "[CII]" ∧ set = some "high z")

/-- The lines of `uzgil14` and `spinoglio12` according to their documentation (`line_fir.py:154-157`,
`259-262`). -/
def firDoc : List String :=
  ["[CII]", "[NII]", "[OI]", "[OIII]88um", "[OIII]52um", "[SiII]", "[SiIII]33um", "[SiIII]19um",
   "[NeII]", "[NeIII]"]

/-- The sets of `schaerer20` according to its documentation (`line_fir.py:365-367`). -/
def schaererDoc : List (Option String) :=
  [none, some "ALPINE-uvir", some "ALPINE-sed", some "ALPINE-uvirx", some "high z-uvirx"]

/-- The lines of `yang22` according to its documentation (`line_fir_yang.py:19-20`). -/
def yangDoc : List String :=
  ["CII", "CI1-0", "CI2-1", "CO1-0", "CO2-1", "CO3-2", "CO4-3", "CO5-4"]

end Verif.Gal.Spec
