import Verif.Spec.GalAverage

/-!
# Relations between star formation rates and luminosities

Logarithms are to the base 10.  `I` stands for the infrared luminosity in solar luminosities: the star
formation rate is `d * I / 10 ^ 10` solar masses per year.
-/

namespace Verif.Gal.Spec

/-- Logarithm to the base 10. -/
noncomputable def lg (x : ℝ) : ℝ := Real.log x / Real.log 10

/-- De Looze et al. 2014: line, galaxies, slope, intercept and scatter of the star formation rate as a
function of luminosity. -/
noncomputable def deloozeTable : List (String × Option String × ℝ × ℝ × ℝ) :=
  [("[CII]", none, 1.01, -6.99, 0.42), ("[CII]", some "DGS", 0.84, -5.29, 0.40),
   ("[CII]", some "dwarfs", 0.80, -5.73, 0.37), ("[CII]", some "starbursts", 1.00, -7.06, 0.27),
   ("[CII]", some "comp/AGN", 0.90, -6.09, 0.37), ("[CII]", some "high z", 1.18, -8.52, 0.40),
   ("[OI]", none, 1.00, -6.79, 0.42), ("[OI]", some "DGS", 0.94, -6.37, 0.25),
   ("[OI]", some "dwarfs", 0.91, -6.23, 0.27), ("[OI]", some "starbursts", 0.89, -6.05, 0.20),
   ("[OI]", some "comp/AGN", 0.76, -5.08, 0.35),
   ("[OIII]", none, 1.12, -7.48, 0.66), ("[OIII]", some "DGS", 0.92, -6.71, 0.30),
   ("[OIII]", some "dwarfs", 0.92, -6.71, 0.30), ("[OIII]", some "starbursts", 0.69, -3.89, 0.23),
   ("[OIII]", some "comp/AGN", 0.87, -5.46, 0.35)]

/-- Uzgil et al. 2014: line, `A` and `B`. -/
noncomputable def uzgilTable : List (String × ℝ × ℝ) :=
  [("[CII]", 0.89, 2.44), ("[NII]", 1.01, 3.54), ("[OI]", 0.98, 2.70), ("[OIII]88um", 0.98, 2.86),
   ("[OIII]52um", 0.88, 2.54), ("[SiII]", 1.04, 3.15), ("[SIII]33um", 0.99, 3.21), ("[SIII]19um", 0.97, 3.47),
   ("[NeII]", 0.99, 3.26), ("[NeIII]", 1.10, 3.72)]

/-- Spinoglio et al. 2012: line, `A` and `B`. -/
noncomputable def spinoglioTable : List (String × ℝ × ℝ) :=
  [("[CII]", 0.89, 2.67), ("[NII]", 1.01, 3.80), ("[OI]", 0.98, 2.95), ("[OIII]88um", 0.98, 3.11),
   ("[OIII]52um", 0.88, 2.76), ("[SiII]", 1.04, 3.42), ("[SIII]33um", 0.99, 3.46), ("[SIII]19um", 0.97, 3.72),
   ("[NeII]", 0.99, 2.94), ("[NeIII]", 1.10, 4.00)]

/-- Schaerer et al. 2020: galaxies, slope and intercept; without galaxies given, those of ALPINE with
upper limits. -/
noncomputable def schaererTable : List (Option String × ℝ × ℝ) :=
  [(none, 1.17, 6.61), (some "ALPINE-uvir", 1.00, 7.00), (some "ALPINE-sed", 0.84, 7.09),
   (some "ALPINE-uvirx", 1.17, 6.61), (some "high z-uvirx", 1.28, 6.43)]

/-- `Relation call sfr law`: the call is for galaxies with the star formation rates `sfr`, and `law x L` is
the published relation between a star formation rate `x` and a luminosity `L`. -/
inductive Relation : Call ℝ → Arg ℝ → (ℝ → ℝ → Prop) → Prop
  | li (sfr d a b r sc s) (hd : 0 < d) (ha : 0 < a) (hr : 0 < r) : Relation (.li16 sfr d a b r sc s) sfr
      (fun x L => ∃ I L', x = d * I / 10 ^ 10 ∧ lg I = a * lg L' + b ∧ L = 4.9e-5 * r ^ 3 * L')
  | gao (sfr d a b r sc s) (hd : 0 < d) (ha : 0 < a) (hr : 0 < r) : Relation (.hcnGao sfr d a b r sc s) sfr
      (fun x L => ∃ I L', x = d * I / 10 ^ 10 ∧ lg I = a * lg L' + b ∧ L = 2.2e-5 * r ^ 3 * L')
  | delooze (sfr line set sc fix m b s) (h : (line, set, m, b, s) ∈ deloozeTable) :
      Relation (.delooze14 sfr line set sc fix) sfr (fun x L => lg x = b + m * lg L)
  | uzgil (unit sfr d line sc s a b) (hu : 0 < unit) (hd : 0 < d) (h : (line, a, b) ∈ uzgilTable) :
      Relation (.uzgil14 unit sfr d line sc s) sfr
        (fun x L => ∃ I, x = d * I / 10 ^ 10 ∧ lg (L * unit) = a * lg (I * unit) - b)
  | spinoglio (unit sfr d line sc s a b) (hu : 0 < unit) (hd : 0 < d) (h : (line, a, b) ∈ spinoglioTable) :
      Relation (.spinoglio12 unit sfr d line sc s) sfr
        (fun x L => ∃ I, x = d * I / 10 ^ 10 ∧ lg (L * unit) = a * lg (I * unit) - b)
  | schaerer (sfr set sc s m b) (h : (set, m, b) ∈ schaererTable) :
      Relation (.schaerer20 sfr set sc s) sfr (fun x L => lg L = m * lg x + b)
  | zhao (sfr d sc s) (hd : 0 < d) : Relation (.zhao13 sfr d sc s) sfr
      (fun x L => ∃ I, x = d * I / 10 ^ 10 ∧ lg I = 0.95 * lg L + 4.51)

end Verif.Gal.Spec
