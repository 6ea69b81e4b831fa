import Verif.Spec.GridAdd
import Verif.Model.GridConv

/-!
# Vocabulary for statements about convolutions
-/

namespace Verif.Map.Spec

variable {V : Type}

/-- The cell of a source with `ss` cells on its axes that spreads from cell `j` to cell `k`, where the middle cell of
the source (of an even number, the one before the middle) stays in place; `none` if the source is too small. -/
def spreads : List ℕ → List ℕ → List ℕ → Option (List ℕ)
  | s :: ss, k :: c, j :: c' =>
    if j ≤ k + (s - 1) / 2 ∧ k + (s - 1) / 2 - j < s then
      (spreads ss c c').map (fun o => (k + (s - 1) / 2 - j) :: o)
    else none
  | _, _, _ => some []

/-- What arrives in cell `k` from cell `j` of the array `t` (property `p`), spread by property `q` of `s`. -/
def arrives [Mul V] [Zero V] (t s : Arr V) (ss c c' : List ℕ) (p q : ℕ) : V :=
  match spreads ss c c' with
  | some o => cell t (c' ++ c.drop ss.length) p * cell s o q
  | none => 0

/-- What a point of size `v` in cell `c0` becomes in cell `c`: the source with its middle in `c0`. -/
def response [Mul V] [Zero V] (s : Arr V) (ss c0 c : List ℕ) (q : ℕ) (v : V) : V :=
  match spreads ss c c0 with
  | some o => v * cell s o q
  | none => 0

/-- The convolution along the first axes, as many as the source has: the sum of what arrives in a cell from all cells
that differ from it along these axes. -/
def smear [Add V] [Mul V] [Zero V] (t s : Arr V) (ns ss c : List ℕ) (p q : ℕ) : V :=
  ((allCells (ns.take ss.length)).map (fun c' => arrives t s ss c c' p q)).sum

variable {K : Type}

/-- The grid `g'` is `g` with its array convolved with that of `s`; property `p` with property `q p` of `s`. -/
structure Convolved [Add V] [Mul V] [Zero V] (g g' s : Grid K V) (q : ℕ → ℕ) : Prop where
  rest : ({ g' with grid := none } : Grid K V) = { g with grid := none }
  values : ∀ a b, g.grid = some a → s.grid = some b → ∃ r, g'.grid = some r ∧ r.shape = a.shape ∧
    ∀ c p, Valid g.nPix c → p < g.nProps → cell r c p = smear a b g.nPix s.nPix c p (q p)

/-- The axes asked for; by default the first, as many as the source has. -/
def askedAxes (d : ℕ) : Option (List ℕ) → List ℕ
  | none => List.range d
  | some l => l

/-- The amounts of padding asked for on `k` axes. -/
def askedPad (k : ℕ) : PadArg → List ℤ
  | .none => List.replicate k 0
  | .int p => List.replicate k p
  | .list l => l
  | .array l => l

/-- The cell opposite to cell `o` of a source with `ss` cells. -/
def opposite (ss o : List ℕ) : List ℕ := List.zipWith (fun s i => s - 1 - i) ss o

/-- The same on both sides of the middle: property `q` of the source. -/
def Even (s : Arr V) (ss : List ℕ) (q : ℕ) : Prop := ∀ o, Valid ss o → cell s (opposite ss o) q = cell s o q

/-- `c` and `c'` are equally far from the point `e / 2` cells above `c0` along each axis, on opposite sides. -/
def Facing : List ℕ → List ℕ → List ℕ → List ℕ → Prop
  | e :: es, j :: c0, k :: c, k' :: c' => k + k' = 2 * j + e ∧ Facing es c0 c c'
  | [], [], [], [] => True
  | _, _, _, _ => False

/-- Property `p` of an array is `v` in cell `c0` and zero in the others. -/
def Point (a : Arr V) [Zero V] (ns c0 : List ℕ) (p : ℕ) (v : V) : Prop :=
  cell a c0 p = v ∧ ∀ c, Valid ns c → c ≠ c0 → cell a c p = 0

/-- The source, its middle put on cell `c`, does not reach over the border. -/
def Fits : List ℕ → List ℕ → List ℕ → Prop
  | n :: ns, s :: ss, j :: c => (s - 1) / 2 ≤ j ∧ j + s / 2 < n ∧ Fits ns ss c
  | _, _, _ => True

/-- The grid is a map in real space with data, the source has data of its shape and not more axes than the grid, the
axes asked for are the first ones, and the padding is not negative and given as a number or an array. -/
structure Convolvable [Field K] [LinearOrder K] (g s : Grid K V) (a b : Arr V) (ax : Option (List ℕ)) (pad : PadArg) :
    Prop where
  regular : Regular g
  floats : Floats g
  active : g.grid = some a
  source : s.grid = some b
  shape : b.shape = s.nPix ++ [s.nProps]
  real : ∀ f ∈ g.fourier, f = false
  map : g.isPow = false
  low : 1 ≤ s.nPix.length
  high : s.nPix.length ≤ g.dim
  axes : (askedAxes s.nPix.length ax).Perm (List.range s.nPix.length)
  notList : ∀ l, pad ≠ .list l
  padLength : (askedPad s.nPix.length pad).length = s.nPix.length
  aligned : Aligned (askedAxes s.nPix.length ax) (askedPad s.nPix.length pad)
  padPos : ∀ p ∈ askedPad s.nPix.length pad, 0 ≤ p

end Verif.Map.Spec
