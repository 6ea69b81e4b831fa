import Verif.Spec.GridAdd

/-!
# Vocabulary for statements about spherical averages
-/

namespace Verif.Map.Spec

variable {K V : Type}

/-- The squared distance of cell `c` from `center`, along the axes `ax`; `coords` are the
coordinates of the cells along each axis. -/
def sqDist [Field K] (coords : List (List K)) (center : List K) (ax c : List ℕ) : K :=
  (ax.map (fun k : ℕ => ((coords.getD k []).getD (c.getD k 0) 0 - center.getD k 0) ^ 2)).sum

/-- `r` is in shell number `k`: at or above its inner and below its outer edge. -/
def InShell [LinearOrder K] (edges : List K) (k : ℕ) (r : K) : Prop :=
  ∃ lo ∈ edges[k]?, ∃ hi ∈ edges[k + 1]?, lo ≤ r ∧ r < hi

instance [LinearOrder K] (edges : List K) (k : ℕ) (r : K) : Decidable (InShell edges k r) :=
  match h1 : edges[k]?, h2 : edges[k + 1]? with
  | some lo, some hi => decidable_of_iff (lo ≤ r ∧ r < hi) (by simp [InShell, h1, h2])
  | none, _ => isFalse (by simp [InShell, h1])
  | some _, none => isFalse (by simp [InShell, h2])

/-- The entries of `l` for the axes that are not in `ax`. -/
def rest {α : Type} (ax : List ℕ) (l : List α) : List α :=
  (List.range l.length).filterMap (fun i => if i ∈ ax then none else l[i]?)

/-- The cells whose distance is in shell `k` and whose indices along the other axes are `c`. -/
def members [Field K] [LinearOrder K] (nPix : List ℕ) (root : K → K) (coords : List (List K))
    (center : List K) (ax : List ℕ) (edges : List K) (k : ℕ) (c : List ℕ) : List (List ℕ) :=
  (allCells nPix).filter (fun d => decide
    (InShell edges k (root (sqDist coords center ax d)) ∧ rest ax d = c))

end Verif.Map.Spec
