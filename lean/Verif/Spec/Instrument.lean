import Verif.Model.Instrument

/-!
# Specification for instruments

What it means for an instrument to be in order, for a map to be up to date, and for a map to
belong to one detector and one property of the field.
-/

namespace Verif.Inst.Spec
variable {F D O X G B H M P V T S Q K : Type}

/-- The bookkeeping of an instrument is in order: detectors and fields have different names,
and the lists of names say exactly which ones exist. -/
structure Ordered (s : State F D O X G M K) : Prop where
  detNodup : s.detNames.Nodup
  fieldNodup : s.fieldNames.Nodup
  dets : ∀ n, n ∈ s.detNames ↔ (s.detectors.get? n).isSome
  fields : ∀ n, n ∈ s.fieldNames ↔ (s.fields.get? n).isSome
  flags : ∀ n, n ∈ s.fieldNames → (s.consistent.get? n).isSome

/-- The map held for field `f` is what mapping `f` now, with the current detectors and some
choice of beam options, gives. -/
def UpToDate [DecidableEq F] [DecidableEq D] (ph : Phys F D O X G B H M P V T S Q K)
    (s : State F D O X G M K) (f : Name) : Prop :=
  ∃ (a : MapArgs B Q) (m : MapData X M),
    (mapFields ph s [f] a).2 = .ok () ∧ (mapFields ph s [f] a).1.maps.get? f = some m ∧
    s.maps.get? f = some m

/-- `b` is the beam used for detector `det` and field `g`: the one given to the call, or else
the detector's own spatial response evaluated on the axes of the field, with the size of the
kernel given to the call or, without one, the resolution of the instrument. -/
def Beam (ph : Phys F D O X G B H M P V T S Q K) (s : State F D O X G M K)
    (g : Field X G K) (a : MapArgs B Q) (det : Det F D O) (b : B) : Prop :=
  match a.beam with
  | some b' => b = b'
  | none => ∃ r size, det.spatial = some r ∧
      ((∃ m n, a.kernel = some (.pair m n) ∧ size = some (m, n)) ∨
        (a.kernel = none ∧ s.bestSpatial ≠ none ∧ size = none)) ∧
      ph.beam g.axes r.fn r.kw a.opts size s.bestSpatial = .ok b

/-- `c` is the map that detector `d` by itself makes of property `i` of field `g`: its own
beam unless one is given, the convolution of that property, its own spectral response. -/
def Column (ph : Phys F D O X G B H M P V T S Q K) (s : State F D O X G M K)
    (g : Field X G K) (a : MapArgs B Q) (d : Name) (i : ℕ) (c : M) : Prop :=
  ∃ det cube b h r,
    s.detectors.get? d = some det ∧ g.props[i]? = some cube ∧ Beam ph s g a det b ∧
    ph.conv g.axes cube b a.opts = .ok h ∧
    det.spectral = some r ∧ ph.collapse g.axes h r.fn r.kw = .ok c

/-- The noise of detector `d`: zeros if none is asked for, else its own noise function for as
many samples as there are positions, the given sample time and random numbers. -/
def Noise (ph : Phys F D O X G B H M P V T S Q K) (s : State F D O X G M K) (f : Name)
    (a : SampleArgs P T S) (d : Name) (out : List V) : Prop :=
  if a.withNoise then ∃ det r dt, s.detectors.get? d = some det ∧ det.noise = some r ∧
    a.dt = some dt ∧ ph.noise r.fn r.kw a.positions.length dt (a.seed f d) = .ok out
  else out = List.replicate a.positions.length ph.zero

/-- The pointing offset: a pair, or no offset. -/
def Offset (ph : Phys F D O X G B H M P V T S Q K) (a : OffArg O) (o : O) : Prop :=
  a = .pair o ∨ (a = .none ∧ o = ph.noOffset)

/-- What detector `d` records of a map `c`: samples of `c` at the pointing positions shifted
by the offset of `d`. -/
def Signal (ph : Phys F D O X G B H M P V T S Q K) (s : State F D O X G M K)
    (x : X) (c : M) (ps : List P) (d : Name) (out : List V) : Prop :=
  ∃ det, s.detectors.get? d = some det ∧
    ph.sample x c (ps.map fun p => ph.shift p det.pointing) = .ok out

/-- The same instrument with detector `d` only. -/
def only (s : State F D O X G M K) (d : Name) : State F D O X G M K :=
  { s with detNames := [d] }

/-- The same instrument with the `k`-th detector `d` only, and its map only. -/
def onlyMapped (s : State F D O X G M K) (d : Name) (k : ℕ) : State F D O X G M K :=
  { s with
    detNames := [d]
    maps := s.maps.map fun p => (p.1, ⟨p.2.axes, (p.2.cols[k]?).toList⟩) }

/-- What detector `d` records when field `g`, mapped with options `ma`, is sampled: its noise
plus, if the signal is asked for, its own map of property `i` at its own positions. -/
def Recorded (ph : Phys F D O X G B H M P V T S Q K) (s : State F D O X G M K) (f : Name)
    (g : Field X G K) (ma : MapArgs B Q) (i : ℕ) (a : SampleArgs P T S) (d : Name)
    (xs : List V) : Prop :=
  ∃ nz, Noise ph s f a d nz ∧
    if a.signal then ∃ c sg, Column ph s g ma d i c ∧
      Signal ph s g.axes c a.positions d sg ∧ nz.length = sg.length ∧
      xs = List.zipWith ph.add nz sg
    else xs = nz

/-- The response a new detector should have: the given function with the given keywords
(none if none are given); without a function the default one, with the given or else the
default keywords.  `none` if something is missing or is not a function or a dictionary. -/
def wanted (ph : Phys F D O X G B H M P V T S Q K) (fn : FnArg F) (kw : KwArg D)
    (d : Default F D) : Option (Resp F D) :=
  match fn, kw with
  | .bad, _ => none
  | _, .bad => none
  | .fn f, .dict k => some ⟨f, k⟩
  | .fn f, .none => some ⟨f, ph.emptyKw⟩
  | .none, .dict k => d.fn.map fun f => ⟨f, k⟩
  | .none, .none => d.fn.bind fun f => d.kw.map fun k => ⟨f, k⟩

/-- The operation changes the detectors or their responses (and does not fail). -/
def Changes (ph : Phys F D O X G B H M P V T S Q K) (s : State F D O X G M K) :
    Op F D O X G B K Q → Prop
  | .setResponse names m fn kw =>
    (setResponse ph s names m fn kw).2 = .ok () ∧ targets s names ≠ []
  | .addDetector a => ∃ n, (addDetector ph s a).2 = .ok n
  | .delDetectors names => (delDetectors s names).2 = .ok () ∧ names ≠ []
  | _ => False

/-- The operation does not map anything. -/
def NoMapping : Op F D O X G B K Q → Prop
  | .mapFields _ _ => False
  | _ => True

/-- The operation is one of the instrument's own (no grid is changed behind its back). -/
def Own : Op F D O X G B K Q → Prop
  | .editGrid _ _ => False
  | _ => True

/-- The names that the operation chooses explicitly are not numbers. -/
def PlainNames : Op F D O X G B K Q → Prop
  | .addDetector a => ∀ n, a.name = some n → ∀ k : ℕ, n ≠ Nat.repr k
  | .addField a => ∀ n, a.name = some n → ∀ k : ℕ, n ≠ Nat.repr k
  | _ => True

end Verif.Inst.Spec
