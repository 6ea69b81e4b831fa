import Verif.Model.PathsShared

/-!
# How catalogues, simulations and lightcones find their place

`simim/siminterface/_sims.py`; the first lines of the constructors of `SimCatalogs`
(`siminterface/_rawsiminterface.py:252-268`), `SimHandler` (`siminterface/simhandler.py:204-213`), `LCMaker`
(`lightcone/lcmaker.py:55-70`) and `LCHandler` (`lightcone/lchandler.py:57-61`); `setupsimim` (`_paths.py:232-245`).
Each of them makes a new `_SimIMPaths` object, i.e. reads the registries from the disk.
-/

namespace Verif.Paths

/-- `_acceptedsims`, `_sims.py:7-11`. -/
def acceptedSims : List Text :=
  (["Illustris-1", "Illustris-2", "Illustris-3", "Illustris-1-Dark", "Illustris-2-Dark", "Illustris-3-Dark"] ++
   ["TNG300-1", "TNG300-2", "TNG300-3", "TNG300-1-Dark", "TNG300-2-Dark", "TNG300-3-Dark",
    "TNG100-1", "TNG100-2", "TNG100-3", "TNG100-1-Dark", "TNG100-2-Dark", "TNG100-3-Dark"] ++
   ["UniverseMachine-BolshoiPlanck", "UniverseMachine-SMDPL", "UniverseMachine-MDPL2", "_testbox"] ++
   ["UniverseMachine-uchuu"]).map String.toList

/-- `_checksim`, `_sims.py:13-19`. -/
def checkSim (sim : Text) : Except Outcome Unit :=
  if sim ∈ acceptedSims then .ok () else .error (.raised .nameError)

/-- The word `auto`. -/
def auto : Text := ['a', 'u', 't', 'o']

/-- What is opened or made; `answers` are the user's answers to questions. -/
inductive Program where
  | catalogue (sim path : Text) (updatepath : Bool) (answers : List Text)
  | simulation (sim : Text)
  | maker (sim : Text) (answers : List Text)
  | cone (sim : Text)
  | setup (answers : List Text)

/-- The directory that is used, and whether the registry has it for this name. -/
structure Place where
  path : Text
  kept : Bool
  deriving DecidableEq

/-- Look a name up in the registries as they are on the disk: a new `_SimIMPaths` (`_paths.py:28-60`), then
`paths.sims[sim]` or a `ValueError` (`simhandler.py:208-212`, `lchandler.py:58-61`). -/
def lookUp (d : Disk) (k : Kind) (sim : Text) : Except Outcome Place :=
  match start d with
  | (s, .loaded) =>
    match (s.mem k).get? sim with
    | some p => .ok ⟨p, true⟩
    | none => .error (.raised .valueError)
  | (_, o) => .error o

/-- The directory of a new entry with automatic path, `_rawsiminterface.py:258-262`, `lcmaker.py:68-70`. -/
def lookOrMake (env : Env) (d : Disk) (k : Kind) (sim : Text) (answers : List Text) : Disk × Except Outcome Place :=
  match start d with
  | (s, .loaded) =>
    match (s.mem k).get? sim with
    | some p => (d, .ok ⟨p, true⟩)
    | none =>
      let r := newPath env s k sim (some auto) true answers
      (r.1.disk, match r.2 with
        | .registered p => .ok ⟨p, true⟩        -- `paths.sims[sim]`, just set
        | o => .error o)
  | (_, o) => (d, .error o)

/-- The place a program uses, and what it does to the registries. -/
def perform (env : Env) (d : Disk) : Program → Disk × Except Outcome Place
  | .catalogue sim path updatepath answers =>                       -- _rawsiminterface.py:252-268
    match checkSim sim with
    | .error o => (d, .error o)
    | .ok () =>
      if path = auto then lookOrMake env d .sim sim answers
      else
        match start d with
        | (s, .loaded) =>
          if env.exist path then
            if updatepath then
              let r := newPath env s .sim sim (some path) true answers
              (r.1.disk, match r.2 with
                | .registered _ => .ok ⟨env.abspath path, true⟩
                | .kept => .ok ⟨env.abspath path, false⟩
                | o => .error o)
            else (d, .ok ⟨env.abspath path, false⟩)
          else (d, .error (.raised .nameError))
        | (_, o) => (d, .error o)
  | .simulation sim =>                                              -- simhandler.py:204-213
    match checkSim sim with
    | .error o => (d, .error o)
    | .ok () => (d, lookUp d .sim sim)
  | .maker sim answers =>                                           -- lcmaker.py:55-70
    match checkSim sim with
    | .error o => (d, .error o)
    | .ok () =>
      match lookUp d .sim sim with
      | .error o => (d, .error o)
      | .ok _ => lookOrMake env d .lc sim answers
  | .cone sim => (d, lookUp d .lc sim)                              -- lchandler.py:57-61
  | .setup answers =>                                               -- _paths.py:232-245
    match start d with
    | (s, .loaded) =>
      match answers with
      | [] => (d, .error .waiting)
      | root :: rest =>
        if root ≠ [] ∧ env.exist root = false then (d, .error (.raised .nameError))
        else
          let r := setupPath env s (if root = [] then ['~'] else root) true rest
          (r.1.disk, match r.2 with
            | .rootSet p => .ok ⟨p, true⟩
            | o => .error o)
    | (_, o) => (d, .error o)

/-- Programs one after the other, with what each used. -/
def performAll (env : Env) : Disk → List Program → Disk × List (Program × Except Outcome Place)
  | d, [] => (d, [])
  | d, p :: ps =>
    let r := perform env d p
    let rest := performAll env r.1 ps
    (rest.1, (p, r.2) :: rest.2)

end Verif.Paths
