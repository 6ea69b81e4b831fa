import Verif.Model.Galprops
import Verif.Model.Handler

/-!
# Model of the ready-made properties (`simim/galprops/galprops_builtin.py`)

Each of them is a `MultiProp` (`Verif.Model.Handler`) whose function is one of the functions of
`Verif.Model.Galprops` with the default values of its options.  Further keywords are not modelled, nor are arguments
that are NaN; the age of the universe, the fits of `yang22` and the tables of `sfr_behroozi13` are given.  The default
generator of a function is in state `own` of the `World` (each function has its own one).
-/

namespace Verif.Ready

open Verif.Gal (Fn Rng World YFit Call Out)
open Verif.Handler (Name MultiProp)

variable {K G : Type}

/-- What the functions use: numpy's functions, `cosmo.age` (`line_co_dutycycle.py:28`), the fits of
`line_fir_yang.py:65-263`, and whether and with which values the tables of `sfr_behroozi13.py:57-135` are there. -/
structure Env (K : Type) where
  fn : Fn K
  age : K → K
  yang : String → K → YFit K
  setUp : Bool
  sfrTable : K → K → K
  massTable : K → K → K

/-- The ready-made properties, `galprops_builtin.py:6-75`. -/
inductive Which where
  | coSled | liCo | lidzCo | pullenCo | keatingCo | gaoHcn | breysseHcn | deloozeFir | uzgilFir | spinoglioFir
  | schaererCii | yangCii | padmanabhanCii | zhaoNii | behrooziSfr | behrooziMass
  deriving DecidableEq

/-- `prop_names` and `prop_name`, `galprops_builtin.py:6-69`. -/
def Which.names : Which → List Name
  | .coSled => ["L10", "L21", "L32", "L43", "L54", "L65", "L76", "L87", "L98", "L109", "L1110", "L1211", "L1312"]
  | .liCo | .lidzCo | .pullenCo | .keatingCo => ["LCO"]
  | .gaoHcn | .breysseHcn => ["LHCN"]
  | .deloozeFir | .uzgilFir | .spinoglioFir => ["Lfir"]
  | .schaererCii | .yangCii | .padmanabhanCii => ["LCII"]
  | .zhaoNii => ["LNII"]
  | .behrooziSfr => ["sfr"]
  | .behrooziMass => ["stellar mass"]

/-- `kwargs`, `galprops_builtin.py:6-69`. -/
def Which.kwargs : Which → List Name
  | .coSled | .liCo | .gaoHcn | .deloozeFir | .uzgilFir | .spinoglioFir | .schaererCii | .zhaoNii => ["sfr"]
  | .lidzCo | .keatingCo | .breysseHcn => ["mass"]
  | .pullenCo => ["mass", "redshift", "cosmo"]
  | .yangCii | .padmanabhanCii => ["mass", "redshift"]
  | .behrooziSfr | .behrooziMass => ["redshift", "mass"]

/-- `units`, `galprops_builtin.py:6-69`. -/
def Which.unit : Which → String
  | .behrooziSfr => "Msun/yr"
  | .behrooziMass => "Msun"
  | _ => "Lsun"

/-- All values, if none is NaN (simplification: arguments with NaN are not modelled). -/
def allSome : List (Option K) → Option (List K)
  | [] => some []
  | none :: _ => none
  | some x :: rest => (allSome rest).map (fun l => x :: l)

/-- An argument as the functions get it, `galprops.py:114-120`. -/
def arg (args : PyDict Name (Handler.Arg K)) (k : Name) : Option (Gal.Arg K) :=
  match args.get? k with
  | some (.arr vs) => (allSome vs).map .many
  | some (.scalar x) => some (.one x)
  | _ => none

section
variable [Field K] [LinearOrder K]

/-- `const.Lsun_to_W * 1e-34`, `line_fir.py:239` and `constants.py:8`. -/
def firUnit : K := 3828 / 1000 * 10 ^ 26 / 10 ^ 34

/-- The call, with the default values of the options: `line_co.py:7-10`, `46-49`, `92-94`, `140-142`, `187-193`,
`line_densegas.py:6-9`, `48-50`, `line_fir.py:6-9`, `144-148`, `251-255`, `354-357`, `408-411`, `447-450`,
`line_fir_yang.py:6-9`, `sfr_behroozi13.py:220`, `245`.  The cosmology is only used for the ages. -/
def call (E : Env K) (args : PyDict Name (Handler.Arg K)) : Which → Option (Call K)
  | .coSled => (arg args "sfr").map (fun x => .kamenetzky16 x ((List.range 13).map (fun i => (i : ℤ) + 1)))
  | .liCo => (arg args "sfr").map (fun x => .li16 x 1 (137 / 100) (-174 / 100) 1 true (3 / 10))
  | .lidzCo => (arg args "mass").map (fun x => .lidz11 x (1 / 10) true)
  | .pullenCo =>
    match arg args "mass", arg args "redshift", arg args "cosmo" with
    | some m, some z, some _ => some (.pullen13 E.age m z true (1 / 10))
    | _, _, _ => none
  | .keatingCo => (arg args "mass").map (fun x => .keating16 x (10 ^ 10) (63 / 10 ^ 8) true (3 / 10))
  | .gaoHcn => (arg args "sfr").map (fun x => .hcnGao x 1 1 (29 / 10) 1 true (3 / 10))
  | .breysseHcn => (arg args "mass").map (fun x => .hcnBreysse x (1 / 10) true)
  | .deloozeFir => (arg args "sfr").map (fun x => .delooze14 x "[CII]" none true none)
  | .uzgilFir => (arg args "sfr").map (fun x => .uzgil14 firUnit x 1 "[CII]" true (4 / 10))
  | .spinoglioFir => (arg args "sfr").map (fun x => .spinoglio12 firUnit x 1 "[CII]" true (4 / 10))
  | .schaererCii => (arg args "sfr").map (fun x => .schaerer20 x none true (4 / 10))
  | .yangCii =>
    match arg args "mass", arg args "redshift" with
    | some m, some z => some (.yang22 E.yang m z "CII" true true none)
    | _, _ => none
  | .padmanabhanCii =>
    match arg args "mass", arg args "redshift" with
    | some m, some z =>
      some (.padmanabhan19 m z (239 / 10 ^ 7) (49 / 100) (419 * 10 ^ 9) (179 / 100) false none)
    | _, _ => none
  | .zhaoNii => (arg args "sfr").map (fun x => .zhao13 x 1 true (4 / 10))
  | .behrooziSfr =>
    match arg args "redshift", arg args "mass" with
    | some z, some m => some (.behroozi E.setUp E.sfrTable z m true (3 / 10))
    | _, _ => none
  | .behrooziMass =>
    match arg args "redshift", arg args "mass" with
    | some z, some m => some (.behroozi E.setUp E.massTable z m true (3 / 10))
    | _, _ => none

/-- The exceptions of the functions; `UnboundLocalError` is shown as `attributeError` (the model of `Handler` has no
own kind for it). -/
def err : Gal.Err → Handler.Err
  | .valueError => .valueError
  | .typeError => .typeError
  | .indexError => .indexError
  | .unboundLocal => .attributeError

/-- `prop_function`, `galprops_builtin.py:6-69`.  An exception object that is returned has no `dtype`:
`_handlers.py:326` raises for it. -/
def func (E : Env K) (R : Rng K G) (w : World G) (p : Which) (args : PyDict Name (Handler.Arg K))
    (_kw : PyDict Name K) : Except Handler.Err (List (Handler.Arr K)) :=
  match call E args p with
  | none => .error .valueError
  | some c =>
    match (c.run E.fn R w).1 with
    | .error e => .error (err e)
    | .ok (.excObject _) => .error .attributeError
    | .ok (.val a) => .ok [⟨false, a.list.map some⟩]

/-- The ready-made property, `galprops_builtin.py:6-75`. -/
def prop (E : Env K) (R : Rng K G) (w : World G) (p : Which) : Except Handler.Err (MultiProp K) :=
  Handler.mkMultiProp p.names (func E R w p) p.kwargs false false [p.unit] [0]

end

end Verif.Ready
