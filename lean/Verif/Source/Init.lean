import Verif.Source.GetCvi

set_option linter.unusedSectionVars false
set_option linter.constructorNameAsVariable false

/-! # The text of `__init__` -/

namespace Verif.Source

variable {F : Type} [Arith F] [Laws F] (K : Lits F)

/-- Memory in which an object of class `I` is constructed: every attribute that `CVI` or class `I` has may hold anything, here what it
is in `s`; the attributes of the other classes, which `Core` has as well, hold their initial values. -/
def blank (I : Index) (s : Core F) : Core F :=
  let b : Core F := { (Gen.init : Core F) with
    dim := s.dim, nSamples := s.nSamples, n := s.n, v := s.v, CP := s.CP, G := s.G, nClusters := s.nClusters,
    criterion := s.criterion, isSetup := s.isSetup }
  match I with
  | .CH => { b with mu := s.mu, SEP := s.SEP, BGSS := s.BGSS, WGSS := s.WGSS }
  | .WB => { b with mu := s.mu, SEP := s.SEP, BGSS := s.BGSS, WGSS := s.WGSS }
  | .XB => { b with mu := s.mu, SEP := s.SEP, D := s.D, WGSS := s.WGSS }
  | .DB => { b with mu := s.mu, R := s.R, D := s.D, Sv := s.Sv }
  | .GD43 => { b with mu := s.mu, D := s.D, inter := s.inter, intra := s.intra }
  | .GD53 => { b with mu := s.mu, D := s.D, inter := s.inter, intra := s.intra }
  | .PS => { b with D := s.D, vBar := s.vBar, betaT := s.betaT, PSi := s.PSi }
  | .rCIP => { b with D := s.D, sigma := s.sigma, sigmaShape := s.sigmaShape, deltaTerm := s.deltaTerm, constant := s.constant }
  | .cSIL => { b with Sm := s.Sm, silCoefs := s.silCoefs }

attribute [local congr] andThen_head bind_head ebind_head mapState_head cond_head

theorem super_init (I : Index) (o : Obj F) :
    superCall K I .super__init__ [] o = .ok .none ⟨[], { o.core with
      dim := 0, nSamples := 0, n := ⟨false, []⟩, v := Arr2.zeros 0 0, CP := some ⟨false, []⟩, G := some (Arr2.zeros 0 0), nClusters := 0,
      criterion := 0, isSetup := false }⟩ := by
  obtain ⟨m, s⟩ := o
  simp -implicitDefEqProofs only [superCall, callMethod, CVI.init, pyrun]

theorem init_eq (I : Index) (m : LabelMap) (s : Core F) :
    runInit K I ⟨m, blank I s⟩ = .ok .none (Gen.mod F I).fresh := by
  cases I
  all_goals
    simp -implicitDefEqProofs only [runInit, cls, callMethod]
    simp -implicitDefEqProofs only [CH.init, WB.init, XB.init, DB.init, GD43.init, GD53.init, PS.init, rCIP.init, cSIL.init]
    simp -implicitDefEqProofs only [pyrun, selfCall, super_init]
    rfl

end Verif.Source
