/- Generated by tools/gen_mechanisms.py. Do not edit. -/
import Verif.Model.Mechanism
import Verif.Mech.Drm19Rates
import Verif.Mech.Drm19PresMod
import Verif.Mech.Drm19Spec
import Verif.Mech.Drm19Thermo
import Verif.Mech.Drm19Data
import Verif.Mech.Drm19Nasa
import Verif.Mech.Drm19Laws
import Verif.Mech.Gri30Rates
import Verif.Mech.Gri30PresMod
import Verif.Mech.Gri30Spec
import Verif.Mech.Gri30Thermo
import Verif.Mech.Gri30Data
import Verif.Mech.Gri30Nasa
import Verif.Mech.Gri30Laws
import Verif.Mech.YaoRates
import Verif.Mech.YaoPresMod
import Verif.Mech.YaoSpec
import Verif.Mech.YaoThermo
import Verif.Mech.YaoData
import Verif.Mech.YaoNasa
import Verif.Mech.YaoLaws
set_option autoImplicit false

namespace DLB.Mech

/-- utilities/mechanisms/drm19/lib/src -/
def drm19 : Mech where
  nsp := Drm19.nsp
  nFwd := Drm19.nFwd
  nRev := Drm19.nRev
  nPresMod := Drm19.nPresMod
  rateStart := Drm19.rateStart
  rateBlocks := Drm19.rateBlocks
  presModStart := Drm19.presModStart
  presModBlocks := Drm19.presModBlocks
  specStart := Drm19.specStart
  specBlocks := Drm19.specBlocks
  specRest := Drm19.specRest
  evalConc := Drm19.evalConc
  evalH := Drm19.evalH
  evalCp := Drm19.evalCp
  dydtCpAvg := Drm19.dydtCpAvg
  dydtRest := Drm19.dydtRest
  mole2mass := Drm19.mole2mass
  mass2mole := Drm19.mass2mole
  getDensity := Drm19.getDensity
  getDensityResult := Drm19.getDensityResult
  applyMask := Drm19.applyMask
  applyReverseMask := Drm19.applyReverseMask

/-- utilities/mechanisms/gri30/lib/src -/
def gri30 : Mech where
  nsp := Gri30.nsp
  nFwd := Gri30.nFwd
  nRev := Gri30.nRev
  nPresMod := Gri30.nPresMod
  rateStart := Gri30.rateStart
  rateBlocks := Gri30.rateBlocks
  presModStart := Gri30.presModStart
  presModBlocks := Gri30.presModBlocks
  specStart := Gri30.specStart
  specBlocks := Gri30.specBlocks
  specRest := Gri30.specRest
  evalConc := Gri30.evalConc
  evalH := Gri30.evalH
  evalCp := Gri30.evalCp
  dydtCpAvg := Gri30.dydtCpAvg
  dydtRest := Gri30.dydtRest
  mole2mass := Gri30.mole2mass
  mass2mole := Gri30.mass2mole
  getDensity := Gri30.getDensity
  getDensityResult := Gri30.getDensityResult
  applyMask := Gri30.applyMask
  applyReverseMask := Gri30.applyReverseMask

/-- utilities/mechanisms/yao/lib/src -/
def yao : Mech where
  nsp := Yao.nsp
  nFwd := Yao.nFwd
  nRev := Yao.nRev
  nPresMod := Yao.nPresMod
  rateStart := Yao.rateStart
  rateBlocks := Yao.rateBlocks
  presModStart := Yao.presModStart
  presModBlocks := Yao.presModBlocks
  specStart := Yao.specStart
  specBlocks := Yao.specBlocks
  specRest := Yao.specRest
  evalConc := Yao.evalConc
  evalH := Yao.evalH
  evalCp := Yao.evalCp
  dydtCpAvg := Yao.dydtCpAvg
  dydtRest := Yao.dydtRest
  mole2mass := Yao.mole2mass
  mass2mole := Yao.mass2mole
  getDensity := Yao.getDensity
  getDensityResult := Yao.getDensityResult
  applyMask := Yao.applyMask
  applyReverseMask := Yao.applyReverseMask

end DLB.Mech
