import Verif.Model.Dict
import Verif.Model.WCxf
import Verif.Model.Options
import Verif.Model.Wilson
import Verif.Spec.WCxf
import Verif.Props.WCxf
import Verif.Props.Registry
import Verif.Spec.Options
import Verif.Props.Options
import Verif.Lemmas.MatchRun
import Verif.Spec.MatchRun
import Verif.Props.MatchRun
import Verif.Props.MatchRunTrace
import Verif.Gen.Registrations
import Verif.Props.BasisIndependence
import Verif.Gen.Symmetrize
import Verif.Model.ArrayProg
import Verif.Lemmas.ArrayReflect
import Verif.Spec.Symmetry
import Verif.Lemmas.Symmetrize
import Verif.Props.Symmetrize
import Verif.Model.EFTUtil
import Verif.Spec.EFTUtil
import Verif.Lemmas.Flatten
import Verif.Props.Flatten
import Verif.Lemmas.Names
import Verif.Props.Names
import Verif.Lemmas.Lagrangian
import Verif.Props.SymmFactors
import Verif.Lemmas.Roundtrip
import Verif.Props.Roundtrip
import Verif.Model.EFTInit
import Verif.Spec.EFTInit
import Verif.Lemmas.EFTInit
import Verif.Props.ClassDetection
import Verif.Model.Tensor
import Verif.Gen.Beta
import Verif.Model.Beta
import Verif.Spec.Flavour
import Verif.Spec.Beta
import Verif.Lemmas.Covariance
import Verif.Lemmas.IndexTypes
import Verif.Lemmas.Einsum
import Verif.Lemmas.Linearity
import Verif.Lemmas.Beta
import Verif.Lemmas.BetaFlavour
import Verif.Props.BetaLinear
import Verif.Props.BetaFlavour
import Verif.Model.Rotation
import Verif.Gen.Rotation
import Verif.Model.FlavorRotation
import Verif.Spec.Rotation
import Verif.Lemmas.Rotation
import Verif.Props.Rotation
import Verif.Model.Qcd
import Verif.Spec.Qcd
import Verif.Props.Qcd
import Verif.Model.WetRun
import Verif.Spec.WetRun
import Verif.Lemmas.WetRun
import Verif.Props.WetRun
import Verif.Props.WetRunExample
import Verif.Props.WetEvolution
import Verif.Props.WetEvolutionExample
import Verif.Model.SmPar
import Verif.Spec.SmPar
import Verif.Lemmas.SmPar
import Verif.Props.SmPar
import Verif.Props.SmParEw
import Verif.Model.SmeftRun
import Verif.Spec.SmeftRun
import Verif.Lemmas.SmeftRun
import Verif.Props.SmeftRun
import Verif.Model.Threshold
import Verif.Props.Threshold
import Verif.Lemmas.Stages
import Verif.Lemmas.Entries
import Verif.Gen.Dsix
import Verif.Model.Dsix
import Verif.Spec.Dsix
import Verif.Lemmas.Dsix
import Verif.Props.Dsix
import Verif.Props.DsixLha
import Verif.Model.Eos
import Verif.Spec.Eos
import Verif.Lemmas.Eos
import Verif.Props.Eos
import Verif.Model.WetJms
import Verif.Spec.WetJms
import Verif.Lemmas.WetJms
import Verif.Props.WetJms
import Verif.Lemmas.TermNF
import Verif.Lemmas.EvalQ
import Verif.Spec.BetaSym
import Verif.Lemmas.BetaSym
import Verif.Lemmas.BetaSymCheck
import Verif.Props.BetaSym
import Verif.Gen.MatchTree
import Verif.Model.Match
import Verif.Spec.Match
import Verif.Lemmas.Match
import Verif.Lemmas.MatchCheck
import Verif.Props.Match
import Verif.Lemmas.MatchFlavour
import Verif.Props.MatchFlavour
import Verif.Props.TreeExchange
import Verif.Props.TreeInputs
import Verif.Spec.CP
import Verif.Lemmas.CP
import Verif.Props.CP
import Verif.Lemmas.Depend
import Verif.Spec.Complete
import Verif.Lemmas.Reverse
import Verif.Props.Reverse
import Verif.Model.Bridge
import Verif.Spec.Smeft
import Verif.Lemmas.Bridge
import Verif.Model.TranslateSmeft
import Verif.Lemmas.WarsawUp
import Verif.Lemmas.WarsawUp2
import Verif.Lemmas.SmeftBasis
import Verif.Props.WarsawUp
import Verif.Model.MatchAll
import Verif.Lemmas.MatchAll
import Verif.Props.MatchAll
import Verif.Gen.WetTables
import Verif.Gen.Adm
import Verif.Model.WetTables
import Verif.Spec.WetOps
import Verif.Gen.WetCert
import Verif.Lemmas.WetCheck
import Verif.Lemmas.WetSecs
import Verif.Lemmas.WetNames
import Verif.Lemmas.WetUnique
import Verif.Lemmas.WetScale
import Verif.Lemmas.WetMat
import Verif.Lemmas.WetSem
import Verif.Lemmas.WetSym
import Verif.Lemmas.WetChk1
import Verif.Lemmas.WetChk2
import Verif.Lemmas.WetChk3
import Verif.Lemmas.WetChk4
import Verif.Lemmas.WetEntry
import Verif.Lemmas.WetCharge
import Verif.Lemmas.WetRate
import Verif.Lemmas.WetCov
import Verif.Lemmas.WetRelabel
import Verif.Lemmas.WetParity
import Verif.Lemmas.WetTotal
import Verif.Lemmas.WetInert
import Verif.Lemmas.WetEntries
import Verif.Props.WetTables
import Verif.Gen.JmsKeys
import Verif.Gen.WetOutBF
import Verif.Gen.WetOutBJ
import Verif.Gen.WetOutFB
import Verif.Gen.WetOutFF
import Verif.Gen.WetOutFJ
import Verif.Gen.WetOutJB
import Verif.Gen.WetOutJF
import Verif.Gen.WetPy
import Verif.Lemmas.PyFast
import Verif.Lemmas.SymNorm
import Verif.Lemmas.SymSubst
import Verif.Lemmas.WetBack
import Verif.Lemmas.WetCheckBF
import Verif.Lemmas.WetCheckJB
import Verif.Lemmas.WetCheckJF
import Verif.Lemmas.WetCheckTri
import Verif.Lemmas.WetCovered
import Verif.Lemmas.WetPairs
import Verif.Lemmas.WetRestores
import Verif.Lemmas.WetRunsBF
import Verif.Lemmas.WetRunsBJ
import Verif.Lemmas.WetRunsFB
import Verif.Lemmas.WetRunsFF
import Verif.Lemmas.WetRunsFJ
import Verif.Lemmas.WetRunsJB
import Verif.Lemmas.WetRunsJF
import Verif.Lemmas.WetValid
import Verif.Model.JmsArrays
import Verif.Model.Py
import Verif.Model.PyStr
import Verif.Model.WetApply
import Verif.Model.WetTranslate
import Verif.Props.WetTranslate
import Verif.Spec.WetRestores
import Verif.Spec.WetTranslate
import Verif.Lemmas.WetCodes
import Verif.Model.SmeftHiggs
import Verif.Spec.SmeftHiggs
import Verif.Lemmas.SmeftHiggs
import Verif.Lemmas.SmeftHiggs2
import Verif.Props.SmeftHiggs
import Verif.Model.FlavorKit
import Verif.Spec.FlavorKit
import Verif.Lemmas.FlavorKit
import Verif.Props.FlavorKit
import Verif.Spec.FormFlavor
import Verif.Lemmas.FormFlavor
import Verif.Props.FormFlavor
import Verif.Model.WetEos
import Verif.Spec.WetEos
import Verif.Gen.WetOutE
import Verif.Lemmas.WetRunsE
import Verif.Lemmas.WetEos
import Verif.Props.WetEos
import Verif.Gen.LoopCoef0
import Verif.Gen.LoopCoef1
import Verif.Gen.LoopCoef2
import Verif.Gen.LoopCoef3
import Verif.Gen.LoopCoef4
import Verif.Gen.LoopCoef5
import Verif.Gen.LoopCoef6
import Verif.Gen.LoopCoef7
import Verif.Gen.LoopProg
import Verif.Gen.LoopCompiled
import Verif.Model.LoopDefs
import Verif.Model.LoopCompile
import Verif.Model.MatchLoop
import Verif.Lemmas.LoopExpand
import Verif.Lemmas.LoopFast
import Verif.Lemmas.LoopSym
import Verif.Lemmas.MatchLoop
import Verif.Lemmas.LoopCharge
import Verif.Props.MatchLoop
import Verif.Props.MatchLoopCP
import Verif.Props.MatchLoopPhase
import Verif.Props.MatchLinear
import Verif.Props.MatchNames
import Verif.Gen.SmeftSimA
import Verif.Gen.SmeftSimB
import Verif.Model.SmeftSimRow
import Verif.Model.SmeftSim
import Verif.Spec.SmeftSim
import Verif.Lemmas.SmeftSimTable
import Verif.Lemmas.SmeftSimRows
import Verif.Lemmas.SmeftSim
import Verif.Props.SmeftSim
import Verif.Spec.WetCP
import Verif.Lemmas.WetFlow
import Verif.Lemmas.WetFlowRun
import Verif.Lemmas.WetCP
import Verif.Lemmas.WetSymRun
import Verif.Props.WetSymRun
import Verif.Model.Cli
import Verif.Spec.Cli
import Verif.Props.Cli
import Verif.Props.WetSymOut
import Verif.Spec.Contact
import Verif.Lemmas.Contact
import Verif.Lemmas.ContactTab
import Verif.Lemmas.ContactTree
import Verif.Props.Contact
import Verif.Model.WarsawMass
import Verif.Props.WarsawMass
import Verif.Model.TranslateInit
import Verif.Props.TranslateInit
import Verif.Model.DefaultBasis
import Verif.Props.DefaultBasis
