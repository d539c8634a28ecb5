import Verif.Lemmas.ChangeOfUnits
import Verif.Lemmas.DataBox
import Verif.Lemmas.Deriv
import Verif.Lemmas.EospacLoad
import Verif.Lemmas.FloatRootFind
import Verif.Lemmas.FloatSum
import Verif.Lemmas.IeeeArith
import Verif.Lemmas.IeeeFinite
import Verif.Lemmas.IeeeKinetic
import Verif.Lemmas.IeeeMono
import Verif.Lemmas.IeeeNear
import Verif.Lemmas.Invert
import Verif.Lemmas.KineticRates
import Verif.Lemmas.KineticSort
import Verif.Lemmas.KineticXfer
import Verif.Lemmas.Mesh
import Verif.Lemmas.MixUtils
import Verif.Lemmas.PTEDriver
import Verif.Lemmas.PTEFull
import Verif.Lemmas.PTEHoare
import Verif.Lemmas.PTEJacobian
import Verif.Lemmas.PTEMerit
import Verif.Lemmas.PTEScratch
import Verif.Lemmas.PTESolvers
import Verif.Lemmas.Robust
import Verif.Lemmas.RootFind
import Verif.Lemmas.RootFindRate
import Verif.Lemmas.Rounding
import Verif.Lemmas.Serialize
import Verif.Lemmas.SerializeBulk
import Verif.Lemmas.Sp5
import Verif.Model.Bindings
import Verif.Model.BindingsArrays
import Verif.Model.CInterface
import Verif.Model.CInterfaceCall
import Verif.Model.CheckParams
import Verif.Model.Construct
import Verif.Model.DebugChecks
import Verif.Model.Eos.Davis
import Verif.Model.Eos.Dust
import Verif.Model.Eos.Eospac
import Verif.Model.Eos.Gases
import Verif.Model.Eos.Gruneisen
import Verif.Model.Eos.Helmholtz
import Verif.Model.Eos.HelmholtzFile
import Verif.Model.Eos.HelmholtzQuery
import Verif.Model.Eos.MieGruneisen
import Verif.Model.Eos.Misc
import Verif.Model.Eos.Vinet
import Verif.Model.EosBase
import Verif.Model.EosIface
import Verif.Model.EospacSerialize
import Verif.Model.Examples
import Verif.Model.FloatRootFind
import Verif.Model.FloatSum
import Verif.Model.FortranAbi
import Verif.Model.GenericIndexer
import Verif.Model.IeeeCarnahan
import Verif.Model.IeeeElectrons
import Verif.Model.IeeeIdeal
import Verif.Model.IeeeJwl
import Verif.Model.IeeeKinetic
import Verif.Model.IeeeModifiers
import Verif.Model.IeeeMoreModifiers
import Verif.Model.IeeePTE
import Verif.Model.IeeeRobust
import Verif.Model.IeeeRootFind
import Verif.Model.IeeeSap
import Verif.Model.IeeeStiff
import Verif.Model.Kinetic
import Verif.Model.Loops
import Verif.Model.Math.FastLog
import Verif.Model.Math.LogBuild
import Verif.Model.Messages
import Verif.Model.MixUtils
import Verif.Model.Modifiers
import Verif.Model.Ownership
import Verif.Model.PAlpha
import Verif.Model.PTEAccess
import Verif.Model.PTECheck
import Verif.Model.PTEDerivs
import Verif.Model.PTEDriver
import Verif.Model.PTEFull
import Verif.Model.PTEInit
import Verif.Model.PTESolvers
import Verif.Model.Robust
import Verif.Model.RootCounts
import Verif.Model.RootFind
import Verif.Model.Scratch
import Verif.Model.Serialize
import Verif.Model.Table.Bounds
import Verif.Model.Table.DataBox
import Verif.Model.Table.Hermite
import Verif.Model.Table.IdealScript
import Verif.Model.Table.Mesh
import Verif.Model.Table.SpinerRhoSie
import Verif.Model.Table.SpinerRhoSieCalls
import Verif.Model.Table.SpinerRhoSieLoad
import Verif.Model.Table.SpinerRhoT
import Verif.Model.Table.SpinerRhoTCalls
import Verif.Model.Table.SpinerRhoTLoad
import Verif.Model.Table.StellarCollapse
import Verif.Model.Table.StellarCollapseCalls
import Verif.Model.Table.Transforms
import Verif.Model.Tools.EospacLoad
import Verif.Model.Tools.Sesame2Spiner
import Verif.Model.Tools.Sp5Eos
import Verif.Model.Tools.Sp5File
import Verif.Model.TypeLists
import Verif.Model.Variant
import Verif.Model.VariantCall
import Verif.Props.Bindings.Fortran
import Verif.Props.Bindings.FortranAbi
import Verif.Props.Bindings.Python
import Verif.Props.Bindings.PythonArrays
import Verif.Props.CInterface
import Verif.Props.CInterfaceCall
import Verif.Props.CSchedule
import Verif.Props.CheckParams
import Verif.Props.Construct
import Verif.Props.DebugChecks
import Verif.Props.Dust
import Verif.Props.Eos.Carnahan
import Verif.Props.Eos.DavisProd
import Verif.Props.Eos.DavisReac
import Verif.Props.Eos.Eospac
import Verif.Props.Eos.EospacArrays
import Verif.Props.Eos.EospacFill
import Verif.Props.Eos.EospacThermo
import Verif.Props.Eos.EospacThreads
import Verif.Props.Eos.EospacVec
import Verif.Props.Eos.EospacVecFill
import Verif.Props.Eos.Gruneisen
import Verif.Props.Eos.GruneisenCubic
import Verif.Props.Eos.GruneisenDouble
import Verif.Props.Eos.GruneisenRho
import Verif.Props.Eos.Helmholtz
import Verif.Props.Eos.HelmholtzEos
import Verif.Props.Eos.HelmholtzFile
import Verif.Props.Eos.HelmholtzInvert
import Verif.Props.Eos.HelmholtzMore
import Verif.Props.Eos.HelmholtzOptions
import Verif.Props.Eos.HelmholtzQuery
import Verif.Props.Eos.Ideal
import Verif.Props.Eos.Inversions
import Verif.Props.Eos.Jwl
import Verif.Props.Eos.MGUsup
import Verif.Props.Eos.MGUsupHug
import Verif.Props.Eos.Misc
import Verif.Props.Eos.PowerMG
import Verif.Props.Eos.PowerMGHug
import Verif.Props.Eos.RefExpansion
import Verif.Props.Eos.Stiff
import Verif.Props.Eos.Vinet
import Verif.Props.EosBase
import Verif.Props.EosBaseRate
import Verif.Props.EospacSerialize
import Verif.Props.Examples
import Verif.Props.Fill
import Verif.Props.FloatRootFind
import Verif.Props.FloatStop
import Verif.Props.FloatSum
import Verif.Props.GenericIndexer
import Verif.Props.Hermite
import Verif.Props.IeeeBisectSpacing
import Verif.Props.IeeeCarnahan
import Verif.Props.IeeeCarnahanLaws
import Verif.Props.IeeeElectrons
import Verif.Props.IeeeIdeal
import Verif.Props.IeeeJwl
import Verif.Props.IeeeKinetic
import Verif.Props.IeeeKineticRates
import Verif.Props.IeeeModifiers
import Verif.Props.IeeeMoreModifiers
import Verif.Props.IeeeNoble
import Verif.Props.IeeePTE
import Verif.Props.IeeePTEDriver
import Verif.Props.IeeePTEExact
import Verif.Props.IeeeParabola
import Verif.Props.IeeeRobust
import Verif.Props.IeeeRootFind
import Verif.Props.IeeeRootFindExact
import Verif.Props.IeeeSap
import Verif.Props.IeeeStiff
import Verif.Props.Kinetic
import Verif.Props.KineticAmounts
import Verif.Props.Math.FastLog
import Verif.Props.Math.FastLogAliased
import Verif.Props.Math.FastLogRound
import Verif.Props.Math.LogBuild
import Verif.Props.Messages
import Verif.Props.MixUtils
import Verif.Props.ModifierAtoms
import Verif.Props.Modifiers
import Verif.Props.Ownership
import Verif.Props.PAlpha
import Verif.Props.PTEAccess
import Verif.Props.PTEDriver
import Verif.Props.PTEFullExamples
import Verif.Props.PTEFullFixed
import Verif.Props.PTEFullFixedP
import Verif.Props.PTEFullPT
import Verif.Props.PTEFullRhoT
import Verif.Props.PTEFullRhoU
import Verif.Props.PTEFullRhoUViol
import Verif.Props.PTEFullViol
import Verif.Props.PTEInit
import Verif.Props.PTEJacobian
import Verif.Props.PTEMerit
import Verif.Props.PTEMeritViol
import Verif.Props.PTEScratch
import Verif.Props.PTEScratchRhoU
import Verif.Props.PTEScratchViol
import Verif.Props.PTESolvers
import Verif.Props.PTETrial
import Verif.Props.Ramp
import Verif.Props.Robust
import Verif.Props.RootCounts
import Verif.Props.RootFind
import Verif.Props.RootFindBracket
import Verif.Props.RootFindRate
import Verif.Props.Scratch
import Verif.Props.Serialize
import Verif.Props.SetBracket
import Verif.Props.Table.Bounds
import Verif.Props.Table.Cached
import Verif.Props.Table.Converge
import Verif.Props.Table.IdealScript
import Verif.Props.Table.InversionRate
import Verif.Props.Table.SpinerRhoSie
import Verif.Props.Table.SpinerRhoSieCalls
import Verif.Props.Table.SpinerRhoT
import Verif.Props.Table.SpinerRhoTCalls
import Verif.Props.Table.SpinerRhoTLoad
import Verif.Props.Table.StellarCollapse
import Verif.Props.Table.StellarCollapseCalls
import Verif.Props.Table.StellarCollapseLoad
import Verif.Props.Table.StellarCollapseMore
import Verif.Props.Table.Transforms
import Verif.Props.Tools.EospacLoad
import Verif.Props.Tools.MatBounds
import Verif.Props.Tools.MatBoundsMore
import Verif.Props.Tools.ParserMore
import Verif.Props.Tools.Sesame2Spiner
import Verif.Props.Tools.Sp5Eos
import Verif.Props.Tools.Sp5EosE
import Verif.Props.Tools.Sp5File
import Verif.Props.TypeLists
import Verif.Props.Variant
import Verif.Props.VariantCall
import Verif.Props.Vector
import Verif.Props.ZSplit
import Verif.Spec.Bindings
import Verif.Spec.BindingsArrays
import Verif.Spec.ChangeOfUnits
import Verif.Spec.CheckParams
import Verif.Spec.Construct
import Verif.Spec.Damped
import Verif.Spec.Elementwise
import Verif.Spec.Eospac
import Verif.Spec.EospacLoad
import Verif.Spec.EospacSerialize
import Verif.Spec.Expansion
import Verif.Spec.Fill
import Verif.Spec.GenericIndexer
import Verif.Spec.HelmTable
import Verif.Spec.HelmholtzQuery
import Verif.Spec.Ieee
import Verif.Spec.IeeeFinite
import Verif.Spec.IeeeIdeal
import Verif.Spec.IeeeKinetic
import Verif.Spec.Inversions
import Verif.Spec.Jets
import Verif.Spec.Ordering
import Verif.Spec.PTE
import Verif.Spec.PTEAccess
import Verif.Spec.PTEFull
import Verif.Spec.PTEMerit
import Verif.Spec.PTEScratch
import Verif.Spec.Pairs
import Verif.Spec.Rising
import Verif.Spec.RootCounts
import Verif.Spec.Rounding
import Verif.Spec.Serialize
import Verif.Spec.Sesame2Spiner
import Verif.Spec.Sp5
import Verif.Spec.SpinerRhoSieCalls
import Verif.Spec.SpinerRhoTCalls
import Verif.Spec.StellarCollapseCalls
import Verif.Spec.ThermoLaws
import Verif.Spec.VariantCall
import Verif.Tactics
