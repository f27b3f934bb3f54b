import Verif.Base.XR
import Verif.Base.Py
import Verif.Base.Units
import Verif.Model.Models
import Verif.Spec.Models
import Verif.Proof.XR
import Verif.Proof.Models
import Verif.Model.Trapz
import Verif.Proof.Trapz
import Verif.Props.C22_C24_Models
import Verif.Props.C29_C30_Trapz
import Verif.Model.Memo
import Verif.Spec.Memo
import Verif.Model.ICFlux
import Verif.Proof.Memo
import Verif.Proof.ICFlux
import Verif.Props.C01_C04_Memo
import Verif.Props.C05_C06_ICSeeds
import Verif.Model.Validator
import Verif.Model.Edges
import Verif.Proof.Edges
import Verif.Spec.Validator
import Verif.Props.C27_C28_Validator
import Verif.Props.C31_C32_Edges
import Verif.Model.Sed
import Verif.Model.DataTable
import Verif.Props.C33_Sed
import Verif.Spec.DataTable
import Verif.Proof.DataTable
import Verif.Proof.DataTable2
import Verif.Proof.DataTable3
import Verif.Props.C34_C38_DataTable
import Verif.Proof.LnProb
import Verif.Props.C40_C43_LnProb
import Verif.Props.C46_C47_NelderMead
import Verif.Props.C44_C45_Guess
import Verif.Props.C48_Sampler
import Verif.Props.C56_Interactive
import Verif.Proof.Results
import Verif.Props.C49_C52_Results
import Verif.Proof.SaveRun
import Verif.Props.C53_C55_SaveRun
import Verif.Model.Const
import Verif.Model.Electron
import Verif.Model.ProtonGrid
import Verif.Spec.Electron
import Verif.Proof.Electron
import Verif.Proof.Examples
import Verif.Proof.SetEnergy
import Verif.Props.C09_C11_Energy
import Verif.Model.Synchrotron
import Verif.Proof.Synchrotron
import Verif.Props.C07_Flux
import Verif.Props.C14_Synchrotron
import Verif.Model.ICSeed
import Verif.Props.C16_Seeds
import Verif.Model.ICKernel
import Verif.Proof.ICKernel
import Verif.Spec.ICKernel
import Verif.Proof.IC
import Verif.Props.C15_ICKernel
import Verif.Model.Brems
import Verif.Proof.Brems
import Verif.Props.C17_C18_Brems
import Verif.Model.Pion
import Verif.Spec.Pion
import Verif.Proof.PionState
import Verif.Proof.Pion
import Verif.Model.PionLUT
import Verif.Props.C21_LUT
import Verif.Props.C19_C20_Pion
import Verif.Model.Kelner
import Verif.Proof.Kelner
import Verif.Props.C13_Kelner
import Verif.Props.C13_NoTail
import Verif.Spec.Spline
import Verif.Model.TableModel
import Verif.Proof.TableModel
import Verif.Props.C25_Table
import Verif.Props.C26_Ebl
import Verif.Model.EstimateB
import Verif.Props.C39_EstimateB
import Verif.Model.ICModel
import Verif.Model.Sherpa
import Verif.Props.C57_Sherpa
import Verif.Model.GetSampler
import Verif.Props.C63_C65_GetSampler
import Verif.Model.Blob
import Verif.Props.C66_C69_Blob
import Verif.Props.C70_SyncFormula
import Verif.Props.C71_ICFormula
import Verif.Props.C71_Constants
import Verif.Props.C72_BremsFormula
import Verif.Props.C72_Jump
import Verif.Spec.Kafexhiu
import Verif.Props.C73_PionFormula
import Verif.Spec.Kelner
import Verif.Props.C74_KelnerFormula
import Verif.Props.C75_Thomson
import Verif.Props.C76_PionBump
import Verif.Model.Residuals
import Verif.Props.C77_Residuals
import Verif.Model.ChainSummary
import Verif.Props.C78_ChainSummary
import Verif.Props.C79_PlotOptions
import Verif.Props.C80_PlotData
import Verif.Props.Tight1
import Verif.Props.C71_Arguments
import Verif.Props.Tight2
import Verif.Model.LookupTable
import Verif.Props.C81_LookupTable
import Verif.Props.C82_EnergyConservation
import Verif.Proof.TrapzBounds
import Verif.Proof.GridLimit
import Verif.Props.C83_PionKernel
import Verif.Props.C83_Convergence
import Verif.Props.C84_C85_Order
import Verif.Model.Diagnostics
import Verif.Props.C86_Diagnostics
import Verif.Model.ResultsMeta
import Verif.Props.C87_ResultsMeta
import Verif.Model.PlotFit
import Verif.Props.C88_PlotFit
import Verif.Model.Curves
import Verif.Props.C89_Curves
import Verif.Model.Overlay
import Verif.Props.C90_Overlay
import Verif.Model.Distribution
import Verif.Props.C91_Distribution
import Verif.Proof.Accuracy
import Verif.Props.C92_Accuracy
import Verif.Props.C83_Fields
import Verif.Props.C83_Arrays
import Verif.Props.C93_Brems
import Verif.Props.C93_Negative
import Verif.Model.EneArg
import Verif.Props.C94_EneArg
import Verif.Model.FitterView
import Verif.Props.C95_FitterView
import Verif.Props.Tight3
import Verif.Props.C96_Limits
import Verif.Props.C96_Protons
import Verif.Spec.Same
import Verif.Props.C97_Units
import Verif.Props.C98_Scaling
import Verif.Model.Objects
import Verif.Props.C99_Objects
import Verif.Model.Construct
import Verif.Props.C100_Construct
import Verif.Spec.SameTable
import Verif.Props.C101_FitUnits
import Verif.Model.SSC
import Verif.Props.C102_SSC
import Verif.Props.C103_SyncShape
import Verif.Props.C104_SyncPower
import Verif.Props.C105_ICPower
import Verif.Props.C75_Spectrum
import Verif.Props.C106_EstimateB
import Verif.Props.C107_Tables
import Verif.Props.C108_SyncAccuracy
import Verif.Props.C109_Normalisation
import Verif.Props.C110_PlotInput
import Verif.Props.C110_Bins
import Verif.Props.C111_RunArgs
import Verif.Model.ChainPlot
import Verif.Props.C112_ChainPlot
import Verif.Props.C113_NormFit
import Verif.Model.SherpaPars
import Verif.Props.C114_SherpaPars
import Verif.Model.Corner
import Verif.Props.C115_Corner
import Verif.Props.C116_ICIndex
import Verif.Props.C117_BremsLoss
import Verif.Props.C117_Total
import Verif.Proof.KelnerFraction
import Verif.Props.C118_KelnerFraction
import Verif.Props.C118_KelnerPower
import Verif.Model.Progress
import Verif.Props.C119_Progress
import Verif.Props.C120_Nuclear
import Verif.Props.C121_SyncHardness
import Verif.Props.C122_Ranges
import Verif.Props.C123_Beam
import Verif.Props.C124_Number
import Verif.Props.C125_Descending
import Verif.Props.C126_TableLimit
import Verif.Model.SeedText
import Verif.Props.C127_SeedUpdate
import Verif.Props.C128_LinePower
import Verif.Props.C128_Field
import Verif.Props.C129_Shape
import Verif.Props.C130_Distance
import Verif.Props.C131_Prior
import Verif.Props.C132_Rounding
import Verif.Props.C132_PowerLaws
import Verif.Props.C133_Stability
import Verif.Props.C134_Recipe
import Verif.Props.C135_Fit
import Verif.Props.C136_ICFit
import Verif.Props.C137_Crab
import Verif.Props.C138_FunctionalFit
