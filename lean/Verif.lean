import Verif.Api
import Verif.Compat.Basic
import Verif.Compat.CHExact
import Verif.Compat.CHGDDB
import Verif.Compat.Cluster
import Verif.Compat.PS
import Verif.Compat.SIL
import Verif.Compat.SILExact
import Verif.Compat.Spec
import Verif.Compat.SpecCH
import Verif.Compat.SpecSIL
import Verif.Compat.V0
import Verif.Compat.XB
import Verif.Gen.All
import Verif.Gen.Arith
import Verif.Gen.Atomic
import Verif.Gen.B64
import Verif.Gen.B64Batch
import Verif.Gen.B64Cov
import Verif.Gen.B64Dot
import Verif.Gen.B64Exp
import Verif.Gen.B64Flag
import Verif.Gen.B64Full
import Verif.Gen.B64Linalg
import Verif.Gen.B64Moderate
import Verif.Gen.B64Plain
import Verif.Gen.B64Range
import Verif.Gen.B64Reflect
import Verif.Gen.B64Scale
import Verif.Gen.B64Sign
import Verif.Gen.B64Specials
import Verif.Gen.B64Std
import Verif.Gen.Batch
import Verif.Gen.BatchRef
import Verif.Gen.BatchRef2
import Verif.Gen.CH
import Verif.Gen.CSIL
import Verif.Gen.Cents
import Verif.Gen.Common
import Verif.Gen.DB
import Verif.Gen.GD43
import Verif.Gen.GD53
import Verif.Gen.Inc
import Verif.Gen.Link
import Verif.Gen.OverlapReal
import Verif.Gen.PS
import Verif.Gen.Perturb
import Verif.Gen.R53
import Verif.Gen.RCIP
import Verif.Gen.RefCH
import Verif.Gen.RefCSIL
import Verif.Gen.RefDB
import Verif.Gen.RefPS
import Verif.Gen.RefRCIP
import Verif.Gen.RefXB
import Verif.Gen.Reflect
import Verif.Gen.Rounding
import Verif.Gen.RoundingBatch
import Verif.Gen.RoundingCP
import Verif.Gen.RoundingCov
import Verif.Gen.RoundingGD
import Verif.Gen.RoundingIndex
import Verif.Gen.RoundingLink
import Verif.Gen.RoundingMin
import Verif.Gen.RoundingOverlap
import Verif.Gen.RoundingPS
import Verif.Gen.RoundingQuot
import Verif.Gen.RoundingRCIP
import Verif.Gen.RoundingReal
import Verif.Gen.RoundingSil
import Verif.Gen.RoundingSilInc
import Verif.Gen.RoundingSum
import Verif.Gen.RoundingWB
import Verif.Gen.Sim
import Verif.Gen.Single
import Verif.Gen.SingleStd
import Verif.Gen.Size
import Verif.Gen.SmallRCIP
import Verif.Gen.Spec
import Verif.Gen.SpecBatch
import Verif.Gen.Specials
import Verif.Gen.Typed
import Verif.Gen.TypedB64
import Verif.Gen.TypedCov
import Verif.Gen.TypedRCIP
import Verif.Gen.TypedRef
import Verif.Gen.Uniform
import Verif.Gen.Units
import Verif.Gen.WB
import Verif.Gen.XB
import Verif.Linalg
import Verif.Model.Alias
import Verif.Model.All
import Verif.Model.AnyLabel
import Verif.Model.Base
import Verif.Model.CH
import Verif.Model.CSIL
import Verif.Model.Common
import Verif.Model.DB
import Verif.Model.GD43
import Verif.Model.GD53
import Verif.Model.PS
import Verif.Model.RCIP
import Verif.Model.WB
import Verif.Model.XB
import Verif.Num
import Verif.Old.CH
import Verif.Old.Cluster
import Verif.Old.DB
import Verif.Old.Funcs
import Verif.Old.GD
import Verif.Old.Interp
import Verif.Old.Lang
import Verif.Old.Matrix
import Verif.Old.PS
import Verif.Old.Run
import Verif.Old.SIL
import Verif.Old.Sim
import Verif.Old.Simp
import Verif.Old.Text
import Verif.Old.XB
import Verif.Proofs.AfterBatch
import Verif.Proofs.Alias
import Verif.Proofs.Atomic
import Verif.Proofs.Batch
import Verif.Proofs.BatchCSIL
import Verif.Proofs.BatchModules
import Verif.Proofs.BatchNaN
import Verif.Proofs.BatchRCIP
import Verif.Proofs.BatchShort
import Verif.Proofs.BatchTables
import Verif.Proofs.Bounds
import Verif.Proofs.Broadcast
import Verif.Proofs.CH
import Verif.Proofs.CSIL
import Verif.Proofs.DB
import Verif.Proofs.Degenerate
import Verif.Proofs.Enc
import Verif.Proofs.Extrema
import Verif.Proofs.GD43
import Verif.Proofs.GD53
import Verif.Proofs.IncCommon
import Verif.Proofs.Keeps
import Verif.Proofs.Keys
import Verif.Proofs.Mat
import Verif.Proofs.NaN
import Verif.Proofs.NaN1
import Verif.Proofs.NaN2
import Verif.Proofs.NaN3
import Verif.Proofs.NaN4
import Verif.Proofs.NaNBatch
import Verif.Proofs.NaNBlind
import Verif.Proofs.NaNEval
import Verif.Proofs.NaNExact
import Verif.Proofs.NaNFinal
import Verif.Proofs.NaNModel
import Verif.Proofs.NaNRun
import Verif.Proofs.PS
import Verif.Proofs.Passes
import Verif.Proofs.RCIP
import Verif.Proofs.Run
import Verif.Proofs.Sim
import Verif.Proofs.Similar
import Verif.Proofs.SimilarCSIL
import Verif.Proofs.SpecStep
import Verif.Proofs.Vary
import Verif.Proofs.WB
import Verif.Proofs.WrongLength
import Verif.Proofs.XB
import Verif.Props.Accuracy
import Verif.Props.Alias
import Verif.Props.AnyArith
import Verif.Props.AnyArithBatch
import Verif.Props.AnyArithExact
import Verif.Props.AnyLabels
import Verif.Props.AnyProtocol
import Verif.Props.Batch
import Verif.Props.BatchAccuracy
import Verif.Props.BatchState
import Verif.Props.Binary64
import Verif.Props.Bounds
import Verif.Props.Compat1
import Verif.Props.Compat2
import Verif.Props.CompatCH
import Verif.Props.CompatSIL
import Verif.Props.CovAccuracy
import Verif.Props.Degenerate64
import Verif.Props.Demo
import Verif.Props.DunnAccuracy
import Verif.Props.EndToEnd
import Verif.Props.EndToEndCIP
import Verif.Props.Features
import Verif.Props.IndexAccuracy
import Verif.Props.IndexAccuracy64
import Verif.Props.Infinite64
import Verif.Props.Integers
import Verif.Props.Invariance
import Verif.Props.Labels
import Verif.Props.Memory
import Verif.Props.Mirror64
import Verif.Props.NaN
import Verif.Props.NaNExact
import Verif.Props.Negative64
import Verif.Props.OldSession
import Verif.Props.OldText
import Verif.Props.OldText2
import Verif.Props.Overflow
import Verif.Props.PSAccuracy
import Verif.Props.Passes
import Verif.Props.Protocol
import Verif.Props.RCIPAccuracy
import Verif.Props.RCIPCorners
import Verif.Props.Ranges
import Verif.Props.Scale64
import Verif.Props.Session
import Verif.Props.Sign64
import Verif.Props.SilAccuracy
import Verif.Props.SilIncAccuracy
import Verif.Props.Single32
import Verif.Props.SourceBatch
import Verif.Props.SourceText
import Verif.Props.State
import Verif.Props.Switch
import Verif.Props.Symmetry64
import Verif.Props.Values
import Verif.Props.WrongLength
import Verif.Py
import Verif.Source.Batch
import Verif.Source.CH
import Verif.Source.CHBatch
import Verif.Source.CSIL
import Verif.Source.CSILBatch
import Verif.Source.DB
import Verif.Source.DBBatch
import Verif.Source.Feed
import Verif.Source.Fold
import Verif.Source.GD43
import Verif.Source.GD43Batch
import Verif.Source.GD53
import Verif.Source.GD53Batch
import Verif.Source.GetCvi
import Verif.Source.Init
import Verif.Source.Instances
import Verif.Source.Interp
import Verif.Source.Lang
import Verif.Source.Laws
import Verif.Source.Loop
import Verif.Source.PS
import Verif.Source.PSBatch
import Verif.Source.RCIP
import Verif.Source.RCIPBatch
import Verif.Source.Run
import Verif.Source.Session
import Verif.Source.Simp
import Verif.Source.Text
import Verif.Source.WB
import Verif.Source.WBBatch
import Verif.Source.XB
import Verif.Source.XBBatch
import Verif.Spec
import Verif.SpecCSIL
import Verif.SpecDegenerate
import Verif.SpecMissing
