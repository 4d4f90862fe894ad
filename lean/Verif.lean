import Verif.Model.Alias
import Verif.Model.AliasField
import Verif.Model.AliasGeneric
import Verif.Model.Api
import Verif.Model.Asm
import Verif.Model.AsmCall
import Verif.Model.AsmLeak
import Verif.Model.BaseTable
import Verif.Model.BaseTable25
import Verif.Model.Build
import Verif.Model.Conc
import Verif.Model.Cref
import Verif.Model.CrefApi
import Verif.Model.CrefChecked
import Verif.Model.CrefCoords
import Verif.Model.CrefField
import Verif.Model.CrefLoops
import Verif.Model.CrefMachine
import Verif.Model.CrefPtr
import Verif.Model.CrefScalar
import Verif.Model.CrefSlide
import Verif.Model.CrefTable
import Verif.Model.Curve
import Verif.Model.Debug
import Verif.Model.EdGeneric
import Verif.Model.EdMachine
import Verif.Model.Elligator
import Verif.Model.Field
import Verif.Model.Field25
import Verif.Model.Field25Checked
import Verif.Model.Field51
import Verif.Model.Field51Checked
import Verif.Model.FieldOps
import Verif.Model.Leak
import Verif.Model.Loops
import Verif.Model.Machine
import Verif.Model.Oblivious
import Verif.Model.Oblivious25
import Verif.Model.ObliviousMachine
import Verif.Model.ObliviousSha
import Verif.Model.Recover
import Verif.Model.RecoverWords
import Verif.Model.Scalar
import Verif.Model.ScalarChecked
import Verif.Model.Text
import Verif.Model.Word
import Verif.Model.Words
import Verif.Proofs.Alias
import Verif.Proofs.AliasField
import Verif.Proofs.AliasGeneric
import Verif.Proofs.AliasMachine
import Verif.Proofs.Api
import Verif.Proofs.Asm
import Verif.Proofs.AsmCall
import Verif.Proofs.AsmField
import Verif.Proofs.AsmLeak
import Verif.Proofs.BaseTable
import Verif.Proofs.Build
import Verif.Proofs.BuildComplete
import Verif.Proofs.Bytes
import Verif.Proofs.Conc
import Verif.Proofs.ConcCall
import Verif.Proofs.ConcMain
import Verif.Proofs.ConcRace
import Verif.Proofs.ConcSpec
import Verif.Proofs.ConcWithin
import Verif.Proofs.ConcWords
import Verif.Proofs.CrefApi
import Verif.Proofs.CrefBarrett
import Verif.Proofs.CrefBase
import Verif.Proofs.CrefChecked
import Verif.Proofs.CrefCheckedSim
import Verif.Proofs.CrefColumns
import Verif.Proofs.CrefExact
import Verif.Proofs.CrefField
import Verif.Proofs.CrefLoops
import Verif.Proofs.CrefLoopsMult
import Verif.Proofs.CrefLoopsRun
import Verif.Proofs.CrefMachine
import Verif.Proofs.CrefMult
import Verif.Proofs.CrefOverflow
import Verif.Proofs.CrefPtr
import Verif.Proofs.CrefPtrBase
import Verif.Proofs.CrefPtrGroup
import Verif.Proofs.CrefPtrMult
import Verif.Proofs.CrefPtrRun
import Verif.Proofs.CrefScalar
import Verif.Proofs.CrefScalarOps
import Verif.Proofs.CrefSim
import Verif.Proofs.CrefSim25
import Verif.Proofs.CrefSlide
import Verif.Proofs.CrefWindow
import Verif.Proofs.Curve
import Verif.Proofs.Curve25
import Verif.Proofs.DegExact
import Verif.Proofs.DegLizard
import Verif.Proofs.Degenerate
import Verif.Proofs.Digits
import Verif.Proofs.EdAgree
import Verif.Proofs.EdExact
import Verif.Proofs.EdGeneric
import Verif.Proofs.EdGenericAll
import Verif.Proofs.EdGenericChecked
import Verif.Proofs.EdMachine
import Verif.Proofs.EdRange
import Verif.Proofs.EdShape
import Verif.Proofs.EllExact
import Verif.Proofs.EllInvMath
import Verif.Proofs.EllInverse
import Verif.Proofs.EllMath
import Verif.Proofs.Elligator
import Verif.Proofs.Field25
import Verif.Proofs.Field25Bytes
import Verif.Proofs.Field25Checked
import Verif.Proofs.Field25CheckedSim
import Verif.Proofs.Field25Wide
import Verif.Proofs.Field51
import Verif.Proofs.Field51Bytes
import Verif.Proofs.Field51Checked
import Verif.Proofs.Field51CheckedSim
import Verif.Proofs.Field51Reduce
import Verif.Proofs.FieldFlags
import Verif.Proofs.FieldPow
import Verif.Proofs.Hex
import Verif.Proofs.Ideal
import Verif.Proofs.Int64
import Verif.Proofs.Lawful
import Verif.Proofs.LeBytes
import Verif.Proofs.Leak
import Verif.Proofs.Lizard
import Verif.Proofs.LizardNat
import Verif.Proofs.LizardSha
import Verif.Proofs.Loops
import Verif.Proofs.LoopsBytes
import Verif.Proofs.LoopsVar
import Verif.Proofs.Machine
import Verif.Proofs.Oblivious
import Verif.Proofs.Oblivious25
import Verif.Proofs.ObliviousMachine
import Verif.Proofs.ObliviousSha
import Verif.Proofs.RecoverSim
import Verif.Proofs.RecoverWords
import Verif.Proofs.Repr
import Verif.Proofs.Rfc9496
import Verif.Proofs.RistrettoCode
import Verif.Proofs.RistrettoDecode
import Verif.Proofs.RistrettoMath
import Verif.Proofs.ScalarAddSub
import Verif.Proofs.ScalarChecked
import Verif.Proofs.ScalarMul
import Verif.Proofs.ScalarMult
import Verif.Proofs.ScalarOps
import Verif.Proofs.ScalarPack
import Verif.Proofs.ScalarReduce
import Verif.Proofs.Sim
import Verif.Proofs.Sim25
import Verif.Proofs.Sim51
import Verif.Proofs.Sim51W
import Verif.Proofs.SimAsm
import Verif.Proofs.SimCurve
import Verif.Proofs.SimMachine
import Verif.Proofs.Text
import Verif.Proofs.TextSpec
import Verif.Proofs.VarTime
import Verif.Proofs.Word
import Verif.Proofs.Words
import Verif.Proofs.WordsSim
import Verif.Props.Alias
import Verif.Props.AliasWords
import Verif.Props.Asm
import Verif.Props.AsmCall
import Verif.Props.AsmLeak
import Verif.Props.Build
import Verif.Props.Conc
import Verif.Props.Coords
import Verif.Props.Cref
import Verif.Props.CrefApi
import Verif.Props.CrefCoords
import Verif.Props.CrefLoops
import Verif.Props.CrefOverflow
import Verif.Props.CrefPointers
import Verif.Props.CrefPtr
import Verif.Props.CrefScalars
import Verif.Props.CrefSlide
import Verif.Props.CrefWindows
import Verif.Props.Debug
import Verif.Props.Derive
import Verif.Props.Ed
import Verif.Props.EdExact
import Verif.Props.Elligator
import Verif.Props.Encoding
import Verif.Props.Field
import Verif.Props.Generic
import Verif.Props.GenericEd
import Verif.Props.GenericFields
import Verif.Props.GenericOverflow
import Verif.Props.Group
import Verif.Props.Jacobi
import Verif.Props.Keys
import Verif.Props.LizardCount
import Verif.Props.Loops
import Verif.Props.Machine
import Verif.Props.Oblivious
import Verif.Props.Overflow
import Verif.Props.Random
import Verif.Props.Recover
import Verif.Props.RecoverWords
import Verif.Props.Rfc
import Verif.Props.ScalarOverflow
import Verif.Props.Scalars
import Verif.Props.Text
import Verif.Props.Timing
import Verif.Props.Words
import Verif.Spec.Abstract
import Verif.Spec.Build
import Verif.Spec.Conc
import Verif.Spec.Coords
import Verif.Spec.CrefApi
import Verif.Spec.CrefExact
import Verif.Spec.CrefInit
import Verif.Spec.CrefMachine
import Verif.Spec.CrefPtr
import Verif.Spec.CrefScalar
import Verif.Spec.Debug
import Verif.Spec.EdField
import Verif.Spec.EdMachine
import Verif.Spec.EdRange
import Verif.Spec.EdRaw
import Verif.Spec.Edwards
import Verif.Spec.Elligator
import Verif.Spec.Field
import Verif.Spec.Jacobi
import Verif.Spec.Lizard
import Verif.Spec.Machine
import Verif.Spec.Oblivious
import Verif.Spec.Order
import Verif.Spec.Prime
import Verif.Spec.Proj
import Verif.Spec.Raw
import Verif.Spec.Recover
import Verif.Spec.RecoverWords
import Verif.Spec.Repr
import Verif.Spec.Repr25
import Verif.Spec.Rfc9496
import Verif.Spec.Ristretto
import Verif.Spec.Scalar
import Verif.Spec.Sha2
import Verif.Spec.Sha256
import Verif.Spec.Text
import Verif.Spec.Timing
import Verif.Spec.Words
import Verif.Tests.Decoding
import Verif.Tests.Points
