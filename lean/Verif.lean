import Verif.Props.Field
import Verif.Props.Ntt
import Verif.Props.Codec
import Verif.Props.SigCodec
import Verif.Props.Hash
import Verif.Props.Verify
import Verif.Props.Sampler
import Verif.Props.Ntru
import Verif.Props.Fft
import Verif.Props.Hex
import Verif.Props.Tree
import Verif.Props.TreeExact
import Verif.Props.Sign
import Verif.Props.SignRun
import Verif.Props.Load
import Verif.Props.Seed
import Verif.Props.KeygenRun
import Verif.Props.Spherical
import Verif.Props.FloatSign
import Verif.Props.FloatRun
import Verif.Props.Reduce
import Verif.Props.ReduceRun
import Verif.Props.OneShotFloat
import Verif.Props.SignDefined
import Verif.Props.Stuck
import Verif.Props.FieldMore
import Verif.Props.F64Sign
import Verif.Props.F64Keygen
import Verif.Props.F64Recovery
import Verif.Props.Contract
import Verif.Props.Gauss
import Verif.Props.SignGauss
import Verif.Props.HashLaw
import Verif.Props.KeyLaw
import Verif.Props.SignSalt
import Verif.Props.Adversary
import Verif.Props.Syndrome
import Verif.Props.SignRate
import Verif.Props.OracleVerify
import Verif.Props.Malleable
import Verif.Props.Birthday
import Verif.Props.Kat
import Verif.Props.Reduced
import Verif.Props.Tests
import Verif.Props.SeedSearch
import Verif.Model.UnitTests
import Verif.Props.UnitTests
import Verif.Proofs.TestFft
import Verif.Props.UnitTestsFft
import Verif.Model.Programs
import Verif.Props.Programs
import Verif.Props.ProgramsSign
import Verif.Proofs.PolyList
import Verif.Proofs.FirstPoint
import Verif.Proofs.ZeroKey
import Verif.Proofs.ZeroRun
import Verif.Props.ZeroPoint
import Verif.Proofs.NanKey
import Verif.Proofs.NanSolve
import Verif.Proofs.NanAccept
import Verif.Props.NanKeygen
import Verif.Model.Bench
import Verif.Props.Bench
import Verif.Proofs.SigReads
import Verif.Props.SigReads
import Verif.Props.KeySubst
import Verif.Props.KeyFacts
import Verif.LeakSpec
import Verif.Proofs.Leak
import Verif.Proofs.LeakRun
import Verif.Props.Leak
import Verif.Props.Erased
import Verif.Props.ErasedF
import Verif.Props.ErasedFloat
import Verif.Props.Program
import Verif.Props.Timing
import Verif.Props.Transcript
import Verif.Props.TimingSign
import Verif.KeylessSpec
import Verif.Props.Keyless
import Verif.TimedAdversarySpec
import Verif.Proofs.TimedAdversary
import Verif.Props.TimedAdversary
import Verif.TimedSimSpec
import Verif.Proofs.TimedSim
import Verif.Props.TimedForger
