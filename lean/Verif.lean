import Verif.Basic
import Verif.Cases.Answers
import Verif.Cases.Cost
import Verif.Cases.Limits
import Verif.Cases.Live
import Verif.Cases.Parallel
import Verif.Cases.PipelineRun
import Verif.Cases.PostorageRun
import Verif.Cases.Protocol
import Verif.Cases.Sealing
import Verif.Cases.SingleLive
import Verif.Cases.Space
import Verif.Cases.TestRuns
import Verif.Cases.World
import Verif.Model.Circuits
import Verif.Model.Common
import Verif.Model.Convert
import Verif.Model.Depend
import Verif.Model.Interrupt
import Verif.Model.Live
import Verif.Model.Merkle
import Verif.Model.MerkleDepth
import Verif.Model.Mimc
import Verif.Model.OwnTests
import Verif.Model.PanicRun
import Verif.Model.Parallel
import Verif.Model.PipelineDisk
import Verif.Model.PipelineRun
import Verif.Model.Postorage
import Verif.Model.PostorageRun
import Verif.Model.Prover
import Verif.Model.Python
import Verif.Model.R1cs
import Verif.Model.Release
import Verif.Model.ReleaseVerify
import Verif.Model.ShortBatch
import Verif.Model.ShortRead
import Verif.Model.ShortRound
import Verif.Model.SingleLive
import Verif.Model.Sloth
import Verif.Model.SlothStack
import Verif.Model.Space
import Verif.Model.SpaceRelease
import Verif.Model.SpaceRun
import Verif.Model.SpaceStop
import Verif.Model.Usize
import Verif.Model.Vde
import Verif.Model.Verifier
import Verif.Model.Workflow
import Verif.Model.WorkflowStop
import Verif.Proofs.Basic
import Verif.Proofs.Challenge
import Verif.Proofs.Circuits
import Verif.Proofs.Common
import Verif.Proofs.Convert
import Verif.Proofs.Depend
import Verif.Proofs.EllipticCert
import Verif.Proofs.HashCircuit
import Verif.Proofs.Interrupt
import Verif.Proofs.Merkle
import Verif.Proofs.MillerRabin
import Verif.Proofs.Modpow
import Verif.Proofs.Parallel
import Verif.Proofs.Prime1024
import Verif.Proofs.Prime2048
import Verif.Proofs.PrimeCert
import Verif.Proofs.Primes
import Verif.Proofs.R1cs
import Verif.Proofs.Recorded
import Verif.Proofs.Release
import Verif.Proofs.ReleaseVerify
import Verif.Proofs.Reseal
import Verif.Proofs.SameCircuit
import Verif.Proofs.Seal
import Verif.Proofs.SealDecide
import Verif.Proofs.SealExact
import Verif.Proofs.SealTotal
import Verif.Proofs.Select
import Verif.Proofs.ShortRead
import Verif.Proofs.Sloth
import Verif.Proofs.SlothExact
import Verif.Proofs.Space
import Verif.Proofs.SpaceStop
import Verif.Proofs.Unseal
import Verif.Proofs.UnsealExact
import Verif.Proofs.Vde
import Verif.Proofs.Verifier
import Verif.Properties.AnswerSize
import Verif.Properties.AnyAnswer
import Verif.Properties.AnyAnswerStatic
import Verif.Properties.AnyLength
import Verif.Properties.Binding
import Verif.Properties.Bytes
import Verif.Properties.ChallengeCount
import Verif.Properties.CircuitBits
import Verif.Properties.CircuitShape
import Verif.Properties.Circuits
import Verif.Properties.Columns
import Verif.Properties.Constants
import Verif.Properties.Cost
import Verif.Properties.Crash
import Verif.Properties.Decoding
import Verif.Properties.Depend
import Verif.Properties.Detection
import Verif.Properties.Encoding
import Verif.Properties.HashChain
import Verif.Properties.Interrupt
import Verif.Properties.LargeBlocks
import Verif.Properties.Layers
import Verif.Properties.Live
import Verif.Properties.LiveVerdict
import Verif.Properties.Loss
import Verif.Properties.Masking
import Verif.Properties.Merkle
import Verif.Properties.MerkleDepth
import Verif.Properties.Mimc
import Verif.Properties.ModpowPy
import Verif.Properties.Oracle
import Verif.Properties.OwnTests
import Verif.Properties.PanicRun
import Verif.Properties.Parallel
import Verif.Properties.PipelineRun
import Verif.Properties.Postorage
import Verif.Properties.PostorageRun
import Verif.Properties.PrimeSearch
import Verif.Properties.PrimeTest
import Verif.Properties.Protocol
import Verif.Properties.PublicData
import Verif.Properties.Python
import Verif.Properties.Release
import Verif.Properties.Replica
import Verif.Properties.Retrieval
import Verif.Properties.Rounds
import Verif.Properties.Sealing
import Verif.Properties.Select
import Verif.Properties.ShortBatch
import Verif.Properties.ShortRead
import Verif.Properties.ShortRound
import Verif.Properties.ShortUnits
import Verif.Properties.SingleLive
import Verif.Properties.SlothStack
import Verif.Properties.Space
import Verif.Properties.SpaceAnswers
import Verif.Properties.SpaceCircuit
import Verif.Properties.SpaceCount
import Verif.Properties.SpaceRun
import Verif.Properties.SpaceStop
import Verif.Properties.SpaceTable
import Verif.Properties.SpaceTableCount
import Verif.Properties.Spread
import Verif.Properties.StaticVerify
import Verif.Properties.Storage
import Verif.Properties.TestRuns
import Verif.Properties.UnitSize
import Verif.Properties.Unsealing
import Verif.Properties.Update
import Verif.Properties.Usize
import Verif.Properties.Verdict
import Verif.Properties.Verifier
import Verif.Properties.Workflow
import Verif.Properties.WorkflowStop
import Verif.Spec.Merkle
import Verif.Spec.Oracle
import Verif.Spec.Release
import Verif.Spec.Sealing
import Verif.Spec.Select
import Verif.Spec.ShortRead
import Verif.Spec.Sloth
import Verif.Spec.SpaceTable
import Verif.Spec.Storage
import Verif.Spec.Toy
import Verif.Spec.Unsealing
