import Verif.Bytes
import Verif.Merkle.Model
import Verif.Merkle.Lemmas
import Verif.Merkle.Props
import Verif.Merkle.Capacity
import Verif.Xfr.Model
import Verif.Xfr.Spec
import Verif.Xfr.Lemmas
import Verif.Xfr.Toy
import Verif.Xfr.Props
import Verif.Xfr.Amount
import Verif.Xfr.MultiSig
import Verif.Xfr.Complete
import Verif.Xfr.Tracing
import Verif.Xfr.Batch
import Verif.Xfr.Honest
import Verif.Xfr.Made
import Verif.Xfr.Sound
import Verif.Xfr.Supply
import Verif.Xfr.SupplyExamples
import Verif.Plonk.Turbo
import Verif.Plonk.Sat
import Verif.Plonk.Gadgets
import Verif.Plonk.Range
import Verif.Plonk.Arith
import Verif.Plonk.Perm
import Verif.Algebra.Bls
import Verif.Rescue.Model
import Verif.Rescue.Props
import Verif.Rescue.Eval
import Verif.Plonk.RescueGadget
import Verif.Algebra.Edwards
import Verif.Algebra.Jubjub
import Verif.Plonk.Ecc
import Verif.Plonk.Adv
import Verif.Anon.Mixing
import Verif.Anon.Circuit
import Verif.Anon.MerkleCircuit
import Verif.Merkle.Position
import Verif.Anon.Transfer
import Verif.Anon.TransferRun
import Verif.Anon.Spend
import Verif.Anon.Compare
import Verif.Anon.PreCheck
import Verif.Res
import Verif.Xfr.Keys
import Verif.Xfr.Hybrid
import Verif.Xfr.Record
import Verif.Crypto.ElGamal
import Verif.Xfr.TracerMemo
import Verif.Anon.Keys
import Verif.Algebra.Words
import Verif.Algebra.Pow
import Verif.Algebra.Radix
import Verif.Algebra.Pippenger
import Verif.Algebra.MsmUnsafe
import Verif.Algebra.MsmUnsafeProps
import Verif.Xfr.MemoCompat
import Verif.Crypto.Sigma
import Verif.Crypto.ChaumPedersen
import Verif.Crypto.PedersenElGamal
import Verif.Crypto.DelegatedSchnorr
import Verif.Crypto.AnonCreds
import Verif.Crypto.ConfidentialCreds
import Verif.Crypto.Jive
import Verif.Bulletproofs.R1cs
import Verif.Bulletproofs.Range64
import Verif.Bulletproofs.Mix
import Verif.Bulletproofs.MixSound
import Verif.Bulletproofs.MixComplete
import Verif.Bulletproofs.MixProps
import Verif.Bulletproofs.ScalarMul
import Verif.Poly.Model
import Verif.Poly.Props
import Verif.Poly.Fft
import Verif.Poly.Transcript
import Verif.Poly.Kzg
import Verif.Poly.KzgProps
import Verif.Snark.Model
import Verif.Snark.Helpers
import Verif.Snark.Eval
import Verif.Snark.Indexer
import Verif.Snark.Verify
import Verif.Snark.Forge
import Verif.Snark.ForgeShaped
import Verif.Snark.Concrete
import Verif.Snark.Numer
import Verif.Snark.Accum
import Verif.Snark.Complete
import Verif.Snark.Describe
import Verif.Snark.Hiding
import Verif.Snark.CodeMsm
import Verif.Snark.Sound
import Verif.SimFr.Model
import Verif.SimFr.Basic
import Verif.SimFr.Native
import Verif.SimFr.Circuit
import Verif.SimFr.Complete
import Verif.SimFr.Uniform
import Verif.SimFr.Bounded
import Verif.SimFr.Examples
import Verif.Algebra.Secq
import Verif.Crypto.StateComm
import Verif.Anon.Folding
import Verif.Anon.FoldingSound
import Verif.Anon.FoldingRun
import Verif.Anon.FoldingUniform
import Verif.Anon.FoldingProps
import Verif.Algebra.RistrettoOrder
import Verif.Anon.Convert
import Verif.Anon.ConvertSound
import Verif.Anon.ConvertProps
import Verif.Anon.ConvertRun
import Verif.Anon.ConvertUniform
import Verif.Anon.ConvertExamples
import Verif.Anon.ConvertVerify
import Verif.Anon.ConvertNotes
import Verif.Anon.ConvertEnd
import Verif.Anon.ConvertGen
import Verif.Anon.ConvertEndExamples
import Verif.Crypto.Binding
import Verif.Snark.Binding
import Verif.Anon.XfrNote
import Verif.Anon.XfrNoteProps
import Verif.Anon.XfrNoteGen
import Verif.Anon.XfrNoteExamples
import Verif.Anon.Pool
import Verif.Anon.PoolRun
import Verif.Anon.PoolExamples
import Verif.Anon.PoolConf
import Verif.Anon.PoolConfExamples
import Verif.Anon.System
import Verif.Anon.SystemExamples
import Verif.Algebra.Codec
import Verif.Algebra.CodecProps
import Verif.Algebra.SecpOrder
import Verif.Algebra.JubjubOrder
import Verif.Algebra.Generators
import Verif.Algebra.PointCodec
import Verif.Algebra.PointCodecProps
import Verif.Setup.Model
import Verif.Setup.Props
import Verif.Setup.End
import Verif.Crypto.Hiding
import Verif.Crypto.CredsHiding
import Verif.Xfr.RecordHiding
import Verif.Plonk.Cost
import Verif.Anon.Size
import Verif.Setup.Size
import Verif.Setup.Real
import Verif.Setup.Live
import Verif.Setup.LiveExamples
import Verif.Setup.Counterfeit
import Verif.Setup.CounterfeitExamples
import Verif.Setup.Backed
import Verif.Setup.BackedExamples
import Verif.Merkle.View
import Verif.Merkle.Examples
import Verif.Xfr.Examples
import Verif.Crypto.Examples
import Verif.Poly.Examples
import Verif.Serde.Format
import Verif.Serde.Bodies
import Verif.Serde.Signed
import Verif.Serde.Examples
import Verif.Serde.Read
import Verif.Serde.RmpPieces
import Verif.Serde.ReadBodies
import Verif.Serde.RoundTrip
import Verif.Serde.Notes
import Verif.Serde.NoteExamples
import Verif.Serde.Base64
import Verif.Serde.JsonText
import Verif.Serde.Json
import Verif.Serde.JsonMemo
import Verif.Serde.JsonNotes
import Verif.Serde.JsonExamples
import Verif.Serde.JsonWallet
import Verif.Serde.WalletExamples
import Verif.Anon.Receive
import Verif.Anon.ReceiveExamples
import Verif.Xfr.Inputs
import Verif.Xfr.InputsExamples
import Verif.Xfr.Identity
import Verif.Xfr.IdentityExamples
import Verif.Anon.Labels
import Verif.Setup.CounterfeitPool
import Verif.Setup.FileCodec
import Verif.Setup.Files
import Verif.Setup.Shipped
import Verif.Setup.ShippedConvFiles
import Verif.Setup.ShippedConv
import Verif.Setup.ShippedXfr1
import Verif.Setup.ShippedXfr2
import Verif.Setup.ShippedXfr3
import Verif.Setup.ShippedXfr4
import Verif.Setup.ShippedXfr5
import Verif.Setup.ShippedXfr6
import Verif.Setup.ShippedXfr
import Verif.Setup.LiveReceive
import Verif.Setup.LiveReceiveExamples
import Verif.Serde.JsonShows
import Verif.Serde.JsonShowsExamples
import Verif.Serde.JsonKeeps
import Verif.Serde.JsonKeepsExamples
import Verif.Serde.JsonParts
import Verif.Serde.JsonPartsExamples
import Verif.Serde.JsonGrammar
import Verif.Serde.JsonForeign
import Verif.Serde.JsonForeignExamples
import Verif.Setup.LiveLabels
import Verif.Serde.Exact
import Verif.Serde.AmountText
import Verif.Serde.ExactBody
import Verif.Serde.ExactPieces
import Verif.Serde.ExactSpelled
import Verif.Serde.ExactPoolPieces
import Verif.Serde.ExactXfrPieces
import Verif.Serde.ExactPadding
import Verif.Serde.ExactTransfer
import Verif.Serde.ExactExamples
