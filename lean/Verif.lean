import Verif.Model.Address
import Verif.Model.Amounts
import Verif.Model.Attest
import Verif.Model.Base58
import Verif.Model.Base58Decode
import Verif.Model.Bip32
import Verif.Model.Blake2b
import Verif.Model.Box
import Verif.Model.Bytes
import Verif.Model.Crypto
import Verif.Model.Device
import Verif.Model.Draw
import Verif.Model.DrawDevice
import Verif.Model.Emit
import Verif.Model.Engine
import Verif.Model.Env
import Verif.Model.Failing
import Verif.Model.Full
import Verif.Model.Gve
import Verif.Model.Input
import Verif.Model.InputFrame
import Verif.Model.Layout
import Verif.Model.Loop
import Verif.Model.OutputInfo
import Verif.Model.P2pk
import Verif.Model.Panel
import Verif.Model.Res
import Verif.Model.Run
import Verif.Model.RwBuffer
import Verif.Model.SafeInt
import Verif.Model.Schnorr
import Verif.Model.Secp256k1
import Verif.Model.Sw
import Verif.Model.Table
import Verif.Model.Timing
import Verif.Model.Ui
import Verif.Model.Varint
import Verif.Spec.Accept
import Verif.Spec.Approvals
import Verif.Spec.ArraySize
import Verif.Spec.Attest
import Verif.Spec.AttestFits
import Verif.Spec.Authentic
import Verif.Spec.Base58
import Verif.Spec.Base58Decode
import Verif.Spec.Blake2b
import Verif.Spec.Blind
import Verif.Spec.Board
import Verif.Spec.Buffer
import Verif.Spec.CallFaults
import Verif.Spec.Chunks
import Verif.Spec.Commands
import Verif.Spec.Complete
import Verif.Spec.Consent
import Verif.Spec.Crypto
import Verif.Spec.Display
import Verif.Spec.Doc
import Verif.Spec.Emit
import Verif.Spec.Exact
import Verif.Spec.Faults
import Verif.Spec.Forge
import Verif.Spec.Forgery
import Verif.Spec.Frame
import Verif.Spec.Keys
import Verif.Spec.Layout
import Verif.Spec.LayoutRun
import Verif.Spec.Lengths
import Verif.Spec.Limits
import Verif.Spec.Lives
import Verif.Spec.Loop
import Verif.Spec.Loss
import Verif.Spec.Mac
import Verif.Spec.MacFaults
import Verif.Spec.Pages
import Verif.Spec.Panel
import Verif.Spec.Path
import Verif.Spec.Recovery
import Verif.Spec.Reference
import Verif.Spec.Replay
import Verif.Spec.Replies
import Verif.Spec.Schnorr
import Verif.Spec.Secp256k1
import Verif.Spec.Secrets
import Verif.Spec.Shown
import Verif.Spec.Start
import Verif.Spec.Tell
import Verif.Spec.Text
import Verif.Spec.Timing
import Verif.Spec.Trace
import Verif.Spec.Truthful
import Verif.Spec.Tx
import Verif.Spec.Uniform
import Verif.Spec.Varint
import Verif.Spec.Vlq
import Verif.Spec.Wallet
import Verif.Spec.Why
import Verif.Spec.WhyAll
import Verif.Spec.Wire
import Verif.Spec.Words
import Verif.Proof.AcceptDev
import Verif.Proof.AcceptIn
import Verif.Proof.AcceptOp
import Verif.Proof.AcceptOut
import Verif.Proof.Accepted
import Verif.Proof.Amt
import Verif.Proof.Approvals
import Verif.Proof.Asks
import Verif.Proof.AttSim
import Verif.Proof.AttestComplete
import Verif.Proof.AttestFits
import Verif.Proof.Base58
import Verif.Proof.Base58Decode
import Verif.Proof.Blake2b
import Verif.Proof.Board
import Verif.Proof.BoxSim
import Verif.Proof.BoxTokens
import Verif.Proof.Bytes
import Verif.Proof.Calls
import Verif.Proof.Chunks
import Verif.Proof.Complete
import Verif.Proof.Costs
import Verif.Proof.CostsTight
import Verif.Proof.Crypto
import Verif.Proof.CryptoRef
import Verif.Proof.Demo
import Verif.Proof.Display
import Verif.Proof.DisplayNow
import Verif.Proof.Doc
import Verif.Proof.Draw
import Verif.Proof.DrawDevice
import Verif.Proof.DrawPage
import Verif.Proof.Emit
import Verif.Proof.Engine
import Verif.Proof.Entries
import Verif.Proof.Exact
import Verif.Proof.ExactTx
import Verif.Proof.Failing
import Verif.Proof.FailingDevice
import Verif.Proof.FailingTx
import Verif.Proof.Faults
import Verif.Proof.Final
import Verif.Proof.Flow
import Verif.Proof.Forge
import Verif.Proof.Forgery
import Verif.Proof.Frame
import Verif.Proof.FullIn
import Verif.Proof.FullOut
import Verif.Proof.FullSim
import Verif.Proof.Gve
import Verif.Proof.I64
import Verif.Proof.Inv
import Verif.Proof.Join
import Verif.Proof.JoinOps
import Verif.Proof.Legible
import Verif.Proof.Lengths
import Verif.Proof.Limits
import Verif.Proof.LiveIff
import Verif.Proof.Lives
import Verif.Proof.Loop
import Verif.Proof.Loss
import Verif.Proof.MacFaults
import Verif.Proof.Mask
import Verif.Proof.MaskDevice
import Verif.Proof.MaskEnv
import Verif.Proof.OutSim
import Verif.Proof.P2pkSim
import Verif.Proof.Pages
import Verif.Proof.Paint
import Verif.Proof.Panel
import Verif.Proof.PanelRun
import Verif.Proof.Path
import Verif.Proof.Pieces
import Verif.Proof.Prime
import Verif.Proof.RefBoth
import Verif.Proof.RefFlow
import Verif.Proof.RefPaged
import Verif.Proof.RefPages
import Verif.Proof.RefPos
import Verif.Proof.RefReply
import Verif.Proof.Refuse
import Verif.Proof.Rekey
import Verif.Proof.Replay
import Verif.Proof.RwBuffer
import Verif.Proof.Schnorr
import Verif.Proof.Screens
import Verif.Proof.Secp256k1
import Verif.Proof.Session
import Verif.Proof.ShownOrder
import Verif.Proof.SignRel
import Verif.Proof.SignSim
import Verif.Proof.Start
import Verif.Proof.Timing
import Verif.Proof.Toy
import Verif.Proof.Trans
import Verif.Proof.Turn
import Verif.Proof.Uniform
import Verif.Proof.UniformRun
import Verif.Proof.Varint
import Verif.Proof.Veil
import Verif.Proof.Wallet
import Verif.Proof.WalletBox
import Verif.Proof.WalletIn
import Verif.Proof.WalletOut
import Verif.Proof.Why
import Verif.Proof.WhyAll
import Verif.Proof.WhyAttest
import Verif.Proof.WhyDev
import Verif.Proof.WhyIn
import Verif.Proof.WhyOp
import Verif.Proof.WhyOut
import Verif.Proof.WhyStart
import Verif.Proof.Wire
import Verif.Proof.Words
import Verif.Proof.Zigzag
import Verif.Props.Accept
import Verif.Props.Address
import Verif.Props.Approvals
import Verif.Props.Arith
import Verif.Props.ArraySize
import Verif.Props.Attest
import Verif.Props.AttestFits
import Verif.Props.Authentic
import Verif.Props.Base58
import Verif.Props.Base58Decode
import Verif.Props.Blake2b
import Verif.Props.Blind
import Verif.Props.Board
import Verif.Props.Buffer
import Verif.Props.CallFaults
import Verif.Props.Change
import Verif.Props.ChangeRun
import Verif.Props.Chunks
import Verif.Props.Complete
import Verif.Props.Consent
import Verif.Props.Costs
import Verif.Props.Crypto
import Verif.Props.CryptoRef
import Verif.Props.Derive
import Verif.Props.Device
import Verif.Props.Display
import Verif.Props.Doc
import Verif.Props.Duplicate
import Verif.Props.Emit
import Verif.Props.Exact
import Verif.Props.Faults
import Verif.Props.Forge
import Verif.Props.Forgery
import Verif.Props.Frame
import Verif.Props.FrameBack
import Verif.Props.Layout
import Verif.Props.LayoutRun
import Verif.Props.Lengths
import Verif.Props.Limits
import Verif.Props.Lives
import Verif.Props.Loop
import Verif.Props.Loss
import Verif.Props.MacFaults
import Verif.Props.Pages
import Verif.Props.Panel
import Verif.Props.Path
import Verif.Props.PathExact
import Verif.Props.Reading
import Verif.Props.Recovery
import Verif.Props.Reference
import Verif.Props.Refuse
import Verif.Props.Replay
import Verif.Props.Replies
import Verif.Props.Schnorr
import Verif.Props.Secp256k1
import Verif.Props.Secrets
import Verif.Props.Session
import Verif.Props.SessionKey
import Verif.Props.Sign
import Verif.Props.Start
import Verif.Props.Tell
import Verif.Props.Text
import Verif.Props.Timing
import Verif.Props.TokenId
import Verif.Props.Truthful
import Verif.Props.Uniform
import Verif.Props.Union
import Verif.Props.Varint
import Verif.Props.Vlq
import Verif.Props.Wallet
import Verif.Props.Why
import Verif.Props.WhyAll
import Verif.Props.Words
import Verif.Vectors.Buffer
import Verif.Vectors.Device
import Verif.Vectors.Unit
