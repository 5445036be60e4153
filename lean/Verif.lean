import Verif.Model.Base
import Verif.Model.Context
import Verif.Model.Env
import Verif.Model.Resp
import Verif.Model.Instance
import Verif.Model.Commands
import Verif.Spec.Words
import Verif.Spec.Forest
import Verif.Spec.Vocab
import Verif.Spec.Authorise
import Verif.Spec.Effects
import Verif.Spec.Frame
import Verif.Spec.Life
import Verif.Spec.Iter
import Verif.Spec.Rules
import Verif.Spec.Handles
import Verif.Spec.Boot
import Verif.Proofs.Words
import Verif.Proofs.Bits
import Verif.Proofs.Monad
import Verif.Proofs.Effects
import Verif.Proofs.Slots
import Verif.Proofs.WF
import Verif.Proofs.Destroy
import Verif.Spec.Service
import Verif.Proofs.Rights
import Verif.Proofs.Service
import Verif.Proofs.Reach
import Verif.Proofs.Vocab
import Verif.Proofs.Reply
import Verif.Proofs.Run
import Verif.Proofs.Refine
import Verif.Proofs.Calls
import Verif.Proofs.Iter
import Verif.Examples.Toy
import Verif.Props.Structure
import Verif.Props.Access
import Verif.Props.Effects
import Verif.Props.Atomic
import Verif.Props.Life
import Verif.Props.Handles
import Verif.Props.Iter
import Verif.Proofs.Verdict
import Verif.Props.Rules
import Verif.Props.AutoInit
import Verif.Props.Unique
import Verif.Spec.Measure
import Verif.Props.Measure
import Verif.Spec.Binding
import Verif.Props.Binding
import Verif.Model.Validate
import Verif.Spec.Valid
import Verif.Proofs.Validate
import Verif.Proofs.ValidateForest
import Verif.Props.Validate
import Verif.Model.Wire
import Verif.Spec.Wire
import Verif.Spec.Response
import Verif.Proofs.Wire
import Verif.Proofs.Response
import Verif.Props.Wire
import Verif.Props.Response
import Verif.Model.RespBuf
import Verif.Spec.RespBuf
import Verif.Props.RespBuf
import Verif.Model.Platform
import Verif.Spec.Chain
import Verif.Props.Chain
import Verif.Model.Soft
import Verif.Spec.Soft
import Verif.Props.Soft
import Verif.Model.X509
import Verif.Spec.Der
import Verif.Spec.Cert
import Verif.Proofs.Der
import Verif.Proofs.X509Enc
import Verif.Proofs.X509Fields
import Verif.Proofs.X509Emit
import Verif.Proofs.X509Sign
import Verif.Proofs.X509Chain
import Verif.Proofs.X509Tree
import Verif.Spec.Digest
import Verif.Spec.Issue
import Verif.Proofs.X509Issue
import Verif.Proofs.X509Size
import Verif.Proofs.X509Create
import Verif.Spec.Writer
import Verif.Examples.Cert
import Verif.Props.Sizes
import Verif.Spec.Numbers
import Verif.Props.Numbers
import Verif.Spec.Certify
import Verif.Proofs.CertExec
import Verif.Spec.Parse
import Verif.Spec.Report
import Verif.Proofs.X509Der
import Verif.Proofs.Parse
import Verif.Proofs.CertParse
import Verif.Proofs.CertRead
import Verif.Proofs.CertIssued
import Verif.Proofs.CertFacts
import Verif.Proofs.CertDet
import Verif.Proofs.CertSafe
import Verif.Spec.Draw
import Verif.Proofs.CertRun
import Verif.Examples.CertRuns
import Verif.Proofs.CertFront
import Verif.Props.Certificates
import Verif.Props.Truncation
import Verif.Spec.Limits
import Verif.Proofs.X509Max
import Verif.Props.Limits
import Verif.Spec.Sign
import Verif.Proofs.SignRun
import Verif.Proofs.SoftKey
import Verif.Examples.SoftRuns
import Verif.Props.SameKey
import Verif.Model.Library
import Verif.Spec.Keys
import Verif.Proofs.SoftContent
import Verif.Props.Keys
import Verif.Examples.Story
import Verif.Examples.UnitRespBuf
import Verif.Examples.UnitState
import Verif.Examples.UnitCommands
import Verif.Examples.UnitX509
import Verif.Props.History
import Verif.Spec.Complete
import Verif.Proofs.Complete
import Verif.Props.Complete
import Verif.Model.Reference
import Verif.Spec.Reference
import Verif.Proofs.Device
import Verif.Proofs.DeviceRun
import Verif.Proofs.DeviceAble
import Verif.Props.Reference
import Verif.Spec.Faults
import Verif.Proofs.CertErr
import Verif.Props.Faults
import Verif.Model.Simulator
import Verif.Spec.Simulator
import Verif.Proofs.Simulator
import Verif.Props.Simulator
import Verif.Model.Cfi
import Verif.Spec.Cfi
import Verif.Proofs.Cfi
import Verif.Props.Cfi
import Verif.Model.Client
import Verif.Spec.Client
import Verif.Proofs.Client
import Verif.Props.Client
import Verif.Props.Service
import Verif.Spec.Crates
import Verif.Proofs.Crates
import Verif.Props.Crates
import Verif.Spec.Outcome
import Verif.Proofs.Outcome
import Verif.Props.Outcome
import Verif.Model.Image
import Verif.Spec.Image
import Verif.Proofs.Image
import Verif.Props.Image
import Verif.Spec.Peer
import Verif.Proofs.Peer
import Verif.Props.Peer
import Verif.Proofs.OpCalls
import Verif.Spec.Placement
import Verif.Spec.Isolation
import Verif.Proofs.Placement
import Verif.Proofs.PlacementCert
import Verif.Proofs.PlacementExec
import Verif.Proofs.PlacementUndo
import Verif.Props.Placement
import Verif.Proofs.Isolation
import Verif.Props.Isolation
import Verif.Spec.Uses
import Verif.Proofs.UsesLog
import Verif.Proofs.Uses
import Verif.Props.Uses
import Verif.Spec.Keep
import Verif.Proofs.Keep
import Verif.Props.Keep
import Verif.Spec.Recover
import Verif.Props.Recover
import Verif.Spec.Attest
import Verif.Examples.Talk
import Verif.Examples.Talk0
import Verif.Examples.Talk1
import Verif.Props.Attest
import Verif.Spec.Rfc
import Verif.Props.Rfc
import Verif.Spec.Secret
import Verif.Proofs.Secret
import Verif.Props.Secret
import Verif.Spec.Effort
import Verif.Proofs.Effort
import Verif.Props.Effort
import Verif.Spec.Reboot
import Verif.Props.Reboot
import Verif.Spec.Anchor
import Verif.Examples.Anchor
import Verif.Props.Anchor
import Verif.Spec.Erase
import Verif.Proofs.Erase
import Verif.Props.Erase
import Verif.Model.Suite
import Verif.Props.Suite
import Verif.Examples.Flow
import Verif.Examples.Flow1
import Verif.Model.Tests
import Verif.Model.TestsDerive
import Verif.Model.TestsLocality
import Verif.Model.TestsFlags
import Verif.Model.TestsMax
import Verif.Model.TestsUnique
import Verif.Model.TestsRecursive
import Verif.Model.TestsUpdate
import Verif.Props.Tests
import Verif.Props.TestsDerive
import Verif.Props.TestsLocality
import Verif.Props.TestsFlags
import Verif.Props.TestsMax
import Verif.Props.TestsUnique
import Verif.Props.TestsRecursive
import Verif.Props.TestsUpdate
import Verif.Props.Flow
import Verif.Spec.Session
import Verif.Examples.Session
import Verif.Examples.Session1
import Verif.Props.Session
