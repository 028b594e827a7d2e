import Verif.Props.Stream
import Verif.Props.Asn1
import Verif.Props.Cbor
import Verif.Props.X509
import Verif.Props.Dice
import Verif.Props.Oids
import Verif.Props.Sha2
import Verif.Props.Digest
import Verif.Props.BsslDigest
import Verif.Props.Keys
import Verif.Props.Issue
import Verif.Props.Macros
import Verif.Props.Reboot
import Verif.Props.Testing
import Verif.Props.NullStream
import Verif.Props.Render
import Verif.Props.Separation
import Verif.Props.Schedule
import Verif.Model.Arena
import Verif.Spec.Arena
import Verif.Lemmas.Arena
import Verif.Props.Arena
import Verif.Lemmas.Frame
import Verif.Props.Frame
import Verif.Model.Steps
import Verif.Spec.Steps
import Verif.Lemmas.Prog
import Verif.Lemmas.Threads
import Verif.Lemmas.Footprint
import Verif.Lemmas.Steps
import Verif.Lemmas.Timing
import Verif.Props.Steps
import Verif.Model.Writers
import Verif.Spec.Writers
import Verif.Lemmas.Writers
import Verif.Lemmas.WritersAll
import Verif.Props.Writers
import Verif.Spec.Size
import Verif.Lemmas.Size
import Verif.Props.Size
import Verif.Model.Resources
import Verif.Spec.Resources
import Verif.Lemmas.Resources
import Verif.Props.Resources
import Verif.Spec.Chain
import Verif.Props.Chain
import Verif.Props.ByteOrder
import Verif.Model.Concurrent
import Verif.Spec.Concurrent
import Verif.Lemmas.Concurrent
import Verif.Props.Concurrent
import Verif.Spec.Interrupt
import Verif.Lemmas.Once
import Verif.Props.Interrupt
import Verif.Model.Sized
import Verif.Spec.Sized
import Verif.Lemmas.Sized
import Verif.Lemmas.SizedAll
import Verif.Lemmas.SizedCert
import Verif.Props.Sized
import Verif.Model.SizedDigest
import Verif.Spec.SizedDigest
import Verif.Lemmas.SizedDigest
import Verif.Props.SizedDigest
import Verif.Model.SizedBssl
import Verif.Spec.SizedBssl
import Verif.Lemmas.SizedBssl
import Verif.Props.SizedBssl
import Verif.Model.Alloc
import Verif.Spec.Alloc
import Verif.Lemmas.Alloc
import Verif.Lemmas.AllocThreads
import Verif.Props.Alloc
import Verif.Model.OutOfMemory
import Verif.Spec.OutOfMemory
import Verif.Lemmas.OutOfMemory
import Verif.Props.OutOfMemory
import Verif.Spec.Cost
import Verif.Lemmas.Cost
import Verif.Lemmas.CostWriters
import Verif.Props.Cost
import Verif.Spec.Weak
import Verif.Props.Weak
import Verif.Spec.Defined
import Verif.Lemmas.Defined
import Verif.Props.Defined
import Verif.Spec.Claims
import Verif.Props.Claims
import Verif.Model.Pointers
import Verif.Props.Pointers
import Verif.Spec.Profile
import Verif.Lemmas.Profile
import Verif.Props.Profile
import Verif.Model.Callbacks
import Verif.Spec.Callbacks
import Verif.Lemmas.Callbacks
import Verif.Props.Callbacks
import Verif.Tests.RepoVectors
import Verif.Tests.Rfc6979
import Verif.Tests.DerivedKey
import Verif.Tests.DigestVectors
import Verif.Spec.Overlap
import Verif.Props.Overlap
import Verif.Spec.Curves
import Verif.Props.Curves
import Verif.Tests.InstancesCore
import Verif.Tests.InstancesPki
import Verif.Tests.InstancesDigest
