import Verif.Props.Words
import Verif.Props.Unreduced
import Verif.Props.Portable
import Verif.Props.X86
import Verif.Props.Field
import Verif.Props.Scalar
import Verif.Props.Codec
import Verif.Props.Hex
import Verif.Props.Division
import Verif.Props.Hash
import Verif.Props.Group
import Verif.Props.WeightedSum
import Verif.Props.GroupCodec
import Verif.Props.Keys
import Verif.Props.Subgroup
import Verif.Props.Pairing
import Verif.Props.Bilinear
import Verif.Props.MapToCurve
import Verif.Props.Signatures
import Verif.Props.Undefined
import Verif.Props.Alias
import Verif.Props.AliasScalar
import Verif.Props.Tags
import Verif.Props.Order
import Verif.Props.Binding
import Verif.Props.Same
import Verif.Props.Balance
import Verif.Props.Trace
import Verif.Props.Endomorphism
import Verif.Props.Builds
import Verif.Props.Calls
import Verif.Props.HashExact
import Verif.Props.Dispatch
import Verif.Props.Threshold
import Verif.Props.Derivation
import Verif.Props.Inverse
import Verif.Props.Augmented
import Verif.Props.Collision
import Verif.Props.Target
import Verif.Props.Spread
import Verif.Props.Outside
import Verif.Props.BuildsExact
import Verif.Props.OffCurve
import Verif.Props.Strings
import Verif.Props.SquareExact
import Verif.Props.Batch
import Verif.Props.Quorum
import Verif.Props.Malloc
import Verif.Props.PopRogue
import Verif.Props.Sha256Object
import Verif.Props.Cancel
import Verif.Props.DivisionRun
import Verif.Props.CallbackSteps
import Verif.Props.Eip2333
import Verif.Props.Cfrg
import Verif.Props.StaticInit
import Verif.Props.WhichRoot
import Verif.Props.Product
import Verif.Props.Eip2537
import Verif.Props.Verifiable
import Verif.Props.Blind
import Verif.Props.Secrets
import Verif.Props.HostBytes
import Verif.Props.Platform
import Verif.Props.Freed
import Verif.Props.BranchRun
import Verif.Props.BucketRun
import Verif.Props.InverseBranches
import Verif.Props.Counts
import Verif.Props.Unchecked
import Verif.Props.Buffers
import Verif.Props.Overlay
import Verif.Props.OverlayPoint
import Verif.Props.LiveArguments
import Verif.Props.Vectors
import Verif.Props.Commitment
import Verif.Props.Snark
import Verif.Props.Knowledge
import Verif.Props.Vector
import Verif.Props.Encryption
import Verif.Props.Escrow
import Verif.Props.WeakSignature
import Verif.Props.Accumulator
