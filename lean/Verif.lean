import Verif.Lemmas.All
import Verif.Lemmas.AnyWord
import Verif.Lemmas.Average
import Verif.Lemmas.Bits
import Verif.Lemmas.Blocks
import Verif.Lemmas.Buffers
import Verif.Lemmas.Closed
import Verif.Lemmas.Core
import Verif.Lemmas.DigestArray
import Verif.Lemmas.DigestOps
import Verif.Lemmas.Distinct
import Verif.Lemmas.Engine
import Verif.Lemmas.Examples
import Verif.Lemmas.Exceptions
import Verif.Lemmas.Extended
import Verif.Lemmas.Floats
import Verif.Lemmas.Flood
import Verif.Lemmas.Fnv
import Verif.Lemmas.FnvBits
import Verif.Lemmas.FnvPeriod
import Verif.Lemmas.FnvResults
import Verif.Lemmas.FnvRuns
import Verif.Lemmas.FnvSearch
import Verif.Lemmas.FnvWindow
import Verif.Lemmas.Future
import Verif.Lemmas.FutureMurmur
import Verif.Lemmas.HashAppend
import Verif.Lemmas.Hmac
import Verif.Lemmas.HmacObjects
import Verif.Lemmas.Implements
import Verif.Lemmas.Integral
import Verif.Lemmas.IntegralWindows
import Verif.Lemmas.Local
import Verif.Lemmas.Md
import Verif.Lemmas.Md5
import Verif.Lemmas.MessageEq
import Verif.Lemmas.MessagePort
import Verif.Lemmas.MessageRep
import Verif.Lemmas.MessageSame
import Verif.Lemmas.Messages
import Verif.Lemmas.Murmur
import Verif.Lemmas.NullAppend
import Verif.Lemmas.NullCalls
import Verif.Lemmas.Parts
import Verif.Lemmas.Pigeon
import Verif.Lemmas.Platform
import Verif.Lemmas.Portable
import Verif.Lemmas.Programs
import Verif.Lemmas.Reduction
import Verif.Lemmas.Rip128
import Verif.Lemmas.Rip160
import Verif.Lemmas.Roots
import Verif.Lemmas.Rounds
import Verif.Lemmas.Seeds
import Verif.Lemmas.Sha1
import Verif.Lemmas.Sha2
import Verif.Lemmas.Sines
import Verif.Lemmas.Sip32
import Verif.Lemmas.Sip64
import Verif.Lemmas.Spooky
import Verif.Lemmas.SpookyMix
import Verif.Lemmas.SpookyWrap
import Verif.Lemmas.Standards
import Verif.Lemmas.States
import Verif.Lemmas.Stream
import Verif.Lemmas.Threads
import Verif.Lemmas.Traits
import Verif.Lemmas.Unordered
import Verif.Lemmas.Updates
import Verif.Lemmas.UserAlg
import Verif.Lemmas.Values
import Verif.Lemmas.Work
import Verif.Lemmas.XX32
import Verif.Lemmas.XX64
import Verif.Lemmas.XxBytes
import Verif.Model.Alg
import Verif.Model.Benchmark
import Verif.Model.Block
import Verif.Model.Core
import Verif.Model.Digest
import Verif.Model.DigestOps
import Verif.Model.Examples
import Verif.Model.Fnv
import Verif.Model.HashAppend
import Verif.Model.Hmac
import Verif.Model.Integral
import Verif.Model.Md5
import Verif.Model.Murmur
import Verif.Model.Objects
import Verif.Model.Overloads
import Verif.Model.Rip128
import Verif.Model.Rip160
import Verif.Model.Sha1
import Verif.Model.Sha2
import Verif.Model.Sip32
import Verif.Model.Sip64
import Verif.Model.Spooky
import Verif.Model.Types
import Verif.Model.XX32
import Verif.Model.XX64
import Verif.Props.Average
import Verif.Props.Benchmark
import Verif.Props.Buffers
import Verif.Props.Closed
import Verif.Props.Constants
import Verif.Props.DigestArray
import Verif.Props.Digests
import Verif.Props.Distinct
import Verif.Props.Every
import Verif.Props.Examples
import Verif.Props.Exceptions
import Verif.Props.Extended
import Verif.Props.Extension
import Verif.Props.Flood
import Verif.Props.FnvBits
import Verif.Props.FnvPeriod
import Verif.Props.FnvRuns
import Verif.Props.FnvWindow
import Verif.Props.Future
import Verif.Props.FutureMurmur
import Verif.Props.HashAppend
import Verif.Props.Histories
import Verif.Props.HmacObjects
import Verif.Props.IntegerTable
import Verif.Props.Integral
import Verif.Props.IntegralWindows
import Verif.Props.LegacySeeds
import Verif.Props.Local
import Verif.Props.NullAppend
import Verif.Props.NullCalls
import Verif.Props.Objects
import Verif.Props.Overloads
import Verif.Props.Parts
import Verif.Props.Permute
import Verif.Props.PermuteNarrow
import Verif.Props.Pigeon
import Verif.Props.Reduction
import Verif.Props.Repeated
import Verif.Props.Seeds
import Verif.Props.SeedsExact
import Verif.Props.SpookyWrap
import Verif.Props.Standards
import Verif.Props.States
import Verif.Props.Threads
import Verif.Props.Traits
import Verif.Props.Truncated
import Verif.Props.TwoSeeds
import Verif.Props.Unordered
import Verif.Props.Updates
import Verif.Props.UserAlg
import Verif.Props.Work
import Verif.Spec.Algorithms
import Verif.Spec.Blocks
import Verif.Spec.Buffers
import Verif.Spec.Bytes
import Verif.Spec.Calls
import Verif.Spec.Closed
import Verif.Spec.Constants
import Verif.Spec.DigestArray
import Verif.Spec.Examples
import Verif.Spec.Exceptions
import Verif.Spec.Flood
import Verif.Spec.Fnv
import Verif.Spec.FnvBits
import Verif.Spec.FnvRuns
import Verif.Spec.Future
import Verif.Spec.Hex
import Verif.Spec.History
import Verif.Spec.Hmac
import Verif.Spec.HmacObjects
import Verif.Spec.Local
import Verif.Spec.Md
import Verif.Spec.Md5
import Verif.Spec.Messages
import Verif.Spec.Murmur
import Verif.Spec.NullAppend
import Verif.Spec.NullCalls
import Verif.Spec.Objects
import Verif.Spec.Parts
import Verif.Spec.Platforms
import Verif.Spec.Programs
import Verif.Spec.Reach
import Verif.Spec.Reduction
import Verif.Spec.Ripemd
import Verif.Spec.Roots
import Verif.Spec.Same
import Verif.Spec.Sha1
import Verif.Spec.Sha2
import Verif.Spec.Sip
import Verif.Spec.Spooky
import Verif.Spec.SpookyWrap
import Verif.Spec.Stream
import Verif.Spec.Threads
import Verif.Spec.Traits
import Verif.Spec.Unordered
import Verif.Spec.Updates
import Verif.Spec.UserAlg
import Verif.Spec.Work
import Verif.Spec.XX
import Verif.Tests.Append
import Verif.Tests.Vectors
