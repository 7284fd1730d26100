import Verif.Rust
import Verif.Model.Engine
import Verif.Model.Sha256
import Verif.Model.Sha512
import Verif.Model.Sha256Simd
import Verif.Model.Sha256Engine
import Verif.Model.Sha256Const
import Verif.Model.Sha1
import Verif.Model.Ripemd160
import Verif.Model.Siphash24
import Verif.Model.Hmac
import Verif.Spec.Bytes
import Verif.Spec.Sha2
import Verif.Spec.Sha1
import Verif.Spec.Ripemd160
import Verif.Spec.Siphash
import Verif.Spec.Hmac
import Verif.Proofs.Bytes
import Verif.Proofs.BlockEngine
import Verif.Proofs.Sha2
import Verif.Proofs.Sha256Simd
import Verif.Proofs.Sha1
import Verif.Proofs.Ripemd160
import Verif.Spec.Log
import Verif.Proofs.Lawful
import Verif.Proofs.MdEngine
import Verif.Proofs.Siphash
import Verif.Proofs.Hmac
import Verif.Proofs.Sha256Const
import Verif.Model.Alg
import Verif.Model.Bip340
import Verif.Spec.AlgLog
import Verif.Proofs.Alg
import Verif.Proofs.AlgHash
import Verif.Proofs.History
import Verif.Proofs.Resume
import Verif.Props.Conformance
import Verif.Props.Inputs
import Verif.Props.Tagged
import Verif.Props.Midstate
import Verif.Props.MidstateBugs
import Verif.Props.Hmac
import Verif.Props.Siphash
import Verif.Model.Run
import Verif.Proofs.Builds
import Verif.Props.Builds
import Verif.Model.Programs
import Verif.Spec.Programs
import Verif.Proofs.Programs
import Verif.Props.Programs
import Verif.Props.Limits
import Verif.Proofs.Padding
import Verif.Model.Trace
import Verif.Proofs.Trace
import Verif.Props.Padding
import Verif.Props.Collisions
import Verif.Spec.Constants
import Verif.Props.Constants
import Verif.Proofs.Overflow
import Verif.Props.Overflow
import Verif.Model.Cmp
import Verif.Proofs.Cmp
import Verif.Props.Cmp
import Verif.Model.Hex
import Verif.Model.HashType
import Verif.Model.Serde
import Verif.Model.Write
import Verif.Spec.Hex
import Verif.Spec.Schema
import Verif.Spec.Utf8
import Verif.Proofs.Utf8
import Verif.Proofs.Hex
import Verif.Proofs.HashType
import Verif.Proofs.Serde
import Verif.Props.HashType
import Verif.Props.Serde
import Verif.Props.Write
import Verif.Model.HashApi
import Verif.Props.HashApi
import Verif.Proofs.Bijections
import Verif.Props.Permutations
import Verif.Spec.Shape
import Verif.Spec.Panics
import Verif.Proofs.Portable
import Verif.Props.Shape
import Verif.Props.Work
import Verif.Props.Reductions
import Verif.Props.Copy
import Verif.Props.Safety
import Verif.Props.Portable
import Verif.Model.Unwind
import Verif.Spec.Unwind
import Verif.Proofs.Unwind
import Verif.Props.State
import Verif.Props.Unwind
import Verif.Proofs.SameBuilds
import Verif.Props.SameBuilds
import Verif.Props.Wrapped
import Verif.Props.Checked
import Verif.Props.FromMidstate
import Verif.Props.HmacMidstate
import Verif.Props.Contract
import Verif.Model.Observe
import Verif.Model.ObserveBlocks
import Verif.Model.ObserveEngines
import Verif.Proofs.Observe
import Verif.Proofs.ObserveBlocks
import Verif.Proofs.ObserveEngines
import Verif.Proofs.ObservePrograms
import Verif.Props.Observe
import Verif.Tests
import Verif.Check.Instances
import Verif.Check.Sound
import Verif.Check.Values
import Verif.Check.SoundValues
import Verif.Check.Limits
import Verif.Check.SoundLimits
import Verif.Check.States
import Verif.Check.SoundStates
import Verif.Check.Observe
import Verif.Check.SoundObserve
import Verif.Check.Text
import Verif.Check.SoundText
import Verif.Check.TextTypes
import Verif.Check.SoundTextTypes
import Verif.Check.Work
import Verif.Check.SoundWork
import Verif.Check.Run
import Verif.Source.Cmp
import Verif.Source.Hmac
import Verif.Source.Impls
import Verif.Source.Lib
import Verif.Source.Prelude
import Verif.Source.Ripemd160
import Verif.Source.Sha1
import Verif.Source.Sha256
import Verif.Source.Sha256t
import Verif.Source.Sha384
import Verif.Source.Sha512
import Verif.Source.Sha512_256
import Verif.Source.Siphash24
import Verif.Proofs.Source.Common
import Verif.Proofs.Source.Ripemd160
import Verif.Proofs.Source.Ripemd160Rounds
import Verif.Proofs.Source.Rounds
import Verif.Proofs.Source.Sha1
import Verif.Proofs.Source.Sha256
import Verif.Proofs.Source.Sha256Rounds
import Verif.Proofs.Source.Sha256Simd
import Verif.Proofs.Source.Sha384
import Verif.Proofs.Source.Sha512
import Verif.Proofs.Source.Sha512Rounds
import Verif.Proofs.Source.Sha512_256
import Verif.Model.Text
import Verif.Proofs.Source.Siphash24Load
import Verif.Proofs.Source.Siphash24
import Verif.Proofs.Source.Cmp
import Verif.Proofs.Source.Hmac
import Verif.Proofs.Source.Sims
import Verif.Proofs.Source.Programs
import Verif.Proofs.Source.Sha256Const
import Verif.Props.Text
import Verif.Model.TextTypes
import Verif.Proofs.Source.Types
import Verif.Props.TextTypes
import Verif.Props.TextWrite
import Verif.Model.Utf8
import Verif.Model.TextSerde
import Verif.Source.SerdeMacros
import Verif.Spec.SchemaText
import Verif.Proofs.Source.Serde
import Verif.Props.TextSerde
import Verif.Check.TextSerde
import Verif.Check.SoundTextSerde
import Verif.Proofs.Source.Reach
import Verif.Props.TextPrograms
import Verif.Props.TextContract
import Verif.Props.TextMidstate
import Verif.Check.TextEngines
import Verif.Check.TextMid
import Verif.Check.SoundTextEngines
import Verif.Check.SoundTextMid
import Verif.Seen.Cmp
import Verif.Seen.Hmac
import Verif.Seen.Lib
import Verif.Seen.Prelude
import Verif.Seen.Ripemd160
import Verif.Seen.Sha1
import Verif.Seen.Sha256
import Verif.Seen.Sha256t
import Verif.Seen.Sha384
import Verif.Seen.Sha512
import Verif.Seen.Sha512_256
import Verif.Seen.Siphash24
import Verif.Model.TextSeen
import Verif.Proofs.Seen.Basic
import Verif.Proofs.Seen.Blind
import Verif.Proofs.Seen.BlockCosts
import Verif.Proofs.Seen.Blocks
import Verif.Proofs.Seen.Cmp
import Verif.Proofs.Seen.ConstCosts
import Verif.Proofs.Seen.Costs
import Verif.Proofs.Seen.EngineCosts
import Verif.Proofs.Seen.Engines
import Verif.Proofs.Seen.Erase
import Verif.Proofs.Seen.Erases
import Verif.Proofs.Seen.LinesRipemd160
import Verif.Proofs.Seen.LinesSha256
import Verif.Proofs.Seen.LinesSha512
import Verif.Proofs.Seen.OneShot
import Verif.Proofs.Seen.Programs
import Verif.Proofs.Seen.Results
import Verif.Proofs.Seen.Sha256Const
import Verif.Proofs.Seen.Siphash24
import Verif.Proofs.Seen.Tactic
import Verif.Spec.TextWork
import Verif.Proofs.Seen.Linear
import Verif.Proofs.Seen.SipCosts
import Verif.Proofs.Seen.Linears
import Verif.Proofs.Seen.WorkOf
import Verif.Props.TextSeen
import Verif.Props.TextWork
import Verif.Check.TextWork
import Verif.Check.SoundTextWork
import Verif.Check.TextSeen
import Verif.Check.SoundTextSeen
import Verif.Left.Prelude
import Verif.Left.Hmac
import Verif.Left.Ripemd160
import Verif.Left.Sha1
import Verif.Left.Sha256
import Verif.Left.Sha256t
import Verif.Left.Sha384
import Verif.Left.Sha512
import Verif.Left.Sha512_256
import Verif.Left.Siphash24
import Verif.Model.TextLeft
import Verif.Proofs.Left.Agree
import Verif.Proofs.Left.Block
import Verif.Proofs.Left.Engines
import Verif.Proofs.Left.Programs
import Verif.Props.TextUnwind
import Verif.Check.TextLeft
import Verif.Check.SoundTextLeft
import Verif.Spec.TextCollide
import Verif.Spec.Shattered
import Verif.Proofs.Source.Collide
import Verif.Props.TextCollisions
import Verif.Props.TextShattered
import Verif.Props.TextKeys
import Verif.Props.TextExtension
import Verif.Props.TextChecked
import Verif.Check.TextCollide
import Verif.Check.SoundTextCollide
import Verif.Props.TextPermutations
import Verif.Check.TextPermute
import Verif.Check.SoundTextPermute
import Verif.Props.TextLimits
import Verif.Check.TextLimits
import Verif.Check.SoundTextLimits
import Verif.Model.TextHash
import Verif.Props.TextHash
import Verif.Check.TextHash
import Verif.Check.SoundTextHash
import Verif.Proofs.Decides
import Verif.Props.TextDecides
import Verif.Check.TextDecides
import Verif.Check.SoundTextDecides
import Verif.Props.TextCopy
import Verif.Check.TextCopy
import Verif.Check.SoundTextCopy
import Verif.Props.TextSiphash
import Verif.Check.TextSiphash
import Verif.Check.SoundTextSiphash
import Verif.Spec.Resume
import Verif.Props.TextResume
import Verif.Check.TextResume
import Verif.Check.SoundTextResume
import Verif.Props.TextStored
import Verif.Check.TextStored
import Verif.Check.SoundTextStored
import Verif.Props.TextTags
import Verif.Check.TextTags
import Verif.Check.SoundTextTags
import Verif.Props.TextConstants
import Verif.Check.TextConstants
import Verif.Check.SoundTextConstants
import Verif.Props.TextSorted
import Verif.Check.TextSorted
import Verif.Check.SoundTextSorted
import Verif.Model.TextVerify
import Verif.Props.TextVerify
import Verif.Check.TextVerify
import Verif.Check.SoundTextVerify
import Verif.Spec.Kept
import Verif.Proofs.Kept
import Verif.Model.TextKept
import Verif.Props.TextKept
import Verif.Check.TextKept
import Verif.Check.SoundTextKept
import Verif.Spec.TextMulti
import Verif.Props.TextMulti
import Verif.Props.TextMultiExist
import Verif.Check.TextMulti
import Verif.Check.SoundTextMulti
import Verif.Spec.Decimal
import Verif.Props.TextErrors
import Verif.Check.TextErrors
import Verif.Check.SoundTextErrors
import Verif.Spec.TextMoves
import Verif.Props.TextMoves
import Verif.Check.TextMoves
import Verif.Check.SoundTextMoves
import Verif.Spec.OtherSerde
import Verif.Props.OtherSerde
import Verif.Check.OtherSerde
import Verif.Check.SoundOtherSerde
import Verif.Model.TextSize
import Verif.Props.TextSize
import Verif.Check.TextSize
import Verif.Check.SoundTextSize
import Verif.Props.TextSchema
import Verif.Check.TextSchema
import Verif.Check.SoundTextSchema
import Verif.Props.TextUnkeyed
import Verif.Check.TextUnkeyed
import Verif.Check.SoundTextUnkeyed
import Verif.Proofs.Cuts
import Verif.Props.TextCuts
import Verif.Check.TextCuts
import Verif.Check.SoundTextCuts
