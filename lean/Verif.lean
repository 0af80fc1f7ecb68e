import Verif.Model.BlockCipher
import Verif.Model.StreebogTables
import Verif.Model.Modes
import Verif.Model.Streebog
import Verif.Model.Hmac
import Verif.Model.Pbkdf
import Verif.Model.Random
import Verif.Model.Signature
import Verif.Model.Curves
import Verif.Model.Oid
import Verif.Model.Alias
import Verif.Props.BlockCipher
import Verif.Props.RoundTrip
import Verif.Props.Modes
import Verif.Props.RegisterEq
import Verif.Props.Mac
import Verif.Props.New
import Verif.Props.Clear
import Verif.Props.Hash
import Verif.Props.Hmac
import Verif.Props.Pbkdf
import Verif.Props.Random
import Verif.Props.RandomStore
import Verif.Props.Alias
import Verif.Props.Oid
import Verif.Props.Utils
import Verif.Props.CurveCheck
import Verif.Props.Signature
import Verif.Props.SignatureExamples
import Verif.Props.Malleability
import Verif.Props.HmacStore
import Verif.Props.Hex
import Verif.Props.PbkdfStore
import Verif.Props.SignatureBuiltin
import Verif.Props.SignatureNonce
import Verif.Props.CipherStore
import Verif.Props.Ident
import Verif.Props.CipherAny
import Verif.Props.MacStore
import Verif.Props.BlockDirect
import Verif.Props.SignatureKeys
import Verif.Props.MacChange
import Verif.Props.Lengths
import Verif.Props.Depth
import Verif.Props.Together
import Verif.Props.Memory
import Verif.Props.Collision
import Verif.Props.HashPerm
import Verif.Props.WeakKeys
import Verif.Props.Field
import Verif.Props.MacMask
import Verif.Props.SignatureWrap
import Verif.Props.OidName
import Verif.Props.Destroy
import Verif.Props.SignatureForge
import Verif.Props.KeystreamReuse
import Verif.Props.Timing
import Verif.Props.Version
import Verif.Model.TracePbkdf
import Verif.Props.PbkdfWork
import Verif.Props.SourceUtils
import Verif.Props.SourceBlock
import Verif.Props.SourceHash
import Verif.Props.SourceHmac
import Verif.Props.SourcePbkdf
import Verif.Props.SourceRandom
import Verif.Props.SourceModes
import Verif.Props.SourceMac
import Verif.Props.SourceOid
import Verif.Props.SourceSignature
import Verif.Props.SourceSignatureStd
import Verif.Props.SourceDefects
import Verif.Props.SourceDefectsSig
import Verif.Props.SourceDefectsMore
import Verif.Props.SourceBounds
import Verif.Props.SourceNames
import Verif.Props.TwoObjects
import Verif.Props.SourceTogether
import Verif.Props.SourceTogetherSig
import Verif.Props.SourceIsolation
import Verif.Props.SourceFresh
import Verif.Props.SourceDestroy
import Verif.Props.SourcePaths
import Verif.Props.SourceExceptions
import Verif.Props.SourceExceptionsCipher
import Verif.Props.SourceExceptionsOther
import Verif.Props.SourceExceptionsCases
import Verif.Props.SourceContents
import Verif.Props.SourceContentsCipher
import Verif.Props.SourceContentsSig
import Verif.Props.Compromise
import Verif.Props.SignatureCompromise
import Verif.Props.SeveralModes
import Verif.Props.SignatureDraws
import Verif.Props.Diffusion
import Verif.Props.SboxDiff
import Verif.Props.HashDiffusion
import Verif.Props.RelatedKeys
import Verif.Props.SignatureOwner
import Verif.Props.SboxLinear
import Verif.Props.Masks
import Verif.Props.Reflection
import Verif.Props.Dialog
import Verif.Props.CommonPrefix
import Verif.Props.MacExtend
import Verif.SourceProofs.Dialog
import Verif.Props.SourceDialog
import Verif.Props.SourceParties
import Verif.Props.SourceThings
import Verif.Props.SourceProgram
import Verif.Props.SourceSealed
import Verif.Props.SourceSigned
import Verif.Props.SourceNonce
import Verif.Props.SourceAnyCurve
import Verif.Proofs.BasePoint
import Verif.Props.SourceBasePoint
import Verif.Props.SourcePublicKey
import Verif.Axioms
import Verif.Tests.Cipher
import Verif.Tests.Other
