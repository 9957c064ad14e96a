import Verif.Basic
import Verif.Check.Cipher
import Verif.Check.Curve
import Verif.Check.Hash
import Verif.Check.MAC
import Verif.Check.Private
import Verif.Check.RSA
import Verif.Check.Run
import Verif.Check.RunPrivate
import Verif.Check.SHA3
import Verif.Check.ZUC
import Verif.Model.AES
import Verif.Model.AESNI
import Verif.Model.AESTables
import Verif.Model.Blind
import Verif.Model.CBC
import Verif.Model.CFB
import Verif.Model.CMAC
import Verif.Model.CTR
import Verif.Model.Checked
import Verif.Model.Counter
import Verif.Model.CtrEnd
import Verif.Model.CurveMem
import Verif.Model.DES
import Verif.Model.DESOrder
import Verif.Model.DESTables
import Verif.Model.DSA
import Verif.Model.Digest
import Verif.Model.ECB
import Verif.Model.ECDSA
import Verif.Model.Elliptic
import Verif.Model.Facade
import Verif.Model.Flaky
import Verif.Model.FlakyOnce
import Verif.Model.HMAC
import Verif.Model.Handles
import Verif.Model.HashAmd64
import Verif.Model.InitialVec
import Verif.Model.IvObj
import Verif.Model.Keccak
import Verif.Model.Live
import Verif.Model.LongHash
import Verif.Model.MD5
import Verif.Model.OAEP
import Verif.Model.OAEPText
import Verif.Model.OFB
import Verif.Model.OutBuf
import Verif.Model.P224
import Verif.Model.P224Mem
import Verif.Model.P256
import Verif.Model.P256Mem
import Verif.Model.PKCS1
import Verif.Model.PSS
import Verif.Model.Padding
import Verif.Model.Print
import Verif.Model.RSA
import Verif.Model.RSABytes
import Verif.Model.RSAObj
import Verif.Model.RawMem
import Verif.Model.Reads
import Verif.Model.ReadsZUC
import Verif.Model.SHA1
import Verif.Model.SHA2
import Verif.Model.SM3
import Verif.Model.SM4
import Verif.Model.SM4Tables
import Verif.Model.SigObj
import Verif.Model.Sized
import Verif.Model.Stream
import Verif.Model.StreamErr
import Verif.Model.Trace
import Verif.Model.ZUC
import Verif.Model.ZUCTables
import Verif.Proof.AES
import Verif.Proof.AESNI
import Verif.Proof.Accept
import Verif.Proof.Agree
import Verif.Proof.Bleichenbacher
import Verif.Proof.CBC
import Verif.Proof.CFB
import Verif.Proof.CMAC
import Verif.Proof.CTR
import Verif.Proof.Checked
import Verif.Proof.Checked2
import Verif.Proof.Checked3
import Verif.Proof.CmacLaw
import Verif.Proof.Collision
import Verif.Proof.Counter
import Verif.Proof.CtrEnd
import Verif.Proof.CurveOrder
import Verif.Proof.CurvePrimes
import Verif.Proof.Cycle
import Verif.Proof.DES
import Verif.Proof.DESOrder
import Verif.Proof.DESRefine
import Verif.Proof.DSA
import Verif.Proof.DSALeak
import Verif.Proof.Damage
import Verif.Proof.DigestLaw
import Verif.Proof.ECB
import Verif.Proof.ECDSA
import Verif.Proof.Elliptic
import Verif.Proof.Extension
import Verif.Proof.Facade
import Verif.Proof.Flaky
import Verif.Proof.FlakyCTR
import Verif.Proof.FlakyChain
import Verif.Proof.FlakyLink
import Verif.Proof.FlakyMac
import Verif.Proof.FlakyOnce
import Verif.Proof.GF
import Verif.Proof.HMAC
import Verif.Proof.Handles
import Verif.Proof.HashAmd64
import Verif.Proof.HashLaw
import Verif.Proof.HashWords
import Verif.Proof.Interference
import Verif.Proof.Interval
import Verif.Proof.IvObj
import Verif.Proof.Jacobian
import Verif.Proof.Keccak
import Verif.Proof.KeccakApi
import Verif.Proof.KeccakPerm
import Verif.Proof.KeccakRounds
import Verif.Proof.Lengths
import Verif.Proof.Live
import Verif.Proof.LongHash
import Verif.Proof.Loops
import Verif.Proof.LucasPlus
import Verif.Proof.MD
import Verif.Proof.MD5
import Verif.Proof.MacChange
import Verif.Proof.Malleable
import Verif.Proof.Manger
import Verif.Proof.Multicollision
import Verif.Proof.OAEP
import Verif.Proof.OAEPText
import Verif.Proof.OFB
import Verif.Proof.OfInt
import Verif.Proof.Oracle
import Verif.Proof.OutBuf
import Verif.Proof.P224Carry
import Verif.Proof.P224Contract
import Verif.Proof.P224Curve
import Verif.Proof.P224Field
import Verif.Proof.P224Jac
import Verif.Proof.P224Limbs
import Verif.Proof.P224Mem
import Verif.Proof.P224Mul
import Verif.Proof.P224Red
import Verif.Proof.P224Reduce
import Verif.Proof.P224Residue
import Verif.Proof.P224Values
import Verif.Proof.P256Carry
import Verif.Proof.P256Curve
import Verif.Proof.P256Jac
import Verif.Proof.P256Mem
import Verif.Proof.P256Mul
import Verif.Proof.P256Reduce
import Verif.Proof.P256Scalar
import Verif.Proof.P256Sum
import Verif.Proof.P256Table
import Verif.Proof.PKCS1
import Verif.Proof.PSS
import Verif.Proof.PSSExact
import Verif.Proof.Padding
import Verif.Proof.Parts
import Verif.Proof.Primality
import Verif.Proof.Prompt
import Verif.Proof.RSA
import Verif.Proof.RSABytes
import Verif.Proof.RSAFault
import Verif.Proof.RSAObj
import Verif.Proof.RSASame
import Verif.Proof.RSATells
import Verif.Proof.Reads
import Verif.Proof.ReadsKey
import Verif.Proof.ReadsMore
import Verif.Proof.ReadsZUC
import Verif.Proof.ReceivedKey
import Verif.Proof.Robust
import Verif.Proof.Root
import Verif.Proof.Rounded
import Verif.Proof.SHA1
import Verif.Proof.SHA2
import Verif.Proof.SHA2Const
import Verif.Proof.SHA3
import Verif.Proof.SM3
import Verif.Proof.SM4
import Verif.Proof.SameDigest
import Verif.Proof.ShakeLaw
import Verif.Proof.SigObj
import Verif.Proof.Sized
import Verif.Proof.Sponge
import Verif.Proof.Stranger
import Verif.Proof.StrangerModes
import Verif.Proof.StreamErr
import Verif.Proof.Tape
import Verif.Proof.Toy
import Verif.Proof.Trace
import Verif.Proof.Unbiased
import Verif.Proof.WeakKeys
import Verif.Proof.Words
import Verif.Proof.ZUC
import Verif.Proof.ZUCCipher
import Verif.Proof.ZUCInj
import Verif.Proof.ZUCMac
import Verif.Proof.ZUCMacExact
import Verif.Props.AES
import Verif.Props.Accept
import Verif.Props.Agree
import Verif.Props.Blind
import Verif.Props.CBC
import Verif.Props.CFB
import Verif.Props.CTR
import Verif.Props.Checked
import Verif.Props.CmacKeys
import Verif.Props.Collision
import Verif.Props.Construct
import Verif.Props.Counter
import Verif.Props.CtrEnd
import Verif.Props.CurveOrder
import Verif.Props.DES
import Verif.Props.DESOrder
import Verif.Props.DSA
import Verif.Props.DSAForge
import Verif.Props.DSALeak
import Verif.Props.Damage
import Verif.Props.DamagedStream
import Verif.Props.Draws
import Verif.Props.ECB
import Verif.Props.ECDSA
import Verif.Props.ECForge
import Verif.Props.Elliptic
import Verif.Props.Extend
import Verif.Props.Extension
import Verif.Props.Facade
import Verif.Props.Flaky
import Verif.Props.FlakyChain
import Verif.Props.FlakyEmpty
import Verif.Props.FlakyOnce
import Verif.Props.Generated
import Verif.Props.GeneratedFits
import Verif.Props.Handles
import Verif.Props.HandlesSign
import Verif.Props.Hash
import Verif.Props.HashAmd64
import Verif.Props.HashReuse
import Verif.Props.InPlace
import Verif.Props.IvObj
import Verif.Props.KeccakPerm
import Verif.Props.KeccakRounds
import Verif.Props.KeySep
import Verif.Props.KeyStream
import Verif.Props.KeyUse
import Verif.Props.Lengths
import Verif.Props.Live
import Verif.Props.LongHash
import Verif.Props.MAC
import Verif.Props.MacChange
import Verif.Props.Malleable
import Verif.Props.MaxLen
import Verif.Props.ModesExact
import Verif.Props.Multicollision
import Verif.Props.NewExact
import Verif.Props.OAEP
import Verif.Props.OAEPText
import Verif.Props.OFB
import Verif.Props.Oracle
import Verif.Props.OutBuf
import Verif.Props.P224
import Verif.Props.P256
import Verif.Props.PKCS1
import Verif.Props.PSS
import Verif.Props.PSSExact
import Verif.Props.Padding
import Verif.Props.Parts
import Verif.Props.Period
import Verif.Props.Print
import Verif.Props.Prompt
import Verif.Props.RSA
import Verif.Props.RSABind
import Verif.Props.RSAFault
import Verif.Props.RSAObj
import Verif.Props.RSATells
import Verif.Props.RawMem
import Verif.Props.Reads
import Verif.Props.ReadsZUC
import Verif.Props.ReceivedKey
import Verif.Props.Refused
import Verif.Props.Robust
import Verif.Props.RobustKey
import Verif.Props.SHA3
import Verif.Props.SM4
import Verif.Props.ShakeBits
import Verif.Props.ShakeKeys
import Verif.Props.SigObj
import Verif.Props.Sized
import Verif.Props.Stranger
import Verif.Props.StreamErr
import Verif.Props.Trace
import Verif.Props.Truncate
import Verif.Props.Unbiased
import Verif.Props.WeakKeys
import Verif.Props.ZUC
import Verif.Props.ZUCMacExact
import Verif.Props.ZUCShare
import Verif.Spec.AES
import Verif.Spec.Agree
import Verif.Spec.Bleichenbacher
import Verif.Spec.Collision
import Verif.Spec.CtrEnd
import Verif.Spec.DES
import Verif.Spec.DSA
import Verif.Spec.DSALeak
import Verif.Spec.ECDSA
import Verif.Spec.Elliptic
import Verif.Spec.Extension
import Verif.Spec.Facade
import Verif.Spec.Flaky
import Verif.Spec.FlakyChain
import Verif.Spec.FlakyEmpty
import Verif.Spec.FlakyOnce
import Verif.Spec.Hash
import Verif.Spec.Iv
import Verif.Spec.Keccak
import Verif.Spec.KeccakRounds
import Verif.Spec.KeySep
import Verif.Spec.Live
import Verif.Spec.LongHash
import Verif.Spec.MAC
import Verif.Spec.MD
import Verif.Spec.MD5
import Verif.Spec.Manger
import Verif.Spec.Modes
import Verif.Spec.Multicollision
import Verif.Spec.Oracle
import Verif.Spec.OutBuf
import Verif.Spec.Outcome
import Verif.Spec.P224
import Verif.Spec.P256
import Verif.Spec.PKCS1
import Verif.Spec.PSSVerify
import Verif.Spec.Parts
import Verif.Spec.Period
import Verif.Spec.Prompt
import Verif.Spec.RSA
import Verif.Spec.RawMem
import Verif.Spec.Robust
import Verif.Spec.Root
import Verif.Spec.SHA
import Verif.Spec.SHA3
import Verif.Spec.SM3
import Verif.Spec.SM4
import Verif.Spec.Stranger
import Verif.Spec.Streams
import Verif.Spec.Truncate
import Verif.Spec.WeakKeys
import Verif.Spec.ZUC
import Verif.Spec.ZUCShare
