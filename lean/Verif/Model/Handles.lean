import Verif.Model.DSA
import Verif.Model.ECDSA
import Verif.Model.PSS
import Verif.Model.OAEP
import Verif.Model.PKCS1
import Verif.Model.ZUC
import Verif.Model.IvObj

/-!
# What objects hand out: their hash, their random source, copies of themselves

The methods `digest_func` and `rand_source` of the public-key objects and the hand-written `Clone` implementations of the modes with an IV and of
`ZUCCipher`. They do not change the object, so they only return what they hand out. `clone()` of a hash or of a random source is taken to return an equal
value, as the derived implementations of this crate do; the random sources are not part of the crate.
-/

namespace Verif.Model
variable {σ S C : Type}

/-- `DSA::digest_func`, src/dsa/dsa.rs:210-214. -/
def DSA.digestFunc (d : Digest S) (o : DSA.Obj σ S) : Res S := d.reset o.hf

/-- `DSA::rand_source`, src/dsa/dsa.rs:219-221. -/
def DSA.randSource (o : DSA.Obj σ S) : σ := o.rd

/-- `ECDSA::digest_func`, src/ecdsa/ecdsa.rs:23-27. -/
def ECDSA.digestFunc (d : Digest S) (o : ECDSA.Obj σ S C) : Res S := d.reset o.hf

/-- `ECDSA::rand_source`, src/ecdsa/ecdsa.rs:32-34. -/
def ECDSA.randSource (o : ECDSA.Obj σ S C) : σ := o.rd

/-- `PSS::digest_func`, src/rsa/pss.rs:25-29. -/
def PSS.digestFunc (d : Digest S) (o : PSS.Obj σ S) : Res S := d.reset o.hf

/-- `PSS::rand_source`, src/rsa/pss.rs:34-36. -/
def PSS.randSource (o : PSS.Obj σ S) : σ := o.rd

/-- `OAEP::digest_func`, src/rsa/oaep.rs:285-289. -/
def OAEP.digestFunc (d : Digest S) (o : OAEP.Obj σ S) : Res S := d.reset o.hf

/-- `OAEP::rand_source`, src/rsa/oaep.rs:295-297. -/
def OAEP.randSource (o : OAEP.Obj σ S) : σ := o.rd

/-- `PKCS1::digest_func`, src/rsa/pkcs1.rs:252-258. -/
def PKCS1.digestFunc (d : Digest S) (o : PKCS1.Obj σ S) : Res S := d.reset o.hf

/-- `PKCS1::rand_source`, src/rsa/pkcs1.rs:264-268. -/
def PKCS1.randSource (o : PKCS1.Obj σ S) : σ := o.rd

/-- `ZUCCipher::clone`, src/zuc/zuc_cipher.rs:15-24: register, parameters and the key bytes not used yet. -/
def ZUCCipher.clone (s : ZUCCipher.State) : ZUCCipher.State := { zuc := s.zuc, ck := s.ck, iv := s.iv, key := s.key }

/-- The IV part of `clone` of the modes, src/cipher_mode/cbc.rs:205-217, cfb.rs:221-234, ofb.rs:122-133: the current IV and the IV source
(`DefaultInitialVec` derives `Clone`, initial_vec.rs:8-13). The new empty scratch buffer is no part of the model. -/
def IvObj.clone {ρ : Type} (o : IvObj ρ) : IvObj ρ := { curIv := o.curIv, src := o.src }

end Verif.Model
