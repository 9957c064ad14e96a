import Verif.Model.SHA1
import Verif.Model.SHA2
import Verif.Model.Keccak

/-!
# The enumerations `SHA` (src/sha/sha.rs) and `SHA3` (src/sha3/sha3.rs)

Objects which hold one of several hash objects and forward every call to it.
-/

namespace Verif.Model.Facade

/-- `SHAType` and `SHA`, sha/sha.rs:4-19. -/
inductive SHA where
  | sha1 (x : MD.State SHA1.Five)
  | sha256 (x : MD.State (SHA2.Eight 32))
  | sha224 (x : MD.State (SHA2.Eight 32))
  | sha384 (x : MD.State (SHA2.Eight 64))
  | sha512 (x : MD.State (SHA2.Eight 64))
  | sha512t224 (x : MD.State (SHA2.Eight 64))
  | sha512t256 (x : MD.State (SHA2.Eight 64))
  | sha512t (x : SHA2.T)

/-- `SHA::sha1`, sha/sha.rs:22-26. -/
def newSha1 : SHA := .sha1 SHA1.new
/-- `SHA::sha256`, sha/sha.rs:28-32. -/
def newSha256 : SHA := .sha256 (SHA2.new256 SHA2.init256)
/-- `SHA::sha224`, sha/sha.rs:34-38. -/
def newSha224 : SHA := .sha224 (SHA2.new256 SHA2.init224)
/-- `SHA::sha384`, sha/sha.rs:40-44. -/
def newSha384 : SHA := .sha384 (SHA2.new512 SHA2.init384)
/-- `SHA::sha512`, sha/sha.rs:46-50. -/
def newSha512 : SHA := .sha512 (SHA2.new512 SHA2.init512)
/-- `SHA::sha512_256`, sha/sha.rs:63-67. -/
def newSha512t256 : SHA := .sha512t256 (SHA2.new512 SHA2.init512t256)
/-- `SHA::sha512_224`, sha/sha.rs:70-74. -/
def newSha512t224 : SHA := .sha512t224 (SHA2.new512 SHA2.init512t224)

/-- `SHA::sha512t`, sha/sha.rs:52-60; `unwrap` of `None` panics. -/
def newSha512t (bitsLen : Nat) : Res (Option SHA) :=
  if bitsLen ≤ 512 then do
    match ← SHA2.newT bitsLen with
    | some t => .ok (some (.sha512t t))
    | none => .error .panic
  else .ok none

/-- `Digest for SHA`, sha/sha.rs:77-142. -/
def sha : Digest SHA where
  blockSize
    | .sha1 x => SHA1.digest.blockSize x
    | .sha224 x => SHA2.sha224.blockSize x
    | .sha256 x => SHA2.sha256.blockSize x
    | .sha384 x => SHA2.sha384.blockSize x
    | .sha512 x => SHA2.sha512.blockSize x
    | .sha512t224 x => SHA2.sha512t224.blockSize x
    | .sha512t256 x => SHA2.sha512t256.blockSize x
    | .sha512t x => SHA2.digestT.blockSize x
  bitsLen
    | .sha1 x => SHA1.digest.bitsLen x
    | .sha224 x => SHA2.sha224.bitsLen x
    | .sha256 x => SHA2.sha256.bitsLen x
    | .sha384 x => SHA2.sha384.bitsLen x
    | .sha512 x => SHA2.sha512.bitsLen x
    | .sha512t224 x => SHA2.sha512t224.bitsLen x
    | .sha512t256 x => SHA2.sha512t256.bitsLen x
    | .sha512t x => SHA2.digestT.bitsLen x
  write
    | .sha1 x, data => do .ok (.sha1 (← SHA1.digest.write x data))
    | .sha224 x, data => do .ok (.sha224 (← SHA2.sha224.write x data))
    | .sha256 x, data => do .ok (.sha256 (← SHA2.sha256.write x data))
    | .sha384 x, data => do .ok (.sha384 (← SHA2.sha384.write x data))
    | .sha512 x, data => do .ok (.sha512 (← SHA2.sha512.write x data))
    | .sha512t224 x, data => do .ok (.sha512t224 (← SHA2.sha512t224.write x data))
    | .sha512t256 x, data => do .ok (.sha512t256 (← SHA2.sha512t256.write x data))
    | .sha512t x, data => do .ok (.sha512t (← SHA2.digestT.write x data))
  checksum
    | .sha1 x => do let (x, d) ← SHA1.digest.checksum x; .ok (.sha1 x, d)
    | .sha224 x => do let (x, d) ← SHA2.sha224.checksum x; .ok (.sha224 x, d)
    | .sha256 x => do let (x, d) ← SHA2.sha256.checksum x; .ok (.sha256 x, d)
    | .sha384 x => do let (x, d) ← SHA2.sha384.checksum x; .ok (.sha384 x, d)
    | .sha512 x => do let (x, d) ← SHA2.sha512.checksum x; .ok (.sha512 x, d)
    | .sha512t224 x => do let (x, d) ← SHA2.sha512t224.checksum x; .ok (.sha512t224 x, d)
    | .sha512t256 x => do let (x, d) ← SHA2.sha512t256.checksum x; .ok (.sha512t256 x, d)
    | .sha512t x => do let (x, d) ← SHA2.digestT.checksum x; .ok (.sha512t x, d)
  reset
    | .sha1 x => do .ok (.sha1 (← SHA1.digest.reset x))
    | .sha224 x => do .ok (.sha224 (← SHA2.sha224.reset x))
    | .sha256 x => do .ok (.sha256 (← SHA2.sha256.reset x))
    | .sha384 x => do .ok (.sha384 (← SHA2.sha384.reset x))
    | .sha512 x => do .ok (.sha512 (← SHA2.sha512.reset x))
    | .sha512t224 x => do .ok (.sha512t224 (← SHA2.sha512t224.reset x))
    | .sha512t256 x => do .ok (.sha512t256 (← SHA2.sha512t256.reset x))
    | .sha512t x => do .ok (.sha512t (← SHA2.digestT.reset x))

/-- `SHA3Type` and `SHA3`, sha3/sha3.rs:18-29. -/
inductive SHA3T where
  | sha224 (x : SHA3.State)
  | sha256 (x : SHA3.State)
  | sha384 (x : SHA3.State)
  | sha512 (x : SHA3.State)

/-- `SHA3::sha224`, sha3/sha3.rs:33-37. -/
def newSHA3_224 : Res SHA3T := do .ok (.sha224 (← SHA3.new 224))
/-- `SHA3::sha256`, sha3/sha3.rs:39-43. -/
def newSHA3_256 : Res SHA3T := do .ok (.sha256 (← SHA3.new 256))
/-- `SHA3::sha384`, sha3/sha3.rs:45-49. -/
def newSHA3_384 : Res SHA3T := do .ok (.sha384 (← SHA3.new 384))
/-- `SHA3::sha512`, sha3/sha3.rs:51-55. -/
def newSHA3_512 : Res SHA3T := do .ok (.sha512 (← SHA3.new 512))

/-- `SHA3::write_bit`, sha3/sha3.rs:58-65. -/
def writeBit : SHA3T → Byte → Res SHA3T
  | .sha224 x, b => do .ok (.sha224 (← SHA3.writeBit x b))
  | .sha256 x, b => do .ok (.sha256 (← SHA3.writeBit x b))
  | .sha384 x, b => do .ok (.sha384 (← SHA3.writeBit x b))
  | .sha512 x, b => do .ok (.sha512 (← SHA3.writeBit x b))

/-- `Digest for SHA3`, sha3/sha3.rs:68-113. -/
def sha3 : Digest SHA3T where
  blockSize
    | .sha224 x => SHA3.digest.blockSize x
    | .sha256 x => SHA3.digest.blockSize x
    | .sha384 x => SHA3.digest.blockSize x
    | .sha512 x => SHA3.digest.blockSize x
  bitsLen
    | .sha224 x => SHA3.digest.bitsLen x
    | .sha256 x => SHA3.digest.bitsLen x
    | .sha384 x => SHA3.digest.bitsLen x
    | .sha512 x => SHA3.digest.bitsLen x
  write
    | .sha224 x, data => do .ok (.sha224 (← SHA3.digest.write x data))
    | .sha256 x, data => do .ok (.sha256 (← SHA3.digest.write x data))
    | .sha384 x, data => do .ok (.sha384 (← SHA3.digest.write x data))
    | .sha512 x, data => do .ok (.sha512 (← SHA3.digest.write x data))
  checksum
    | .sha224 x => do let (x, d) ← SHA3.digest.checksum x; .ok (.sha224 x, d)
    | .sha256 x => do let (x, d) ← SHA3.digest.checksum x; .ok (.sha256 x, d)
    | .sha384 x => do let (x, d) ← SHA3.digest.checksum x; .ok (.sha384 x, d)
    | .sha512 x => do let (x, d) ← SHA3.digest.checksum x; .ok (.sha512 x, d)
  reset
    | .sha224 x => do .ok (.sha224 (← SHA3.digest.reset x))
    | .sha256 x => do .ok (.sha256 (← SHA3.digest.reset x))
    | .sha384 x => do .ok (.sha384 (← SHA3.digest.reset x))
    | .sha512 x => do .ok (.sha512 (← SHA3.digest.reset x))

end Verif.Model.Facade
