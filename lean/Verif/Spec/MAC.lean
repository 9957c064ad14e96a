import Verif.Spec.Hash

/-!
# HMAC (FIPS 198-1, RFC 2104) and CMAC (SP 800-38B)

Nothing here refers to the model of the MACs.
-/

namespace Verif.Spec

/-- `K0` of FIPS 198-1, table 1, steps 1 to 3: the key, hashed if longer than a block, padded with zeros to a block of `b` bytes. -/
def hmacK0 (H : Bytes → Bytes) (b : Nat) (key : Bytes) : Bytes :=
  let k := if key.length ≤ b then key else H key
  k ++ List.replicate (b - k.length) 0#8

/-- HMAC: `H((K0 ⊕ opad) ‖ H((K0 ⊕ ipad) ‖ text))`. -/
def hmac (H : Bytes → Bytes) (b : Nat) (key text : Bytes) : Bytes :=
  let k0 := hmacK0 H b key
  H (xorBytes k0 (List.replicate b 0x5c#8) ++ H (xorBytes k0 (List.replicate b 0x36#8) ++ text))

/-- What a MAC object returns when every `write` that follows a `checksum` starts a new message: `m` is the current message, `done` tells
whether its tag was already computed. -/
def idealTags (F : Bytes → Bytes) : Bytes → Bool → List DOp → List Bytes
  | _, _, [] => []
  | m, done, .write x :: rest => idealTags F (if done then x else m ++ x) false rest
  | m, _, .checksum :: rest => F m :: idealTags F m true rest
  | _, _, .reset :: rest => idealTags F [] false rest

namespace CMAC

/-- The value of a block as an integer, most significant byte first. -/
def toInt (x : Bytes) : Nat := x.foldl (fun acc y => acc * 256 + y.toNat) 0
/-- The block of `b` bytes with value `n mod 256^b`. -/
def ofInt (b n : Nat) : Bytes := (List.range b).map fun i => BitVec.ofNat 8 (n / 256 ^ (b - 1 - i))

/-- SP 800-38B, 6.1, steps 2 and 3: shift left by one bit; if the bit shifted out is one, xor with `R_b`. -/
def double (b rb : Nat) (x : Bytes) : Bytes :=
  if toInt x < 2 ^ (8 * b - 1) then ofInt b (2 * toInt x) else xorBytes (ofInt b (2 * toInt x)) (ofInt b rb)

/-- `K1`. -/
def k1 (E : Bytes → Bytes) (b rb : Nat) : Bytes := double b rb (E (List.replicate b 0#8))
/-- `K2`. -/
def k2 (E : Bytes → Bytes) (b rb : Nat) : Bytes := double b rb (k1 E b rb)

/-- 6.2 step 2: the number of blocks. -/
def blocks (b : Nat) (m : Bytes) : Nat := if m = [] then 1 else (m.length + b - 1) / b

/-- The `i`-th block of the message (from 0); the last one may be incomplete. -/
def block (b : Nat) (m : Bytes) (i : Nat) : Bytes := (m.drop (i * b)).take b

/-- `C_i` of step 6, for the blocks before the last one. -/
def chain (E : Bytes → Bytes) (b : Nat) (m : Bytes) : Nat → Bytes
  | 0 => List.replicate b 0#8
  | i + 1 => E (xorBytes (chain E b m i) (block b m i))

/-- Step 4: the last block, masked by a subkey. -/
def lastBlock (E : Bytes → Bytes) (b rb : Nat) (m : Bytes) : Bytes :=
  let x := block b m (blocks b m - 1)
  if x.length = b then xorBytes (k1 E b rb) x
  else xorBytes (k2 E b rb) (x ++ [0x80#8] ++ List.replicate (b - x.length - 1) 0#8)

/-- CMAC with full tag length: `E` is the block cipher under the key, `b` the block size in bytes, `rb` the constant `R_b`. -/
def mac (E : Bytes → Bytes) (b rb : Nat) (m : Bytes) : Bytes := E (xorBytes (chain E b m (blocks b m - 1)) (lastBlock E b rb m))

end CMAC
end Verif.Spec
