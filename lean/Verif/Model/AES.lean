import Verif.Model.AESTables

/-! Model of src/aes/aes_generic.rs and src/aes/aes.rs -/

namespace Verif.Model

/-- `struct AES`, aes_generic.rs:5-10. -/
structure AES where
  encKs : List (BitVec 32)
  decKs : List (BitVec 32)
  nr : Nat

namespace AES

/-- `nk_nb_nr`, aes_generic.rs:13-20, without the constant `nb`; `none` is `unreachable!`. -/
def nkNr (keyLen : Nat) : Option (Nat × Nat) :=
  match keyLen with
  | 16 => some (4, 10)
  | 24 => some (6, 12)
  | 32 => some (8, 14)
  | _ => none

/-- `sub_word`, aes_generic.rs:23-27. -/
def subWord (w : BitVec 32) : BitVec 32 :=
  ofBe32 (lookup sbox0 (byteBe w 0)) (lookup sbox0 (byteBe w 1)) (lookup sbox0 (byteBe w 2)) (lookup sbox0 (byteBe w 3))

/-- Big-endian words of a byte string whose length is a multiple of 4: aes_generic.rs:36-41, 77-81. -/
def beWords : Bytes → List (BitVec 32)
  | a :: b :: c :: d :: rest => ofBe32 a b c d :: beWords rest
  | _ => []

/-- The value of `t` in aes_generic.rs:46-53. -/
def schedT (nk i : Nat) (tmp : BitVec 32) : BitVec 32 :=
  if i % nk = 0 then subWord (tmp.rotateLeft 8) ^^^ powx.getD (i / nk - 1) 0#32
  else if nk > 6 ∧ i % nk = 4 then subWord tmp
  else tmp

/-- The loop aes_generic.rs:45-55 from index `i`, `count` iterations. Simplification: Rust first resizes the vector with zeros and
overwrites entry `i`; here entry `i` is appended. All indices are in range. -/
def schedLoop (nk : Nat) : Nat → Nat → List (BitVec 32) → List (BitVec 32)
  | 0, _, enc => enc
  | count + 1, i, enc =>
    schedLoop nk count (i + 1) (enc ++ [enc.getD (i - nk) 0#32 ^^^ schedT nk i (enc.getD (i - 1) 0#32)])

/-- The inner computation of aes_generic.rs:64-67. -/
def tdWord (x : BitVec 32) : BitVec 32 :=
  lookup td0 (lookup sbox0 (byteBe x 0)) ^^^ lookup td1 (lookup sbox0 (byteBe x 1)) ^^^
  lookup td2 (lookup sbox0 (byteBe x 2)) ^^^ lookup td3 (lookup sbox0 (byteBe x 3))

/-- The loop aes_generic.rs:57-73: entry `i + j` (`i` a multiple of 4, `j < 4`) of `dec`. -/
def decEntry (n : Nat) (enc : List (BitVec 32)) (k : Nat) : BitVec 32 :=
  let i := k / 4 * 4
  let j := k % 4
  let x := enc.getD (n - i - 4 + j) 0#32
  if 0 < i ∧ i + 4 < n then tdWord x else x

/-- `key_schedule`, aes_generic.rs:30-74, with the fixed `nr` of the constructors aes_generic.rs:185-195. -/
def keySchedule (key : Bytes) (nk nr : Nat) : AES :=
  let n := (nr + 1) * 4
  let enc := schedLoop nk (n - nk) nk (beWords key)
  { encKs := enc, decKs := (List.range n).map (decEntry n enc), nr := nr }

/-- `AES::new`, aes.rs:15-43, and `aes_128`, `aes_192`, `aes_256`, aes_generic.rs:185-195. -/
def new (key : Bytes) : Res AES :=
  match nkNr key.length with
  | some (nk, nr) => .ok (keySchedule key nk nr)
  | none => .error (.err .invalidParameter)

/-- The four state words `s0..s3`. src/aes/aes_generic.rs:76-83. -/
structure Quad where
  s0 : BitVec 32
  s1 : BitVec 32
  s2 : BitVec 32
  s3 : BitVec 32

/-- Entries `k .. k+3` of a key vector. src/aes/aes_generic.rs:84-101. -/
def keyQuad (ks : List (BitVec 32)) (k : Nat) : Quad :=
  ⟨ks.getD k 0#32, ks.getD (k + 1) 0#32, ks.getD (k + 2) 0#32, ks.getD (k + 3) 0#32⟩

/-- The load of a block, aes_generic.rs:77-81. -/
def load (b : Bytes) : Quad :=
  let w := beWords b
  ⟨w.getD 0 0#32, w.getD 1 0#32, w.getD 2 0#32, w.getD 3 0#32⟩

/-- The initial `AddRoundKey`, aes_generic.rs:85 and 132. -/
def addKey (s k : Quad) : Quad := ⟨s.s0 ^^^ k.s0, s.s1 ^^^ k.s1, s.s2 ^^^ k.s2, s.s3 ^^^ k.s3⟩

/-- One line `key ^ TE0[a] ^ TE1[b] ^ TE2[c] ^ TE3[d]` of aes_generic.rs:91-94. -/
def teWord (k a b c d : BitVec 32) : BitVec 32 :=
  k ^^^ lookup te0 (byteBe a 0) ^^^ lookup te1 (byteBe b 1) ^^^ lookup te2 (byteBe c 2) ^^^ lookup te3 (byteBe d 3)

/-- The loop body aes_generic.rs:90-98. -/
def encRound (k s : Quad) : Quad :=
  ⟨teWord k.s0 s.s0 s.s1 s.s2 s.s3, teWord k.s1 s.s1 s.s2 s.s3 s.s0,
   teWord k.s2 s.s2 s.s3 s.s0 s.s1, teWord k.s3 s.s3 s.s0 s.s1 s.s2⟩

/-- One line of aes_generic.rs:104-107 with the xor of 112-115. -/
def lastWord (k a b c d : BitVec 32) : BitVec 32 :=
  ofBe32 (lookup sbox0 (byteBe a 0)) (lookup sbox0 (byteBe b 1)) (lookup sbox0 (byteBe c 2)) (lookup sbox0 (byteBe d 3)) ^^^ k

/-- The last round aes_generic.rs:103-115. -/
def encLast (k s : Quad) : Quad :=
  ⟨lastWord k.s0 s.s0 s.s1 s.s2 s.s3, lastWord k.s1 s.s1 s.s2 s.s3 s.s0,
   lastWord k.s2 s.s2 s.s3 s.s0 s.s1, lastWord k.s3 s.s3 s.s0 s.s1 s.s2⟩

/-- `count` iterations of the loop aes_generic.rs:89-100 or 136-147, starting with key index `k`; also returns the final `k`. -/
def roundLoop (round : Quad → Quad → Quad) (ks : List (BitVec 32)) : Nat → Nat → Quad → Nat × Quad
  | 0, k, s => (k, s)
  | count + 1, k, s => roundLoop round ks count (k + 4) (round (keyQuad ks k) s)

/-- The store of a block, aes_generic.rs:117-120. -/
def store (s : Quad) : Bytes := be32 s.s0 ++ be32 s.s1 ++ be32 s.s2 ++ be32 s.s3

/-- `crypt_block`, aes_generic.rs:76-121. -/
def cryptBlock (a : AES) (pb : Bytes) : Bytes :=
  let s := addKey (load pb) (keyQuad a.encKs 0)
  let (k, s) := roundLoop encRound a.encKs (a.nr - 1) 4 s
  store (encLast (keyQuad a.encKs k) s)

/-- One line `key ^ TD0[a] ^ TD1[b] ^ TD2[c] ^ TD3[d]` of aes_generic.rs:138-141. -/
def tdLine (k a b c d : BitVec 32) : BitVec 32 :=
  k ^^^ lookup td0 (byteBe a 0) ^^^ lookup td1 (byteBe b 1) ^^^ lookup td2 (byteBe c 2) ^^^ lookup td3 (byteBe d 3)

/-- The loop body aes_generic.rs:137-145. -/
def decRound (k s : Quad) : Quad :=
  ⟨tdLine k.s0 s.s0 s.s3 s.s2 s.s1, tdLine k.s1 s.s1 s.s0 s.s3 s.s2,
   tdLine k.s2 s.s2 s.s1 s.s0 s.s3, tdLine k.s3 s.s3 s.s2 s.s1 s.s0⟩

/-- One line of aes_generic.rs:151-154 with the xor of 159-162. -/
def dlastWord (k a b c d : BitVec 32) : BitVec 32 :=
  ofBe32 (lookup sbox1 (byteBe a 0)) (lookup sbox1 (byteBe b 1)) (lookup sbox1 (byteBe c 2)) (lookup sbox1 (byteBe d 3)) ^^^ k

/-- The last round aes_generic.rs:150-162. -/
def decLast (k s : Quad) : Quad :=
  ⟨dlastWord k.s0 s.s0 s.s3 s.s2 s.s1, dlastWord k.s1 s.s1 s.s0 s.s3 s.s2,
   dlastWord k.s2 s.s2 s.s1 s.s0 s.s3, dlastWord k.s3 s.s3 s.s2 s.s1 s.s0⟩

/-- `decrypt_block`, aes_generic.rs:123-168. -/
def decryptBlock (a : AES) (cb : Bytes) : Bytes :=
  let s := addKey (load cb) (keyQuad a.decKs 0)
  let (k, s) := roundLoop decRound a.decKs (a.nr - 1) 4 s
  store (decLast (keyQuad a.decKs k) s)

/-- `impl Cipher for AES`, aes.rs:46-79. -/
def cipher (a : AES) : BlockCipher :=
  { blockSize := some 16
    encrypt := fun b => if b.length = 16 then .ok (cryptBlock a b) else .error (.err .invalidParameter)
    decrypt := fun b => if b.length = 16 then .ok (decryptBlock a b) else .error (.err .invalidParameter) }

end AES
end Verif.Model
