import Verif.Basic

/-!
# ZUC (GM/T 0001-2012, ETSI/SAGE "Specification of the 3GPP algorithms 128-EEA3 and 128-EIA3")

The LFSR is over the integers modulo `2^31 - 1`, the two S-boxes are given by their construction (a three-round Feistel network on
nibbles, and an affine map after inversion in `GF(2^8)`).
-/

namespace Verif.Spec.ZUC

/-- The modulus of the LFSR. -/
def p : Nat := 2 ^ 31 - 1

/-- The representative of a residue class in `1 … p`. -/
def rep (x : Nat) : Nat := if x % p = 0 then p else x % p

/-- The state: sixteen cells and the two memory cells of `F`. -/
structure State where
  s : List Nat
  r1 : BitVec 32
  r2 : BitVec 32

/-- Cell `i`. -/
def State.c (x : State) (i : Nat) : Nat := x.s.getD i 0

/-- LFSR step; `u` is `0` in work mode. -/
def lfsr (u : Nat) (x : State) : State :=
  { x with s := x.s.tail ++
      [rep (2 ^ 15 * x.c 15 + 2 ^ 17 * x.c 13 + 2 ^ 21 * x.c 10 + 2 ^ 20 * x.c 4 + (1 + 2 ^ 8) * x.c 0 + u)] }

/-- High 16 bits of a 31 bit cell. -/
def hi (x : Nat) : BitVec 16 := BitVec.ofNat 16 (x / 2 ^ 15)
/-- Low 16 bits. -/
def lo (x : Nat) : BitVec 16 := BitVec.ofNat 16 x

/-- Bit reorganisation. -/
def x0 (x : State) : BitVec 32 := hi (x.c 15) ++ lo (x.c 14)
def x1 (x : State) : BitVec 32 := lo (x.c 11) ++ hi (x.c 9)
def x2 (x : State) : BitVec 32 := lo (x.c 7) ++ hi (x.c 5)
def x3 (x : State) : BitVec 32 := lo (x.c 2) ++ hi (x.c 0)

/-- The 4 bit tables of `S0`. -/
def P1 : List (BitVec 4) := [9, 15, 0, 14, 15, 15, 2, 10, 0, 4, 0, 12, 7, 5, 3, 9]
def P2 : List (BitVec 4) := [8, 13, 6, 5, 7, 0, 12, 4, 11, 1, 14, 10, 15, 3, 9, 2]
def P3 : List (BitVec 4) := [2, 6, 10, 6, 0, 13, 10, 15, 3, 3, 13, 5, 0, 9, 12, 13]

/-- `S0`: three Feistel rounds on the two nibbles, then a rotation by 5. -/
def S0 (x : Byte) : Byte :=
  let a : BitVec 4 := x.extractLsb' 4 4
  let b : BitVec 4 := x.extractLsb' 0 4
  let t := a ^^^ P1.getD b.toNat 0
  let u := b ^^^ P2.getD t.toNat 0
  let v := t ^^^ P3.getD u.toNat 0
  (v ++ u : BitVec 8).rotateLeft 5

/-- Multiplication by `x` modulo `x^8 + x^7 + x^3 + x + 1`. -/
def xtime (b : Byte) : Byte := (b <<< 1) ^^^ (if b.msb then 0x8b#8 else 0#8)
/-- Multiplication in `GF(2^8)`. -/
def gmul (a b : Byte) : Byte :=
  [7, 6, 5, 4, 3, 2, 1, 0].foldl (fun acc i => xtime acc ^^^ (if a.getLsbD i then b else 0#8)) 0#8
/-- `b^254`: the inverse, `0` for `0`. -/
def ginv (b : Byte) : Byte :=
  ((List.range 7).foldl (fun (q : Byte × Byte) _ => let sq := gmul q.1 q.1; (sq, gmul q.2 sq)) (b, 1#8)).2

/-- The columns of the matrix of `S1`. -/
def M : List Byte := [0x97#8, 0x3e#8, 0x6d#8, 0xcb#8, 0xee#8, 0xdd#8, 0xbb#8, 0x77#8]

/-- `S1(x) = M·x⁻¹ ⊕ 0x55`. -/
def S1 (x : Byte) : Byte :=
  (List.range 8).foldl (fun acc i => acc ^^^ (if (ginv x).getLsbD i then M.getD i 0#8 else 0#8)) 0#8 ^^^ 0x55#8

/-- The 32 bit S-box. -/
def S (x : BitVec 32) : BitVec 32 := ofBe32 (S0 (byteBe x 0)) (S1 (byteBe x 1)) (S0 (byteBe x 2)) (S1 (byteBe x 3))

def L1 (x : BitVec 32) : BitVec 32 := x ^^^ x.rotateLeft 2 ^^^ x.rotateLeft 10 ^^^ x.rotateLeft 18 ^^^ x.rotateLeft 24
def L2 (x : BitVec 32) : BitVec 32 := x ^^^ x.rotateLeft 8 ^^^ x.rotateLeft 14 ^^^ x.rotateLeft 22 ^^^ x.rotateLeft 30

/-- The output of `F`. -/
def W (x : State) : BitVec 32 := (x0 x ^^^ x.r1) + x.r2

/-- The update of `R1`, `R2`: with `W1 = R1 ⊞ X1` and `W2 = R2 ⊕ X2`, `R1 = S(L1(W1L ‖ W2H))` and `R2 = S(L2(W2L ‖ W1H))`. -/
def F (x : State) : State :=
  let w1 := x.r1 + x1 x
  let w2 := x.r2 ^^^ x2 x
  { x with
    r1 := S (L1 (w1.extractLsb' 0 16 ++ w2.extractLsb' 16 16))
    r2 := S (L2 (w2.extractLsb' 0 16 ++ w1.extractLsb' 16 16)) }

/-- The constants `d_i` of key loading. -/
def D : List Nat :=
  [0x44D7, 0x26BC, 0x626B, 0x135E, 0x5789, 0x35E2, 0x7135, 0x09AF, 0x4D78, 0x2F13, 0x6BC4, 0x1AF1, 0x5E26, 0x3C4D, 0x789A, 0x47AC]

/-- Key loading: `s_i = k_i ‖ d_i ‖ iv_i`. -/
def load (key iv : Bytes) : State where
  s := (List.range 16).map fun i => 2 ^ 23 * (key.getD i 0#8).toNat + 2 ^ 8 * D.getD i 0 + (iv.getD i 0#8).toNat
  r1 := 0#32
  r2 := 0#32

/-- One step of the initialisation: the LFSR takes in `W >> 1`. -/
def initStep (x : State) : State := lfsr ((W x).toNat / 2) (F x)

/-- One step of the working stage (the output word is `W ⊕ X3` before the step). -/
def workStep (x : State) : State := lfsr 0 (F x)

/-- The state after initialisation and the first, discarded, working step, and `n` further steps. -/
def stateAt (key iv : Bytes) : Nat → State
  | 0 => workStep (Nat.repeat initStep 32 (load key iv))
  | n + 1 => workStep (stateAt key iv n)

/-- The keystream: word number `n`. -/
def word (key iv : Bytes) (n : Nat) : BitVec 32 := W (stateAt key iv n) ^^^ x3 (stateAt key iv n)

/-- Keystream byte number `i`: the words are taken most significant byte first. -/
def byte (key iv : Bytes) (i : Nat) : Byte := byteBe (word key iv (i / 4)) (i % 4)

/-- Keystream bit number `i`: the words are taken most significant bit first. -/
def bit (key iv : Bytes) (i : Nat) : Bool := (word key iv (i / 32)).getMsbD (i % 32)

/-- 128-EEA3: the initial vector from `COUNT`, `BEARER` (5 bits) and `DIRECTION`. -/
def eea3Iv (count : BitVec 32) (bearer : BitVec 5) (direction : BitVec 1) : Bytes :=
  let half := be32 count ++ [(bearer ++ direction ++ 0#2 : BitVec 8), 0#8, 0#8, 0#8]
  half ++ half

/-- 128-EIA3: the initial vector. -/
def eia3Iv (count : BitVec 32) (bearer : BitVec 5) (direction : BitVec 1) : Bytes :=
  let half := be32 count ++ [(bearer ++ 0#3 : BitVec 8), 0#8, 0#8, 0#8]
  half ++ xorBytes half [(direction ++ 0#7 : BitVec 8), 0#8, 0#8, 0#8, 0#8, 0#8, (direction ++ 0#7 : BitVec 8), 0#8]

/-- The message xored with the keystream from byte `pos` on. -/
def xorFrom (key iv : Bytes) (pos : Nat) (m : Bytes) : Bytes :=
  (List.range m.length).map fun i => m.getD i 0#8 ^^^ byte key iv (pos + i)

/-- Bit `i` of a message of bytes, most significant bit of each byte first. -/
def msgBit (m : Bytes) (i : Nat) : Bool := (m.getD (i / 8) 0#8).getMsbD (i % 8)

/-- `z_i`: the 32 keystream bits from bit `i` on, cut out of two consecutive words (bit by bit: `C40_spec_z`). -/
def z (key iv : Bytes) (i : Nat) : BitVec 32 :=
  (word key iv (i / 32) ++ word key iv (i / 32 + 1)).extractLsb' (32 - i % 32) 32

/-- The universal hash inside 128-EIA3: the sum of `z_i` over the message bits `i` that are set. -/
def hash (key iv m : Bytes) : BitVec 32 :=
  (List.range (8 * m.length)).foldl (fun t i => if msgBit m i then t ^^^ z key iv i else t) 0#32

/-- 128-EIA3 for messages of whole bytes: `LENGTH = 8·|m|`, `L = ⌈LENGTH/32⌉ + 2`, `T = hash ⊕ z_LENGTH ⊕ z_{32(L-1)}`. -/
def eia3 (key iv m : Bytes) : Bytes :=
  let length := 8 * m.length
  let L := (length + 31) / 32 + 2
  be32 (hash key iv m ^^^ z key iv length ^^^ z key iv (32 * (L - 1)))

/-- A call on a stream cipher object. -/
inductive Call where
  | encrypt (m : Bytes)
  | decrypt (m : Bytes)
  | reset

/-- What the calls must output when `pos` keystream bytes are used up: every call continues the keystream, `reset` restarts it. -/
def outputs (key iv : Bytes) : Nat → List Call → List Bytes
  | _, [] => []
  | pos, .encrypt m :: rest => xorFrom key iv pos m :: outputs key iv (pos + m.length) rest
  | pos, .decrypt m :: rest => xorFrom key iv pos m :: outputs key iv (pos + m.length) rest
  | _, .reset :: rest => outputs key iv 0 rest

end Verif.Spec.ZUC
