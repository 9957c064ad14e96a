import Verif.Model.Elliptic

/-!
# P-256 with 32-bit limbs, src/elliptic/p256.rs

Field elements are arrays of nine `u32` limbs, alternately 29 and 28 bits wide, in Montgomery form with R = 2^257; they are modelled by lists of 32-bit
words. The arrays have a fixed length, so the patterns for other lengths are never reached. The functions ending in `_a` take raw pointers and let the
output alias an input; they forward to the functions without the suffix, and the model gives each function as a map from inputs to outputs: every
function reads the limbs of its inputs before it overwrites them; `P256Mem` has the same functions on a memory with aliases, and C77 proves that they
agree. (Making a `&mut` and a `&` to the same place is undefined behaviour in Rust; the model
takes the reading where nothing is reordered.)

`p256_reduce_degree` subtracts with `-` in four places. The subtraction wraps around in a release build and panics in a debug build, so that the
functions take the subtraction of the build as a parameter: `release` runs in the identity monad, `debug` in `Option`, with `none` for the panic.
-/

namespace Verif.Model.P256
open Verif.Model.Elliptic (CurveParams Big EllipticCurve)
open Verif.Model.RSA (natBytes)

/-- `u32`, the limbs of `P256FEle`, src/elliptic/p256.rs:142. -/
abbrev W := BitVec 32
/-- `u64`, the products of limbs, src/elliptic/p256.rs:305. -/
abbrev D := BitVec 64

/-- `P256FEle`, p256.rs:142. -/
abbrev Fe := List W

/-- Three field elements. src/elliptic/p256.rs:809-826. -/
abbrev Jac := Fe × Fe × Fe

/-- What a build makes of `a - b` on `u32`. The subtractions at src/elliptic/p256.rs:424, 452, 458. -/
structure Build (m : Type → Type) where
  sub : W → W → m W

/-- Release: the subtraction wraps around. See src/elliptic/p256.rs:424, 452, 458. -/
def release : Build Id := ⟨fun a b => a - b⟩

/-- Debug: the subtraction panics when it would wrap around.
See src/elliptic/p256.rs:424, 452, 458. -/
def debug : Build Option := ⟨fun a b => if b ≤ a then some (a - b) else none⟩

/-- `BOTTOM_29BITS`, p256.rs:29. -/
def b29 : W := 0x1fffffff#32

/-- `BOTTOM_28BITS`, p256.rs:30. -/
def b28 : W := 0xfffffff#32

/-- `P256_ONE`, p256.rs:33. -/
def one : Fe := [2#32, 0#32, 0#32, 0xffff800#32, 0x1fffffff#32, 0xfffffff#32, 0x1fbfffff#32, 0x1ffffff#32, 0#32]

/-- The array `[0u32; P256_LIMBS]`. E.g. src/elliptic/p256.rs:663-720. -/
def zero : Fe := [0#32, 0#32, 0#32, 0#32, 0#32, 0#32, 0#32, 0#32, 0#32]

/-- `P256_PRECOMPUTED`, p256.rs:69-130. -/
def precomputed : List W :=
  [0x11522878#32, 0xe730d41#32, 0xdb60179#32, 0x4afe2ff#32, 0x12883add#32, 0xcaddd88#32, 0x119e7edc#32, 0xd4a6eab#32, 0x3120bee#32,
    0x1d2aac15#32, 0xf25357c#32, 0x19e45cdd#32, 0x5c721d0#32, 0x1992c5a5#32, 0xa237487#32, 0x154ba21#32, 0x14b10bb#32, 0xae3fe3#32,
    0xd41a576#32, 0x922fc51#32, 0x234994f#32, 0x60b60d3#32, 0x164586ae#32, 0xce95f18#32, 0x1fe49073#32, 0x3fa36cc#32, 0x5ebcd2c#32,
    0xb402f2f#32, 0x15c70bf#32, 0x1561925c#32, 0x5a26704#32, 0xda91e90#32, 0xcdc1c7f#32, 0x1ea12446#32, 0xe1ade1e#32, 0xec91f22#32,
    0x26f7778#32, 0x566847e#32, 0xa0bec9e#32, 0x234f453#32, 0x1a31f21a#32, 0xd85e75c#32, 0x56c7109#32, 0xa267a00#32, 0xb57c050#32,
    0x98fb57#32, 0xaa837cc#32, 0x60c0792#32, 0xcfa5e19#32, 0x61bab9e#32, 0x589e39b#32, 0xa324c5#32, 0x7d6dee7#32, 0x2976e4b#32,
    0x1fc4124a#32, 0xa8c244b#32, 0x1ce86762#32, 0xcd61c7e#32, 0x1831c8e0#32, 0x75774e1#32, 0x1d96a5a9#32, 0x843a649#32, 0xc3ab0fa#32,
    0x6e2e7d5#32, 0x7673a2a#32, 0x178b65e8#32, 0x4003e9b#32, 0x1a1f11c2#32, 0x7816ea#32, 0xf643e11#32, 0x58c43df#32, 0xf423fc2#32,
    0x19633ffa#32, 0x891f2b2#32, 0x123c231c#32, 0x46add8c#32, 0x54700dd#32, 0x59e2b17#32, 0x172db40f#32, 0x83e277d#32, 0xb0dd609#32,
    0xfd1da12#32, 0x35c6e52#32, 0x19ede20c#32, 0xd19e0c0#32, 0x97d0f40#32, 0xb015b19#32, 0x449e3f5#32, 0xe10c9e#32, 0x33ab581#32,
    0x56a67ab#32, 0x577734d#32, 0x1dddc062#32, 0xc57b10d#32, 0x149b39d#32, 0x26a9e7b#32, 0xc35df9f#32, 0x48764cd#32, 0x76dbcca#32,
    0xca4b366#32, 0xe9303ab#32, 0x1a7480e7#32, 0x57e9e81#32, 0x1e13eb50#32, 0xf466cf3#32, 0x6f16b20#32, 0x4ba3173#32, 0xc168c33#32,
    0x15cb5439#32, 0x6a38e11#32, 0x73658bd#32, 0xb29564f#32, 0x3f6dc5b#32, 0x53b97e#32, 0x1322c4c0#32, 0x65dd7ff#32, 0x3a1e4f6#32,
    0x14e614aa#32, 0x9246317#32, 0x1bc83aca#32, 0xad97eed#32, 0xd38ce4a#32, 0xf82b006#32, 0x341f077#32, 0xa6add89#32, 0x4894acd#32,
    0x9f162d5#32, 0xf8410ef#32, 0x1b266a56#32, 0xd7f223#32, 0x3e0cb92#32, 0xe39b672#32, 0x6a2901a#32, 0x69a8556#32, 0x7e7c0#32,
    0x9b7d8d3#32, 0x309a80#32, 0x1ad05f7f#32, 0xc2fb5dd#32, 0xcbfd41d#32, 0x9ceb638#32, 0x1051825c#32, 0xda0cf5b#32, 0x812e881#32,
    0x6f35669#32, 0x6a56f2c#32, 0x1df8d184#32, 0x345820#32, 0x1477d477#32, 0x1645db1#32, 0xbe80c51#32, 0xc22be3e#32, 0xe35e65a#32,
    0x1aeb7aa0#32, 0xc375315#32, 0xf67bc99#32, 0x7fdd7b9#32, 0x191fc1be#32, 0x61235d#32, 0x2c184e9#32, 0x1c5a839#32, 0x47a1e26#32,
    0xb7cb456#32, 0x93e225d#32, 0x14f3c6ed#32, 0xccc1ac9#32, 0x17fe37f3#32, 0x4988989#32, 0x1a90c502#32, 0x2f32042#32, 0xa17769b#32,
    0xafd8c7c#32, 0x8191c6e#32, 0x1dcdb237#32, 0x16200c0#32, 0x107b32a1#32, 0x66c08db#32, 0x10d06a02#32, 0x3fc93#32, 0x5620023#32,
    0x16722b27#32, 0x68b5c59#32, 0x270fcfc#32, 0xfad0ecc#32, 0xe5de1c2#32, 0xeab466b#32, 0x2fc513c#32, 0x407f75c#32, 0xbaab133#32,
    0x9705fe9#32, 0xb88b8e7#32, 0x734c993#32, 0x1e1ff8f#32, 0x19156970#32, 0xabd0f00#32, 0x10469ea7#32, 0x3293ac0#32, 0xcdc98aa#32,
    0x1d843fd#32, 0xe14bfe8#32, 0x15be825f#32, 0x8b5212#32, 0xeb3fb67#32, 0x81cbd29#32, 0xbc62f16#32, 0x2b6fcc7#32, 0xf5a4e29#32,
    0x13560b66#32, 0xc0b6ac2#32, 0x51ae690#32, 0xd41e271#32, 0xf3e9bd4#32, 0x1d70aab#32, 0x1029f72#32, 0x73e1c35#32, 0xee70fbc#32,
    0xad81baf#32, 0x9ecc49a#32, 0x86c741e#32, 0xfe6be30#32, 0x176752e7#32, 0x23d416#32, 0x1f83de85#32, 0x27de188#32, 0x66f70b8#32,
    0x181cd51f#32, 0x96b6e4c#32, 0x188f2335#32, 0xa5df759#32, 0x17a77eb6#32, 0xfeb0e73#32, 0x154ae914#32, 0x2f3ec51#32, 0x3826b59#32,
    0xb91f17d#32, 0x1c72949#32, 0x1362bf0a#32, 0xe23fddf#32, 0xa5614b0#32, 0xf7d8f#32, 0x79061#32, 0x823d9d2#32, 0x8213f39#32,
    0x1128ae0b#32, 0xd095d05#32, 0xb85c0c2#32, 0x1ecb2ef#32, 0x24ddc84#32, 0xe35e901#32, 0x18411a4a#32, 0xf5ddc3d#32, 0x3786689#32,
    0x52260e8#32, 0x5ae3564#32, 0x542b10d#32, 0x8d93a45#32, 0x19952aa4#32, 0x996cc41#32, 0x1051a729#32, 0x4be3499#32, 0x52b23aa#32,
    0x109f307e#32, 0x6f5b6bb#32, 0x1f84e1e7#32, 0x77a0cfa#32, 0x10c4df3f#32, 0x25a02ea#32, 0xb048035#32, 0xe31de66#32, 0xc6ecaa3#32,
    0x28ea335#32, 0x2886024#32, 0x1372f020#32, 0xf55d35#32, 0x15e4684c#32, 0xf2a9e17#32, 0x1a4a7529#32, 0xcb7beb1#32, 0xb2a78a1#32,
    0x1ab21f1f#32, 0x6361ccf#32, 0x6c9179d#32, 0xb135627#32, 0x1267b974#32, 0x4408bad#32, 0x1cbff658#32, 0xe3d6511#32, 0xc7d76f#32,
    0x1cc7a69#32, 0xe7ee31b#32, 0x54fab4f#32, 0x2b914f#32, 0x1ad27a30#32, 0xcd3579e#32, 0xc50124c#32, 0x50daa90#32, 0xb13f72#32,
    0xb06aa75#32, 0x70f5cc6#32, 0x1649e5aa#32, 0x84a5312#32, 0x329043c#32, 0x41c4011#32, 0x13d32411#32, 0xb04a838#32, 0xd760d2d#32,
    0x1713b532#32, 0xbaa0c03#32, 0x84022ab#32, 0x6bcf5c1#32, 0x2f45379#32, 0x18ae070#32, 0x18c9e11e#32, 0x20bca9a#32, 0x66f496b#32,
    0x3eef294#32, 0x67500d2#32, 0xd7f613c#32, 0x2dbbeb#32, 0xb741038#32, 0xe04133f#32, 0x1582968d#32, 0xbe985f7#32, 0x1acbc1a#32,
    0x1a6a939f#32, 0x33e50f6#32, 0xd665ed4#32, 0xb4b7bd6#32, 0x1e5a3799#32, 0x6b33847#32, 0x17fa56ff#32, 0x65ef930#32, 0x21dc4a#32,
    0x2b37659#32, 0x450fe17#32, 0xb357b65#32, 0xdf5efac#32, 0x15397bef#32, 0x9d35a7f#32, 0x112ac15f#32, 0x624e62e#32, 0xa90ae2f#32,
    0x107eecd2#32, 0x1f69bbe#32, 0x77d6bce#32, 0x5741394#32, 0x13c684fc#32, 0x950c910#32, 0x725522b#32, 0xdc78583#32, 0x40eeabb#32,
    0x1fde328a#32, 0xbd61d96#32, 0xd28c387#32, 0x9e77d89#32, 0x12550c40#32, 0x759cb7d#32, 0x367ef34#32, 0xae2a960#32, 0x91b8bdc#32,
    0x93462a9#32, 0xf469ef#32, 0xb2e9aef#32, 0xd2ca771#32, 0x54e1f42#32, 0x7aaa49#32, 0x6316abb#32, 0x2413c8e#32, 0x5425bf9#32,
    0x1bed3e3a#32, 0xf272274#32, 0x1f5e7326#32, 0x6416517#32, 0xea27072#32, 0x9cedea7#32, 0x6e7633#32, 0x7c91952#32, 0xd806dce#32,
    0x8e2a7e1#32, 0xe421e1a#32, 0x418c9e1#32, 0x1dbc890#32, 0x1b395c36#32, 0xa1dc175#32, 0x1dc4ef73#32, 0x8956f34#32, 0xe4b5cf2#32,
    0x1b0d3a18#32, 0x3194a36#32, 0x6c2641f#32, 0xe44124c#32, 0xa2f4eaa#32, 0xa8c25ba#32, 0xf927ed7#32, 0x627b614#32, 0x7371cca#32,
    0xba16694#32, 0x417bc03#32, 0x7c0a7e3#32, 0x9c35c19#32, 0x1168a205#32, 0x8b6b00d#32, 0x10e3edc9#32, 0x9c19bf2#32, 0x5882229#32,
    0x1b2b4162#32, 0xa5cef1a#32, 0x1543622b#32, 0x9bd433e#32, 0x364e04d#32, 0x7480792#32, 0x5c9b5b3#32, 0xe85ff25#32, 0x408ef57#32,
    0x1814cfa4#32, 0x121b41b#32, 0xd248a0f#32, 0x3b05222#32, 0x39bb16a#32, 0xc75966d#32, 0xa038113#32, 0xa4a1769#32, 0x11fbc6c#32,
    0x917e50e#32, 0xeec3da8#32, 0x169d6eac#32, 0x10c1699#32, 0xa416153#32, 0xf724912#32, 0x15cd60b7#32, 0x4acbad9#32, 0x5efc5fa#32,
    0xf150ed7#32, 0x122b51#32, 0x1104b40a#32, 0xcb7f442#32, 0xfbb28ff#32, 0x6ac53ca#32, 0x196142cc#32, 0x7bf0fa9#32, 0x957651#32,
    0x4e0f215#32, 0xed439f8#32, 0x3f46bd5#32, 0x5ace82f#32, 0x110916b6#32, 0x6db078#32, 0xffd7d57#32, 0xf2ecaac#32, 0xca86dec#32,
    0x15d6b2da#32, 0x965ecc9#32, 0x1c92b4c2#32, 0x1f3811#32, 0x1cb080f5#32, 0x2d8b804#32, 0x19d1c12d#32, 0xf20bd46#32, 0x1951fa7#32,
    0xa3656c3#32, 0x523a425#32, 0xfcd0692#32, 0xd44ddc8#32, 0x131f0f5b#32, 0xaf80e4a#32, 0xcd9fc74#32, 0x99bb618#32, 0x2db944c#32,
    0xa673090#32, 0x1c210e1#32, 0x178c8d23#32, 0x1474383#32, 0x10b8743d#32, 0x985a55b#32, 0x2e74779#32, 0x576138#32, 0x9587927#32,
    0x133130fa#32, 0xbe05516#32, 0x9f4d619#32, 0xbb62570#32, 0x99ec591#32, 0xd9468fe#32, 0x1d07782d#32, 0xfc72e0b#32, 0x701b298#32,
    0x1863863b#32, 0x85954b8#32, 0x121a0c36#32, 0x9e7fedf#32, 0xf64b429#32, 0x9b9d71e#32, 0x14e2f5d8#32, 0xf858d3a#32, 0x942eea8#32,
    0xda5b765#32, 0x6edafff#32, 0xa9d18cc#32, 0xc65e4ba#32, 0x1c747e86#32, 0xe4ea915#32, 0x1981d7a1#32, 0x8395659#32, 0x52ed4e2#32,
    0x87d43b7#32, 0x37ab11b#32, 0x19d292ce#32, 0xf8d4692#32, 0x18c3053f#32, 0x8863e13#32, 0x4c146c0#32, 0x6bdf55a#32, 0x4e4457d#32,
    0x16152289#32, 0xac78ec2#32, 0x1a59c5a2#32, 0x2028b97#32, 0x71c2d01#32, 0x295851f#32, 0x404747b#32, 0x878558d#32, 0x7d29aa4#32,
    0x13d8341f#32, 0x8daefd7#32, 0x139c972d#32, 0x6b7ea75#32, 0xd4a9dde#32, 0xff163d8#32, 0x81d55d7#32, 0xa5bef68#32, 0xb7b30d8#32,
    0xbe73d6f#32, 0xaa88141#32, 0xd976c81#32, 0x7e7a9cc#32, 0x18beb771#32, 0xd773cbd#32, 0x13f51951#32, 0x9d0c177#32, 0x1c49a78#32]

/-- `P256ZERO31`, p256.rs:132-140. -/
def zero31 : Fe :=
  [0x7ffffff8#32, 0x3ffffffc#32, 0x7ffffffc#32, 0x40001ffc#32, 0x7ffffffc#32, 0x3ffffffc#32, 0x80fffffc#32, 0x37fffffc#32, 0x7ffffffc#32]

/-- `non_zero_to_all_ones`, p256.rs:196-198. -/
def nonZeroToAllOnes (x : W) : W := ((x - 1#32) >>> 31) - 1#32

/-- `p256_reduce_carry`, p256.rs:205-221. -/
def reduceCarry (a : Fe) (carry : W) : Fe :=
  match a with
  | [a0, a1, a2, a3, a4, a5, a6, a7, a8] =>
    let mask := nonZeroToAllOnes carry
    let a0 := a0 + (carry <<< 1)
    let a3 := a3 + (0x10000000#32 &&& mask)
    let a3 := a3 - (carry <<< 11)
    let a4 := a4 + (0x1fffffff#32 &&& mask)
    let a5 := a5 + (0xfffffff#32 &&& mask)
    let a6 := a6 + (0x1fffffff#32 &&& mask)
    let a6 := a6 - (carry <<< 22)
    let a7 := a7 - (1#32 &&& mask)
    let a7 := a7 + (carry <<< 25)
    [a0, a1, a2, a3, a4, a5, a6, a7, a8]
  | _ => a

/-- The width of a limb: 29 bits at the even places, 28 at the odd ones.
src/elliptic/p256.rs:11-30. -/
def width (even : Bool) : Nat := if even then 29 else 28

/-- The mask of a limb. src/elliptic/p256.rs:29-30. -/
def maskOf (even : Bool) : W := if even then b29 else b28

/-- The carry loops, p256.rs:232-247, 267-285 and 725-741: each word gets the carry of the one before, keeps the bits of its width and passes the rest
on. The result has the limbs and the last carry. -/
def carryLoop : Bool → W → List W → List W × W
  | _, c, [] => ([], c)
  | e, c, x :: xs =>
    let x := x + c
    let r := carryLoop (!e) (x >>> width e) xs
    ((x &&& maskOf e) :: r.1, r.2)

/-- `p256_sum`, p256.rs:230-250. -/
def sum (a b : Fe) : Fe :=
  let r := carryLoop true 0#32 (List.zipWith (· + ·) a b)
  reduceCarry r.1 r.2

/-- `p256_diff`, p256.rs:264-288. -/
def diff (a b : Fe) : Fe :=
  let r := carryLoop true 0#32 (List.zipWith (· + ·) (List.zipWith (· - ·) a b) zero31)
  reduceCarry r.1 r.2

/-- `p256_scalar3`, p256.rs:723-744. -/
def scalar3 (a : Fe) : Fe :=
  let r := carryLoop true 0#32 (a.map (· * 3#32))
  reduceCarry r.1 r.2

/-- The loops of `p256_scalar4` and `p256_scalar8`, p256.rs:754-773 and 785-804, for a shift by `k`. -/
def shiftLoop (k : Nat) : Bool → W → List W → List W × W
  | _, c, [] => ([], c)
  | e, c, x :: xs =>
    let next := x >>> (width e - k)
    let x := x <<< k
    let x := x &&& maskOf e
    let x := x + c
    let r := shiftLoop k (!e) (next + (x >>> width e)) xs
    ((x &&& maskOf e) :: r.1, r.2)

/-- `p256_scalar4`, p256.rs:750-776. -/
def scalar4 (a : Fe) : Fe :=
  let r := shiftLoop 2 true 0#32 a
  reduceCarry r.1 r.2

/-- `p256_scalar8`, p256.rs:782-807. -/
def scalar8 (a : Fe) : Fe :=
  let r := shiftLoop 3 true 0#32 a
  reduceCarry r.1 r.2

/-- `uint32`, p256.rs:291-293. -/
def u32 (n : D) : W := (n &&& 0xffffffff#64).setWidth 32

/-- `uint64`, p256.rs:492-494. -/
def u64 (n : W) : D := n.setWidth 64

/-- The loop that removes the overlaps and the word after it, p256.rs:327-354. `p2` and `p1` are the two words before the ones that are left, `e` says
whether the index is even. When no word is left the word 17 is made. -/
def spreadLoop : Bool → D → D → W → List D → List W
  | _, p2, p1, c, [] => [(u32 (p2 >>> 32) >>> 25) + (u32 p1 >>> 29) + (u32 (p1 >>> 32) <<< 3) + c]
  | e, p2, p1, c, t :: ts =>
    let x := u32 (p2 >>> 32) >>> 25
    let x := x + (u32 p1 >>> width (!e))
    let x := x + ((u32 (p1 >>> 32) <<< (32 - width (!e))) &&& maskOf e)
    let x := x + (u32 t &&& maskOf e)
    let x := x + c
    (x &&& maskOf e) :: spreadLoop (!e) p1 t (x >>> width e) ts

/-- The 18 words `tmp2`, p256.rs:312-354. -/
def spread : List D → List W
  | t0 :: t1 :: ts =>
    let w0 := u32 t0 &&& b29
    let w1 := u32 t0 >>> 29
    let w1 := w1 ||| ((u32 (t0 >>> 32) <<< 3) &&& b28)
    let w1 := w1 + (u32 t1 &&& b28)
    w0 :: (w1 &&& b28) :: spreadLoop true t0 t1 (w1 >>> 28) ts
  | _ => []

section
variable {m : Type → Type} [Monad m] (B : Build m)

/-- The first half of a round of the elimination, p256.rs:367-431. The list holds the words from `tmp2[i]` on; `tmp2[i]` becomes zero, is not used
any more, and is dropped. -/
def topHalf : List W → m (List W)
  | t0 :: t1 :: t2 :: t3 :: t4 :: t5 :: t6 :: t7 :: t8 :: t9 :: rest => do
    let t1 := t1 + (t0 >>> 29)
    let x := t0 &&& b29
    let mask := nonZeroToAllOnes x
    let t3 := t3 + ((x <<< 10) &&& b28)
    let t4 := t4 + (x >>> 18)
    let t6 := t6 + ((x <<< 21) &&& b29)
    let t7 := t7 + (x >>> 8)
    let t7 := t7 + (0x10000000#32 &&& mask)
    let x1 ← B.sub x 1#32
    let t8 := t8 + (x1 &&& mask)
    let t7 := t7 - ((x <<< 24) &&& b28)
    let t8 := t8 - (x >>> 4)
    let t8 := t8 + (0x20000000#32 &&& mask)
    let t8 := t8 - x
    let t8 := t8 + ((x <<< 28) &&& b29)
    let x2 ← B.sub (x >>> 1) 1#32
    let t9 := t9 + (x2 &&& mask)
    pure (t1 :: t2 :: t3 :: t4 :: t5 :: t6 :: t7 :: t8 :: t9 :: rest)
  | l => pure l

/-- The second half of a round, p256.rs:436-458; the list holds the words from `tmp2[i+1]` on, which is dropped. -/
def bottomHalf : List W → m (List W)
  | t0 :: t1 :: t2 :: t3 :: t4 :: t5 :: t6 :: t7 :: t8 :: t9 :: rest => do
    let t1 := t1 + (t0 >>> 28)
    let x := t0 &&& b28
    let mask := nonZeroToAllOnes x
    let t3 := t3 + ((x <<< 11) &&& b29)
    let t4 := t4 + (x >>> 18)
    let t6 := t6 + ((x <<< 21) &&& b28)
    let t7 := t7 + (x >>> 7)
    let t7 := t7 + (0x20000000#32 &&& mask)
    let x1 ← B.sub x 1#32
    let t8 := t8 + (x1 &&& mask)
    let t7 := t7 - ((x <<< 25) &&& b29)
    let t8 := t8 - (x >>> 4)
    let t8 := t8 + (0x10000000#32 &&& mask)
    let t8 := t8 - x
    let x2 ← B.sub x 1#32
    let t9 := t9 + (x2 &&& mask)
    pure (t1 :: t2 :: t3 :: t4 :: t5 :: t6 :: t7 :: t8 :: t9 :: rest)
  | l => pure l

/-- The elimination, p256.rs:366-459: `n` full rounds, then the first half of the last one. -/
def eliminate : Nat → List W → m (List W)
  | 0, t => topHalf B t
  | n + 1, t => do
    let t ← topHalf B t
    let t ← bottomHalf B t
    eliminate n t

/-- The shift merged with a carry chain, p256.rs:463-486, on the words from `tmp2[9]` on. -/
def shiftDown : W → List W → List W × W
  | c, t0 :: t1 :: rest =>
    let o := t0
    let o := o + c
    let o := o + ((t1 <<< 28) &&& b29)
    let c := o >>> 29
    let o' := t1 >>> 1
    let o' := o' + c
    let r := shiftDown (o' >>> 28) rest
    ((o &&& b29) :: (o' &&& b28) :: r.1, r.2)
  | c, [t] =>
    let o := t + c
    ([o &&& b29], o >>> 29)
  | c, [] => ([], c)

/-- `p256_reduce_degree`, p256.rs:305-489. -/
def reduceDegree (tmp : List D) : m Fe := do
  let t ← eliminate B 4 (spread tmp)
  let r := shiftDown 0#32 t
  pure (reduceCarry r.1 r.2)

/-- The products of `p256_square`, p256.rs:504-551. -/
def squareWords : Fe → List D
  | [a0, a1, a2, a3, a4, a5, a6, a7, a8] =>
    [ u64 a0 * u64 a0,
      u64 a0 * (u64 a1 <<< 1),
      u64 a0 * (u64 a2 <<< 1) + u64 a1 * (u64 a1 <<< 1),
      u64 a0 * (u64 a3 <<< 1) + u64 a1 * (u64 a2 <<< 1),
      u64 a0 * (u64 a4 <<< 1) + u64 a1 * (u64 a3 <<< 2) + u64 a2 * u64 a2,
      u64 a0 * (u64 a5 <<< 1) + u64 a1 * (u64 a4 <<< 1) + u64 a2 * (u64 a3 <<< 1),
      u64 a0 * (u64 a6 <<< 1) + u64 a1 * (u64 a5 <<< 2) + u64 a2 * (u64 a4 <<< 1) + u64 a3 * (u64 a3 <<< 1),
      u64 a0 * (u64 a7 <<< 1) + u64 a1 * (u64 a6 <<< 1) + u64 a2 * (u64 a5 <<< 1) + u64 a3 * (u64 a4 <<< 1),
      u64 a0 * (u64 a8 <<< 1) + u64 a1 * (u64 a7 <<< 2) + u64 a2 * (u64 a6 <<< 1) + u64 a3 * (u64 a5 <<< 2) + u64 a4 * u64 a4,
      u64 a1 * (u64 a8 <<< 1) + u64 a2 * (u64 a7 <<< 1) + u64 a3 * (u64 a6 <<< 1) + u64 a4 * (u64 a5 <<< 1),
      u64 a2 * (u64 a8 <<< 1) + u64 a3 * (u64 a7 <<< 2) + u64 a4 * (u64 a6 <<< 1) + u64 a5 * (u64 a5 <<< 1),
      u64 a3 * (u64 a8 <<< 1) + u64 a4 * (u64 a7 <<< 1) + u64 a5 * (u64 a6 <<< 1),
      u64 a4 * (u64 a8 <<< 1) + u64 a5 * (u64 a7 <<< 2) + u64 a6 * u64 a6,
      u64 a5 * (u64 a8 <<< 1) + u64 a6 * (u64 a7 <<< 1),
      u64 a6 * (u64 a8 <<< 1) + u64 a7 * (u64 a7 <<< 1),
      u64 a7 * (u64 a8 <<< 1),
      u64 a8 * u64 a8 ]
  | _ => []

/-- `p256_square`, p256.rs:503-554. -/
def square (a : Fe) : m Fe := reduceDegree B (squareWords a)

/-- The products of `p256_mul`, p256.rs:565-648. -/
def mulWords : Fe → Fe → List D
  | [a0, a1, a2, a3, a4, a5, a6, a7, a8], [b0, b1, b2, b3, b4, b5, b6, b7, b8] =>
    [ u64 a0 * u64 b0,
      u64 a0 * (u64 b1 <<< 0) + u64 a1 * (u64 b0 <<< 0),
      u64 a0 * (u64 b2 <<< 0) + u64 a1 * (u64 b1 <<< 1) + u64 a2 * (u64 b0 <<< 0),
      u64 a0 * (u64 b3 <<< 0) + u64 a1 * (u64 b2 <<< 0) + u64 a2 * (u64 b1 <<< 0) + u64 a3 * (u64 b0 <<< 0),
      u64 a0 * (u64 b4 <<< 0) + u64 a1 * (u64 b3 <<< 1) + u64 a2 * (u64 b2 <<< 0) + u64 a3 * (u64 b1 <<< 1) + u64 a4 * (u64 b0 <<< 0),
      u64 a0 * (u64 b5 <<< 0) + u64 a1 * (u64 b4 <<< 0) + u64 a2 * (u64 b3 <<< 0) + u64 a3 * (u64 b2 <<< 0) + u64 a4 * (u64 b1 <<< 0) + u64 a5 * (u64 b0 <<< 0),
      u64 a0 * (u64 b6 <<< 0) + u64 a1 * (u64 b5 <<< 1) + u64 a2 * (u64 b4 <<< 0) + u64 a3 * (u64 b3 <<< 1) + u64 a4 * (u64 b2 <<< 0) + u64 a5 * (u64 b1 <<< 1) + u64 a6 * (u64 b0 <<< 0),
      u64 a0 * (u64 b7 <<< 0) + u64 a1 * (u64 b6 <<< 0) + u64 a2 * (u64 b5 <<< 0) + u64 a3 * (u64 b4 <<< 0) + u64 a4 * (u64 b3 <<< 0) + u64 a5 * (u64 b2 <<< 0) + u64 a6 * (u64 b1 <<< 0) + u64 a7 * (u64 b0 <<< 0),
      u64 a0 * (u64 b8 <<< 0) + u64 a1 * (u64 b7 <<< 1) + u64 a2 * (u64 b6 <<< 0) + u64 a3 * (u64 b5 <<< 1) + u64 a4 * (u64 b4 <<< 0) + u64 a5 * (u64 b3 <<< 1) + u64 a6 * (u64 b2 <<< 0) + u64 a7 * (u64 b1 <<< 1) + u64 a8 * (u64 b0 <<< 0),
      u64 a1 * (u64 b8 <<< 0) + u64 a2 * (u64 b7 <<< 0) + u64 a3 * (u64 b6 <<< 0) + u64 a4 * (u64 b5 <<< 0) + u64 a5 * (u64 b4 <<< 0) + u64 a6 * (u64 b3 <<< 0) + u64 a7 * (u64 b2 <<< 0) + u64 a8 * (u64 b1 <<< 0),
      u64 a2 * (u64 b8 <<< 0) + u64 a3 * (u64 b7 <<< 1) + u64 a4 * (u64 b6 <<< 0) + u64 a5 * (u64 b5 <<< 1) + u64 a6 * (u64 b4 <<< 0) + u64 a7 * (u64 b3 <<< 1) + u64 a8 * (u64 b2 <<< 0),
      u64 a3 * (u64 b8 <<< 0) + u64 a4 * (u64 b7 <<< 0) + u64 a5 * (u64 b6 <<< 0) + u64 a6 * (u64 b5 <<< 0) + u64 a7 * (u64 b4 <<< 0) + u64 a8 * (u64 b3 <<< 0),
      u64 a4 * (u64 b8 <<< 0) + u64 a5 * (u64 b7 <<< 1) + u64 a6 * (u64 b6 <<< 0) + u64 a7 * (u64 b5 <<< 1) + u64 a8 * (u64 b4 <<< 0),
      u64 a5 * (u64 b8 <<< 0) + u64 a6 * (u64 b7 <<< 0) + u64 a7 * (u64 b6 <<< 0) + u64 a8 * (u64 b5 <<< 0),
      u64 a6 * (u64 b8 <<< 0) + u64 a7 * (u64 b7 <<< 1) + u64 a8 * (u64 b6 <<< 0),
      u64 a7 * (u64 b8 <<< 0) + u64 a8 * (u64 b7 <<< 0),
      u64 a8 * (u64 b8 <<< 0) ]
  | _, _ => []

/-- `p256_mul`, p256.rs:564-651. -/
def mul (a b : Fe) : m Fe := reduceDegree B (mulWords a b)

/-- `n` squarings in place. The loops of src/elliptic/p256.rs:663-720. -/
def squareN : Nat → Fe → m Fe
  | 0, f => pure f
  | n + 1, f => do
    let f ← square B f
    squareN n f

/-- `p256_invert`, p256.rs:663-717. -/
def invert (a : Fe) : m Fe := do
  let ftmp ← square B a
  let ftmp ← mul B a ftmp
  let e2 := ftmp
  let ftmp ← square B ftmp
  let ftmp ← square B ftmp
  let ftmp ← mul B ftmp e2
  let e4 := ftmp
  let ftmp ← square B ftmp
  let ftmp ← square B ftmp
  let ftmp ← square B ftmp
  let ftmp ← square B ftmp
  let ftmp ← mul B ftmp e4
  let e8 := ftmp
  let ftmp ← squareN B 8 ftmp
  let ftmp ← mul B ftmp e8
  let e16 := ftmp
  let ftmp ← squareN B 16 ftmp
  let ftmp ← mul B ftmp e16
  let e32 := ftmp
  let ftmp ← squareN B 32 ftmp
  let e64 := ftmp
  let ftmp ← mul B ftmp a
  let ftmp ← squareN B 192 ftmp
  let ftmp2 ← mul B e64 e32
  let ftmp2 ← squareN B 16 ftmp2
  let ftmp2 ← mul B ftmp2 e16
  let ftmp2 ← squareN B 8 ftmp2
  let ftmp2 ← mul B ftmp2 e8
  let ftmp2 ← squareN B 4 ftmp2
  let ftmp2 ← mul B ftmp2 e4
  let ftmp2 ← square B ftmp2
  let ftmp2 ← square B ftmp2
  let ftmp2 ← mul B ftmp2 e2
  let ftmp2 ← square B ftmp2
  let ftmp2 ← square B ftmp2
  let ftmp2 ← mul B ftmp2 a
  mul B ftmp2 ftmp

/-- `p256_point_double`, p256.rs:824-853. -/
def pointDouble (s : Jac) : m Jac := do
  let x := s.1
  let y := s.2.1
  let z := s.2.2
  let delta ← square B z
  let gamma ← square B y
  let beta ← mul B x gamma
  let tmp := sum x delta
  let tmp2 := diff x delta
  let alpha ← mul B tmp tmp2
  let alpha := scalar3 alpha
  let tmp := sum y z
  let tmp ← square B tmp
  let tmp := diff tmp gamma
  let zout := diff tmp delta
  let beta := scalar4 beta
  let xout ← square B alpha
  let xout := diff xout beta
  let xout := diff xout beta
  let tmp := diff beta xout
  let tmp ← mul B alpha tmp
  let tmp2 ← square B gamma
  let tmp2 := scalar8 tmp2
  let yout := diff tmp tmp2
  pure (xout, yout, zout)

/-- `p256_point_add_mixed`, p256.rs:870-900. -/
def pointAddMixed (s : Jac) (x2 y2 : Fe) : m Jac := do
  let x1 := s.1
  let y1 := s.2.1
  let z1 := s.2.2
  let z1z1 ← square B z1
  let tmp := sum z1 z1
  let u2 ← mul B x2 z1z1
  let z1z1z1 ← mul B z1 z1z1
  let s2 ← mul B y2 z1z1z1
  let h := diff u2 x1
  let i := sum h h
  let i ← square B i
  let j ← mul B h i
  let r := diff s2 y1
  let r := sum r r
  let v ← mul B x1 i
  let zout ← mul B tmp h
  let rr ← square B r
  let xout := diff rr j
  let xout := diff xout v
  let xout := diff xout v
  let tmp := diff v xout
  let yout ← mul B tmp r
  let tmp ← mul B y1 j
  let yout := diff yout tmp
  let yout := diff yout tmp
  pure (xout, yout, zout)

/-- `p256_point_add`, p256.rs:908-948. -/
def pointAdd (s t : Jac) : m Jac := do
  let x1 := s.1
  let y1 := s.2.1
  let z1 := s.2.2
  let x2 := t.1
  let y2 := t.2.1
  let z2 := t.2.2
  let z1z1 ← square B z1
  let z2z2 ← square B z2
  let u1 ← mul B x1 z2z2
  let tmp := sum z1 z2
  let tmp ← square B tmp
  let tmp := diff tmp z1z1
  let tmp := diff tmp z2z2
  let z2z2z2 ← mul B z2 z2z2
  let s1 ← mul B y1 z2z2z2
  let u2 ← mul B x2 z1z1
  let z1z1z1 ← mul B z1 z1z1
  let s2 ← mul B y2 z1z1z1
  let h := diff u2 u1
  let i := sum h h
  let i ← square B i
  let j ← mul B h i
  let r := diff s2 s1
  let r := sum r r
  let v ← mul B u1 i
  let zout ← mul B tmp h
  let rr ← square B r
  let xout := diff rr j
  let xout := diff xout v
  let xout := diff xout v
  let tmp := diff v xout
  let yout ← mul B tmp r
  let tmp ← mul B s1 j
  let yout := diff yout tmp
  let yout := diff yout tmp
  pure (xout, yout, zout)

/-- `p256_copy_conditional`, p256.rs:953-957: the new value of `out`. -/
def copyConditional (out a : Fe) (mask : W) : Fe := List.zipWith (fun x y => x ^^^ (mask &&& (y ^^^ x))) out a

/-- Three conditional copies, as they are used, p256.rs:1052-1054, 1061-1063, 1147-1149 and 1153-1155. -/
def copyJac (out a : Jac) (mask : W) : Jac :=
  (copyConditional out.1 a.1 mask, copyConditional out.2.1 a.2.1 mask, copyConditional out.2.2 a.2.2 mask)

/-- `*x |= t & mask` for all limbs; the shorter list ends the loop. src/elliptic/p256.rs:961-1008. -/
def orMasked (x t : List W) (mask : W) : List W := List.zipWith (fun x t => x ||| (t &&& mask)) x t

/-- One round of `p256_select_affine_point`, p256.rs:966-978. The state has the outputs and the rest of the table. -/
def selectAffineStep (index : W) (s : Fe × Fe × List W) (i : Nat) : Fe × Fe × List W :=
  let mask := BitVec.ofNat 32 i ^^^ index
  let mask := mask ||| (mask >>> 2)
  let mask := mask ||| (mask >>> 1)
  let mask := mask &&& 1#32
  let mask := mask - 1#32
  let x := orMasked s.1 s.2.2 mask
  let table := s.2.2.drop 9
  let y := orMasked s.2.1 table mask
  (x, y, table.drop 9)

/-- `p256_select_affine_point`, p256.rs:961-980. -/
def selectAffine (table : List W) (index : W) : Fe × Fe :=
  let s := (List.range' 1 15).foldl (selectAffineStep index) (zero, zero, table)
  (s.1, s.2.1)

/-- One round of `p256_select_jacobian_point`, p256.rs:994-1006. -/
def selectJacobianStep (table : List Jac) (index : W) (s : Jac) (i : Nat) : Jac :=
  let mask := BitVec.ofNat 32 i ^^^ index
  let mask := mask ||| (mask >>> 2)
  let mask := mask ||| (mask >>> 1)
  let mask := if mask &&& 1#32 = 1#32 then 0#32 else 0xffffffff#32
  let t := table.getD i ([], [], [])
  (orMasked s.1 t.1 mask, orMasked s.2.1 t.2.1 mask, orMasked s.2.2 t.2.2 mask)

/-- `p256_select_jacobian_point`, p256.rs:985-1008. -/
def selectJacobian (table : List Jac) (index : W) : Jac := (List.range' 1 15).foldl (selectJacobianStep table index) (zero, zero, zero)

/-- `p256_get_bit`, p256.rs:1010-1013. -/
def getBit (scalar : Bytes) (bit : Nat) : W := ((scalar.getD (bit >>> 3) 0#8).setWidth 32 >>> (bit &&& 7)) &&& 1#32

/-- The end of a round of the scalar multiplications, p256.rs:1048-1065 and 1146-1156, from the sum `t` with the table entry `p` on. The state has
the point and the mask `nisinfinitymask`. -/
def mergeStep (s : Jac × W) (p t : Jac) (index : W) : Jac × W :=
  let out := copyJac s.1 p s.2
  let pNonInf := nonZeroToAllOnes index
  let mask := pNonInf &&& ~~~ s.2
  let out := copyJac out t mask
  (out, s.2 &&& ~~~ pNonInf)

/-- One round of the inner loop of `p256_scalar_base_mult`, p256.rs:1036-1065; `j` is 0 or 32 and the offset in the table 0 or 270. -/
def baseRound (scalar : Bytes) (i : Nat) (s : Jac × W) (j : Nat) : m (Jac × W) := do
  let bit0 := getBit scalar (31 - i + j)
  let bit1 := getBit scalar (95 - i + j)
  let bit2 := getBit scalar (159 - i + j)
  let bit3 := getBit scalar (223 - i + j)
  let index := bit0 ||| (bit1 <<< 1) ||| (bit2 <<< 2) ||| (bit3 <<< 3)
  let p := selectAffine (precomputed.drop (if j = 0 then 0 else 270)) index
  let t ← pointAddMixed B s.1 p.1 p.2
  pure (mergeStep s (p.1, p.2, one) t index)

/-- One round of the outer loop, p256.rs:1031-1066. -/
def baseOuter (scalar : Bytes) (s : Jac × W) (i : Nat) : m (Jac × W) := do
  let s ← if i ≠ 0 then do
      let d ← pointDouble B s.1
      pure (d, s.2)
    else pure s
  let s ← baseRound B scalar i s 0
  baseRound B scalar i s 32

/-- `p256_scalar_base_mult`, p256.rs:1018-1068. -/
def scalarBaseMult (scalar : Bytes) : m Jac := do
  let s ← (List.range 32).foldlM (baseOuter B scalar) ((zero, zero, zero), 0xffffffff#32)
  pure s.1

/-- `p256_point_to_affine`, p256.rs:1072-1079. -/
def pointToAffine (s : Jac) : m (Fe × Fe) := do
  let zinv ← invert B s.2.2
  let zinvsq ← square B zinv
  let xout ← mul B s.1 zinvsq
  let zinv ← mul B zinv zinvsq
  let yout ← mul B s.2.1 zinv
  pure (xout, yout)

/-- One round of the loop that makes the table, p256.rs:1118-1119. -/
def tableRound (x y : Fe) (t : List Jac) (i : Nat) : m (List Jac) := do
  let d ← pointDouble B (t.getD (i / 2) ([], [], []))
  let t := t.set i d
  let a ← pointAddMixed B (t.getD i ([], [], [])) x y
  pure (t.set (i + 1) a)

/-- The table of `p256_scalar_mult`, p256.rs:1110-1120. -/
def makeTable (x y : Fe) : m (List Jac) :=
  [2, 4, 6, 8, 10, 12, 14].foldlM (tableRound B x y) ((List.replicate 16 (zero, zero, zero)).set 1 (x, y, one))

/-- One round of the main loop, p256.rs:1130-1156. -/
def windowRound (table : List Jac) (scalar : Bytes) (s : Jac × W) (i : Nat) : m (Jac × W) := do
  let s ← if i ≠ 0 then do
      let d ← pointDouble B s.1
      let d ← pointDouble B d
      let d ← pointDouble B d
      let d ← pointDouble B d
      pure (d, s.2)
    else pure s
  let index : W := (scalar.getD (31 - i / 2) 0#8).setWidth 32
  let index := if i &&& 1 = 1 then index &&& 15#32 else index >>> 4
  let p := selectJacobian table index
  let t ← pointAdd B s.1 p
  pure (mergeStep s p t index)

/-- `p256_scalar_mult`, p256.rs:1105-1158. -/
def scalarMult (x y : Fe) (scalar : Bytes) : m Jac := do
  let table ← makeTable B x y
  let s ← (List.range 64).foldlM (windowRound B table scalar) ((zero, zero, zero), 0xffffffff#32)
  pure s.1

/-- `CurveP256`, p256.rs:144-150. -/
structure CurveP256 where
  cp : CurveParams
  rInv : Int

/-- `CurveP256::new`, p256.rs:162-173. -/
def new : CurveP256 := ⟨Elliptic.p256, 0x7fffffff00000001fffffffe8000000100000000ffffffff0000000180000000⟩

/-- `p256_get_scalar`, p256.rs:178-189: the new value of the array `out`, which is all zero before. -/
def getScalar (c : CurveP256) (n : Nat) : Bytes :=
  let a := natBytes (if c.cp.n ≤ n then n % c.cp.n.toNat else n)
  (a.take 32).reverse ++ List.replicate (32 - a.length) 0#8

/-- The number of the limbs as `p256_to_bigint` computes it, p256.rs:1082-1091. -/
def limbsNat (a : Fe) : Nat :=
  [7, 6, 5, 4, 3, 2, 1, 0].foldl (fun r i => (r <<< (if i &&& 1 = 0 then 29 else 28)) + (a.getD i 0).toNat) (a.getD 8 0).toNat

/-- `p256_to_bigint`, p256.rs:1081-1097. -/
def toBigint (c : CurveP256) (a : Fe) : Int := Elliptic.rem ((limbsNat a : Int) * c.rInv) c.cp.p

/-- `p256_to_affine`, p256.rs:1099-1103. -/
def toAffine (c : CurveP256) (s : Jac) : m (Big × Big) := do
  let a ← pointToAffine B s
  pure (some (toBigint c a.1), some (toBigint c a.2))

/-- The loop of `p256_from_bigint`, p256.rs:1164-1179. `tmp_nat[0]` is the least significant 32-bit word; for a zero it is taken to exist and be 0. -/
def limbsOf : Nat → Bool → Nat → Fe
  | 0, _, _ => []
  | n + 1, e, t => (BitVec.ofNat 32 t &&& maskOf e) :: limbsOf n (!e) (t >>> width e)

/-- `p256_from_bigint`, p256.rs:1160-1180. -/
def fromBigint (c : CurveP256) (a : Int) : Fe := limbsOf 9 true (Elliptic.rem (a * 2 ^ 257) c.cp.p).toNat

/-- `scalar`, p256.rs:1200-1215. -/
def scalar (c : CurveP256) (x y : Big) (k : Option Nat) : m (Big × Big) :=
  match x, y, k with
  | some x, some y, some k => do
    let s ← scalarMult B (fromBigint c x) (fromBigint c y) (getScalar c k)
    toAffine B c s
  | _, _, _ => pure (none, none)

/-- `scalar_base_point`, p256.rs:1217-1230. -/
def scalarBasePoint (c : CurveP256) (k : Option Nat) : m (Big × Big) :=
  match k with
  | some k => do
    let s ← scalarBaseMult B (getScalar c k)
    toAffine B c s
  | none => pure (none, none)

end

/-- `impl EllipticCurve for CurveP256`, p256.rs:1183-1231, in a release build. -/
def curve : EllipticCurve CurveP256 where
  curveParams := CurveP256.cp
  isOnCurve c := Elliptic.isOnCurve c.cp
  add c := Elliptic.add c.cp
  double c := Elliptic.double c.cp
  scalar := scalar release
  scalarBasePoint := scalarBasePoint release

end Verif.Model.P256
