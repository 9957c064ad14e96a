import Verif.Check.Run
import Verif.Model.ECB
import Verif.Model.CBC
import Verif.Model.CFB
import Verif.Model.OFB
import Verif.Model.CTR

/-! Known answers: the model of DES, TDES, AES, SM4 and the modes of operation is run on the inputs of the unit tests in src/des/des.rs, src/des/tdes.rs, src/aes/aes.rs, src/sm4/sm4_test.rs (without the million-fold
iteration) and src/cipher_mode/cipher_mode_test.rs
and compared with the outputs those tests expect. These are tests of the model, not proofs. Written by tools/vectors.py. -/

namespace Verif.Check
open Verif.Model

#guard blocks des [
  ("0000000000000000", "0000000000000000", "8ca64de9c1b123a7"),
  ("0000000000000000", "ffffffffffffffff", "355550b2150e2451"),
  ("0000000000000000", "0123456789abcdef", "617b3a0ce8f07100"),
  ("0000000000000000", "fedcba9876543210", "9231f236ff9aa95c"),
  ("ffffffffffffffff", "0000000000000000", "caaaaf4deaf1dbae"),
  ("ffffffffffffffff", "ffffffffffffffff", "7359b2163e4edc58"),
  ("ffffffffffffffff", "0123456789abcdef", "6dce0dc9006556a3"),
  ("ffffffffffffffff", "fedcba9876543210", "9e84c5f3170f8eff"),
  ("0123456789abcdef", "0000000000000000", "d5d44ff720683d0d"),
  ("0123456789abcdef", "ffffffffffffffff", "59732356f36fde06"),
  ("0123456789abcdef", "0123456789abcdef", "56cc09e7cfdc4cef"),
  ("0123456789abcdef", "fedcba9876543210", "12c626af058b433b"),
  ("fedcba9876543210", "0000000000000000", "a68cdca90c9021f9"),
  ("fedcba9876543210", "ffffffffffffffff", "2a2bb008df97c2f2"),
  ("fedcba9876543210", "0123456789abcdef", "ed39d950fa74bcc4"),
  ("fedcba9876543210", "fedcba9876543210", "a933f6183023b310"),
  ("0123456789abcdef", "1111111111111111", "17668dfc7292532d"),
  ("0123456789abcdef", "0101010101010101", "b4fd231647a5bec0"),
  ("0e329232ea6d0d73", "8787878787878787", "0000000000000000"),
  ("1f79905f8801c888", "c7461873af485fb3", "b0935088f992446a"),
  ("e6f4f2db31425301", "ff3d255012e34ac5", "8608d3d16c2fd255"),
  ("69c19dc115c5fb2b", "1a225caf1f1da3f9", "64ba316756911ea7"),
  ("6e5ee247c4bff651", "11c957ff66890ef0", "94c535b2c58b3972")]

#guard blocks tdes [
  ("0123456789abcdef23456789abcdef010123456789abcdef", "6bc1bee22e409f96", "06ede3d82884090a"),
  ("0123456789abcdef23456789abcdef010123456789abcdef", "e93d7e117393172a", "ff322c19f0518486"),
  ("0123456789abcdef23456789abcdef010123456789abcdef", "ae2d8a571e03ac9c", "730576972a666e58"),
  ("0123456789abcdef23456789abcdef010123456789abcdef", "9eb76fac45af8e51", "b6c88cf107340d3d")]

#guard blocks tdes [
  ("0123456789abcdef23456789abcdef01456789abcdef0123", "6bc1bee22e409f96", "714772f339841d34"),
  ("0123456789abcdef23456789abcdef01456789abcdef0123", "e93d7e117393172a", "267fcc4bd2949cc3"),
  ("0123456789abcdef23456789abcdef01456789abcdef0123", "ae2d8a571e03ac9c", "ee11c22a576a3038"),
  ("0123456789abcdef23456789abcdef01456789abcdef0123", "9eb76fac45af8e51", "76183f99c0b6de87")]

#guard blocks aes [
  ("2b7e151628aed2a6abf7158809cf4f3c", "3243f6a8885a308d313198a2e0370734", "3925841d02dc09fbdc118597196a0b32"),
  ("000102030405060708090a0b0c0d0e0f", "00112233445566778899aabbccddeeff", "69c4e0d86a7b0430d8cdb78070b4c55a"),
  ("000102030405060708090a0b0c0d0e0f1011121314151617", "00112233445566778899aabbccddeeff", "dda97ca4864cdfe06eaf70a0ec0d7191"),
  ("000102030405060708090a0b0c0d0e0f101112131415161718191a1b1c1d1e1f", "00112233445566778899aabbccddeeff", "8ea2b7ca516745bfeafc49904b496089")]

#guard (AES.new (hex "0000010203")).isOk = false

#guard blocks sm4 [
  ("0123456789abcdeffedcba9876543210", "0123456789abcdeffedcba9876543210", "681edf34d206965e86b3e94f536e4246")]

#guard ecb (aes "2b7e151628aed2a6abf7158809cf4f3c") "6bc1bee22e409f96e93d7e117393172aae2d8a571e03ac9c9eb76fac45af8e5130c81c46a35ce411e5fbc1191a0a52eff69f2445df4f9b17ad2b417be66c3710" "3ad77bb40d7a3660a89ecaf32466ef97f5d3d58503b9699de785895a96fdbaaf43b1cd7f598ece23881b00e3ed0306887b0c785e27e8ad3f8223207104725dd4"

#guard ecb (tdes "0123456789abcdef23456789abcdef01456789abcdef0123") "6bc1bee22e409f96e93d7e117393172aae2d8a571e03ac9c9eb76fac45af8e51" "714772f339841d34267fcc4bd2949cc3ee11c22a576a303876183f99c0b6de87"

#guard ecb (tdes "0123456789abcdef23456789abcdef010123456789abcdef") "6bc1bee22e409f96e93d7e117393172aae2d8a571e03ac9c9eb76fac45af8e51" "06ede3d82884090aff322c19f0518486730576972a666e58b6c88cf107340d3d"

#guard cbc (tdes "0123456789abcdef23456789abcdef01456789abcdef0123") "f69f2445df4f9b17" "6bc1bee22e409f96e93d7e117393172aae2d8a571e03ac9c9eb76fac45af8e51" "2079c3d53aa763e193b79e2569ab5262516570481f25b50f73c0bda85c8e0da7"

#guard cbc (tdes "0123456789abcdef23456789abcdef010123456789abcdef") "f69f2445df4f9b17" "6bc1bee22e409f96e93d7e117393172aae2d8a571e03ac9c9eb76fac45af8e51" "7401ce1eab6d003caff84bf47b36cc2154f0238f9ffecd8f6acf118392b45581"

#guard cfb (tdes "0123456789abcdef23456789abcdef01456789abcdef0123") 8 "f69f2445df4f9b17" "6bc1bee22e409f96" "07951b729dc23ab4"

#guard cfb (tdes "0123456789abcdef23456789abcdef01456789abcdef0123") 64 "f69f2445df4f9b17" "6bc1bee22e409f96e93d7e117393172aae2d8a571e03ac9c9eb76fac45af8e51" "078bb74e59ce7ed67666de9cf95eaf3fe9ed6bb460f451528a5f9fe4ed710918"

#guard cfb (tdes "0123456789abcdef23456789abcdef010123456789abcdef") 8 "f69f2445df4f9b17" "6bc1bee22e409f96" "61d86d9aee9693fd"

#guard cfb (tdes "0123456789abcdef23456789abcdef010123456789abcdef") 64 "f69f2445df4f9b17" "6bc1bee22e409f96e93d7e117393172aae2d8a571e03ac9c9eb76fac45af8e51" "6195b9c2c39909c52ef313667b5a66af688672a3993aeae55b931ae24ee24c5c"

#guard ofb (tdes "0123456789abcdef23456789abcdef01456789abcdef0123") "f69f2445df4f9b17" "6bc1bee22e409f96e93d7e117393172aae2d8a571e03ac9c9eb76fac45af8e51" "078bb74e59ce7ed6267e120692667da1a58662d7e04cbc642144d55c03db5aee"

#guard ofb (tdes "0123456789abcdef23456789abcdef010123456789abcdef") "f69f2445df4f9b17" "6bc1bee22e409f96e93d7e117393172aae2d8a571e03ac9c9eb76fac45af8e51" "6195b9c2c39909c53334ba77ffdccc80e485e85f0a63e7646d8d732e33241f94"

#guard ctr (tdes "0123456789abcdef23456789abcdef01456789abcdef0123") "f69f2445df4f9b17" "6bc1bee22e409f96e93d7e117393172aae2d8a571e03ac9c9eb76fac45af8e51" "078bb74e59ce7ed619aa11d25004fb65a03cedf1ba0b09baa3bc81b8f69c1da9"

#guard ctr (tdes "0123456789abcdef23456789abcdef010123456789abcdef") "f69f2445df4f9b17" "6bc1bee22e409f96e93d7e117393172aae2d8a571e03ac9c9eb76fac45af8e51" "6195b9c2c39909c5dbdf92dadbad5a5d1568482bf25c42c96d3853a8e71b010e"

end Verif.Check
