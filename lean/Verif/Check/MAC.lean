import Verif.Check.Run
import Verif.Model.MD5
import Verif.Model.Facade
import Verif.Model.HMAC
import Verif.Model.CMAC

/-! Known answers: the model of HMAC and CMAC is run on the inputs of the unit tests in src/hmac/hmac/tests.rs and src/cmac/cmac_test.rs
and compared with the outputs those tests expect. These are tests of the model, not proofs. Written by tools/vectors.py. -/

namespace Verif.Check
open Verif.Model

#guard hmacs Facade.sha Facade.newSha1 [
  ("000102030405060708090a0b0c0d0e0f101112131415161718191a1b1c1d1e1f202122232425262728292a2b2c2d2e2f303132333435363738393a3b3c3d3e3f", "53616d706c65202331", "4f4ca3d5d68ba7cc0a1208c9c61e9c5da0403c0a"),
  ("303132333435363738393a3b3c3d3e3f40414243", "53616d706c65202332", "0922d3405faa3d194f82a45830737d5cc6c75d24"),
  ("505152535455565758595a5b5c5d5e5f606162636465666768696a6b6c6d6e6f707172737475767778797a7b7c7d7e7f808182838485868788898a8b8c8d8e8f909192939495969798999a9b9c9d9e9fa0a1a2a3a4a5a6a7a8a9aaabacadaeafb0b1b2b3", "53616d706c65202333", "bcf41eab8bb2d802f3d05caf7cb092ecf8d1a3aa"),
  ("000102030405060708090a0b0c0d0e0f101112131415161718191a1b1c1d1e1f202122232425262728292a2b2c2d2e2f303132333435363738393a3b3c3d3e3f", "53616d706c65206d65737361676520666f72206b65796c656e3d626c6f636b6c656e", "5fd596ee78d5553c8ff4e72d266dfd192366da29"),
  ("000102030405060708090a0b0c0d0e0f10111213", "53616d706c65206d65737361676520666f72206b65796c656e3c626c6f636b6c656e", "4c99ff0cb1b31bd33f8431dbaf4d17fcd356a807"),
  ("000102030405060708090a0b0c0d0e0f101112131415161718191a1b1c1d1e1f202122232425262728292a2b2c2d2e2f303132333435363738393a3b3c3d3e3f404142434445464748494a4b4c4d4e4f505152535455565758595a5b5c5d5e5f60616263", "53616d706c65206d65737361676520666f72206b65796c656e3d626c6f636b6c656e", "2d51b2f7750e410584662e38f133435f4c4fd42a")]

#guard hmacs Facade.sha Facade.newSha256 [
  ("0b0b0b0b0b0b0b0b0b0b0b0b0b0b0b0b0b0b0b0b", "4869205468657265", "b0344c61d8db38535ca8afceaf0bf12b881dc200c9833da726e9376c2e32cff7"),
  ("4a656665", "7768617420646f2079612077616e7420666f72206e6f7468696e673f", "5bdcc146bf60754e6a042426089575c75a003f089d2739839dec58b964ec3843"),
  ("aaaaaaaaaaaaaaaaaaaaaaaaaaaaaaaaaaaaaaaa", "dddddddddddddddddddddddddddddddddddddddddddddddddddddddddddddddddddddddddddddddddddddddddddddddddddd", "773ea91e36800e46854db8ebd09181a72959098b3ef8c122d9635514ced565fe"),
  ("0102030405060708090a0b0c0d0e0f10111213141516171819", "cdcdcdcdcdcdcdcdcdcdcdcdcdcdcdcdcdcdcdcdcdcdcdcdcdcdcdcdcdcdcdcdcdcdcdcdcdcdcdcdcdcdcdcdcdcdcdcdcdcd", "82558a389a443c0ea4cc819899f2083a85f0faa3e578f8077a2e3ff46729665b"),
  ("aaaaaaaaaaaaaaaaaaaaaaaaaaaaaaaaaaaaaaaaaaaaaaaaaaaaaaaaaaaaaaaaaaaaaaaaaaaaaaaaaaaaaaaaaaaaaaaaaaaaaaaaaaaaaaaaaaaaaaaaaaaaaaaaaaaaaaaaaaaaaaaaaaaaaaaaaaaaaaaaaaaaaaaaaaaaaaaaaaaaaaaaaaaaaaaaaaaaaaaaaaaaaaaaaaaaaaaaaaaaaaaaaaaaaaaaaaaaaaaaaaaaaaaaaaaaaaaaaaaaaa", "54657374205573696e67204c6172676572205468616e20426c6f636b2d53697a65204b6579202d2048617368204b6579204669727374", "60e431591ee0b67f0d8a26aacbf5b77f8e0bc6213728c5140546040f0ee37f54"),
  ("aaaaaaaaaaaaaaaaaaaaaaaaaaaaaaaaaaaaaaaaaaaaaaaaaaaaaaaaaaaaaaaaaaaaaaaaaaaaaaaaaaaaaaaaaaaaaaaaaaaaaaaaaaaaaaaaaaaaaaaaaaaaaaaaaaaaaaaaaaaaaaaaaaaaaaaaaaaaaaaaaaaaaaaaaaaaaaaaaaaaaaaaaaaaaaaaaaaaaaaaaaaaaaaaaaaaaaaaaaaaaaaaaaaaaaaaaaaaaaaaaaaaaaaaaaaaaaaaaaaaaa", "5468697320697320612074657374207573696e672061206c6172676572207468616e20626c6f636b2d73697a65206b657920616e642061206c6172676572207468616e20626c6f636b2d73697a6520646174612e20546865206b6579206e6565647320746f20626520686173686564206265666f7265206265696e6720757365642062792074686520484d414320616c676f726974686d2e", "9b09ffa71b942fcb27635fbcd5b0e944bfdc63644f0713938a7f51535c3a35e2"),
  ("000102030405060708090a0b0c0d0e0f101112131415161718191a1b1c1d1e1f202122232425262728292a2b2c2d2e2f303132333435363738393a3b3c3d3e3f", "53616d706c65206d65737361676520666f72206b65796c656e3d626c6f636b6c656e", "8bb9a1db9806f20df7f77b82138c7914d174d59e13dc4d0169c9057b133e1d62"),
  ("000102030405060708090a0b0c0d0e0f101112131415161718191a1b1c1d1e1f", "53616d706c65206d65737361676520666f72206b65796c656e3c626c6f636b6c656e", "a28cf43130ee696a98f14a37678b56bcfcbdd9e5cf69717fecf5480f0ebdf790"),
  ("000102030405060708090a0b0c0d0e0f101112131415161718191a1b1c1d1e1f202122232425262728292a2b2c2d2e2f303132333435363738393a3b3c3d3e3f404142434445464748494a4b4c4d4e4f505152535455565758595a5b5c5d5e5f60616263", "53616d706c65206d65737361676520666f72206b65796c656e3d626c6f636b6c656e", "bdccb6c72ddeadb500ae768386cb38cc41c63dbb0878ddb9c7a38a431b78378d")]

#guard hmacs Facade.sha Facade.newSha224 [
  ("000102030405060708090a0b0c0d0e0f101112131415161718191a1b1c1d1e1f202122232425262728292a2b2c2d2e2f303132333435363738393a3b3c3d3e3f", "53616d706c65206d65737361676520666f72206b65796c656e3d626c6f636b6c656e", "c7405e3ae058e8cd30b08b4140248581ed174cb34e1224bcc1efc81b"),
  ("000102030405060708090a0b0c0d0e0f101112131415161718191a1b", "53616d706c65206d65737361676520666f72206b65796c656e3c626c6f636b6c656e", "e3d249a8cfb67ef8b7a169e9a0a599714a2cecba65999a51beb8fbbe"),
  ("000102030405060708090a0b0c0d0e0f101112131415161718191a1b1c1d1e1f202122232425262728292a2b2c2d2e2f303132333435363738393a3b3c3d3e3f404142434445464748494a4b4c4d4e4f505152535455565758595a5b5c5d5e5f60616263", "53616d706c65206d65737361676520666f72206b65796c656e3d626c6f636b6c656e", "91c52509e5af8531601ae6230099d90bef88aaefb961f4080abc014d")]

#guard hmacs Facade.sha Facade.newSha384 [
  ("000102030405060708090a0b0c0d0e0f101112131415161718191a1b1c1d1e1f202122232425262728292a2b2c2d2e2f303132333435363738393a3b3c3d3e3f404142434445464748494a4b4c4d4e4f505152535455565758595a5b5c5d5e5f606162636465666768696a6b6c6d6e6f707172737475767778797a7b7c7d7e7f", "53616d706c65206d65737361676520666f72206b65796c656e3d626c6f636b6c656e", "63c5daa5e651847ca897c95814ab830bededc7d25e83eef9195cd45857a37f448947858f5af50cc2b1b730ddf29671a9"),
  ("000102030405060708090a0b0c0d0e0f101112131415161718191a1b1c1d1e1f202122232425262728292a2b2c2d2e2f", "53616d706c65206d65737361676520666f72206b65796c656e3c626c6f636b6c656e", "6eb242bdbb582ca17bebfa481b1e23211464d2b7f8c20b9ff2201637b93646af5ae9ac316e98db45d9cae773675eeed0"),
  ("000102030405060708090a0b0c0d0e0f101112131415161718191a1b1c1d1e1f202122232425262728292a2b2c2d2e2f303132333435363738393a3b3c3d3e3f404142434445464748494a4b4c4d4e4f505152535455565758595a5b5c5d5e5f606162636465666768696a6b6c6d6e6f707172737475767778797a7b7c7d7e7f808182838485868788898a8b8c8d8e8f909192939495969798999a9b9c9d9e9fa0a1a2a3a4a5a6a7a8a9aaabacadaeafb0b1b2b3b4b5b6b7b8b9babbbcbdbebfc0c1c2c3c4c5c6c7", "53616d706c65206d65737361676520666f72206b65796c656e3d626c6f636b6c656e", "5b664436df69b0ca22551231a3f0a3d5b4f97991713cfa84bff4d0792eff96c27dccbbb6f79b65d548b40e8564cef594")]

#guard hmacs Facade.sha Facade.newSha512 [
  ("000102030405060708090a0b0c0d0e0f101112131415161718191a1b1c1d1e1f202122232425262728292a2b2c2d2e2f303132333435363738393a3b3c3d3e3f404142434445464748494a4b4c4d4e4f505152535455565758595a5b5c5d5e5f606162636465666768696a6b6c6d6e6f707172737475767778797a7b7c7d7e7f", "53616d706c65206d65737361676520666f72206b65796c656e3d626c6f636b6c656e", "fc25e240658ca785b7a811a8d3f7b4ca48cfa26a8a366bf2cd1f836b05fcb024bd36853081811d6cea4216ebad79da1cfcb95ea4586b8a0ce356596a55fb1347"),
  ("000102030405060708090a0b0c0d0e0f101112131415161718191a1b1c1d1e1f202122232425262728292a2b2c2d2e2f303132333435363738393a3b3c3d3e3f", "53616d706c65206d65737361676520666f72206b65796c656e3c626c6f636b6c656e", "fd44c18bda0bb0a6ce0e82b031bf2818f6539bd56ec00bdc10a8a2d730b3634de2545d639b0f2cf710d0692c72a1896f1f211c2b922d1a96c392e07e7ea9fedc"),
  ("000102030405060708090a0b0c0d0e0f101112131415161718191a1b1c1d1e1f202122232425262728292a2b2c2d2e2f303132333435363738393a3b3c3d3e3f404142434445464748494a4b4c4d4e4f505152535455565758595a5b5c5d5e5f606162636465666768696a6b6c6d6e6f707172737475767778797a7b7c7d7e7f808182838485868788898a8b8c8d8e8f909192939495969798999a9b9c9d9e9fa0a1a2a3a4a5a6a7a8a9aaabacadaeafb0b1b2b3b4b5b6b7b8b9babbbcbdbebfc0c1c2c3c4c5c6c7", "53616d706c65206d65737361676520666f72206b65796c656e3d626c6f636b6c656e", "d93ec8d2de1ad2a9957cb9b83f14e76ad6b5e0cce285079a127d3b14bccb7aa7286d4ac0d4ce64215f2bc9e6870b33d97438be4aaa20cda5c5a912b48b8e27f3")]

#guard hmacs MD5.digest MD5.new [
  ("4a656665", "7768617420646f2079612077616e7420666f72206e6f7468696e673f", "750c783e6ab0b503eaa86e310a5db738")]

#guard cmacs (tdes "0123456789abcdef23456789abcdef01456789abcdef0123") [
  ("", "7db0d37df936c550"),
  ("6bc1bee22e409f96e93d7e117393172a", "30239cf1f52e6609"),
  ("6bc1bee22e409f96e93d7e117393172aae2d8a57", "6c9f3ee4923f6be2"),
  ("6bc1bee22e409f96e93d7e117393172aae2d8a571e03ac9c9eb76fac45af8e51", "99429bd0bf7904e5")]

#guard cmacs (tdes "0123456789abcdef23456789abcdef010123456789abcdef") [
  ("", "79ce52a7f786a960"),
  ("6bc1bee22e409f96e93d7e117393172a", "cc18a0b79af2413b"),
  ("6bc1bee22e409f96e93d7e117393172aae2d8a57", "c06d377ecd101969"),
  ("6bc1bee22e409f96e93d7e117393172aae2d8a571e03ac9c9eb76fac45af8e51", "9cd33580f9b64dfb")]

#guard cmacs (aes "2b7e151628aed2a6abf7158809cf4f3c") [
  ("", "bb1d6929e95937287fa37d129b756746"),
  ("6bc1bee22e409f96e93d7e117393172a", "070a16b46b4d4144f79bdd9dd04a287c"),
  ("6bc1bee22e409f96e93d7e117393172aae2d8a57", "7d85449ea6ea19c823a7bf78837dfade"),
  ("6bc1bee22e409f96e93d7e117393172aae2d8a571e03ac9c9eb76fac45af8e5130c81c46a35ce411e5fbc1191a0a52eff69f2445df4f9b17ad2b417be66c3710", "51f0bebf7e3b9d92fc49741779363cfe")]

#guard cmacs (aes "8e73b0f7da0e6452c810f32b809079e562f8ead2522c6b7b") [
  ("", "d17ddf46adaacde531cac483de7a9367"),
  ("6bc1bee22e409f96e93d7e117393172a", "9e99a7bf31e710900662f65e617c5184"),
  ("6bc1bee22e409f96e93d7e117393172aae2d8a57", "3d75c194ed96070444a9fa7ec740ecf8"),
  ("6bc1bee22e409f96e93d7e117393172aae2d8a571e03ac9c9eb76fac45af8e5130c81c46a35ce411e5fbc1191a0a52eff69f2445df4f9b17ad2b417be66c3710", "a1d5df0eed790f794d77589659f39a11")]

#guard cmacs (aes "603deb1015ca71be2b73aef0857d77811f352c073b6108d72d9810a30914dff4") [
  ("", "028962f61b7bf89efc6b551f4667d983"),
  ("6bc1bee22e409f96e93d7e117393172a", "28a7023f452e8f82bd4bf28d8c37c35c"),
  ("6bc1bee22e409f96e93d7e117393172aae2d8a57", "156727dc0878944a023c1fe03bad6d93"),
  ("6bc1bee22e409f96e93d7e117393172aae2d8a571e03ac9c9eb76fac45af8e5130c81c46a35ce411e5fbc1191a0a52eff69f2445df4f9b17ad2b417be66c3710", "e1992190549f6ed5696a2c056c315410")]

end Verif.Check
