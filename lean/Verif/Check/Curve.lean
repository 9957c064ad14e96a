import Verif.Check.Run
import Verif.Model.P224
import Verif.Model.P256

/-! Known answers: the model of the curves is run on the inputs of the unit tests in src/elliptic/elliptic_test.rs (some of the 52 scalars)
and compared with the outputs those tests expect. These are tests of the model, not proofs. Written by tools/vectors.py. -/

namespace Verif.Check
open Verif.Model

#guard base224 1 0xb70e0cbd6bb4bf7f321390b94a03c1d356c21122343280d6115c1d21 0xbd376388b5f723fb4c22dfe6cd4375a05a07476444d5819985007e34

#guard base224 2 0x706a46dc76dcb76798e60e6d89474788d16dc18032d268fd1a704fa6 0x1c2b76a7bc25e7702a704fa986892849fca629487acf3709d2e4e8bb

#guard base224 3 0xdf1b1d66a551d0d31eff822558b9d2cc75c2180279fe0d08fd896d04 0xa3f7f03cadd0be444c0aa56830130ddf77d317344e1af3591981a925

#guard base224 112233445566778899 0x61f077c6f62ed802dad7c2f38f5c67f2cc453601e61bd076bb46179e 0x2272f9e9f5933e70388ee652513443b5e289dd135dcc0d0299b225e4

#guard base224 112233445566778899112233445566778899 0x29895f0af496bfc62b6ef8d8a65c88c613949b03668aab4f0429e35 0x3ea6e53f9a841f2019ec24bde1a75677aa9b5902e61081c01064de93

#guard base224 6950511619965839450988900688150712778015737983940691968051900319680 0xab689930bcae4a4aa5f5cb085e823e8ae30fd365eb1da4aba9cf0379 0x3345a121bbd233548af0d210654eb40bab788a03666419be6fbd34e7

#guard base224 13479972933410060327035789020509431695094902435494295338570602119423 0xbdb6a8817c1f89da1c2f3dd8e97feb4494f2ed302a4ce2bc7f5f4025 0x4c7020d57c00411889462d77a5438bb4e97d177700bf7243a07f1680

#guard base224 13479971751745682581351455311314208093898607229429740618390390702079 0xd58b61aa41c32dd5eba462647dba75c5d67c83606c0af2bd928446a9 0xd24ba6a837be0460dd107ae77725696d211446c5609b4595976b16bd

#guard base224 13479972931865328106486971546324465392952975980343228160962702868479 0xdc9fa77978a005510980e929a1485f63716df695d7a0c18bb518df03 0xede2b016f2ddffc2a8c015b134928275ce09e5661b7ab14ce0d1d403

#guard base224 11795773708834916026404142434151065506931607341523388140225443265536 0x499d8b2829cfb879c901f7d85d357045edab55028824d0f05ba279ba 0xbf929537b06e4015919639d94f57838fa33fc3d952598dcdbb44d638

#guard base224 784254593043826236572847595991346435467177662189391577090 0x8246c999137186632c5f9eddf3b1b0e1764c5e8bd0e0d8a554b9cb77 0xe80ed8660bc1cb17ac7d845be40a7a022d3306f116ae9f81fea65947

#guard base224 13479767645505654746623887797783387853576174193480695826442858012671 0x6670c20afcceaea672c97f75e2e9dd5c8460e54bb38538ebb4bd30eb 0xf280d8008d07a4caf54271f993527d46ff3ff46fd1190a3f1faa4f74

#guard base224 205688069665150753842126177372015544874550518966168735589597183 0xeca934247425cfd949b795cb5ce1eff401550386e28d1a4c5a8eb 0xd4c01040dba19628931bc8855370317c722cbd9ca6156985f1c2e9ce

#guard base224 13479966930919337728895168462090683249159702977113823384618282123295 0xef353bf5c73cd551b96d596fbc9a67f16d61dd9fe56af19de1fba9cd 0x21771b9cdce3e8430c09b3838be70b48c21e15bc09ee1f2d7945b91f

#guard base224 50210731791415612487756441341851895584393717453129007497216 0x4036052a3091eb481046ad3289c95d3ac905ca0023de2c03ecd451cf 0xd768165a38a2b96f812586a9d59d4136035d9c853a5bf2e1c86a4993

#guard base224 26959946667150639794667015087019625940457807714424391721682722368058 0xdf1b1d66a551d0d31eff822558b9d2cc75c2180279fe0d08fd896d04 0x5c080fc3522f41bbb3f55a97cfecf21f882ce8cbb1e50ca6e67e56dc

#guard base224 26959946667150639794667015087019625940457807714424391721682722368059 0x706a46dc76dcb76798e60e6d89474788d16dc18032d268fd1a704fa6 0xe3d4895843da188fd58fb0567976d7b50359d6b78530c8f62d1b1746

#guard base224 26959946667150639794667015087019625940457807714424391721682722368060 0xb70e0cbd6bb4bf7f321390b94a03c1d356c21122343280d6115c1d21 0x42c89c774a08dc04b3dd201932bc8a5ea5f8b89bbb2a7e667aff81cd

#guard base256 112233445566778899112233445566778899

#guard base256 13479972931865328106486971546324465392952975980343228160962702868479

#guard base256 13479966930919337728895168462090683249159702977113823384618282123295

#guard base256 26959946667150639794667015087019625940457807714424391721682722368060

#guard base256 (2 ^ 500)

#guard same256 1 0xb70e0cbd6bb4bf7f321390b94a03c1d356c21122343280d6115c1d21 0xbd376388b5f723fb4c22dfe6cd4375a05a07476444d5819985007e34

#guard same256 2 0x706a46dc76dcb76798e60e6d89474788d16dc18032d268fd1a704fa6 0x1c2b76a7bc25e7702a704fa986892849fca629487acf3709d2e4e8bb

#guard same256 6950511619965839450988900688150712778015737983940691968051900319680 0xab689930bcae4a4aa5f5cb085e823e8ae30fd365eb1da4aba9cf0379 0x3345a121bbd233548af0d210654eb40bab788a03666419be6fbd34e7

#guard same256 26959946667150639794667015087019625940457807714424391721682722368060 0xb70e0cbd6bb4bf7f321390b94a03c1d356c21122343280d6115c1d21 0x42c89c774a08dc04b3dd201932bc8a5ea5f8b89bbb2a7e667aff81cd

#guard mult256 0x2a265f8bcbdcaf94d58519141e578124cb40d64a501fba9c11847b28965bc737 0x023819813ac969847059028ea88a1f30dfbcde03fc791d3a252c6b41211882ea 0xf93e4ae433cc12cf2a43fc0ef26400c0e125508224cdb649380f25479148a4ad 0x4d4de80f1534850d261075997e3049321a0864082d24a917863366c0724f5ae3 0xa22d2b7f7818a3563e0f7a76c9bf0921ac55e06e2e4d11795b233824b1db8cc0

#guard mult256 0x313f72ff9fe811bf573176231b286a3bdb6f1b14e05c40146590727a71c3bccd 0xcc11887b2d66cbae8f4d306627192522932146b42f01d3c6f92bd5c8ba739b06 0xa2f08a029cd06b46183085bae9248b0ed15b70280c7ef13a457f5af382426031 0x831c3f6b5f762d2f461901577af41354ac5f228c2591f84f8a6e51e2e3f17991 0x93f90934cd0ef2c698cc471c60a93524e87ab31ca2412252337f364513e43684

#guard P224.curve.isOnCurve P224.new (some Elliptic.p224.gx) (some Elliptic.p224.gy)

#guard P224.curve.isOnCurve P224.new (some 1) (some 1) = false

#guard infinity P256.curve P256.new

#guard infinity P224.curve P224.new

#guard combined P256.curve P256.new

end Verif.Check
