import Verif.Proof.P224Mul
import Mathlib.Tactic.LinearCombination

/-! The reduction of the products of the P-224 multiplications. -/

namespace Verif.Model.P224
open Verif.Words

/-- The prime of P-224. -/
def q224 : ℕ := 26959946667150639794667015087019630673557916260026308143510066298881

theorem addP63_eq (t0 t1 t2 t3 t4 t5 t6 t7 t8 t9 t10 t11 t12 t13 t14 : D) : addP63 [t0, t1, t2, t3, t4, t5, t6, t7, t8, t9, t10, t11, t12, t13, t14] =
    [t0 + 0x8000000800000000#64, t1 + 0x7ffffff800000000#64, t2 + 0x7ffffff800000000#64, t3 + 0x7ffffff800000000#64, t4 + 0x7ffffff7fff80000#64, t5 + 0x7ffffff800000000#64, t6 + 0x7ffffff800000000#64, t7 + 0x7ffffff800000000#64, t8, t9, t10, t11, t12, t13, t14] := rfl

theorem elim14 (t0 t1 t2 t3 t4 t5 t6 t7 t8 t9 t10 t11 t12 t13 t14 : D) : elim [t0, t1, t2, t3, t4, t5, t6, t7, t8, t9, t10, t11, t12, t13, t14] 14 =
    [t0, t1, t2, t3, t4, t5, t6 - t14, t7, t8, t9 + ((t14 &&& 0xffff#64) <<< 12), t10 + (t14 >>> 16), t11, t12, t13, t14] := rfl

theorem elim13 (t0 t1 t2 t3 t4 t5 t6 t7 t8 t9 t10 t11 t12 t13 t14 : D) : elim [t0, t1, t2, t3, t4, t5, t6, t7, t8, t9, t10, t11, t12, t13, t14] 13 =
    [t0, t1, t2, t3, t4, t5 - t13, t6, t7, t8 + ((t13 &&& 0xffff#64) <<< 12), t9 + (t13 >>> 16), t10, t11, t12, t13, t14] := rfl

theorem elim12 (t0 t1 t2 t3 t4 t5 t6 t7 t8 t9 t10 t11 t12 t13 t14 : D) : elim [t0, t1, t2, t3, t4, t5, t6, t7, t8, t9, t10, t11, t12, t13, t14] 12 =
    [t0, t1, t2, t3, t4 - t12, t5, t6, t7 + ((t12 &&& 0xffff#64) <<< 12), t8 + (t12 >>> 16), t9, t10, t11, t12, t13, t14] := rfl

theorem elim11 (t0 t1 t2 t3 t4 t5 t6 t7 t8 t9 t10 t11 t12 t13 t14 : D) : elim [t0, t1, t2, t3, t4, t5, t6, t7, t8, t9, t10, t11, t12, t13, t14] 11 =
    [t0, t1, t2, t3 - t11, t4, t5, t6 + ((t11 &&& 0xffff#64) <<< 12), t7 + (t11 >>> 16), t8, t9, t10, t11, t12, t13, t14] := rfl

theorem elim10 (t0 t1 t2 t3 t4 t5 t6 t7 t8 t9 t10 t11 t12 t13 t14 : D) : elim [t0, t1, t2, t3, t4, t5, t6, t7, t8, t9, t10, t11, t12, t13, t14] 10 =
    [t0, t1, t2 - t10, t3, t4, t5 + ((t10 &&& 0xffff#64) <<< 12), t6 + (t10 >>> 16), t7, t8, t9, t10, t11, t12, t13, t14] := rfl

theorem elim9 (t0 t1 t2 t3 t4 t5 t6 t7 t8 t9 t10 t11 t12 t13 t14 : D) : elim [t0, t1, t2, t3, t4, t5, t6, t7, t8, t9, t10, t11, t12, t13, t14] 9 =
    [t0, t1 - t9, t2, t3, t4 + ((t9 &&& 0xffff#64) <<< 12), t5 + (t9 >>> 16), t6, t7, t8, t9, t10, t11, t12, t13, t14] := rfl

theorem elim8 (t0 t1 t2 t3 t4 t5 t6 t7 t8 t9 t10 t11 t12 t13 t14 : D) : elim [t0, t1, t2, t3, t4, t5, t6, t7, t8, t9, t10, t11, t12, t13, t14] 8 =
    [t0 - t8, t1, t2, t3 + ((t8 &&& 0xffff#64) <<< 12), t4 + (t8 >>> 16), t5, t6, t7, t8, t9, t10, t11, t12, t13, t14] := rfl

/-- The rest of the reduction, with names for the carried words. -/
theorem large_rest (t0 t1 t2 t3 t4 t5 t6 t7 t8 t9 t10 t11 t12 t13 t14 u2 u3 u4 u5 u6 u7 u8 : D) (e2 : u2 = t2 + (t1 >>> 28)) (e3 : u3 = t3 + (u2 >>> 28))
    (e4 : u4 = t4 + (u3 >>> 28)) (e5 : u5 = t5 + (u4 >>> 28)) (e6 : u6 = t6 + (u5 >>> 28)) (e7 : u7 = t7 + (u6 >>> 28)) (e8 : u8 = 0#64 + (u7 >>> 28)) :
    (let a := [t0, t1, t2, t3, t4, t5, t6, t7, t8, t9, t10, t11, t12, t13, t14].set 8 0#64
      let s := [1, 2, 3, 4, 5, 6, 7].foldl largeCarry (a, [])
      let a := s.1
      let out := 0#32 :: s.2
      let a := a.set 0 (a.getD 0 0 - a.getD 8 0)
      let out := out.set 3 (out.getD 3 0 + (((a.getD 8 0 &&& 0xffff#64) <<< 12).setWidth 32))
      let out := out.set 4 (out.getD 4 0 + (((a.getD 8 0 >>> 16) &&& 0xffffffff#64).setWidth 32))
      let out := out.set 0 ((a.getD 0 0 &&& 0xfffffff#64).setWidth 32)
      let out := out.set 1 (out.getD 1 0 + (((a.getD 0 0 >>> 28) &&& 0xfffffff#64).setWidth 32))
      out.set 2 (out.getD 2 0 + ((a.getD 0 0 >>> 56).setWidth 32))) =
    [((t0 - u8) &&& 0xfffffff#64).setWidth 32,
      (t1 &&& 0xfffffff#64).setWidth 32 + ((((t0 - u8) >>> 28) &&& 0xfffffff#64).setWidth 32),
      (u2 &&& 0xfffffff#64).setWidth 32 + (((t0 - u8) >>> 56).setWidth 32),
      (u3 &&& 0xfffffff#64).setWidth 32 + (((u8 &&& 0xffff#64) <<< 12).setWidth 32),
      (u4 &&& 0xfffffff#64).setWidth 32 + (((u8 >>> 16) &&& 0xffffffff#64).setWidth 32),
      (u5 &&& 0xfffffff#64).setWidth 32, (u6 &&& 0xfffffff#64).setWidth 32, (u7 &&& 0xfffffff#64).setWidth 32] := by
  subst e2; subst e3; subst e4; subst e5; subst e6; subst e7; subst e8
  rfl

/-- The arithmetic of the reduction. -/
theorem val_ge (o0 o1 o2 o3 o4 o5 o6 o7 : W) (h : 524287 ≤ o4.toNat) : 2 ^ 96 ≤ val [o0, o1, o2, o3, o4, o5, o6, o7] := by
  simp only [val]
  omega

theorem reduceLarge_alg {a0 t0 a1 t1 a2 t2 a3 t3 a4 t4 a5 t5 a6 t6 a7 t7 v1 t14 div_t14_16 mod_t14_16 v2 v3 v4 t9 v5 v6 t10 v7 t13 div_t13_16 mod_t13_16 v8 v9 v10 t8 v11 v12 v13 t12 div_t12_16 mod_t12_16 v14 v15 v16 v17 v18 v19 t11 div_t11_16 mod_t11_16 v20 v21 v22 v23 v24 v25 div_v6_16 mod_v6_16 v26 v27 v28 v29 v30 v31 div_v12_16 mod_v12_16 v32 v33 v34 v35 v36 v37 div_v18_16 mod_v18_16 v38 v39 v40 v41 v42 div_v31_28 mod_v31_28 v43 u2 div_u2_28 mod_u2_28 v45 u3 div_u3_28 mod_u3_28 v47 u4 div_u4_28 mod_u4_28 v49 u5 div_u5_28 mod_u5_28 v51 u6 div_u6_28 mod_u6_28 v53 u7 div_u7_28 mod_u7_28 u8 u0 div_u0_28 mod_u0_28 v56 v57 v58 v59 v60 div_v60_28 mod_v60_28 v61 v62 v63 div_u0_56 v64 v65 v66 v67 v68 v69 v70 div_u8_16 mod_u8_16 v71 v72 v73 v74 v75 v76 v77 v78 v79 v80 v81 v82 v83 v84 v85 v86 : ℤ}
    (e_a0 : a0 = t0 + 9223372071214514176)
    (e_a1 : a1 = t1 + 9223372002495037440)
    (e_a2 : a2 = t2 + 9223372002495037440)
    (e_a3 : a3 = t3 + 9223372002495037440)
    (e_a4 : a4 = t4 + 9223372002494513152)
    (e_a5 : a5 = t5 + 9223372002495037440)
    (e_a6 : a6 = t6 + 9223372002495037440)
    (e_a7 : a7 = t7 + 9223372002495037440)
    (e_v1 : v1 = a6 - t14)
    (d_t14_16 : t14 = 2 ^ 16 * div_t14_16 + mod_t14_16)
    (e_v2 : v2 = mod_t14_16)
    (e_v3 : v3 = v2 * 2 ^ 12)
    (e_v4 : v4 = t9 + v3)
    (e_v5 : v5 = div_t14_16)
    (e_v6 : v6 = t10 + v5)
    (e_v7 : v7 = a5 - t13)
    (d_t13_16 : t13 = 2 ^ 16 * div_t13_16 + mod_t13_16)
    (e_v8 : v8 = mod_t13_16)
    (e_v9 : v9 = v8 * 2 ^ 12)
    (e_v10 : v10 = t8 + v9)
    (e_v11 : v11 = div_t13_16)
    (e_v12 : v12 = v4 + v11)
    (e_v13 : v13 = a4 - t12)
    (d_t12_16 : t12 = 2 ^ 16 * div_t12_16 + mod_t12_16)
    (e_v14 : v14 = mod_t12_16)
    (e_v15 : v15 = v14 * 2 ^ 12)
    (e_v16 : v16 = a7 + v15)
    (e_v17 : v17 = div_t12_16)
    (e_v18 : v18 = v10 + v17)
    (e_v19 : v19 = a3 - t11)
    (d_t11_16 : t11 = 2 ^ 16 * div_t11_16 + mod_t11_16)
    (e_v20 : v20 = mod_t11_16)
    (e_v21 : v21 = v20 * 2 ^ 12)
    (e_v22 : v22 = v1 + v21)
    (e_v23 : v23 = div_t11_16)
    (e_v24 : v24 = v16 + v23)
    (e_v25 : v25 = a2 - v6)
    (d_v6_16 : v6 = 2 ^ 16 * div_v6_16 + mod_v6_16)
    (e_v26 : v26 = mod_v6_16)
    (e_v27 : v27 = v26 * 2 ^ 12)
    (e_v28 : v28 = v7 + v27)
    (e_v29 : v29 = div_v6_16)
    (e_v30 : v30 = v22 + v29)
    (e_v31 : v31 = a1 - v12)
    (d_v12_16 : v12 = 2 ^ 16 * div_v12_16 + mod_v12_16)
    (e_v32 : v32 = mod_v12_16)
    (e_v33 : v33 = v32 * 2 ^ 12)
    (e_v34 : v34 = v13 + v33)
    (e_v35 : v35 = div_v12_16)
    (e_v36 : v36 = v28 + v35)
    (e_v37 : v37 = a0 - v18)
    (d_v18_16 : v18 = 2 ^ 16 * div_v18_16 + mod_v18_16)
    (e_v38 : v38 = mod_v18_16)
    (e_v39 : v39 = v38 * 2 ^ 12)
    (e_v40 : v40 = v19 + v39)
    (e_v41 : v41 = div_v18_16)
    (e_v42 : v42 = v34 + v41)
    (d_v31_28 : v31 = 2 ^ 28 * div_v31_28 + mod_v31_28)
    (e_v43 : v43 = div_v31_28)
    (e_v44 : u2 = v25 + v43)
    (d_u2_28 : u2 = 2 ^ 28 * div_u2_28 + mod_u2_28)
    (e_v45 : v45 = div_u2_28)
    (e_v46 : u3 = v40 + v45)
    (d_u3_28 : u3 = 2 ^ 28 * div_u3_28 + mod_u3_28)
    (e_v47 : v47 = div_u3_28)
    (e_v48 : u4 = v42 + v47)
    (d_u4_28 : u4 = 2 ^ 28 * div_u4_28 + mod_u4_28)
    (e_v49 : v49 = div_u4_28)
    (e_v50 : u5 = v36 + v49)
    (d_u5_28 : u5 = 2 ^ 28 * div_u5_28 + mod_u5_28)
    (e_v51 : v51 = div_u5_28)
    (e_v52 : u6 = v30 + v51)
    (d_u6_28 : u6 = 2 ^ 28 * div_u6_28 + mod_u6_28)
    (e_v53 : v53 = div_u6_28)
    (e_v54 : u7 = v24 + v53)
    (d_u7_28 : u7 = 2 ^ 28 * div_u7_28 + mod_u7_28)
    (e_v55 : u8 = div_u7_28)
    (e_u0 : u0 = v37 - u8)
    (d_u0_28 : u0 = 2 ^ 28 * div_u0_28 + mod_u0_28)
    (e_v56 : v56 = mod_u0_28)
    (e_v57 : v57 = v56)
    (e_v58 : v58 = mod_v31_28)
    (e_v59 : v59 = v58)
    (e_v60 : v60 = div_u0_28)
    (d_v60_28 : v60 = 2 ^ 28 * div_v60_28 + mod_v60_28)
    (e_v61 : v61 = mod_v60_28)
    (e_v62 : v62 = v61)
    (e_v63 : v63 = v59 + v62)
    (dd : div_u0_56 = div_v60_28)
    (e_v64 : v64 = mod_u2_28)
    (e_v65 : v65 = v64)
    (e_v66 : v66 = div_u0_56)
    (e_v67 : v67 = v66)
    (e_v68 : v68 = v65 + v67)
    (e_v69 : v69 = mod_u3_28)
    (e_v70 : v70 = v69)
    (d_u8_16 : u8 = 2 ^ 16 * div_u8_16 + mod_u8_16)
    (e_v71 : v71 = mod_u8_16)
    (e_v72 : v72 = v71 * 2 ^ 12)
    (e_v73 : v73 = v72)
    (e_v74 : v74 = v70 + v73)
    (e_v75 : v75 = mod_u4_28)
    (e_v76 : v76 = v75)
    (e_v77 : v77 = div_u8_16)
    (e_v78 : v78 = v77)
    (e_v79 : v79 = v78)
    (e_v80 : v80 = v76 + v79)
    (e_v81 : v81 = mod_u5_28)
    (e_v82 : v82 = v81)
    (e_v83 : v83 = mod_u6_28)
    (e_v84 : v84 = v83)
    (e_v85 : v85 = mod_u7_28)
    (e_v86 : v86 = v85)
    : (v57 + 2 ^ 28 * (v63 + 2 ^ 28 * (v68 + 2 ^ 28 * (v74 + 2 ^ 28 * (v80 + 2 ^ 28 * (v82 + 2 ^ 28 * (v84 + 2 ^ 28 * (v86 + 2 ^ 28 * 0)))))))) = (t0 + 2 ^ 28 * (t1 + 2 ^ 28 * (t2 + 2 ^ 28 * (t3 + 2 ^ 28 * (t4 + 2 ^ 28 * (t5 + 2 ^ 28 * (t6 + 2 ^ 28 * (t7 + 2 ^ 28 * (t8 + 2 ^ 28 * (t9 + 2 ^ 28 * (t10 + 2 ^ 28 * (t11 + 2 ^ 28 * (t12 + 2 ^ 28 * (t13 + 2 ^ 28 * (t14 + 2 ^ 28 * 0))))))))))))))) + (34359738368 - u8 - t14 * 2 ^ 168 - t13 * 2 ^ 140 - t12 * 2 ^ 112 - t11 * 2 ^ 84 - v6 * 2 ^ 56 - v12 * 2 ^ 28 - v18 * 2 ^ 0) * 26959946667150639794667015087019630673557916260026308143510066298881 := by
  linear_combination (100433627766186892221372630771322662657637687111424552206336) * e_v86 + (100433627766186892221372630771322662657637687111424552206336) * e_v85 + (374144419156711147060143317175368453031918731001856) * e_v84 + (374144419156711147060143317175368453031918731001856) * e_v83 + (1393796574908163946345982392040522594123776) * e_v82 + (1393796574908163946345982392040522594123776) * e_v81 + (5192296858534827628530496329220096) * e_v80 + (5192296858534827628530496329220096) * e_v79 + (5192296858534827628530496329220096) * e_v78 + (5192296858534827628530496329220096) * e_v77 + (5192296858534827628530496329220096) * e_v76 + (5192296858534827628530496329220096) * e_v75 + (19342813113834066795298816) * e_v74 + (19342813113834066795298816) * e_v73 + (19342813113834066795298816) * e_v72 + (79228162514264337593543950336) * e_v71 + (-79228162514264337593543950336) * d_u8_16 + (19342813113834066795298816) * e_v70 + (19342813113834066795298816) * e_v69 + (72057594037927936) * e_v68 + (72057594037927936) * e_v67 + (72057594037927936) * e_v66 + (72057594037927936) * e_v65 + (72057594037927936) * e_v64 + (72057594037927936) * dd + (268435456) * e_v63 + (268435456) * e_v62 + (268435456) * e_v61 + (-268435456) * d_v60_28 + (268435456) * e_v60 + (268435456) * e_v59 + (268435456) * e_v58 + (1) * e_v57 + (1) * e_v56 + (-1) * d_u0_28 + (1) * e_u0 + (26959946667150639794667015087019630673637144422540572481103610249216) * e_v55 + (-100433627766186892221372630771322662657637687111424552206336) * d_u7_28 + (100433627766186892221372630771322662657637687111424552206336) * e_v54 + (100433627766186892221372630771322662657637687111424552206336) * e_v53 + (-374144419156711147060143317175368453031918731001856) * d_u6_28 + (374144419156711147060143317175368453031918731001856) * e_v52 + (374144419156711147060143317175368453031918731001856) * e_v51 + (-1393796574908163946345982392040522594123776) * d_u5_28 + (1393796574908163946345982392040522594123776) * e_v50 + (1393796574908163946345982392040522594123776) * e_v49 + (-5192296858534827628530496329220096) * d_u4_28 + (5192296858534827628530496329220096) * e_v48 + (5192296858534827628530496329220096) * e_v47 + (-19342813113834066795298816) * d_u3_28 + (19342813113834066795298816) * e_v46 + (19342813113834066795298816) * e_v45 + (-72057594037927936) * d_u2_28 + (72057594037927936) * e_v44 + (72057594037927936) * e_v43 + (-268435456) * d_v31_28 + (5192296858534827628530496329220096) * e_v42 + (5192296858534827628530496329220096) * e_v41 + (19342813113834066795298816) * e_v40 + (19342813113834066795298816) * e_v39 + (79228162514264337593543950336) * e_v38 + (-79228162514264337593543950336) * d_v18_16 + (1) * e_v37 + (1393796574908163946345982392040522594123776) * e_v36 + (1393796574908163946345982392040522594123776) * e_v35 + (5192296858534827628530496329220096) * e_v34 + (5192296858534827628530496329220096) * e_v33 + (21267647932558653966460912964485513216) * e_v32 + (-21267647932558653966460912964485513216) * d_v12_16 + (268435456) * e_v31 + (374144419156711147060143317175368453031918731001856) * e_v30 + (374144419156711147060143317175368453031918731001856) * e_v29 + (1393796574908163946345982392040522594123776) * e_v28 + (1393796574908163946345982392040522594123776) * e_v27 + (5708990770823839524233143877797980545530986496) * e_v26 + (-5708990770823839524233143877797980545530986496) * d_v6_16 + (72057594037927936) * e_v25 + (100433627766186892221372630771322662657637687111424552206336) * e_v24 + (100433627766186892221372630771322662657637687111424552206336) * e_v23 + (374144419156711147060143317175368453031918731001856) * e_v22 + (374144419156711147060143317175368453031918731001856) * e_v21 + (1532495540865888858358347027150309183618739122183602176) * e_v20 + (-1532495540865888858358347027150309183618739122183602176) * d_t11_16 + (19342813113834066795298816) * e_v19 + (26959946667150639794667015087019630673637144422540572481103610249216) * e_v18 + (26959946667150639794667015087019630673637144422540572481103610249216) * e_v17 + (100433627766186892221372630771322662657637687111424552206336) * e_v16 + (100433627766186892221372630771322662657637687111424552206336) * e_v15 + (411376139330301510538742295639337626245683966408394965837152256) * e_v14 + (-411376139330301510538742295639337626245683966408394965837152256) * d_t12_16 + (5192296858534827628530496329220096) * e_v13 + (7237005577332262213973186563042994240829374041602535252466099000494570602496) * e_v12 + (7237005577332262213973186563042994240829374041602535252466099000494570602496) * e_v11 + (26959946667150639794667015087019630673637144422540572481103610249216) * e_v10 + (26959946667150639794667015087019630673637144422540572481103610249216) * e_v9 + (110427941548649020598956093796432407239217743554726184882600387580788736) * e_v8 + (-110427941548649020598956093796432407239217743554726184882600387580788736) * d_t13_16 + (1393796574908163946345982392040522594123776) * e_v7 + (1942668892225729070919461906823518906642406839052139521251812409738904285205208498176) * e_v6 + (1942668892225729070919461906823518906642406839052139521251812409738904285205208498176) * e_v5 + (7237005577332262213973186563042994240829374041602535252466099000494570602496) * e_v4 + (7237005577332262213973186563042994240829374041602535252466099000494570602496) * e_v3 + (29642774844752946028434172162224104410437116074403984394101141506025761187823616) * e_v2 + (-29642774844752946028434172162224104410437116074403984394101141506025761187823616) * d_t14_16 + (374144419156711147060143317175368453031918731001856) * e_v1 + (100433627766186892221372630771322662657637687111424552206336) * e_a7 + (374144419156711147060143317175368453031918731001856) * e_a6 + (1393796574908163946345982392040522594123776) * e_a5 + (5192296858534827628530496329220096) * e_a4 + (19342813113834066795298816) * e_a3 + (72057594037927936) * e_a2 + (268435456) * e_a1 + (1) * e_a0

/-- The reduction keeps the number modulo p. -/
theorem reduceLarge_ok (t0 t1 t2 t3 t4 t5 t6 t7 t8 t9 t10 t11 t12 t13 t14 : D) (h0 : t0.toNat < 2 ^ 62) (h1 : t1.toNat < 2 ^ 62) (h2 : t2.toNat < 2 ^ 62) (h3 : t3.toNat < 2 ^ 62) (h4 : t4.toNat < 2 ^ 62) (h5 : t5.toNat < 2 ^ 62) (h6 : t6.toNat < 2 ^ 62) (h7 : t7.toNat < 2 ^ 62) (h8 : t8.toNat < 2 ^ 62) (h9 : t9.toNat < 2 ^ 62) (h10 : t10.toNat < 2 ^ 62) (h11 : t11.toNat < 2 ^ 62) (h12 : t12.toNat < 2 ^ 62) (h13 : t13.toNat < 2 ^ 62) (h14 : t14.toNat < 2 ^ 62) :
    ∃ o0 o1 o2 o3 o4 o5 o6 o7 : W, reduceLarge [t0, t1, t2, t3, t4, t5, t6, t7, t8, t9, t10, t11, t12, t13, t14] = [o0, o1, o2, o3, o4, o5, o6, o7] ∧ o0.toNat < 2 ^ 28 ∧ o1.toNat ≤ 2 ^ 29 - 2 ∧ o2.toNat ≤ 2 ^ 29 - 2 ∧ o3.toNat ≤ 2 ^ 29 - 2 ∧ o4.toNat ≤ 2 ^ 29 - 2 ∧ o5.toNat ≤ 2 ^ 29 - 2 ∧ o6.toNat ≤ 2 ^ 29 - 2 ∧ o7.toNat ≤ 2 ^ 29 - 2 ∧
    (∃ k : ℤ, (val [o0, o1, o2, o3, o4, o5, o6, o7] : ℤ) = val [t0, t1, t2, t3, t4, t5, t6, t7, t8, t9, t10, t11, t12, t13, t14] + k * q224) ∧ 2 ^ 96 ≤ val [o0, o1, o2, o3, o4, o5, o6, o7] := by
  replace h0 : Iv t0 0 4611686018427387903 := ⟨Nat.zero_le _, Nat.le_of_lt_succ h0⟩
  replace h1 : Iv t1 0 4611686018427387903 := ⟨Nat.zero_le _, Nat.le_of_lt_succ h1⟩
  replace h2 : Iv t2 0 4611686018427387903 := ⟨Nat.zero_le _, Nat.le_of_lt_succ h2⟩
  replace h3 : Iv t3 0 4611686018427387903 := ⟨Nat.zero_le _, Nat.le_of_lt_succ h3⟩
  replace h4 : Iv t4 0 4611686018427387903 := ⟨Nat.zero_le _, Nat.le_of_lt_succ h4⟩
  replace h5 : Iv t5 0 4611686018427387903 := ⟨Nat.zero_le _, Nat.le_of_lt_succ h5⟩
  replace h6 : Iv t6 0 4611686018427387903 := ⟨Nat.zero_le _, Nat.le_of_lt_succ h6⟩
  replace h7 : Iv t7 0 4611686018427387903 := ⟨Nat.zero_le _, Nat.le_of_lt_succ h7⟩
  replace h8 : Iv t8 0 4611686018427387903 := ⟨Nat.zero_le _, Nat.le_of_lt_succ h8⟩
  replace h9 : Iv t9 0 4611686018427387903 := ⟨Nat.zero_le _, Nat.le_of_lt_succ h9⟩
  replace h10 : Iv t10 0 4611686018427387903 := ⟨Nat.zero_le _, Nat.le_of_lt_succ h10⟩
  replace h11 : Iv t11 0 4611686018427387903 := ⟨Nat.zero_le _, Nat.le_of_lt_succ h11⟩
  replace h12 : Iv t12 0 4611686018427387903 := ⟨Nat.zero_le _, Nat.le_of_lt_succ h12⟩
  replace h13 : Iv t13 0 4611686018427387903 := ⟨Nat.zero_le _, Nat.le_of_lt_succ h13⟩
  replace h14 : Iv t14 0 4611686018427387903 := ⟨Nat.zero_le _, Nat.le_of_lt_succ h14⟩
  unfold reduceLarge
  rw [addP63_eq]
  obtain ⟨i_a0, e_a0⟩ := Iv.addLit h0 (show (0x8000000800000000#64 : BitVec 64).toNat = 9223372071214514176 from rfl) (by norm_num)
  generalize t0 + 0x8000000800000000#64 = a0 at *
  replace i_a0 : Iv a0 9223372071214514176 13835058089641902079 := i_a0
  obtain ⟨i_a1, e_a1⟩ := Iv.addLit h1 (show (0x7ffffff800000000#64 : BitVec 64).toNat = 9223372002495037440 from rfl) (by norm_num)
  generalize t1 + 0x7ffffff800000000#64 = a1 at *
  replace i_a1 : Iv a1 9223372002495037440 13835058020922425343 := i_a1
  obtain ⟨i_a2, e_a2⟩ := Iv.addLit h2 (show (0x7ffffff800000000#64 : BitVec 64).toNat = 9223372002495037440 from rfl) (by norm_num)
  generalize t2 + 0x7ffffff800000000#64 = a2 at *
  replace i_a2 : Iv a2 9223372002495037440 13835058020922425343 := i_a2
  obtain ⟨i_a3, e_a3⟩ := Iv.addLit h3 (show (0x7ffffff800000000#64 : BitVec 64).toNat = 9223372002495037440 from rfl) (by norm_num)
  generalize t3 + 0x7ffffff800000000#64 = a3 at *
  replace i_a3 : Iv a3 9223372002495037440 13835058020922425343 := i_a3
  obtain ⟨i_a4, e_a4⟩ := Iv.addLit h4 (show (0x7ffffff7fff80000#64 : BitVec 64).toNat = 9223372002494513152 from rfl) (by norm_num)
  generalize t4 + 0x7ffffff7fff80000#64 = a4 at *
  replace i_a4 : Iv a4 9223372002494513152 13835058020921901055 := i_a4
  obtain ⟨i_a5, e_a5⟩ := Iv.addLit h5 (show (0x7ffffff800000000#64 : BitVec 64).toNat = 9223372002495037440 from rfl) (by norm_num)
  generalize t5 + 0x7ffffff800000000#64 = a5 at *
  replace i_a5 : Iv a5 9223372002495037440 13835058020922425343 := i_a5
  obtain ⟨i_a6, e_a6⟩ := Iv.addLit h6 (show (0x7ffffff800000000#64 : BitVec 64).toNat = 9223372002495037440 from rfl) (by norm_num)
  generalize t6 + 0x7ffffff800000000#64 = a6 at *
  replace i_a6 : Iv a6 9223372002495037440 13835058020922425343 := i_a6
  obtain ⟨i_a7, e_a7⟩ := Iv.addLit h7 (show (0x7ffffff800000000#64 : BitVec 64).toNat = 9223372002495037440 from rfl) (by norm_num)
  generalize t7 + 0x7ffffff800000000#64 = a7 at *
  replace i_a7 : Iv a7 9223372002495037440 13835058020922425343 := i_a7
  simp only [List.foldl_cons, List.foldl_nil]
  rw [elim14]
  obtain ⟨i_v1, e_v1⟩ := Iv.sub i_a6 h14 (by norm_num)
  generalize a6 - t14 = v1 at *
  replace i_v1 : Iv v1 4611685984067649537 13835058020922425343 := i_v1
  have d_t14_16 := divMod t14.toNat 16
  obtain ⟨i_v2, e_v2⟩ := Iv.mask 16 t14 0xffff#64 rfl
  generalize t14 &&& 0xffff#64 = v2 at *
  replace i_v2 : Iv v2 0 65535 := i_v2
  obtain ⟨i_v3, e_v3⟩ := Iv.shl 12 i_v2 (by norm_num)
  generalize v2 <<< 12 = v3 at *
  replace i_v3 : Iv v3 0 268431360 := i_v3
  obtain ⟨i_v4, e_v4⟩ := Iv.add h9 i_v3 (by norm_num)
  generalize t9 + v3 = v4 at *
  replace i_v4 : Iv v4 0 4611686018695819263 := i_v4
  obtain ⟨i_v5, e_v5⟩ := Iv.shr 16 h14
  generalize t14 >>> 16 = v5 at *
  replace i_v5 : Iv v5 0 70368744177663 := i_v5
  obtain ⟨i_v6, e_v6⟩ := Iv.add h10 i_v5 (by norm_num)
  generalize t10 + v5 = v6 at *
  replace i_v6 : Iv v6 0 4611756387171565566 := i_v6
  rw [elim13]
  obtain ⟨i_v7, e_v7⟩ := Iv.sub i_a5 h13 (by norm_num)
  generalize a5 - t13 = v7 at *
  replace i_v7 : Iv v7 4611685984067649537 13835058020922425343 := i_v7
  have d_t13_16 := divMod t13.toNat 16
  obtain ⟨i_v8, e_v8⟩ := Iv.mask 16 t13 0xffff#64 rfl
  generalize t13 &&& 0xffff#64 = v8 at *
  replace i_v8 : Iv v8 0 65535 := i_v8
  obtain ⟨i_v9, e_v9⟩ := Iv.shl 12 i_v8 (by norm_num)
  generalize v8 <<< 12 = v9 at *
  replace i_v9 : Iv v9 0 268431360 := i_v9
  obtain ⟨i_v10, e_v10⟩ := Iv.add h8 i_v9 (by norm_num)
  generalize t8 + v9 = v10 at *
  replace i_v10 : Iv v10 0 4611686018695819263 := i_v10
  obtain ⟨i_v11, e_v11⟩ := Iv.shr 16 h13
  generalize t13 >>> 16 = v11 at *
  replace i_v11 : Iv v11 0 70368744177663 := i_v11
  obtain ⟨i_v12, e_v12⟩ := Iv.add i_v4 i_v11 (by norm_num)
  generalize v4 + v11 = v12 at *
  replace i_v12 : Iv v12 0 4611756387439996926 := i_v12
  rw [elim12]
  obtain ⟨i_v13, e_v13⟩ := Iv.sub i_a4 h12 (by norm_num)
  generalize a4 - t12 = v13 at *
  replace i_v13 : Iv v13 4611685984067125249 13835058020921901055 := i_v13
  have d_t12_16 := divMod t12.toNat 16
  obtain ⟨i_v14, e_v14⟩ := Iv.mask 16 t12 0xffff#64 rfl
  generalize t12 &&& 0xffff#64 = v14 at *
  replace i_v14 : Iv v14 0 65535 := i_v14
  obtain ⟨i_v15, e_v15⟩ := Iv.shl 12 i_v14 (by norm_num)
  generalize v14 <<< 12 = v15 at *
  replace i_v15 : Iv v15 0 268431360 := i_v15
  obtain ⟨i_v16, e_v16⟩ := Iv.add i_a7 i_v15 (by norm_num)
  generalize a7 + v15 = v16 at *
  replace i_v16 : Iv v16 9223372002495037440 13835058021190856703 := i_v16
  obtain ⟨i_v17, e_v17⟩ := Iv.shr 16 h12
  generalize t12 >>> 16 = v17 at *
  replace i_v17 : Iv v17 0 70368744177663 := i_v17
  obtain ⟨i_v18, e_v18⟩ := Iv.add i_v10 i_v17 (by norm_num)
  generalize v10 + v17 = v18 at *
  replace i_v18 : Iv v18 0 4611756387439996926 := i_v18
  rw [elim11]
  obtain ⟨i_v19, e_v19⟩ := Iv.sub i_a3 h11 (by norm_num)
  generalize a3 - t11 = v19 at *
  replace i_v19 : Iv v19 4611685984067649537 13835058020922425343 := i_v19
  have d_t11_16 := divMod t11.toNat 16
  obtain ⟨i_v20, e_v20⟩ := Iv.mask 16 t11 0xffff#64 rfl
  generalize t11 &&& 0xffff#64 = v20 at *
  replace i_v20 : Iv v20 0 65535 := i_v20
  obtain ⟨i_v21, e_v21⟩ := Iv.shl 12 i_v20 (by norm_num)
  generalize v20 <<< 12 = v21 at *
  replace i_v21 : Iv v21 0 268431360 := i_v21
  obtain ⟨i_v22, e_v22⟩ := Iv.add i_v1 i_v21 (by norm_num)
  generalize v1 + v21 = v22 at *
  replace i_v22 : Iv v22 4611685984067649537 13835058021190856703 := i_v22
  obtain ⟨i_v23, e_v23⟩ := Iv.shr 16 h11
  generalize t11 >>> 16 = v23 at *
  replace i_v23 : Iv v23 0 70368744177663 := i_v23
  obtain ⟨i_v24, e_v24⟩ := Iv.add i_v16 i_v23 (by norm_num)
  generalize v16 + v23 = v24 at *
  replace i_v24 : Iv v24 9223372002495037440 13835128389935034366 := i_v24
  rw [elim10]
  obtain ⟨i_v25, e_v25⟩ := Iv.sub i_a2 i_v6 (by norm_num)
  generalize a2 - v6 = v25 at *
  replace i_v25 : Iv v25 4611615615323471874 13835058020922425343 := i_v25
  have d_v6_16 := divMod v6.toNat 16
  obtain ⟨i_v26, e_v26⟩ := Iv.mask 16 v6 0xffff#64 rfl
  generalize v6 &&& 0xffff#64 = v26 at *
  replace i_v26 : Iv v26 0 65535 := i_v26
  obtain ⟨i_v27, e_v27⟩ := Iv.shl 12 i_v26 (by norm_num)
  generalize v26 <<< 12 = v27 at *
  replace i_v27 : Iv v27 0 268431360 := i_v27
  obtain ⟨i_v28, e_v28⟩ := Iv.add i_v7 i_v27 (by norm_num)
  generalize v7 + v27 = v28 at *
  replace i_v28 : Iv v28 4611685984067649537 13835058021190856703 := i_v28
  obtain ⟨i_v29, e_v29⟩ := Iv.shr 16 i_v6
  generalize v6 >>> 16 = v29 at *
  replace i_v29 : Iv v29 0 70369817919487 := i_v29
  obtain ⟨i_v30, e_v30⟩ := Iv.add i_v22 i_v29 (by norm_num)
  generalize v22 + v29 = v30 at *
  replace i_v30 : Iv v30 4611685984067649537 13835128391008776190 := i_v30
  rw [elim9]
  obtain ⟨i_v31, e_v31⟩ := Iv.sub i_a1 i_v12 (by norm_num)
  generalize a1 - v12 = v31 at *
  replace i_v31 : Iv v31 4611615615055040514 13835058020922425343 := i_v31
  have d_v12_16 := divMod v12.toNat 16
  obtain ⟨i_v32, e_v32⟩ := Iv.mask 16 v12 0xffff#64 rfl
  generalize v12 &&& 0xffff#64 = v32 at *
  replace i_v32 : Iv v32 0 65535 := i_v32
  obtain ⟨i_v33, e_v33⟩ := Iv.shl 12 i_v32 (by norm_num)
  generalize v32 <<< 12 = v33 at *
  replace i_v33 : Iv v33 0 268431360 := i_v33
  obtain ⟨i_v34, e_v34⟩ := Iv.add i_v13 i_v33 (by norm_num)
  generalize v13 + v33 = v34 at *
  replace i_v34 : Iv v34 4611685984067125249 13835058021190332415 := i_v34
  obtain ⟨i_v35, e_v35⟩ := Iv.shr 16 i_v12
  generalize v12 >>> 16 = v35 at *
  replace i_v35 : Iv v35 0 70369817923583 := i_v35
  obtain ⟨i_v36, e_v36⟩ := Iv.add i_v28 i_v35 (by norm_num)
  generalize v28 + v35 = v36 at *
  replace i_v36 : Iv v36 4611685984067649537 13835128391008780286 := i_v36
  rw [elim8]
  obtain ⟨i_v37, e_v37⟩ := Iv.sub i_a0 i_v18 (by norm_num)
  generalize a0 - v18 = v37 at *
  replace i_v37 : Iv v37 4611615683774517250 13835058089641902079 := i_v37
  have d_v18_16 := divMod v18.toNat 16
  obtain ⟨i_v38, e_v38⟩ := Iv.mask 16 v18 0xffff#64 rfl
  generalize v18 &&& 0xffff#64 = v38 at *
  replace i_v38 : Iv v38 0 65535 := i_v38
  obtain ⟨i_v39, e_v39⟩ := Iv.shl 12 i_v38 (by norm_num)
  generalize v38 <<< 12 = v39 at *
  replace i_v39 : Iv v39 0 268431360 := i_v39
  obtain ⟨i_v40, e_v40⟩ := Iv.add i_v19 i_v39 (by norm_num)
  generalize v19 + v39 = v40 at *
  replace i_v40 : Iv v40 4611685984067649537 13835058021190856703 := i_v40
  obtain ⟨i_v41, e_v41⟩ := Iv.shr 16 i_v18
  generalize v18 >>> 16 = v41 at *
  replace i_v41 : Iv v41 0 70369817923583 := i_v41
  obtain ⟨i_v42, e_v42⟩ := Iv.add i_v34 i_v41 (by norm_num)
  generalize v34 + v41 = v42 at *
  replace i_v42 : Iv v42 4611685984067125249 13835128391008255998 := i_v42
  obtain ⟨u2, f2⟩ : ∃ u : D, u = v25 + (v31 >>> 28) := ⟨_, rfl⟩
  obtain ⟨u3, f3⟩ : ∃ u : D, u = v40 + (u2 >>> 28) := ⟨_, rfl⟩
  obtain ⟨u4, f4⟩ : ∃ u : D, u = v42 + (u3 >>> 28) := ⟨_, rfl⟩
  obtain ⟨u5, f5⟩ : ∃ u : D, u = v36 + (u4 >>> 28) := ⟨_, rfl⟩
  obtain ⟨u6, f6⟩ : ∃ u : D, u = v30 + (u5 >>> 28) := ⟨_, rfl⟩
  obtain ⟨u7, f7⟩ : ∃ u : D, u = v24 + (u6 >>> 28) := ⟨_, rfl⟩
  obtain ⟨u8, f8⟩ : ∃ u : D, u = 0#64 + (u7 >>> 28) := ⟨_, rfl⟩
  have hr := large_rest v37 v31 v25 v40 v42 v36 v30 v24 v18 v12 v6 t11 t12 t13 t14 u2 u3 u4 u5 u6 u7 u8 f2 f3 f4 f5 f6 f7 f8
  refine ⟨_, _, _, _, _, _, _, _, hr, ?_⟩
  clear hr
  rw [BitVec.zero_add] at f8
  have d_v31_28 := divMod v31.toNat 28
  obtain ⟨i_v43, e_v43⟩ := Iv.shr 28 i_v31
  generalize v31 >>> 28 = v43 at *
  replace i_v43 : Iv v43 17179606911 51539607423 := i_v43
  obtain ⟨i_v44, e_v44⟩ := Iv.add i_v25 i_v43 (by norm_num)
  generalize v25 + v43 = v44 at *
  replace i_v44 : Iv v44 4611615632503078785 13835058072462032766 := i_v44
  subst f2
  have d_u2_28 := divMod u2.toNat 28
  obtain ⟨i_v45, e_v45⟩ := Iv.shr 28 i_v44
  generalize u2 >>> 28 = v45 at *
  replace i_v45 : Iv v45 17179606975 51539607615 := i_v45
  obtain ⟨i_v46, e_v46⟩ := Iv.add i_v40 i_v45 (by norm_num)
  generalize v40 + v45 = v46 at *
  replace i_v46 : Iv v46 4611686001247256512 13835058072730464318 := i_v46
  subst f3
  have d_u3_28 := divMod u3.toNat 28
  obtain ⟨i_v47, e_v47⟩ := Iv.shr 28 i_v46
  generalize u3 >>> 28 = v47 at *
  replace i_v47 : Iv v47 17179869119 51539607616 := i_v47
  obtain ⟨i_v48, e_v48⟩ := Iv.add i_v42 i_v47 (by norm_num)
  generalize v42 + v47 = v48 at *
  replace i_v48 : Iv v48 4611686001246994368 13835128442547863614 := i_v48
  subst f4
  have d_u4_28 := divMod u4.toNat 28
  obtain ⟨i_v49, e_v49⟩ := Iv.shr 28 i_v48
  generalize u4 >>> 28 = v49 at *
  replace i_v49 : Iv v49 17179869119 51539869764 := i_v49
  obtain ⟨i_v50, e_v50⟩ := Iv.add i_v36 i_v49 (by norm_num)
  generalize v36 + v49 = v50 at *
  replace i_v50 : Iv v50 4611686001247518656 13835128442548650050 := i_v50
  subst f5
  have d_u5_28 := divMod u5.toNat 28
  obtain ⟨i_v51, e_v51⟩ := Iv.shr 28 i_v50
  generalize u5 >>> 28 = v51 at *
  replace i_v51 : Iv v51 17179869119 51539869765 := i_v51
  obtain ⟨i_v52, e_v52⟩ := Iv.add i_v30 i_v51 (by norm_num)
  generalize v30 + v51 = v52 at *
  replace i_v52 : Iv v52 4611686001247518656 13835128442548645955 := i_v52
  subst f6
  have d_u6_28 := divMod u6.toNat 28
  obtain ⟨i_v53, e_v53⟩ := Iv.shr 28 i_v52
  generalize u6 >>> 28 = v53 at *
  replace i_v53 : Iv v53 17179869119 51539869765 := i_v53
  obtain ⟨i_v54, e_v54⟩ := Iv.add i_v24 i_v53 (by norm_num)
  generalize v24 + v53 = v54 at *
  replace i_v54 : Iv v54 9223372019674906559 13835128441474904131 := i_v54
  subst f7
  have d_u7_28 := divMod u7.toNat 28
  obtain ⟨i_v55, e_v55⟩ := Iv.shr 28 i_v54
  generalize u7 >>> 28 = v55 at *
  replace i_v55 : Iv v55 34359738303 51539869761 := i_v55
  subst f8
  obtain ⟨i_u0, e_u0⟩ := Iv.sub i_v37 i_v55 (by norm_num)
  generalize v37 - u8 = u0 at *
  replace i_u0 : Iv u0 4611615632234647489 13835058055282163776 := i_u0
  have d_u0_28 := divMod u0.toNat 28
  obtain ⟨i_v56, e_v56⟩ := Iv.mask 28 u0 0xfffffff#64 rfl
  generalize u0 &&& 0xfffffff#64 = v56 at *
  replace i_v56 : Iv v56 0 268435455 := i_v56
  obtain ⟨i_v57, e_v57⟩ := Iv.trunc (v := 32) i_v56 (by norm_num)
  generalize v56.setWidth 32 = v57 at *
  replace i_v57 : Iv v57 0 268435455 := i_v57
  obtain ⟨i_v58, e_v58⟩ := Iv.mask 28 v31 0xfffffff#64 rfl
  generalize v31 &&& 0xfffffff#64 = v58 at *
  replace i_v58 : Iv v58 0 268435455 := i_v58
  obtain ⟨i_v59, e_v59⟩ := Iv.trunc (v := 32) i_v58 (by norm_num)
  generalize v58.setWidth 32 = v59 at *
  replace i_v59 : Iv v59 0 268435455 := i_v59
  obtain ⟨i_v60, e_v60⟩ := Iv.shr 28 i_u0
  generalize u0 >>> 28 = v60 at *
  replace i_v60 : Iv v60 17179606974 51539607552 := i_v60
  have d_v60_28 := divMod v60.toNat 28
  obtain ⟨i_v61, e_v61⟩ := Iv.mask 28 v60 0xfffffff#64 rfl
  generalize v60 &&& 0xfffffff#64 = v61 at *
  replace i_v61 : Iv v61 0 268435455 := i_v61
  obtain ⟨i_v62, e_v62⟩ := Iv.trunc (v := 32) i_v61 (by norm_num)
  generalize v61.setWidth 32 = v62 at *
  replace i_v62 : Iv v62 0 268435455 := i_v62
  obtain ⟨i_v63, e_v63⟩ := Iv.add i_v59 i_v62 (by norm_num)
  generalize v59 + v62 = v63 at *
  replace i_v63 : Iv v63 0 536870910 := i_v63
  have dd := divDiv u0.toNat 28 28
  rw [show u0.toNat / 2 ^ 28 = v60.toNat by exact_mod_cast e_v60.symm] at dd
  obtain ⟨i_v64, e_v64⟩ := Iv.mask 28 u2 0xfffffff#64 rfl
  generalize u2 &&& 0xfffffff#64 = v64 at *
  replace i_v64 : Iv v64 0 268435455 := i_v64
  obtain ⟨i_v65, e_v65⟩ := Iv.trunc (v := 32) i_v64 (by norm_num)
  generalize v64.setWidth 32 = v65 at *
  replace i_v65 : Iv v65 0 268435455 := i_v65
  obtain ⟨i_v66, e_v66⟩ := Iv.shr 56 i_u0
  generalize u0 >>> 56 = v66 at *
  replace i_v66 : Iv v66 63 192 := i_v66
  obtain ⟨i_v67, e_v67⟩ := Iv.trunc (v := 32) i_v66 (by norm_num)
  generalize v66.setWidth 32 = v67 at *
  replace i_v67 : Iv v67 63 192 := i_v67
  obtain ⟨i_v68, e_v68⟩ := Iv.add i_v65 i_v67 (by norm_num)
  generalize v65 + v67 = v68 at *
  replace i_v68 : Iv v68 63 268435647 := i_v68
  obtain ⟨i_v69, e_v69⟩ := Iv.mask 28 u3 0xfffffff#64 rfl
  generalize u3 &&& 0xfffffff#64 = v69 at *
  replace i_v69 : Iv v69 0 268435455 := i_v69
  obtain ⟨i_v70, e_v70⟩ := Iv.trunc (v := 32) i_v69 (by norm_num)
  generalize v69.setWidth 32 = v70 at *
  replace i_v70 : Iv v70 0 268435455 := i_v70
  have d_u8_16 := divMod u8.toNat 16
  obtain ⟨i_v71, e_v71⟩ := Iv.mask 16 u8 0xffff#64 rfl
  generalize u8 &&& 0xffff#64 = v71 at *
  replace i_v71 : Iv v71 0 65535 := i_v71
  obtain ⟨i_v72, e_v72⟩ := Iv.shl 12 i_v71 (by norm_num)
  generalize v71 <<< 12 = v72 at *
  replace i_v72 : Iv v72 0 268431360 := i_v72
  obtain ⟨i_v73, e_v73⟩ := Iv.trunc (v := 32) i_v72 (by norm_num)
  generalize v72.setWidth 32 = v73 at *
  replace i_v73 : Iv v73 0 268431360 := i_v73
  obtain ⟨i_v74, e_v74⟩ := Iv.add i_v70 i_v73 (by norm_num)
  generalize v70 + v73 = v74 at *
  replace i_v74 : Iv v74 0 536866815 := i_v74
  obtain ⟨i_v75, e_v75⟩ := Iv.mask 28 u4 0xfffffff#64 rfl
  generalize u4 &&& 0xfffffff#64 = v75 at *
  replace i_v75 : Iv v75 0 268435455 := i_v75
  obtain ⟨i_v76, e_v76⟩ := Iv.trunc (v := 32) i_v75 (by norm_num)
  generalize v75.setWidth 32 = v76 at *
  replace i_v76 : Iv v76 0 268435455 := i_v76
  obtain ⟨i_v77, e_v77⟩ := Iv.shr 16 i_v55
  generalize u8 >>> 16 = v77 at *
  replace i_v77 : Iv v77 524287 786436 := i_v77
  obtain ⟨i_v78, e_v78⟩ := Iv.maskId 32 (m := 0xffffffff#64) rfl i_v77 (by norm_num)
  generalize v77 &&& 0xffffffff#64 = v78 at *
  replace i_v78 : Iv v78 524287 786436 := i_v78
  obtain ⟨i_v79, e_v79⟩ := Iv.trunc (v := 32) i_v78 (by norm_num)
  generalize v78.setWidth 32 = v79 at *
  replace i_v79 : Iv v79 524287 786436 := i_v79
  obtain ⟨i_v80, e_v80⟩ := Iv.add i_v76 i_v79 (by norm_num)
  generalize v76 + v79 = v80 at *
  replace i_v80 : Iv v80 524287 269221891 := i_v80
  obtain ⟨i_v81, e_v81⟩ := Iv.mask 28 u5 0xfffffff#64 rfl
  generalize u5 &&& 0xfffffff#64 = v81 at *
  replace i_v81 : Iv v81 0 268435455 := i_v81
  obtain ⟨i_v82, e_v82⟩ := Iv.trunc (v := 32) i_v81 (by norm_num)
  generalize v81.setWidth 32 = v82 at *
  replace i_v82 : Iv v82 0 268435455 := i_v82
  obtain ⟨i_v83, e_v83⟩ := Iv.mask 28 u6 0xfffffff#64 rfl
  generalize u6 &&& 0xfffffff#64 = v83 at *
  replace i_v83 : Iv v83 0 268435455 := i_v83
  obtain ⟨i_v84, e_v84⟩ := Iv.trunc (v := 32) i_v83 (by norm_num)
  generalize v83.setWidth 32 = v84 at *
  replace i_v84 : Iv v84 0 268435455 := i_v84
  obtain ⟨i_v85, e_v85⟩ := Iv.mask 28 u7 0xfffffff#64 rfl
  generalize u7 &&& 0xfffffff#64 = v85 at *
  replace i_v85 : Iv v85 0 268435455 := i_v85
  obtain ⟨i_v86, e_v86⟩ := Iv.trunc (v := 32) i_v85 (by norm_num)
  generalize v85.setWidth 32 = v86 at *
  replace i_v86 : Iv v86 0 268435455 := i_v86
  refine ⟨lt_of_le_of_lt i_v57.2 (by norm_num), i_v63.2.trans (by norm_num), i_v68.2.trans (by norm_num), i_v74.2.trans (by norm_num), i_v80.2.trans (by norm_num), i_v82.2.trans (by norm_num), i_v84.2.trans (by norm_num), i_v86.2.trans (by norm_num), ?_, ?_⟩
  · refine ⟨34359738368 - u8.toNat - t14.toNat * 2 ^ 168 - t13.toNat * 2 ^ 140 - t12.toNat * 2 ^ 112 - t11.toNat * 2 ^ 84 - v6.toNat * 2 ^ 56 - v12.toNat * 2 ^ 28 - v18.toNat * 2 ^ 0, ?_⟩
    simp only [val, q224, Nat.cast_add, Nat.cast_mul, Nat.cast_pow, Nat.cast_ofNat, Nat.cast_zero]
    exact reduceLarge_alg e_a0 e_a1 e_a2 e_a3 e_a4 e_a5 e_a6 e_a7 e_v1 d_t14_16 e_v2 e_v3 e_v4 e_v5 e_v6 e_v7 d_t13_16 e_v8 e_v9 e_v10 e_v11 e_v12 e_v13 d_t12_16 e_v14 e_v15 e_v16 e_v17 e_v18 e_v19 d_t11_16 e_v20 e_v21 e_v22 e_v23 e_v24 e_v25 d_v6_16 e_v26 e_v27 e_v28 e_v29 e_v30 e_v31 d_v12_16 e_v32 e_v33 e_v34 e_v35 e_v36 e_v37 d_v18_16 e_v38 e_v39 e_v40 e_v41 e_v42 d_v31_28 e_v43 e_v44 d_u2_28 e_v45 e_v46 d_u3_28 e_v47 e_v48 d_u4_28 e_v49 e_v50 d_u5_28 e_v51 e_v52 d_u6_28 e_v53 e_v54 d_u7_28 e_v55 e_u0 d_u0_28 e_v56 e_v57 e_v58 e_v59 e_v60 d_v60_28 e_v61 e_v62 e_v63 dd e_v64 e_v65 e_v66 e_v67 e_v68 e_v69 e_v70 d_u8_16 e_v71 e_v72 e_v73 e_v74 e_v75 e_v76 e_v77 e_v78 e_v79 e_v80 e_v81 e_v82 e_v83 e_v84 e_v85 e_v86
  · exact val_ge _ _ _ _ _ _ _ _ i_v80.1

end Verif.Model.P224
