import Verif.Proof.P224Red

/-! Carries of the P-224 field elements. -/

namespace Verif.Model.P224
open Verif.Words

theorem chain_eq (a0 a1 a2 a3 a4 a5 a6 a7 u1 u2 u3 u4 u5 u6 u7 : W) (f1 : u1 = a1 + (a0 >>> 28)) (f2 : u2 = a2 + (u1 >>> 28)) (f3 : u3 = a3 + (u2 >>> 28))
    (f4 : u4 = a4 + (u3 >>> 28)) (f5 : u5 = a5 + (u4 >>> 28)) (f6 : u6 = a6 + (u5 >>> 28)) (f7 : u7 = a7 + (u6 >>> 28)) :
    chain [a0, a1, a2, a3, a4, a5, a6, a7] =
      [a0 &&& bottom28, u1 &&& bottom28, u2 &&& bottom28, u3 &&& bottom28, u4 &&& bottom28, u5 &&& bottom28, u6 &&& bottom28, u7] := by
  subst f1; subst f2; subst f3; subst f4; subst f5; subst f6; subst f7
  rfl

theorem chain_alg {a0 div_a0_28 mod_a0_28 v1 v2 u1 a1 div_u1_28 mod_u1_28 v4 v5 u2 a2 div_u2_28 mod_u2_28 v7 v8 u3 a3 div_u3_28 mod_u3_28 v10 v11 u4 a4 div_u4_28 mod_u4_28 v13 v14 u5 a5 div_u5_28 mod_u5_28 v16 v17 u6 a6 div_u6_28 mod_u6_28 v19 v20 u7 a7 : ℤ}
    (d_a0_28 : a0 = 2 ^ 28 * div_a0_28 + mod_a0_28)
    (e_v1 : v1 = div_a0_28)
    (e_v2 : v2 = mod_a0_28)
    (e_v3 : u1 = a1 + v1)
    (d_u1_28 : u1 = 2 ^ 28 * div_u1_28 + mod_u1_28)
    (e_v4 : v4 = div_u1_28)
    (e_v5 : v5 = mod_u1_28)
    (e_v6 : u2 = a2 + v4)
    (d_u2_28 : u2 = 2 ^ 28 * div_u2_28 + mod_u2_28)
    (e_v7 : v7 = div_u2_28)
    (e_v8 : v8 = mod_u2_28)
    (e_v9 : u3 = a3 + v7)
    (d_u3_28 : u3 = 2 ^ 28 * div_u3_28 + mod_u3_28)
    (e_v10 : v10 = div_u3_28)
    (e_v11 : v11 = mod_u3_28)
    (e_v12 : u4 = a4 + v10)
    (d_u4_28 : u4 = 2 ^ 28 * div_u4_28 + mod_u4_28)
    (e_v13 : v13 = div_u4_28)
    (e_v14 : v14 = mod_u4_28)
    (e_v15 : u5 = a5 + v13)
    (d_u5_28 : u5 = 2 ^ 28 * div_u5_28 + mod_u5_28)
    (e_v16 : v16 = div_u5_28)
    (e_v17 : v17 = mod_u5_28)
    (e_v18 : u6 = a6 + v16)
    (d_u6_28 : u6 = 2 ^ 28 * div_u6_28 + mod_u6_28)
    (e_v19 : v19 = div_u6_28)
    (e_v20 : v20 = mod_u6_28)
    (e_v21 : u7 = a7 + v19)
    : (v2 + 2 ^ 28 * (v5 + 2 ^ 28 * (v8 + 2 ^ 28 * (v11 + 2 ^ 28 * (v14 + 2 ^ 28 * (v17 + 2 ^ 28 * (v20 + 2 ^ 28 * (u7 + 2 ^ 28 * 0)))))))) = (a0 + 2 ^ 28 * (a1 + 2 ^ 28 * (a2 + 2 ^ 28 * (a3 + 2 ^ 28 * (a4 + 2 ^ 28 * (a5 + 2 ^ 28 * (a6 + 2 ^ 28 * (a7 + 2 ^ 28 * 0)))))))) := by
  linear_combination (100433627766186892221372630771322662657637687111424552206336) * e_v21 + (374144419156711147060143317175368453031918731001856) * e_v20 + (100433627766186892221372630771322662657637687111424552206336) * e_v19 + (-374144419156711147060143317175368453031918731001856) * d_u6_28 + (374144419156711147060143317175368453031918731001856) * e_v18 + (1393796574908163946345982392040522594123776) * e_v17 + (374144419156711147060143317175368453031918731001856) * e_v16 + (-1393796574908163946345982392040522594123776) * d_u5_28 + (1393796574908163946345982392040522594123776) * e_v15 + (5192296858534827628530496329220096) * e_v14 + (1393796574908163946345982392040522594123776) * e_v13 + (-5192296858534827628530496329220096) * d_u4_28 + (5192296858534827628530496329220096) * e_v12 + (19342813113834066795298816) * e_v11 + (5192296858534827628530496329220096) * e_v10 + (-19342813113834066795298816) * d_u3_28 + (19342813113834066795298816) * e_v9 + (72057594037927936) * e_v8 + (19342813113834066795298816) * e_v7 + (-72057594037927936) * d_u2_28 + (72057594037927936) * e_v6 + (268435456) * e_v5 + (72057594037927936) * e_v4 + (-268435456) * d_u1_28 + (268435456) * e_v3 + (1) * e_v2 + (268435456) * e_v1 + (-1) * d_a0_28

theorem chain_ok (a0 a1 a2 a3 a4 a5 a6 a7 : W) (h1 : a1.toNat ≤ 2 ^ 32 - 16) (h2 : a2.toNat ≤ 2 ^ 32 - 16) (h3 : a3.toNat ≤ 2 ^ 32 - 16) (h4 : a4.toNat ≤ 2 ^ 32 - 16) (h5 : a5.toNat ≤ 2 ^ 32 - 16) (h6 : a6.toNat ≤ 2 ^ 32 - 16) (h7 : a7.toNat ≤ 2 ^ 32 - 16) :
    ∃ c0 c1 c2 c3 c4 c5 c6 c7 : W, chain [a0, a1, a2, a3, a4, a5, a6, a7] = [c0, c1, c2, c3, c4, c5, c6, c7] ∧ c0.toNat < 2 ^ 28 ∧ c1.toNat < 2 ^ 28 ∧ c2.toNat < 2 ^ 28 ∧ c3.toNat < 2 ^ 28 ∧ c4.toNat < 2 ^ 28 ∧ c5.toNat < 2 ^ 28 ∧ c6.toNat < 2 ^ 28 ∧ val [c0, c1, c2, c3, c4, c5, c6, c7] = val [a0, a1, a2, a3, a4, a5, a6, a7] := by
  have h0 : Iv a0 0 4294967295 := ⟨Nat.zero_le _, Nat.le_pred_of_lt a0.isLt⟩
  replace h1 : Iv a1 0 4294967280 := ⟨Nat.zero_le _, h1⟩
  replace h2 : Iv a2 0 4294967280 := ⟨Nat.zero_le _, h2⟩
  replace h3 : Iv a3 0 4294967280 := ⟨Nat.zero_le _, h3⟩
  replace h4 : Iv a4 0 4294967280 := ⟨Nat.zero_le _, h4⟩
  replace h5 : Iv a5 0 4294967280 := ⟨Nat.zero_le _, h5⟩
  replace h6 : Iv a6 0 4294967280 := ⟨Nat.zero_le _, h6⟩
  replace h7 : Iv a7 0 4294967280 := ⟨Nat.zero_le _, h7⟩
  obtain ⟨u1, f1⟩ : ∃ u : W, u = a1 + (a0 >>> 28) := ⟨_, rfl⟩
  obtain ⟨u2, f2⟩ : ∃ u : W, u = a2 + (u1 >>> 28) := ⟨_, rfl⟩
  obtain ⟨u3, f3⟩ : ∃ u : W, u = a3 + (u2 >>> 28) := ⟨_, rfl⟩
  obtain ⟨u4, f4⟩ : ∃ u : W, u = a4 + (u3 >>> 28) := ⟨_, rfl⟩
  obtain ⟨u5, f5⟩ : ∃ u : W, u = a5 + (u4 >>> 28) := ⟨_, rfl⟩
  obtain ⟨u6, f6⟩ : ∃ u : W, u = a6 + (u5 >>> 28) := ⟨_, rfl⟩
  obtain ⟨u7, f7⟩ : ∃ u : W, u = a7 + (u6 >>> 28) := ⟨_, rfl⟩
  rw [chain_eq a0 a1 a2 a3 a4 a5 a6 a7 u1 u2 u3 u4 u5 u6 u7 f1 f2 f3 f4 f5 f6 f7]
  unfold bottom28
  have d_a0_28 := divMod a0.toNat 28
  obtain ⟨i_v1, e_v1⟩ := Iv.shr 28 h0
  generalize a0 >>> 28 = v1 at *
  replace i_v1 : Iv v1 0 15 := i_v1
  obtain ⟨i_v2, e_v2⟩ := Iv.mask 28 a0 268435455#32 rfl
  generalize a0 &&& 268435455#32 = v2 at *
  replace i_v2 : Iv v2 0 268435455 := i_v2
  obtain ⟨i_v3, e_v3⟩ := Iv.add h1 i_v1 (by norm_num)
  generalize a1 + v1 = v3 at *
  replace i_v3 : Iv v3 0 4294967295 := i_v3
  subst f1
  have d_u1_28 := divMod u1.toNat 28
  obtain ⟨i_v4, e_v4⟩ := Iv.shr 28 i_v3
  generalize u1 >>> 28 = v4 at *
  replace i_v4 : Iv v4 0 15 := i_v4
  obtain ⟨i_v5, e_v5⟩ := Iv.mask 28 u1 268435455#32 rfl
  generalize u1 &&& 268435455#32 = v5 at *
  replace i_v5 : Iv v5 0 268435455 := i_v5
  obtain ⟨i_v6, e_v6⟩ := Iv.add h2 i_v4 (by norm_num)
  generalize a2 + v4 = v6 at *
  replace i_v6 : Iv v6 0 4294967295 := i_v6
  subst f2
  have d_u2_28 := divMod u2.toNat 28
  obtain ⟨i_v7, e_v7⟩ := Iv.shr 28 i_v6
  generalize u2 >>> 28 = v7 at *
  replace i_v7 : Iv v7 0 15 := i_v7
  obtain ⟨i_v8, e_v8⟩ := Iv.mask 28 u2 268435455#32 rfl
  generalize u2 &&& 268435455#32 = v8 at *
  replace i_v8 : Iv v8 0 268435455 := i_v8
  obtain ⟨i_v9, e_v9⟩ := Iv.add h3 i_v7 (by norm_num)
  generalize a3 + v7 = v9 at *
  replace i_v9 : Iv v9 0 4294967295 := i_v9
  subst f3
  have d_u3_28 := divMod u3.toNat 28
  obtain ⟨i_v10, e_v10⟩ := Iv.shr 28 i_v9
  generalize u3 >>> 28 = v10 at *
  replace i_v10 : Iv v10 0 15 := i_v10
  obtain ⟨i_v11, e_v11⟩ := Iv.mask 28 u3 268435455#32 rfl
  generalize u3 &&& 268435455#32 = v11 at *
  replace i_v11 : Iv v11 0 268435455 := i_v11
  obtain ⟨i_v12, e_v12⟩ := Iv.add h4 i_v10 (by norm_num)
  generalize a4 + v10 = v12 at *
  replace i_v12 : Iv v12 0 4294967295 := i_v12
  subst f4
  have d_u4_28 := divMod u4.toNat 28
  obtain ⟨i_v13, e_v13⟩ := Iv.shr 28 i_v12
  generalize u4 >>> 28 = v13 at *
  replace i_v13 : Iv v13 0 15 := i_v13
  obtain ⟨i_v14, e_v14⟩ := Iv.mask 28 u4 268435455#32 rfl
  generalize u4 &&& 268435455#32 = v14 at *
  replace i_v14 : Iv v14 0 268435455 := i_v14
  obtain ⟨i_v15, e_v15⟩ := Iv.add h5 i_v13 (by norm_num)
  generalize a5 + v13 = v15 at *
  replace i_v15 : Iv v15 0 4294967295 := i_v15
  subst f5
  have d_u5_28 := divMod u5.toNat 28
  obtain ⟨i_v16, e_v16⟩ := Iv.shr 28 i_v15
  generalize u5 >>> 28 = v16 at *
  replace i_v16 : Iv v16 0 15 := i_v16
  obtain ⟨i_v17, e_v17⟩ := Iv.mask 28 u5 268435455#32 rfl
  generalize u5 &&& 268435455#32 = v17 at *
  replace i_v17 : Iv v17 0 268435455 := i_v17
  obtain ⟨i_v18, e_v18⟩ := Iv.add h6 i_v16 (by norm_num)
  generalize a6 + v16 = v18 at *
  replace i_v18 : Iv v18 0 4294967295 := i_v18
  subst f6
  have d_u6_28 := divMod u6.toNat 28
  obtain ⟨i_v19, e_v19⟩ := Iv.shr 28 i_v18
  generalize u6 >>> 28 = v19 at *
  replace i_v19 : Iv v19 0 15 := i_v19
  obtain ⟨i_v20, e_v20⟩ := Iv.mask 28 u6 268435455#32 rfl
  generalize u6 &&& 268435455#32 = v20 at *
  replace i_v20 : Iv v20 0 268435455 := i_v20
  obtain ⟨i_v21, e_v21⟩ := Iv.add h7 i_v19 (by norm_num)
  generalize a7 + v19 = v21 at *
  replace i_v21 : Iv v21 0 4294967295 := i_v21
  subst f7
  refine ⟨_, _, _, _, _, _, _, _, rfl, lt_of_le_of_lt i_v2.2 (by norm_num), lt_of_le_of_lt i_v5.2 (by norm_num), lt_of_le_of_lt i_v8.2 (by norm_num), lt_of_le_of_lt i_v11.2 (by norm_num), lt_of_le_of_lt i_v14.2 (by norm_num), lt_of_le_of_lt i_v17.2 (by norm_num), lt_of_le_of_lt i_v20.2 (by norm_num), ?_⟩
  apply Nat.cast_injective (R := ℤ)
  simp only [val, Nat.cast_add, Nat.cast_mul, Nat.cast_pow, Nat.cast_ofNat, Nat.cast_zero]
  exact chain_alg d_a0_28 e_v1 e_v2 e_v3 d_u1_28 e_v4 e_v5 e_v6 d_u2_28 e_v7 e_v8 e_v9 d_u3_28 e_v10 e_v11 e_v12 d_u4_28 e_v13 e_v14 e_v15 d_u5_28 e_v16 e_v17 e_v18 d_u6_28 e_v19 e_v20 e_v21

end Verif.Model.P224
