import Verif.Model.AESNI
import Verif.Proof.GF

/-! Helper lemmas: aes_amd64.rs refines FIPS-197 -/

namespace Verif.Model.AESNI
open Spec.AES (Col State xorCol subWord rotWord rcon keyExpansion)

/-- Round key `i` of a schedule. -/
def RK (w : Nat → Col) (i : Nat) : M128 := fun c => w (4 * i + c.val)

section kx
variable (key : Bytes) (nk i : Nat)

theorem kx0 (h1 : nk ≤ i) (h2 : 0 < nk) (h : i % nk = 0) : keyExpansion key nk i =
    xorCol (keyExpansion key nk (i - nk)) (xorCol (subWord (rotWord (keyExpansion key nk (i - 1)))) (rcon (i / nk))) := by
  conv_lhs => rw [keyExpansion]
  rw [dif_neg (by omega)]; dsimp only; rw [if_pos h]

theorem kx4 (h1 : nk ≤ i) (h2 : 6 < nk) (h : i % nk = 4) : keyExpansion key nk i =
    xorCol (keyExpansion key nk (i - nk)) (subWord (keyExpansion key nk (i - 1))) := by
  conv_lhs => rw [keyExpansion]
  rw [dif_neg (by omega)]; dsimp only; rw [if_neg (by omega), if_pos ⟨h2, h⟩]

theorem kxn (h1 : nk ≤ i) (h2 : 0 < nk) (h : i % nk ≠ 0) (h' : nk ≤ 6 ∨ i % nk ≠ 4) : keyExpansion key nk i =
    xorCol (keyExpansion key nk (i - nk)) (keyExpansion key nk (i - 1)) := by
  conv_lhs => rw [keyExpansion]
  rw [dif_neg (by omega)]; dsimp only; rw [if_neg h, if_neg (by omega)]
end kx

theorem xor_col (a b : M128) (c : Fin 4) : xor a b c = xorCol (a c) (b c) := rfl

theorem xorCol_assoc (a b c : Col) : xorCol (xorCol a b) c = xorCol a (xorCol b c) := by
  funext r; exact BitVec.xor_assoc ..
theorem xorCol_comm (a b : Col) : xorCol a b = xorCol b a := by
  funext r; exact BitVec.xor_comm ..
instance : Std.Associative xorCol := ⟨xorCol_assoc⟩
instance : Std.Commutative xorCol := ⟨xorCol_comm⟩

theorem ladder_0 (t : M128) : ladder t 0 = t 0 := by
  funext r; simp [ladder, xor, slli4]
theorem ladder_1 (t : M128) : ladder t 1 = xorCol (t 1) (t 0) := by
  funext r; simp [ladder, xor, slli4, xorCol]
theorem ladder_2 (t : M128) : ladder t 2 = xorCol (xorCol (t 2) (t 1)) (t 0) := by
  funext r; simp [ladder, xor, slli4, xorCol]
theorem ladder_3 (t : M128) : ladder t 3 = xorCol (xorCol (xorCol (t 3) (t 2)) (t 1)) (t 0) := by
  funext r; simp [ladder, xor, slli4, xorCol]

/-- Four consecutive words made from `t` and an extra word `x`. -/
theorem ladder_words (t : M128) (x : M128) (w : Fin 4 → Col) (h0 : w 0 = xorCol (t 0) (x 0)) (h1 : w 1 = xorCol (t 1) (w 0))
    (h2 : w 2 = xorCol (t 2) (w 1)) (h3 : w 3 = xorCol (t 3) (w 2)) (hx : ∀ c, x c = x 0) : xor (ladder t) x = w := by
  funext c
  rw [xor_col]
  match c with
  | 0 => rw [ladder_0, h0]
  | 1 => rw [ladder_1, h1, h0, hx 1]; ac_rfl
  | 2 => rw [ladder_2, h2, h1, h0, hx 2]; ac_rfl
  | 3 => rw [ladder_3, h3, h2, h1, h0, hx 3]; ac_rfl

theorem assist128_eq (key : Bytes) (i : Nat) (rc : Byte) (h : rconWord rc = rcon (i + 1)) :
    assist128 (RK (keyExpansion key 4) i) (keygenAssist (RK (keyExpansion key 4) i) rc) = RK (keyExpansion key 4) (i + 1) := by
  unfold assist128
  apply ladder_words
  · show keyExpansion key 4 (4 * i + 4) = _
    rw [kx0 _ _ _ (by omega) (by omega) (by omega), show (4 * i + 4) / 4 = i + 1 by omega, ← h]
    rfl
  · show keyExpansion key 4 (4 * i + 5) = xorCol (keyExpansion key 4 (4 * i + 1)) (keyExpansion key 4 (4 * i + 4))
    rw [kxn _ _ _ (by omega) (by omega) (by omega) (by omega)]; rfl
  · show keyExpansion key 4 (4 * i + 6) = xorCol (keyExpansion key 4 (4 * i + 2)) (keyExpansion key 4 (4 * i + 5))
    rw [kxn _ _ (4 * i + 6) (by omega) (by omega) (by omega) (by omega)]; rfl
  · show keyExpansion key 4 (4 * i + 7) = xorCol (keyExpansion key 4 (4 * i + 3)) (keyExpansion key 4 (4 * i + 6))
    rw [kxn _ _ (4 * i + 7) (by omega) (by omega) (by omega) (by omega)]; rfl
  · intro c; rfl

theorem sched128_eq (key : Bytes) (rcs : List Byte) (i : Nat) (h : ∀ j, j < rcs.length → rconWord (rcs.getD j 0#8) = rcon (i + j + 1)) :
    sched128 rcs (RK (keyExpansion key 4) i) = (List.range' (i + 1) rcs.length).map (RK (keyExpansion key 4)) := by
  induction rcs generalizing i with
  | nil => rfl
  | cons rc rcs ih =>
    simp only [sched128, List.length_cons, List.range'_succ, List.map_cons]
    rw [assist128_eq key i rc (by simpa using h 0 (by simp)), ih (i + 1)]
    intro j hj
    have := h (j + 1) (by simpa using hj)
    rw [show i + 1 + j + 1 = i + (j + 1) + 1 by omega]
    simpa using this

theorem kx_init (key : Bytes) (nk i : Nat) (h : i < nk) (r : Fin 4) : keyExpansion key nk i r = key.getD (4 * i + r.val) 0#8 := by
  rw [keyExpansion, dif_pos (Or.inl h)]

theorem rcon_ok (rc : Byte) (i : Nat) (h : rc = Spec.AES.xpow (i - 1) 1#8) : rconWord rc = rcon i := by
  funext r; rw [rconWord, rcon, h]

theorem keySchedule128_eq (key : Bytes) : keySchedule128 key = (List.range' 0 11).map (RK (keyExpansion key 4)) := by
  have h0 : loadu key 0 = RK (keyExpansion key 4) 0 := by
    funext c r
    show _ = keyExpansion key 4 (4 * 0 + c.val) r
    rw [kx_init _ _ _ (by omega), loadu]
    congr 1; omega
  unfold keySchedule128
  simp only
  rw [h0, sched128_eq]
  · rfl
  · have : ∀ j : Fin 10, ([0x1#8, 0x2#8, 0x4#8, 0x8#8, 0x10#8, 0x20#8, 0x40#8, 0x80#8, 0x1b#8, 0x36#8] : List Byte).getD j.val 0#8 =
      Spec.AES.xpow (0 + j.val + 1 - 1) 1#8 := by decide
    intro j hj
    exact rcon_ok _ _ (this ⟨j, hj⟩)

/-- Six consecutive words. -/
structure Six (w : Nat → Col) (m : Nat) (t1 t3 : M128) : Prop where
  t1 : t1 = fun c => w (6 * m + c.val)
  w4 : t3 0 = w (6 * m + 4)
  w5 : t3 1 = w (6 * m + 5)

theorem assist192_eq (key : Bytes) (m : Nat) (t1 t3 : M128) (rc : Byte) (h : rconWord rc = rcon (m + 1)) (H : Six (keyExpansion key 6) m t1 t3) :
    Six (keyExpansion key 6) (m + 1) (assist192 t1 (keygenAssist t3 rc) t3).1 (assist192 t1 (keygenAssist t3 rc) t3).2 := by
  have e1 : (assist192 t1 (keygenAssist t3 rc) t3).1 = fun c => keyExpansion key 6 (6 * (m + 1) + c.val) := by
    show xor (ladder t1) (splat (keygenAssist t3 rc) 1) = _
    rw [H.t1]
    apply ladder_words
    · show keyExpansion key 6 (6 * m + 6) = xorCol (keyExpansion key 6 (6 * m)) (xorCol (rotWord (subWord (t3 1))) (rconWord rc))
      rw [kx0 _ _ _ (by omega) (by omega) (by omega), show (6 * m + 6) / 6 = m + 1 by omega, ← h, H.w5]
      rfl
    · show keyExpansion key 6 (6 * m + 7) = xorCol (keyExpansion key 6 (6 * m + 1)) (keyExpansion key 6 (6 * m + 6))
      rw [kxn _ _ (6 * m + 7) (by omega) (by omega) (by omega) (by omega)]; rfl
    · show keyExpansion key 6 (6 * m + 8) = xorCol (keyExpansion key 6 (6 * m + 2)) (keyExpansion key 6 (6 * m + 7))
      rw [kxn _ _ (6 * m + 8) (by omega) (by omega) (by omega) (by omega)]; rfl
    · show keyExpansion key 6 (6 * m + 9) = xorCol (keyExpansion key 6 (6 * m + 3)) (keyExpansion key 6 (6 * m + 8))
      rw [kxn _ _ (6 * m + 9) (by omega) (by omega) (by omega) (by omega)]; rfl
    · intro c; rfl
  have z : slli4 t3 0 = fun _ => 0#8 := rfl
  have h4 : keyExpansion key 6 (6 * m + 10) = xorCol (keyExpansion key 6 (6 * m + 4)) (keyExpansion key 6 (6 * m + 9)) := by
    rw [kxn _ _ (6 * m + 10) (by omega) (by omega) (by omega) (by omega)]; rfl
  have h5 : keyExpansion key 6 (6 * m + 11) = xorCol (keyExpansion key 6 (6 * m + 5)) (keyExpansion key 6 (6 * m + 10)) := by
    rw [kxn _ _ (6 * m + 11) (by omega) (by omega) (by omega) (by omega)]; rfl
  refine ⟨e1, ?_, ?_⟩
  · show xor (xor t3 (slli4 t3)) (splat (assist192 t1 (keygenAssist t3 rc) t3).1 3) 0 = keyExpansion key 6 (6 * m + 10)
    rw [e1, h4, ← H.w4]
    funext r
    simp only [xor, z, splat, xorCol, BitVec.xor_zero]
    rfl
  · show xor (xor t3 (slli4 t3)) (splat (assist192 t1 (keygenAssist t3 rc) t3).1 3) 1 = keyExpansion key 6 (6 * m + 11)
    rw [e1, h5, h4, ← H.w4, ← H.w5]
    funext r
    show t3 1 r ^^^ t3 0 r ^^^ keyExpansion key 6 (6 * m + 9) r = t3 1 r ^^^ (t3 0 r ^^^ keyExpansion key 6 (6 * m + 9) r)
    rw [BitVec.xor_assoc]

theorem sched192_eq (key : Bytes) (rcs : List (Byte × Byte)) (q : Nat) (t1 t3 : M128) (H : Six (keyExpansion key 6) (2 * q) t1 t3)
    (h : ∀ j, j < rcs.length → rconWord (rcs.getD j (0#8, 0#8)).1 = rcon (2 * (q + j) + 1) ∧
      rconWord (rcs.getD j (0#8, 0#8)).2 = rcon (2 * (q + j) + 2)) :
    sched192 rcs t1 t3 = (List.range' (3 * q + 1) (3 * rcs.length)).map (RK (keyExpansion key 6)) := by
  induction rcs generalizing q t1 t3 with
  | nil => rfl
  | cons p rcs ih =>
    obtain ⟨rc, rc'⟩ := p
    obtain ⟨ha, hb⟩ := h 0 (by simp)
    simp only [List.getD_cons_zero] at ha hb
    have P := assist192_eq key (2 * q) t1 t3 rc ha H
    have Q := assist192_eq key (2 * q + 1) _ _ rc' hb P
    simp only [sched192]
    rw [ih (q + 1) _ _ Q]
    · rw [List.length_cons, show 3 * (rcs.length + 1) = 3 * rcs.length + 1 + 1 + 1 by omega]
      simp only [List.range'_succ, List.map_cons]
      congr 1
      · funext c
        match c with
        | 0 =>
          show t3 0 = keyExpansion key 6 (4 * (3 * q + 1) + 0)
          rw [H.w4]; congr 1; omega
        | 1 =>
          show t3 1 = keyExpansion key 6 (4 * (3 * q + 1) + 1)
          rw [H.w5]; congr 1; omega
        | 2 =>
          show (assist192 t1 (keygenAssist t3 rc) t3).1 0 = keyExpansion key 6 (4 * (3 * q + 1) + 2)
          rw [P.t1]; show keyExpansion key 6 (6 * (2 * q + 1) + 0) = _; congr 1; omega
        | 3 =>
          show (assist192 t1 (keygenAssist t3 rc) t3).1 1 = keyExpansion key 6 (4 * (3 * q + 1) + 3)
          rw [P.t1]; show keyExpansion key 6 (6 * (2 * q + 1) + 1) = _; congr 1; omega
      congr 1
      · funext c
        match c with
        | 0 =>
          show (assist192 t1 (keygenAssist t3 rc) t3).1 2 = keyExpansion key 6 (4 * (3 * q + 1 + 1) + 0)
          rw [P.t1]; show keyExpansion key 6 (6 * (2 * q + 1) + 2) = _; congr 1; omega
        | 1 =>
          show (assist192 t1 (keygenAssist t3 rc) t3).1 3 = keyExpansion key 6 (4 * (3 * q + 1 + 1) + 1)
          rw [P.t1]; show keyExpansion key 6 (6 * (2 * q + 1) + 3) = _; congr 1; omega
        | 2 =>
          show (assist192 t1 (keygenAssist t3 rc) t3).2 0 = keyExpansion key 6 (4 * (3 * q + 1 + 1) + 2)
          rw [P.w4]; congr 1; omega
        | 3 =>
          show (assist192 t1 (keygenAssist t3 rc) t3).2 1 = keyExpansion key 6 (4 * (3 * q + 1 + 1) + 3)
          rw [P.w5]; congr 1; omega
      congr 1
      · rw [Q.t1]
        funext c
        show keyExpansion key 6 _ = keyExpansion key 6 _
        congr 1; omega
    · intro j hj
      have := h (j + 1) (by simpa using hj)
      rw [show q + 1 + j = q + (j + 1) by omega]
      simpa using this

theorem getD_append_left (a b : Bytes) (i : Nat) (h : i < a.length) : (a ++ b).getD i 0#8 = a.getD i 0#8 := by
  rw [List.getD_eq_getElem?_getD, List.getElem?_append_left h, ← List.getD_eq_getElem?_getD]

theorem keySchedule192_eq (key beyond : Bytes) (hk : key.length = 24) :
    keySchedule192 key beyond = (List.range' 0 13).map (RK (keyExpansion key 6)) := by
  have h0 : loadu (key ++ beyond) 0 = RK (keyExpansion key 6) 0 := by
    funext c r
    show _ = keyExpansion key 6 (4 * 0 + c.val) r
    rw [kx_init _ _ _ (by omega), loadu, getD_append_left _ _ _ (by omega)]
    congr 1; omega
  have H : Six (keyExpansion key 6) (2 * 0) (loadu (key ++ beyond) 0) (loadu (key ++ beyond) 16) := by
    refine ⟨h0, ?_, ?_⟩
    · funext r
      show _ = keyExpansion key 6 4 r
      rw [kx_init _ _ _ (by omega), loadu, getD_append_left _ _ _ (by simp; omega)]
      congr 1; simp
    · funext r
      show _ = keyExpansion key 6 5 r
      rw [kx_init _ _ _ (by omega), loadu, getD_append_left _ _ _ (by simp; omega)]
      congr 1; simp; omega
  unfold keySchedule192
  simp only
  rw [sched192_eq key _ 0 _ _ H, h0]
  · rfl
  · have : ∀ j : Fin 4, (([(0x1#8, 0x2#8), (0x4#8, 0x8#8), (0x10#8, 0x20#8), (0x40#8, 0x80#8)] : List (Byte × Byte)).getD j.val (0#8, 0#8)).1 =
      Spec.AES.xpow (2 * (0 + j.val) + 1 - 1) 1#8 ∧
      (([(0x1#8, 0x2#8), (0x4#8, 0x8#8), (0x10#8, 0x20#8), (0x40#8, 0x80#8)] : List (Byte × Byte)).getD j.val (0#8, 0#8)).2 =
      Spec.AES.xpow (2 * (0 + j.val) + 2 - 1) 1#8 := by decide
    intro j hj
    exact ⟨rcon_ok _ _ (this ⟨j, hj⟩).1, rcon_ok _ _ (this ⟨j, hj⟩).2⟩

theorem assist256a_eq (key : Bytes) (m : Nat) (rc : Byte) (h : rconWord rc = rcon (m + 1)) :
    assist256a (RK (keyExpansion key 8) (2 * m)) (keygenAssist (RK (keyExpansion key 8) (2 * m + 1)) rc) =
      RK (keyExpansion key 8) (2 * m + 2) := by
  unfold assist256a
  have e : ∀ j, RK (keyExpansion key 8) (2 * m) j = keyExpansion key 8 (8 * m + j.val) := by
    intro j; show keyExpansion key 8 _ = _; congr 1; omega
  have e1 : ∀ j, RK (keyExpansion key 8) (2 * m + 1) j = keyExpansion key 8 (8 * m + 4 + j.val) := by
    intro j; show keyExpansion key 8 _ = _; congr 1; omega
  have e2 : ∀ j, RK (keyExpansion key 8) (2 * m + 2) j = keyExpansion key 8 (8 * m + 8 + j.val) := by
    intro j; show keyExpansion key 8 _ = _; congr 1; omega
  apply ladder_words
  · rw [e, e2]
    show keyExpansion key 8 (8 * m + 8) = xorCol (keyExpansion key 8 (8 * m)) (xorCol (rotWord (subWord (RK (keyExpansion key 8) (2 * m + 1) 3))) (rconWord rc))
    rw [kx0 _ _ _ (by omega) (by omega) (by omega), show (8 * m + 8) / 8 = m + 1 by omega, ← h, e1]
    rfl
  · rw [e, e2, e2]
    show keyExpansion key 8 (8 * m + 9) = xorCol (keyExpansion key 8 (8 * m + 1)) (keyExpansion key 8 (8 * m + 8))
    rw [kxn _ _ (8 * m + 9) (by omega) (by omega) (by omega) (by omega)]; rfl
  · rw [e, e2, e2]
    show keyExpansion key 8 (8 * m + 10) = xorCol (keyExpansion key 8 (8 * m + 2)) (keyExpansion key 8 (8 * m + 9))
    rw [kxn _ _ (8 * m + 10) (by omega) (by omega) (by omega) (by omega)]; rfl
  · rw [e, e2, e2]
    show keyExpansion key 8 (8 * m + 11) = xorCol (keyExpansion key 8 (8 * m + 3)) (keyExpansion key 8 (8 * m + 10))
    rw [kxn _ _ (8 * m + 11) (by omega) (by omega) (by omega) (by omega)]; rfl
  · intro c; rfl

theorem assist256b_eq (key : Bytes) (m : Nat) :
    assist256b (RK (keyExpansion key 8) (2 * m + 2)) (RK (keyExpansion key 8) (2 * m + 1)) = RK (keyExpansion key 8) (2 * m + 3) := by
  unfold assist256b
  have e1 : ∀ j, RK (keyExpansion key 8) (2 * m + 1) j = keyExpansion key 8 (8 * m + 4 + j.val) := by
    intro j; show keyExpansion key 8 _ = _; congr 1; omega
  have e2 : ∀ j, RK (keyExpansion key 8) (2 * m + 2) j = keyExpansion key 8 (8 * m + 8 + j.val) := by
    intro j; show keyExpansion key 8 _ = _; congr 1; omega
  have e3 : ∀ j, RK (keyExpansion key 8) (2 * m + 3) j = keyExpansion key 8 (8 * m + 12 + j.val) := by
    intro j; show keyExpansion key 8 _ = _; congr 1; omega
  apply ladder_words
  · rw [e1, e3]
    show keyExpansion key 8 (8 * m + 12) = xorCol (keyExpansion key 8 (8 * m + 4)) (subWord (RK (keyExpansion key 8) (2 * m + 2) 3))
    rw [kx4 _ _ _ (by omega) (by omega) (by omega), e2]
    rfl
  · rw [e1, e3, e3]
    show keyExpansion key 8 (8 * m + 13) = xorCol (keyExpansion key 8 (8 * m + 5)) (keyExpansion key 8 (8 * m + 12))
    rw [kxn _ _ (8 * m + 13) (by omega) (by omega) (by omega) (by omega)]; rfl
  · rw [e1, e3, e3]
    show keyExpansion key 8 (8 * m + 14) = xorCol (keyExpansion key 8 (8 * m + 6)) (keyExpansion key 8 (8 * m + 13))
    rw [kxn _ _ (8 * m + 14) (by omega) (by omega) (by omega) (by omega)]; rfl
  · rw [e1, e3, e3]
    show keyExpansion key 8 (8 * m + 15) = xorCol (keyExpansion key 8 (8 * m + 7)) (keyExpansion key 8 (8 * m + 14))
    rw [kxn _ _ (8 * m + 15) (by omega) (by omega) (by omega) (by omega)]; rfl
  · intro c; rfl

theorem sched256_eq (key : Bytes) (rcs : List Byte) (rc : Byte) (m : Nat)
    (h : ∀ j, j < (rc :: rcs).length → rconWord ((rc :: rcs).getD j 0#8) = rcon (m + j + 1)) :
    sched256 (rc :: rcs) (RK (keyExpansion key 8) (2 * m)) (RK (keyExpansion key 8) (2 * m + 1)) =
      (List.range' (2 * m + 2) (2 * rcs.length + 1)).map (RK (keyExpansion key 8)) := by
  induction rcs generalizing rc m with
  | nil =>
    simp only [sched256]
    rw [assist256a_eq key m rc (by simpa using h 0 (by simp))]
    rfl
  | cons rc' rcs ih =>
    simp only [sched256]
    rw [assist256a_eq key m rc (by simpa using h 0 (by simp)), assist256b_eq, List.length_cons,
      show 2 * (rcs.length + 1) + 1 = 2 * rcs.length + 1 + 1 + 1 by omega]
    rw [List.range'_succ, List.map_cons, List.range'_succ, List.map_cons]
    congr 2
    rw [show 2 * m + 2 + 1 + 1 = 2 * (m + 1) + 2 by omega, ← ih rc' (m + 1)]
    · rfl
    · intro j hj
      have := h (j + 1) (by simpa using hj)
      rw [show m + 1 + j + 1 = m + (j + 1) + 1 by omega]
      simpa using this

theorem keySchedule256_eq (key : Bytes) : keySchedule256 key = (List.range' 0 15).map (RK (keyExpansion key 8)) := by
  have h0 : loadu key 0 = RK (keyExpansion key 8) (2 * 0) := by
    funext c r
    show _ = keyExpansion key 8 (4 * 0 + c.val) r
    rw [kx_init _ _ _ (by omega), loadu]
    congr 1; omega
  have h1 : loadu key 16 = RK (keyExpansion key 8) (2 * 0 + 1) := by
    funext c r
    show _ = keyExpansion key 8 (4 * 1 + c.val) r
    rw [kx_init _ _ _ (by omega), loadu]
    congr 1; omega
  unfold keySchedule256
  simp only
  rw [h0, h1, sched256_eq]
  · rfl
  · have : ∀ j : Fin 7, ([0x01#8, 0x02#8, 0x04#8, 0x08#8, 0x10#8, 0x20#8, 0x40#8] : List Byte).getD j.val 0#8 =
      Spec.AES.xpow (0 + j.val + 1 - 1) 1#8 := by decide
    intro j hj
    exact rcon_ok _ _ (this ⟨j, hj⟩)

theorem st_xor_RK (m : M128) (w : Nat → Col) (i : Nat) : st (xor m (RK w i)) = Spec.AES.addRoundKey w i (st m) := rfl

theorem st_aesenc (m : M128) (w : Nat → Col) (i : Nat) : st (aesenc m (RK w i)) =
    Spec.AES.addRoundKey w i (Spec.AES.mixColumns (Spec.AES.shiftRows (Spec.AES.subBytes (st m)))) := rfl

theorem st_aesdec (m : M128) (w : Nat → Col) (i : Nat) : st (aesdec m (aesimc (RK w i))) =
    Spec.AES.invMixColumns (Spec.AES.addRoundKey w i (Spec.AES.invSubBytes (Spec.AES.invShiftRows (st m)))) := by
  funext r c
  exact (congrFun (Spec.AES.invMixCol_xor (fun j => Spec.AES.invSubBytes (Spec.AES.invShiftRows (st m)) j c) (w (4 * i + c.val))) r).symm

theorem st_loadu (b : Bytes) : st (loadu b 0) = Spec.AES.toState b := by
  funext r c
  simp only [st, loadu, Spec.AES.toState]
  congr 1; omega

theorem storeu_eq (m : M128) : storeu m = Spec.AES.ofState (st m) := rfl

theorem st_fold (w : Nat → Col) (s0 : State) (count i : Nat) (m : M128) (hm : st m = Spec.AES.rounds w i s0) :
    st (((List.range' (i + 1) count).map (RK w)).foldl aesenc m) = Spec.AES.rounds w (i + count) s0 := by
  induction count generalizing i m with
  | zero => exact hm
  | succ n ih =>
    rw [List.range'_succ, List.map_cons, List.foldl_cons, ih (i + 1), show i + 1 + n = i + (n + 1) by omega]
    rw [st_aesenc, hm, Spec.AES.rounds]

theorem st_foldDec (w : Nat → Col) (count : Nat) (m : M128) :
    st (((List.range' 1 count).reverse.map fun i => aesimc (RK w i)).foldl aesdec m) = Spec.AES.invRounds w count (st m) := by
  induction count generalizing m with
  | zero => rfl
  | succ n ih =>
    rw [List.range'_concat, List.reverse_append, List.map_append, List.foldl_append, ih]
    simp only [List.reverse_cons, List.reverse_nil, List.nil_append, List.map_cons, List.map_nil, List.foldl_cons, List.foldl_nil]
    rw [st_aesdec, Spec.AES.invRounds, show 1 + 1 * n = n + 1 by omega]

/-- A key vector holding the whole schedule. -/
def Sched (a : AES) (w : Nat → Col) : Prop :=
  0 < a.nr ∧ a.encKs = (List.range' 0 (a.nr + 1)).map (RK w) ∧ a.decKs = genDecKey a.encKs a.nr

theorem getLastD_append (l : List M128) (a d : M128) : (l ++ [a]).getLastD d = a := by
  simp

theorem cryptBlock_eq {a : AES} {w : Nat → Col} (h : Sched a w) (b : Bytes) :
    cryptBlock a b = Spec.AES.ofState (Spec.AES.cipher w a.nr (Spec.AES.toState b)) := by
  obtain ⟨hn, he, _⟩ := h
  obtain ⟨n, hn⟩ : ∃ n, a.nr = n + 1 := ⟨a.nr - 1, by omega⟩
  unfold cryptBlock
  simp only
  rw [storeu_eq, he, hn]
  congr 1
  have hl : ((List.range' 0 (n + 1 + 1)).map (RK w)).getLastD zero = RK w (n + 1) := by
    rw [List.range'_concat, List.map_append]
    simp
  rw [hl]
  have hd : (((List.range' 0 (n + 1 + 1)).map (RK w)).drop 1).take (n + 1 - 1) = (List.range' 1 n).map (RK w) := by
    rw [List.range'_succ, List.map_cons, List.drop_succ_cons, List.drop_zero, List.range'_concat, List.map_append,
      List.take_left' (by simp)]
  rw [hd]
  have h0 : ((List.range' 0 (n + 1 + 1)).map (RK w)).getD 0 zero = RK w 0 := rfl
  rw [h0]
  have := st_fold w (Spec.AES.addRoundKey w 0 (Spec.AES.toState b)) n 0 (xor (loadu b 0) (RK w 0)) (by
    rw [st_xor_RK, st_loadu]; rfl)
  rw [Nat.zero_add, Nat.zero_add] at this
  show Spec.AES.addRoundKey w (n + 1) (Spec.AES.shiftRows (Spec.AES.subBytes (st _))) = _
  rw [this]
  rfl

theorem decryptBlock_eq {a : AES} {w : Nat → Col} (h : Sched a w) (b : Bytes) :
    decryptBlock a b = Spec.AES.ofState (Spec.AES.invCipher w a.nr (Spec.AES.toState b)) := by
  obtain ⟨hn, he, hd⟩ := h
  obtain ⟨n, hn⟩ : ∃ n, a.nr = n + 1 := ⟨a.nr - 1, by omega⟩
  have hl : ((List.range' 0 (n + 1 + 1)).map (RK w)).getLastD zero = RK w (n + 1) := by
    rw [List.range'_concat, List.map_append]
    simp
  have hmid : ((((List.range' 0 (n + 1 + 1)).map (RK w)).reverse.drop 1).take (n + 1 - 1)).map aesimc =
      (List.range' 1 n).reverse.map fun i => aesimc (RK w i) := by
    rw [List.range'_concat, List.map_append, List.reverse_append, List.range'_succ]
    simp [List.take_left', Function.comp_def]
  unfold decryptBlock
  simp only
  rw [storeu_eq, hd, he, hn, genDecKey, hl, hmid]
  congr 1
  have h0 : ((List.range' 0 (n + 1 + 1)).map (RK w)).headD zero = RK w 0 := rfl
  rw [h0, List.headD_cons, List.drop_succ_cons, List.drop_zero, List.take_left' (by simp), ← List.cons_append, getLastD_append]
  show Spec.AES.addRoundKey w 0 (Spec.AES.invSubBytes (Spec.AES.invShiftRows (st _))) = _
  rw [st_foldDec, st_xor_RK, st_loadu]
  rfl

theorem new_spec (beyond key : Bytes) (a : AES) (h : new beyond key = .ok a) :
    Sched a (keyExpansion key (key.length / 4)) ∧ a.nr = key.length / 4 + 6 := by
  unfold new at h
  split at h
  · rename_i hl; injection h with h; subst h; rw [hl]; exact ⟨⟨by simp, keySchedule128_eq key, rfl⟩, rfl⟩
  · rename_i hl; injection h with h; subst h; rw [hl]; exact ⟨⟨by simp, keySchedule192_eq key beyond hl, rfl⟩, rfl⟩
  · rename_i hl; injection h with h; subst h; rw [hl]; exact ⟨⟨by simp, keySchedule256_eq key, rfl⟩, rfl⟩
  · cases h

end Verif.Model.AESNI
