import Verif.Model.AES
import Verif.Proof.GF

/-! Helper lemmas: aes_generic.rs refines FIPS-197 -/

namespace Verif.Model.AES
open Spec.AES (Col State gmul sbox invSbox mixCol invMixCol xorCol)

set_option maxRecDepth 100000 in
theorem sbox0_tab : sbox0 = (List.range 256).map fun n => Spec.AES.affine (lookup Spec.AES.invTab (BitVec.ofNat 8 n)) := by decide +kernel
set_option maxRecDepth 100000 in
theorem sbox1_tab : sbox1 = (List.range 256).map fun n => lookup Spec.AES.invTab (Spec.AES.invAffine (BitVec.ofNat 8 n)) := by decide +kernel

theorem sbox0_eq (x : Byte) : lookup sbox0 x = sbox x := by
  rw [sbox0_tab, lookup_map (fun x => Spec.AES.affine (lookup Spec.AES.invTab x)), sbox, Spec.AES.ginv_eq]
theorem sbox1_eq (x : Byte) : lookup sbox1 x = invSbox x := by
  rw [sbox1_tab, lookup_map (fun x => lookup Spec.AES.invTab (Spec.AES.invAffine x)), invSbox, Spec.AES.ginv_eq]

theorem lookup_map' {w : Nat} (T : List Byte) (hT : T.length = 256) (f : Byte → BitVec w) (x : Byte) :
    lookup (T.map f) x = f (lookup T x) := by
  have hx : x.toNat < 256 := x.isLt
  simp [lookup, List.getD, hT, hx]

section tables
set_option maxRecDepth 100000
theorem te0_tab : te0 = sbox0.map fun s => ofBe32 (gmul 2 s) s s (gmul 3 s) := by decide +kernel
theorem te1_tab : te1 = sbox0.map fun s => ofBe32 (gmul 3 s) (gmul 2 s) s s := by decide +kernel
theorem te2_tab : te2 = sbox0.map fun s => ofBe32 s (gmul 3 s) (gmul 2 s) s := by decide +kernel
theorem te3_tab : te3 = sbox0.map fun s => ofBe32 s s (gmul 3 s) (gmul 2 s) := by decide +kernel
theorem td0_tab : td0 = sbox1.map fun s => ofBe32 (gmul 14 s) (gmul 9 s) (gmul 13 s) (gmul 11 s) := by decide +kernel
theorem td1_tab : td1 = sbox1.map fun s => ofBe32 (gmul 11 s) (gmul 14 s) (gmul 9 s) (gmul 13 s) := by decide +kernel
theorem td2_tab : td2 = sbox1.map fun s => ofBe32 (gmul 13 s) (gmul 11 s) (gmul 14 s) (gmul 9 s) := by decide +kernel
theorem td3_tab : td3 = sbox1.map fun s => ofBe32 (gmul 9 s) (gmul 13 s) (gmul 11 s) (gmul 14 s) := by decide +kernel
theorem len0 : sbox0.length = 256 := by decide +kernel
theorem len1 : sbox1.length = 256 := by decide +kernel
end tables

theorem te0_eq (x : Byte) : lookup te0 x = ofBe32 (gmul 2 (sbox x)) (sbox x) (sbox x) (gmul 3 (sbox x)) := by
  rw [te0_tab, lookup_map' _ len0, sbox0_eq]
theorem te1_eq (x : Byte) : lookup te1 x = ofBe32 (gmul 3 (sbox x)) (gmul 2 (sbox x)) (sbox x) (sbox x) := by
  rw [te1_tab, lookup_map' _ len0, sbox0_eq]
theorem te2_eq (x : Byte) : lookup te2 x = ofBe32 (sbox x) (gmul 3 (sbox x)) (gmul 2 (sbox x)) (sbox x) := by
  rw [te2_tab, lookup_map' _ len0, sbox0_eq]
theorem te3_eq (x : Byte) : lookup te3 x = ofBe32 (sbox x) (sbox x) (gmul 3 (sbox x)) (gmul 2 (sbox x)) := by
  rw [te3_tab, lookup_map' _ len0, sbox0_eq]
theorem td0_eq (x : Byte) : lookup td0 x = ofBe32 (gmul 14 (invSbox x)) (gmul 9 (invSbox x)) (gmul 13 (invSbox x)) (gmul 11 (invSbox x)) := by
  rw [td0_tab, lookup_map' _ len1, sbox1_eq]
theorem td1_eq (x : Byte) : lookup td1 x = ofBe32 (gmul 11 (invSbox x)) (gmul 14 (invSbox x)) (gmul 9 (invSbox x)) (gmul 13 (invSbox x)) := by
  rw [td1_tab, lookup_map' _ len1, sbox1_eq]
theorem td2_eq (x : Byte) : lookup td2 x = ofBe32 (gmul 13 (invSbox x)) (gmul 11 (invSbox x)) (gmul 14 (invSbox x)) (gmul 9 (invSbox x)) := by
  rw [td2_tab, lookup_map' _ len1, sbox1_eq]
theorem td3_eq (x : Byte) : lookup td3 x = ofBe32 (gmul 9 (invSbox x)) (gmul 13 (invSbox x)) (gmul 11 (invSbox x)) (gmul 14 (invSbox x)) := by
  rw [td3_tab, lookup_map' _ len1, sbox1_eq]

/-- The column stored in a word. -/
def col (w : BitVec 32) : Col := fun r => byteBe w r.val

/-- Four bytes as a column. -/
def col4 (a b c d : Byte) : Col := fun r => match r with | 0 => a | 1 => b | 2 => c | 3 => d

theorem col_ofBe32 (a b c d : Byte) : col (ofBe32 a b c d) = col4 a b c d := by
  funext r
  match r with
  | 0 => exact byteBe_ofBe32_0 ..
  | 1 => exact byteBe_ofBe32_1 ..
  | 2 => exact byteBe_ofBe32_2 ..
  | 3 => exact byteBe_ofBe32_3 ..

theorem col_xor (x y : BitVec 32) : col (x ^^^ y) = xorCol (col x) (col y) := by
  funext r; exact byteBe_xor ..

theorem col_inj {x y : BitVec 32} (h : col x = col y) : x = y :=
  word_ext (congrFun h 0) (congrFun h 1) (congrFun h 2) (congrFun h 3)

theorem col_teWord (k a b c d : BitVec 32) : col (teWord k a b c d) =
    xorCol (mixCol (col4 (sbox (byteBe a 0)) (sbox (byteBe b 1)) (sbox (byteBe c 2)) (sbox (byteBe d 3)))) (col k) := by
  unfold teWord
  simp only [col_xor, te0_eq, te1_eq, te2_eq, te3_eq, col_ofBe32]
  funext r
  match r with
  | 0 => simp [xorCol, mixCol, col4]; ac_rfl
  | 1 => simp [xorCol, mixCol, col4]; ac_rfl
  | 2 => simp [xorCol, mixCol, col4]; ac_rfl
  | 3 => simp [xorCol, mixCol, col4]; ac_rfl

theorem col_tdLine (k a b c d : BitVec 32) : col (tdLine k a b c d) =
    xorCol (invMixCol (col4 (invSbox (byteBe a 0)) (invSbox (byteBe b 1)) (invSbox (byteBe c 2)) (invSbox (byteBe d 3)))) (col k) := by
  unfold tdLine
  simp only [col_xor, td0_eq, td1_eq, td2_eq, td3_eq, col_ofBe32]
  funext r
  match r with
  | 0 => simp [xorCol, invMixCol, col4]; ac_rfl
  | 1 => simp [xorCol, invMixCol, col4]; ac_rfl
  | 2 => simp [xorCol, invMixCol, col4]; ac_rfl
  | 3 => simp [xorCol, invMixCol, col4]; ac_rfl

theorem col_tdWord (x : BitVec 32) : col (tdWord x) = invMixCol (col x) := by
  unfold tdWord
  simp only [col_xor, td0_eq, td1_eq, td2_eq, td3_eq, col_ofBe32, sbox0_eq, Spec.AES.invSbox_sbox]
  funext r
  match r with
  | 0 => simp [xorCol, invMixCol, col4, col]; rfl
  | 1 => simp [xorCol, invMixCol, col4, col]; ac_rfl
  | 2 => simp [xorCol, invMixCol, col4, col]; ac_rfl
  | 3 => simp [xorCol, invMixCol, col4, col]; ac_rfl

theorem col_lastWord (k a b c d : BitVec 32) : col (lastWord k a b c d) =
    xorCol (col4 (sbox (byteBe a 0)) (sbox (byteBe b 1)) (sbox (byteBe c 2)) (sbox (byteBe d 3))) (col k) := by
  unfold lastWord; simp only [col_xor, col_ofBe32, sbox0_eq]

theorem col_dlastWord (k a b c d : BitVec 32) : col (dlastWord k a b c d) =
    xorCol (col4 (invSbox (byteBe a 0)) (invSbox (byteBe b 1)) (invSbox (byteBe c 2)) (invSbox (byteBe d 3))) (col k) := by
  unfold dlastWord; simp only [col_xor, col_ofBe32, sbox1_eq]

/-- The state held in four words. -/
def stateOf (q : Quad) : State := fun r c => match c with | 0 => col q.s0 r | 1 => col q.s1 r | 2 => col q.s2 r | 3 => col q.s3 r

/-- The words of a key vector are the given schedule. -/
def Agrees (ks : List (BitVec 32)) (w : Nat → Col) (n : Nat) : Prop := ∀ i, i < n → col (ks.getD i 0#32) = w i

theorem stateOf_addKey (s : Quad) {ks : List (BitVec 32)} {w : Nat → Col} {n : Nat} (h : Agrees ks w n) (hn : 4 ≤ n) :
    stateOf (addKey s (keyQuad ks 0)) = Spec.AES.addRoundKey w 0 (stateOf s) := by
  funext r c
  match c with
  | 0 => simp only [stateOf, addKey, keyQuad, col_xor, Spec.AES.addRoundKey, xorCol]; rw [h 0 (by omega)]; rfl
  | 1 => simp only [stateOf, addKey, keyQuad, col_xor, Spec.AES.addRoundKey, xorCol]; rw [h (0 + 1) (by omega)]; rfl
  | 2 => simp only [stateOf, addKey, keyQuad, col_xor, Spec.AES.addRoundKey, xorCol]; rw [h (0 + 2) (by omega)]; rfl
  | 3 => simp only [stateOf, addKey, keyQuad, col_xor, Spec.AES.addRoundKey, xorCol]; rw [h (0 + 3) (by omega)]; rfl

open Spec.AES in
theorem stateOf_encRound (s : Quad) {ks : List (BitVec 32)} {w : Nat → Col} {n : Nat} (h : Agrees ks w n) (k : Nat) (hk : 4 * k + 4 ≤ n) :
    stateOf (encRound (keyQuad ks (4 * k)) s) = addRoundKey w k (mixColumns (shiftRows (subBytes (stateOf s)))) := by
  have e : ∀ c : Fin 4, (fun i => shiftRows (subBytes (stateOf s)) i c) =
      col4 (sbox (stateOf s 0 c)) (sbox (stateOf s 1 (c + 1))) (sbox (stateOf s 2 (c + 2))) (sbox (stateOf s 3 (c + 3))) := by
    intro c; funext i
    match i with
    | 0 => simp [shiftRows, subBytes, col4]
    | 1 => rfl
    | 2 => rfl
    | 3 => rfl
  funext r c
  rw [addRoundKey, mixColumns, e c]
  match c with
  | 0 => simp only [stateOf, encRound, keyQuad, col_teWord]; rw [h (4 * k) (by omega)]; rfl
  | 1 => simp only [stateOf, encRound, keyQuad, col_teWord]; rw [h (4 * k + 1) (by omega)]; rfl
  | 2 => simp only [stateOf, encRound, keyQuad, col_teWord]; rw [h (4 * k + 2) (by omega)]; rfl
  | 3 => simp only [stateOf, encRound, keyQuad, col_teWord]; rw [h (4 * k + 3) (by omega)]; rfl

open Spec.AES in
theorem stateOf_encLast (s : Quad) {ks : List (BitVec 32)} {w : Nat → Col} {n : Nat} (h : Agrees ks w n) (k : Nat) (hk : 4 * k + 4 ≤ n) :
    stateOf (encLast (keyQuad ks (4 * k)) s) = addRoundKey w k (shiftRows (subBytes (stateOf s))) := by
  funext r c
  rw [addRoundKey]
  match c with
  | 0 => simp only [stateOf, encLast, keyQuad, col_lastWord, xorCol]; rw [h (4 * k) (by omega)]; match r with | 0 => rfl | 1 => rfl | 2 => rfl | 3 => rfl
  | 1 => simp only [stateOf, encLast, keyQuad, col_lastWord, xorCol]; rw [h (4 * k + 1) (by omega)]; match r with | 0 => rfl | 1 => rfl | 2 => rfl | 3 => rfl
  | 2 => simp only [stateOf, encLast, keyQuad, col_lastWord, xorCol]; rw [h (4 * k + 2) (by omega)]; match r with | 0 => rfl | 1 => rfl | 2 => rfl | 3 => rfl
  | 3 => simp only [stateOf, encLast, keyQuad, col_lastWord, xorCol]; rw [h (4 * k + 3) (by omega)]; match r with | 0 => rfl | 1 => rfl | 2 => rfl | 3 => rfl

theorem roundLoop_fst (round : Quad → Quad → Quad) (ks : List (BitVec 32)) (count k : Nat) (s : Quad) :
    (roundLoop round ks count k s).1 = k + 4 * count := by
  induction count generalizing k s with
  | zero => rfl
  | succ n ih => rw [roundLoop, ih]; omega

theorem stateOf_encLoop {ks : List (BitVec 32)} {w : Nat → Col} {n : Nat} (h : Agrees ks w n) (s0 : State) (count i : Nat)
    (hn : 4 * (i + count) + 4 ≤ n) (s : Quad) (hs : stateOf s = Spec.AES.rounds w i s0) :
    stateOf (roundLoop encRound ks count (4 * (i + 1)) s).2 = Spec.AES.rounds w (i + count) s0 := by
  induction count generalizing i s with
  | zero => exact hs
  | succ c ih =>
    rw [roundLoop, show 4 * (i + 1) + 4 = 4 * (i + 1 + 1) by omega, ih (i + 1) (by omega)]
    · congr 1; omega
    · rw [stateOf_encRound s h (i + 1) (by omega), hs, Spec.AES.rounds]

/-- The decryption keys: first and last round key unchanged, the others through InvMixColumns, in reverse order. -/
def DAgrees (ds : List (BitVec 32)) (w : Nat → Col) (nr : Nat) : Prop :=
  ∀ i j, i ≤ nr → j < 4 → col (ds.getD (4 * i + j) 0#32) =
    if 0 < i ∧ i < nr then invMixCol (w (4 * (nr - i) + j)) else w (4 * (nr - i) + j)

open Spec.AES in
theorem stateOf_decRound (s : Quad) {ds : List (BitVec 32)} {w : Nat → Col} {nr : Nat} (h : DAgrees ds w nr) (k : Nat) (h0 : 0 < k) (hk : k < nr) :
    stateOf (decRound (keyQuad ds (4 * k)) s) = invMixColumns (addRoundKey w (nr - k) (invSubBytes (invShiftRows (stateOf s)))) := by
  have e : ∀ c : Fin 4, (fun i => addRoundKey w (nr - k) (invSubBytes (invShiftRows (stateOf s))) i c) =
      xorCol (col4 (invSbox (stateOf s 0 c)) (invSbox (stateOf s 1 (c - 1))) (invSbox (stateOf s 2 (c - 2))) (invSbox (stateOf s 3 (c - 3))))
        (w (4 * (nr - k) + c.val)) := by
    intro c; funext i
    match i with
    | 0 =>
      have e0 : c - 0 = c := by revert c; decide
      simp only [addRoundKey, invShiftRows, invSubBytes, col4, xorCol, e0]
    | 1 => rfl
    | 2 => rfl
    | 3 => rfl
  have hh : ∀ j, j < 4 → col (ds.getD (4 * k + j) 0#32) = invMixCol (w (4 * (nr - k) + j)) := by
    intro j hj; rw [h k j (by omega) hj, if_pos ⟨h0, hk⟩]
  funext r c
  rw [invMixColumns, e c, invMixCol_xor]
  match c with
  | 0 => simp only [stateOf, decRound, keyQuad, col_tdLine]; rw [← Nat.add_zero (4 * k), hh 0 (by omega)]; rfl
  | 1 => simp only [stateOf, decRound, keyQuad, col_tdLine]; rw [hh 1 (by omega)]; rfl
  | 2 => simp only [stateOf, decRound, keyQuad, col_tdLine]; rw [hh 2 (by omega)]; rfl
  | 3 => simp only [stateOf, decRound, keyQuad, col_tdLine]; rw [hh 3 (by omega)]; rfl

open Spec.AES in
theorem stateOf_decLast (s : Quad) {ds : List (BitVec 32)} {w : Nat → Col} {nr : Nat} (h : DAgrees ds w nr) :
    stateOf (decLast (keyQuad ds (4 * nr)) s) = addRoundKey w 0 (invSubBytes (invShiftRows (stateOf s))) := by
  have hh : ∀ j, j < 4 → col (ds.getD (4 * nr + j) 0#32) = w (4 * 0 + j) := by
    intro j hj; rw [h nr j (by omega) hj, if_neg (by omega), Nat.sub_self]
  funext r c
  rw [addRoundKey]
  match c with
  | 0 => simp only [stateOf, decLast, keyQuad, col_dlastWord, xorCol]; rw [← Nat.add_zero (4 * nr), hh 0 (by omega)]; match r with | 0 => rfl | 1 => rfl | 2 => rfl | 3 => rfl
  | 1 => simp only [stateOf, decLast, keyQuad, col_dlastWord, xorCol]; rw [hh 1 (by omega)]; match r with | 0 => rfl | 1 => rfl | 2 => rfl | 3 => rfl
  | 2 => simp only [stateOf, decLast, keyQuad, col_dlastWord, xorCol]; rw [hh 2 (by omega)]; match r with | 0 => rfl | 1 => rfl | 2 => rfl | 3 => rfl
  | 3 => simp only [stateOf, decLast, keyQuad, col_dlastWord, xorCol]; rw [hh 3 (by omega)]; match r with | 0 => rfl | 1 => rfl | 2 => rfl | 3 => rfl

open Spec.AES in
theorem stateOf_decAdd (s : Quad) {ds : List (BitVec 32)} {w : Nat → Col} {nr : Nat} (h : DAgrees ds w nr) :
    stateOf (addKey s (keyQuad ds 0)) = addRoundKey w nr (stateOf s) := by
  have hh : ∀ j, j < 4 → col (ds.getD (0 + j) 0#32) = w (4 * nr + j) := by
    intro j hj
    have := h 0 j (by omega) hj
    rw [if_neg (by omega)] at this
    exact this
  funext r c
  match c with
  | 0 => simp only [stateOf, addKey, keyQuad, col_xor, addRoundKey, xorCol]; rw [hh 0 (by omega)]; rfl
  | 1 => simp only [stateOf, addKey, keyQuad, col_xor, addRoundKey, xorCol]; rw [hh 1 (by omega)]; rfl
  | 2 => simp only [stateOf, addKey, keyQuad, col_xor, addRoundKey, xorCol]; rw [hh 2 (by omega)]; rfl
  | 3 => simp only [stateOf, addKey, keyQuad, col_xor, addRoundKey, xorCol]; rw [hh 3 (by omega)]; rfl

theorem stateOf_decLoop {ds : List (BitVec 32)} {w : Nat → Col} {nr : Nat} (h : DAgrees ds w nr) (count i : Nat) (h0 : 0 < i)
    (hn : i + count = nr) (s : Quad) :
    stateOf (roundLoop decRound ds count (4 * i) s).2 = Spec.AES.invRounds w count (stateOf s) := by
  induction count generalizing i s with
  | zero => rfl
  | succ c ih =>
    rw [roundLoop, show 4 * i + 4 = 4 * (i + 1) by omega, ih (i + 1) (by omega) (by omega), Spec.AES.invRounds,
      stateOf_decRound s h i h0 (by omega), show nr - i = c + 1 by omega]

theorem beWords_getD (key : Bytes) (i : Nat) (h : 4 * i + 4 ≤ key.length) :
    (beWords key).getD i 0#32 = ofBe32 (key.getD (4 * i) 0#8) (key.getD (4 * i + 1) 0#8) (key.getD (4 * i + 2) 0#8) (key.getD (4 * i + 3) 0#8) := by
  induction i generalizing key with
  | zero =>
    match key, h with
    | a :: b :: c :: d :: rest, _ => rfl
    | [], h | [_], h | [_, _], h | [_, _, _], h => simp at h
  | succ i ih =>
    match key, h with
    | a :: b :: c :: d :: rest, h =>
      simp only [List.length_cons] at h
      have := ih rest (by omega)
      simp only [beWords, List.getD_cons_succ, Nat.mul_add]
      exact this
    | [], h | [_], h | [_, _], h | [_, _, _], h => simp at h

theorem length_beWords (key : Bytes) : (beWords key).length = key.length / 4 := by
  induction key using beWords.induct with
  | case1 a b c d rest ih => simp only [beWords, List.length_cons, ih]; omega
  | case2 l h =>
    match l, h with
    | [], _ | [_], _ | [_, _], _ | [_, _, _], _ => simp [beWords]
    | a :: b :: c :: d :: rest, h => exact absurd rfl (h a b c d rest)

theorem col_beWords (key : Bytes) (i : Nat) (h : 4 * i + 4 ≤ key.length) :
    col ((beWords key).getD i 0#32) = fun r => key.getD (4 * i + r.val) 0#8 := by
  rw [beWords_getD _ _ h, col_ofBe32]
  funext r
  match r with | 0 => rfl | 1 => rfl | 2 => rfl | 3 => rfl

theorem stateOf_load (b : Bytes) (h : b.length = 16) : stateOf (load b) = Spec.AES.toState b := by
  funext r c
  match c with
  | 0 => simp only [stateOf, load, Spec.AES.toState]; rw [col_beWords _ _ (by omega)]; simp
  | 1 => simp only [stateOf, load, Spec.AES.toState]; rw [col_beWords _ _ (by omega)]; show b.getD (4 * 1 + r.val) 0#8 = b.getD (r.val + 4 * 1) 0#8; rw [Nat.add_comm]
  | 2 => simp only [stateOf, load, Spec.AES.toState]; rw [col_beWords _ _ (by omega)]; show b.getD (4 * 2 + r.val) 0#8 = b.getD (r.val + 4 * 2) 0#8; rw [Nat.add_comm]
  | 3 => simp only [stateOf, load, Spec.AES.toState]; rw [col_beWords _ _ (by omega)]; show b.getD (4 * 3 + r.val) 0#8 = b.getD (r.val + 4 * 3) 0#8; rw [Nat.add_comm]

theorem store_eq (q : Quad) : store q = Spec.AES.ofState (stateOf q) := rfl

theorem cryptBlock_eq {a : AES} {w : Nat → Col} (h : Agrees a.encKs w (4 * (a.nr + 1))) (hnr : 0 < a.nr) {b : Bytes} (hb : b.length = 16) :
    cryptBlock a b = Spec.AES.ofState (Spec.AES.cipher w a.nr (Spec.AES.toState b)) := by
  show store (encLast (keyQuad a.encKs (roundLoop encRound a.encKs (a.nr - 1) 4 (addKey (load b) (keyQuad a.encKs 0))).1)
    (roundLoop encRound a.encKs (a.nr - 1) 4 (addKey (load b) (keyQuad a.encKs 0))).2) = _
  rw [store_eq, roundLoop_fst]
  congr 1
  rw [show 4 + 4 * (a.nr - 1) = 4 * a.nr by omega, stateOf_encLast _ h _ (by omega),
    stateOf_encLoop h (Spec.AES.addRoundKey w 0 (Spec.AES.toState b)) (a.nr - 1) 0 (by omega) _
      (by rw [stateOf_addKey _ h (by omega), stateOf_load b hb]; rfl), Nat.zero_add, Spec.AES.cipher]

theorem decryptBlock_eq {a : AES} {w : Nat → Col} (h : DAgrees a.decKs w a.nr) (hnr : 0 < a.nr) {b : Bytes} (hb : b.length = 16) :
    decryptBlock a b = Spec.AES.ofState (Spec.AES.invCipher w a.nr (Spec.AES.toState b)) := by
  show store (decLast (keyQuad a.decKs (roundLoop decRound a.decKs (a.nr - 1) 4 (addKey (load b) (keyQuad a.decKs 0))).1)
    (roundLoop decRound a.decKs (a.nr - 1) 4 (addKey (load b) (keyQuad a.decKs 0))).2) = _
  rw [store_eq, roundLoop_fst]
  congr 1
  rw [show 4 + 4 * (a.nr - 1) = 4 * a.nr by omega, stateOf_decLast _ h]
  have := stateOf_decLoop h (a.nr - 1) 1 (by omega) (by omega) (addKey (load b) (keyQuad a.decKs 0))
  rw [show (4 * 1) = 4 from rfl] at this
  rw [this, stateOf_decAdd _ h, stateOf_load b hb, Spec.AES.invCipher]

theorem col_subWord (x : BitVec 32) : col (subWord x) = Spec.AES.subWord (col x) := by
  unfold subWord
  simp only [col_ofBe32, sbox0_eq]
  funext r
  match r with | 0 => rfl | 1 => rfl | 2 => rfl | 3 => rfl

theorem getLsbD_rotl8 (x : BitVec 32) (j : Nat) (hj : j < 32) :
    (x.rotateLeft 8).getLsbD j = if j < 8 then x.getLsbD (24 + j) else x.getLsbD (j - 8) := by
  rw [BitVec.getLsbD_rotateLeft]
  by_cases h : j < 8
  · rw [if_pos h, show (decide (j < 8 % 32)) = true by simpa using h, cond_true]
  · rw [if_neg h, show (decide (j < 8 % 32)) = false by simpa using h, cond_false, decide_eq_true hj, Bool.true_and]

theorem col_rot (x : BitVec 32) : col (x.rotateLeft 8) = Spec.AES.rotWord (col x) := by
  funext r
  apply BitVec.eq_of_getLsbD_eq
  intro i hi
  match r with
  | 0 =>
    show (byteBe _ 0).getLsbD i = (byteBe x 1).getLsbD i
    rw [getLsbD_byteBe _ _ _ hi, getLsbD_byteBe _ _ _ hi, getLsbD_rotl8 _ _ (by omega), if_neg (by omega)]; congr 1; omega
  | 1 =>
    show (byteBe _ 1).getLsbD i = (byteBe x 2).getLsbD i
    rw [getLsbD_byteBe _ _ _ hi, getLsbD_byteBe _ _ _ hi, getLsbD_rotl8 _ _ (by omega), if_neg (by omega)]; congr 1; omega
  | 2 =>
    show (byteBe _ 2).getLsbD i = (byteBe x 3).getLsbD i
    rw [getLsbD_byteBe _ _ _ hi, getLsbD_byteBe _ _ _ hi, getLsbD_rotl8 _ _ (by omega), if_neg (by omega)]; congr 1; omega
  | 3 =>
    show (byteBe _ 3).getLsbD i = (byteBe x 0).getLsbD i
    rw [getLsbD_byteBe _ _ _ hi, getLsbD_byteBe _ _ _ hi, getLsbD_rotl8 _ _ (by omega), if_pos (by omega)]; congr 1; omega

theorem powx_eq (n : Nat) (h : n < 10) : col (powx.getD n 0#32) = Spec.AES.rcon (n + 1) := by
  have h2 : ∀ n : Fin 10, ∀ r : Fin 4, col (powx.getD n.val 0#32) r = Spec.AES.rcon (n.val + 1) r := by decide +kernel
  funext r
  exact h2 ⟨n, h⟩ r

theorem col_schedT (nk i : Nat) (t : BitVec 32) (hp : i / nk - 1 < 10) (hi : nk ≤ i) (hnk : 0 < nk) : col (schedT nk i t) =
    if i % nk = 0 then xorCol (Spec.AES.subWord (Spec.AES.rotWord (col t))) (Spec.AES.rcon (i / nk))
      else if nk > 6 ∧ i % nk = 4 then Spec.AES.subWord (col t) else col t := by
  have : 0 < i / nk := Nat.div_pos hi hnk
  unfold schedT
  split
  · rw [col_xor, col_subWord, col_rot, powx_eq _ hp]; congr 2; omega
  · split
    · rw [col_subWord]
    · rfl

theorem schedLoop_inv (key : Bytes) (nk : Nat) (hnk : 0 < nk) (bound : Nat) (hb : ∀ i, i < bound → i / nk - 1 < 10) (count i : Nat)
    (enc : List (BitVec 32)) (hi : nk ≤ i) (hc : i + count ≤ bound) (hl : enc.length = i) (h : Agrees enc (Spec.AES.keyExpansion key nk) i) :
    (schedLoop nk count i enc).length = i + count ∧ Agrees (schedLoop nk count i enc) (Spec.AES.keyExpansion key nk) (i + count) := by
  induction count generalizing i enc with
  | zero => exact ⟨hl, h⟩
  | succ c ih =>
    rw [schedLoop, show i + (c + 1) = i + 1 + c by omega]
    refine ih (i + 1) _ (by omega) (by omega) (by simp [hl]) ?_
    intro j hj
    by_cases hji : j < i
    · rw [List.getD_eq_getElem?_getD, List.getElem?_append_left (by omega), ← List.getD_eq_getElem?_getD]; exact h j hji
    · have : j = i := by omega
      subst this
      rw [List.getD_eq_getElem?_getD, List.getElem?_append_right (by omega), hl, Nat.sub_self]
      simp only [List.getElem?_cons_zero, Option.getD_some]
      rw [col_xor, col_schedT _ _ _ (hb j (by omega)) hi hnk, h (j - nk) (by omega), h (j - 1) (by omega)]
      conv_rhs => rw [Spec.AES.keyExpansion, dif_neg (by omega)]

theorem encKs_agrees (key : Bytes) (nk nr : Nat) (hnk : 0 < nk) (hkey : key.length = 4 * nk) (hn : nk ≤ (nr + 1) * 4)
    (hb : ∀ i, i < (nr + 1) * 4 → i / nk - 1 < 10) :
    (keySchedule key nk nr).encKs.length = 4 * (nr + 1) ∧ Agrees (keySchedule key nk nr).encKs (Spec.AES.keyExpansion key nk) (4 * (nr + 1)) := by
  have := schedLoop_inv key nk hnk _ hb ((nr + 1) * 4 - nk) nk (beWords key) (Nat.le_refl _) (by omega) (by rw [length_beWords]; omega) (by
    intro i hi
    rw [col_beWords _ _ (by omega), Spec.AES.keyExpansion, dif_pos (Or.inl hi)])
  rw [show nk + ((nr + 1) * 4 - nk) = 4 * (nr + 1) by omega] at this
  exact this

theorem decKs_agrees (key : Bytes) (nk nr : Nat) (hnk : 0 < nk) (hkey : key.length = 4 * nk) (hn : nk ≤ (nr + 1) * 4)
    (hb : ∀ i, i < (nr + 1) * 4 → i / nk - 1 < 10) :
    DAgrees (keySchedule key nk nr).decKs (Spec.AES.keyExpansion key nk) nr := by
  have h := (encKs_agrees key nk nr hnk hkey hn hb).2
  intro i j hi hj
  have hlt : 4 * i + j < (nr + 1) * 4 := by omega
  simp only [keySchedule, List.getD_eq_getElem?_getD, List.getElem?_map]
  rw [List.getElem?_eq_getElem (by simpa using hlt)]
  simp only [List.getElem_range, Option.map_some, Option.getD_some, decEntry]
  rw [show (4 * i + j) / 4 * 4 = 4 * i by omega, show (4 * i + j) % 4 = j by omega, show (nr + 1) * 4 - 4 * i - 4 + j = 4 * (nr - i) + j by omega]
  have hw := h (4 * (nr - i) + j) (by omega)
  simp only [keySchedule] at hw
  by_cases hc : 0 < i ∧ i < nr
  · rw [if_pos (by omega), if_pos hc, col_tdWord, hw]
  · rw [if_neg (by omega), if_neg hc, hw]

/-- Everything about a key accepted by `AES::new`. -/
theorem new_spec (key : Bytes) (a : AES) (h : AES.new key = .ok a) :
    (key.length = 16 ∨ key.length = 24 ∨ key.length = 32) ∧ a.nr = key.length / 4 + 6 ∧
    Agrees a.encKs (Spec.AES.keyExpansion key (key.length / 4)) (4 * (a.nr + 1)) ∧
    DAgrees a.decKs (Spec.AES.keyExpansion key (key.length / 4)) a.nr := by
  have go : ∀ nk nr, key.length = 4 * nk → nr = nk + 6 → 0 < nk → nk ≤ (nr + 1) * 4 → (∀ i, i < (nr + 1) * 4 → i / nk - 1 < 10) →
      AES.keySchedule key nk nr = a → a.nr = key.length / 4 + 6 ∧
      Agrees a.encKs (Spec.AES.keyExpansion key (key.length / 4)) (4 * (a.nr + 1)) ∧
      DAgrees a.decKs (Spec.AES.keyExpansion key (key.length / 4)) a.nr := by
    intro nk nr h1 h2 h3 h4 h5 h6
    subst h6
    have e : key.length / 4 = nk := by omega
    rw [e]
    exact ⟨h2, (encKs_agrees key nk nr h3 h1 h4 h5).2, decKs_agrees key nk nr h3 h1 h4 h5⟩
  have hb : ∀ nk nr, (nr + 1) * 4 ≤ nk * 11 → 0 < nk → ∀ i, i < (nr + 1) * 4 → i / nk - 1 < 10 := by
    intro nk nr h1 h2 i h3
    have : i / nk < 11 := (Nat.div_lt_iff_lt_mul h2).2 (by rw [Nat.mul_comm]; omega)
    omega
  unfold AES.new AES.nkNr at h
  split at h
  · rename_i nk nr hk
    injection h with h
    split at hk
    · rename_i hl
      injection hk with hk; injection hk with h1 h2; subst h1 h2
      exact ⟨Or.inl hl, go 4 10 hl rfl (by omega) (by omega) (hb _ _ (by omega) (by omega)) h⟩
    · rename_i hl
      injection hk with hk; injection hk with h1 h2; subst h1 h2
      exact ⟨Or.inr (Or.inl hl), go 6 12 hl rfl (by omega) (by omega) (hb _ _ (by omega) (by omega)) h⟩
    · rename_i hl
      injection hk with hk; injection hk with h1 h2; subst h1 h2
      exact ⟨Or.inr (Or.inr hl), go 8 14 hl rfl (by omega) (by omega) (hb _ _ (by omega) (by omega)) h⟩
    · cases hk
  · cases h

end Verif.Model.AES
