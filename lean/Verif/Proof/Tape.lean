import Verif.Model.ECDSA
import Verif.Proof.ECDSA
import Verif.Proof.RSABytes
import Mathlib.Data.Nat.Count
import Mathlib.Data.Int.CardIntervalMod
import Mathlib.Data.Fintype.Pi
import Mathlib.Data.Fintype.BigOperators

/-! Counting the sequences of random words behind a secret, for C93 -/

namespace Verif.Tape
open Model Model.RSA

/-- A random source that hands out the given words, one after the other. -/
def tape : Rng (List (BitVec 32)) where
  word s := (s.headD 0#32, s.tail)
  below _ s := (0, s)
  prime _ s := (none, s)

theorem drawWords_tape : ∀ (ws : List (BitVec 32)), drawWords tape ws.length ws = (ws.flatMap be32, [])
  | [] => rfl
  | w :: ws => by
    rw [List.length_cons, drawWords]
    show (be32 w ++ (drawWords tape ws.length ws).1, (drawWords tape ws.length ws).2) = _
    rw [drawWords_tape ws]; rfl

theorem length_be32 (w : BitVec 32) : (be32 w).length = 4 := rfl

theorem be32_inj {a b : BitVec 32} (h : be32 a = be32 b) : a = b := by
  simp only [be32, List.cons.injEq, and_true] at h
  obtain ⟨h1, h2, h3, h4⟩ := h
  have e1 := congrArg BitVec.toNat h1
  have e2 := congrArg BitVec.toNat h2
  have e3 := congrArg BitVec.toNat h3
  have e4 := congrArg BitVec.toNat h4
  simp only [BitVec.extractLsb'_toNat, Nat.shiftRight_eq_div_pow] at e1 e2 e3 e4
  have := a.isLt
  have := b.isLt
  apply BitVec.eq_of_toNat_eq
  omega

theorem length_words (ws : List (BitVec 32)) : (ws.flatMap be32).length = 4 * ws.length := by
  induction ws with
  | nil => rfl
  | cons w ws ih => rw [List.flatMap_cons, List.length_append, ih, length_be32, List.length_cons]; omega

theorem words_inj : ∀ {a b : List (BitVec 32)}, a.length = b.length → a.flatMap be32 = b.flatMap be32 → a = b
  | [], [], _, _ => rfl
  | [], _ :: _, h, _ => by simp at h
  | _ :: _, [], h, _ => by simp at h
  | x :: a, y :: b, h, e => by
    rw [List.flatMap_cons, List.flatMap_cons] at e
    obtain ⟨e1, e2⟩ := List.append_inj e rfl
    rw [be32_inj e1, words_inj (by simpa using h) e2]

/-- The number written by a sequence of words. -/
def num {k : Nat} (ws : Fin k → BitVec 32) : Nat := beNat ((List.ofFn ws).flatMap be32)

theorem num_lt {k : Nat} (ws : Fin k → BitVec 32) : num ws < 256 ^ (4 * k) := by
  have := beNat_lt ((List.ofFn ws).flatMap be32)
  rwa [length_words, List.length_ofFn] at this

theorem num_inj {k : Nat} {a b : Fin k → BitVec 32} (h : num a = num b) : a = b := by
  have := words_inj (by simp) (beNat_inj (by rw [length_words, length_words]; simp) h)
  exact List.ofFn_injective this

/-- There are finitely many words. -/
instance : Fintype (BitVec 32) := Fintype.ofEquiv (Fin (2 ^ 32)) ⟨fun f => ⟨f⟩, fun b => b.toFin, fun _ => rfl, fun _ => rfl⟩

theorem card_bv32 : Fintype.card (BitVec 32) = 2 ^ 32 := by
  rw [← Fintype.card_fin (2 ^ 32)]
  exact Fintype.card_congr ⟨fun b : BitVec 32 => b.toFin, fun f => ⟨f⟩, fun _ => rfl, fun _ => rfl⟩

/-- The sequences of `k` words are the numbers below `256^(4k)`. -/
theorem card_num (k : Nat) (P : Nat → Prop) [DecidablePred P] :
    (Finset.univ.filter fun ws : Fin k → BitVec 32 => P (num ws)).card = Nat.count P (256 ^ (4 * k)) := by
  rw [Nat.count_eq_card_filter_range]
  have hbij : Function.Bijective (fun ws : Fin k → BitVec 32 => (⟨num ws, num_lt ws⟩ : Fin (256 ^ (4 * k)))) := by
    rw [Fintype.bijective_iff_injective_and_card]
    refine ⟨fun a b h => num_inj (by simpa using h), ?_⟩
    rw [Fintype.card_fun, Fintype.card_fin, Fintype.card_fin, card_bv32, pow_mul, show (2 : ℕ) ^ 32 = 256 ^ 4 by norm_num]
  apply Finset.card_bij (fun ws _ => num ws)
  · intro ws h
    rw [Finset.mem_filter] at h ⊢
    exact ⟨Finset.mem_range.2 (num_lt ws), h.2⟩
  · intro a _ b _ h; exact num_inj h
  · intro N h
    rw [Finset.mem_filter, Finset.mem_range] at h
    obtain ⟨ws, hw⟩ := hbij.2 ⟨N, h.1⟩
    have hw : num ws = N := by simpa using hw
    exact ⟨ws, by rw [Finset.mem_filter]; exact ⟨Finset.mem_univ _, hw ▸ h.2⟩, hw⟩

theorem count_div (P : Nat → Prop) [DecidablePred P] (T : Nat) (hT : 0 < T) : ∀ A, Nat.count (fun N => P (N / T)) (A * T) = T * Nat.count P A
  | 0 => by simp
  | A + 1 => by
    have hc : ∀ t, t ≤ T → Nat.count (fun k => P ((A * T + k) / T)) t = if P A then t else 0 := by
      intro t
      induction t with
      | zero => intro _; simp
      | succ t ih =>
        intro ht
        have e : (A * T + t) / T = A := by
          rw [Nat.mul_comm, Nat.mul_add_div hT, Nat.div_eq_of_lt (by omega), Nat.add_zero]
        rw [Nat.count_succ, ih (by omega), e]
        split <;> simp
    rw [Nat.add_mul, Nat.one_mul, Nat.count_add, count_div P T hT A, hc T (le_refl _), Nat.count_succ, Nat.mul_add]
    split <;> simp

theorem count_mod (m r : Nat) (hr : r < m) (A : Nat) : Nat.count (fun N => N % m = r) A = A / m + if r < A % m then 1 else 0 := by
  have h := Nat.count_modEq_card A (show 0 < m by omega) r
  rw [Nat.mod_eq_of_lt hr] at h
  rw [← h]
  congr 1
  funext N
  rw [Nat.ModEq, Nat.mod_eq_of_lt hr]

theorem beNat_take (b : Bytes) (n : Nat) : beNat (b.take n) = beNat b / 256 ^ (b.length - n) := by
  have h := beNat_append (b.take n) (b.drop n)
  rw [List.take_append_drop, List.length_drop] at h
  have hl := beNat_lt (b.drop n)
  rw [List.length_drop] at hl
  have hp : 0 < 256 ^ (b.length - n) := by positivity
  rw [h, Nat.mul_comm, Nat.mul_add_div hp, Nat.div_eq_of_lt hl, Nat.add_zero]

/-! ## The bytes of `generate_key` -/

/-- The second byte of a number with the two bits flipped; `K` is the weight of that byte. -/
def flip (K x : Nat) : Nat := x / (256 * K) * (256 * K) + (x / K % 256 ^^^ 0x42) * K + x % K

theorem digits {K a b lo : Nat} (hl : lo < K) (hb : b < 256) : (a * (256 * K) + b * K + lo) / (256 * K) = a ∧
    (a * (256 * K) + b * K + lo) / K % 256 = b ∧ (a * (256 * K) + b * K + lo) % K = lo := by
  have hK : 0 < K := by omega
  have h1 : a * (256 * K) + b * K + lo = K * (256 * a + b) + lo := by ring
  have h2 : (a * (256 * K) + b * K + lo) / K = 256 * a + b := by rw [h1, Nat.mul_add_div hK, Nat.div_eq_of_lt hl, Nat.add_zero]
  refine ⟨?_, ?_, ?_⟩
  · rw [Nat.mul_comm 256 K, ← Nat.div_div_eq_div_mul, Nat.mul_comm K 256, h2]; omega
  · rw [h2]; omega
  · rw [h1, Nat.mul_add_mod, Nat.mod_eq_of_lt hl]

theorem flip_digits {K a b lo : Nat} (hl : lo < K) (hb : b < 256) :
    flip K (a * (256 * K) + b * K + lo) = a * (256 * K) + (b ^^^ 0x42) * K + lo := by
  obtain ⟨h1, h2, h3⟩ := digits (a := a) hl hb
  unfold flip
  rw [h1, h2, h3]

theorem xor_lt {b : Nat} (hb : b < 256) : b ^^^ 0x42 < 256 := Nat.xor_lt_two_pow (n := 8) hb (by decide)

theorem flip_flip {K : Nat} (hK : 0 < K) (x : Nat) : flip K (flip K x) = x := by
  have hb : x / K % 256 < 256 := Nat.mod_lt _ (by omega)
  have e : x = x / (256 * K) * (256 * K) + x / K % 256 * K + x % K := by
    have h1 := Nat.div_add_mod x K
    have h2 := Nat.div_add_mod (x / K) 256
    have h3 : x / (256 * K) = x / K / 256 := by rw [Nat.mul_comm, Nat.div_div_eq_div_mul]
    rw [h3]
    calc x = K * (256 * (x / K / 256) + x / K % 256) + x % K := by rw [h2, h1]
      _ = _ := by ring
  conv_lhs => rw [show flip K x = x / (256 * K) * (256 * K) + (x / K % 256 ^^^ 0x42) * K + x % K from rfl]
  rw [flip_digits (Nat.mod_lt _ hK) (xor_lt hb), Nat.xor_assoc, Nat.xor_self, Nat.xor_zero]
  exact e.symm

theorem flip_lt {K : Nat} (hK : 0 < K) {x E : Nat} (h : x < E * (256 * K)) : flip K x < E * (256 * K) := by
  have h1 : x / (256 * K) < E := Nat.div_lt_of_lt_mul (by rw [Nat.mul_comm]; exact h)
  have h2 : (x / K % 256 ^^^ 0x42) < 256 := xor_lt (Nat.mod_lt _ (by omega))
  have h3 : x % K < K := Nat.mod_lt _ hK
  unfold flip
  generalize x / K % 256 ^^^ 0x42 = b at h2
  generalize x / (256 * K) = a at h1
  generalize x % K = lo at h3
  have h4 : (a + 1) * (256 * K) ≤ E * (256 * K) := Nat.mul_le_mul_right _ h1
  have h5 : b * K ≤ 255 * K := Nat.mul_le_mul_right _ (by omega)
  rw [Nat.add_mul] at h4
  omega

theorem mask_eq : ∀ e < 8, ∀ b : Byte, (b &&& Elliptic.keyMask.getD e 0#8).toNat = b.toNat % 2 ^ (if e = 0 then 8 else e) := by decide +kernel

/-- The number made of the bytes of one round of `generate_key`. -/
theorem keyBytes_num {σ : Type} (g : Rng σ) (bits : Nat) (h : 9 ≤ bits) (s : σ) (w : Bytes) (s' : σ)
    (hw : drawWords g (((bits + 7) / 8 + 3) / 4) s = (w, s')) (hl : (bits + 7) / 8 ≤ w.length) :
    ∃ key, Elliptic.keyBytes g bits s = .ok (key, s') ∧
      beNat key = flip (256 ^ ((bits + 7) / 8 - 2)) (beNat (w.take ((bits + 7) / 8)) % 2 ^ bits) := by
  unfold Elliptic.keyBytes
  dsimp only
  rw [Nat.shiftRight_eq_div_pow, Nat.shiftRight_eq_div_pow, show 2 ^ 3 = 8 from rfl, show 2 ^ 2 = 4 from rfl, hw]
  dsimp only
  obtain ⟨L, hL⟩ : ∃ L, (bits + 7) / 8 = L + 2 := ⟨(bits + 7) / 8 - 2, by omega⟩
  have hlen : (w.take (L + 2)).length = L + 2 := by rw [List.length_take]; omega
  rw [hL]
  match ht : w.take (L + 2), hlen with
  | b0 :: b1 :: rest, hlen =>
    refine ⟨_, rfl, ?_⟩
    have hr : rest.length = L := by simpa using hlen
    have hm := mask_eq (bits &&& 7) (by have := Nat.and_le_right (n := bits) (m := 7); omega) b0
    have e7 : bits &&& 7 = bits % 8 := Nat.and_two_pow_sub_one_eq_mod bits 3
    rw [beNat_cons, beNat_cons, beNat_cons, beNat_cons, List.length_cons, List.length_cons, hr, hm, BitVec.toNat_xor, e7,
      show L + 2 - 2 = L by omega]
    have hK : 0 < 256 ^ L := by positivity
    have hlo : beNat rest < 256 ^ L := by rw [← hr]; exact beNat_lt rest
    have hb1 := b1.isLt
    have hp : 2 ^ bits = 2 ^ (if bits % 8 = 0 then 8 else bits % 8) * (256 * 256 ^ L) := by
      rw [show (256 : ℕ) * 256 ^ L = 256 ^ (L + 1) by rw [pow_succ, Nat.mul_comm], show (256 : ℕ) = 2 ^ 8 by norm_num, ← pow_mul, ← pow_add]
      congr 1
      split <;> omega
    have hmod : (b0.toNat * 256 ^ (L + 1) + (b1.toNat * 256 ^ L + beNat rest)) % 2 ^ bits =
        b0.toNat % 2 ^ (if bits % 8 = 0 then 8 else bits % 8) * (256 * 256 ^ L) + b1.toNat * 256 ^ L + beNat rest := by
      rw [hp]
      generalize 2 ^ (if bits % 8 = 0 then 8 else bits % 8) = E
      have hs : b1.toNat * 256 ^ L + beNat rest < 256 * 256 ^ L := by
        have : b1.toNat * 256 ^ L ≤ 255 * 256 ^ L := Nat.mul_le_mul_right _ (by omega)
        omega
      rw [show b0.toNat * 256 ^ (L + 1) = (256 * 256 ^ L) * b0.toNat by rw [pow_succ]; ring, Nat.mul_comm E, Nat.mod_mul,
        Nat.mul_add_mod, Nat.mod_eq_of_lt hs, Nat.mul_add_div (by positivity), Nat.div_eq_of_lt hs, Nat.add_zero]
      ring
    rw [hmod, flip_digits hlo hb1, pow_succ]
    show _ + ((b1.toNat ^^^ 66) * _ + _) = _
    ring

end Verif.Tape
