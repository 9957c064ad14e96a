import Verif.Proof.Checked3

/-!
# C109: no check fires in the ciphers

`Verif.Model.Checked` contains the ciphers as a build with overflow checks runs them: an index out of range, a sum which does not fit, a
difference below zero, a zero divisor and a shift by the width or more are all panics there. The theorems say that none of them happens, and
that the results are those of the model without checks, about which the other properties speak.
-/

namespace Verif.Props
open Verif.Model

/-- C109: AES. For every byte string as a key the constructor behaves as in the model without checks, and so does every call of every
object it makes, on every byte string. No call panics. -/
theorem C109_aes (key : Bytes) :
    Checked.AES.new key = AES.new key ∧ Checked.AES.new key ≠ .error .panic ∧
    ∀ a, AES.new key = .ok a → ∀ b,
      (Checked.AES.cipher a).encrypt b = (AES.cipher a).encrypt b ∧ (Checked.AES.cipher a).decrypt b = (AES.cipher a).decrypt b ∧
      (Checked.AES.cipher a).encrypt b ≠ .error .panic ∧ (Checked.AES.cipher a).decrypt b ≠ .error .panic := by
  refine ⟨Checked.AES.new_ok key, ?_, fun a ha b => ?_⟩
  · rw [Checked.AES.new_ok]
    unfold AES.new
    split <;> (intro h; cases h)
  · rw [Checked.AES.cipher_ok ha]
    refine ⟨rfl, rfl, ?_, ?_⟩
    · show (if b.length = 16 then _ else _) ≠ _
      split <;> (intro h; cases h)
    · show (if b.length = 16 then _ else _) ≠ _
      split <;> (intro h; cases h)

/-- C109: SM4, as for AES. -/
theorem C109_sm4 (key : Bytes) :
    Checked.SM4.fromSlice key = SM4.fromSlice key ∧ Checked.SM4.fromSlice key ≠ .error .panic ∧
    ∀ s, SM4.fromSlice key = .ok s → ∀ b,
      (Checked.SM4.cipher s).encrypt b = (SM4.cipher s).encrypt b ∧ (Checked.SM4.cipher s).decrypt b = (SM4.cipher s).decrypt b ∧
      (Checked.SM4.cipher s).encrypt b ≠ .error .panic ∧ (Checked.SM4.cipher s).decrypt b ≠ .error .panic := by
  refine ⟨Checked.SM4.fromSlice_ok key, ?_, fun s hs b => ?_⟩
  · rw [Checked.SM4.fromSlice_ok]
    unfold SM4.fromSlice
    split <;> (intro h; cases h)
  · rw [Checked.SM4.cipher_ok hs]
    refine ⟨rfl, rfl, ?_, ?_⟩
    · show SM4.edInner b _ ≠ _
      unfold SM4.edInner
      split <;> (intro h; cases h)
    · show SM4.edInner b _ ≠ _
      unfold SM4.edInner
      split <;> (intro h; cases h)

/-- C109: DES and triple DES. The keys are arrays of eight bytes in the code; here they are any byte strings, missing bytes read as zero. -/
theorem C109_des (k1 k2 k3 b : Bytes) :
    Checked.DES.new k1 = .ok (DES.new k1) ∧
    (Checked.DES.cipher (DES.new k1)).encrypt b = (DES.cipher (DES.new k1)).encrypt b ∧
    (Checked.DES.cipher (DES.new k1)).decrypt b = (DES.cipher (DES.new k1)).decrypt b ∧
    (Checked.DES.cipher (DES.new k1)).encrypt b ≠ .error .panic ∧ (Checked.DES.cipher (DES.new k1)).decrypt b ≠ .error .panic ∧
    Checked.TDES.new k1 k2 k3 = .ok (TDES.new k1 k2 k3) ∧
    (Checked.TDES.cipher (TDES.new k1 k2 k3)).encrypt b = (TDES.cipher (TDES.new k1 k2 k3)).encrypt b ∧
    (Checked.TDES.cipher (TDES.new k1 k2 k3)).decrypt b = (TDES.cipher (TDES.new k1 k2 k3)).decrypt b := by
  rw [Checked.DES.cipher_ok (Checked.DES.new_shape k1), Checked.TDES.cipher_ok]
  refine ⟨Checked.DES.new_ok k1, rfl, rfl, ?_, ?_, Checked.TDES.new_ok k1 k2 k3, rfl, rfl⟩
  · show (if b.length = 8 then _ else _) ≠ _
    split <;> (intro h; cases h)
  · show (if b.length = 8 then _ else _) ≠ _
    split <;> (intro h; cases h)

/-- The checks are not idle: the rotation of the DES key schedule panics in such a build for the amounts 0 (a shift of a byte by 8) and 4,
and the table `DES_LS` avoids these. -/
theorem C109_des_rotate (k : BitVec 64) :
    Checked.DES.ksRotate k 0 = .error .panic ∧ Checked.DES.ksRotate k 4 = .error .panic ∧ ∀ n ∈ DES.ls, Checked.DES.ksRotate k n = .ok (DES.ksRotate k n) := by
  refine ⟨rfl, rfl, fun n hn => ?_⟩
  have : ∀ n ∈ DES.ls, 1 ≤ n ∧ n ≤ 3 := by decide +kernel
  exact Checked.DES.ksRotate_ok k (this n hn).1 (this n hn).2

/-- A history of a ZUC cipher object: `some m` encrypts `m`, `none` is `reset`. The result is the list of the outputs. -/
def zucRun {S : Type} (enc : S → Bytes → Res (Bytes × Nat × S)) (rst : S → Res S) : List (Option Bytes) → S → Res (List Bytes)
  | [], _ => .ok []
  | none :: ops, s => do
    let s ← rst s
    zucRun enc rst ops s
  | some m :: ops, s => do
    let (d, _, s) ← enc s m
    let ds ← zucRun enc rst ops s
    .ok (d :: ds)

/-- C109: the ZUC cipher. Every history of an object, with messages shorter than `2^64 - 3` bytes, has the same results with and without the
checks. -/
theorem C109_zuc (count : BitVec 32) (bearer : Byte) (direction : Bool) (ck : Bytes) (ops : List (Option Bytes))
    (h : ∀ m, some m ∈ ops → m.length + 3 < 2 ^ 64) :
    (Checked.ZUCCipher.fromSlice count bearer direction ck >>= zucRun Checked.ZUCCipher.encrypt Checked.ZUCCipher.reset ops) =
    (ZUCCipher.fromSlice count bearer direction ck >>= zucRun ZUCCipher.encrypt ZUCCipher.reset ops) := by
  have hf := Checked.ZUCCipher.fromSlice_ok count bearer direction ck
  rw [hf.1]
  cases hs : ZUCCipher.fromSlice count bearer direction ck with
  | error e => rfl
  | ok s =>
    rw [Checked.bind_ok, Checked.bind_ok]
    have h17 := hf.2 s hs
    clear hs hf
    induction ops generalizing s with
    | nil => rfl
    | cons op ops ih =>
      have hops : ∀ m, some m ∈ ops → m.length + 3 < 2 ^ 64 := fun m hm => h m (List.mem_cons_of_mem _ hm)
      cases op with
      | none =>
        have hr := Checked.ZUCCipher.reset_ok h17
        unfold zucRun
        rw [hr.1]
        cases hx : ZUCCipher.reset s with
        | error e => rfl
        | ok s' => exact ih hops s' (hr.2 s' hx)
      | some m =>
        have he := Checked.ZUCCipher.encrypt_ok h17 (m := m) (h m List.mem_cons_self)
        unfold zucRun
        rw [he.1]
        cases hx : ZUCCipher.encrypt s m with
        | error e => rfl
        | ok p =>
          obtain ⟨d, n, s'⟩ := p
          rw [Checked.bind_ok, Checked.bind_ok]
          simp only []
          rw [ih hops s' (he.2 d n s' hx)]

/-- A call of a ZUC MAC object. -/
inductive MacCall where
  | write (m : Bytes)
  | checksum
  | reset

/-- A history of a ZUC MAC object; the result is the list of the tags. -/
def macRun {S : Type} (write : S → Bytes → Res S) (checksum : S → Res (S × Bytes)) (reset : S → Res S) : List MacCall → S → Res (List Bytes)
  | [], _ => .ok []
  | .write m :: ops, s => do
    let s ← write s m
    macRun write checksum reset ops s
  | .checksum :: ops, s => do
    let (s, t) ← checksum s
    let ts ← macRun write checksum reset ops s
    .ok (t :: ts)
  | .reset :: ops, s => do
    let s ← reset s
    macRun write checksum reset ops s

/-- The bits written since the last reset stay below `2^64`, when `n` bits were written before. -/
def macFits : Nat → List MacCall → Bool
  | _, [] => true
  | n, .write m :: ops => decide (n + m.length * 8 < 2 ^ 64) && macFits (n + m.length * 8) ops
  | n, .checksum :: ops => macFits n ops
  | _, .reset :: ops => macFits 0 ops

/-- C109: the ZUC MAC. Every history gives the same tags with and without the checks, as long as fewer than `2^64` bits are written between
resets; a history which writes more panics in the build with checks. -/
theorem C109_zuc_mac (count : BitVec 32) (bearer : Byte) (direction : Bool) (ck : Bytes) (hk : ck.length = 16) (ops : List MacCall) :
    (Checked.ZUCMac.fromSlice count bearer direction ck >>= macRun Checked.ZUCMac.write Checked.ZUCMac.checksum Checked.ZUCMac.reset ops) =
    if macFits 0 ops then (ZUCMac.fromSlice count bearer direction ck >>= macRun ZUCMac.write ZUCMac.checksum ZUCMac.reset ops)
    else .error .panic := by
  have hf := Checked.ZUCMac.fromSlice_ok count bearer direction ck
  rw [hf.1]
  cases hs : ZUCMac.fromSlice count bearer direction ck with
  | error e =>
    exfalso
    unfold ZUCMac.fromSlice at hs
    rw [if_neg (by omega)] at hs
    simp only [] at hs
    have : ZUC.fromSlice ck (ZUCMac.mkIv count bearer direction) = .ok (ZUC.initAndFirstStep (ZUC.keySchedule ck (ZUCMac.mkIv count bearer direction))) := by
      unfold ZUC.fromSlice
      rw [if_neg]
      rintro (h | h)
      · exact h hk
      · exact h rfl
    rw [this, Checked.bind_ok] at hs
    cases hs
  | ok s =>
    rw [Checked.bind_ok, Checked.bind_ok]
    obtain ⟨h17, h0, hc⟩ := hf.2 s hs
    rw [← h0]
    clear hs hf h0
    induction ops generalizing s with
    | nil => rfl
    | cons op ops ih =>
      cases op with
      | write m =>
        have hw := Checked.ZUCMac.write_ok h17 hc m
        unfold macRun macFits
        rw [hw.1]
        by_cases hlt : s.length + m.length * 8 < 2 ^ 64
        · rw [if_pos hlt, decide_eq_true hlt, Bool.true_and]
          cases hx : ZUCMac.write s m with
          | error e =>
            have : ZUCMac.write s m = .ok (ZUCMac.absorb s m) := by unfold ZUCMac.write; rw [hc]; rfl
            rw [this] at hx; cases hx
          | ok s' =>
            obtain ⟨a, b, c⟩ := hw.2 s' hx
            rw [Checked.bind_ok, Checked.bind_ok, ← b]
            exact ih s' a c
        · rw [if_neg hlt, decide_eq_false hlt, Bool.false_and]; rfl
      | checksum =>
        have hw := Checked.ZUCMac.checksum_ok h17
        unfold macRun macFits
        rw [hw.1]
        cases hx : ZUCMac.checksum s with
        | error e => unfold ZUCMac.checksum at hx; cases hx
        | ok p =>
          obtain ⟨s', t⟩ := p
          obtain ⟨a, b, c⟩ := hw.2 s' t hx
          rw [Checked.bind_ok, Checked.bind_ok]
          simp only []
          rw [ih s' a (c.trans hc), b]
          cases macFits s.length ops <;> rfl
      | reset =>
        have hw := Checked.ZUCMac.reset_ok h17
        unfold macRun macFits
        rw [hw.1]
        cases hx : ZUCMac.reset s with
        | error e =>
          have : e = .panic := by
            unfold ZUCMac.reset at hx
            split at hx <;> cases hx
            rfl
          rw [this]
          cases macFits 0 ops <;> rfl
        | ok s' =>
          obtain ⟨a, b, c⟩ := hw.2 s' hx
          rw [Checked.bind_ok, Checked.bind_ok, ← b]
          exact ih s' a (c.trans hc)

/-- C109: Keccak-p. For every width the constructor accepts (`l` is at most 6) and every number of rounds (a `u32`), the index arithmetic of
the rounds and of the round constants, in `i64` and `usize`, never overflows, and no index is out of range: the round indices run from
`12 + 2 l - nr` to `12 + 2 l - 1`, and for each of them the array of `iota` is the one of the model without checks. -/
theorem C109_keccak (b nr : Nat) (hn : nr < 2 ^ 32) (k : Keccak.State) (hk : Keccak.new b nr = .ok k) :
    Checked.Keccak.roundRange k.l k.nr = .ok (12 + 2 * (k.l : Int) - k.nr, 12 + 2 * (k.l : Int) - 1) ∧
    ∀ i : Int, 12 + 2 * (k.l : Int) - k.nr ≤ i → i ≤ 12 + 2 * (k.l : Int) - 1 →
      Checked.Keccak.iotaConst i (k.l + 1) 0 (List.replicate 64 false) = .ok (Keccak.iotaConst i (k.l + 1) 0 (List.replicate 64 false)) := by
  have hl : k.l ≤ 6 ∧ k.nr = nr := by
    unfold Keccak.new at hk
    split at hk
    · rename_i hw
      injection hk with hk
      subst hk
      have hm : b ∈ Keccak.widths := by
        by_contra hc
        have : ∀ (l : List Nat), b ∉ l → l.foldl (fun isChecked e => if isChecked || e == b then true else false) false = false := by
          intro l
          induction l with
          | nil => intro _; rfl
          | cons a l ih =>
            intro hn
            rw [List.foldl_cons]
            have : (a == b) = false := by
              rw [beq_eq_false_iff_ne]
              rintro rfl
              exact hn List.mem_cons_self
            rw [this]
            exact ih fun h => hn (List.mem_cons_of_mem _ h)
        rw [this _ hc] at hw
        cases hw
      have : ∀ b ∈ Keccak.widths, Keccak.trailingZeros 64 (b / 25) ≤ 6 := by decide +kernel
      exact ⟨this b hm, rfl⟩
    · cases hk
  refine ⟨Checked.Keccak.roundRange_ok hl.1 (by omega), fun i h1 h2 => ?_⟩
  exact Checked.Keccak.iotaConst_ok (by omega) (by omega) _ _ _ (by omega) (by rw [List.length_replicate])

/-- Non-vacuity: real objects, a history with a reset in the middle, a history which the MAC accepts, and one which is too long. -/
example : (∃ a, AES.new (List.replicate 16 7#8) = .ok a) ∧ (∃ s, SM4.fromSlice (List.replicate 16 7#8) = .ok s) ∧
    (∃ k, Keccak.new 1600 24 = .ok k) ∧ (∃ k, Keccak.new 25 4294967295 = .ok k) ∧
    macFits 0 [.write [1#8], .checksum, .reset, .write [2#8, 3#8], .checksum] = true ∧
    (∃ m : Bytes, macFits 0 [.write [1#8], .write m] = false) :=
  ⟨⟨_, rfl⟩, ⟨_, rfl⟩, ⟨_, rfl⟩, ⟨_, rfl⟩, by decide, List.replicate (2 ^ 61) 0#8, by
    unfold macFits macFits
    rw [List.length_replicate]
    decide⟩

example : (Checked.ZUCCipher.fromSlice 5#32 3#8 true (List.replicate 16 7#8) >>=
    zucRun Checked.ZUCCipher.encrypt Checked.ZUCCipher.reset [some [1#8, 2#8, 3#8, 4#8, 5#8], none, some [1#8, 2#8, 3#8, 4#8], some [5#8]]) ≠ .error .panic := by
  decide +kernel

end Verif.Props
