import Verif.Spec.KeySep
import Verif.Props.MacChange
import Verif.Props.CBC
import Verif.Props.CFB
import Verif.Props.OFB
import Verif.Props.CTR
import Verif.Proof.StrangerModes
import Verif.Proof.Toy

/-! Property C107: one key for CMAC and for encryption -/

namespace Verif.Props
open Verif.Model Verif.Spec

variable {c : BlockCipher} {E D : Bytes → Bytes}

theorem cbcEnc_range (E : Bytes → Bytes) (f g : ℕ → Bytes) (hg : ∀ i, g (i + 1) = E (xorBytes (f i) (g i))) : ∀ n k,
    cbcEnc E (g k) ((List.range n).map fun i => f (k + i)) = (List.range n).map fun i => g (k + i + 1)
  | 0, _ => rfl
  | n + 1, k => by
    rw [List.range_succ_eq_map, List.map_cons, List.map_cons, cbcEnc, List.map_map, List.map_map]
    simp only [Nat.add_zero]
    rw [← hg]
    have := cbcEnc_range E f g hg n (k + 1)
    congr 1
    rw [show (fun i => f (k + i)) ∘ Nat.succ = fun i => f (k + 1 + i) by funext i; exact congrArg f (by simp; omega), this]
    refine List.map_congr_left fun i _ => congrArg g ?_
    simp only [Nat.succ_eq_add_one]
    omega

theorem nth_flatten {b : ℕ} {l : List Bytes} (hl : IsBlocks b l) (t : Bytes) {i : ℕ} (hi : i < l.length) : KeySep.nth b (l.flatten ++ t) i = l[i] := by
  induction l generalizing i with
  | nil => simp at hi
  | cons x l ih =>
    have hx : x.length = b := hl x (by simp)
    rcases i with _ | i
    · simp [KeySep.nth, ← hx]
    · have := ih (fun y hy => hl y (by simp [hy])) (i := i) (by simpa using hi)
      rw [KeySep.nth] at this ⊢
      rw [Nat.add_mul, Nat.one_mul, Nat.add_comm, ← List.drop_drop, List.flatten_cons, List.append_assoc, List.drop_left' hx, this]
      rfl

theorem xor_zero_right {b : ℕ} {x : Bytes} (h : x.length = b) : xorBytes x (List.replicate b 0#8) = x := by
  subst h
  apply List.ext_getElem
  · simp [xorBytes]
  · intro i h1 h2
    simp [xorBytes]

theorem xor_self (x : Bytes) : xorBytes x x = List.replicate x.length 0#8 := by
  apply List.ext_getElem
  · simp [xorBytes]
  · intro i h1 h2
    simp [xorBytes]

theorem blocks_pos {b : ℕ} (hb : 0 < b) (m : Bytes) : 0 < Spec.CMAC.blocks b m := by
  unfold Spec.CMAC.blocks
  split
  · omega
  · rename_i h
    have : 0 < m.length := List.length_pos_iff.2 h
    exact Nat.div_pos (by omega) hb

theorem length_block {b : ℕ} (hb : 0 < b) (m : Bytes) {i : ℕ} (hi : i + 1 < Spec.CMAC.blocks b m) : (Spec.CMAC.block b m i).length = b := by
  unfold Spec.CMAC.blocks at hi
  split at hi
  · omega
  · rw [Spec.CMAC.block, List.length_take, List.length_drop]
    have h1 : (i + 2) * b ≤ m.length + b - 1 := by
      have : i + 2 ≤ (m.length + b - 1) / b := by omega
      exact (Nat.le_div_iff_mul_le hb).1 this
    have : (i + 2) * b = i * b + 2 * b := by ring
    omega

/-- A message of whole blocks is encrypted by CBC with any padding: the chained blocks come first. -/
theorem cbc_whole (h : Lawful c E D) {p : Padding} (hp : p = .defaultOf c ∨ p = .empty) {iv : Bytes} (hiv : iv.length = c.bs) {l : List Bytes} (hl : IsBlocks c.bs l) :
    ∃ t, CBC.encrypt c p iv l.flatten = .ok ((cbcEnc E iv l).flatten ++ t) := by
  have hm : l.flatten.length % c.bs = 0 := by rw [hl.length_flatten, Nat.mul_mod_right]
  obtain ⟨pb, h1, h2, -⟩ := padOk_blocks (p := p) (bs := c.bs) h.pos (Nat.dvd_refl _) h.pos hl (t := []) h.pos (by
    rcases hp with rfl | rfl
    · exact .inl rfl
    · exact .inr ⟨rfl, by simpa using hm⟩)
  have := CBC.encrypt_eq h hiv hl (t := []) h.pos h1 h2
  rw [List.append_nil] at this
  exact ⟨_, this⟩

/-- C107 is false for CBC: with the answers to two questions, the IV itself and a message computed from the first answer, anybody knows the tag of any
message `m`. This holds for every cipher with blocks of 8 or 16 bytes, every IV and both paddings. -/
theorem C107_cbc_refuted (h : Lawful c E D) (b rb : ℕ) (hcb : c.blockSize = some b) (hb : (b = 8 ∧ rb = 0x1b) ∨ (b = 16 ∧ rb = 0x87))
    (s : CMAC.State) (hs : CMAC.new c = .ok s) (p : Padding) (hp : p = .defaultOf c ∨ p = .empty) (iv : Bytes) (hiv : iv.length = b) (m : Bytes) :
    ∃ a r, CBC.encrypt c p iv iv = .ok a ∧ CBC.encrypt c p iv (KeySep.question b rb (KeySep.nth b a 0) iv m) = .ok r ∧
      digestOf CMAC.digest s [m] = .ok (KeySep.nth b r (Spec.CMAC.blocks b m - 1)) := by
  have hbs : c.bs = b := by rw [BlockCipher.bs, hcb]; rfl
  have hb0 : 0 < b := by omega
  obtain ⟨t, e1⟩ := cbc_whole h hp (iv := iv) (by omega) (l := [iv]) (.cons (by omega) .nil)
  have hz : xorBytes iv iv = List.replicate b 0#8 := by
    rw [← hiv]
    exact xor_self iv
  have hL := h.lenE (List.replicate b 0#8) (by simp [hbs])
  have hn0 : KeySep.nth b ((cbcEnc E iv [iv]).flatten ++ t) 0 = E (List.replicate b 0#8) := by
    rw [nth_flatten (l := cbcEnc E iv [iv]) (fun x hx => by simp only [cbcEnc, List.mem_singleton, hz] at hx; rw [hx, hL, hbs]) t (by simp [cbcEnc])]
    simp only [cbcEnc, hz, List.getElem_cons_zero]
  have hlast : Spec.CMAC.lastBlock (fun _ => E (List.replicate b 0#8)) b rb m = Spec.CMAC.lastBlock E b rb m := rfl
  let n := Spec.CMAC.blocks b m
  have hn : 0 < n := blocks_pos hb0 m
  let y : ℕ → Bytes := fun i => if i + 1 = n then Spec.CMAC.lastBlock E b rb m else Spec.CMAC.block b m i
  let f : ℕ → Bytes := fun i => if i = 0 then xorBytes (y i) iv else y i
  let g : ℕ → Bytes := fun i => Nat.rec iv (fun i x => E (xorBytes (f i) x)) i
  have hy : ∀ i < n, (y i).length = b := by
    intro i hi
    by_cases hi' : i + 1 = n
    · simp only [y, if_pos hi']
      exact Model.CMAC.length_lastBlock (E := E) m
    · simp only [y, if_neg hi']
      exact length_block hb0 m (by omega)
  have hf : ∀ i < n, (f i).length = b := by
    intro i hi
    by_cases h0 : i = 0
    · simp only [f, if_pos h0, length_xorBytes, hy i hi]; omega
    · simp only [f, if_neg h0, hy i hi]
  have hgl : ∀ i ≤ n, (g i).length = b := by
    intro i
    induction i with
    | zero => exact fun _ => hiv
    | succ i ih =>
      intro hi
      have := h.lenE (xorBytes (f i) (g i)) (by rw [length_xorBytes, hf i (by omega), ih (by omega), hbs]; simp)
      rw [hbs] at this
      exact this
  have hblocks : IsBlocks c.bs ((List.range n).map f) := by
    intro x hx
    obtain ⟨i, hi, rfl⟩ := List.mem_map.1 hx
    rw [hf i (List.mem_range.1 hi), hbs]
  obtain ⟨t', e2⟩ := cbc_whole h hp (iv := iv) (by omega) hblocks
  have hq : KeySep.question b rb (KeySep.nth b ((cbcEnc E iv [iv]).flatten ++ t) 0) iv m = ((List.range n).map f).flatten := by
    rw [hn0, KeySep.question, hlast]
  have hc := cbcEnc_range E f g (fun i => rfl) n 0
  simp only [Nat.zero_add] at hc
  rw [show (fun i => f i) = f from rfl, show g 0 = iv from rfl] at hc
  refine ⟨_, _, by simpa using e1, by rw [hq]; exact e2, ?_⟩
  rw [hc, nth_flatten (b := b) (fun x hx => by
    obtain ⟨i, hi, rfl⟩ := List.mem_map.1 hx
    exact hgl _ (List.mem_range.1 hi)) _ (by rw [List.length_map, List.length_range]; omega), List.getElem_map, List.getElem_range]
  have tag := cmac_of_new c E D h b rb hcb hb s hs [m]
  rw [tag]
  congr 1
  have inv : ∀ i < n, xorBytes (f i) (g i) = xorBytes (Spec.CMAC.chain E b m i) (y i) := by
    intro i
    induction i with
    | zero =>
      intro hi
      simp only [f, if_true, Spec.CMAC.chain]
      show xorBytes (xorBytes (y 0) iv) iv = _
      rw [xorBytes_cancel _ _ (by rw [hy 0 hi, hiv]), xorBytes_comm, xor_zero_right (hy 0 hi)]
    | succ i ih =>
      intro hi
      have e : g (i + 1) = Spec.CMAC.chain E b m (i + 1) := by
        show E (xorBytes (f i) (g i)) = E _
        rw [ih (by omega)]
        simp only [y, if_neg (show ¬ i + 1 = n by omega)]
      rw [e, xorBytes_comm]
      simp only [f, Nat.add_eq_zero_iff, one_ne_zero, and_false, if_false]
  rw [List.flatten_singleton, Spec.CMAC.mac]
  have := inv (n - 1) (by omega)
  show _ = E (xorBytes (f (n - 1)) (g (n - 1)))
  rw [this]
  simp only [y, if_pos (show n - 1 + 1 = n by omega)]
  rfl

/-- The hypotheses are met by the cipher of the tests, on blocks of 8 bytes. -/
example : ∃ s, CMAC.new (Toy.cipher 8) = .ok s ∧ (Toy.cipher 8).blockSize = some 8 ∧ ∃ E D, Lawful (Toy.cipher 8) E D := by
  obtain ⟨s, s', h, -⟩ := C32_cmac_history _ _ _ (Toy.lawful 8 (by decide)) 8 0x1b rfl (.inl ⟨rfl, rfl⟩) []
  exact ⟨s, h, rfl, _, _, Toy.lawful 8 (by decide)⟩

/-- C107 is false for ECB, CBC and CFB with whole blocks in another way: their objects tell anybody what the cipher makes of any block `x`, ECB and CBC
with one question, CFB with two. From that all tags follow, because CMAC uses nothing else of the key. -/
theorem C107_values_refuted (h : Lawful c E D) (p : Padding) (hp : p = .defaultOf c ∨ p = .empty) (iv : Bytes) (hiv : iv.length = c.bs) (x : Bytes)
    (hx : x.length = c.bs) :
    (∃ a, ECB.encrypt c p x = .ok a ∧ c.encrypt x = .ok (KeySep.nth c.bs a 0)) ∧
    (∃ a, CBC.encrypt c p iv (xorBytes x iv) = .ok a ∧ c.encrypt x = .ok (KeySep.nth c.bs a 0)) ∧
    ∃ a r, CFB.encrypt c p c.bs iv (List.replicate c.bs 0#8) = .ok a ∧
      CFB.encrypt c p c.bs iv (xorBytes x (KeySep.nth c.bs a 0) ++ List.replicate c.bs 0#8) = .ok r ∧ c.encrypt x = .ok (KeySep.nth c.bs r 1) := by
  have hpad : ∀ {l : List Bytes}, IsBlocks c.bs l → ∃ pb, IsBlocks c.bs pb ∧ p.padding [] = pb.flatten := by
    intro l hl
    obtain ⟨pb, h1, h2, -⟩ := padOk_blocks (p := p) (bs := c.bs) h.pos (Nat.dvd_refl _) h.pos hl (t := []) h.pos (by
      rcases hp with rfl | rfl
      · exact .inl rfl
      · exact .inr ⟨rfl, by rw [List.append_nil, hl.length_flatten, Nat.mul_mod_right]⟩)
    exact ⟨pb, h1, h2⟩
  have hz : (List.replicate c.bs 0#8).length = c.bs := by simp
  refine ⟨?_, ?_, ?_⟩
  · obtain ⟨pb, h1, h2⟩ := hpad (l := [x]) (.cons hx .nil)
    have := ECB.encrypt_eq h (blocks := [x]) (t := []) (.cons hx .nil) h.pos h1 h2
    rw [List.append_nil, List.flatten_singleton] at this
    refine ⟨_, this, ?_⟩
    rw [h.enc x hx, ecb, List.map_append, List.flatten_append, nth_flatten (l := [x].map E) (by
      intro y hy
      simp only [List.map_cons, List.map_nil, List.mem_singleton] at hy
      rw [hy, h.lenE x hx]) _ (by simp)]
    rfl
  · have hl : IsBlocks c.bs [xorBytes x iv] := .cons (by rw [length_xorBytes, hx, hiv, Nat.min_self]) .nil
    obtain ⟨t, e⟩ := cbc_whole h hp hiv hl
    rw [List.flatten_singleton] at e
    refine ⟨_, e, ?_⟩
    have hc : cbcEnc E iv [xorBytes x iv] = [E x] := by
      simp only [cbcEnc, xorBytes_cancel _ _ (show x.length ≤ iv.length by omega)]
    rw [h.enc x hx, hc, nth_flatten (.cons (h.lenE x hx) .nil) _ (by simp)]
    rfl
  · have hl : IsBlocks c.bs [List.replicate c.bs 0#8] := .cons hz .nil
    have hE := h.lenE iv hiv
    obtain ⟨pb, h1, h2⟩ := hpad hl
    have e1 := CFB.encrypt_eq h h.pos (Nat.le_refl _) hiv hl (t := []) h.pos (pb := pb) (rem := []) h1 h.pos (by rw [h2, List.append_nil])
    rw [List.append_nil, List.flatten_singleton] at e1
    have n0 : KeySep.nth c.bs (cfbEnc E c.bs iv ([List.replicate c.bs 0#8] ++ pb)).flatten 0 = E iv := by
      have hb := CFB.cfbEnc_isBlocks h (Nat.le_refl _) hiv (hl.append h1)
      have := nth_flatten hb [] (i := 0) (by simp [cfbEnc])
      rw [List.append_nil] at this
      rw [this]
      simp only [List.singleton_append, cfbEnc, List.getElem_cons_zero]
      rw [List.take_of_length_le (by omega), xorBytes_comm, xor_zero_right hE]
    have hl2 : IsBlocks c.bs [xorBytes x (E iv), List.replicate c.bs 0#8] := .cons (by rw [length_xorBytes, hx, hE, Nat.min_self]) hl
    have e2 := CFB.encrypt_eq h h.pos (Nat.le_refl _) hiv hl2 (t := []) h.pos (pb := pb) (rem := []) h1 h.pos (by rw [h2, List.append_nil])
    rw [List.append_nil] at e2
    refine ⟨_, _, e1, by rw [n0]; simpa only [List.flatten_cons, List.flatten_nil, List.append_nil] using e2, ?_⟩
    have hb := CFB.cfbEnc_isBlocks h (Nat.le_refl _) hiv (hl2.append h1)
    have := nth_flatten hb [] (i := 1) (by simp [cfbEnc])
    rw [List.append_nil] at this
    rw [this, h.enc x hx]
    simp only [List.cons_append, List.nil_append, cfbEnc, List.getElem_cons_succ, List.getElem_cons_zero]
    rw [List.take_of_length_le (l := E iv) (by omega), xorBytes_cancel _ _ (by omega), List.drop_of_length_le (by omega), List.nil_append,
      List.take_of_length_le (by rw [h.lenE x hx]), xorBytes_comm, xor_zero_right (h.lenE x hx)]

example : CFB.encrypt (Toy.cipher 2) .empty 2 [1, 2] [0, 0] = .ok [3, 2] ∧ CFB.encrypt (Toy.cipher 2) .empty 2 [1, 2] [3 ^^^ 7, 2 ^^^ 9, 0, 0] = .ok [7, 9, 10, 8] ∧
    (Toy.cipher 2).encrypt [7, 9] = .ok [10, 8] := by
  decide

theorem length_double (b rb : ℕ) (x : Bytes) : (Spec.CMAC.double b rb x).length = b := by
  have : ∀ n, (Spec.CMAC.ofInt b n).length = b := fun n => by simp [Spec.CMAC.ofInt]
  unfold Spec.CMAC.double
  split
  · exact this _
  · rw [length_xorBytes, this, this, Nat.min_self]

/-- A message of one block: its tag is the encryption of the block xored with the first subkey. -/
theorem tag_preimage (h : Lawful c E D) (b rb : ℕ) (hcb : c.blockSize = some b) (hb : (b = 8 ∧ rb = 0x1b) ∨ (b = 16 ∧ rb = 0x87))
    (s : CMAC.State) (hs : CMAC.new c = .ok s) (x : Bytes) (hx : x.length = b) :
    digestOf CMAC.digest s [KeySep.preimage b rb (E (List.replicate b 0#8)) x] = .ok (E x) := by
  have hk : (Spec.CMAC.k1 E b rb).length = b := length_double _ _ _
  rw [cmac_of_new c E D h b rb hcb hb s hs, List.flatten_singleton]
  have hp : (KeySep.preimage b rb (E (List.replicate b 0#8)) x).length = b := by
    rw [KeySep.preimage, length_xorBytes, show Spec.CMAC.double b rb (E (List.replicate b 0#8)) = Spec.CMAC.k1 E b rb from rfl, hk, hx, Nat.min_self]
  generalize hm : KeySep.preimage b rb (E (List.replicate b 0#8)) x = m at hp
  have hn : Spec.CMAC.blocks b m = 1 := by
    rw [Spec.CMAC.blocks, if_neg (by intro h0; rw [h0] at hp; simp at hp; omega), hp]
    exact Nat.div_eq_of_lt_le (by omega) (by omega)
  have hblk : Spec.CMAC.block b m 0 = m := by
    rw [Spec.CMAC.block, Nat.zero_mul, List.drop_zero, List.take_of_length_le (by omega)]
  rw [Spec.CMAC.mac, Spec.CMAC.lastBlock, hn]
  simp only [Nat.sub_self, Spec.CMAC.chain, hblk, hp, if_true]
  congr 2
  rw [← hm, KeySep.preimage, show Spec.CMAC.double b rb (E (List.replicate b 0#8)) = Spec.CMAC.k1 E b rb from rfl,
    xorBytes_comm _ (xorBytes _ _), xor_zero_right (by rw [length_xorBytes, length_xorBytes, hk, hx]; simp), xorBytes_self_left _ _ (by omega),
    List.take_of_length_le (by omega)]

/-- C107 is false for OFB with the zero IV: somebody who knows a message and its ciphertext knows messages with their tags, one for every block of key
stream after the first. -/
theorem C107_ofb_refuted (h : Lawful c E D) (b rb : ℕ) (hcb : c.blockSize = some b) (hb : (b = 8 ∧ rb = 0x1b) ∨ (b = 16 ∧ rb = 0x87))
    (s : CMAC.State) (hs : CMAC.new c = .ok s) (m ct : Bytes) (e : OFB.encrypt c (List.replicate b 0#8) m = .ok ct) (i : ℕ) (hi : (i + 2) * b ≤ m.length) :
    digestOf CMAC.digest s [KeySep.preimage b rb (recovered b m ct 0) (recovered b m ct i)] = .ok (recovered b m ct (i + 1)) := by
  have hbs : c.bs = b := by rw [BlockCipher.bs, hcb]; rfl
  have hb0 : 0 < b := by omega
  have hiv : (List.replicate b 0#8).length = c.bs := by simp [hbs]
  rw [OFB.encrypt_eq h hiv m] at e
  injection e with e
  have hl := OFB.length_ofbBlock h hiv
  rw [hbs] at hl e
  have r : ∀ j, j < i + 2 → recovered b m ct j = ofbBlock E (List.replicate b 0#8) j := by
    intro j hj
    rw [← e, ofb, recovered_streamXor _ hb0 hl m j (le_trans (Nat.mul_le_mul_right b (by omega)) hi)]
  rw [r 0 (by omega), r i (by omega), r (i + 1) (by omega)]
  exact tag_preimage h b rb hcb hb s hs _ (hl i)

/-- C107 is false for CTR if the counter begins with the zero block: somebody who knows a message and its ciphertext knows messages with their tags, one for
every counter block. -/
theorem C107_ctr_refuted {κ : Type} {ops : CounterOps κ} (h : Lawful c E D) (b rb : ℕ) (hcb : c.blockSize = some b)
    (hb : (b = 8 ∧ rb = 0x1b) ∨ (b = 16 ∧ rb = 0x87)) (s : CMAC.State) (hs : CMAC.new c = .ok s) (k k' : κ) (v : ℕ → Bytes)
    (hv : ∀ i, ops.value k i = some (v i) ∧ b ≤ (v i).length) (h0 : v 0 = List.replicate b 0#8) (m ct : Bytes)
    (e : CTR.encrypt c ops k m = .ok (k', ct)) (i : ℕ) (hi : (i + 1) * b ≤ m.length) :
    digestOf CMAC.digest s [KeySep.preimage b rb (recovered b m ct 0) ((v i).take b)] = .ok (recovered b m ct i) := by
  have hbs : c.bs = b := by rw [BlockCipher.bs, hcb]; rfl
  have hb0 : 0 < b := by omega
  have hvl : ∀ i, ((v i).take b).length = b := fun i => by rw [List.length_take]; have := (hv i).2; omega
  rw [(C14_ctr_roundtrip h k v (by rw [hbs]; exact hv) m).1] at e
  injection e with e
  rw [hbs] at e
  have hl : ∀ i, (E ((v i).take b)).length = b := fun i => by rw [h.lenE _ (by rw [hvl, hbs]), hbs]
  have r : ∀ j, j < i + 1 → recovered b m ct j = E ((v j).take b) := by
    intro j hj
    rw [← (Prod.mk.inj e).2, ctr, recovered_streamXor _ hb0 hl m j (le_trans (Nat.mul_le_mul_right b (by omega)) hi)]
  rw [r 0 (by omega), r i (by omega), h0, List.take_of_length_le (by simp)]
  exact tag_preimage h b rb hcb hb s hs _ (hvl i)

/-- A counter of 8 bytes that begins with zero. -/
example : ∃ k, DefaultCounter.new (List.replicate 8 0#8) 64 = .ok k ∧ ∀ i, DefaultCounter.ops.value k i = some (toBE 8 i) ∧ 8 ≤ (toBE 8 i).length := by
  refine ⟨_, rfl, fun i => ?_⟩
  have := C14_default_counter (c := Toy.cipher 8) (List.replicate 8 0#8) 64 _ rfl rfl i
  have hz : beNat (List.replicate 8 0#8) = 0 := by decide
  rw [hz, Nat.zero_add] at this
  exact ⟨this.1, this.2.1⟩

/-- C107, what remains true: if none of the first `N` counter blocks is zero, messages of up to `N` blocks and their ciphertexts under a permutation `π` tell
nothing about the encrypted zero block from which the subkeys of CMAC are made: for every block `w` that did not occur in the key stream there is a
permutation that encrypts all these messages in the same way and maps the zero block to `w`. -/
theorem C107_ctr_partial {n : ℕ} (hn : 0 < n) {κ : Type} {ops : CounterOps κ} (π : Equiv.Perm (Block n)) (k : κ) (v : ℕ → Block n)
    (hv : ∀ i, ops.value k i = some (v i).1) (N : ℕ) (h0 : ∀ i < N, (v i).1 ≠ List.replicate n 0#8) (w : Block n) (hw : ∀ i < N, π (v i) ≠ w) :
    ∃ π' : Equiv.Perm (Block n), (permCipher π').encrypt (List.replicate n 0#8) = .ok w.1 ∧
      ∀ m : Bytes, m.length ≤ N * n → CTR.encrypt (permCipher π') ops k m = CTR.encrypt (permCipher π) ops k m := by
  let z : Block n := ⟨List.replicate n 0#8, by simp⟩
  refine ⟨π.trans (Equiv.swap (π z) w), ?_, fun m hm => ?_⟩
  · simp only [permCipher, List.length_replicate, if_true, onBytes, dif_pos]
    show Except.ok (Equiv.swap (π z) w (π z)).1 = _
    rw [Equiv.swap_apply_left]
  · have hv' : ∀ i, ops.value k i = some (v i).1 ∧ (permCipher π).bs ≤ (v i).1.length := fun i => ⟨hv i, by rw [(v i).2]; exact le_refl _⟩
    rw [(C14_ctr_roundtrip (permCipher_lawful hn π) k (fun i => (v i).1) hv' m).1,
      (C14_ctr_roundtrip (permCipher_lawful hn (π.trans (Equiv.swap (π z) w))) k (fun i => (v i).1) hv' m).1]
    have : ctr (onBytes (π.trans (Equiv.swap (π z) w))) n (fun i => (v i).1.take n) m = ctr (onBytes π) n (fun i => (v i).1.take n) m := by
      unfold ctr streamXor keystream
      congr 2
      refine List.map_congr_left fun i hi => ?_
      have hiN : i < N := by
        have h1 := List.mem_range.1 hi
        have h2 : (m.length + n - 1) / n ≤ N := by
          rw [Nat.div_le_iff_le_mul_add_pred hn]
          rw [Nat.mul_comm]
          omega
        omega
      have ht : (v i).1.take n = (v i).1 := List.take_of_length_le (by rw [(v i).2])
      simp only [ht]
      simp only [onBytes, (v i).2, dif_pos]
      show (Equiv.swap (π z) w (π (v i))).1 = (π (v i)).1
      rw [Equiv.swap_apply_of_ne_of_ne]
      · intro hc
        exact h0 i hiN (congrArg Subtype.val (π.injective hc))
      · exact hw i hiN
    exact congrArg (fun x => Except.ok (_, x)) this

/-- A counter of 8 bytes that begins with one, the identity as permutation, and the block of bytes 255 as `w`: the hypotheses are met for the first 1000 blocks. -/
example : ∃ k, ∃ v : ℕ → Block 8, DefaultCounter.new [0, 0, 0, 0, 0, 0, 0, 1] 64 = .ok k ∧ (∀ i, DefaultCounter.ops.value k i = some (v i).1) ∧
    ∀ i < 1000, (v i).1 ≠ List.replicate 8 0#8 ∧ (1 : Equiv.Perm (Block 8)) (v i) ≠ ⟨List.replicate 8 255#8, by simp⟩ := by
  refine ⟨_, fun i => ⟨toBE 8 (1 + i), by simp [toBE]⟩, rfl, fun i => ?_, fun i hi => ?_⟩
  · have := C14_default_counter (c := Toy.cipher 8) [0, 0, 0, 0, 0, 0, 0, 1] 64 _ rfl rfl i
    have hz : beNat [0, 0, 0, 0, 0, 0, 0, 1] = 1 := by decide
    rw [hz] at this
    exact this.1
  · have hv : beNat (toBE 8 (1 + i)) = 1 + i := by rw [beNat_toBE, Nat.mod_eq_of_lt (by omega)]
    have hz : beNat (List.replicate 8 0#8) = 0 := by decide
    have hf : beNat (List.replicate 8 255#8) = 2 ^ 64 - 1 := by decide
    refine ⟨fun h => ?_, fun h => ?_⟩
    · exact absurd ((hv.symm.trans (congrArg beNat h)).trans hz) (by omega)
    · have : beNat (toBE 8 (1 + i)) = beNat (List.replicate 8 255#8) := congrArg (fun x : Block 8 => beNat x.1) h
      exact absurd ((hv.symm.trans this).trans hf) (by omega)

end Verif.Props
