import Verif.Proof.StreamErr
import Verif.Props.Refused

/-!
# C82: a `finish` that fails has no effect

The streams of all five modes under every history of `write`, `draw_off` and `finish`, for any number of messages, going on after errors.
-/

namespace Verif.Props
open Verif.Model Verif.Spec

variable {c : BlockCipher} {E D : Bytes → Bytes}

/-- ECB encryption: whole blocks are ready at once; `finish` pads, and refuses what is then not a number of blocks. -/
def ecbEncrypting (E : Bytes → Bytes) (n : Nat) (p : Padding) : IdealStream Fault where
  ready m := (ecb E (blocksOf n m)).flatten
  last m k := if (p.padding m).length % n = 0 then .ok ((ecb E (blocksOf n (p.padding m))).flatten.drop k) else .error (.err .invalidParameter)
  next _ _ := ([], 0)

/-- CBC encryption without padding. `finish` does not go back to the IV (C08): what is written next is chained to what went before. -/
def cbcEncrypting (E : Bytes → Bytes) (n : Nat) (iv : Bytes) : IdealStream Fault where
  ready m := (cbcEnc E iv (blocksOf n m)).flatten
  last m k := if m.length % n = 0 then .ok ((cbcEnc E iv (blocksOf n m)).flatten.drop k) else .error (.err .invalidParameter)
  next m _ := (m, (cbcEnc E iv (blocksOf n m)).flatten.length)

/-- ECB and CBC decryption; `dec` decrypts a number of blocks. The last block is held back, and unpadded by `finish`, which refuses the empty and the
truncated ciphertext. -/
def blockDecrypting (dec : List Bytes → List Bytes) (n : Nat) (p : Padding) : IdealStream Fault where
  ready m := (dec (blocksOf n m)).flatten.take (n * ((m.length - 1) / n))
  last m k :=
    if m = [] ∨ m.length % n ≠ 0 then .error (.err .invalidParameter) else
    match p.unpad ((dec (blocksOf n m)).flatten.drop (n * ((m.length - 1) / n))) with
    | .ok t => .ok (((dec (blocksOf n m)).flatten.take (n * ((m.length - 1) / n))).drop k ++ t)
    | .error e => .error e
  next _ _ := ([], 0)

/-- CFB decryption: nothing is held back; `finish` unpads what has not been drawn off, and panics in the middle of a segment (C10). -/
def cfbDecrypting (E : Bytes → Bytes) (s : Nat) (iv : Bytes) (p : Padding) : IdealStream Fault where
  ready m := (cfbDec E s iv (blocksOf s m)).flatten
  last m k := if m.length % s ≠ 0 then .error .panic else p.unpad ((cfbDec E s iv (blocksOf s m)).flatten.drop k)
  next _ _ := ([], 0)

/-- CFB encryption: `finish` pads the pending bytes and encrypts the whole segments of the result (C10). It cannot fail. -/
def cfbEncrypting (E : Bytes → Bytes) (s : Nat) (iv : Bytes) (p : Padding) : IdealStream Fault where
  ready m := (cfbEnc E s iv (blocksOf s m)).flatten
  last m k := .ok ((cfbEnc E s iv (blocksOf s (m.take (s * (m.length / s)) ++ p.padding (m.drop (s * (m.length / s)))))).flatten.drop k)
  next _ _ := ([], 0)

/-- OFB: `finish` cannot fail and goes back to the IV. -/
def ofbStreaming (E : Bytes → Bytes) (n : Nat) (iv : Bytes) : IdealStream Fault where
  ready m := (ofb E n iv m).take (n * (m.length / n))
  last m k := .ok ((ofb E n iv m).drop k)
  next _ _ := ([], 0)

/-- CTR with counter blocks `v 0, v 1, …`: `finish` cannot fail. It does not go back to the first counter block: the next message starts at the first unused
one, as if the last block had been filled up. -/
def ctrStreaming (E : Bytes → Bytes) (n : Nat) (v : Nat → Bytes) : IdealStream Fault where
  ready m := (ctr E n v m).take (n * (m.length / n))
  last m k := .ok ((ctr E n v m).drop k)
  next m _ := (m ++ List.replicate (n * ((m.length + n - 1) / n) - m.length) 0#8, n * ((m.length + n - 1) / n))

/-- C82 (ECB encryption): every history of calls gives the specified results; a failed `finish` changes nothing. -/
theorem C82_ecb_encrypt (h : Lawful c E D) (p : Padding) (hp : p = .defaultOf c ∨ p = .empty) (ops : List SOp) :
    runOps (ECB.encStream c p) (ECB.encAfter c p) ECB.init ops = (ecbEncrypting E c.bs p).run [] 0 ops := by
  refine runOps_ideal (o := []) (ecbEncrypting E c.bs p) (RGe (ECB.encF E) c.bs ()) (fun m o s d hR => ECB.encWrite_inv h d hR)
    (fun _ _ _ hR => hR.draw) (fun m o s hR => ?_) (fun m o s hR => ?_) ops (RGe.init h.pos)
  · rw [(hR.blocks h.pos).1, ECB.runPure_encF]; rfl
  · obtain ⟨b, h1, h2, h3, -, h5⟩ := hR
    rw [ECB.runPure_encF] at h5
    have hm : p.padding m = b.flatten ++ p.padding s.data := by
      rcases hp with rfl | rfl
      · rw [h2]; exact padding_append_blocks h1 h3
      · exact h2
    have hmod : (p.padding m).length % c.bs = (p.padding s.data).length % c.bs := by
      rw [hm, List.length_append, h1.length_flatten, Nat.mul_add_mod]
    by_cases ha : (p.padding s.data).length % c.bs = 0
    · have e := flatten_blocksOf h.pos ha
      have g1 := blocksOf_isBlocks c.bs (p.padding s.data)
      have hfin : ECB.encFinish c p s = .ok (s.pond ++ (ecb E (blocksOf c.bs (p.padding s.data))).flatten, ECB.init) := by
        simp only [ECB.encFinish]
        rw [whileNe_eq (fun _ => True) (ECB.encStep_ok h) g1 h.pos trivial _ _ e.symm, ECB.runPure_encF]
        rfl
      refine .inr ⟨s.pond ++ (ecb E (blocksOf c.bs (p.padding s.data))).flatten, [], ?_, ?_, rfl, ?_⟩
      · simp only [ecbEncrypting]
        rw [if_pos (hmod.trans ha), hm, blocksOf_append h.pos h1]
        simp only [ecb, List.map_append, List.flatten_append]
        simp only [ecb] at h5
        rw [← h5, List.append_assoc, List.drop_left]
      · simp only [ECB.encStream, ECB.encAfter, hfin]
      · simp only [ECB.encAfter, hfin, ecbEncrypting]
        exact RGe.init h.pos
    · have hpe : p = .empty := by
        rcases hp with rfl | rfl
        · exact absurd (by rw [Padding.defaultOf, length_padding_default]; exact padZeros_mod _ h.pos _) ha
        · rfl
      subst hpe
      have hd : s.data ≠ [] := by rintro h0; apply ha; rw [h0]; simp [Padding.padding]
      have hstep : ECB.encStep c () (s.data.take c.bs) = .error (.err .invalidParameter) := by
        rw [List.take_of_length_le (by omega), ECB.encStep, h.encErr _ (by omega)]; rfl
      have hL := whileNe_first_error hd hstep s.pond s.data.length
      have hfin : ECB.encFinish c .empty s = .error (.err .invalidParameter) := by
        simp only [ECB.encFinish, Padding.padding, hL.1]; rfl
      refine .inl ⟨.err .invalidParameter, ?_, hfin, ?_⟩
      · simp only [ecbEncrypting]
        rw [if_neg (fun h0 => ha (hmod.symm.trans h0))]
      · simp only [ECB.encAfter, hfin, Padding.padding, hL.2]

/-- C82 (CBC encryption without padding). -/
theorem C82_cbc_encrypt (h : Lawful c E D) (iv : Bytes) (hiv : iv.length = c.bs) (ops : List SOp) :
    runOps (CBC.encStream c .empty iv) (CBC.encAfter c .empty iv) (CBC.init iv) ops = (cbcEncrypting E c.bs iv).run [] 0 ops := by
  refine runOps_ideal (o := []) (cbcEncrypting E c.bs iv) (RGe (CBC.encF E) c.bs iv) (fun m o s d hR => CBC.encWrite_inv h hiv d hR)
    (fun _ _ _ hR => hR.draw) (fun m o s hR => ?_) (fun m o s hR => ?_) ops (RGe.init h.pos)
  · rw [(hR.blocks h.pos).1, CBC.runPure_encF_snd]; rfl
  · have hal := hR.aligned
    have hbl := (hR.blocks h.pos).1
    rw [CBC.runPure_encF_snd] at hbl
    have hst : s.st.length = c.bs := by
      rw [(hR.blocks h.pos).2]
      exact runPure_inv _ (fun iv => iv.length = c.bs) c.bs (fun s b a b' => (CBC.encStep_ok h s b a b').2) hiv (blocksOf_isBlocks _ _)
    have hlt : s.data.length < c.bs := hR.choose_spec.2.2.1
    by_cases hd : s.data = []
    · have hfin : CBC.encFinish c .empty iv s = .ok (s.pond, { s with pond := [] }) := by
        simp only [CBC.encFinish, Padding.padding, hd, whileNe_nil, bind, Except.bind]
      refine .inr ⟨s.pond, o ++ s.pond, ?_, ?_, ?_, ?_⟩
      · simp only [cbcEncrypting]
        rw [if_pos (by rw [hal, hd]; rfl), ← hbl, List.drop_left]
      · simp only [CBC.encStream, CBC.encAfter, hfin]
      · simp only [cbcEncrypting]; rw [hbl]
      · simp only [CBC.encAfter, hfin, cbcEncrypting]
        exact hR.draw
    · have h0 : 0 < s.data.length := List.length_pos_iff.2 hd
      have hstep : CBC.finStep c iv s.st (s.data.take c.bs) = .error (.err .invalidParameter) := by
        rw [List.take_of_length_le (by omega), CBC.finStep, h.encErr _ (by rw [length_xorBytes]; omega)]; rfl
      have hL := whileNe_first_error hd hstep s.pond s.data.length
      have hfin : CBC.encFinish c .empty iv s = .error (.err .invalidParameter) := by
        simp only [CBC.encFinish, Padding.padding, hL.1]; rfl
      refine .inl ⟨.err .invalidParameter, ?_, hfin, ?_⟩
      · simp only [cbcEncrypting]
        rw [if_neg (by omega)]
      · simp only [CBC.encAfter, hfin, Padding.padding, hL.2]

/-- C82 (ECB decryption), with either padding. -/
theorem C82_ecb_decrypt (h : Lawful c E D) (p : Padding) (ops : List SOp) :
    runOps (ECB.decStream c p) (ECB.decAfter c p) ECB.init ops = (blockDecrypting (ecb D) c.bs p).run [] 0 ops := by
  refine runOps_ideal (o := []) (blockDecrypting (ecb D) c.bs p) (RGt (ECB.encF D) c.bs ()) (fun m o s d hR => ECB.decWrite_inv h d hR)
    (fun _ _ _ hR => hR.draw) (fun m o s hR => ?_) (fun m o s hR => ?_) ops RGt.init
  · exact (hR.split h.pos (dec := ecb D) (fun bl => by rw [ECB.runPure_encF])
      (length_runPure (fun _ => True) (fun _ b _ hb => ⟨trivial, h.lenD b hb⟩) trivial)).1.symm
  · obtain ⟨e1, e2, e3⟩ := hR.split h.pos (dec := ecb D) (fun bl => by rw [ECB.runPure_encF])
      (length_runPure (fun _ => True) (fun _ b _ hb => ⟨trivial, h.lenD b hb⟩) trivial)
    by_cases hd : s.data.length = c.bs
    · have hn : ¬(m = [] ∨ m.length % c.bs ≠ 0) := fun hh => e3.1 hh hd
      have e2 : _ = D s.data := e2 hd
      cases hu : p.unpad (D s.data) with
      | ok t =>
        have hfin : ECB.decFinish c p s = .ok (s.pond ++ t, ECB.init) := by
          simp only [ECB.decFinish, h.dec _ hd, hu, bind, Except.bind]; rfl
        refine .inr ⟨s.pond ++ t, [], ?_, ?_, rfl, ?_⟩
        · simp only [blockDecrypting]
          rw [if_neg hn, e2, hu, e1]
          simp only [List.drop_left]
        · simp only [ECB.decStream, ECB.decAfter, hfin]
        · simp only [ECB.decAfter, hfin, blockDecrypting]; exact RGt.init
      | error e =>
        have hfin : ECB.decFinish c p s = .error e := by
          simp only [ECB.decFinish, h.dec _ hd, hu, bind, Except.bind]
        refine .inl ⟨e, ?_, hfin, by simp only [ECB.decAfter, hfin]⟩
        simp only [blockDecrypting]
        rw [if_neg hn, e2, hu]
    · have hfin : ECB.decFinish c p s = .error (.err .invalidParameter) := by
        simp only [ECB.decFinish, h.decErr _ hd, bind, Except.bind]
      refine .inl ⟨.err .invalidParameter, ?_, hfin, by simp only [ECB.decAfter, hfin]⟩
      simp only [blockDecrypting]
      rw [if_pos (e3.2 hd)]

/-- C82 (CBC decryption), with either padding. -/
theorem C82_cbc_decrypt (h : Lawful c E D) (p : Padding) (iv : Bytes) (hiv : iv.length = c.bs) (ops : List SOp) :
    runOps (CBC.decStream c p iv) (CBC.decAfter c p iv) (CBC.init iv) ops = (blockDecrypting (cbcDec D iv) c.bs p).run [] 0 ops := by
  have hl := length_runPure (f := CBC.decF D) (fun v => v.length = c.bs)
    (fun v b hv hb => ⟨hb, by simp only [CBC.decF, length_xorBytes, h.lenD b hb, hv, Nat.min_self]⟩) hiv
  refine runOps_ideal (o := []) (blockDecrypting (cbcDec D iv) c.bs p) (RGt (CBC.decF D) c.bs iv) (fun m o s d hR => CBC.decWrite_inv h hiv d hR)
    (fun _ _ _ hR => hR.draw) (fun m o s hR => ?_) (fun m o s hR => ?_) ops RGt.init
  · exact (hR.split h.pos (dec := cbcDec D iv) (fun bl => by rw [CBC.runPure_decF_snd]) hl).1.symm
  · obtain ⟨e1, e2, e3⟩ := hR.split h.pos (dec := cbcDec D iv) (fun bl => by rw [CBC.runPure_decF_snd]) hl
    have hst : s.st.length = c.bs := by
      obtain ⟨b, g1, -, -, -, g5⟩ := hR.blocks h.pos
      rw [g5]
      exact runPure_inv _ (fun iv => iv.length = c.bs) c.bs (fun s b a b' => (CBC.sDecStep_ok h s b a b').2) hiv g1
    by_cases hd : s.data.length = c.bs
    · have hn : ¬(m = [] ∨ m.length % c.bs ≠ 0) := fun hh => e3.1 hh hd
      have e2 : _ = xorBytes (D s.data) s.st := e2 hd
      have hD := h.lenD _ hd
      have htxt : xorBytes ((D s.data).take (min (D s.data).length s.st.length)) (s.st.take (min (D s.data).length s.st.length)) ++
          (D s.data).drop (min (D s.data).length s.st.length) = xorBytes (D s.data) s.st := by
        rw [hD, hst, Nat.min_self, List.take_of_length_le (by omega), List.take_of_length_le (by omega), List.drop_of_length_le (by omega),
          List.append_nil]
      cases hu : p.unpad (xorBytes (D s.data) s.st) with
      | ok t =>
        have hfin : CBC.decFinish c p iv s = .ok (s.pond ++ t, CBC.init iv) := by
          simp only [CBC.decFinish, h.dec _ hd, bind, Except.bind, htxt, hu]; rfl
        refine .inr ⟨s.pond ++ t, [], ?_, ?_, rfl, ?_⟩
        · simp only [blockDecrypting]
          rw [if_neg hn, e2, hu, e1]
          simp only [List.drop_left]
        · simp only [CBC.decStream, CBC.decAfter, hfin]
        · simp only [CBC.decAfter, hfin, blockDecrypting]; exact RGt.init
      | error e =>
        have hfin : CBC.decFinish c p iv s = .error e := by
          simp only [CBC.decFinish, h.dec _ hd, bind, Except.bind, htxt, hu]
        refine .inl ⟨e, ?_, hfin, by simp only [CBC.decAfter, hfin]⟩
        simp only [blockDecrypting]
        rw [if_neg hn, e2, hu]
    · have hfin : CBC.decFinish c p iv s = .error (.err .invalidParameter) := by
        simp only [CBC.decFinish, h.decErr _ hd, bind, Except.bind]
      refine .inl ⟨.err .invalidParameter, ?_, hfin, by simp only [CBC.decAfter, hfin]⟩
      simp only [blockDecrypting]
      rw [if_pos (e3.2 hd)]

/-- C82 (CFB decryption), with either padding and every segment size. -/
theorem C82_cfb_decrypt (h : Lawful c E D) (p : Padding) (s : Nat) (hs0 : 0 < s) (hs : s ≤ c.bs) (iv : Bytes) (hiv : iv.length = c.bs)
    (ops : List SOp) :
    runOps (CFB.decStream c p s iv) (CFB.decAfter c p s iv) (CFB.init iv) ops = (cfbDecrypting E s iv p).run [] 0 ops := by
  refine runOps_ideal (o := []) (cfbDecrypting E s iv p) (RGe (CFB.decF E s) s iv) (fun m o u d hR => CFB.decWrite_inv h hs0 hs hiv d hR)
    (fun _ _ _ hR => hR.draw) (fun m o u hR => ?_) (fun m o u hR => ?_) ops (RGe.init hs0)
  · rw [(hR.blocks hs0).1, CFB.runPure_decF_snd]; rfl
  · have hal := hR.aligned
    have hbl := (hR.blocks hs0).1
    rw [CFB.runPure_decF_snd] at hbl
    have hst : u.st.length = c.bs := by
      rw [(hR.blocks hs0).2]; exact CFB.decF_inv h hs hiv (blocksOf_isBlocks _ _)
    have hlt : u.data.length < s := hR.choose_spec.2.2.1
    by_cases hd : u.data = []
    · have hdi := CFB.decryptInner_eq h hs0 hs hst (blocks := []) .nil u.pond [] rfl
      simp only [runPure, cfbDec, List.flatten_nil, List.append_nil] at hdi
      have hz : ¬ m.length % s ≠ 0 := by rw [hal, hd]; simp
      cases hu : p.unpad u.pond with
      | ok t =>
        have hfin : CFB.decFinish c p s iv u = .ok (t, CFB.init iv) := by
          simp only [CFB.decFinish, hd, hdi, hu, bind, Except.bind]; rfl
        have haf : CFB.decAfter c p s iv u = CFB.init iv := by
          simp only [CFB.decAfter, hd, hdi, hu]; rfl
        refine .inr ⟨t, [], ?_, ?_, rfl, ?_⟩
        · simp only [cfbDecrypting]
          rw [if_neg hz, ← hbl, List.drop_left, hu]
        · simp only [CFB.decStream, hfin, haf]
        · rw [haf]; exact RGe.init hs0
      | error e =>
        have hfin : CFB.decFinish c p s iv u = .error e := by
          simp only [CFB.decFinish, hd, hdi, hu, bind, Except.bind]
        refine .inl ⟨e, ?_, hfin, ?_⟩
        · simp only [cfbDecrypting]
          rw [if_neg hz, ← hbl, List.drop_left, hu]
        · simp only [CFB.decAfter, hd, hdi, hu]
          cases u; simp_all
    · have h0 : 0 < u.data.length := List.length_pos_iff.2 hd
      have hstep : CFB.decStep c s u.st (u.data.take s) = .error .panic := by
        rw [List.take_of_length_le (by omega), CFB.decStep, h.enc _ hst]
        simp only [bind, Except.bind]
        rw [if_pos hlt]
      have hL := (whileNe_first_error hd hstep u.pond u.data.length).1
      have hdi : CFB.decryptInner c s u.st u.pond u.data = .error .panic := by
        simp only [CFB.decryptInner, hL]; rfl
      refine .inl ⟨.panic, ?_, ?_, ?_⟩
      · simp only [cfbDecrypting]
        rw [if_pos (by omega)]
      · simp only [CFB.decStream, CFB.decFinish, hdi]; rfl
      · simp only [CFB.decAfter, hdi]

/-- C82 (CFB encryption), with either padding and every segment size. -/
theorem C82_cfb_encrypt (h : Lawful c E D) (p : Padding) (s : Nat) (hs0 : 0 < s) (hs : s ≤ c.bs) (iv : Bytes) (hiv : iv.length = c.bs)
    (ops : List SOp) :
    runOps (CFB.encStream c p s iv) (CFB.encStream c p s iv).after (CFB.init iv) ops = (cfbEncrypting E s iv p).run [] 0 ops := by
  refine runOps_ideal (o := []) (cfbEncrypting E s iv p) (RGe (CFB.encF E s) s iv) (fun m o u d hR => CFB.encWrite_inv h hs0 hs hiv d hR)
    (fun _ _ _ hR => hR.draw) (fun m o u hR => ?_) (fun m o u hR => ?_) ops (RGe.init hs0)
  · rw [(hR.blocks hs0).1, CFB.runPure_encF_snd]; rfl
  · obtain ⟨b, hb, hm, ht, hst, ho⟩ := hR
    obtain ⟨pb, rem, g1, g2, g3⟩ := exists_blocks hs0 (p.padding u.data)
    have hsl : u.st.length = c.bs := by rw [hst]; exact CFB.encF_inv h hs hiv hb
    have hfin : CFB.encFinish c p s iv u = .ok (u.pond ++ (cfbEnc E s u.st pb).flatten, CFB.init iv) := by
      simp only [CFB.encFinish]
      rw [CFB.encryptInner_eq h hs0 hs hsl g1 g2 _ _ g3]; rfl
    have hK : s * (m.length / s) = b.flatten.length := by
      rw [hm, List.length_append, hb.length_flatten, Nat.mul_add_div hs0, Nat.div_eq_of_lt ht, Nat.add_zero]
    refine .inr ⟨u.pond ++ (cfbEnc E s u.st pb).flatten, [], ?_, ?_, rfl, ?_⟩
    · simp only [cfbEncrypting]
      rw [hK, hm, List.take_left, List.drop_left, g3, blocksOf_append hs0 hb, blocksOf_flatten hs0 g1 g2, CFB.cfbEnc_append, List.flatten_append,
        ← CFB.runPure_encF_snd, ← ho, ← hst, List.append_assoc, List.drop_left]
    · simp only [Stream.after, CFB.encStream, hfin]
    · simp only [Stream.after, CFB.encStream, hfin]; exact RGe.init hs0

/-- C82 (OFB, both directions). -/
theorem C82_ofb (h : Lawful c E D) (iv : Bytes) (hiv : iv.length = c.bs) (ops : List SOp) :
    runOps (OFB.stream c iv) (OFB.stream c iv).after (OFB.init iv) ops = (ofbStreaming E c.bs iv).run [] 0 ops := by
  refine runOps_ideal (o := []) (ofbStreaming E c.bs iv) (RGe (OFB.stepF E) c.bs iv) (fun m o u d hR => OFB.write_inv h hiv d hR)
    (fun _ _ _ hR => hR.draw) (fun m o u hR => ?_) (fun m o u hR => ?_) ops (RGe.init h.pos)
  · obtain ⟨b, hb, hm, ht, hst, ho⟩ := hR
    have hK : c.bs * (m.length / c.bs) = (ofb E c.bs iv b.flatten).length := by
      rw [ofb, length_streamXor _ h.pos (OFB.length_ofbBlock h hiv), hm, List.length_append, hb.length_flatten, Nat.mul_add_div h.pos,
        Nat.div_eq_of_lt ht, Nat.add_zero]
    simp only [ofbStreaming]
    rw [hK, ho, hm, OFB.ofb_tail h hiv hb ht, List.take_left, OFB.runPure_stepF_snd h hiv hb]
  · obtain ⟨b, hb, hm, ht, hst, ho⟩ := hR
    have hsl : u.st.length = c.bs := by rw [hst]; exact OFB.stepF_inv h hiv hb
    have hfin : OFB.finish c iv u = .ok (u.pond ++ xorBytes u.data (E u.st), OFB.init iv) := by
      unfold OFB.finish
      by_cases hd : u.data = []
      · rw [if_pos (by simp [hd])]; simp [hd, xorBytes, OFB.init]
      · rw [if_neg (by simpa using hd), h.enc _ hsl]
        simp only [bind, Except.bind, OFB.init]
        rw [xorBytes_take_right]
    refine .inr ⟨u.pond ++ xorBytes u.data (E u.st), [], ?_, ?_, rfl, ?_⟩
    · simp only [ofbStreaming]
      rw [hm, OFB.ofb_tail h hiv hb ht, ← OFB.runPure_stepF_snd h hiv hb, ← ho, ← hst, List.append_assoc, List.drop_left]
    · simp only [Stream.after, OFB.stream, hfin]
    · simp only [Stream.after, OFB.stream, hfin]; exact RGe.init h.pos

/-- C82 (CTR, both directions), for every counter that yields a block each time. -/
theorem C82_ctr {κ : Type} {ops : CounterOps κ} (h : Lawful c E D) (k : κ) (v : Nat → Bytes)
    (hv : ∀ i, ops.value (ops.reset k) i = some (v i) ∧ c.bs ≤ (v i).length) (calls : List SOp) :
    runOps (CTR.stream c ops) (CTR.stream c ops).after (CTR.init ops k) calls =
      (ctrStreaming E c.bs (fun i => (v i).take c.bs)).run [] 0 calls := by
  have hk : CTR.Good c ops (ops.reset k) := fun i => ⟨v i, hv i⟩
  have hin : CTR.input c ops (ops.reset k) = fun i => (v i).take c.bs := by funext i; simp [CTR.input, (hv i).1]
  rw [← hin]
  have hlen : ∀ x, (ctr E c.bs (CTR.input c ops (ops.reset k)) x).length = x.length := fun x =>
    length_streamXor _ h.pos (fun i => h.lenE _ (CTR.length_input hk i)) x
  refine runOps_ideal (o := []) (ctrStreaming E c.bs (CTR.input c ops (ops.reset k))) (RGe (CTR.stepF c E ops) c.bs (ops.reset k))
    (fun m o u d hR => CTR.write_inv h hk d hR) (fun _ _ _ hR => hR.draw) (fun m o u hR => ?_) (fun m o u hR => ?_) calls (RGe.init h.pos)
  · obtain ⟨b, hb, hm, ht, hst, ho⟩ := hR
    have hK : c.bs * (m.length / c.bs) = (ctr E c.bs (CTR.input c ops (ops.reset k)) b.flatten).length := by
      rw [hlen, hm, List.length_append, hb.length_flatten, Nat.mul_add_div h.pos, Nat.div_eq_of_lt ht, Nat.add_zero]
    simp only [ctrStreaming]
    rw [hK, ho, hm, CTR.ctr_tail h hk hb ht, List.take_left, CTR.runPure_stepF_snd h hk hb]
  · obtain ⟨b, hb, hm, ht, hst, ho⟩ := hR
    rw [CTR.runPure_stepF_fst] at hst
    have hg : CTR.Good c ops u.st := by rw [hst]; exact hk.after _
    have hfin := CTR.encryptInner_eq h hg u.pond u.data
    have hfin : CTR.finish c ops u = .ok (u.pond ++ ctr E c.bs (CTR.input c ops u.st) u.data,
        { data := [], pond := [], st := ops.after u.st (CTR.calls c.bs u.data.length) }) := by
      unfold CTR.finish; rw [hfin]; rfl
    have hcalls : (m.length + c.bs - 1) / c.bs = b.length + CTR.calls c.bs u.data.length := by
      have := h.pos
      rw [CTR.calls, hm, List.length_append, hb.length_flatten,
        show c.bs * b.length + u.data.length + c.bs - 1 = c.bs * b.length + (u.data.length + c.bs - 1) by omega, Nat.mul_add_div h.pos]
    have hge : m.length ≤ c.bs * ((m.length + c.bs - 1) / c.bs) := by
      have h1 := Nat.div_add_mod (m.length + c.bs - 1) c.bs
      have h2 := Nat.mod_lt (m.length + c.bs - 1) h.pos
      omega
    have hl' : (m ++ List.replicate (c.bs * ((m.length + c.bs - 1) / c.bs) - m.length) 0#8).length =
        c.bs * (b.length + CTR.calls c.bs u.data.length) := by
      rw [List.length_append, List.length_replicate, ← hcalls]; omega
    have hmod : (m ++ List.replicate (c.bs * ((m.length + c.bs - 1) / c.bs) - m.length) 0#8).length % c.bs = 0 := by
      rw [hl', Nat.mul_mod_right]
    have hfl := flatten_blocksOf h.pos hmod
    have hbl := blocksOf_isBlocks c.bs (m ++ List.replicate (c.bs * ((m.length + c.bs - 1) / c.bs) - m.length) 0#8)
    generalize hB : blocksOf c.bs (m ++ List.replicate (c.bs * ((m.length + c.bs - 1) / c.bs) - m.length) 0#8) = B at hfl hbl
    have hBl : B.length = b.length + CTR.calls c.bs u.data.length := by
      have := hbl.length_flatten
      rw [hfl, hl'] at this
      exact (Nat.eq_of_mul_eq_mul_left h.pos this).symm
    refine .inr ⟨u.pond ++ ctr E c.bs (CTR.input c ops u.st) u.data, (runPure (CTR.stepF c E ops) (ops.reset k) B).2, ?_, ?_, ?_, ?_⟩
    · simp only [ctrStreaming]
      rw [hm, CTR.ctr_tail h hk hb ht, ← CTR.runPure_stepF_snd h hk hb, ← ho, ← hst, List.append_assoc, List.drop_left]
    · simp only [Stream.after, CTR.stream, hfin]
    · simp only [ctrStreaming]
      rw [CTR.runPure_stepF_snd h hk hbl, hlen, hfl, hl', hcalls]
    · simp only [Stream.after, CTR.stream, hfin, ctrStreaming]
      refine ⟨B, hbl, by simp only [List.append_nil]; exact hfl.symm, h.pos, ?_, by simp⟩
      rw [CTR.runPure_stepF_fst, hBl, hst]
      exact ops.after_after _ _ _

/-- C82, as a comparison of two runs: leave the failing `finish` calls out of a history, and the results of all other calls are the same. -/
theorem C82_failed_finish_invisible (h : Lawful c E D) (p : Padding) (hp : p = .defaultOf c ∨ p = .empty) (iv : Bytes) (hiv : iv.length = c.bs)
    (s : Nat) (hs0 : 0 < s) (hs : s ≤ c.bs) (ops : List SOp) :
    (runOps (ECB.encStream c p) (ECB.encAfter c p) ECB.init ops).filter Except.isOk =
      runOps (ECB.encStream c p) (ECB.encAfter c p) ECB.init ((ecbEncrypting E c.bs p).succeeding [] 0 ops) ∧
    (runOps (CBC.encStream c .empty iv) (CBC.encAfter c .empty iv) (CBC.init iv) ops).filter Except.isOk =
      runOps (CBC.encStream c .empty iv) (CBC.encAfter c .empty iv) (CBC.init iv) ((cbcEncrypting E c.bs iv).succeeding [] 0 ops) ∧
    (runOps (ECB.decStream c p) (ECB.decAfter c p) ECB.init ops).filter Except.isOk =
      runOps (ECB.decStream c p) (ECB.decAfter c p) ECB.init ((blockDecrypting (ecb D) c.bs p).succeeding [] 0 ops) ∧
    (runOps (CBC.decStream c p iv) (CBC.decAfter c p iv) (CBC.init iv) ops).filter Except.isOk =
      runOps (CBC.decStream c p iv) (CBC.decAfter c p iv) (CBC.init iv) ((blockDecrypting (cbcDec D iv) c.bs p).succeeding [] 0 ops) ∧
    (runOps (CFB.decStream c p s iv) (CFB.decAfter c p s iv) (CFB.init iv) ops).filter Except.isOk =
      runOps (CFB.decStream c p s iv) (CFB.decAfter c p s iv) (CFB.init iv) ((cfbDecrypting E s iv p).succeeding [] 0 ops) := by
  refine ⟨?_, ?_, ?_, ?_, ?_⟩
  · rw [C82_ecb_encrypt h p hp, C82_ecb_encrypt h p hp, IdealStream.run_succeeding]
  · rw [C82_cbc_encrypt h iv hiv, C82_cbc_encrypt h iv hiv, IdealStream.run_succeeding]
  · rw [C82_ecb_decrypt h p, C82_ecb_decrypt h p, IdealStream.run_succeeding]
  · rw [C82_cbc_decrypt h p iv hiv, C82_cbc_decrypt h p iv hiv, IdealStream.run_succeeding]
  · rw [C82_cfb_decrypt h p s hs0 hs iv hiv, C82_cfb_decrypt h p s hs0 hs iv hiv, IdealStream.run_succeeding]

/-- C82, a consequence: a message that ended too early is completed by writing the rest and calling `finish` again. -/
theorem C82_complete_later (h : Lawful c E D) (iv m₁ m₂ : Bytes) (hiv : iv.length = c.bs) (h1 : m₁.length % c.bs ≠ 0)
    (h2 : (m₁ ++ m₂).length % c.bs = 0) :
    runOps (ECB.encStream c .empty) (ECB.encAfter c .empty) ECB.init [.write m₁, .finish, .write m₂, .finish] =
      [.ok [], .error (.err .invalidParameter), .ok [], .ok (ecb E (blocksOf c.bs (m₁ ++ m₂))).flatten] ∧
    runOps (CBC.encStream c .empty iv) (CBC.encAfter c .empty iv) (CBC.init iv) [.write m₁, .finish, .write m₂, .finish] =
      [.ok [], .error (.err .invalidParameter), .ok [], .ok (cbcEnc E iv (blocksOf c.bs (m₁ ++ m₂))).flatten] := by
  constructor
  · rw [C82_ecb_encrypt h .empty (.inr rfl)]
    rw [List.length_append] at h2
    simp [IdealStream.run, ecbEncrypting, Padding.padding, h1, h2]
  · rw [C82_cbc_encrypt h iv hiv]
    rw [List.length_append] at h2
    simp [IdealStream.run, cbcEncrypting, h1, h2]

/-- C75 is false of the code for CFB too: for every cipher, segment size, IV and every number of segments `b` without the padding marker, `finish` refuses
the encryption of `b`, and the next draw hands `b` out. -/
theorem C75_cfb_refuted (h : Lawful c E D) (s : Nat) (hs0 : 0 < s) (hs : s ≤ c.bs) (iv : Bytes) (hiv : iv.length = c.bs) (b : List Bytes)
    (hb : IsBlocks s b) (hm : 0x80#8 ∉ b.flatten) :
    runOps (CFB.decStream c (.defaultOf c) s iv) (CFB.decAfter c (.defaultOf c) s iv) (CFB.init iv)
        [.write (cfbEnc E s iv b).flatten, .finish, .draw] =
      [.ok [], .error (.err .unpaddingNotMatch), .ok b.flatten] := by
  have e1 := CFB.cfbEnc_isBlocks h hs hiv hb
  have e2 := CFB.cfb_inv h hs hiv hb
  have hl : (cfbEnc E s iv b).flatten.length % s = 0 := by rw [e1.length_flatten, Nat.mul_mod_right]
  rw [C82_cfb_decrypt h _ s hs0 hs iv hiv]
  simp only [IdealStream.run, cfbDecrypting, List.nil_append]
  rw [if_neg (fun hh => hh hl), blocksOf_flatten' hs0 e1, e2, List.drop_zero, Padding.defaultOf, unpad_no_marker _ _ hm]

/-- A history with three messages, two refused endings and draws in between (blocks of two bytes, no padding, ECB). -/
example : runOps (ECB.encStream (Toy.cipher 2) .empty) (ECB.encAfter (Toy.cipher 2) .empty) ECB.init
    [.write [1], .finish, .draw, .write [2, 3], .draw, .finish, .write [4], .finish, .finish] =
    [.ok [], .error (.err .invalidParameter), .ok [], .ok [], .ok [3, 2], .error (.err .invalidParameter), .ok [], .ok [5, 4], .ok []] := by decide

/-- The same in CBC. -/
example : runOps (CBC.encStream (Toy.cipher 2) .empty [7, 7]) (CBC.encAfter (Toy.cipher 2) .empty [7, 7]) (CBC.init [7, 7])
    [.write [1], .finish, .write [2, 3], .draw, .finish, .write [4], .finish] =
    [.ok [], .error (.err .invalidParameter), .ok [], .ok [6, 7], .error (.err .invalidParameter), .ok [], .ok [4, 6]] := by decide

end Verif.Props
