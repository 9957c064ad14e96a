import Verif.Proof.Live
import Verif.Props.ECB
import Verif.Props.CBC
import Verif.Props.OFB
import Verif.Props.CTR
import Verif.Props.ModesExact

/-! Properties C123, C124 -/

namespace Verif.Props
open Verif.Model Verif.Spec

variable {c : BlockCipher} {E D : Bytes → Bytes} {κ : Type} {cops : CounterOps κ}

private theorem xor_len {a b : Bytes} {n : Nat} (h1 : a.length = n) (h2 : b.length = n) : (xorBytes a b).length = n := by
  rw [length_xorBytes]; omega

/-- C123, ECB: in any schedule the receiver has an initial part of what was sent; once all that is ready has arrived and been drawn off it has every whole
block but the last one. -/
theorem C123_ecb_delivers (h : Lawful c E D) (p : Padding) :
    LiveDelivers (ECB.encStream c p) (ECB.decStream c p) ECB.init ECB.init (fun l => c.bs * (l / c.bs - 1)) :=
  delivers_gt (P := fun _ => True) h.pos (fun _ b _ hb => ⟨h.lenE b hb, trivial, by simp only [ECB.encF, h.DE b hb]⟩) trivial
    (fun _ _ _ d hR => ECB.encWrite_inv h d hR) (fun _ _ _ d hR => ECB.decWrite_inv h d hR)

/-- C123, CBC: the same. -/
theorem C123_cbc_delivers (h : Lawful c E D) (p : Padding) (iv : Bytes) (hiv : iv.length = c.bs) :
    LiveDelivers (CBC.encStream c p iv) (CBC.decStream c p iv) (CBC.init iv) (CBC.init iv) (fun l => c.bs * (l / c.bs - 1)) :=
  delivers_gt (P := fun v => v.length = c.bs) h.pos
    (fun v b hv hb => by
      have hx := xor_len hb hv
      refine ⟨h.lenE _ hx, h.lenE _ hx, ?_⟩
      simp only [CBC.encF, CBC.decF, h.DE _ hx]
      rw [xorBytes_cancel b v (by omega)]) hiv
    (fun _ _ _ d hR => CBC.encWrite_inv h hiv d hR) (fun _ _ _ d hR => CBC.decWrite_inv h hiv d hR)

/-- C123, CFB with any segment size: the receiver has every whole segment. -/
theorem C123_cfb_delivers (h : Lawful c E D) {s : Nat} (hs0 : 0 < s) (hs : s ≤ c.bs) (p : Padding) (iv : Bytes) (hiv : iv.length = c.bs) :
    LiveDelivers (CFB.encStream c p s iv) (CFB.decStream c p s iv) (CFB.init iv) (CFB.init iv) (fun l => s * (l / s)) :=
  delivers_ge (P := fun v => v.length = c.bs) hs0
    (fun v b hv hb => by
      have hk : ((E v).take s).length = s := by rw [List.length_take, h.lenE v hv]; omega
      have hx := xor_len hb hk
      refine ⟨hx, ?_, ?_⟩
      · simp only [CFB.encF, List.length_append, List.length_drop, hv]; omega
      · simp only [CFB.encF, CFB.decF]
        rw [xorBytes_cancel b _ (by omega)]) hiv
    (fun _ _ _ d hR => CFB.encWrite_inv h hs0 hs hiv d hR) (fun _ _ _ d hR => CFB.decWrite_inv h hs0 hs hiv d hR)

/-- C123, OFB: the receiver has every whole block. -/
theorem C123_ofb_delivers (h : Lawful c E D) (iv : Bytes) (hiv : iv.length = c.bs) :
    LiveDelivers (OFB.stream c iv) (OFB.stream c iv) (OFB.init iv) (OFB.init iv) (fun l => c.bs * (l / c.bs)) :=
  delivers_ge (P := fun v => v.length = c.bs) h.pos
    (fun v b hv hb => by
      have hk := h.lenE v hv
      refine ⟨xor_len hb hk, hk, ?_⟩
      simp only [OFB.stepF]
      rw [xorBytes_cancel b _ (by omega)]) hiv
    (fun _ _ _ d hR => OFB.write_inv h hiv d hR) (fun _ _ _ d hR => OFB.write_inv h hiv d hR)

private theorem ofb_message (h : Lawful c E D) (iv : Bytes) (hiv : iv.length = c.bs) (ops : List LiveOp) (ho : Open ops) (k : Nat)
    (hk : (sent ops).length + 0 ≤ k) :
    Live.run (OFB.stream c iv) (OFB.stream c iv) (Live.start (OFB.init iv) (OFB.init iv)) (ops ++ [.close, .deliver k, .last]) =
      .ok ⟨OFB.init iv, [], OFB.init iv, sent ops⟩ :=
  message_of (C123_ofb_delivers h iv hiv) (R := RGe (OFB.stepF E) c.bs iv) (Q := RGe (OFB.stepF E) c.bs iv) (RGe.init h.pos) (RGe.init h.pos)
    (fun _ _ _ d hR => OFB.write_inv h hiv d hR) (fun _ _ _ hR => hR.draw) (fun _ _ _ d hR => OFB.write_inv h hiv d hR) (fun _ _ _ hR => hR.draw) ho
    (ct := ofb E c.bs iv (sent ops))
    ⟨by rw [(C13_ofb_roundtrip h iv _ hiv).2.1]; omega,
      fun ops ho => by rw [C13_ofb_stream h iv hiv ops, ho],
      fun ops _ _ ho _ _ => by
        rw [C13_ofb_stream h iv hiv ops, ho]
        exact congrArg (fun x => Except.ok (x, _)) (streamXor_invol _ h.pos (OFB.length_ofbBlock h hiv) _)⟩ k hk

/-- C123, OFB, the end of the message: the receiver has it all, whatever its length. -/
theorem C123_ofb_ends (h : Lawful c E D) (iv : Bytes) (hiv : iv.length = c.bs) :
    LiveEnds (OFB.stream c iv) (OFB.stream c iv) (OFB.init iv) (OFB.init iv) (fun _ => True) 0 :=
  ends_of_message fun ops ho _ k hk => ⟨_, _, ofb_message h iv hiv ops ho k hk⟩

/-- C124, OFB: any number of messages arrive over one connection. -/
theorem C124_ofb (h : Lawful c E D) (iv : Bytes) (hiv : iv.length = c.bs) :
    LiveSessions (OFB.stream c iv) (OFB.stream c iv) (OFB.init iv) (OFB.init iv) (fun _ => True) 0 :=
  sessions_of (fun s r => s = OFB.init iv ∧ r = OFB.init iv)
    (by rintro s r ⟨rfl, rfl⟩ ops ho - k hk; exact ⟨_, _, ⟨rfl, rfl⟩, ofb_message h iv hiv ops ho k hk⟩) ⟨rfl, rfl⟩

private theorem ctr_delivers (h : Lawful c E D) {k : κ} (hk : CTR.Good c cops k) :
    LiveDelivers (CTR.stream c cops) (CTR.stream c cops) ⟨[], [], k⟩ ⟨[], [], k⟩ (fun l => c.bs * (l / c.bs)) :=
  delivers_ge (P := CTR.Good c cops) h.pos
    (fun w b hw hb => by
      have hl := h.lenE _ (CTR.length_input hw 0)
      refine ⟨xor_len hb hl, hw.next, ?_⟩
      simp only [CTR.stepF]
      rw [xorBytes_cancel b _ (by omega)]) hk
    (fun _ _ _ d hR => CTR.write_inv h hk d hR) (fun _ _ _ d hR => CTR.write_inv h hk d hR)

/-- C123, CTR with any counter whose values are at least a block long: the receiver has every whole block. -/
theorem C123_ctr_delivers (h : Lawful c E D) (k : κ) (v : Nat → Bytes)
    (hv : ∀ i, cops.value (cops.reset k) i = some (v i) ∧ c.bs ≤ (v i).length) :
    LiveDelivers (CTR.stream c cops) (CTR.stream c cops) (CTR.init cops k) (CTR.init cops k) (fun l => c.bs * (l / c.bs)) :=
  ctr_delivers h fun i => ⟨v i, hv i⟩

private theorem ctr_message (h : Lawful c E D) {x : κ} (hx : CTR.Good c cops x) (ops : List LiveOp) (ho : Open ops) (k : Nat)
    (hk : (sent ops).length + 0 ≤ k) :
    Live.run (CTR.stream c cops) (CTR.stream c cops) (Live.start ⟨[], [], x⟩ ⟨[], [], x⟩) (ops ++ [.close, .deliver k, .last]) =
      .ok ⟨⟨[], [], cops.after x (CTR.calls c.bs (sent ops).length)⟩, [], ⟨[], [], cops.after x (CTR.calls c.bs (sent ops).length)⟩, sent ops⟩ :=
  have hlen : ∀ i, (E (CTR.input c cops x i)).length = c.bs := fun i => h.lenE _ (CTR.length_input hx i)
  have hl : ∀ m, (ctr E c.bs (CTR.input c cops x) m).length = m.length := fun m => length_streamXor _ h.pos hlen m
  message_of (ctr_delivers h hx) (R := RGe (CTR.stepF c E cops) c.bs x) (Q := RGe (CTR.stepF c E cops) c.bs x) (RGe.init h.pos) (RGe.init h.pos)
    (fun _ _ _ d hR => CTR.write_inv h hx d hR) (fun _ _ _ hR => hR.draw) (fun _ _ _ d hR => CTR.write_inv h hx d hR) (fun _ _ _ hR => hR.draw) ho
    (ct := ctr E c.bs (CTR.input c cops x) (sent ops))
    ⟨by rw [hl]; omega,
      fun ops ho => by rw [ctr_run h hx ops, ho],
      fun ops _ _ ho _ _ => by
        rw [ctr_run h hx ops, ho, hl]
        exact congrArg (fun x => Except.ok (x, _)) (streamXor_invol _ h.pos hlen _)⟩ k hk

/-- C123, CTR, the end of the message. -/
theorem C123_ctr_ends (h : Lawful c E D) (k : κ) (v : Nat → Bytes)
    (hv : ∀ i, cops.value (cops.reset k) i = some (v i) ∧ c.bs ≤ (v i).length) :
    LiveEnds (CTR.stream c cops) (CTR.stream c cops) (CTR.init cops k) (CTR.init cops k) (fun _ => True) 0 :=
  ends_of_message fun ops ho _ j hj => ⟨_, _, ctr_message h (fun i => ⟨v i, hv i⟩) ops ho j hj⟩

/-- C124, CTR: any number of messages arrive over one connection; both ends go on counting. -/
theorem C124_ctr (h : Lawful c E D) (k : κ) (v : Nat → Bytes)
    (hv : ∀ i, cops.value (cops.reset k) i = some (v i) ∧ c.bs ≤ (v i).length) :
    LiveSessions (CTR.stream c cops) (CTR.stream c cops) (CTR.init cops k) (CTR.init cops k) (fun _ => True) 0 :=
  sessions_of (fun s r => ∃ x, CTR.Good c cops x ∧ s = ⟨[], [], x⟩ ∧ r = ⟨[], [], x⟩)
    (by rintro s r ⟨x, hx, rfl, rfl⟩ ops ho - k hk; exact ⟨_, _, ⟨_, hx.after _, rfl, rfl⟩, ctr_message h hx ops ho k hk⟩)
    ⟨_, fun i => ⟨v i, hv i⟩, rfl, rfl⟩

/-- Messages that the decrypting ECB and CBC streams can end: default padding unless the message is one byte short of whole blocks, or no padding and whole
blocks, at least one. -/
def CanEnd (c : BlockCipher) (p : Padding) (m : Bytes) : Prop :=
  (p = .defaultOf c ∧ (m.length + 1) % c.bs ≠ 0) ∨ (p = .empty ∧ m ≠ [] ∧ m.length % c.bs = 0)

private theorem padded_length (h : Lawful c E D) {p : Padding} {m : Bytes} (hp : CanEnd c p m) :
    (p.padding m).length ≤ m.length + c.bs ∧ (p.padding m).length % c.bs = 0 := by
  rcases hp with ⟨rfl, hne⟩ | ⟨rfl, -, hz⟩
  · have hl := length_padding_default c.bs m
    have hm := padZeros_mod c.bs h.pos m.length
    rw [show Padding.defaultOf c = .default c.bs from rfl]
    refine ⟨?_, by rw [hl]; exact hm⟩
    rw [hl]
    unfold padZeros at hm ⊢
    split
    · have := Nat.pos_of_ne_zero hne
      have := Nat.mod_lt (m.length + 1) h.pos
      omega
    · split
      · omega
      · have : m.length + 1 = c.bs := by omega
        rw [this, Nat.mod_self] at hne
        exact absurd rfl hne
  · exact ⟨by simp [Padding.padding], by simpa [Padding.padding] using hz⟩

private theorem blocks_length {n : Nat} {m : Bytes} (hm : m.length % n = 0) : n * (blocksOf n m).length = m.length := by
  simp only [blocksOf, List.length_map, List.length_range]
  have := Nat.div_add_mod m.length n
  omega

private theorem ecb_message (h : Lawful c E D) (p : Padding) (ops : List LiveOp) (ho : Open ops) (hm : CanEnd c p (sent ops)) (k : Nat)
    (hk : (sent ops).length + c.bs ≤ k) :
    Live.run (ECB.encStream c p) (ECB.decStream c p) (Live.start ECB.init ECB.init) (ops ++ [.close, .deliver k, .last]) =
      .ok ⟨ECB.init, [], ECB.init, sent ops⟩ := by
  have hpo : PadOk p c.bs c.bs (sent ops) := by
    rcases hm with ⟨rfl, _⟩ | ⟨rfl, _, h3⟩
    · exact .inl rfl
    · exact .inr ⟨rfl, h3⟩
  obtain ⟨hl, hz⟩ := padded_length h hm
  have he : ECB.encrypt c p (sent ops) = .ok (ecb E (blocksOf c.bs (p.padding (sent ops)))).flatten := by
    clear ho hk
    generalize sent ops = m at *
    rcases hm with ⟨rfl, _⟩ | ⟨rfl, _, h3⟩
    · obtain ⟨blocks, t, hb, ht, rfl⟩ := exists_blocks h.pos m
      obtain ⟨pb, h1, h2, -⟩ := padOk_blocks h.pos (Nat.dvd_refl _) h.pos hb ht hpo
      rw [show (Padding.defaultOf c).padding (blocks.flatten ++ t) = blocks.flatten ++ (Padding.defaultOf c).padding t from padding_append_blocks hb ht, h2,
        blocksOf_append h.pos hb, blocksOf_flatten' h.pos h1]
      exact ECB.encrypt_eq h hb ht h1 h2
    · exact (C04_ecb_roundtrip_empty h m h3).1
  refine message_of (C123_ecb_delivers h p) (R := RGe (ECB.encF E) c.bs ()) (Q := RGt (ECB.encF D) c.bs ()) (RGe.init h.pos) RGt.init
    (fun _ _ _ d hR => ECB.encWrite_inv h d hR) (fun _ _ _ hR => hR.draw) (fun _ _ _ d hR => ECB.decWrite_inv h d hR) (fun _ _ _ hR => hR.draw) ho
    ⟨?_, fun ops ho => ?_, fun ops _ _ ho _ _ => C06_ecb_stream_decrypt_partial h p _ ops hm _ he ho⟩ k hk
  · rw [(ECB.ecb_isBlocks h (blocksOf_isBlocks _ _)).length_flatten, ecb, List.length_map, blocks_length hz]
    exact hl
  · obtain ⟨ct, g1, g2⟩ := C05_ecb_stream_encrypt h p ops (by rw [ho]; exact hpo)
    rw [ho, he] at g1
    cases g1
    exact g2

/-- C123, ECB, the end of the message, the part that holds. Missing: messages one byte short of whole blocks under the default padding, and the empty
message without padding (C06). -/
theorem C123_ecb_ends_partial (h : Lawful c E D) (p : Padding) :
    LiveEnds (ECB.encStream c p) (ECB.decStream c p) ECB.init ECB.init (CanEnd c p) c.bs :=
  ends_of_message fun ops ho hm k hk => ⟨_, _, ecb_message h p ops ho hm k hk⟩

/-- C124, ECB: any number of messages that can be ended arrive over one connection. -/
theorem C124_ecb_partial (h : Lawful c E D) (p : Padding) :
    LiveSessions (ECB.encStream c p) (ECB.decStream c p) ECB.init ECB.init (CanEnd c p) c.bs :=
  sessions_of (fun s r => s = ECB.init ∧ r = ECB.init)
    (by rintro s r ⟨rfl, rfl⟩ ops ho hm k hk; exact ⟨_, _, ⟨rfl, rfl⟩, ecb_message h p ops ho hm k hk⟩) ⟨rfl, rfl⟩

private theorem cbcEnc_length (E : Bytes → Bytes) (iv : Bytes) (l : List Bytes) : (cbcEnc E iv l).length = l.length := by
  induction l generalizing iv with
  | nil => rfl
  | cons x l ih => simp [cbcEnc, ih]

private theorem cbc_default_stream (h : Lawful c E D) (iv : Bytes) (hiv : iv.length = c.bs) (ops : List (Bytes × Bool))
    (hne : ((written ops).length + 1) % c.bs ≠ 0) :
    runStream (CBC.encStream c (.defaultOf c) iv) (CBC.init iv) ops =
      .ok ((cbcEnc E iv (blocksOf c.bs ((Padding.defaultOf c).padding (written ops)))).flatten, CBC.init iv) := by
  obtain ⟨blocks, t, hb, ht, hw⟩ := exists_blocks h.pos (written ops)
  have ht1 : t.length + 1 ≠ c.bs := by
    intro he; apply hne
    rw [hw, List.length_append, hb.length_flatten, Nat.add_assoc, he, Nat.mul_add_mod, Nat.mod_self]
  have hlen := padded_tail_length ht
  rw [if_neg ht1] at hlen
  have hpb : IsBlocks c.bs [(Padding.default c.bs).padding t] := .cons hlen .nil
  have hr := CBC.stream_eq h (.defaultOf c) hiv ops hb ht hw hpb (by simp [Padding.defaultOf])
  have hpad := padding_append_blocks hb ht
  rw [← hw] at hpad
  have hbl : blocksOf c.bs ((Padding.defaultOf c).padding (written ops)) = blocks ++ [(Padding.default c.bs).padding t] := by
    rw [show (Padding.defaultOf c).padding (written ops) = _ from hpad, blocksOf_append h.pos hb]
    congr 1
    have := blocksOf_flatten' h.pos hpb
    simpa using this
  rw [hr, hbl, CBC.cbcEnc_append]
  simp [CBC.finOut, CBC.finSt, CBC.init]

private theorem cbc_message (h : Lawful c E D) (p : Padding) (iv : Bytes) (hiv : iv.length = c.bs) (ops : List LiveOp) (ho : Open ops)
    (hm : CanEnd c p (sent ops)) (k : Nat) (hk : (sent ops).length + c.bs ≤ k) :
    ∃ s1, (p = .defaultOf c → s1 = CBC.init iv) ∧ (p = .empty → s1 = CBC.init (chainValue E iv (blocksOf c.bs (sent ops)))) ∧
      Live.run (CBC.encStream c p iv) (CBC.decStream c p iv) (Live.start (CBC.init iv) (CBC.init iv)) (ops ++ [.close, .deliver k, .last]) =
        .ok ⟨s1, [], CBC.init iv, sent ops⟩ := by
  obtain ⟨hl, hz⟩ := padded_length h hm
  obtain ⟨s1, hs1, hs2, he⟩ : ∃ s1, (p = .defaultOf c → s1 = CBC.init iv) ∧
      (p = .empty → s1 = CBC.init (chainValue E iv (blocksOf c.bs (sent ops)))) ∧ ∀ w, written w = sent ops → runStream (CBC.encStream c p iv) (CBC.init iv) w =
      .ok ((cbcEnc E iv (blocksOf c.bs (p.padding (sent ops)))).flatten, s1) := by
    rcases hm with ⟨rfl, hne⟩ | ⟨rfl, -, hz⟩
    · exact ⟨_, fun _ => rfl, fun h => (by cases h), fun w hw => by rw [← hw] at hne ⊢; exact cbc_default_stream h iv hiv w hne⟩
    · exact ⟨CBC.init (chainValue E iv (blocksOf c.bs (sent ops))), fun h => (by cases h), fun _ => rfl, fun w hw => by rw [← hw] at hz ⊢; exact C60_cbc_empty_exact h iv hiv w hz⟩
  refine ⟨s1, hs1, hs2, message_of (C123_cbc_delivers h p iv hiv) (R := RGe (CBC.encF E) c.bs iv) (Q := RGt (CBC.decF D) c.bs iv) (RGe.init h.pos) RGt.init
    (fun _ _ _ d hR => CBC.encWrite_inv h hiv d hR) (fun _ _ _ hR => hR.draw) (fun _ _ _ d hR => CBC.decWrite_inv h hiv d hR) (fun _ _ _ hR => hR.draw) ho
    ⟨?_, he, fun ops _ _ ho _ _ => C09_cbc_stream_decrypt_partial h p iv _ hiv ops hm ho⟩ k hk⟩
  have hb := CBC.cbcEnc_isBlocks h hiv (blocksOf_isBlocks c.bs (p.padding (sent ops)))
  rw [hb.length_flatten, cbcEnc_length, blocks_length hz]
  exact hl

/-- C123, CBC, the end of the message, the part that holds. Missing: messages one byte short of whole blocks under the default padding, and the empty
message without padding (C08, C09). -/
theorem C123_cbc_ends_partial (h : Lawful c E D) (p : Padding) (iv : Bytes) (hiv : iv.length = c.bs) :
    LiveEnds (CBC.encStream c p iv) (CBC.decStream c p iv) (CBC.init iv) (CBC.init iv) (CanEnd c p) c.bs :=
  ends_of_message fun ops ho hm k hk => by
    obtain ⟨s1, -, -, e⟩ := cbc_message h p iv hiv ops ho hm k hk
    exact ⟨_, _, e⟩

/-- C124, CBC with the default padding: any number of messages that can be ended arrive over one connection. -/
theorem C124_cbc_partial (h : Lawful c E D) (iv : Bytes) (hiv : iv.length = c.bs) :
    LiveSessions (CBC.encStream c (.defaultOf c) iv) (CBC.decStream c (.defaultOf c) iv) (CBC.init iv) (CBC.init iv) (CanEnd c (.defaultOf c)) c.bs :=
  sessions_of (fun s r => s = CBC.init iv ∧ r = CBC.init iv)
    (by
      rintro s r ⟨rfl, rfl⟩ ops ho hm k hk
      obtain ⟨s1, hs, -, e⟩ := cbc_message h (.defaultOf c) iv hiv ops ho hm k hk
      exact ⟨_, _, ⟨hs rfl, rfl⟩, e⟩) ⟨rfl, rfl⟩

private theorem cbc_empty_from (h : Lawful c E D) (iv v : Bytes) (hv : v.length = c.bs) (w : List (Bytes × Bool)) (hw : (written w).length % c.bs = 0) :
    runStream (CBC.encStream c .empty iv) (CBC.init v) w =
      .ok ((cbcEnc E v (blocksOf c.bs (written w))).flatten, ⟨[], [], (runPure (CBC.encF E) v (blocksOf c.bs (written w))).1⟩) := by
  obtain ⟨out, s, h1, hR⟩ := feed_inv (str := CBC.encStream c .empty iv) (s := CBC.init v)
    (RGe (CBC.encF E) c.bs v) (fun m o s d hR => CBC.encWrite_inv h hv d hR) (fun _ _ _ hR => hR.draw) w (RGe.init h.pos)
  rw [List.nil_append] at hR
  have hb := hR.blocks h.pos
  obtain ⟨xb, g1, g2, g3, -, -⟩ := hR
  have hd : s.data = [] := by
    rw [g2, List.length_append, g1.length_flatten, Nat.mul_add_mod, Nat.mod_eq_of_lt g3] at hw
    exact List.length_eq_zero_iff.1 hw
  have hfin : (CBC.encStream c .empty iv).finish s = CBC.encFinish c .empty iv s := rfl
  simp only [List.nil_append] at hb
  simp only [runStream, h1, bind, Except.bind, hfin, CBC.encFinish, hd, Padding.padding]
  simp only [whileLen, contNe, List.length_nil]
  simp [hb.1, hb.2, CBC.runPure_encF_snd]

private theorem cbcEnc_other (h : Lawful c E D) {iv v m : Bytes} (hiv : iv.length = c.bs) (hv : v.length = c.bs) (hm : m ≠ [] ∧ m.length % c.bs = 0) :
    cbcEnc E iv (blocksOf c.bs (xorBytes (xorBytes (m.take c.bs) v) iv ++ m.drop c.bs)) = cbcEnc E v (blocksOf c.bs m) := by
  have hl : c.bs ≤ m.length := by
    have h0 := List.length_pos_iff.2 hm.1
    by_contra hc
    have := hm.2
    rw [Nat.mod_eq_of_lt (by omega)] at this
    omega
  have ht : (m.take c.bs).length = c.bs := by rw [List.length_take]; omega
  have hx := xor_len ht hv
  rw [blocksOf_cons h.pos (xor_len hx hiv)]
  conv => rhs; rw [← List.take_append_drop c.bs m, blocksOf_cons h.pos ht]
  simp only [cbcEnc]
  rw [xorBytes_cancel _ iv (by omega)]

/-- C124 is false of CBC without padding, and this is what happens: the sender chains the second message to the last ciphertext block of the first one
(`chainValue`), the receiver starts over from the IV, so the first block of the second message arrives as its xor with that block and the IV. -/
theorem C124_cbc_empty_exact (h : Lawful c E D) (iv : Bytes) (hiv : iv.length = c.bs) (ops ops' : List LiveOp) (ho : Open ops) (ho' : Open ops')
    (hm : sent ops ≠ [] ∧ (sent ops).length % c.bs = 0) (hm' : sent ops' ≠ [] ∧ (sent ops').length % c.bs = 0) (k k' : Nat)
    (hk : (sent ops).length + c.bs ≤ k) (hk' : (sent ops').length + c.bs ≤ k') :
    ∃ L, Live.run (CBC.encStream c .empty iv) (CBC.decStream c .empty iv) (Live.start (CBC.init iv) (CBC.init iv)) (session [(ops, k), (ops', k')]) = .ok L ∧
      L.got = sent ops ++
        (xorBytes (xorBytes ((sent ops').take c.bs) (chainValue E iv (blocksOf c.bs (sent ops)))) iv ++ (sent ops').drop c.bs) := by
  obtain ⟨s1, -, hs, e⟩ := cbc_message h .empty iv hiv ops ho (.inr ⟨rfl, hm⟩) k hk
  have hs := hs rfl
  subst hs
  have hv := chain_len h hiv (blocksOf_isBlocks c.bs (sent ops))
  generalize chainValue E iv (blocksOf c.bs (sent ops)) = v at *
  obtain ⟨L, tx, rx, a, b, e', cn⟩ := Conn.run (enc := CBC.encStream c .empty iv) (dec := CBC.decStream c .empty iv) (s0 := CBC.init v) (r0 := CBC.init iv)
    (R := RGe (CBC.encF E) c.bs v) (Q := RGt (CBC.decF D) c.bs iv)
    (fun _ _ _ d hR => CBC.encWrite_inv h hv d hR) (fun _ _ _ hR => hR.draw) (fun _ _ _ d hR => CBC.decWrite_inv h hiv d hR) (fun _ _ _ hR => hR.draw)
    ops' ho' (Conn.start (RGe.init h.pos) RGt.init)
  rw [List.nil_append] at cn
  have hl : c.bs ≤ (sent ops').length := by
    have h0 := List.length_pos_iff.2 hm'.1
    by_contra hc
    have := hm'.2
    rw [Nat.mod_eq_of_lt (by omega)] at this
    omega
  have hz : (xorBytes (xorBytes ((sent ops').take c.bs) v) iv ++ (sent ops').drop c.bs).length = (sent ops').length := by
    rw [List.length_append, xor_len (n := c.bs) (xor_len (by rw [List.length_take]; omega) hv) hiv, List.length_drop]
    omega
  have hf := cn.finish (s1 := CBC.init (runPure (CBC.encF E) v (blocksOf c.bs (sent ops'))).1) (r1 := CBC.init iv)
    (m' := xorBytes (xorBytes ((sent ops').take c.bs) v) iv ++ (sent ops').drop c.bs)
    (fun w hw => by
      have := cbc_empty_from h iv v hv w (by rw [hw]; exact hm'.2)
      rw [hw] at this
      exact this)
    (fun w _ hw _ => C09_cbc_stream_decrypt_partial h .empty iv _ hiv w
      (.inr ⟨rfl, fun h0 => by rw [h0] at hz; have := h.pos; rw [List.length_nil] at hz; omega, by rw [hz]; exact hm'.2⟩)
      (by rw [hw, Padding.padding, cbcEnc_other h hiv hv hm']))
    (fun _ _ _ d hR => CBC.decWrite_inv h hiv d hR) k'
    (by
      have hb := CBC.cbcEnc_isBlocks h hv (blocksOf_isBlocks c.bs (sent ops'))
      rw [hb.length_flatten, cbcEnc_length, blocks_length hm'.2]; omega)
  have hr := Live.run_append_ok (b := [LiveOp.close, .deliver k', .last]) e'
  rw [hf] at hr
  have := Live.run_got (CBC.encStream c .empty iv) (CBC.decStream c .empty iv) (Live.start (CBC.init v) (CBC.init iv)) (sent ops)
    (ops' ++ [.close, .deliver k', .last])
  rw [hr] at this
  refine ⟨⟨CBC.init (runPure (CBC.encF E) v (blocksOf c.bs (sent ops'))).1, [], CBC.init iv,
    sent ops ++ (xorBytes (xorBytes ((sent ops').take c.bs) v) iv ++ (sent ops').drop c.bs)⟩, ?_, rfl⟩
  rw [session, Live.run_append_ok e, session, session, List.append_nil]
  simpa [Live.start, Except.map] using this

/-- C124 is false of CBC without padding, for every cipher and every IV. -/
theorem C124_cbc_empty_refuted (h : Lawful c E D) (iv : Bytes) (hiv : iv.length = c.bs) :
    ¬ LiveSessions (CBC.encStream c .empty iv) (CBC.decStream c .empty iv) (CBC.init iv) (CBC.init iv) (CanEnd c .empty) c.bs := by
  intro hall
  have hpos := h.pos
  have key : ∀ x : Byte, E (xorBytes (List.replicate c.bs x) iv) = iv := by
    intro x
    let b : Bytes := List.replicate c.bs x
    let z : Bytes := List.replicate c.bs 0#8
    have hb : b.length = c.bs := by simp [b]
    have hz : z.length = c.bs := by simp [z]
    have hne : ∀ v : Bytes, v.length = c.bs → v ≠ [] ∧ v.length % c.bs = 0 := fun v hv => ⟨fun h0 => by rw [h0, List.length_nil] at hv; omega, by rw [hv, Nat.mod_self]⟩
    have hs : ∀ v : Bytes, sent [.send v] = v := fun v => by simp [sent]
    have ho : ∀ v : Bytes, Open [.send v] := fun v => by simp [Open]
    obtain ⟨L, e1, g1⟩ := hall [([.send b], 2 * c.bs), ([.send z], 2 * c.bs)] (by
      intro m hm
      simp only [List.mem_cons, List.not_mem_nil, or_false] at hm
      rcases hm with rfl | rfl
      · exact ⟨ho _, by rw [hs]; exact .inr ⟨rfl, hne b hb⟩, by rw [hs, hb]; omega⟩
      · exact ⟨ho _, by rw [hs]; exact .inr ⟨rfl, hne z hz⟩, by rw [hs, hz]; omega⟩)
    obtain ⟨L', e2, g2⟩ := C124_cbc_empty_exact h iv hiv [.send b] [.send z] (ho _) (ho _) (by rw [hs]; exact hne b hb) (by rw [hs]; exact hne z hz)
      (2 * c.bs) (2 * c.bs) (by rw [hs, hb]; omega) (by rw [hs, hz]; omega)
    rw [e1] at e2
    cases e2
    have hbl : blocksOf c.bs b = [b] := by
      have := blocksOf_flatten' hpos (IsBlocks.cons hb .nil)
      simpa using this
    simp only [List.map_cons, List.map_nil, List.flatten_cons, List.flatten_nil, List.append_nil, hs] at g1
    rw [g1, hs, hs, hbl] at g2
    have g2 := List.append_cancel_left g2
    rw [List.take_of_length_le (by omega), List.drop_eq_nil_of_le (by omega), List.append_nil] at g2
    have hcv : chainValue E iv [b] = E (xorBytes b iv) := rfl
    have hel : (E (xorBytes b iv)).length = c.bs := h.lenE _ (xor_len hb hiv)
    rw [hcv] at g2
    have hxz : ∀ v : Bytes, v.length = c.bs → xorBytes z v = v := by
      intro v hv
      apply List.ext_getElem
      · rw [length_xorBytes, hz, hv]; omega
      · intro i _ _; simp [xorBytes, z]
    rw [hxz _ hel] at g2
    have := congrArg (fun y => xorBytes y iv) g2
    simp only [hxz _ hiv] at this
    rw [xorBytes_cancel _ iv (by omega)] at this
    exact this.symm
  have e := congrArg D ((key 1#8).trans (key 2#8).symm)
  have hl : ∀ x : Byte, (xorBytes (List.replicate c.bs x) iv).length = c.bs := fun x => xor_len (by simp) hiv
  rw [h.DE _ (hl _), h.DE _ (hl _)] at e
  have e3 := congrArg (fun y => xorBytes y iv) e
  rw [xorBytes_cancel _ iv (by simp; omega), xorBytes_cancel _ iv (by simp; omega)] at e3
  have e4 := List.replicate_inj.1 e3
  rcases e4.2 with h0 | h0
  · omega
  · exact absurd h0 (by decide)

private theorem cfbEnc_length (E : Bytes → Bytes) (s : Nat) (iv : Bytes) (l : List Bytes) : (cfbEnc E s iv l).length = l.length := by
  induction l generalizing iv with
  | nil => rfl
  | cons x l ih => simp [cfbEnc, ih]

private theorem cfb_message (h : Lawful c E D) {s : Nat} (hs0 : 0 < s) (hs : s ≤ c.bs) (p : Padding) (iv : Bytes) (hiv : iv.length = c.bs)
    (ops : List LiveOp) (ho : Open ops) (hm : p = .defaultOf c ∨ (p = .empty ∧ (sent ops).length % s = 0)) (k : Nat)
    (hk : (sent ops).length + (c.bs + 1) ≤ k) :
    Live.run (CFB.encStream c p s iv) (CFB.decStream c p s iv) (Live.start (CFB.init iv) (CFB.init iv)) (ops ++ [.close, .deliver k, .last]) =
      .ok ⟨CFB.init iv, [], CFB.init iv, sent ops⟩ := by
  obtain ⟨pb, hb, he, hl, hu⟩ : ∃ pb, IsBlocks s pb ∧ CFB.encrypt c p s iv (sent ops) = .ok (cfbEnc E s iv pb).flatten ∧ pb.flatten.length ≤ (sent ops).length + (c.bs + 1) ∧
      ∀ drawn rest, drawn <+: sent ops → drawn ++ rest = pb.flatten → (p.unpad rest).map (drawn ++ ·) = .ok (sent ops) := by
    clear ho hk
    generalize sent ops = m at *
    rcases hm with rfl | ⟨rfl, hz⟩
    · obtain ⟨blocks, t, hb, ht, rfl⟩ := exists_blocks hs0 m
      obtain ⟨pb, rem, z, h1, h2, h3, h4⟩ := CFB.pad_segments hs0 hs ht
      refine ⟨blocks ++ pb, hb.append h1, CFB.encrypt_eq h hs0 hs hiv hb ht h1 h2 h3, ?_, ?_⟩
      · have hp := congrArg List.length h3
        rw [length_padding_default] at hp
        have : padZeros c.bs t.length ≤ c.bs := by unfold padZeros; split <;> [omega; (split <;> omega)]
        simp only [List.length_append, List.flatten_append] at hp ⊢
        omega
      · rintro drawn rest ⟨u, hu⟩ hr
        rw [List.flatten_append, h4, ← List.append_assoc, ← hu, List.append_assoc] at hr
        have hr := List.append_cancel_left hr
        rw [hr, show (Padding.defaultOf c) = .default c.bs from rfl, unpad_padded, ← hu]
        rfl
    · refine ⟨blocksOf s m, blocksOf_isBlocks _ _, (C10_cfb_roundtrip_empty h hs0 hs iv m hiv hz).1, ?_, ?_⟩
      · rw [flatten_blocksOf hs0 hz]; omega
      · intro drawn rest _ hr
        rw [flatten_blocksOf hs0 hz] at hr
        rw [← hr]
        simp [Padding.unpad, Padding.unpadding, Except.map]
  have hbe := CFB.cfbEnc_isBlocks h hs hiv hb
  have hlen : (cfbEnc E s iv pb).flatten.length = pb.flatten.length := by rw [hbe.length_flatten, hb.length_flatten, cfbEnc_length]
  refine message_of (C123_cfb_delivers h hs0 hs p iv hiv) (R := RGe (CFB.encF E s) s iv) (Q := RGe (CFB.decF E s) s iv) (RGe.init hs0) (RGe.init hs0)
    (fun _ _ _ d hR => CFB.encWrite_inv h hs0 hs hiv d hR) (fun _ _ _ hR => hR.draw) (fun _ _ _ d hR => CFB.decWrite_inv h hs0 hs hiv d hR)
    (fun _ _ _ hR => hR.draw) ho (ct := (cfbEnc E s iv pb).flatten) ⟨by rw [hlen]; exact hl, fun ops ho => ?_, fun ops got u ho hf hg => ?_⟩ k hk
  · obtain ⟨ct, g1, g2⟩ := C12_cfb_stream_encrypt h hs0 hs p iv hiv ops
    rw [ho, he] at g1
    cases g1
    exact g2
  · obtain ⟨drawn, rest, u', g1, g2, g3⟩ := C12_cfb_stream_decrypt_exact h hs0 hs p iv hiv ops (by rw [ho, hbe.length_flatten, Nat.mul_mod_right])
    rw [hf] at g2
    cases g2
    rw [ho, blocksOf_flatten' hs0 hbe, CFB.cfb_inv h hs hiv hb] at g1
    have := hu got rest hg g1
    rw [g3]
    cases hx : p.unpad rest with
    | error e => rw [hx] at this; cases this
    | ok r =>
      rw [hx] at this
      simp only [Except.map, Except.ok.injEq] at this
      simp only [Except.map, this]

/-- C123, CFB, the end of the message: with the default padding the receiver has every message, whatever it has drawn off before and although the stream
takes the padding off only what is not drawn off yet (C12); without padding it has every message of whole segments. -/
theorem C123_cfb_ends (h : Lawful c E D) {s : Nat} (hs0 : 0 < s) (hs : s ≤ c.bs) (p : Padding) (iv : Bytes) (hiv : iv.length = c.bs) :
    LiveEnds (CFB.encStream c p s iv) (CFB.decStream c p s iv) (CFB.init iv) (CFB.init iv)
      (fun m => p = .defaultOf c ∨ (p = .empty ∧ m.length % s = 0)) (c.bs + 1) :=
  ends_of_message fun ops ho hm k hk => ⟨_, _, cfb_message h hs0 hs p iv hiv ops ho hm k hk⟩

/-- C124, CFB: any number of messages arrive over one connection. -/
theorem C124_cfb (h : Lawful c E D) {s : Nat} (hs0 : 0 < s) (hs : s ≤ c.bs) (p : Padding) (iv : Bytes) (hiv : iv.length = c.bs) :
    LiveSessions (CFB.encStream c p s iv) (CFB.decStream c p s iv) (CFB.init iv) (CFB.init iv)
      (fun m => p = .defaultOf c ∨ (p = .empty ∧ m.length % s = 0)) (c.bs + 1) :=
  sessions_of (fun x r => x = CFB.init iv ∧ r = CFB.init iv)
    (by rintro x r ⟨rfl, rfl⟩ ops ho hm k hk; exact ⟨_, _, ⟨rfl, rfl⟩, cfb_message h hs0 hs p iv hiv ops ho hm k hk⟩) ⟨rfl, rfl⟩

example : (Live.run (CBC.encStream (Toy.cipher 2) (.default 2) [7, 8]) (CBC.decStream (Toy.cipher 2) (.default 2) [7, 8]) (Live.start (CBC.init [7, 8]) (CBC.init [7, 8]))
    [.send [1, 2, 3], .flush, .deliver 1, .read, .send [4, 5], .deliver 9, .flush, .read, .deliver 3, .read]).map (fun L => (L.got, L.channel)) = .ok ([1, 2], []) := by decide
example : sent [.send [1, 2, 3], .flush, .deliver 1, .send [4, 5]] = [1, 2, 3, 4, 5] := by decide
example : Open [.send [1, 2, 3], .flush, .deliver 1, .send [4, 5]] := by simp [Open]
example : (Live.run (CBC.encStream (Toy.cipher 3) (.default 3) [7, 8, 9]) (CBC.decStream (Toy.cipher 3) (.default 3) [7, 8, 9])
    (Live.start (CBC.init [7, 8, 9]) (CBC.init [7, 8, 9]))
    [.send [1, 2, 3], .flush, .deliver 1, .read, .send [4], .close, .deliver 7, .last]).map Live.got = .ok [1, 2, 3, 4] := by decide
example : (Live.run (ECB.encStream (Toy.cipher 2) .empty) (ECB.decStream (Toy.cipher 2) .empty) (Live.start ECB.init ECB.init)
    [.send [1, 2, 3], .flush, .deliver 1, .read, .send [4], .close, .deliver 4, .last]).map Live.got = .ok [1, 2, 3, 4] := by decide
example : (Live.run (CFB.encStream (Toy.cipher 2) (.default 2) 1 [7, 8]) (CFB.decStream (Toy.cipher 2) (.default 2) 1 [7, 8]) (Live.start (CFB.init [7, 8]) (CFB.init [7, 8]))
    [.send [1, 2, 3], .flush, .deliver 2, .read]).map Live.got = .ok [1, 2] := by decide
example : (Live.run (CFB.encStream (Toy.cipher 2) (.default 2) 2 [7, 8]) (CFB.decStream (Toy.cipher 2) (.default 2) 2 [7, 8]) (Live.start (CFB.init [7, 8]) (CFB.init [7, 8]))
    [.send [1, 2, 3], .flush, .deliver 2, .read, .close, .deliver 6, .last]).map Live.got = .ok [1, 2, 3] := by decide
example : (Live.run (CTR.stream (Toy.cipher 2) DefaultCounter.ops) (CTR.stream (Toy.cipher 2) DefaultCounter.ops)
    (Live.start (CTR.init DefaultCounter.ops ⟨16, [0xff, 0xff], none⟩) (CTR.init DefaultCounter.ops ⟨16, [0xff, 0xff], none⟩))
    [.send [1, 2, 3], .flush, .deliver 2, .read, .close, .deliver 1, .last]).map Live.got = .ok [1, 2, 3] := by decide
-- two messages over one connection
example : (Live.run (CTR.stream (Toy.cipher 2) DefaultCounter.ops) (CTR.stream (Toy.cipher 2) DefaultCounter.ops)
    (Live.start (CTR.init DefaultCounter.ops ⟨16, [0xff, 0xff], none⟩) (CTR.init DefaultCounter.ops ⟨16, [0xff, 0xff], none⟩))
    (session [([.send [1, 2, 3], .flush, .deliver 1], 3), ([.send [4], .read], 3)])).map Live.got = .ok [1, 2, 3, 4] := by decide
example : (Live.run (CBC.encStream (Toy.cipher 2) .empty [7, 8]) (CBC.decStream (Toy.cipher 2) .empty [7, 8]) (Live.start (CBC.init [7, 8]) (CBC.init [7, 8]))
    (session [([.send [1, 2]], 4), ([.send [3, 4, 5, 6]], 6)])).map Live.got = .ok [1, 2, 15, 11, 5, 6] := by decide

end Verif.Props
