import Verif.Model.CFB
import Verif.Proof.ECB

/-! Helper lemmas about CFB -/

namespace Verif.Model.CFB

open Spec

variable {c : BlockCipher} {E D : Bytes → Bytes} {s : Nat}

/-- Pure encryption step. -/
def encF (E : Bytes → Bytes) (s : Nat) (ij b : Bytes) : Bytes × Bytes :=
  (ij.drop s ++ xorBytes b ((E ij).take s), xorBytes b ((E ij).take s))
/-- Pure decryption step. -/
def decF (E : Bytes → Bytes) (s : Nat) (ij b : Bytes) : Bytes × Bytes :=
  (ij.drop s ++ b, xorBytes b ((E ij).take s))

theorem encStep_ok (h : Lawful c E D) (hs : s ≤ c.bs) (ij b : Bytes) (hij : ij.length = c.bs) (hb : b.length = s) :
    encStep c s ij b = .ok (encF E s ij b) ∧ (encF E s ij b).1.length = c.bs := by
  have hE := h.lenE _ hij
  have hx : (xorBytes b ((E ij).take s)).length = s := by rw [length_xorBytes, List.length_take]; omega
  refine ⟨?_, by simp only [encF, List.length_append, List.length_drop, hx]; omega⟩
  have hmin : min (min (E ij).length s) b.length = s := by omega
  simp only [encStep, encF, h.enc _ hij, bind, Except.bind, hmin]
  rw [List.take_of_length_le (l := b) (by omega), xorBytes_comm ((E ij).take s) b,
    List.take_append_of_le_length (by omega), List.take_of_length_le (l := xorBytes b _) (by omega)]

theorem decStep_ok (h : Lawful c E D) (hs : s ≤ c.bs) (ij b : Bytes) (hij : ij.length = c.bs) (hb : b.length = s) :
    decStep c s ij b = .ok (decF E s ij b) ∧ (decF E s ij b).1.length = c.bs := by
  refine ⟨?_, by simp only [decF, List.length_append, List.length_drop, hb]; omega⟩
  simp only [decStep, decF, h.enc _ hij, bind, Except.bind]
  rw [if_neg (by omega)]

theorem runPure_encF_snd (ij : Bytes) (bs : List Bytes) : (runPure (encF E s) ij bs).2 = (cfbEnc E s ij bs).flatten := by
  induction bs generalizing ij with
  | nil => rfl
  | cons b bs ih => simp [runPure, ih, cfbEnc, encF]

theorem runPure_decF_snd (ij : Bytes) (bs : List Bytes) : (runPure (decF E s) ij bs).2 = (cfbDec E s ij bs).flatten := by
  induction bs generalizing ij with
  | nil => rfl
  | cons b bs ih => simp [runPure, ih, cfbDec, decF]

theorem cfbEnc_append (ij : Bytes) (a b : List Bytes) :
    cfbEnc E s ij (a ++ b) = cfbEnc E s ij a ++ cfbEnc E s (runPure (encF E s) ij a).1 b := by
  induction a generalizing ij with
  | nil => simp [cfbEnc, runPure]
  | cons x a ih => simp [cfbEnc, runPure, ih, encF]

theorem cfbEnc_isBlocks (h : Lawful c E D) (hs : s ≤ c.bs) {iv : Bytes} (hiv : iv.length = c.bs) {blocks : List Bytes}
    (hb : IsBlocks s blocks) : IsBlocks s (cfbEnc E s iv blocks) := by
  induction blocks generalizing iv with
  | nil => exact .nil
  | cons b bs ih =>
    have hE := h.lenE _ hiv
    have hx : (xorBytes b ((E iv).take s)).length = s := by rw [length_xorBytes, List.length_take, hb.head]; omega
    exact .cons hx (ih (encStep_ok h hs iv b hiv hb.head).2 hb.tail)

theorem cfb_inv (h : Lawful c E D) (hs : s ≤ c.bs) {iv : Bytes} (hiv : iv.length = c.bs) {blocks : List Bytes}
    (hb : IsBlocks s blocks) : cfbDec E s iv (cfbEnc E s iv blocks) = blocks := by
  induction blocks generalizing iv with
  | nil => rfl
  | cons b bs ih =>
    have hE := h.lenE _ hiv
    simp only [cfbEnc, cfbDec]
    rw [xorBytes_cancel _ _ (by rw [List.length_take, hb.head]; omega)]
    exact congrArg _ (ih (encStep_ok h hs iv b hiv hb.head).2 hb.tail)

theorem encryptInner_eq (h : Lawful c E D) (hs0 : 0 < s) (hs : s ≤ c.bs) {ij : Bytes} (hij : ij.length = c.bs) {blocks : List Bytes}
    {t : Bytes} (hb : IsBlocks s blocks) (ht : t.length < s) (dst data : Bytes) (hd : data = blocks.flatten ++ t) :
    encryptInner c s ij dst data = .ok ((runPure (encF E s) ij blocks).1, dst ++ (cfbEnc E s ij blocks).flatten) := by
  unfold encryptInner
  rw [whileGe_eq (fun ij => ij.length = c.bs) (encStep_ok h hs) hb hs0 ht hij _ _ hd]
  simp only [bind, Except.bind, runPure_encF_snd]

theorem decryptInner_eq (h : Lawful c E D) (hs0 : 0 < s) (hs : s ≤ c.bs) {ij : Bytes} (hij : ij.length = c.bs) {blocks : List Bytes}
    (hb : IsBlocks s blocks) (dst data : Bytes) (hd : data = blocks.flatten) :
    decryptInner c s ij dst data = .ok ((runPure (decF E s) ij blocks).1, dst ++ (cfbDec E s ij blocks).flatten) := by
  unfold decryptInner
  rw [whileNe_eq (fun ij => ij.length = c.bs) (decStep_ok h hs) hb hs0 hij _ _ hd]
  simp only [bind, Except.bind, runPure_decF_snd]

/-- A short last segment panics. -/
theorem decryptInner_panic (h : Lawful c E D) {ij : Bytes} (hij : ij.length = c.bs) {t : Bytes} (ht : t.length < s) (ht0 : t ≠ [])
    (dst : Bytes) : decryptInner c s ij dst t = .error .panic := by
  have h0 : 0 < t.length := List.length_pos_iff.2 ht0
  unfold decryptInner
  rw [whileLen, if_pos (by simp [contNe]; omega), List.take_of_length_le (by omega)]
  simp [decStep, h.enc _ hij, ht, bind, Except.bind]

theorem encF_inv (h : Lawful c E D) (hs : s ≤ c.bs) {iv : Bytes} (hiv : iv.length = c.bs) {blocks : List Bytes} (hb : IsBlocks s blocks) :
    (runPure (encF E s) iv blocks).1.length = c.bs :=
  runPure_inv _ (fun iv => iv.length = c.bs) s (fun s b a b' => (encStep_ok h hs s b a b').2) hiv hb

theorem decF_inv (h : Lawful c E D) (hs : s ≤ c.bs) {iv : Bytes} (hiv : iv.length = c.bs) {blocks : List Bytes} (hb : IsBlocks s blocks) :
    (runPure (decF E s) iv blocks).1.length = c.bs :=
  runPure_inv _ (fun iv => iv.length = c.bs) s (fun s b a b' => (decStep_ok h hs s b a b').2) hiv hb

theorem drop_tail {n : Nat} {blocks : List Bytes} (hb : IsBlocks n blocks) {t : Bytes} (ht : t.length < n) {d : Bytes}
    (hd : d = blocks.flatten ++ t) : d.drop (d.length - d.length % n) = t ∧ d.take (d.length - d.length % n) = blocks.flatten := by
  subst hd
  have hl : (blocks.flatten ++ t).length % n = t.length := by
    rw [List.length_append, hb.length_flatten, Nat.mul_add_mod, Nat.mod_eq_of_lt ht]
  rw [hl, List.length_append, Nat.add_sub_cancel]
  simp

/-- One-shot encryption: `pb` are the whole segments of the padded tail, `rem` what does not fill a segment and is dropped. -/
theorem encrypt_eq (h : Lawful c E D) (hs0 : 0 < s) (hs : s ≤ c.bs) {p : Padding} {iv : Bytes} (hiv : iv.length = c.bs)
    {blocks : List Bytes} {t : Bytes} (hb : IsBlocks s blocks) (ht : t.length < s) {pb : List Bytes} {rem : Bytes}
    (hpb : IsBlocks s pb) (hrem : rem.length < s) (hp : p.padding t = pb.flatten ++ rem) :
    encrypt c p s iv (blocks.flatten ++ t) = .ok (cfbEnc E s iv (blocks ++ pb)).flatten := by
  unfold encrypt
  rw [encryptInner_eq h hs0 hs hiv hb ht _ _ rfl]
  simp only [bind, Except.bind]
  rw [(drop_tail hb ht rfl).1, encryptInner_eq h hs0 hs (encF_inv h hs hiv hb) hpb hrem _ _ hp, cfbEnc_append]
  simp

theorem decrypt_eq (h : Lawful c E D) (hs0 : 0 < s) (hs : s ≤ c.bs) {p : Padding} {iv : Bytes} (hiv : iv.length = c.bs)
    {blocks : List Bytes} (hb : IsBlocks s blocks) :
    decrypt c p s iv blocks.flatten = p.unpad (cfbDec E s iv blocks).flatten := by
  unfold decrypt
  rw [if_neg (by rw [hb.length_flatten, Nat.mul_mod_right]; simp), decryptInner_eq h hs0 hs hiv hb _ _ rfl]
  simp [bind, Except.bind]

theorem encWrite_inv (h : Lawful c E D) (hs0 : 0 < s) (hs : s ≤ c.bs) {iv : Bytes} (hiv : iv.length = c.bs) {m o : Bytes}
    {u : StreamSt Bytes} (d : Bytes) (hR : RGe (encF E s) s iv m o u) :
    ∃ u', encWrite c s u d = .ok u' ∧ RGe (encF E s) s iv (m ++ d) o u' := by
  obtain ⟨blocks, h1, h2, h3, h4, h5⟩ := hR
  have hst : u.st.length = c.bs := by rw [h4]; exact encF_inv h hs hiv h1
  unfold encWrite
  by_cases hd : d = []
  · subst hd; exact ⟨u, by simp, blocks, h1, by simpa using h2, h3, h4, h5⟩
  rw [if_neg (by simpa using hd), if_neg (by omega)]
  by_cases hlt : u.data.length + d.length < s
  · have hmin : min (s - u.data.length) d.length = d.length := by omega
    simp only [hmin, List.take_length, List.drop_length]
    rw [if_neg (by simp; omega)]
    simp only [bind, Except.bind]
    rw [encryptInner_eq h hs0 hs hst (blocks := []) (t := []) .nil hs0 _ [] rfl]
    simp only [List.drop_nil, List.append_nil, runPure, cfbEnc, List.flatten_nil]
    exact ⟨_, rfl, blocks, h1, by simp [h2], by simpa using hlt, h4, by simpa using h5⟩
  · have hmin : min (s - u.data.length) d.length = s - u.data.length := by omega
    simp only [hmin]
    have hl : (u.data ++ d.take (s - u.data.length)).length = s := by simp; omega
    rw [if_pos hl]
    obtain ⟨hs1, hs2⟩ := encStep_ok h hs u.st _ hst hl
    simp only [bind, Except.bind]
    rw [encryptInner_eq h hs0 hs hst (blocks := [_]) (t := []) (.cons hl .nil) hs0 _ _ (by simp)]
    obtain ⟨bs', t', g1, g2, g3⟩ := exists_blocks hs0 (d.drop (s - u.data.length))
    simp only [runPure, cfbEnc]
    rw [encryptInner_eq h hs0 hs hs2 g1 g2 _ _ g3, (drop_tail g1 g2 g3).1]
    refine ⟨_, rfl, blocks ++ (u.data ++ d.take (s - u.data.length)) :: bs', h1.append (.cons hl g1), ?_, g2, ?_, ?_⟩
    · simp only [List.flatten_append, List.flatten_cons, List.append_assoc, h2, List.nil_append]
      rw [← g3, List.take_append_drop]
    · rw [runPure_append]
      simp only [runPure, ← h4]
    · rw [runPure_append]
      simp only [runPure, ← h5, ← h4, List.append_assoc, runPure_encF_snd]
      simp [encF]

theorem decWrite_inv (h : Lawful c E D) (hs0 : 0 < s) (hs : s ≤ c.bs) {iv : Bytes} (hiv : iv.length = c.bs) {m o : Bytes}
    {u : StreamSt Bytes} (d : Bytes) (hR : RGe (decF E s) s iv m o u) :
    ∃ u', decWrite c s u d = .ok u' ∧ RGe (decF E s) s iv (m ++ d) o u' := by
  obtain ⟨blocks, h1, h2, h3, h4, h5⟩ := hR
  have hst : u.st.length = c.bs := by rw [h4]; exact decF_inv h hs hiv h1
  unfold decWrite
  by_cases hd : d = []
  · subst hd; exact ⟨u, by simp, blocks, h1, by simpa using h2, h3, h4, h5⟩
  rw [if_neg (by simpa using hd)]
  obtain ⟨bs', t', g1, g2, g3⟩ := exists_blocks hs0 (u.data ++ d)
  simp only [bind, Except.bind]
  rw [(drop_tail g1 g2 g3).1, (drop_tail g1 g2 g3).2, decryptInner_eq h hs0 hs hst g1 _ _ rfl]
  refine ⟨_, rfl, blocks ++ bs', h1.append g1, ?_, g2, ?_, ?_⟩
  · simp only [List.flatten_append, List.append_assoc, h2, g3]
  · rw [runPure_append]; simp only [← h4]
  · rw [runPure_append]; simp only [← h5, ← h4, List.append_assoc, runPure_decF_snd]

/-- The whole segments of the padded tail contain the `80` byte, for every segment size up to the block size. -/
theorem pad_segments {bs : Nat} (hs0 : 0 < s) (hs : s ≤ bs) {t : Bytes} (ht : t.length < s) :
    ∃ pb rem z, IsBlocks s pb ∧ rem.length < s ∧ (Padding.default bs).padding t = pb.flatten ++ rem ∧
      pb.flatten = t ++ 0x80#8 :: List.replicate z 0#8 := by
  obtain ⟨pb, rem, h1, h2, h3⟩ := exists_blocks hs0 ((Padding.default bs).padding t)
  have hlen := length_padding_default bs t
  have hmod := padZeros_mod bs (by omega) t.length
  have hbs : bs ≤ t.length + 1 + padZeros bs t.length :=
    Nat.le_of_dvd (by omega) (Nat.dvd_of_mod_eq_zero hmod)
  have hpbl : t.length + 1 ≤ pb.flatten.length := by
    rw [h1.length_flatten]
    rw [h3, List.length_append, h1.length_flatten] at hlen
    rcases Nat.eq_zero_or_pos pb.length with h0 | h0
    · rw [h0] at hlen; omega
    · have : s * 1 ≤ s * pb.length := Nat.mul_le_mul_left _ h0
      omega
  refine ⟨pb, rem, pb.flatten.length - t.length - 1, h1, h2, h3, ?_⟩
  have e : pb.flatten = ((Padding.default bs).padding t).take pb.flatten.length := by rw [h3]; simp
  rw [padding_default] at e
  have hle : pb.flatten.length ≤ t.length + 1 + padZeros bs t.length := by rw [← hlen, h3]; simp
  obtain ⟨k, hk⟩ : ∃ k, pb.flatten.length = t.length + (k + 1) := ⟨pb.flatten.length - t.length - 1, by omega⟩
  have hz : pb.flatten.length - t.length - 1 = k := by omega
  rw [hz]
  rw [e, hk, List.take_length_add_append, List.take_succ_cons, List.take_replicate]
  rw [show min k (padZeros bs t.length) = k by omega]

theorem decFinish_nil (h : Lawful c E D) (hs0 : 0 < s) (hs : s ≤ c.bs) (p : Padding) (iv : Bytes) {u : StreamSt Bytes}
    (hst : u.st.length = c.bs) (hd : u.data = []) :
    (decStream c p s iv).finish u = (do let q ← p.unpad u.pond; .ok (q, init iv)) := by
  have hdi := decryptInner_eq h hs0 hs hst (blocks := []) .nil u.pond [] rfl
  simp only [decStream, decFinish, hd, hdi, bind, Except.bind, cfbDec, List.flatten_nil, List.append_nil, init]

theorem unpad_no_panic (p : Padding) (b : Bytes) : (∃ m, p.unpad b = .ok m) ∨ (∃ e, p.unpad b = .error (.err e)) := by
  cases p with
  | empty => left; exact ⟨_, by simp [Padding.unpad, Padding.unpadding]; rfl⟩
  | default n =>
    simp only [Padding.unpad, Padding.unpadding]
    cases unpadScan b.reverse 0 with
    | none => right; exact ⟨_, rfl⟩
    | some k => left; exact ⟨_, rfl⟩

end Verif.Model.CFB
