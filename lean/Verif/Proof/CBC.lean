import Verif.Model.CBC
import Verif.Proof.ECB

/-! Helper lemmas about CBC -/

namespace Verif.Model.CBC

open Spec

variable {c : BlockCipher} {E D : Bytes → Bytes}

/-- Pure encryption step. -/
def encF (E : Bytes → Bytes) (iv b : Bytes) : Bytes × Bytes := (E (xorBytes b iv), E (xorBytes b iv))
/-- Pure decryption step. -/
def decF (D : Bytes → Bytes) (iv b : Bytes) : Bytes × Bytes := (b, xorBytes (D b) iv)

theorem encStep_ok (h : Lawful c E D) (iv b : Bytes) (hiv : iv.length = c.bs) (hb : b.length = c.bs) :
    encStep c iv b = .ok (encF E iv b) ∧ (encF E iv b).1.length = c.bs := by
  have hx : (xorBytes b iv).length = c.bs := by rw [length_xorBytes]; omega
  have hxi : xorIv b iv = xorBytes b iv := by
    rw [xorIv, List.drop_eq_nil_of_le (by omega), List.append_nil, xorBytes_comm]
  refine ⟨?_, h.lenE _ hx⟩
  simp [encStep, encF, hxi, h.enc _ hx, bind, Except.bind]

theorem sEncStep_ok (h : Lawful c E D) (iv b : Bytes) (hiv : iv.length = c.bs) (hb : b.length = c.bs) :
    sEncStep c iv b = .ok (encF E iv b) ∧ (encF E iv b).1.length = c.bs := by
  have hx : (xorBytes b iv).length = c.bs := by rw [length_xorBytes]; omega
  refine ⟨?_, h.lenE _ hx⟩
  simp [sEncStep, encF, h.enc _ hx, bind, Except.bind]

theorem tailStep_ok (h : Lawful c E D) (s : Unit) (b : Bytes) (_ : True) (hb : b.length = c.bs) :
    tailStep c s b = .ok (ECB.encF E s b) ∧ True := by
  simp [tailStep, ECB.encF, h.enc b hb, bind, Except.bind]

theorem decStep_ok (h : Lawful c E D) (iv b : Bytes) (_ : iv.length = c.bs) (hb : b.length = c.bs) :
    decStep c iv b = .ok (decF D iv b) ∧ (decF D iv b).1.length = c.bs := by
  refine ⟨?_, hb⟩
  simp [decStep, decF, h.dec _ hb, bind, Except.bind, xorBytes_comm]

theorem sDecStep_ok (h : Lawful c E D) (iv b : Bytes) (hiv : iv.length = c.bs) (hb : b.length = c.bs) :
    sDecStep c iv b = .ok (decF D iv b) ∧ (decF D iv b).1.length = c.bs := by
  refine ⟨?_, hb⟩
  have hD := h.lenD b hb
  have hmin : min (D b).length (min iv.length b.length) = c.bs := by omega
  simp only [sDecStep, decF, h.dec _ hb, bind, Except.bind, hmin]
  rw [List.take_of_length_le (l := b) (by omega), List.take_of_length_le (l := D b) (by omega),
    List.take_of_length_le (l := iv) (by omega), List.drop_eq_nil_of_le (as := iv) (by omega),
    List.drop_eq_nil_of_le (as := D b) (by omega)]
  simp

theorem runPure_encF_snd (iv : Bytes) (bs : List Bytes) : (runPure (encF E) iv bs).2 = (cbcEnc E iv bs).flatten := by
  induction bs generalizing iv with
  | nil => rfl
  | cons b bs ih => simp [runPure, ih, cbcEnc, encF]

theorem runPure_decF_snd (iv : Bytes) (bs : List Bytes) : (runPure (decF D) iv bs).2 = (cbcDec D iv bs).flatten := by
  induction bs generalizing iv with
  | nil => rfl
  | cons b bs ih => simp [runPure, ih, cbcDec, decF]

theorem cbcEnc_append (iv : Bytes) (a b : List Bytes) :
    cbcEnc E iv (a ++ b) = cbcEnc E iv a ++ cbcEnc E (runPure (encF E) iv a).1 b := by
  induction a generalizing iv with
  | nil => simp [cbcEnc, runPure]
  | cons x a ih => simp [cbcEnc, runPure, ih, encF]

theorem cbcEnc_isBlocks (h : Lawful c E D) {iv : Bytes} (hiv : iv.length = c.bs) {blocks : List Bytes}
    (hb : IsBlocks c.bs blocks) : IsBlocks c.bs (cbcEnc E iv blocks) := by
  induction blocks generalizing iv with
  | nil => exact .nil
  | cons b bs ih =>
    have hx : (xorBytes b iv).length = c.bs := by rw [length_xorBytes, hb.head]; omega
    exact .cons (h.lenE _ hx) (ih (h.lenE _ hx) hb.tail)

theorem cbc_inv (h : Lawful c E D) {iv : Bytes} (hiv : iv.length = c.bs) {blocks : List Bytes}
    (hb : IsBlocks c.bs blocks) : cbcDec D iv (cbcEnc E iv blocks) = blocks := by
  induction blocks generalizing iv with
  | nil => rfl
  | cons b bs ih =>
    have hx : (xorBytes b iv).length = c.bs := by rw [length_xorBytes, hb.head]; omega
    simp only [cbcEnc, cbcDec]
    rw [h.DE _ hx, xorBytes_cancel _ _ (by rw [hb.head, hiv]; exact Nat.le_refl _), ih (h.lenE _ hx) hb.tail]

/-- One-shot encryption: textbook CBC on the whole blocks of the message, but the padded tail is encrypted without chaining. -/
theorem encrypt_eq (h : Lawful c E D) {p : Padding} {iv : Bytes} (hiv : iv.length = c.bs) {blocks : List Bytes} {t : Bytes}
    (hb : IsBlocks c.bs blocks) (ht : t.length < c.bs) {pb : List Bytes} (hpb : IsBlocks c.bs pb) (hp : p.padding t = pb.flatten) :
    encrypt c p iv (blocks.flatten ++ t) = .ok ((cbcEnc E iv blocks).flatten ++ (ecb E pb).flatten) := by
  unfold encrypt
  rw [whileGe_eq (fun iv => iv.length = c.bs) (encStep_ok h) hb h.pos ht hiv [] _ rfl]
  simp only [bind, Except.bind, hp]
  rw [whileNe_eq (fun _ => True) (tailStep_ok h) hpb h.pos trivial _ _ rfl]
  simp [ECB.runPure_encF, runPure_encF_snd]

theorem decrypt_eq (h : Lawful c E D) {p : Padding} {iv : Bytes} (hiv : iv.length = c.bs) {blocks : List Bytes}
    (hb : IsBlocks c.bs blocks) : decrypt c p iv blocks.flatten = p.unpad (cbcDec D iv blocks).flatten := by
  unfold decrypt
  rw [if_neg (by rw [hb.length_flatten, Nat.mul_mod_right]; simp)]
  rw [whileNe_eq (fun iv => iv.length = c.bs) (decStep_ok h) hb h.pos hiv [] _ rfl]
  simp [bind, Except.bind, runPure_decF_snd]

theorem encWrite_inv (h : Lawful c E D) {iv : Bytes} (hiv : iv.length = c.bs) {m o : Bytes} {s : StreamSt Bytes} (d : Bytes)
    (hR : RGe (encF E) c.bs iv m o s) : ∃ s', encWrite c s d = .ok s' ∧ RGe (encF E) c.bs iv (m ++ d) o s' := by
  obtain ⟨blocks, h1, h2, h3, h4, h5⟩ := hR
  have hst : s.st.length = c.bs := by
    rw [h4]; exact runPure_inv _ (fun iv => iv.length = c.bs) c.bs (fun s b a b' => (sEncStep_ok h s b a b').2) hiv h1
  unfold encWrite
  by_cases hd : d = []
  · subst hd; exact ⟨s, by simp, blocks, h1, by simpa using h2, h3, h4, h5⟩
  rw [if_neg (by simpa using hd), if_neg (by omega)]
  by_cases hlt : s.data.length + d.length < c.bs
  · have hmin : min (c.bs - s.data.length) d.length = d.length := by omega
    simp only [hmin, List.take_length, List.drop_length]
    rw [if_neg (by simp; omega)]
    simp only [bind, Except.bind]
    rw [whileGe_nil h.pos]
    simp only [List.append_nil]
    exact ⟨_, rfl, blocks, h1, by simp [h2], by simpa using hlt, h4, by simpa using h5⟩
  · have hmin : min (c.bs - s.data.length) d.length = c.bs - s.data.length := by omega
    simp only [hmin]
    have hl : (s.data ++ d.take (c.bs - s.data.length)).length = c.bs := by simp; omega
    rw [if_pos hl]
    obtain ⟨hs1, hs2⟩ := sEncStep_ok h s.st _ hst hl
    simp only [bind, Except.bind, hs1]
    obtain ⟨bs', t', g1, g2, g3⟩ := exists_blocks h.pos (d.drop (c.bs - s.data.length))
    rw [whileGe_eq (fun iv => iv.length = c.bs) (sEncStep_ok h) g1 h.pos g2 hs2 _ _ g3]
    simp only [List.nil_append]
    refine ⟨_, rfl, blocks ++ (s.data ++ d.take (c.bs - s.data.length)) :: bs', h1.append (.cons hl g1), ?_, g2, ?_, ?_⟩
    · simp only [List.flatten_append, List.flatten_cons, List.append_assoc, h2]
      rw [← g3, List.take_append_drop]
    · rw [runPure_append]
      simp only [runPure, ← h4]
    · rw [runPure_append]
      simp only [runPure, ← h5, ← h4, List.append_assoc]

theorem decWrite_inv (h : Lawful c E D) {iv : Bytes} (hiv : iv.length = c.bs) {m o : Bytes} {s : StreamSt Bytes} (d : Bytes)
    (hR : RGt (decF D) c.bs iv m o s) : ∃ s', decWrite c s d = .ok s' ∧ RGt (decF D) c.bs iv (m ++ d) o s' := by
  obtain ⟨blocks, h1, h2, h3, h3', h4, h5⟩ := hR
  have hst : s.st.length = c.bs := by
    rw [h4]; exact runPure_inv _ (fun iv => iv.length = c.bs) c.bs (fun s b a b' => (sDecStep_ok h s b a b').2) hiv h1
  unfold decWrite
  by_cases hd : d = []
  · subst hd; exact ⟨s, by simp, blocks, h1, by simpa using h2, h3, by simpa using h3', h4, h5⟩
  rw [if_neg (by simpa using hd)]
  obtain ⟨bs', t', g1, g2, g2', g3⟩ := exists_blocks_last h.pos (s.data ++ d) (by simp [hd])
  simp only [bind, Except.bind]
  rw [whileGt_eq (fun iv => iv.length = c.bs) (sDecStep_ok h) g1 h.pos g2 g2' hst _ _ g3]
  refine ⟨_, rfl, blocks ++ bs', h1.append g1, ?_, g2, fun _ => g2', ?_, ?_⟩
  · simp only [List.flatten_append, List.append_assoc, h2, g3]
  · rw [runPure_append]; simp only [← h4]
  · rw [runPure_append]; simp only [← h5, ← h4, List.append_assoc]

/-- The chain value after some blocks is the last ciphertext block. -/
theorem runPure_decF_fst_snoc (iv : Bytes) (a : List Bytes) (b : Bytes) : (runPure (decF D) iv (a ++ [b])).1 = b := by
  rw [runPure_append]; rfl

theorem cbcDec_append (iv : Bytes) (a b : List Bytes) :
    cbcDec D iv (a ++ b) = cbcDec D iv a ++ cbcDec D (runPure (decF D) iv a).1 b := by
  induction a generalizing iv with
  | nil => simp [cbcDec, runPure]
  | cons x a ih => simp [cbcDec, runPure, ih, decF]

theorem decFinish_eq (h : Lawful c E D) {p : Padding} {iv : Bytes} {s : StreamSt Bytes}
    (hd : s.data.length = c.bs) (hst : s.st.length = c.bs) :
    decFinish c p iv s = (do
      let u ← p.unpad (xorBytes (D s.data) s.st)
      .ok (s.pond ++ u, init iv)) := by
  have hD := h.lenD _ hd
  have hmin : min (D s.data).length s.st.length = c.bs := by omega
  simp only [decFinish, h.dec _ hd, bind, Except.bind, hmin]
  rw [List.take_of_length_le (l := D s.data) (by omega), List.take_of_length_le (l := s.st) (by omega),
    List.drop_eq_nil_of_le (as := D s.data) (by omega)]
  simp [init]

/-- Streaming decryption of any blocks: all blocks but the last are decrypted as they are, the last one is unpadded. -/
theorem decRun_eq (h : Lawful c E D) {p : Padding} {iv : Bytes} (hiv : iv.length = c.bs) {cb : List Bytes} {last : Bytes}
    (hcb : IsBlocks c.bs cb) (hl : last.length = c.bs) (ops : List (Bytes × Bool)) (hops : written ops = cb.flatten ++ last) :
    runStream (decStream c p iv) (init iv) ops = (do
      let u ← p.unpad (xorBytes (D last) (runPure (decF D) iv cb).1)
      .ok ((cbcDec D iv cb).flatten ++ u, init iv)) := by
  obtain ⟨out, s, h1, xb, g1, g2, g3, g4, g5, g6⟩ := feed_inv (str := decStream c p iv) (s := init iv) (RGt (decF D) c.bs iv)
    (fun m o s d hR => decWrite_inv h hiv d hR) (fun _ _ _ hR => hR.draw) ops RGt.init
  simp only [List.nil_append] at g2 g4 g6
  have hne : written ops ≠ [] := by
    intro h0; rw [h0] at hops
    have := congrArg List.length hops
    simp [hl] at this
    have := h.pos; omega
  obtain ⟨hx, hdl⟩ := snoc_inj h.pos g1 hcb g3 (g4 hne) hl (by rw [← g2, hops])
  subst hx
  have hst : s.st.length = c.bs := by
    rw [g5]; exact runPure_inv _ (fun iv => iv.length = c.bs) c.bs (fun s b a b' => (sDecStep_ok h s b a b').2) hiv g1
  have hfin : (decStream c p iv).finish s = _ := decFinish_eq h (by rw [hdl, hl]) hst
  simp only [runStream, h1, bind, Except.bind, hfin]
  rw [hdl, g5]
  cases p.unpad (xorBytes (D last) (runPure (decF D) iv xb).1) with
  | error e => rfl
  | ok u => simp only []; rw [← List.append_assoc, g6, runPure_decF_snd]

/-- What `finish` emits for the padding blocks `pb`. -/
def finOut (E : Bytes → Bytes) (iv ij : Bytes) : List Bytes → Bytes
  | [] => []
  | b :: rest => (cbcEnc E ij [b]).flatten ++ (rest.map fun b => E (xorBytes b iv)).flatten

/-- The chain value after `finish`. -/
def finSt (iv ij : Bytes) : List Bytes → Bytes
  | [] => ij
  | _ :: _ => iv

/-- Streaming encryption in general: the first padding block is chained, each further one starts from the IV again. -/
theorem stream_eq (h : Lawful c E D) (p : Padding) {iv : Bytes} (hiv : iv.length = c.bs) (ops : List (Bytes × Bool))
    {blocks : List Bytes} {t : Bytes} (hb : IsBlocks c.bs blocks) (ht : t.length < c.bs) (hm : written ops = blocks.flatten ++ t)
    {pb : List Bytes} (hpb : IsBlocks c.bs pb) (hp : p.padding t = pb.flatten) :
    runStream (encStream c p iv) (init iv) ops =
      .ok ((cbcEnc E iv blocks).flatten ++
            finOut E iv (runPure (encF E) iv blocks).1 pb,
          { data := [], pond := [], st := finSt iv (runPure (encF E) iv blocks).1 pb }) := by
  obtain ⟨out, s, h1, xb, g1, g2, g3, g4, g5⟩ := feed_inv (str := encStream c p iv) (s := init iv)
    (RGe (encF E) c.bs iv) (fun m o s d hR => encWrite_inv h hiv d hR) (fun _ _ _ hR => hR.draw) ops (RGe.init h.pos)
  simp only [List.nil_append] at g2 g5
  have hxb : xb = blocks ∧ s.data = t := by
    have e := hm.symm.trans g2
    have e2 := congrArg (blocksOf c.bs) e
    rw [blocksOf_flatten h.pos hb ht, blocksOf_flatten h.pos g1 g3] at e2
    subst e2
    exact ⟨rfl, (List.append_cancel_left e).symm⟩
  obtain ⟨rfl, hdt⟩ := hxb
  have hst : s.st.length = c.bs := by
    rw [g4]; exact runPure_inv _ (fun iv => iv.length = c.bs) c.bs (fun s b a b' => (sEncStep_ok h s b a b').2) hiv hb
  have hstep : ∀ ij b, ij.length = c.bs → b.length = c.bs →
      finStep c iv ij b = .ok (iv, E (xorBytes b ij)) ∧ (iv, E (xorBytes b ij)).1.length = c.bs := by
    intro ij b h1 h2
    have hx : (xorBytes b ij).length = c.bs := by rw [length_xorBytes]; omega
    refine ⟨?_, hiv⟩
    simp [finStep, h.enc _ hx, bind, Except.bind]
  have hrun : ∀ (rest : List Bytes), runPure (fun ij b => (iv, E (xorBytes b ij))) iv rest =
      (iv, (rest.map fun b => E (xorBytes b iv)).flatten) := by
    intro rest
    induction rest with
    | nil => rfl
    | cons b rest ih => simp [runPure, ih]
  have hfin : (encStream c p iv).finish s = encFinish c p iv s := rfl
  simp only [runStream, h1, bind, Except.bind, hfin, encFinish, hdt, hp]
  rw [whileNe_eq (fun ij => ij.length = c.bs) hstep hpb h.pos hst _ _ rfl]
  simp only
  congr 1
  rw [← List.append_assoc, g5, runPure_encF_snd]
  cases pb with
  | nil => simp [runPure, g4, finOut, finSt]
  | cons b rest => simp [runPure, hrun, g4, cbcEnc, finOut, finSt]


end Verif.Model.CBC
