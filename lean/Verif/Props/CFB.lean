import Verif.Proof.CFB
import Verif.Proof.Toy

/-! Properties C10, C11, C12 -/

namespace Verif.Props
open Verif.Model Verif.Spec

variable {c : BlockCipher} {E D : Bytes → Bytes} {s : Nat}

/-- C10 (DefaultPadding): for every segment size of 1 byte up to a block (so in particular for all that `CFB::new` accepts), encryption succeeds
with the textbook CFB ciphertext of the message followed by `80 00…` cut to whole segments, and decryption returns the message. -/
theorem C10_cfb_roundtrip_default (h : Lawful c E D) (hs0 : 0 < s) (hs : s ≤ c.bs) (iv m : Bytes) (hiv : iv.length = c.bs) :
    ∃ r, IsPadded m r ∧ r.length % s = 0 ∧
      CFB.encrypt c (.defaultOf c) s iv m = .ok (cfbEnc E s iv (blocksOf s r)).flatten ∧
      CFB.decrypt c (.defaultOf c) s iv (cfbEnc E s iv (blocksOf s r)).flatten = .ok m := by
  obtain ⟨blocks, t, hb, ht, rfl⟩ := exists_blocks hs0 m
  obtain ⟨pb, rem, z, h1, h2, h3, h4⟩ := CFB.pad_segments hs0 hs ht
  have hbp := hb.append h1
  refine ⟨(blocks ++ pb).flatten, ⟨z, by rw [List.flatten_append, h4]; simp⟩, ?_, ?_, ?_⟩
  · rw [hbp.length_flatten, Nat.mul_mod_right]
  · rw [blocksOf_flatten' hs0 hbp]
    exact CFB.encrypt_eq h hs0 hs hiv hb ht h1 h2 h3
  · rw [blocksOf_flatten' hs0 hbp, CFB.decrypt_eq h hs0 hs hiv (CFB.cfbEnc_isBlocks h hs hiv hbp), CFB.cfb_inv h hs hiv hbp,
      List.flatten_append, h4, ← List.append_assoc]
    exact unpad_padded _ _ _

/-- C10 (EmptyPadding): messages of whole segments. -/
theorem C10_cfb_roundtrip_empty (h : Lawful c E D) (hs0 : 0 < s) (hs : s ≤ c.bs) (iv m : Bytes) (hiv : iv.length = c.bs)
    (hm : m.length % s = 0) :
    CFB.encrypt c .empty s iv m = .ok (cfbEnc E s iv (blocksOf s m)).flatten ∧
      CFB.decrypt c .empty s iv (cfbEnc E s iv (blocksOf s m)).flatten = .ok m := by
  have hb := blocksOf_isBlocks s m
  have hf := flatten_blocksOf hs0 hm
  constructor
  · have := CFB.encrypt_eq h hs0 hs hiv hb (t := []) hs0 (p := .empty) (pb := []) (rem := []) .nil hs0 rfl
    simpa [hf] using this
  · rw [CFB.decrypt_eq h hs0 hs hiv (CFB.cfbEnc_isBlocks h hs hiv hb), CFB.cfb_inv h hs hiv hb, hf]
    simp [Padding.unpad, Padding.unpadding]

/-- C10: everything `CFB::new` accepts meets the hypotheses above. -/
theorem C10_cfb_new (hc : c.blockSize.isSome) (p : Padding) (iv : Res Bytes) (bits n : Nat) (cur : Bytes) (h : CFB.new c p iv bits = .ok (n, cur)) :
    0 < n ∧ n ≤ c.bs ∧ n * 8 = bits ∧ cur.length = c.bs ∧ iv = .ok cur := by
  obtain ⟨bs, hbs⟩ := Option.isSome_iff_exists.1 hc
  unfold CFB.new at h
  simp only [BlockCipher.bs, hbs, Option.getD, Option.isSome, bind, Except.bind] at h ⊢
  split at h
  · cases h
  · split at h
    · cases h
    · split at h
      · cases h
      · cases iv with
        | error e => cases h
        | ok v =>
          simp only at h
          split at h
          · cases h
          · rename_i h1 h2 h3 h4
            injection h with h
            injection h with ha hb
            subst ha hb
            refine ⟨by omega, by omega, by omega, ?_, rfl⟩
            simpa using h4

example : CFB.new (Toy.cipher 4) (.default 4) (.ok [1, 2, 3, 4]) 16 = .ok (2, [1, 2, 3, 4]) := by decide
example : CFB.encrypt (Toy.cipher 4) (.default 4) 2 [1, 2, 3, 4] [9] = .ok [12, 132, 133, 13] ∧
    CFB.decrypt (Toy.cipher 4) (.default 4) 2 [1, 2, 3, 4] [12, 132, 133, 13] = .ok [9] := by decide

/-- C11 as a statement, encryption half: encryption that returns `Ok` has encrypted every input byte. -/
def CfbEncryptsAll (c : BlockCipher) (p : Padding) (s : Nat) : Prop :=
  ∀ iv m ct, iv.length = c.bs → CFB.encrypt c p s iv m = .ok ct → m.length ≤ ct.length
/-- C11 as a statement, decryption half: streaming decryption does not panic. -/
def CfbDecryptNoPanic (c : BlockCipher) (p : Padding) (s : Nat) : Prop :=
  ∀ iv (ops : List (Bytes × Bool)), iv.length = c.bs → runStream (CFB.decStream c p s iv) (CFB.init iv) ops ≠ .error .panic

/-- C11 is false of the code: without padding, every segment size of at least two bytes drops a trailing partial segment and reports `Ok`. -/
theorem C11_cfb_drops_tail (h : Lawful c E D) (hs0 : 2 ≤ s) (hs : s ≤ c.bs) : ¬ CfbEncryptsAll c .empty s := by
  intro hall
  have hiv : (List.replicate c.bs 0#8 : Bytes).length = c.bs := by simp
  have := CFB.encrypt_eq h (by omega) hs hiv (blocks := []) (t := [1#8]) .nil (by simp; omega) (p := .empty) (pb := []) (rem := [1#8]) .nil
    (by simp; omega) rfl
  have := hall _ _ _ hiv this
  simp [cfbEnc] at this

/-- C11 is false of the code: for every padding and every segment size of at least two bytes, streaming decryption of a ciphertext with a trailing
partial segment panics in `finish`. -/
theorem C11_cfb_decrypt_panics (h : Lawful c E D) (hs0 : 2 ≤ s) (hs : s ≤ c.bs) (p : Padding) : ¬ CfbDecryptNoPanic c p s := by
  intro hall
  have hiv : (List.replicate c.bs 0#8 : Bytes).length = c.bs := by simp
  apply hall (List.replicate c.bs 0#8) [([1#8], false)] hiv
  obtain ⟨out, u, h1, xb, g1, g2, g3, g4, g5⟩ := feed_inv (str := CFB.decStream c p s (List.replicate c.bs 0#8))
    (s := CFB.init (List.replicate c.bs 0#8)) (RGe (CFB.decF E s) s (List.replicate c.bs 0#8))
    (fun m o u d hR => CFB.decWrite_inv h (by omega) hs hiv d hR) (fun _ _ _ hR => hR.draw) [([1#8], false)] (RGe.init (by omega))
  have hx : xb = [] ∧ u.data = [1#8] := by
    simp only [written, List.map_cons, List.map_nil, List.flatten_cons, List.flatten_nil, List.append_nil, List.nil_append] at g2
    have e2 := congrArg (blocksOf s) g2
    rw [blocksOf_flatten (by omega) g1 g3, blocksOf_short (by simp; omega)] at e2
    subst e2
    exact ⟨rfl, by simpa using g2.symm⟩
  obtain ⟨rfl, hd⟩ := hx
  have hfin : (CFB.decStream c p s (List.replicate c.bs 0#8)).finish u = .error .panic := by
    simp only [CFB.decStream, CFB.decFinish, hd]
    rw [CFB.decryptInner_panic h (by rw [g4]; exact hiv) (by simp; omega) (by simp)]
    rfl
  simp [runStream, h1, hfin, bind, Except.bind]

/-- C11, the part that holds: default padding never drops a byte. -/
theorem C11_cfb_encrypts_all_partial (h : Lawful c E D) (hs0 : 0 < s) (hs : s ≤ c.bs) : CfbEncryptsAll c (.defaultOf c) s := by
  intro iv m ct hiv hct
  obtain ⟨r, ⟨z, hr⟩, hmod, henc, _⟩ := C10_cfb_roundtrip_default h hs0 hs iv m hiv
  rw [henc] at hct
  injection hct with hct
  have hb := blocksOf_isBlocks s r
  have hl := (CFB.cfbEnc_isBlocks h hs hiv hb).length_flatten
  have hl2 := hb.length_flatten
  have hn : ∀ (i : Bytes) (bs : List Bytes), (cfbEnc E s i bs).length = bs.length := by
    intro i bs
    induction bs generalizing i with
    | nil => rfl
    | cons b bs ih => simp [cfbEnc, ih]
  rw [flatten_blocksOf hs0 hmod] at hl2
  rw [← hct, hl, hn, ← hl2, hr]
  simp

/-- C11, the part that holds: one-shot decryption of any ciphertext, with any padding, returns `Ok` or `Err`; it is refused iff it is not whole segments. -/
theorem C11_cfb_decrypt_partial (h : Lawful c E D) (hs0 : 0 < s) (hs : s ≤ c.bs) (p : Padding) (iv ct : Bytes) (hiv : iv.length = c.bs) :
    (∃ m, CFB.decrypt c p s iv ct = .ok m) ∨ (∃ e, CFB.decrypt c p s iv ct = .error (.err e)) := by
  by_cases hm : ct.length % s = 0
  · rw [← flatten_blocksOf hs0 hm, CFB.decrypt_eq h hs0 hs hiv (blocksOf_isBlocks s ct)]
    exact CFB.unpad_no_panic _ _
  · right; exact ⟨_, by unfold CFB.decrypt; rw [if_pos hm]⟩

/-- C11, the part that holds: streaming decryption of whole segments never panics, for any chunking and draw-off schedule. -/
theorem C11_cfb_stream_decrypt_partial (h : Lawful c E D) (hs0 : 0 < s) (hs : s ≤ c.bs) (p : Padding) (iv : Bytes) (hiv : iv.length = c.bs)
    (ops : List (Bytes × Bool)) (hw : (written ops).length % s = 0) :
    runStream (CFB.decStream c p s iv) (CFB.init iv) ops ≠ .error .panic := by
  obtain ⟨out, u, h1, xb, g1, g2, g3, g4, g5⟩ := feed_inv (str := CFB.decStream c p s iv)
    (s := CFB.init iv) (RGe (CFB.decF E s) s iv)
    (fun m o u d hR => CFB.decWrite_inv h hs0 hs hiv d hR) (fun _ _ _ hR => hR.draw) ops (RGe.init hs0)
  simp only [List.nil_append] at g2
  have hd : u.data = [] := by
    rw [g2, List.length_append, g1.length_flatten, Nat.mul_add_mod, Nat.mod_eq_of_lt g3] at hw
    exact List.length_eq_zero_iff.1 hw
  have hst : u.st.length = c.bs := by rw [g4]; exact CFB.decF_inv h hs hiv g1
  simp only [runStream, h1, bind, Except.bind, CFB.decFinish_nil h hs0 hs p iv hst hd]
  rcases CFB.unpad_no_panic p u.pond with ⟨m, hm⟩ | ⟨e, he⟩
  · rw [hm]; simp
  · rw [he]; simp

/-- C12 (encryption): any chunking and draw-off schedule gives exactly the one-shot result and a fresh stream. -/
theorem C12_cfb_stream_encrypt (h : Lawful c E D) (hs0 : 0 < s) (hs : s ≤ c.bs) (p : Padding) (iv : Bytes) (hiv : iv.length = c.bs)
    (ops : List (Bytes × Bool)) :
    ∃ ct, CFB.encrypt c p s iv (written ops) = .ok ct ∧
      runStream (CFB.encStream c p s iv) (CFB.init iv) ops = .ok (ct, CFB.init iv) := by
  obtain ⟨out, s', h1, h2, h3⟩ := runStream_inv (str := CFB.encStream c p s iv) (s := CFB.init iv)
    (RGe (CFB.encF E s) s iv) (fun m o u d hR => CFB.encWrite_inv h hs0 hs hiv d hR) (fun _ _ _ hR => hR.draw) ops
    (RGe.init hs0) (fun out s' => CFB.encrypt c p s iv (written ops) = .ok out ∧ s' = CFB.init iv) (by
      rintro o u ⟨blocks, hb, hm, ht, hst, ho⟩
      obtain ⟨pb, rem, g1, g2, g3⟩ := exists_blocks hs0 (p.padding u.data)
      have hsl : u.st.length = c.bs := by rw [hst]; exact CFB.encF_inv h hs hiv hb
      refine ⟨u.pond ++ (cfbEnc E s u.st pb).flatten, CFB.init iv, ?_, ?_, rfl⟩
      · simp only [CFB.encStream, CFB.encFinish]
        rw [CFB.encryptInner_eq h hs0 hs hsl g1 g2 _ _ g3]
        rfl
      · rw [hm, CFB.encrypt_eq h hs0 hs hiv hb ht g1 g2 g3, ← List.append_assoc, ho, CFB.cfbEnc_append, CFB.runPure_encF_snd, hst]
        simp)
  exact ⟨out, h2, by rw [h1, h3]⟩

example : runStream (CFB.encStream (Toy.cipher 4) (.default 4) 2 [1, 2, 3, 4]) (CFB.init [1, 2, 3, 4]) [([], true), ([9], true)] =
    .ok ([12, 132, 133, 13], CFB.init [1, 2, 3, 4]) := by decide

/-- C12 as a statement, decryption half: with the output collected at `finish` (no earlier draw-off), any chunking gives the one-shot result. -/
def CfbStreamDecrypts (c : BlockCipher) (p : Padding) (s : Nat) : Prop :=
  ∀ iv (ops : List (Bytes × Bool)), iv.length = c.bs → (∀ op ∈ ops, op.2 = false) →
    (runStream (CFB.decStream c p s iv) (CFB.init iv) ops).map Prod.fst = CFB.decrypt c p s iv (written ops)

/-- C12 is false of the code for decryption: a partial trailing segment is an error in the one-shot call and a panic in the stream. -/
theorem C12_cfb_stream_decrypt_fails (h : Lawful c E D) (hs0 : 2 ≤ s) (hs : s ≤ c.bs) (p : Padding) : ¬ CfbStreamDecrypts c p s := by
  intro hall
  apply C11_cfb_decrypt_panics h hs0 hs p
  intro iv ops hiv hp
  -- any panic contradicts the one-shot result, which never panics
  have hw : ∀ ops' : List (Bytes × Bool), (∀ op ∈ ops', op.2 = false) →
      runStream (CFB.decStream c p s iv) (CFB.init iv) ops' ≠ .error .panic := by
    intro ops' hf hp'
    have := hall iv ops' hiv hf
    rw [hp'] at this
    rcases C11_cfb_decrypt_partial h (by omega) hs p iv (written ops') hiv with ⟨m, hm⟩ | ⟨e, he⟩
    · rw [hm] at this; cases this
    · rw [he] at this; cases this
  -- and a panic of any client is a panic of the client that does not draw off
  have hdm : (written ops).length % s ≠ 0 := fun h0 => C11_cfb_stream_decrypt_partial h (by omega) hs p iv hiv ops h0 hp
  apply hw [(written ops, false)] (by simp)
  obtain ⟨out, u, h1, xb, g1, g2, g3, g4, g5⟩ := feed_inv (str := CFB.decStream c p s iv)
    (s := CFB.init iv) (RGe (CFB.decF E s) s iv)
    (fun m o u d hR => CFB.decWrite_inv h (by omega) hs hiv d hR) (fun _ _ _ hR => hR.draw) [(written ops, false)] (RGe.init (by omega))
  have hd : u.data ≠ [] := by
    intro h0
    rw [h0, List.append_nil, show ([] : Bytes) ++ written [(written ops, false)] = written ops by simp [written]] at g2
    exact hdm (by rw [g2, g1.length_flatten, Nat.mul_mod_right])
  have hfin : (CFB.decStream c p s iv).finish u = .error .panic := by
    simp only [CFB.decStream, CFB.decFinish]
    rw [CFB.decryptInner_panic h (by rw [g4]; exact CFB.decF_inv h hs hiv g1) g3 hd]
    rfl
  simp [runStream, h1, hfin, bind, Except.bind]

/-- C12, the part that holds for decryption: for whole segments, any chunking without draw-off before `finish` gives the one-shot result,
both for well padded and for malformed ciphertexts. -/
theorem C12_cfb_stream_decrypt_partial (h : Lawful c E D) (hs0 : 0 < s) (hs : s ≤ c.bs) (p : Padding) (iv : Bytes) (hiv : iv.length = c.bs)
    (ops : List (Bytes × Bool)) (hops : ∀ op ∈ ops, op.2 = false) (hw : (written ops).length % s = 0) :
    (runStream (CFB.decStream c p s iv) (CFB.init iv) ops).map Prod.fst = CFB.decrypt c p s iv (written ops) := by
  obtain ⟨out, u, h1, xb, g1, g2, g3, g4, g5⟩ := feed_inv (str := CFB.decStream c p s iv)
    (s := CFB.init iv) (RGe (CFB.decF E s) s iv)
    (fun m o u d hR => CFB.decWrite_inv h hs0 hs hiv d hR) (fun _ _ _ hR => hR.draw) ops (RGe.init hs0)
  simp only [List.nil_append] at g2 g5
  have hd : u.data = [] := by
    rw [g2, List.length_append, g1.length_flatten, Nat.mul_add_mod, Nat.mod_eq_of_lt g3] at hw
    exact List.length_eq_zero_iff.1 hw
  have hout : out = [] := by
    have : ∀ (ops : List (Bytes × Bool)) (v : StreamSt Bytes) out u, (∀ op ∈ ops, op.2 = false) →
        feed (CFB.decStream c p s iv) v ops = .ok (out, u) → out = [] := by
      intro ops
      induction ops with
      | nil => intro v out u _ h; simp [feed] at h; exact h.1
      | cons op ops ih =>
        intro v out u hf h
        obtain ⟨d, b⟩ := op
        have hb : b = false := hf (d, b) (by simp)
        subst hb
        simp only [feed, bind, Except.bind] at h
        cases hwr : (CFB.decStream c p s iv).write v d with
        | error e => rw [hwr] at h; cases h
        | ok v' =>
          rw [hwr] at h
          simp only at h
          cases hfe : feed (CFB.decStream c p s iv) v' ops with
          | error e => simp [hfe] at h
          | ok r =>
            obtain ⟨o2, u2⟩ := r
            simp [hfe] at h
            have := ih v' o2 u2 (fun op hop => hf op (by simp [hop])) hfe
            rw [← h.1, this]
    exact this ops _ _ _ hops h1
  subst hout
  have hst : u.st.length = c.bs := by rw [g4]; exact CFB.decF_inv h hs hiv g1
  have hct : written ops = xb.flatten := by rw [g2, hd, List.append_nil]
  rw [hct, CFB.decrypt_eq h hs0 hs hiv g1]
  simp only [List.nil_append] at g5
  simp only [runStream, h1, bind, Except.bind, CFB.decFinish_nil h hs0 hs p iv hst hd]
  rw [g5, CFB.runPure_decF_snd]
  cases p.unpad (cfbDec E s iv xb).flatten <;> simp [Except.map]

example : runStream (CFB.decStream (Toy.cipher 4) (.default 4) 2 [1, 2, 3, 4]) (CFB.init [1, 2, 3, 4]) [([12, 132, 133], false), ([13], false)] =
    .ok ([9], CFB.init [1, 2, 3, 4]) := by decide

end Verif.Props
