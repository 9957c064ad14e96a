import Verif.Model.FlakyOnce
import Verif.Proof.FlakyLink
import Verif.Proof.OutBuf
import Verif.Proof.CMAC

/-! Helper lemmas about single calls of the modes over a cipher that may fail -/

namespace Verif.Model.FlakyOnce
open Verif.Spec
open Verif.Spec.Flaky (first)
open Verif.Spec.FlakyOnce (once)
open Verif.Model.Flaky (Sched bad first_none first_some first_lt)
open Verif.Model.OutBuf (whileBuf)

variable {c : BlockCipher} {E D : Bytes → Bytes} {fail : Sched}

theorem first_add (b : Nat → Bool) (t w v : Nat) :
    first b t (w + v) = match first b t w with
      | some k => some k
      | none => (first b (t + w) v).map (w + ·) := by
  induction w generalizing t with
  | zero =>
    simp only [first, Nat.zero_add, Nat.add_zero]
    cases first b t v <;> rfl
  | succ w ih =>
    rw [show w + 1 + v = (w + v) + 1 by omega, first, first]
    by_cases h : b t = true
    · simp [h]
    · simp only [h, if_false, Bool.false_eq_true]
      rw [ih]
      cases first b (t + 1) w with
      | some k => rfl
      | none =>
        simp only [Option.map_none]
        rw [show t + 1 + w = t + (w + 1) by omega]
        cases first b (t + (w + 1)) v with
        | none => rfl
        | some k => simp only [Option.map_some]; congr 1; omega

theorem first_one (b : Nat → Bool) (t : Nat) : first b t 1 = if b t then some 0 else none := by
  simp [first]

/-- A loop over `blocks` in front of `tail`. `Q` holds between the state of the object, that of the loop, the mode state and the number of calls; `P` of an object whose
cipher failed. -/
theorem whileBuf_flaky {τ σ ρ : Type} {cont : Nat → Bool} {n : Nat} {bstep : τ → ρ → Bytes → τ × Res (ρ × Bytes)} {f : σ → Bytes → σ × Bytes}
    {Q : τ → ρ → σ → Nat → Prop} {P : τ → σ → Nat → Prop}
    (hok : ∀ x r s t b, Q x r s t → b.length = n → fail t = none → ∃ x' r', bstep x r b = (x', .ok (r', (f s b).2)) ∧ Q x' r' (f s b).1 (t + 1))
    (herr : ∀ x r s t b g, Q x r s t → b.length = n → fail t = some g → ∃ x', bstep x r b = (x', .error (.err .innerErr)) ∧ P x' s t)
    {tail : Bytes} (hc : ∀ k, 0 < k → cont (n * k + tail.length) = true)
    {blocks : List Bytes} (hb : IsBlocks n blocks) (x : τ) (r : ρ) (s : σ) (t : Nat) (hQ : Q x r s t) (dst data : Bytes) (hd : data = blocks.flatten ++ tail)
    (fuel : Nat) (hf : blocks.length ≤ fuel) :
    match first (bad fail) t blocks.length with
    | none => ∃ x' r', whileBuf cont n bstep fuel x r dst data = whileBuf cont n bstep (fuel - blocks.length) x' r' (dst ++ (runPure f s blocks).2) tail ∧
        Q x' r' (runPure f s blocks).1 (t + blocks.length)
    | some k => ∃ x', whileBuf cont n bstep fuel x r dst data = (x', dst ++ (runPure f s (blocks.take k)).2, .error (.err .innerErr)) ∧
        P x' (runPure f s (blocks.take k)).1 (t + k) := by
  subst hd
  induction blocks generalizing x r s t dst fuel with
  | nil => exact ⟨x, r, by simp [runPure], hQ⟩
  | cons b bs ih =>
    cases fuel with
    | zero => simp at hf
    | succ fuel =>
      have hlen : ((b :: bs).flatten ++ tail).length = n * (bs.length + 1) + tail.length := by
        rw [List.length_append, hb.length_flatten]; rfl
      have htake : ((b :: bs).flatten ++ tail).take n = b := by
        rw [List.flatten_cons, List.append_assoc, ← hb.head, List.take_left]
      have hdrop : ((b :: bs).flatten ++ tail).drop n = bs.flatten ++ tail := by
        rw [List.flatten_cons, List.append_assoc, ← hb.head, List.drop_left]
      rw [whileBuf, if_pos (by rw [hlen]; exact hc _ (Nat.succ_pos _)), htake, hdrop]
      cases hfl : fail t with
      | some g =>
        obtain ⟨x', e, hP⟩ := herr x r s t b g hQ hb.head hfl
        have hfirst : first (bad fail) t (b :: bs).length = some 0 := by simp [first, bad, hfl]
        rw [hfirst, e]
        exact ⟨x', by simp [runPure], hP⟩
      | none =>
        obtain ⟨x', r', e, hQ'⟩ := hok x r s t b hQ hb.head hfl
        have hfirst : first (bad fail) t (b :: bs).length = (first (bad fail) (t + 1) bs.length).map (· + 1) := by simp [first, bad, hfl]
        have := ih hb.tail x' r' (f s b).1 (t + 1) hQ' (dst ++ (f s b).2) fuel (by simpa using hf)
        rw [hfirst, e]
        cases hF : first (bad fail) (t + 1) bs.length with
        | none =>
          rw [hF] at this
          obtain ⟨x2, r2, e2, hQ2⟩ := this
          refine ⟨x2, r2, ?_, ?_⟩
          · simp only [e2, runPure, List.length_cons, List.append_assoc, Nat.add_sub_add_right]
          · rw [show t + (b :: bs).length = t + 1 + bs.length by rw [List.length_cons]; omega]; exact hQ2
        | some k =>
          rw [hF] at this
          obtain ⟨x2, e2, hP2⟩ := this
          refine ⟨x2, ?_, ?_⟩
          · simp only [e2, runPure, List.take_succ_cons, List.append_assoc]
          · rw [show t + (k + 1) = t + 1 + k by omega]; exact hP2

/-- The output of the first `k` blocks. -/
theorem runPure_take {σ : Type} {f : σ → Bytes → σ × Bytes} {Inv : σ → Prop} {n : Nat}
    (hl : ∀ s b, Inv s → b.length = n → (f s b).2.length = n ∧ Inv (f s b).1) {blocks : List Bytes} (hb : IsBlocks n blocks) {s : σ} (hs : Inv s) (k : Nat)
    (rest : Bytes) (hk : k ≤ blocks.length) : ((runPure f s blocks).2 ++ rest).take (n * k) = (runPure f s (blocks.take k)).2 := by
  induction blocks generalizing s k with
  | nil =>
    have : k = 0 := by simpa using hk
    subst this
    simp [runPure]
  | cons b bs ih =>
    cases k with
    | zero => simp [runPure]
    | succ k =>
      obtain ⟨h1, h2⟩ := hl s b hs hb.head
      have h3 := ih hb.tail h2 k (by simpa using hk)
      rw [List.take_succ_cons]
      simp only [runPure]
      rw [List.append_assoc, Nat.mul_succ, Nat.add_comm, ← h3]
      conv_lhs => rw [← h1]
      rw [List.take_length_add_append, h1]

theorem length_runPure {σ : Type} {f : σ → Bytes → σ × Bytes} {Inv : σ → Prop} {n : Nat}
    (hl : ∀ s b, Inv s → b.length = n → (f s b).2.length = n ∧ Inv (f s b).1) {blocks : List Bytes} (hb : IsBlocks n blocks) {s : σ} (hs : Inv s) :
    (runPure f s blocks).2.length = n * blocks.length := by
  induction blocks generalizing s with
  | nil => rfl
  | cons b bs ih =>
    obtain ⟨h1, h2⟩ := hl s b hs hb.head
    simp only [runPure, List.length_append, h1, ih hb.tail h2, List.length_cons, Nat.mul_succ]
    omega

/-! ## One loop of a mode -/

/-- What the bodies of the loops do over the failing cipher. -/
structure Body {σ : Type} (fail : Sched) (bstep : Nat × Bytes → σ → Bytes → (Nat × Bytes) × Res (σ × Bytes)) (f : σ → Bytes → σ × Bytes) (n : Nat)
    (Inv : σ → Prop) : Prop where
  ok : ∀ t buf s b, Inv s → b.length = n → fail t = none → ∃ buf', bstep (t, buf) s b = ((t + 1, buf'), .ok (f s b))
  err : ∀ t buf s b g, Inv s → b.length = n → fail t = some g → ∃ buf', bstep (t, buf) s b = ((t + 1, buf'), .error (.err .innerErr))
  inv : ∀ s b, Inv s → b.length = n → (f s b).2.length = n ∧ Inv (f s b).1

theorem Body.loop {σ : Type} {bstep : Nat × Bytes → σ → Bytes → (Nat × Bytes) × Res (σ × Bytes)} {f : σ → Bytes → σ × Bytes} {n : Nat} {Inv : σ → Prop}
    (B : Body fail bstep f n Inv) {cont : Nat → Bool} {tail : Bytes} (hc : ∀ k, 0 < k → cont (n * k + tail.length) = true) (ht : cont tail.length = false)
    (hn : 0 < n) {blocks : List Bytes} (hb : IsBlocks n blocks) (t : Nat) (buf : Bytes) (s : σ) (hs : Inv s) (dst data : Bytes)
    (hd : data = blocks.flatten ++ tail) :
    ∃ buf', whileBuf cont n bstep (data.length + 1) (t, buf) s dst data =
      match first (bad fail) t blocks.length with
      | none => ((t + blocks.length, buf'), dst ++ (runPure f s blocks).2, .ok ((runPure f s blocks).1, tail))
      | some k => ((t + k + 1, buf'), dst ++ (runPure f s (blocks.take k)).2, .error (.err .innerErr)) := by
  have hlen : blocks.length + 1 ≤ data.length + 1 := by
    rw [hd, List.length_append, hb.length_flatten]
    have := Nat.mul_le_mul_right blocks.length hn
    omega
  have := whileBuf_flaky (fail := fail) (cont := cont) (bstep := bstep) (f := f)
    (Q := fun (x : Nat × Bytes) r s t => x.1 = t ∧ r = s ∧ Inv s) (P := fun x _ t => x.1 = t + 1)
    (fun x r s t b hQ hb hf => by
      obtain ⟨u, w⟩ := x
      obtain ⟨h1, rfl, h3⟩ := hQ
      dsimp only at h1
      subst h1
      obtain ⟨buf', e⟩ := B.ok u w r b h3 hb hf
      exact ⟨_, _, e, rfl, rfl, (B.inv r b h3 hb).2⟩)
    (fun x r s t b g hQ hb hf => by
      obtain ⟨u, w⟩ := x
      obtain ⟨h1, rfl, h3⟩ := hQ
      dsimp only at h1
      subst h1
      obtain ⟨buf', e⟩ := B.err u w r b g h3 hb hf
      exact ⟨_, e, rfl⟩) hc hb (t, buf) s s t ⟨rfl, rfl, hs⟩ dst data hd (data.length + 1) (by omega)
  cases hF : first (bad fail) t blocks.length with
  | none =>
    rw [hF] at this
    obtain ⟨⟨u, w⟩, r', e, h1, h2, -⟩ := this
    dsimp only at h1
    refine ⟨w, ?_⟩
    rw [e]
    obtain ⟨m, hm⟩ : ∃ m, data.length + 1 - blocks.length = m + 1 := ⟨data.length - blocks.length, by omega⟩
    rw [hm, whileBuf, if_neg (by simp [ht]), h1, h2]
  | some k =>
    rw [hF] at this
    obtain ⟨⟨u, w⟩, e, h1⟩ := this
    dsimp only at h1
    exact ⟨w, by rw [e, h1]⟩

theorem ecbEnc_body (h : Lawful c E D) : Body fail (OutBuf.ecbEnc (cipher c fail)) (ECB.encF E) c.bs (fun _ => True) where
  ok t buf s b _ hb hf := ⟨[], by simp [OutBuf.ecbEnc, cipher, hf, h.enc b hb, ECB.encF]⟩
  err t buf s b g _ hb hf := ⟨g buf, by simp [OutBuf.ecbEnc, cipher, hf]⟩
  inv s b _ hb := ⟨h.lenE b hb, trivial⟩

theorem ecbDec_body (h : Lawful c E D) : Body fail (OutBuf.ecbDec (cipher c fail)) (ECB.encF D) c.bs (fun _ => True) where
  ok t buf s b _ hb hf := ⟨[], by simp [OutBuf.ecbDec, cipher, hf, h.dec b hb, ECB.encF]⟩
  err t buf s b g _ hb hf := ⟨g buf, by simp [OutBuf.ecbDec, cipher, hf]⟩
  inv s b _ hb := ⟨h.lenD b hb, trivial⟩

theorem cbcEnc_body (h : Lawful c E D) : Body fail (OutBuf.cbcEnc (cipher c fail)) (CBC.encF E) c.bs (fun iv => iv.length = c.bs) where
  ok t buf s b hs hb hf := by
    have hx : (xorBytes b s).length = c.bs := by rw [length_xorBytes]; omega
    have hxi : CBC.xorIv b s = xorBytes b s := by
      rw [CBC.xorIv, List.drop_eq_nil_of_le (by omega), List.append_nil, xorBytes_comm]
    exact ⟨[], by simp [OutBuf.cbcEnc, cipher, hf, hxi, h.enc _ hx, CBC.encF]⟩
  err t buf s b g _ hb hf := ⟨g buf, by simp [OutBuf.cbcEnc, cipher, hf]⟩
  inv s b hs hb := by
    have := (CBC.encStep_ok h s b hs hb).2
    exact ⟨this, this⟩

theorem cbcDec_body (h : Lawful c E D) : Body fail (OutBuf.cbcDec (cipher c fail)) (CBC.decF D) c.bs (fun iv => iv.length = c.bs) where
  ok t buf s b hs hb hf := ⟨D b, by simp [OutBuf.cbcDec, cipher, hf, h.dec b hb, CBC.decF, xorBytes_comm]⟩
  err t buf s b g _ hb hf := ⟨g buf, by simp [OutBuf.cbcDec, cipher, hf]⟩
  inv s b hs hb := ⟨by simp [CBC.decF, length_xorBytes, h.lenD b hb, hs], hb⟩

theorem cfbEnc_body (h : Lawful c E D) {s : Nat} (hs : s ≤ c.bs) :
    Body fail (OutBuf.cfbEnc (cipher c fail) s) (CFB.encF E s) s (fun iv => iv.length = c.bs) where
  ok t buf ij b hij hb hf := by
    have e := (CFB.encStep_ok h hs ij b hij hb).1
    simp only [CFB.encStep, h.enc _ hij, bind, Except.bind] at e
    injection e with e
    simp only [OutBuf.cfbEnc, cipher, hf, h.enc _ hij]
    exact ⟨_, by rw [← e]⟩
  err t buf s b g _ hb hf := ⟨g buf, by simp [OutBuf.cfbEnc, cipher, hf]⟩
  inv ij b hij hb := ⟨by
    have := h.lenE _ hij
    simp [CFB.encF, length_xorBytes, hb]; omega, (CFB.encStep_ok h hs ij b hij hb).2⟩

theorem cfbDec_body (h : Lawful c E D) {s : Nat} (hs : s ≤ c.bs) :
    Body fail (OutBuf.cfbDec (cipher c fail) s) (CFB.decF E s) s (fun iv => iv.length = c.bs) where
  ok t buf ij b hij hb hf := ⟨[], by simp [OutBuf.cfbDec, cipher, hf, h.enc _ hij, CFB.decF, hb]⟩
  err t buf s b g _ hb hf := ⟨g buf, by simp [OutBuf.cfbDec, cipher, hf]⟩
  inv ij b hij hb := ⟨by
    have := h.lenE _ hij
    simp [CFB.decF, length_xorBytes, hb]; omega, (CFB.decStep_ok h hs ij b hij hb).2⟩

theorem ofb_body (h : Lawful c E D) : Body fail (OutBuf.ofbStep (cipher c fail)) (OFB.stepF E) c.bs (fun iv => iv.length = c.bs) where
  ok t buf ij b hij hb hf := ⟨[], by simp [OutBuf.ofbStep, cipher, hf, h.enc _ hij, OFB.stepF, xorBytes_comm]⟩
  err t buf s b g _ hb hf := ⟨g buf, by simp [OutBuf.ofbStep, cipher, hf]⟩
  inv ij b hij hb := ⟨by
    have := h.lenE _ hij
    simp [OFB.stepF, length_xorBytes, hb]; omega, h.lenE _ hij⟩

/-! ## The calls -/

/-- The number of calls, the buffer and the result. -/
def seen {β : Type} (r : (Nat × β) × Bytes × Res Nat) : Nat × Bytes × Res Nat := (r.1.1, r.2)

/-- Two loops in a row. -/
theorem seen_two {n t a b : Nat} {A B : Bytes} {bd : Nat → Bool} {x : (Nat × Bytes) × Bytes × Res Nat}
    (h1 : ∀ k, first bd t a = some k → seen x = (t + k + 1, (A ++ B).take (n * k), .error (.err .innerErr)))
    (h2 : first bd t a = none → ∀ k, first bd (t + a) b = some k → seen x = (t + a + k + 1, (A ++ B).take (n * (a + k)), .error (.err .innerErr)))
    (h3 : first bd t a = none → first bd (t + a) b = none → seen x = (t + a + b, A ++ B, .ok (A ++ B).length)) :
    seen x = once bd n t (a + b) (A ++ B, .ok (A ++ B).length) (A ++ B) := by
  rw [once, first_add]
  cases hF : first bd t a with
  | some k => exact h1 k hF
  | none =>
    dsimp only
    cases hG : first bd (t + a) b with
    | none => rw [h3 hF hG]; simp [Nat.add_assoc]
    | some k => rw [h2 hF k hG]; simp [Nat.add_assoc]

theorem ecbEncrypt_eq (h : Lawful c E D) {p : Padding} {blocks : List Bytes} {t : Bytes} (hb : IsBlocks c.bs blocks) (ht : t.length < c.bs) {pb : List Bytes}
    (hpb : IsBlocks c.bs pb) (hp : p.padding t = pb.flatten) (u : Nat) (buf dst : Bytes) :
    seen (OutBuf.ecbEncrypt (cipher c fail) p (u, buf) dst (blocks.flatten ++ t)) =
      once (bad fail) c.bs u (blocks.length + pb.length) ((ecb E (blocks ++ pb)).flatten, .ok (ecb E (blocks ++ pb)).flatten.length) (ecb E (blocks ++ pb)).flatten := by
  have hct : (ecb E (blocks ++ pb)).flatten = (ecb E blocks).flatten ++ (ecb E pb).flatten := by simp [ecb]
  rw [hct]
  unfold OutBuf.ecbEncrypt
  rw [show (cipher c fail).bs = c.bs from rfl, List.take_zero]
  obtain ⟨b1, e1⟩ := (ecbEnc_body (fail := fail) h).loop (cont := contGe c.bs) (tail := t) (fun k hk => contGe_blocks k _ hk) (by simp [contGe]; omega) h.pos hb u buf ()
    trivial [] _ rfl
  rw [e1]
  have hr1 : (runPure (ECB.encF E) () blocks).2 = (ecb E blocks).flatten := by rw [ECB.runPure_encF]
  have hr2 : (runPure (ECB.encF E) () pb).2 = (ecb E pb).flatten := by rw [ECB.runPure_encF]
  have hl1 := length_runPure (ecbEnc_body (fail := fail) h).inv hb (s := ()) trivial
  rw [hr1] at hl1
  refine seen_two (fun k hk => ?_) (fun h0 k hk => ?_) (fun h0 hk => ?_)
  · rw [hk]
    simp only [seen, List.nil_append]
    rw [← runPure_take (ecbEnc_body (fail := fail) h).inv hb trivial k _ (Nat.le_of_lt (first_lt hk)), hr1]
  all_goals
    rw [h0]
    simp only
    obtain ⟨b2, e2⟩ := (ecbEnc_body (fail := fail) h).loop (cont := contNe) (tail := []) (fun k hk => contNe_blocks h.pos k _ hk) (by simp [contNe]) h.pos hpb
      (u + blocks.length) b1 () trivial ([] ++ (runPure (ECB.encF E) () blocks).2) (p.padding t) (by rw [hp, List.append_nil])
    rw [e2, hk]
  · simp only [seen, List.nil_append, hr1]
    rw [Nat.mul_add, ← hl1, List.take_length_add_append, ← hr2]
    have := runPure_take (ecbEnc_body (fail := fail) h).inv hpb (s := ()) trivial k [] (Nat.le_of_lt (first_lt hk))
    rw [List.append_nil] at this
    rw [this]
  · simp only [seen, List.nil_append, hr1, hr2]

theorem cbcEncrypt_eq (h : Lawful c E D) {p : Padding} {iv : Bytes} (hiv : iv.length = c.bs) {blocks : List Bytes} {t : Bytes} (hb : IsBlocks c.bs blocks)
    (ht : t.length < c.bs) {pb : List Bytes} (hpb : IsBlocks c.bs pb) (hp : p.padding t = pb.flatten) (u : Nat) (buf dst : Bytes) :
    seen (OutBuf.cbcEncrypt (cipher c fail) p iv (u, buf) dst (blocks.flatten ++ t)) =
      once (bad fail) c.bs u (blocks.length + pb.length) ((cbcEnc E iv blocks).flatten ++ (ecb E pb).flatten,
        .ok ((cbcEnc E iv blocks).flatten ++ (ecb E pb).flatten).length) ((cbcEnc E iv blocks).flatten ++ (ecb E pb).flatten) := by
  unfold OutBuf.cbcEncrypt
  rw [show (cipher c fail).bs = c.bs from rfl, List.take_zero]
  obtain ⟨b1, e1⟩ := (cbcEnc_body (fail := fail) h).loop (cont := contGe c.bs) (tail := t) (fun k hk => contGe_blocks k _ hk) (by simp [contGe]; omega) h.pos hb u buf iv
    hiv [] _ rfl
  rw [e1]
  have hr1 : (runPure (CBC.encF E) iv blocks).2 = (cbcEnc E iv blocks).flatten := CBC.runPure_encF_snd _ _
  have hr2 : (runPure (ECB.encF E) () pb).2 = (ecb E pb).flatten := by rw [ECB.runPure_encF]
  have hl1 := length_runPure (cbcEnc_body (fail := fail) h).inv hb (s := iv) hiv
  rw [hr1] at hl1
  refine seen_two (fun k hk => ?_) (fun h0 k hk => ?_) (fun h0 hk => ?_)
  · rw [hk]
    simp only [seen, List.nil_append]
    rw [← runPure_take (cbcEnc_body (fail := fail) h).inv hb hiv k _ (Nat.le_of_lt (first_lt hk)), hr1]
  all_goals
    rw [h0]
    simp only
    obtain ⟨b2, e2⟩ := (ecbEnc_body (fail := fail) h).loop (cont := contNe) (tail := []) (fun k hk => contNe_blocks h.pos k _ hk) (by simp [contNe]) h.pos hpb
      (u + blocks.length) b1 () trivial ([] ++ (runPure (CBC.encF E) iv blocks).2) (p.padding t) (by rw [hp, List.append_nil])
    rw [e2, hk]
  · simp only [seen, List.nil_append, hr1]
    rw [Nat.mul_add, ← hl1, List.take_length_add_append, ← hr2]
    have := runPure_take (ecbEnc_body (fail := fail) h).inv hpb (s := ()) trivial k [] (Nat.le_of_lt (first_lt hk))
    rw [List.append_nil] at this
    rw [this]
  · simp only [seen, List.nil_append, hr1, hr2]

theorem cfbEncrypt_eq (h : Lawful c E D) {s : Nat} (hs0 : 0 < s) (hs : s ≤ c.bs) {p : Padding} {iv : Bytes} (hiv : iv.length = c.bs) {blocks : List Bytes} {t : Bytes}
    (hb : IsBlocks s blocks) (ht : t.length < s) {pb : List Bytes} {rem : Bytes} (hpb : IsBlocks s pb) (hrem : rem.length < s)
    (hp : p.padding t = pb.flatten ++ rem) (u : Nat) (buf dst : Bytes) :
    seen (OutBuf.cfbEncrypt (cipher c fail) p s iv (u, buf) dst (blocks.flatten ++ t)) =
      once (bad fail) s u (blocks.length + pb.length) ((cfbEnc E s iv (blocks ++ pb)).flatten, .ok (cfbEnc E s iv (blocks ++ pb)).flatten.length)
        (cfbEnc E s iv (blocks ++ pb)).flatten := by
  have hct : (cfbEnc E s iv (blocks ++ pb)).flatten =
      (cfbEnc E s iv blocks).flatten ++ (cfbEnc E s (runPure (CFB.encF E s) iv blocks).1 pb).flatten := by rw [CFB.cfbEnc_append, List.flatten_append]
  rw [hct]
  unfold OutBuf.cfbEncrypt
  rw [List.take_zero]
  obtain ⟨b1, e1⟩ := (cfbEnc_body (fail := fail) h hs).loop (cont := contGe s) (tail := t) (fun k hk => contGe_blocks k _ hk) (by simp [contGe]; omega) hs0 hb u buf iv
    hiv [] _ rfl
  rw [e1]
  simp only
  rw [(CFB.drop_tail hb ht rfl).1]
  have hiv' := CFB.encF_inv h hs hiv hb
  have hr1 : (runPure (CFB.encF E s) iv blocks).2 = (cfbEnc E s iv blocks).flatten := CFB.runPure_encF_snd _ _
  have hr2 : (runPure (CFB.encF E s) (runPure (CFB.encF E s) iv blocks).1 pb).2 = (cfbEnc E s (runPure (CFB.encF E s) iv blocks).1 pb).flatten :=
    CFB.runPure_encF_snd _ _
  have hl1 := length_runPure (cfbEnc_body (fail := fail) h hs).inv hb (s := iv) hiv
  rw [hr1] at hl1
  refine seen_two (fun k hk => ?_) (fun h0 k hk => ?_) (fun h0 hk => ?_)
  · rw [hk]
    simp only [seen, List.nil_append]
    rw [← runPure_take (cfbEnc_body (fail := fail) h hs).inv hb hiv k _ (Nat.le_of_lt (first_lt hk)), hr1]
  all_goals
    rw [h0]
    simp only
    obtain ⟨b2, e2⟩ := (cfbEnc_body (fail := fail) h hs).loop (cont := contGe s) (tail := rem) (fun k hk => contGe_blocks k _ hk) (by simp [contGe]; omega) hs0 hpb
      (u + blocks.length) b1 _ hiv' ([] ++ (runPure (CFB.encF E s) iv blocks).2) (p.padding t) hp
    rw [e2, hk]
  · simp only [seen, List.nil_append, hr1]
    rw [Nat.mul_add, ← hl1, List.take_length_add_append, ← hr2]
    have := runPure_take (cfbEnc_body (fail := fail) h hs).inv hpb hiv' k [] (Nat.le_of_lt (first_lt hk))
    rw [List.append_nil] at this
    rw [this]
  · simp only [seen, List.nil_append, hr1, hr2]

/-- One loop and the removal of the padding. -/
theorem seen_dec {n t a : Nat} {A : Bytes} {bd : Nat → Bool} {p : Padding} {x : (Nat × Bytes) × Bytes × Res Nat}
    (h1 : ∀ k, first bd t a = some k → seen x = (t + k + 1, A.take (n * k), .error (.err .innerErr)))
    (h2 : first bd t a = none → seen x = (t + a, p.unpadding A)) : seen x = once bd n t a (p.unpadding A) A := by
  rw [once]
  cases hF : first bd t a with
  | some k => exact h1 k hF
  | none => exact h2 hF

theorem ecbDecrypt_eq (h : Lawful c E D) {p : Padding} {blocks : List Bytes} (hb : IsBlocks c.bs blocks) (u : Nat) (buf dst : Bytes) :
    seen (OutBuf.ecbDecrypt (cipher c fail) p (u, buf) dst blocks.flatten) =
      once (bad fail) c.bs u blocks.length (p.unpadding (ecb D blocks).flatten) (ecb D blocks).flatten := by
  unfold OutBuf.ecbDecrypt
  rw [show (cipher c fail).bs = c.bs from rfl, if_neg (by rw [hb.length_flatten, Nat.mul_mod_right]; simp), List.take_zero]
  obtain ⟨b1, e1⟩ := (ecbDec_body (fail := fail) h).loop (cont := contGe c.bs) (tail := []) (fun k hk => contGe_blocks k _ hk) (by have := h.pos; simp [contGe]; omega) h.pos hb u buf ()
    trivial [] blocks.flatten (by simp)
  rw [e1]
  have hr1 : (runPure (ECB.encF D) () blocks).2 = (ecb D blocks).flatten := by rw [ECB.runPure_encF]
  refine seen_dec (fun k hk => ?_) (fun hk => ?_)
  · rw [hk]
    simp only [seen, List.nil_append]
    have := runPure_take (ecbDec_body (fail := fail) h).inv hb (s := ()) trivial k [] (Nat.le_of_lt (first_lt hk))
    rw [List.append_nil, hr1] at this
    rw [this]
  · rw [hk]
    simp only [seen, List.nil_append, hr1, OutBuf.unpadAt]

theorem cbcDecrypt_eq (h : Lawful c E D) {iv : Bytes} (hiv : iv.length = c.bs) {p : Padding} {blocks : List Bytes} (hb : IsBlocks c.bs blocks) (u : Nat) (buf dst : Bytes) :
    seen (OutBuf.cbcDecrypt (cipher c fail) p iv (u, buf) dst blocks.flatten) =
      once (bad fail) c.bs u blocks.length (p.unpadding (cbcDec D iv blocks).flatten) (cbcDec D iv blocks).flatten := by
  unfold OutBuf.cbcDecrypt
  rw [show (cipher c fail).bs = c.bs from rfl, if_neg (by rw [hb.length_flatten, Nat.mul_mod_right]; simp), List.take_zero]
  obtain ⟨b1, e1⟩ := (cbcDec_body (fail := fail) h).loop (cont := contNe) (tail := []) (fun k hk => contNe_blocks h.pos k _ hk) (by simp [contNe]) h.pos hb u buf iv
    hiv [] blocks.flatten (by simp)
  rw [e1]
  have hr1 : (runPure (CBC.decF D) iv blocks).2 = (cbcDec D iv blocks).flatten := CBC.runPure_decF_snd _ _
  refine seen_dec (fun k hk => ?_) (fun hk => ?_)
  · rw [hk]
    simp only [seen, List.nil_append]
    have := runPure_take (cbcDec_body (fail := fail) h).inv hb (s := iv) hiv k [] (Nat.le_of_lt (first_lt hk))
    rw [List.append_nil, hr1] at this
    rw [this]
  · rw [hk]
    simp only [seen, List.nil_append, hr1, OutBuf.unpadAt]

theorem cfbDecrypt_eq (h : Lawful c E D) {s : Nat} (hs0 : 0 < s) (hs : s ≤ c.bs) {iv : Bytes} (hiv : iv.length = c.bs) {p : Padding} {blocks : List Bytes} (hb : IsBlocks s blocks) (u : Nat) (buf dst : Bytes) :
    seen (OutBuf.cfbDecrypt (cipher c fail) p s iv (u, buf) dst blocks.flatten) =
      once (bad fail) s u blocks.length (p.unpadding (cfbDec E s iv blocks).flatten) (cfbDec E s iv blocks).flatten := by
  unfold OutBuf.cfbDecrypt
  rw [if_neg (by rw [hb.length_flatten, Nat.mul_mod_right]; simp), List.take_zero]
  obtain ⟨b1, e1⟩ := (cfbDec_body (fail := fail) h hs).loop (cont := contNe) (tail := []) (fun k hk => contNe_blocks hs0 k _ hk) (by simp [contNe]) hs0 hb u buf iv
    hiv [] blocks.flatten (by simp)
  rw [e1]
  have hr1 : (runPure (CFB.decF E s) iv blocks).2 = (cfbDec E s iv blocks).flatten := CFB.runPure_decF_snd _ _
  refine seen_dec (fun k hk => ?_) (fun hk => ?_)
  · rw [hk]
    simp only [seen, List.nil_append]
    have := runPure_take (cfbDec_body (fail := fail) h hs).inv hb (s := iv) hiv k [] (Nat.le_of_lt (first_lt hk))
    rw [List.append_nil, hr1] at this
    rw [this]
  · rw [hk]
    simp only [seen, List.nil_append, hr1, OutBuf.unpadAt]

theorem ofbEncrypt_eq (h : Lawful c E D) {iv : Bytes} (hiv : iv.length = c.bs) (m : Bytes) (u : Nat) (buf dst : Bytes) :
    seen (OutBuf.ofbEncrypt (cipher c fail) iv (u, buf) dst m) =
      once (bad fail) c.bs u (m.length / c.bs + 1) (ofb E c.bs iv m, .ok (ofb E c.bs iv m).length) (ofb E c.bs iv m) := by
  obtain ⟨blocks, t, hb, ht, rfl⟩ := exists_blocks h.pos m
  have hl : (blocks.flatten ++ t).length % c.bs = t.length := by
    rw [List.length_append, hb.length_flatten, Nat.mul_add_mod, Nat.mod_eq_of_lt ht]
  have hB := ofb_body (fail := fail) h
  unfold OutBuf.ofbEncrypt
  rw [show (cipher c fail).bs = c.bs from rfl, List.take_zero, Flaky.div_blocks h.pos hb ht]
  dsimp only
  rw [(CFB.drop_tail hb ht rfl).1, (CFB.drop_tail hb ht rfl).2, hl]
  obtain ⟨b1, e1⟩ := hB.loop (cont := contGe c.bs) (tail := []) (fun k hk => contGe_blocks k _ hk) (by have := h.pos; simp [contGe]; omega) h.pos hb u buf iv hiv []
    blocks.flatten (by simp)
  rw [e1, OFB.ofb_tail h hiv hb ht]
  have hr1 := OFB.runPure_stepF_snd h hiv hb
  have hst := OFB.stepF_inv h hiv hb
  have hl1 := length_runPure hB.inv hb (s := iv) hiv
  rw [hr1] at hl1
  refine seen_two (fun k hk => ?_) (fun h0 k hk => ?_) (fun h0 hk => ?_)
  · rw [hk]
    simp only [seen, List.nil_append]
    rw [← runPure_take hB.inv hb hiv k _ (Nat.le_of_lt (first_lt hk)), hr1]
  all_goals
    rw [h0]
    simp only [cipher]
    rw [first_one] at hk
    cases hf : fail (u + blocks.length)
  · simp [bad, hf] at hk
  · simp [bad, hf] at hk
    subst hk
    simp only [seen, Nat.add_zero, List.nil_append]
    rw [← hl1, List.take_left, hr1]
  · simp only [h.enc _ hst, seen, List.nil_append, hr1]
    have hx : xorBytes (List.take t.length (E (runPure (OFB.stepF E) iv blocks).1)) t = xorBytes t (E (runPure (OFB.stepF E) iv blocks).1) := by
      rw [xorBytes_comm, xorBytes_take_right]
    rw [hx]
  · simp [bad, hf] at hk

/-- CTR: the object after a call has used one counter block for every call of the cipher. -/
theorem ctrEncrypt_eq {κ : Type} {ops : CounterOps κ} (h : Lawful c E D) {k : κ} (hk : CTR.Good c ops k) (m : Bytes) (u : Nat) (buf dst : Bytes) :
    ∃ w buf', (ctrEncrypt (cipher c fail) ops (k, u, buf) dst m).1 = (ops.after k w, u + w, buf') ∧
      ((u + w, (ctrEncrypt (cipher c fail) ops (k, u, buf) dst m).2) : Nat × Bytes × Res Nat) =
      once (bad fail) c.bs u (CTR.calls c.bs m.length) (ctr E c.bs (CTR.input c ops k) m, .ok (ctr E c.bs (CTR.input c ops k) m).length)
        (ctr E c.bs (CTR.input c ops k) m) := by
  obtain ⟨blocks, t, hb, ht, rfl⟩ := exists_blocks h.pos m
  have hin : ∀ k' : κ, CTR.Good c ops k' → ∃ v, ops.next k' = (some v, (ops.next k').2) ∧ ¬ v.length < c.bs ∧ CTR.input c ops k' 0 = v.take c.bs := by
    intro k' hk'
    obtain ⟨v, h1, h2⟩ := hk' 0
    have h1' : (ops.next k').1 = some v := h1
    exact ⟨v, by rw [← h1'], by omega, by simp [CTR.input, h1]⟩
  have hstep : ∀ (x : κ × Nat × Bytes) (b : Bytes), CTR.Good c ops x.1 → fail x.2.1 = none →
      ∃ o, ctrStep (cipher c fail) ops x () b = (((ops.next x.1).2, x.2.1 + 1, o), .ok ((), (CTR.stepF c E ops x.1 b).2)) := by
    intro x b hx hf
    obtain ⟨v, e1, e2, e3⟩ := hin x.1 hx
    refine ⟨E (v.take c.bs), ?_⟩
    rw [ctrStep, e1]
    simp only
    rw [show (cipher c fail).bs = c.bs from rfl, if_neg e2]
    simp [cipher, hf, h.enc (v.take c.bs) (by rw [List.length_take]; omega), CTR.stepF, e3]
  have herr : ∀ (x : κ × Nat × Bytes) (b : Bytes) g, CTR.Good c ops x.1 → fail x.2.1 = some g →
      ∃ o, ctrStep (cipher c fail) ops x () b = (((ops.next x.1).2, x.2.1 + 1, o), .error (.err .innerErr)) := by
    intro x b g hx hf
    obtain ⟨v, e1, e2, e3⟩ := hin x.1 hx
    refine ⟨g x.2.2, ?_⟩
    rw [ctrStep, e1]
    simp only
    rw [show (cipher c fail).bs = c.bs from rfl, if_neg e2]
    simp [cipher, hf]
  have hlenB : blocks.length ≤ (blocks.flatten ++ t).length := by
    rw [List.length_append, hb.length_flatten]
    have := Nat.mul_le_mul_right blocks.length h.pos
    omega
  have hmain := whileBuf_flaky (fail := fail) (cont := contNe) (n := c.bs) (bstep := ctrStep (cipher c fail) ops) (f := CTR.stepF c E ops)
    (Q := fun (x : κ × Nat × Bytes) (_ : Unit) s t => x.1 = s ∧ x.2.1 = t ∧ CTR.Good c ops s)
    (P := fun x s t => x.1 = (ops.next s).2 ∧ x.2.1 = t + 1)
    (fun x r s t b hQ _ hf => by
      obtain ⟨rfl, rfl, h3⟩ := hQ
      obtain ⟨o, e⟩ := hstep x b h3 hf
      exact ⟨_, _, e, rfl, rfl, h3.next⟩)
    (fun x r s t b g hQ _ hf => by
      obtain ⟨rfl, rfl, h3⟩ := hQ
      obtain ⟨o, e⟩ := herr x b g h3 hf
      exact ⟨_, e, rfl, rfl⟩) (tail := t) (fun k hk => contNe_blocks h.pos k _ hk) hb (k, u, buf) () k u ⟨rfl, rfl, hk⟩ [] (blocks.flatten ++ t) rfl
      ((blocks.flatten ++ t).length + 1) (by omega)
  have hr1 := CTR.runPure_stepF_snd h hk hb
  have hinv : ∀ (s : κ) (b : Bytes), CTR.Good c ops s → b.length = c.bs → (CTR.stepF c E ops s b).2.length = c.bs ∧ CTR.Good c ops (CTR.stepF c E ops s b).1 := by
    intro s b hs hb
    refine ⟨?_, hs.next⟩
    simp [CTR.stepF, length_xorBytes, hb, h.lenE _ (CTR.length_input hs 0)]
  have hl1 := length_runPure hinv hb (s := k) hk
  have hgood := hk.after blocks.length
  have hlt : ∀ x : Bytes, (ctr E c.bs (CTR.input c ops k) x).length = x.length := fun x =>
    length_streamXor _ h.pos (fun i => h.lenE _ (CTR.length_input hk i)) x
  rw [hr1] at hl1
  unfold ctrEncrypt
  rw [show (cipher c fail).bs = c.bs from rfl, List.take_zero, ← CTR.calls_blocks h.pos hb ht, once]
  rw [List.length_append (as := blocks), first_add, CTR.ctr_tail h hk hb ht]
  cases hF : first (bad fail) u blocks.length with
  | some j =>
    rw [hF] at hmain
    obtain ⟨⟨k', u', b'⟩, e, g1, g2⟩ := hmain
    dsimp only at g1 g2
    have hj := first_lt hF
    refine ⟨j + 1, b', ?_, ?_⟩
    · rw [e]
      simp only [g1, g2, CTR.runPure_stepF_fst, List.length_take, Nat.min_eq_left (Nat.le_of_lt hj)]
      rfl
    · rw [e]
      simp only [List.nil_append]
      rw [← runPure_take hinv hb hk j _ (Nat.le_of_lt hj), hr1]
      rfl
  | none =>
    rw [hF] at hmain
    obtain ⟨⟨k', u', b'⟩, r', e, g1, g2, g3⟩ := hmain
    dsimp only at g1 g2
    rw [CTR.runPure_stepF_fst] at g1
    subst g1 g2
    obtain ⟨f, hf⟩ : ∃ f, (blocks.flatten ++ t).length + 1 - blocks.length = f + 1 := ⟨(blocks.flatten ++ t).length - blocks.length, by omega⟩
    rw [e, hf, List.nil_append, hr1]
    by_cases ht0 : t = []
    · subst ht0
      rw [whileBuf, if_neg (by simp [contNe])]
      refine ⟨blocks.length, b', rfl, ?_⟩
      simp [first, ctr, streamXor_nil]
    · have h0 : 0 < t.length := List.length_pos_iff.2 ht0
      rw [whileBuf, if_pos (by simp [contNe]; omega), List.take_of_length_le (Nat.le_of_lt ht), List.drop_eq_nil_of_le (Nat.le_of_lt ht), if_neg ht0,
        List.length_singleton, first_one]
      obtain ⟨f', rfl⟩ : ∃ f', f = f' + 1 := ⟨f - 1, by
        have : (blocks.flatten ++ t).length = c.bs * blocks.length + t.length := by rw [List.length_append, hb.length_flatten]
        have := Nat.mul_le_mul_right blocks.length h.pos
        omega⟩
      cases hfl : fail (u + blocks.length) with
      | some g =>
        obtain ⟨o, e'⟩ := herr (ops.after k blocks.length, u + blocks.length, b') t g hgood hfl
        rw [e']
        refine ⟨blocks.length + 1, o, rfl, ?_⟩
        simp only [bad, hfl, Option.isSome_some, if_true, Option.map_some, Nat.add_zero]
        rw [← hl1, List.take_left]
        rfl
      | none =>
        obtain ⟨o, e'⟩ := hstep (ops.after k blocks.length, u + blocks.length, b') t hgood hfl
        rw [e']
        simp only
        rw [whileBuf, if_neg (by simp [contNe])]
        refine ⟨blocks.length + 1, o, rfl, ?_⟩
        have : ctr E c.bs (CTR.input c ops (ops.after k blocks.length)) t = (CTR.stepF c E ops (ops.after k blocks.length) t).2 := by
          rw [ctr, streamXor_short _ h.pos (h.lenE _ (CTR.length_input hgood 0)) (Nat.le_of_lt ht)]
          rfl
        simp only [bad, hfl, Option.isSome_none, Bool.false_eq_true, if_false, Option.map_none, this]

end Verif.Model.FlakyOnce
