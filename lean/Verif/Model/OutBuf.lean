import Verif.Model.ECB
import Verif.Model.CBC
import Verif.Model.CFB
import Verif.Model.OFB
import Verif.Model.CTR
import Verif.Model.DES
import Verif.Model.SM4
import Verif.Model.AES

/-!
# The buffers of the caller, src/cipher.rs:6-20 and its implementations

The other files return the output of `encrypt` and `decrypt` as a value and say nothing of the buffer when a call fails. Here the methods get the
buffer `dst` with whatever it holds and return what it holds afterwards, together with the result of the call. The scratch buffers of the objects (`buf` of
`TDES` and of the modes) are part of the state, with whatever the last call left in them. A panic leaves the buffers as they were at that moment.
-/

namespace Verif.Model.OutBuf

/-- The trait `Cipher`, src/cipher.rs:6-20, with its buffer: `encrypt t dst data` gives the new scratch state, the new content of `dst` and the result.
`τ` is the scratch state of the object. -/
structure Cipher (τ : Type) where
  blockSize : Option Nat
  encrypt : τ → Bytes → Bytes → τ × Bytes × Res Nat
  decrypt : τ → Bytes → Bytes → τ × Bytes × Res Nat

/-- `cipher.block_size().unwrap_or(1)`, e.g. src/cipher_mode/ecb.rs:103. -/
def Cipher.bs {τ : Type} (c : Cipher τ) : Nat := c.blockSize.getD 1

/-- `impl Cipher for DES`, des.rs:171-203: the block goes to `output`, then `dst` is cleared and filled. -/
def des (d : DES) : Cipher Unit where
  blockSize := some 8
  encrypt := fun _ dst b =>
    if b.length = 8 then
      let output := DES.cryptBlock d b true
      let dst : Bytes := dst.take 0
      let dst := dst ++ output
      ((), dst, .ok output.length)
    else ((), dst, .error (.err .invalidParameter))
  decrypt := fun _ dst b =>
    if b.length = 8 then
      let output := DES.cryptBlock d b false
      let dst : Bytes := dst.take 0
      let dst := dst ++ output
      ((), dst, .ok output.length)
    else ((), dst, .error (.err .invalidParameter))

/-- `impl Cipher for TDES`, tdes.rs:51-71. The state is the scratch buffer `buf`; `dst` is used for the intermediate value too. -/
def tdes (t : TDES) : Cipher Bytes where
  blockSize := (des t.des1).blockSize
  encrypt := fun buf dst b =>
    match (des t.des1).encrypt () dst b with
    | (_, dst, .error e) => (buf, dst, .error e)
    | (_, dst, .ok _) =>
      match (des t.des2).decrypt () buf dst with
      | (_, buf, .error e) => (buf, dst, .error e)
      | (_, buf, .ok _) =>
        let (_, dst, r) := (des t.des3).encrypt () dst buf
        (buf, dst, r)
  decrypt := fun buf dst b =>
    match (des t.des3).decrypt () dst b with
    | (_, dst, .error e) => (buf, dst, .error e)
    | (_, dst, .ok _) =>
      match (des t.des2).encrypt () buf dst with
      | (_, buf, .error e) => (buf, dst, .error e)
      | (_, buf, .ok _) =>
        let (_, dst, r) := (des t.des1).decrypt () dst buf
        (buf, dst, r)

/-- `ed_inner`, sm4.rs:89-110. -/
def sm4Inner (dst b : Bytes) (rk : Nat → BitVec 32) : Unit × Bytes × Res Nat :=
  match SM4.edInner b rk with
  | .error e => ((), dst, .error e)
  | .ok o =>
    let dst : Bytes := dst.take 0
    let dst := dst ++ o
    ((), dst, .ok dst.length)

/-- `impl Cipher for SM4`, sm4.rs:112-125. -/
def sm4 (s : SM4) : Cipher Unit where
  blockSize := some 16
  encrypt := fun _ dst b => sm4Inner dst b fun i => s.rk.getD i 0#32
  decrypt := fun _ dst b => sm4Inner dst b fun i => s.rk.getD (31 - i) 0#32

/-- `impl Cipher for AES`, aes.rs:46-79: `crypt_block` appends to the cleared buffer, aes_generic.rs:117-120 and 164-167. -/
def aes (a : AES) : Cipher Unit where
  blockSize := some 16
  encrypt := fun _ dst b =>
    if b.length = 16 then
      let dst : Bytes := dst.take 0
      let dst := dst ++ AES.cryptBlock a b
      ((), dst, .ok dst.length)
    else ((), dst, .error (.err .invalidParameter))
  decrypt := fun _ dst b =>
    if b.length = 16 then
      let dst : Bytes := dst.take 0
      let dst := dst ++ AES.decryptBlock a b
      ((), dst, .ok dst.length)
    else ((), dst, .error (.err .invalidParameter))

/-- The loops of the modes, e.g. ecb.rs:108-119: `step` gets the scratch state and the state of the mode and returns what it appends to `dst`. Returns the
scratch state, `dst`, and the state of the mode with the rest of the data. -/
def whileBuf {τ σ : Type} (cont : Nat → Bool) (n : Nat) (step : τ → σ → Bytes → τ × Res (σ × Bytes)) :
    Nat → τ → σ → Bytes → Bytes → τ × Bytes × Res (σ × Bytes)
  | 0, t, _, dst, _ => (t, dst, .error .diverge)
  | fuel + 1, t, s, dst, data =>
    if cont data.length then
      match step t s (data.take n) with
      | (t, .ok (s', o)) => whileBuf cont n step fuel t s' (dst ++ o) (data.drop n)
      | (t, .error e) => (t, dst, .error e)
    else (t, dst, .ok (s, data))

variable {τ : Type}

/-- `self.cipher.encrypt(txt, tmp)` followed by `dst.append(txt)`, which empties `txt`: ecb.rs:109-117, 129-137. The scratch state is that of the
cipher and `txt`. -/
def ecbEnc (c : Cipher τ) (t : τ × Bytes) (_ : Unit) (b : Bytes) : (τ × Bytes) × Res (Unit × Bytes) :=
  match c.encrypt t.1 t.2 b with
  | (u, txt, .ok _) => ((u, []), .ok ((), txt))
  | (u, txt, .error e) => ((u, txt), .error e)

/-- The same with `decrypt`, ecb.rs:156-164. -/
def ecbDec (c : Cipher τ) (t : τ × Bytes) (_ : Unit) (b : Bytes) : (τ × Bytes) × Res (Unit × Bytes) :=
  match c.decrypt t.1 t.2 b with
  | (u, txt, .ok _) => ((u, []), .ok ((), txt))
  | (u, txt, .error e) => ((u, txt), .error e)

/-- `self.padding.unpadding(dst)` at the end of `decrypt`: ecb.rs:168, cbc.rs:201, cfb.rs:217. -/
def unpadAt (p : Padding) (t : τ) (dst : Bytes) : τ × Bytes × Res Nat := (t, p.unpadding dst)

/-- `ECB::encrypt`, ecb.rs:102-140. -/
def ecbEncrypt (c : Cipher τ) (p : Padding) (t : τ × Bytes) (dst m : Bytes) : (τ × Bytes) × Bytes × Res Nat :=
  match whileBuf (contGe c.bs) c.bs (ecbEnc c) (m.length + 1) t () (dst.take 0) m with
  | (t, dst, .error e) => (t, dst, .error e)
  | (t, dst, .ok (_, rest)) =>
    let tmp := p.padding rest
    match whileBuf contNe c.bs (ecbEnc c) (tmp.length + 1) t () dst tmp with
    | (t, dst, .error e) => (t, dst, .error e)
    | (t, dst, .ok _) => (t, dst, .ok dst.length)

/-- `ECB::decrypt`, ecb.rs:142-169. -/
def ecbDecrypt (c : Cipher τ) (p : Padding) (t : τ × Bytes) (dst ct : Bytes) : (τ × Bytes) × Bytes × Res Nat :=
  if ct.length % c.bs ≠ 0 then (t, dst, .error (.err .invalidParameter)) else
  match whileBuf (contGe c.bs) c.bs (ecbDec c) (ct.length + 1) t () (dst.take 0) ct with
  | (t, dst, .error e) => (t, dst, .error e)
  | (t, dst, .ok _) => unpadAt p t dst

/-- Loop body of cbc.rs:133-146: `cur_iv` is set to `txt`, which is then moved to `dst`. -/
def cbcEnc (c : Cipher τ) (t : τ × Bytes) (iv : Bytes) (b : Bytes) : (τ × Bytes) × Res (Bytes × Bytes) :=
  match c.encrypt t.1 t.2 (CBC.xorIv b iv) with
  | (u, txt, .ok _) => ((u, []), .ok (txt, txt))
  | (u, txt, .error e) => ((u, txt), .error e)

/-- `CBC::encrypt`, cbc.rs:125-168. The second loop, 151-164, is that of ECB. -/
def cbcEncrypt (c : Cipher τ) (p : Padding) (iv : Bytes) (t : τ × Bytes) (dst m : Bytes) : (τ × Bytes) × Bytes × Res Nat :=
  match whileBuf (contGe c.bs) c.bs (cbcEnc c) (m.length + 1) t iv (dst.take 0) m with
  | (t, dst, .error e) => (t, dst, .error e)
  | (t, dst, .ok (_, rest)) =>
    let tmp := p.padding rest
    match whileBuf contNe c.bs (ecbEnc c) (tmp.length + 1) t () dst tmp with
    | (t, dst, .error e) => (t, dst, .error e)
    | (t, dst, .ok _) => (t, dst, .ok dst.length)

/-- Loop body of cbc.rs:185-198: `txt` keeps the decrypted block. -/
def cbcDec (c : Cipher τ) (t : τ × Bytes) (iv : Bytes) (b : Bytes) : (τ × Bytes) × Res (Bytes × Bytes) :=
  match c.decrypt t.1 t.2 b with
  | (u, txt, .ok _) => ((u, txt), .ok (b, xorBytes iv txt))
  | (u, txt, .error e) => ((u, txt), .error e)

/-- `CBC::decrypt`, cbc.rs:170-202. -/
def cbcDecrypt (c : Cipher τ) (p : Padding) (iv : Bytes) (t : τ × Bytes) (dst ct : Bytes) : (τ × Bytes) × Bytes × Res Nat :=
  if ct.length % c.bs ≠ 0 then (t, dst, .error (.err .invalidParameter)) else
  match whileBuf contNe c.bs (cbcDec c) (ct.length + 1) t iv (dst.take 0) ct with
  | (t, dst, .error e) => (t, dst, .error e)
  | (t, dst, .ok _) => unpadAt p t dst

/-- Loop body of `encrypt_inner`, cfb.rs:127-148: `oj` is extended by the end of `ij` and left like that. -/
def cfbEnc (c : Cipher τ) (s : Nat) (t : τ × Bytes) (ij : Bytes) (b : Bytes) : (τ × Bytes) × Res (Bytes × Bytes) :=
  match c.encrypt t.1 t.2 ij with
  | (u, oj, .ok _) =>
    let n := min (min oj.length s) b.length
    let oj := xorBytes (oj.take n) (b.take n) ++ oj.drop n
    ((u, oj ++ ij.drop s), .ok (ij.drop s ++ oj.take s, oj.take s))
  | (u, oj, .error e) => ((u, oj), .error e)

/-- `CFB::encrypt`, cfb.rs:191-204, with `encrypt_inner`, 124-152. The result is `dst.len()` of the second call. -/
def cfbEncrypt (c : Cipher τ) (p : Padding) (s : Nat) (iv : Bytes) (t : τ × Bytes) (dst m : Bytes) : (τ × Bytes) × Bytes × Res Nat :=
  match whileBuf (contGe s) s (cfbEnc c s) (m.length + 1) t iv (dst.take 0) m with
  | (t, dst, .error e) => (t, dst, .error e)
  | (t, dst, .ok (ij, _)) =>
    let remain := m.length % s
    let data := p.padding (m.drop (m.length - remain))
    match whileBuf (contGe s) s (cfbEnc c s) (data.length + 1) t ij dst data with
    | (t, dst, .error e) => (t, dst, .error e)
    | (t, dst, .ok _) => (t, dst, .ok dst.length)

/-- Loop body of `decrypt_inner`, cfb.rs:157-176: `&data[..self.s]` panics on a short last segment; `oj` ends up empty (`append`). -/
def cfbDec (c : Cipher τ) (s : Nat) (t : τ × Bytes) (ij : Bytes) (cj : Bytes) : (τ × Bytes) × Res (Bytes × Bytes) :=
  match c.encrypt t.1 t.2 ij with
  | (u, oj, .ok _) =>
    if cj.length < s then ((u, oj), .error .panic) else
    ((u, []), .ok (ij.drop s ++ cj, xorBytes cj (oj.take s)))
  | (u, oj, .error e) => ((u, oj), .error e)

/-- `CFB::decrypt`, cfb.rs:206-218. -/
def cfbDecrypt (c : Cipher τ) (p : Padding) (s : Nat) (iv : Bytes) (t : τ × Bytes) (dst ct : Bytes) : (τ × Bytes) × Bytes × Res Nat :=
  if ct.length % s ≠ 0 then (t, dst, .error (.err .invalidParameter)) else
  match whileBuf contNe s (cfbDec c s) (ct.length + 1) t iv (dst.take 0) ct with
  | (t, dst, .error e) => (t, dst, .error e)
  | (t, dst, .ok _) => unpadAt p t dst

/-- Loop body of `encrypt_inner`, ofb.rs:102-115: `ij` takes over `oj`, which ends up empty. -/
def ofbStep (c : Cipher τ) (t : τ × Bytes) (ij : Bytes) (b : Bytes) : (τ × Bytes) × Res (Bytes × Bytes) :=
  match c.encrypt t.1 t.2 ij with
  | (u, oj, .ok _) => ((u, []), .ok (oj, xorBytes oj b))
  | (u, oj, .error e) => ((u, oj), .error e)

/-- `OFB::encrypt`, ofb.rs:142-163, and `OFB::decrypt`, 165-167. -/
def ofbEncrypt (c : Cipher τ) (iv : Bytes) (t : τ × Bytes) (dst m : Bytes) : (τ × Bytes) × Bytes × Res Nat :=
  let remain := m.length % c.bs
  let whole := m.take (m.length - remain)
  match whileBuf (contGe c.bs) c.bs (ofbStep c) (whole.length + 1) t iv (dst.take 0) whole with
  | (t, dst, .error e) => (t, dst, .error e)
  | (t, dst, .ok (ij, _)) =>
    match c.encrypt t.1 t.2 ij with
    | (u, oj, .error e) => ((u, oj), dst, .error e)
    | (u, oj, .ok _) =>
      let dst := dst ++ xorBytes (oj.take remain) (m.drop (m.length - remain))
      ((u, oj), dst, .ok dst.length)

/-- Loop body of `encrypt_inner`, ctr.rs:62-82: `oj` keeps the key stream block. -/
def ctrStep {κ : Type} (c : Cipher τ) (ops : CounterOps κ) (t : τ × Bytes) (k : κ) (b : Bytes) : (τ × Bytes) × Res (κ × Bytes) :=
  match ops.next k with
  | (some v, k') =>
    if v.length < c.bs then (t, .error .panic) else
    match c.encrypt t.1 t.2 (v.take c.bs) with
    | (u, oj, .ok _) => ((u, oj), .ok (k', xorBytes b oj))
    | (u, oj, .error e) => ((u, oj), .error e)
  | (none, _) => (t, .error (.err .innerErr))

/-- `CTR::encrypt` and `CTR::decrypt`, ctr.rs:113-122, with `encrypt_inner`, 58-86. Also returns the counter of a successful call. -/
def ctrEncrypt {κ : Type} (c : Cipher τ) (ops : CounterOps κ) (k : κ) (t : τ × Bytes) (dst m : Bytes) : (τ × Bytes) × Bytes × Res (κ × Nat) :=
  match whileBuf contNe c.bs (ctrStep c ops) (m.length + 1) t k (dst.take 0) m with
  | (t, dst, .error e) => (t, dst, .error e)
  | (t, dst, .ok (k, _)) => (t, dst, .ok (k, dst.length))

end Verif.Model.OutBuf
