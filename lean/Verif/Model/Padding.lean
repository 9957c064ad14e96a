import Verif.Basic

/-! Model of src/cipher_mode/padding.rs -/

namespace Verif.Model

/-- `Vec::resize(n, x)`. Used at src/cipher_mode/padding.rs:33-37. -/
def resize (buf : Bytes) (n : Nat) (x : Byte) : Bytes :=
  buf.take n ++ List.replicate (n - buf.length) x

/-- The two implementations of the trait `Padding`, padding.rs:4-10: `DefaultPadding` (14-26, it remembers the
block size of the cipher, 1 if the cipher has none) and `EmptyPadding` (58-65). -/
inductive Padding where
  | default (blockSize : Nat)
  | empty
deriving DecidableEq, Repr

/-- `DefaultPadding::new`, padding.rs:20-25. -/
def Padding.defaultOf (c : BlockCipher) : Padding := .default c.bs

/-- `DefaultPadding::padding`, padding.rs:29-39, and `EmptyPadding::padding`, padding.rs:68-69.
Simplification: for block size 0 the Rust code panics at `%`; Lean's `n % 0 = n` is used here and every
theorem assumes a positive block size. -/
def Padding.padding : Padding → Bytes → Bytes
  | .default bs, buf =>
    let buf := buf ++ [0x80#8]
    let oldLen := buf.length
    if bs < oldLen then
      resize buf (oldLen + (bs - oldLen % bs)) 0#8
    else if bs > oldLen then
      resize buf bs 0#8
    else
      resize buf (bs * 2) 0#8
  | .empty, buf => buf

/-- The loop of `DefaultPadding::unpadding`, padding.rs:42-50, over `buf.iter().rev()`. Returns the number of bytes
to cut off (`len + 1`) if the loop returns from inside, `none` if it falls through. -/
def unpadScan : Bytes → Nat → Option Nat
  | [], _ => none
  | e :: rest, len =>
    if e = 0#8 then unpadScan rest (len + 1)
    else if e = 0x80#8 then some (len + 1)
    else unpadScan rest len

/-- `DefaultPadding::unpadding`, padding.rs:41-54, and `EmptyPadding::unpadding`, padding.rs:71-73.
Returns the buffer after the call and the result. -/
def Padding.unpadding : Padding → Bytes → Bytes × Res Nat
  | .default _, buf =>
    match unpadScan buf.reverse 0 with
    | some k =>
      let buf' := buf.take (buf.length - k)
      (buf', .ok buf'.length)
    | none => (buf, .error (.err .unpaddingNotMatch))
  | .empty, buf => (buf, .ok buf.length)

/-- `unpadding(buf)?` followed by reading `buf`.
Used at src/cipher_mode/cbc.rs:201, src/cipher_mode/ecb.rs:168. -/
def Padding.unpad (p : Padding) (buf : Bytes) : Res Bytes :=
  match p.unpadding buf with
  | (buf', .ok _) => .ok buf'
  | (_, .error e) => .error e

end Verif.Model
