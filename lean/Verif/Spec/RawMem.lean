/-!
# When an access through a pointer is allowed

A piece of memory that the code may use (an array, a slice, a local variable) has a size, the alignment that its type guarantees, and a mode: writes are
allowed through a pointer that was made from a mutable reference only. An access gives the place it goes to, the offset, the number of bytes, the
alignment that the instruction demands, and whether it writes. Pointer arithmetic is an access of length 0: the result may point at most one past the end.
-/

namespace Verif.Spec.RawMem

/-- A piece of memory. -/
structure Place where
  size : Nat
  align : Nat
  writable : Bool
deriving DecidableEq, Repr

/-- An access through a pointer. -/
structure Access where
  place : Place
  off : Nat
  len : Nat
  align : Nat
  write : Bool
deriving DecidableEq, Repr

/-- The access touches no byte outside of its place. -/
def InBounds (a : Access) : Prop := a.off + a.len ≤ a.place.size
/-- Wherever the place lies in memory, at an address its type allows, the access has the alignment it demands. -/
def Aligned (a : Access) : Prop := ∀ base, a.place.align ∣ base → a.align ∣ base + a.off
/-- Writes only go to places that may be written. -/
def Allowed (a : Access) : Prop := a.write = true → a.place.writable = true
/-- All three. -/
def Sound (a : Access) : Prop := InBounds a ∧ Aligned a ∧ Allowed a

end Verif.Spec.RawMem
