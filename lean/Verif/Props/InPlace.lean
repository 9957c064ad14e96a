import Verif.Proof.P224Mem
import Verif.Proof.P256Mem
import Verif.Props.P224
import Verif.Props.P256

/-! Property C77: the operations of P-224 and P-256 that store their result limb by limb into the arrays they read from return what the same operations
return on separate arrays. The methods are those of `Verif.Model.P224Mem` and `Verif.Model.P256Mem`, which run on a memory. -/

namespace Verif.Props
open Verif.Model Verif.Model.Elliptic Verif.Model.CurveMem Verif.Spec.Elliptic
open Verif.Spec.P256 (p)

/-- All arrays of the memory have `n` limbs, with any values. -/
def Arrays (n : ℕ) (m : Mem) : Prop := ∀ q, (m q).length = n

/-- The two memories differ at most at the three addresses, as far as the frames below `d` are concerned. -/
def OnlyAt (d : ℕ) (x y z : Addr) (m m' : Mem) : Prop := ∀ q : Addr, q.1 < d → q ≠ x → q ≠ y → q ≠ z → m' q = m q

/-! ## Point operations -/

/-- C77: doubling on P-224, wherever the result goes: each output may be one of the inputs, and an input may be used for several coordinates. The local
arrays are in frame `d`, the arguments in frames below. Nothing else changes. -/
theorem C77_p224_double (m : Mem) (hm : Arrays 8 m) (d : ℕ) (x3 y3 z3 x1 y1 z1 : Addr) (hd : ∀ q ∈ [x3, y3, z3, x1, y1, z1], q.1 < d)
    (hxy : x3 ≠ y3) (hxz : x3 ≠ z3) (hyz : y3 ≠ z3) :
    let m' := P224Mem.doubleTo d x3 y3 z3 x1 y1 z1 m
    (m' x3, m' y3, m' z3) = P224.doubleJacobian (m x1) (m y1) (m z1) ∧ OnlyAt d x3 y3 z3 m m' :=
  ⟨P224Mem.doubleTo_ok hm hd hxy hxz hyz, fun _ hq hx hy hz => P224Mem.doubleTo_frame hm hq hx hy hz⟩

/-- C77: addition on P-224, where the outputs are separate from the inputs; the two points may share arrays. -/
theorem C77_p224_add (m : Mem) (hm : Arrays 8 m) (d : ℕ) (x3 y3 z3 x1 y1 z1 x2 y2 z2 : Addr) (hd : ∀ q ∈ [x3, y3, z3, x1, y1, z1, x2, y2, z2], q.1 < d)
    (hxy : x3 ≠ y3) (hxz : x3 ≠ z3) (hyz : y3 ≠ z3) (hi : ∀ q ∈ [x1, y1, z1, x2, y2, z2], q ≠ x3 ∧ q ≠ y3 ∧ q ≠ z3) :
    let m' := P224Mem.addJacTo d x3 y3 z3 x1 y1 z1 x2 y2 z2 m
    (m' x3, m' y3, m' z3) = P224.addJacobian (m x1) (m y1) (m z1) (m x2) (m y2) (m z2) ∧ OnlyAt d x3 y3 z3 m m' :=
  ⟨P224Mem.addJacTo_ok hm hd hxy hxz hyz hi, fun _ hq hx hy hz => P224Mem.addJacTo_frame hm hq hx hy hz⟩

/-- C77: doubling on P-256, wherever the result goes. -/
theorem C77_p256_double (m : Mem) (hm : Arrays 9 m) (d : ℕ) (xo yo zo x y z : Addr) (hd : ∀ q ∈ [xo, yo, zo, x, y, z], q.1 < d)
    (hxy : xo ≠ yo) (hxz : xo ≠ zo) (hyz : yo ≠ zo) :
    let m' := P256Mem.doubleTo d xo yo zo x y z m
    (m' xo, m' yo, m' zo) = P256.pointDouble P256.release (m x, m y, m z) ∧ OnlyAt d xo yo zo m m' :=
  ⟨P256Mem.doubleTo_ok hm hd hxy hxz hyz, fun _ hq hx hy hz => P256Mem.doubleTo_frame hm hq hx hy hz⟩

/-- C77: addition on P-256, wherever the result goes. -/
theorem C77_p256_add (m : Mem) (hm : Arrays 9 m) (d : ℕ) (xo yo zo x1 y1 z1 x2 y2 z2 : Addr) (hd : ∀ q ∈ [xo, yo, zo, x1, y1, z1, x2, y2, z2], q.1 < d)
    (hxy : xo ≠ yo) (hxz : xo ≠ zo) (hyz : yo ≠ zo) :
    let m' := P256Mem.addTo d xo yo zo x1 y1 z1 x2 y2 z2 m
    (m' xo, m' yo, m' zo) = P256.pointAdd P256.release (m x1, m y1, m z1) (m x2, m y2, m z2) ∧ OnlyAt d xo yo zo m m' :=
  ⟨P256Mem.addTo_ok hm hd hxy hxz hyz, fun _ hq hx hy hz => P256Mem.addTo_frame hm hq hx hy hz⟩

/-- C77: addition of a point with Z = 1 on P-256, where no output is the array of the second coordinate of the first point. -/
theorem C77_p256_add_mixed (m : Mem) (hm : Arrays 9 m) (d : ℕ) (xo yo zo x1 y1 z1 x2 y2 : Addr) (hd : ∀ q ∈ [xo, yo, zo, x1, y1, z1, x2, y2], q.1 < d)
    (hxy : xo ≠ yo) (hxz : xo ≠ zo) (hyz : yo ≠ zo) (h1 : y1 ≠ xo) (h2 : y1 ≠ yo) (h3 : y1 ≠ zo) :
    let m' := P256Mem.mixedTo d xo yo zo x1 y1 z1 x2 y2 m
    (m' xo, m' yo, m' zo) = P256.pointAddMixed P256.release (m x1, m y1, m z1) (m x2) (m y2) ∧ OnlyAt d xo yo zo m m' :=
  ⟨P256Mem.mixedTo_ok hm hd hxy hxz hyz h1 h2 h3, fun _ hq hx hy hz => P256Mem.mixedTo_frame hm hq hx hy hz⟩

/-- The hypotheses are met by the calls of the code: the doubling in place of `p224_scalar_mult` and of `p256_scalar_mult`, with the point in frame 1 and the
local arrays of the doubling in frame 3. -/
example (m : Mem) (hm : Arrays 8 m) :
    (P224Mem.doubleTo 3 (1, 3) (1, 4) (1, 5) (1, 3) (1, 4) (1, 5) m (1, 3), P224Mem.doubleTo 3 (1, 3) (1, 4) (1, 5) (1, 3) (1, 4) (1, 5) m (1, 4),
      P224Mem.doubleTo 3 (1, 3) (1, 4) (1, 5) (1, 3) (1, 4) (1, 5) m (1, 5)) = P224.doubleJacobian (m (1, 3)) (m (1, 4)) (m (1, 5)) :=
  (C77_p224_double m hm 3 (1, 3) (1, 4) (1, 5) (1, 3) (1, 4) (1, 5) (by decide) (by decide) (by decide) (by decide)).1

example (m : Mem) (hm : Arrays 9 m) :
    (P256Mem.doubleTo 3 (1, 0) (1, 1) (1, 2) (1, 0) (1, 1) (1, 2) m (1, 0), P256Mem.doubleTo 3 (1, 0) (1, 1) (1, 2) (1, 0) (1, 1) (1, 2) m (1, 1),
      P256Mem.doubleTo 3 (1, 0) (1, 1) (1, 2) (1, 0) (1, 1) (1, 2) m (1, 2)) = P256.pointDouble P256.release (m (1, 0), m (1, 1), m (1, 2)) :=
  (C77_p256_double m hm 3 (1, 0) (1, 1) (1, 2) (1, 0) (1, 1) (1, 2) (by decide) (by decide) (by decide) (by decide)).1

example : Arrays 8 (fun q => List.replicate 8 (BitVec.ofNat 32 q.2)) ∧ Arrays 9 (fun q => List.replicate 9 (BitVec.ofNat 32 q.1)) :=
  ⟨fun _ => List.length_replicate, fun _ => List.length_replicate⟩

/-! ## The methods -/

/-- C77: the methods of `CurveP224` on a memory with any content return what they return as functions of their arguments. -/
theorem C77_p224_methods (m : Mem) (hm : Arrays 8 m) (x₁ y₁ x₂ y₂ : Big) (k : Option ℕ) :
    P224Mem.isOnCurve P224.new m x₁ y₁ = P224.curve.isOnCurve P224.new x₁ y₁ ∧
    P224Mem.addPoints P224.new m x₁ y₁ x₂ y₂ = P224.curve.add P224.new x₁ y₁ x₂ y₂ ∧
    P224Mem.double P224.new m x₁ y₁ = P224.curve.double P224.new x₁ y₁ ∧
    P224Mem.scalar P224.new m x₁ y₁ k = P224.curve.scalar P224.new x₁ y₁ k ∧
    P224Mem.scalarBasePoint P224.new m k = P224.curve.scalarBasePoint P224.new k :=
  ⟨P224Mem.isOnCurve_eq P224.new (by decide +kernel) hm _ _, P224Mem.addPoints_eq P224.new hm _ _ _ _, P224Mem.double_eq P224.new hm _ _,
    P224Mem.scalar_eq P224.new hm _ _ _, P224Mem.scalarBasePoint_eq P224.new (by decide +kernel) (by decide +kernel) hm _⟩

/-- C77: with the points of the curve the methods of `CurveP224` on a memory return the results of the generic code, with the unlucky coordinates of C57. -/
theorem C77_p224_exact (m : Mem) (hm : Arrays 8 m) (x₁ y₁ x₂ y₂ : ℤ) (h₁ : Input x₁ y₁) (h₂ : Input x₂ y₂) (k : ℕ) :
    P224Mem.addPoints P224.new m (some x₁) (some y₁) (some x₂) (some y₂) = distorted (Elliptic.add p224 (some x₁) (some y₁) (some x₂) (some y₂)) ∧
    P224Mem.double P224.new m (some x₁) (some y₁) = distorted (Elliptic.double p224 (some x₁) (some y₁)) ∧
    P224Mem.scalar P224.new m (some x₁) (some y₁) (some k) = distorted (Elliptic.scalar p224 (some x₁) (some y₁) (some k)) ∧
    P224Mem.scalarBasePoint P224.new m (some k) = distorted (Elliptic.scalarBasePoint p224 (some k)) := by
  obtain ⟨-, h2, h3, h4, h5⟩ := C77_p224_methods m hm (some x₁) (some y₁) (some x₂) (some y₂) (some k)
  rw [h2, h3, h4, h5]
  exact ⟨C57_add_exact _ _ _ _ h₁ h₂, C57_double_exact _ _ h₁, C57_scalar_exact _ _ h₁ k, C57_scalar_base_point_exact k⟩

/-- C77: the methods of `CurveP256` on a memory with any content return what they return as functions of their arguments. -/
theorem C77_p256_methods (c : P256.CurveP256) (m : Mem) (hm : Arrays 9 m) (x y : Big) (k : Option ℕ) :
    P256Mem.scalar c m x y k = P256.curve.scalar c x y k ∧ P256Mem.scalarBasePoint c m k = P256.curve.scalarBasePoint c k :=
  ⟨P256Mem.scalar_eq c hm x y k, P256Mem.scalarBasePoint_eq c hm k⟩

/-- C77: `scalar` of `CurveP256` on a memory with any content is `k` times the point. -/
theorem C77_p256_scalar (m : Mem) (hm : Arrays 9 m) (x y : ℤ) (P : Point p p256.b) (hP : Encodes p p256.b x y P) (k : ℕ) :
    ∃ x' y' : ℤ, P256Mem.scalar P256.new m (some x) (some y) (some k) = (some x', some y') ∧ Encodes p p256.b x' y' (k • P) ∧ Reduced p x' y' := by
  rw [(C77_p256_methods P256.new m hm _ _ _).1]
  exact C68_scalar x y P hP k

/-- C77: `scalar_base_point` of `CurveP256` on a memory with any content is `k` times the base point. -/
theorem C77_p256_scalar_base_point (m : Mem) (hm : Arrays 9 m) (G : Point p p256.b) (hG : Encodes p p256.b p256.gx p256.gy G) (k : ℕ) :
    ∃ x y : ℤ, P256Mem.scalarBasePoint P256.new m (some k) = (some x, some y) ∧ Encodes p p256.b x y (k • G) ∧ Reduced p x y := by
  rw [(C77_p256_methods P256.new m hm (some 0) (some 0) _).2]
  exact C68_scalar_base_point G hG k

/-- The hypotheses are met: the base points, and memories with different contents give the same result. -/
example : Input p224.gx p224.gy ∧ ∃ G : Point p p256.b, G ≠ 0 ∧ Encodes p p256.b p256.gx p256.gy G :=
  ⟨base_input, (C52_on_curve p256 p rfl valid_spec p256.gx p256.gy).1 (by decide +kernel)⟩

end Verif.Props
