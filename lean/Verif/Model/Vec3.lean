import Verif.Model.Flt
/-!
# 3D vectors

Models `fastiron/src/data/mc_vector.rs` 27-162.
-/
open Flt

/-- `MCVector`, `mc_vector.rs` 27-34. -/
structure Vec3 (T : Type) where
  x : T
  y : T
  z : T
deriving DecidableEq, Repr

namespace Vec3
variable {T : Type} [Flt T]

/-- `MCVector::default()`. -/
def zero : Vec3 T := ⟨Flt.zero, Flt.zero, Flt.zero⟩
/-- `Add`, `mc_vector.rs` 96-105 (also `AddAssign` 131-137). -/
def add (u v : Vec3 T) : Vec3 T := ⟨u.x +. v.x, u.y +. v.y, u.z +. v.z⟩
/-- `Sub`, `mc_vector.rs` 107-116 (also `SubAssign` 139-145). -/
def sub (u v : Vec3 T) : Vec3 T := ⟨u.x -. v.x, u.y -. v.y, u.z -. v.z⟩
/-- `Mul<T>`, `mc_vector.rs` 118-127. -/
def smul (u : Vec3 T) (f : T) : Vec3 T := ⟨u.x *. f, u.y *. f, u.z *. f⟩
/-- `DivAssign`, `mc_vector.rs` 155-163: asserts a non-zero divisor. -/
def sdiv (u : Vec3 T) (f : T) : Except Panic (Vec3 T) :=
  if f ==. Flt.zero then .error .assertFailed
  else .ok ⟨u.x /. f, u.y /. f, u.z /. f⟩
/-- `length`, `mc_vector.rs` 53-56. -/
def length (u : Vec3 T) : T := Flt.sqrt (u.x *. u.x +. u.y *. u.y +. u.z *. u.z)
/-- `distance`, `mc_vector.rs` 60-64. -/
def distance (u v : Vec3 T) : T := (sub u v).length
/-- `dot`, `mc_vector.rs` 67-69. -/
def dot (u v : Vec3 T) : T := u.x *. v.x +. u.y *. v.y +. u.z *. v.z
/-- `cross`, `mc_vector.rs` 72-78. -/
def cross (u v : Vec3 T) : Vec3 T :=
  ⟨u.y *. v.z -. u.z *. v.y, u.z *. v.x -. u.x *. v.z, u.x *. v.y -. u.y *. v.x⟩
/-- `Sum`, `mc_vector.rs` 81-91: left fold from the default vector. -/
def sum (l : List (Vec3 T)) : Vec3 T := l.foldl add zero

end Vec3
