import Verif.Core

set_option linter.unusedSectionVars false

/-! # Model of `src/datamanager/utilities.rs` (rotations) and of `set_rotation_angle`, `set_rotation_anker` -/

namespace Up4
open F

variable {K : Type} [Field K] [LinearOrder K] [IsStrictOrderedRing K] [FloorRing K] [Arith K]

/-- src/datamanager/utilities.rs:76-94 and 107-122: one pass of the loop body over `angles.iter().enumerate()`, for `axis` and its
`angle`. The `unreachable!()` arm is not modelled: the array has three entries. -/
def rotateAxis (angles : Fin 3 → F K) (q : Fin 3 → F K) (axis : Fin 3) : Fin 3 → F K :=
  let sin := F.sin (angles axis)
  let cos := F.cos (angles axis)
  let x := q 0
  let y := q 1
  let z := q 2
  match axis with
  | 0 => ![x, y * cos - z * sin, y * sin + z * cos]
  | 1 => ![x * cos + z * sin, y, -x * sin + z * cos]
  | 2 => ![x * cos - y * sin, x * sin + y * cos, z]

/-- src/datamanager/utilities.rs:70-100, `rotate_position`. -/
def rotatePosition (position angles anchor : Fin 3 → F K) : Fin 3 → F K :=
  let q := [0, 1, 2].foldl (rotateAxis angles) (fun i => position i - anchor i)
  fun i => q i + anchor i

/-- src/datamanager/utilities.rs:102-124, `rotate_velocity`. -/
def rotateVelocity (velocity angles : Fin 3 → F K) : Fin 3 → F K := [0, 1, 2].foldl (rotateAxis angles) velocity

/-- src/datamanager/pdata.rs:32-34 and src/datamanager/tdata.rs:31-33: the fields about rotation of a data manager. -/
structure Rotation (K : Type) where
  isSet : Bool
  angle : Fin 3 → F K
  center : Fin 3 → F K

/-- src/datamanager/pdata.rs:63-65 and src/datamanager/tdata.rs:60-62. -/
def Rotation.new : Rotation K := ⟨false, fun _ => 0, fun _ => 0⟩

/-- src/datamanager/pdata.rs:1184-1191 and src/datamanager/tdata.rs:1169-1176, `set_rotation_angle`. `axis` is an `f64` cast to an index of an
array of length three. -/
def Rotation.setAngle (r : Rotation K) (angle axis : F K) : Run (Rotation K) :=
  if h : axis.toUsize < 3 then
    let a := Function.update r.angle ⟨axis.toUsize, h⟩ angle
    .ok { r with angle := a, isSet := if (List.finRange 3).all (fun i => F.eqB (a i) 0) then false else true }
  else .error .index

/-- src/datamanager/pdata.rs:1193-1195 and src/datamanager/tdata.rs:1178-1180, `set_rotation_anker`. -/
def Rotation.setCenter (r : Rotation K) (point : Fin 3 → F K) : Rotation K := { r with center := point }

end Up4
