import Mathlib.LinearAlgebra.CrossProduct
import Mathlib.LinearAlgebra.UnitaryGroup
import Mathlib.Analysis.SpecialFunctions.Trigonometric.Basic

/-!
# Model of the 3x3 and 6x6 matrix helpers (`source/Misc.hpp`, `source/Misc.cpp`)

`mat` is `Matrix (Fin 3) (Fin 3) K`. A `mat6` is seen as four 3x3 blocks, since the functions
below only access it through `topLeftCorner<3,3>` and the like: the row/column index is
`Fin 3 ⊕ Fin 3`, `Sum.inl` for 0..2 and `Sum.inr` for 3..5. `double` is replaced by an
arbitrary commutative ring (the reals where trigonometric functions appear).
-/

namespace MD.Mat

open Matrix

variable {K : Type} [CommRing K]

/-- `mat` -/
abbrev M3 (K : Type) := Matrix (Fin 3) (Fin 3) K

/-- `mat6`, by 3x3 blocks -/
abbrev M6 (K : Type) := Matrix (Fin 3 ⊕ Fin 3) (Fin 3 ⊕ Fin 3) K

/-- `vec` -/
abbrev V3 (K : Type) := Fin 3 → K

/-- `vec6`: linear part, angular part -/
abbrev V6 (K : Type) := Fin 3 ⊕ Fin 3 → K

/-- source/Misc.hpp:828-838 `getH` -/
def getH (r : V3 K) : M3 K :=
  !![0, r 2, -r 1;
     -r 2, 0, r 0;
     r 1, -r 0, 0]

/-- source/Misc.cpp:211-230 `translateMass` -/
def translateMass (r : V3 K) (M : M3 K) : M6 K :=
  let H := getH r
  let tempM1 := M * H
  fromBlocks M tempM1 tempM1ᵀ (H * M * Hᵀ)

/-- source/Misc.cpp:232-257 `translateMass6` (the lower left block of the input is not read) -/
def translateMass6 (r : V3 K) (M : M6 K) : M6 K :=
  let H := getH r
  let m := M.toBlocks₁₁
  let J := M.toBlocks₁₂
  let I := M.toBlocks₂₂
  let tempM1 := m * H + J
  let tempM2 := H * m * Hᵀ
  let tempM3 := Jᵀ * H
  let tempM4 := Hᵀ * J
  fromBlocks m tempM1 tempM1ᵀ (tempM2 + tempM3 + tempM4 + I)

/-- source/Misc.hpp:863-867 `rotateMass` -/
def rotateMass (R M : M3 K) : M3 K := R * M * Rᵀ

/-- source/Misc.cpp:259-286 `rotateMass6` (the upper right block of the input is not read) -/
def rotateMass6 (R : M3 K) (M : M6 K) : M6 K :=
  let mrot := rotateMass R M.toBlocks₁₁
  let Jrot := rotateMass R M.toBlocks₂₁
  let Irot := rotateMass R M.toBlocks₂₂
  fromBlocks mrot Jrotᵀ Jrot Irot

/-- source/Misc.cpp:288-312 `transformKinematics`: position and velocity of a point fixed to a rigid
body (the six-component velocity is given by its two halves) -/
def transformKinematics (rRelBody : V3 K) (M : M3 K) (r v w : V3 K) : V3 K × V3 K :=
  let rRel := M *ᵥ rRelBody
  (rRel + r, v + w ⨯₃ rRel)

/-- source/Misc.hpp:900-908 `RotX` -/
noncomputable def rotX (a : ℝ) : M3 ℝ :=
  !![1, 0, 0;
     0, Real.cos a, -Real.sin a;
     0, Real.sin a, Real.cos a]

/-- source/Misc.hpp:914-922 `RotY` -/
noncomputable def rotY (a : ℝ) : M3 ℝ :=
  !![Real.cos a, 0, Real.sin a;
     0, 1, 0;
     -Real.sin a, 0, Real.cos a]

/-- source/Misc.hpp:928-936 `RotZ` -/
noncomputable def rotZ (a : ℝ) : M3 ℝ :=
  !![Real.cos a, -Real.sin a, 0;
     Real.sin a, Real.cos a, 0;
     0, 0, 1]

/-- The letter in the names `RotX`, `RotXYZ`, ... -/
inductive Axis | X | Y | Z
  deriving DecidableEq, Repr

/-- source/Misc.hpp:900-936 -/
noncomputable def rot : Axis → ℝ → M3 ℝ
  | .X => rotX
  | .Y => rotY
  | .Z => rotZ

/-- source/Misc.hpp:940-963 `MAKE_EULER_ROT`: `RotXYX`, `RotXYZ`, ..., with the letters as arguments -/
noncomputable def rot3 (p q s : Axis) (a1 a2 a3 : ℝ) : M3 ℝ := rot p a1 * rot q a2 * rot s a3

/-! ## Exchange with C arrays -/

/-- Writes `a[i][j] = v` in the order given. The array `a` is what the caller had there. -/
def writeAll {T : Type} (a : ℕ → ℕ → T) (v : ℕ → ℕ → T) : List (ℕ × ℕ) → ℕ → ℕ → T
  | [] => a
  | (i, j) :: rest => writeAll (fun i' j' => if i' = i ∧ j' = j then v i j else a i' j') v rest

/-- The entries written by source/Misc.hpp:421-443 `mat62array` and source/Misc.hpp:449-471 `array2mat6`, in
order -/
def copied6 : List (ℕ × ℕ) :=
  [(0,0), (0,1), (0,2), (0,3), (0,4), (0,5),
   (1,0), (1,1), (1,2), (1,3), (1,4), (1,5),
   (2,0), (2,1), (2,2), (2,3), (2,4), (2,5)]

/-- source/Misc.hpp:421-443 `mat62array`: `a` is the array of the caller before the call -/
def mat62array {T : Type} (v a : ℕ → ℕ → T) : ℕ → ℕ → T := writeAll a v copied6

/-- source/Misc.hpp:449-471 `array2mat6`: `v` is the matrix before the call -/
def array2mat6 {T : Type} (a v : ℕ → ℕ → T) : ℕ → ℕ → T := writeAll v a copied6

/-- The entries written by source/Misc.hpp:384-415 `mat2array` and `array2mat`, in order -/
def copied3 : List (ℕ × ℕ) :=
  [(0,0), (0,1), (0,2), (1,0), (1,1), (1,2), (2,0), (2,1), (2,2)]

/-- source/Misc.hpp:384-396 `mat2array` -/
def mat2array {T : Type} (v a : ℕ → ℕ → T) : ℕ → ℕ → T := writeAll a v copied3

/-- source/Body.cpp:873-880 `MoorDyn_GetBodyM` and source/Rod.cpp:1614-1621 `MoorDyn_GetRodM`. A null handle
(`none`) is answered with `MOORDYN_INVALID_VALUE` (-6) and nothing is written. -/
def getM {T : Type} (handle : Option (ℕ → ℕ → T)) (a : ℕ → ℕ → T) : Int × (ℕ → ℕ → T) :=
  match handle with
  | none => (-6, a)
  | some M => (0, mat62array M a)

end MD.Mat
