import Verif.CompareModel

/-
Vectors and matrices of size three as used through Eigen by the geometry classes. `double` is an
arbitrary ordered field; square roots are a parameter.
-/
namespace Verif

open Res

/-- `Eigen::Vector3d`. -/
@[ext] structure V3 (K : Type) where
  x : K
  y : K
  z : K
  deriving DecidableEq, Repr

/-- `Eigen::Matrix3d`, entries by row and column. -/
@[ext] structure M3 (K : Type) where
  (a00 a01 a02 a10 a11 a12 a20 a21 a22 : K)
  deriving DecidableEq, Repr

variable {K : Type} [Field K]

/-- Eigen `operator+` of vectors. -/
def V3.add (a b : V3 K) : V3 K := ⟨a.x + b.x, a.y + b.y, a.z + b.z⟩

/-- Eigen `operator-` of vectors. -/
def V3.sub (a b : V3 K) : V3 K := ⟨a.x - b.x, a.y - b.y, a.z - b.z⟩

/-- Eigen product of a scalar and a vector. -/
def V3.smul (c : K) (a : V3 K) : V3 K := ⟨c * a.x, c * a.y, c * a.z⟩

/-- Eigen `setZero` / `Zero()`. -/
def V3.zero : V3 K := ⟨0, 0, 0⟩

/-- Eigen `dot`. -/
def V3.dot (a b : V3 K) : K := a.x * b.x + a.y * b.y + a.z * b.z

/-- Eigen `cross`. -/
def V3.cross (a b : V3 K) : V3 K :=
  ⟨a.y * b.z - a.z * b.y, a.z * b.x - a.x * b.z, a.x * b.y - a.y * b.x⟩

/-- Eigen product of a matrix and a vector. -/
def M3.mulVec (m : M3 K) (v : V3 K) : V3 K :=
  ⟨m.a00 * v.x + m.a01 * v.y + m.a02 * v.z,
   m.a10 * v.x + m.a11 * v.y + m.a12 * v.z,
   m.a20 * v.x + m.a21 * v.y + m.a22 * v.z⟩

/-- Eigen product of two matrices. -/
def M3.mul (m n : M3 K) : M3 K :=
  ⟨m.a00 * n.a00 + m.a01 * n.a10 + m.a02 * n.a20,
   m.a00 * n.a01 + m.a01 * n.a11 + m.a02 * n.a21,
   m.a00 * n.a02 + m.a01 * n.a12 + m.a02 * n.a22,
   m.a10 * n.a00 + m.a11 * n.a10 + m.a12 * n.a20,
   m.a10 * n.a01 + m.a11 * n.a11 + m.a12 * n.a21,
   m.a10 * n.a02 + m.a11 * n.a12 + m.a12 * n.a22,
   m.a20 * n.a00 + m.a21 * n.a10 + m.a22 * n.a20,
   m.a20 * n.a01 + m.a21 * n.a11 + m.a22 * n.a21,
   m.a20 * n.a02 + m.a21 * n.a12 + m.a22 * n.a22⟩

/-- Identity matrix. -/
def M3.one : M3 K := ⟨1, 0, 0, 0, 1, 0, 0, 0, 1⟩

/-- Eigen `determinant` of a matrix of size three. -/
def M3.det (m : M3 K) : K :=
  m.a00 * (m.a11 * m.a22 - m.a12 * m.a21) - m.a01 * (m.a10 * m.a22 - m.a12 * m.a20) +
    m.a02 * (m.a10 * m.a21 - m.a11 * m.a20)

/-- Eigen `inverse` of a matrix of size three: cofactors times the reciprocal of the determinant.
Meaningful only for a determinant different from zero; the theorems require it. -/
def M3.inverse (m : M3 K) : M3 K :=
  let d := 1 / m.det
  ⟨(m.a11 * m.a22 - m.a12 * m.a21) * d, (m.a02 * m.a21 - m.a01 * m.a22) * d,
   (m.a01 * m.a12 - m.a02 * m.a11) * d,
   (m.a12 * m.a20 - m.a10 * m.a22) * d, (m.a00 * m.a22 - m.a02 * m.a20) * d,
   (m.a02 * m.a10 - m.a00 * m.a12) * d,
   (m.a10 * m.a21 - m.a11 * m.a20) * d, (m.a01 * m.a20 - m.a00 * m.a21) * d,
   (m.a00 * m.a11 - m.a01 * m.a10) * d⟩

/-- Column of a matrix. -/
def M3.col0 (m : M3 K) : V3 K := ⟨m.a00, m.a10, m.a20⟩
/-- Column of a matrix. -/
def M3.col1 (m : M3 K) : V3 K := ⟨m.a01, m.a11, m.a21⟩
/-- Column of a matrix. -/
def M3.col2 (m : M3 K) : V3 K := ⟨m.a02, m.a12, m.a22⟩

end Verif
