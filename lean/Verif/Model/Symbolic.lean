import Mathlib.Algebra.MvPolynomial.Basic
import Mathlib.Algebra.MvPolynomial.Degrees
import Mathlib.Analysis.SpecialFunctions.Trigonometric.Basic
import Mathlib.Analysis.Complex.Basic
import Verif.Model.LookupTables

/-!
# Model of so3/_symbolic.py

`sympy.Poly` objects in `x, y, z` are elements of `MvPolynomial (Fin 3) ℝ`; polynomials in the entries
`r00, r01, …, r22` of a rotation matrix are elements of `MvPolynomial (Fin 9) ℝ`. sympy computes exactly;
`sp.simplify` does not change values. Degrees are natural numbers (the code never passes negative ones) and orders are
integers with `|m| ≤ l`.
-/

namespace E3x

noncomputable section

open MvPolynomial Finset

/-- The nested function `a` of `_spherical_harmonics`, so3/_symbolic.py:42-46. -/
def symA (m : ℕ) : MvPolynomial (Fin 3) ℝ :=
  ∑ p ∈ range (m + 1), C ((m.choose p : ℝ) * Real.cos ((m - p : ℕ) * Real.pi / 2)) * X 0 ^ p * X 1 ^ (m - p)

/-- The nested function `b` of `_spherical_harmonics`, so3/_symbolic.py:48-52. -/
def symB (m : ℕ) : MvPolynomial (Fin 3) ℝ :=
  ∑ p ∈ range (m + 1), C ((m.choose p : ℝ) * Real.sin ((m - p : ℕ) * Real.pi / 2)) * X 0 ^ p * X 1 ^ (m - p)

/-- The nested function `pi` of `_spherical_harmonics`, so3/_symbolic.py:54-68. -/
def symPi (l m : ℕ) : MvPolynomial (Fin 3) ℝ :=
  let r2 : MvPolynomial (Fin 3) ℝ := X 0 ^ 2 + X 1 ^ 2 + X 2 ^ 2
  C (Real.sqrt ((l - m).factorial / (l + m).factorial)) *
    ∑ k ∈ range ((l - m) / 2 + 1),
      C ((-1) ^ k * (2 : ℝ)⁻¹ ^ l * (l.choose k : ℝ) * ((2 * l - 2 * k).choose l : ℝ) *
        ((l - 2 * k).factorial : ℝ) / ((l - 2 * k - m).factorial : ℝ)) * X 2 ^ (l - 2 * k - m) * r2 ^ k

/-- `_spherical_harmonics`, so3/_symbolic.py:23-77. -/
def symSphericalHarmonics (l : ℕ) (m : ℤ) : MvPolynomial (Fin 3) ℝ :=
  if 0 < m then C (Real.sqrt 2) * symPi l m.toNat * symA m.toNat
  else if m < 0 then C (Real.sqrt 2) * symPi l (-m).toNat * symB (-m).toNat
  else symPi l 0

/-- `polynomial.terms()`: the pairs of powers and coefficient. (sympy lists them in lexicographic order; here the
order is not specified.) The zero polynomial has the one term `((0, …, 0), 0)`. -/
def polyTerms {n : ℕ} (p : MvPolynomial (Fin n) ℝ) : Terms :=
  if p = 0 then [(List.replicate n 0, 0)] else p.support.toList.map fun s => (List.ofFn fun i => s i, p.coeff s)

/-! ## Clebsch-Gordan coefficients -/

/-- `sympy.physics.wigner.wigner_3j` (sympy 1.x; used through `clebsch_gordan`, so3/_symbolic.py:20), for integral
degrees. Factorials of negative numbers do not occur in the sum. -/
def wigner3j (j1 j2 j3 : ℕ) (m1 m2 m3 : ℤ) : ℝ :=
  if m1 + m2 + m3 ≠ 0 then 0
  else if j1 + j2 < j3 then 0
  else if j1 + j3 < j2 then 0
  else if j2 + j3 < j1 then 0
  else if (j1 : ℤ) < |m1| ∨ (j2 : ℤ) < |m2| ∨ (j3 : ℤ) < |m3| then 0
  else
    let fac : ℤ → ℝ := fun n => (n.toNat.factorial : ℝ)
    let prefid : ℝ := (-1) ^ ((j1 : ℤ) - j2 - m3)
    let m3 := -m3
    let argsqrt : ℝ := fac (j1 + j2 - j3) * fac (j1 - j2 + j3) * fac (-j1 + j2 + j3) * fac (j1 - m1) * fac (j1 + m1) *
      fac (j2 - m2) * fac (j2 + m2) * fac (j3 - m3) * fac (j3 + m3) / fac (j1 + j2 + j3 + 1)
    let imin : ℤ := max (max (-j3 + j1 + m2) (-j3 + j2 - m1)) 0
    let imax : ℤ := min (min (j2 + m2) (j1 - m1)) (j1 + j2 - j3)
    let sumres : ℝ := ∑ ii ∈ Finset.Icc imin imax, (-1) ^ ii /
      (fac ii * fac (ii + j3 - j1 - m2) * fac (j2 + m2 - ii) * fac (j1 - ii - m1) * fac (ii + j3 - j2 + m1) *
        fac (j1 + j2 - j3 - ii))
    Real.sqrt argsqrt * sumres * prefid

/-- `sympy.physics.wigner.clebsch_gordan`, imported at so3/_symbolic.py:20. -/
def complexCG (j1 j2 j3 : ℕ) (m1 m2 m3 : ℤ) : ℝ :=
  (-1) ^ ((j1 : ℤ) - j2 + m3) * Real.sqrt (2 * j3 + 1) * wigner3j j1 j2 j3 m1 m2 (-m3)

/-- The nested function `a_b` of `_clebsch_gordan`, so3/_symbolic.py:101-114. -/
def realCoeff (m : ℤ) : ℂ × ℂ :=
  let s : ℂ := (Real.sqrt 2 : ℝ)
  if m < 0 then
    if m % 2 = 0 then (Complex.I / s, -Complex.I / s) else (Complex.I / s, Complex.I / s)
  else if 0 < m then
    if m % 2 = 0 then (1 / s, 1 / s) else (-1 / s, 1 / s)
  else (1 / 2, 1 / 2)

/-- `_clebsch_gordan`, so3/_symbolic.py:80-129, before the conversion to a (real) float. -/
def symClebschGordanC (l1 : ℕ) (m1 : ℤ) (l2 : ℕ) (m2 : ℤ) (l3 : ℕ) (m3 : ℤ) : ℂ :=
  let (a1, b1) := realCoeff m1
  let (a2, b2) := realCoeff m2
  let (a3, b3) := realCoeff m3
  let conj : ℂ → ℂ := starRingEnd ℂ
  let cg : ℤ → ℤ → ℤ → ℂ := fun k1 k2 k3 => (complexCG l1 l2 l3 k1 k2 k3 : ℝ)
  Complex.I ^ ((l1 : ℤ) + l2 - l3) * (
      a1 * a2 * conj a3 * cg m1 m2 m3
      + a1 * a2 * conj b3 * cg m1 m2 (-m3)
      + a1 * b2 * conj a3 * cg m1 (-m2) m3
      + a1 * b2 * conj b3 * cg m1 (-m2) (-m3)
      + b1 * a2 * conj a3 * cg (-m1) m2 m3
      + b1 * a2 * conj b3 * cg (-m1) m2 (-m3)
      + b1 * b2 * conj a3 * cg (-m1) (-m2) m3
      + b1 * b2 * conj b3 * cg (-m1) (-m2) (-m3))

/-- The number stored in the table: `float(_clebsch_gordan(…))`, so3/_clebsch_gordan_lut.py:171-181. The conversion
raises for numbers which are not real; that this does not happen is `C29_real` (Props/ClebschGordan.lean). -/
def symClebschGordan (l1 : ℕ) (m1 : ℤ) (l2 : ℕ) (m2 : ℤ) (l3 : ℕ) (m3 : ℤ) : ℝ :=
  (symClebschGordanC l1 m1 l2 m2 l3 m3).re

/-! ## Wigner-D matrices -/

/-- The symbol for the entry `(i, j)` of the rotation matrix: `r00, r01, r02, r10, …`. -/
def rotSymbol (i j : Fin 3) : MvPolynomial (Fin 9) ℝ := X ⟨3 * i.1 + j.1, by omega⟩

/-- `_rotate_xyz_polynomial`, so3/_symbolic.py:132-163: `x`, `y`, `z` are replaced by
`r00 * x + r01 * y + r02 * z` etc. -/
def rotateXyzPolynomial (p : MvPolynomial (Fin 3) ℝ) : MvPolynomial (Fin 3) (MvPolynomial (Fin 9) ℝ) :=
  aeval (fun i : Fin 3 => ∑ j : Fin 3, C (rotSymbol i j) * X j) p

/-- The nested function `trinomial_coefficient` of `_polynomial_dot_product`, so3/_symbolic.py:186-189. -/
def trinomialCoefficient (k : Fin 3 →₀ ℕ) : ℝ :=
  ((k 0 + k 1 + k 2).factorial : ℝ) / ((k 0).factorial * (k 1).factorial * (k 2).factorial)

/-- `_polynomial_dot_product`, so3/_symbolic.py:166-204. -/
def polynomialDotProduct (p1 : MvPolynomial (Fin 3) ℝ) (p2 : MvPolynomial (Fin 3) (MvPolynomial (Fin 9) ℝ)) :
    MvPolynomial (Fin 9) ℝ :=
  let degree := p1.totalDegree
  if degree ≠ p2.totalDegree then 0
  else
    (∑ key ∈ p1.support, C (p1.coeff key) * p2.coeff key * C (1 / trinomialCoefficient key)) *
      C (2 ^ degree / ((2 * degree).choose degree : ℝ))

/-- The entry of the Wigner-D matrix of degree `l` in row `mrot` and column `msph`, so3/_wigner_d_lut.py:152-183. -/
def symWignerD (l : ℕ) (mrot msph : ℤ) : MvPolynomial (Fin 9) ℝ :=
  polynomialDotProduct (symSphericalHarmonics l msph) (rotateXyzPolynomial (symSphericalHarmonics l mrot))

/-- `_spherical_harmonics(l, m).terms()`, so3/_spherical_harmonics_lut.py:183-199. -/
def sphTerms (l : ℕ) (m : ℤ) : Terms := polyTerms (symSphericalHarmonics l m)

/-- The terms of an entry of the Wigner-D matrix, so3/_wigner_d_lut.py:198-207. -/
def wigTerms (l : ℕ) (mrot msph : ℤ) : Terms := polyTerms (symWignerD l mrot msph)

end

end E3x
