import Mathlib.Data.Rat.Cast.Defs
import Mathlib.Data.Rat.Cast.CharZero
import Mathlib.Algebra.Order.Field.Rat
import Mathlib.Tactic.Ring

/-!
# Polynomials with rational coefficients as lists (lowest degree first)

Small executable specification: evaluation, derivative, product, integral over `[-1, 1]`.
-/

namespace Verif.Spec

variable {K : Type*} [Field K] [CharZero K]

/-- `c₀ + c₁ x + c₂ x² + …`. -/
def pev (l : List ℚ) (x : K) : K :=
  match l with
  | [] => 0
  | c :: cs => (c : K) + x * pev cs x

/-- Sum of two polynomials. -/
def padd : List ℚ → List ℚ → List ℚ
  | [], q => q
  | p, [] => p
  | a :: p, b :: q => (a + b) :: padd p q

/-- Multiple of a polynomial. -/
def psmul (k : ℚ) (p : List ℚ) : List ℚ := p.map (k * ·)

/-- Derivative, coefficients `(k+1) c_(k+1), (k+2) c_(k+2), …` from position `k`. -/
def pderFrom (k : ℕ) : List ℚ → List ℚ
  | [] => []
  | c :: cs => ((k : ℚ) + 1) * c :: pderFrom (k + 1) cs

/-- Derivative. -/
def pder : List ℚ → List ℚ
  | [] => []
  | _ :: cs => pderFrom 0 cs

/-- Product. -/
def pmul : List ℚ → List ℚ → List ℚ
  | [], _ => []
  | a :: p, q => padd (psmul a q) (0 :: pmul p q)

/-- `∫_{-1}^{1} x^k dx`. -/
def mom (k : ℕ) : ℚ := if k % 2 = 0 then 2 / ((k : ℚ) + 1) else 0

/-- `∫_{-1}^{1} x^k p(x) dx`. -/
def pintFrom (k : ℕ) : List ℚ → ℚ
  | [] => 0
  | c :: cs => c * mom k + pintFrom (k + 1) cs

/-- `∫_{-1}^{1} p(x) dx`. -/
def pint (p : List ℚ) : ℚ := pintFrom 0 p

theorem pev_padd (p q : List ℚ) (x : K) : pev (padd p q) x = pev p x + pev q x := by
  induction p generalizing q with
  | nil => simp [padd, pev]
  | cons a p ih =>
    cases q with
    | nil => simp [padd, pev]
    | cons b q => simp only [padd, pev, ih]; push_cast; ring

theorem pev_psmul (k : ℚ) (p : List ℚ) (x : K) : pev (psmul k p) x = (k : K) * pev p x := by
  induction p with
  | nil => simp [psmul, pev]
  | cons a p ih =>
    simp only [psmul, List.map_cons, pev] at ih ⊢
    rw [ih]; push_cast; ring

theorem pev_pmul (p q : List ℚ) (x : K) : pev (pmul p q) x = pev p x * pev q x := by
  induction p with
  | nil => simp [pmul, pev]
  | cons a p ih =>
    simp only [pmul, pev_padd, pev_psmul, pev, ih]; push_cast; ring

end Verif.Spec
