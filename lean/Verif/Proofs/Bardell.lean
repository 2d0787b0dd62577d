import Verif.Spec.Bardell
import Verif.Proofs.RealField

/-!
# Calculus of list polynomials; the exact Bardell functions are smooth
-/

namespace Verif

namespace Spec

theorem pderFrom_succ (k : ℕ) (p : List ℚ) (x : ℝ) :
    pev (pderFrom (k + 1) p) x = pev (pderFrom k p) x + pev p x := by
  induction p generalizing k with
  | nil => simp [pderFrom, pev]
  | cons c cs ih => simp only [pderFrom, pev, ih (k + 1)]; push_cast; ring

theorem pev_pderFrom_zero (p : List ℚ) (x : ℝ) :
    pev (pderFrom 0 p) x = pev p x + x * pev (pder p) x := by
  cases p with
  | nil => simp [pderFrom, pder, pev]
  | cons c cs => simp only [pderFrom, pder, pev, pderFrom_succ]; push_cast; ring

theorem hasDerivAt_pev (p : List ℚ) (x : ℝ) : HasDerivAt (fun t => pev p t) (pev (pder p) x) x := by
  induction p with
  | nil => simpa [pev, pder] using hasDerivAt_const x (0 : ℝ)
  | cons c cs ih =>
    have h := ((hasDerivAt_id x).mul ih).const_add (c : ℝ)
    have e : pev (pder (c :: cs)) x = pev cs x + x * pev (pder cs) x := pev_pderFrom_zero cs x
    rw [e]
    simpa [pev] using h

theorem continuous_pev (p : List ℚ) : Continuous fun x : ℝ => pev p x :=
  continuous_iff_continuousAt.2 fun x => (hasDerivAt_pev p x).continuousAt

theorem integral_mom (k : ℕ) : ∫ x in (-1 : ℝ)..1, x ^ k = ((mom k : ℚ) : ℝ) := by
  rw [integral_pow, mom]
  rcases Nat.even_or_odd k with h | h
  · have h1 : k % 2 = 0 := Nat.even_iff.1 h
    rw [if_pos h1, (Nat.even_add_one.not.2 (not_not.2 h) |> Nat.not_even_iff_odd.1).neg_one_pow]
    push_cast; norm_num
  · have h1 : ¬ k % 2 = 0 := by rw [Nat.odd_iff.1 h]; decide
    rw [if_neg h1, (Nat.even_add_one.2 (Nat.not_even_iff_odd.2 h)).neg_one_pow]
    simp

theorem integral_pintFrom (k : ℕ) (p : List ℚ) :
    ∫ x in (-1 : ℝ)..1, x ^ k * pev p x = ((pintFrom k p : ℚ) : ℝ) := by
  induction p generalizing k with
  | nil => simp [pev, pintFrom]
  | cons c cs ih =>
    have e : ∀ x : ℝ, x ^ k * pev (c :: cs) x = (c : ℝ) * x ^ k + x ^ (k + 1) * pev cs x := by
      intro x; simp only [pev]; ring
    simp only [e, pintFrom]
    rw [intervalIntegral.integral_add, intervalIntegral.integral_const_mul, integral_mom, ih]
    · push_cast; ring
    · exact Continuous.intervalIntegrable (by fun_prop) _ _
    · exact Continuous.intervalIntegrable ((continuous_pow _).mul (continuous_pev cs)) _ _

theorem integral_pev (p : List ℚ) : ∫ x in (-1 : ℝ)..1, pev p x = ((pint p : ℚ) : ℝ) := by
  have h := integral_pintFrom 0 p
  simp only [pow_zero, one_mul] at h
  exact h

theorem bardellShape_C2 : (bardellShape ℝ).C2 where
  d1 _ x _ := (hasDerivAt_pev _ x).const_mul _
  d2 _ x _ := (hasDerivAt_pev _ x).const_mul _
  cont _ _ := continuous_const.mul (continuous_pev _)

end Spec

/-- The tables of exact values of a functional. -/
def Tab.of {K : Type*} [Field K] (S : Shape K) (M : Mean K) : Tab K where
  ff i j fa fb := M.L fun x => S.f i x fa * S.f j x fb
  ffp i j fa fb := M.L fun x => S.f i x fa * S.fp j x fb
  ffpp i j fa fb := M.L fun x => S.f i x fa * S.fpp j x fb
  fpfp i j fa fb := M.L fun x => S.fp i x fa * S.fp j x fb
  fpfpp i j fa fb := M.L fun x => S.fp i x fa * S.fpp j x fb
  fppfpp i j fa fb := M.L fun x => S.fpp i x fa * S.fpp j x fb

theorem Tab.of_exact {K : Type*} [Field K] (S : Shape K) (M : Mean K) : (Tab.of S M).Exact S M :=
  ⟨fun _ _ _ _ => rfl, fun _ _ _ _ => rfl, fun _ _ _ _ => rfl, fun _ _ _ _ => rfl,
    fun _ _ _ _ => rfl, fun _ _ _ _ => rfl⟩

end Verif
