import Verif.Proofs.PdEnergy
import Verif.Proofs.Fext
import Verif.Props.C33
import Verif.Spec.VonKarman
import Verif.Proofs.Bardell
import Mathlib.Analysis.Calculus.Deriv.Pow
import Mathlib.Analysis.Calculus.Deriv.Mul
import Mathlib.Analysis.Calculus.Deriv.Add

/-!
# C35: prescribed point displacements come from a penalty potential

`fkCpd` gives the matrix and `add_point_pd` with `shell_fext` the force.
-/

set_option linter.unusedSectionVars false

namespace Verif.C35

open Finset Spec Model

variable {K : Type*} [Field K] [CharZero K]

/-- `1/2 (ku (u - up)² + kv (v - vp)² + kw (w - wp)²)` for displacements `U α` at the point. -/
def potential (ku up kv vp kw wp : K) (U : ℕ → K) : K :=
  1 / 2 * (ku * (U 0 - up) ^ 2 + kv * (U 1 - vp) ^ 2 + kw * (U 2 - wp) ^ 2)

/-- Increment factor: `inc` for prescribed displacements that are not constant. -/
def factor (cte : Bool) (inc : K) : K := if cte then 1 else inc

/-- The matrix. -/
theorem matrix (S : Shape K) (P : Panel K) (ku kv kw xp yp : K) (s : ℕ) (d c : ℕ → K) :
    Coo.bilin (Coo.finalizeSym (fkCpd S P ku kv kw xp yp s s)) d c
      = ku * Spec.field S P s d 0 xp yp * Spec.field S P s c 0 xp yp
        + kv * Spec.field S P s d 1 xp yp * Spec.field S P s c 1 xp yp
        + kw * Spec.field S P s d 2 xp yp * Spec.field S P s c 2 xp yp :=
  fkCpd_form S P ku kv kw xp yp s d c

theorem point_pd_work (G : GaussTab K) (P : Panel K) (L : Loads K)
    (x y ku up kv vp kw wp inc : K) (cte : Bool) (U : ℕ → K → K → K) :
    constWork G P (L.addPointPd x y ku up kv vp kw wp cte) U
        + inc * incWork G P (L.addPointPd x y ku up kv vp kw wp cte) U
      = constWork G P L U + inc * incWork G P L U
        + factor cte inc * (ku * up * U 0 x y + kv * vp * U 1 x y + kw * wp * U 2 x y) := by
  cases cte <;>
  · simp only [Loads.addPointPd, constWork, incWork, List.map_append, List.sum_append,
      List.map_cons, List.map_nil, List.sum_cons, List.sum_nil, pointWork, if_true,
      Bool.false_eq_true, if_false, factor]
    ring

/-- The force: recording a prescribed displacement adds `k up` at the point, and nothing else. -/
theorem force (S : Shape K) (G : GaussTab K) (P : Panel K) (L : Loads K) (hL : WellFormed L)
    (x y ku up kv vp kw wp inc : K) (cte : Bool) (size : SizeArg) (s : ℕ)
    (h : s + 3 * P.m * P.n ≤ size.value (3 * P.m * P.n)) :
    ∃ f g, shellFext S G P L inc size s = .ok f ∧
      shellFext S G P (L.addPointPd x y ku up kv vp kw wp cte) inc size s = .ok g ∧
      ∀ d, ∑ k ∈ range (size.value (3 * P.m * P.n)), (g k - f k) * d k
        = factor cte inc * (ku * up * Spec.field S P s d 0 x y + kv * vp * Spec.field S P s d 1 x y
          + kw * wp * Spec.field S P s d 2 x y) := by
  have hL' : WellFormed (L.addPointPd x y ku up kv vp kw wp cte) := by cases cte <;> exact hL
  obtain ⟨f, ef, hf⟩ := C33.work S G P L hL inc size s h
  obtain ⟨g, eg, hg⟩ := C33.work S G P _ hL' inc size s h
  refine ⟨f, g, ef, eg, fun d => ?_⟩
  simp only [sub_mul, sum_sub_distrib, hf, hg, point_pd_work]
  ring

/-- Matrix and force together: their quadratic functional is the penalty potential, up to the
constant `1/2 Σ k up²`. -/
theorem functional (S : Shape K) (G : GaussTab K) (P : Panel K) (L : Loads K) (hL : WellFormed L)
    (x y ku up kv vp kw wp inc : K) (cte : Bool) (size : SizeArg) (s : ℕ)
    (h : s + 3 * P.m * P.n ≤ size.value (3 * P.m * P.n)) :
    ∃ f g, shellFext S G P L inc size s = .ok f ∧
      shellFext S G P (L.addPointPd x y ku up kv vp kw wp cte) inc size s = .ok g ∧
      ∀ c, 1 / 2 * Coo.quad (Coo.finalizeSym (fkCpd S P ku kv kw x y s s)) c
          - ∑ k ∈ range (size.value (3 * P.m * P.n)), (g k - f k) * c k
        = potential ku (factor cte inc * up) kv (factor cte inc * vp) kw (factor cte inc * wp)
            (fun α => Spec.field S P s c α x y)
          - potential ku (factor cte inc * up) kv (factor cte inc * vp) kw (factor cte inc * wp)
            (fun _ => 0) := by
  obtain ⟨f, g, ef, eg, hfg⟩ := force S G P L hL x y ku up kv vp kw wp inc cte size s h
  refine ⟨f, g, ef, eg, fun c => ?_⟩
  rw [hfg, Coo.quad, matrix]
  simp only [potential]
  ring

theorem field_line (S : Shape K) (P : Panel K) (s : ℕ) (c d : ℕ → K) (t : K) (α : ℕ) (x y : K) :
    Spec.field S P s (fun k => c k + t * d k) α x y
      = Spec.field S P s c α x y + t * Spec.field S P s d α x y := by
  simp only [Spec.field, disp, mul_sum, ← sum_add_distrib]
  refine sum_congr rfl fun _ _ => sum_congr rfl fun _ _ => ?_
  ring

/-- The residual `K c - f` of the prescribed displacement is the gradient of the potential. -/
theorem gradient (S : Shape ℝ) (G : GaussTab ℝ) (P : Panel ℝ) (L : Loads ℝ) (hL : WellFormed L)
    (x y ku up kv vp kw wp inc : ℝ) (cte : Bool) (size : SizeArg) (s : ℕ)
    (h : s + 3 * P.m * P.n ≤ size.value (3 * P.m * P.n)) :
    ∃ f g, shellFext S G P L inc size s = .ok f ∧
      shellFext S G P (L.addPointPd x y ku up kv vp kw wp cte) inc size s = .ok g ∧
      ∀ c d, dirDeriv (fun c => potential ku (factor cte inc * up) kv (factor cte inc * vp) kw
            (factor cte inc * wp) fun α => Spec.field S P s c α x y) c d
        = Coo.bilin (Coo.finalizeSym (fkCpd S P ku kv kw x y s s)) d c
          - ∑ k ∈ range (size.value (3 * P.m * P.n)), (g k - f k) * d k := by
  obtain ⟨f, g, ef, eg, hfg⟩ := force S G P L hL x y ku up kv vp kw wp inc cte size s h
  refine ⟨f, g, ef, eg, fun c d => ?_⟩
  rw [hfg, matrix, dirDeriv]
  simp only [field_line, potential]
  generalize factor cte inc = φ
  generalize Spec.field S P s c 0 x y = a0
  generalize Spec.field S P s c 1 x y = a1
  generalize Spec.field S P s c 2 x y = a2
  generalize Spec.field S P s d 0 x y = b0
  generalize Spec.field S P s d 1 x y = b1
  generalize Spec.field S P s d 2 x y = b2
  have key : ∀ a b p k : ℝ, HasDerivAt (fun t : ℝ => k * (a + t * b - p) ^ 2)
      (2 * k * b * (a - p)) 0 := fun a b p k => by
    have := (((((hasDerivAt_id (0 : ℝ)).mul_const b).const_add a).sub_const p).pow 2).const_mul k
    refine this.congr_deriv ?_
    simp only [id_eq, Nat.cast_ofNat]
    ring
  have := (((key a0 b0 (φ * up) ku).add (key a1 b1 (φ * vp) kv)).add
    (key a2 b2 (φ * wp) kw)).const_mul (1 / 2)
  refine Eq.trans (HasDerivAt.deriv this) ?_
  ring

/-- With positive penalties the potential is non-negative, and zero exactly when the prescribed
values are met. -/
theorem zero_iff {ku kv kw : ℝ} (hu : 0 < ku) (hv : 0 < kv) (hw : 0 < kw) (up vp wp : ℝ)
    (U : ℕ → ℝ) : 0 ≤ potential ku up kv vp kw wp U ∧
      (potential ku up kv vp kw wp U = 0 ↔ U 0 = up ∧ U 1 = vp ∧ U 2 = wp) := by
  have h0 := mul_nonneg hu.le (sq_nonneg (U 0 - up))
  have h1 := mul_nonneg hv.le (sq_nonneg (U 1 - vp))
  have h2 := mul_nonneg hw.le (sq_nonneg (U 2 - wp))
  refine ⟨by unfold potential; positivity, fun h => ?_, fun ⟨a, b, c⟩ => by
    simp [potential, a, b, c]⟩
  unfold potential at h
  refine ⟨?_, ?_, ?_⟩ <;> apply sub_eq_zero.1 <;> apply pow_eq_zero_iff two_ne_zero |>.1
  · have : ku * (U 0 - up) ^ 2 = 0 := by linarith
    exact (mul_eq_zero.1 this).resolve_left hu.ne'
  · have : kv * (U 1 - vp) ^ 2 = 0 := by linarith
    exact (mul_eq_zero.1 this).resolve_left hv.ne'
  · have : kw * (U 2 - wp) ^ 2 = 0 := by linarith
    exact (mul_eq_zero.1 this).resolve_left hw.ne'

/-- A constrained solution minimises: if `K c = f` for the prescribed displacement alone, no other
vector has a smaller potential. -/
theorem minimiser (S : Shape ℝ) (G : GaussTab ℝ) (P : Panel ℝ) (L : Loads ℝ) (hL : WellFormed L)
    (x y ku up kv vp kw wp inc : ℝ) (hu : 0 ≤ ku) (hv : 0 ≤ kv) (hw : 0 ≤ kw) (cte : Bool)
    (size : SizeArg) (s : ℕ) (h : s + 3 * P.m * P.n ≤ size.value (3 * P.m * P.n)) (f g c : ℕ → ℝ)
    (ef : shellFext S G P L inc size s = .ok f)
    (eg : shellFext S G P (L.addPointPd x y ku up kv vp kw wp cte) inc size s = .ok g)
    (hc : ∀ d, Coo.bilin (Coo.finalizeSym (fkCpd S P ku kv kw x y s s)) d c
      = ∑ k ∈ range (size.value (3 * P.m * P.n)), (g k - f k) * d k) (c' : ℕ → ℝ) :
    potential ku (factor cte inc * up) kv (factor cte inc * vp) kw (factor cte inc * wp)
        (fun α => Spec.field S P s c α x y)
      ≤ potential ku (factor cte inc * up) kv (factor cte inc * vp) kw (factor cte inc * wp)
        (fun α => Spec.field S P s c' α x y) := by
  obtain ⟨f', g', ef', eg', hfg⟩ := force S G P L hL x y ku up kv vp kw wp inc cte size s h
  rw [ef] at ef'
  rw [eg] at eg'
  cases ef'
  cases eg'
  have e := hc c'
  have e0 := hc c
  rw [hfg, matrix] at e e0
  simp only [potential]
  generalize factor cte inc = φ at *
  generalize Spec.field S P s c 0 x y = a0 at *
  generalize Spec.field S P s c 1 x y = a1 at *
  generalize Spec.field S P s c 2 x y = a2 at *
  generalize Spec.field S P s c' 0 x y = b0 at *
  generalize Spec.field S P s c' 1 x y = b1 at *
  generalize Spec.field S P s c' 2 x y = b2 at *
  nlinarith [mul_nonneg hu (sq_nonneg (b0 - a0)), mul_nonneg hv (sq_nonneg (b1 - a1)),
    mul_nonneg hw (sq_nonneg (b2 - a2))]

/-- Concrete case: three prescribed components besides other loads, in a larger vector. -/
example : ∃ f g, shellFext (bardellShape ℚ) (gaussTab ℚ) Witness.panel C33.loads (1 / 2)
      (.num 300) 100 = .ok f ∧
    shellFext (bardellShape ℚ) (gaussTab ℚ) Witness.panel
      (C33.loads.addPointPd 3 (1 / 2) 1000 (1 / 10) 2000 (1 / 5) 3000 (-1) false) (1 / 2)
      (.num 300) 100 = .ok g ∧
    ∀ c, 1 / 2 * Coo.quad (Coo.finalizeSym (fkCpd (bardellShape ℚ) Witness.panel 1000 2000 3000 3
        (1 / 2) 100 100)) c - ∑ k ∈ range 300, (g k - f k) * c k
      = potential 1000 (factor false (1 / 2) * (1 / 10)) 2000 (factor false (1 / 2) * (1 / 5)) 3000
          (factor false (1 / 2) * -1)
          (fun α => Spec.field (bardellShape ℚ) Witness.panel 100 c α 3 (1 / 2))
        - potential 1000 (factor false (1 / 2) * (1 / 10)) 2000 (factor false (1 / 2) * (1 / 5)) 3000
          (factor false (1 / 2) * -1) (fun _ => 0) :=
  functional _ _ _ _ C33.loads_wf _ _ _ _ _ _ _ _ _ _ _ _
    (by norm_num [Witness.panel, SizeArg.value])

example (U : ℕ → ℝ) (h : potential 1 (1 / 10 : ℝ) 2 0 3 5 U = 0) : U 2 = 5 :=
  ((zero_iff one_pos two_pos three_pos _ _ _ U).2.1 h).2.2

end Verif.C35
