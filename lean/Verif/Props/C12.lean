import Verif.Proofs.EntryForm
import Mathlib.Analysis.SpecificLimits.Basic
import Verif.Proofs.Fint
import Verif.Props.C17

/-!
# C12: a cylindrical shell flattens to a plate as `r` grows
-/

set_option linter.unusedSectionVars false

namespace Verif.C12

open Spec Model

/-- The same panel with radius `r`. -/
def withR {K : Type*} (P : Panel K) (r : K) : Panel K := { P with r := r }

section General

variable {K : Type*} [Field K] [CharZero K] [DecidableEq K]

/-- What the curvature adds to the strains: `w` in the circumferential strain. -/
def hoop (S : Shape K) (P : Panel K) (s0 : ℕ) (d : ℕ → K) (x y : K) (s : ℕ) : K :=
  if s = 1 then disp S P s0 d 2 0 0 (2 / P.a * x - 1) (2 / P.b * y - 1) else 0

theorem lin_hoop (κ : K) (S : Shape K) (P : Panel K) (s0 : ℕ) (d : ℕ → K) (s : ℕ) (x y : K) :
    lin κ S P s0 d s x y = lin 0 S P s0 d s x y + κ * hoop S P s0 d x y s := by
  unfold lin hoop
  rcases s with _ | _ | _ | _ | _ | s <;> simp

theorem vkVar_hoop (κ : K) (S : Shape K) (P : Panel K) (s0 : ℕ) (c d : ℕ → K) (s : ℕ) (x y : K) :
    vkVar κ S P s0 c d s x y = vkVar 0 S P s0 c d s x y + κ * hoop S P s0 d x y s := by
  simp only [vkVar]
  rw [lin_hoop κ]; ring

theorem vkWith_hoop (g κ : K) (S : Shape K) (P : Panel K) (s0 : ℕ) (c : ℕ → K) (s : ℕ) (x y : K) :
    vkWith g κ S P s0 c s x y = vkWith g 0 S P s0 c s x y + κ * hoop S P s0 c x y s := by
  simp only [vkWith]
  rw [lin_hoop κ]; ring

/-- Work of two strain fields, both with the curvature term. -/
theorem gaussP_hoop (G : GaussTab K) (nx ny : ℕ) (P : Panel K) (F : ℕ → ℕ → ℕ → ℕ → K) (κ : K)
    (e h e' h' : ℕ → ℕ → K → K → ℕ → K) :
    (gaussP G nx ny P fun p q x y => work (F p q) (fun s => e p q x y s + κ * h p q x y s)
        (fun s => e' p q x y s + κ * h' p q x y s))
      = (gaussP G nx ny P fun p q x y => work (F p q) (e p q x y) (e' p q x y))
        + κ * (gaussP G nx ny P fun p q x y => work (F p q) (e p q x y) (h' p q x y)
            + work (F p q) (h p q x y) (e' p q x y))
        + κ ^ 2 * (gaussP G nx ny P fun p q x y => work (F p q) (h p q x y) (h' p q x y)) := by
  rw [← gaussP_smul, ← gaussP_smul, ← gaussP_add, ← gaussP_add]
  refine gaussP_congr fun p _ q _ x y => ?_
  rw [work_add_left, work_add_right, work_add_right]; ring

/-- The same as a polynomial in the curvature. -/
theorem gaussP_poly (G : GaussTab K) (nx ny : ℕ) (P : Panel K) (F : ℕ → ℕ → ℕ → ℕ → K)
    (e h e' h' : ℕ → K → K → K) :
    ∃ A B : K, ∀ κ, (gaussP G nx ny P fun p q x y => work (F p q)
        (fun s => e s x y + κ * h s x y) (fun s => e' s x y + κ * h' s x y))
      = (gaussP G nx ny P fun p q x y => work (F p q) (fun s => e s x y) (fun s => e' s x y))
        + κ * A + κ ^ 2 * B :=
  ⟨_, _, fun κ => gaussP_hoop G nx ny P F κ (fun _ _ x y s => e s x y) (fun _ _ x y s => h s x y)
    (fun _ _ x y s => e' s x y) (fun _ _ x y s => h' s x y)⟩

/-- Numerical stiffness: exact dependence on the radius, linear or with von Karman terms, any
sub-domain, any point laminates. -/
theorem num_expansion (S : Shape K) (G : GaussTab K) (P : Panel K) (ha : P.a ≠ 0) (hb : P.b ≠ 0)
    (F : ℕ → ℕ → ℕ → ℕ → K) (hF : ∀ p q, ABDSym (F p q)) (c : ℕ → K) (s0 nx ny NL i j : ℕ) :
    ∃ A B : K, ∀ r, r ≠ 0 →
      Coo.entry (Coo.finalizeSym (cylFkCnumF S G (withR P r) F c s0 s0 nx ny NL)) i j
        = Coo.entry (Coo.finalizeSym (plateFkCnumF S G P F c s0 s0 nx ny NL)) i j
          + A / r + B / r ^ 2 := by
  obtain ⟨A, B, h⟩ := gaussP_poly G nx ny P F
    (fun s x y => if NL = 1 then vkVar 0 S P s0 c (unit j) s x y else lin 0 S P s0 (unit j) s x y)
    (fun s x y => hoop S P s0 (unit j) x y s)
    (fun s x y => if NL = 1 then vkVar 0 S P s0 c (unit i) s x y else lin 0 S P s0 (unit i) s x y)
    (fun s x y => hoop S P s0 (unit i) x y s)
  refine ⟨A, B, fun r hr => ?_⟩
  rw [Coo.entry_bilin, Coo.entry_bilin, plateFkCnum_bilin S G P ha hb F hF,
    cylFkCnum_bilin S G (withR P r) ha hb hr F hF]
  have e : A / r + B / r ^ 2 = (1 / r) * A + (1 / r) ^ 2 * B := by
    rw [one_div_pow, one_div_mul_eq_div, one_div_mul_eq_div]
  rw [add_assoc, e, ← add_assoc, ← h]
  refine gaussP_congr (P := P) fun p _ q _ x y => ?_
  refine work_congr _ (fun s _ => ?_) (fun s _ => ?_) <;>
  · by_cases hNL : NL = 1
    · simp only [if_pos hNL]; exact vkVar_hoop (1 / r) S P s0 c _ s x y
    · simp only [if_neg hNL]; exact lin_hoop (1 / r) S P s0 _ s x y

/-- Internal force: exact dependence on the radius. -/
theorem fint_expansion (S : Shape K) (G : GaussTab K) (P : Panel K) (ha : P.a ≠ 0) (hb : P.b ≠ 0)
    (F : ℕ → ℕ → ℕ → ℕ → K) (hF : ∀ p q, ABDSym (F p q)) (c d : ℕ → K) (s0 nx ny : ℕ) :
    ∃ A B : K, ∀ r, r ≠ 0 →
      vdot (cylFintF S G (withR P r) F c s0 nx ny) d
        = vdot (plateFintF S G P F c s0 nx ny) d + A / r + B / r ^ 2 := by
  obtain ⟨A, B, h⟩ := gaussP_poly G nx ny P F
    (fun s x y => vkWith 2 0 S P s0 c s x y) (fun s x y => hoop S P s0 c x y s)
    (fun s x y => vkVar 0 S P s0 c d s x y) (fun s x y => hoop S P s0 d x y s)
  refine ⟨A, B, fun r hr => ?_⟩
  rw [plateFint_work S G P ha hb F hF, cylFint_work S G (withR P r) ha hb hr F hF]
  have e : A / r + B / r ^ 2 = (1 / r) * A + (1 / r) ^ 2 * B := by
    rw [one_div_pow, one_div_mul_eq_div, one_div_mul_eq_div]
  rw [add_assoc, e, ← add_assoc]
  refine Eq.trans ?_ (h (1 / r))
  refine gaussP_congr (P := P) fun p _ q _ x y => ?_
  exact work_congr (F p q) (fun s _ => vkWith_hoop 2 (1 / r) S P s0 c s x y)
    (fun s _ => vkVar_hoop (1 / r) S P s0 c d s x y)

/-- Quadratic form of the geometric stiffness of a state: the membrane forces are affine in the
curvature. -/
theorem geo_quad (S : Shape K) (G : GaussTab K) (P : Panel K) (ha : P.a ≠ 0) (hb : P.b ≠ 0)
    (F : ℕ → ℕ → ℕ → ℕ → K) (hF : ∀ p q, ABDSym (F p q)) (c : ℕ → K) (s0 nx ny NL : ℕ)
    (N0 N1 N2 : K) (d : ℕ → K) :
    ∃ A : K, ∀ r,
      Coo.quad (Coo.finalizeSym (cylFkGnumF S G (withR P r) F c s0 s0 nx ny NL N0 N1 N2)) d
        = Coo.quad (Coo.finalizeSym (plateFkGnumF S G P F c s0 s0 nx ny NL N0 N1 N2)) d
          + A / r := by
  refine ⟨gaussP G nx ny P fun p q x y =>
    stressDens S P s0 d (resultant (F p q) (hoop S P s0 c x y) 0)
      (resultant (F p q) (hoop S P s0 c x y) 1) (resultant (F p q) (hoop S P s0 c x y) 2) x y,
    fun r => ?_⟩
  rw [plateFkGnum_quad S G P ha hb F hF, cylFkGnum_quad S G (withR P r) ha hb F hF,
    div_eq_mul_one_div _ r, mul_comm _ (1 / r), ← gaussP_smul, ← gaussP_add]
  refine gaussP_congr (P := P) fun p _ q _ x y => ?_
  have key : ∀ t, resultant (F p q) (fun s => if NL = 1 then vkWith 2 (1 / r) S P s0 c s x y
        else lin (1 / r) S P s0 c s x y) t
      = resultant (F p q) (fun s => if NL = 1 then vkWith 2 0 S P s0 c s x y
        else lin 0 S P s0 c s x y) t + 1 / r * resultant (F p q) (hoop S P s0 c x y) t := by
    intro t
    simp only [resultant, Finset.mul_sum, ← Finset.sum_add_distrib]
    refine Finset.sum_congr rfl fun s _ => ?_
    by_cases hNL : NL = 1
    · simp only [if_pos hNL]; rw [vkWith_hoop 2 (1 / r)]; ring
    · simp only [if_neg hNL]; rw [lin_hoop (1 / r)]; ring
  simp only [show (withR P r).r = r from rfl]
  show stressDens S P s0 d (N0 + resultant (F p q) (fun s => if NL = 1
      then vkWith 2 (1 / r) S P s0 c s x y else lin (1 / r) S P s0 c s x y) 0)
    (N1 + resultant (F p q) (fun s => if NL = 1
      then vkWith 2 (1 / r) S P s0 c s x y else lin (1 / r) S P s0 c s x y) 1)
    (N2 + resultant (F p q) (fun s => if NL = 1
      then vkWith 2 (1 / r) S P s0 c s x y else lin (1 / r) S P s0 c s x y) 2) x y = _
  rw [key, key, key]
  simp only [stressDens]
  ring

/-- Geometric stiffness of a state, entry by entry. -/
theorem geo_expansion (S : Shape K) (G : GaussTab K) (P : Panel K) (ha : P.a ≠ 0) (hb : P.b ≠ 0)
    (F : ℕ → ℕ → ℕ → ℕ → K) (hF : ∀ p q, ABDSym (F p q)) (c : ℕ → K) (s0 nx ny NL : ℕ)
    (N0 N1 N2 : K) (i j : ℕ) :
    ∃ A : K, ∀ r,
      Coo.entry (Coo.finalizeSym (cylFkGnumF S G (withR P r) F c s0 s0 nx ny NL N0 N1 N2)) i j
        = Coo.entry (Coo.finalizeSym (plateFkGnumF S G P F c s0 s0 nx ny NL N0 N1 N2)) i j
          + A / r := by
  have h := geo_quad S G P ha hb F hF c s0 nx ny NL N0 N1 N2
  obtain ⟨A, hA⟩ := h fun k => unit i k + 1 * unit j k
  obtain ⟨B, hB⟩ := h (unit i)
  obtain ⟨C, hC⟩ := h (unit j)
  refine ⟨(A - B - C) / 2, fun r => ?_⟩
  apply mul_left_cancel₀ (two_ne_zero (α := K))
  rw [Coo.entry_bilin, Coo.entry_bilin, mul_add, Coo.two_bilin_finalizeSym,
    Coo.two_bilin_finalizeSym, hA, hB, hC]
  have e : ∀ t : K, 2 * (t / 2 / r) = t / r := fun t => by
    rw [div_right_comm, mul_div_cancel₀ _ (two_ne_zero (α := K))]
  rw [e, sub_div, sub_div]; ring

/-- Closed-form stiffness, one term. -/
theorem ana_term (I : Tab K) (P : Panel K) (L : Lam K) (i k j l α β : ℕ)
    (r : K) :
    Gen.CylAna.fk0 I (withR P r) L i k j l α β = Gen.PlateAna.fk0 I P L i k j l α β
      + (1 / r) * ((Gen.CylAna.fk0 I (withR P 1) L i k j l α β
          - Gen.CylAna.fk0 I (withR P (-1)) L i k j l α β) / 2)
      + (1 / r) ^ 2 * ((Gen.CylAna.fk0 I (withR P 1) L i k j l α β
          + Gen.CylAna.fk0 I (withR P (-1)) L i k j l α β) / 2
          - Gen.PlateAna.fk0 I P L i k j l α β) := by
  unfold Gen.CylAna.fk0 Gen.PlateAna.fk0
  split
  · simp only [Gen.CylAna.fk0_00, Gen.PlateAna.fk0_00, withR]; ring
  · simp only [Gen.CylAna.fk0_01, Gen.PlateAna.fk0_01, withR]; ring
  · simp only [Gen.CylAna.fk0_02, Gen.PlateAna.fk0_02, withR]; ring
  · simp only [Gen.CylAna.fk0_10, Gen.PlateAna.fk0_10, withR]; ring
  · simp only [Gen.CylAna.fk0_11, Gen.PlateAna.fk0_11, withR]; ring
  · simp only [Gen.CylAna.fk0_12, Gen.PlateAna.fk0_12, withR]; ring
  · simp only [Gen.CylAna.fk0_20, Gen.PlateAna.fk0_20, withR]; ring
  · simp only [Gen.CylAna.fk0_21, Gen.PlateAna.fk0_21, withR]; ring
  · simp only [Gen.CylAna.fk0_22, Gen.PlateAna.fk0_22, withR]; ring
  · simp

/-- Entries of a builder whose terms are polynomials in `1/r`. -/
theorem build_poly (row0 col0 m n : ℕ) (pat : List (ℕ × ℕ))
    (v vA vB w : ℕ → ℕ → ℕ → ℕ → ℕ → ℕ → K) (r : K) (p q : ℕ)
    (h : ∀ i k j l a b, w i k j l a b
      = v i k j l a b + (1 / r) * vA i k j l a b + (1 / r) ^ 2 * vB i k j l a b) :
    Coo.entry (symBuild row0 col0 m n pat w) p q
      = Coo.entry (symBuild row0 col0 m n pat v) p q
        + Coo.entry (symBuild row0 col0 m n pat vA) p q / r
        + Coo.entry (symBuild row0 col0 m n pat vB) p q / r ^ 2 := by
  rw [entry_symBuild_lin row0 col0 m n pat 1 ((1 / r) ^ 2)
      (fun i k j l a b => v i k j l a b + (1 / r) * vA i k j l a b) vB w
      (fun i k j l a b => by rw [h, one_mul]),
    entry_symBuild_lin row0 col0 m n pat 1 (1 / r) v vA _ (fun i k j l a b => by rw [one_mul])]
  rw [one_mul, one_mul, one_div_pow, one_div_mul_eq_div, one_div_mul_eq_div]

/-- Closed-form stiffness: exact dependence on the radius, any tables, any laminate. -/
theorem ana_expansion (I : Tab K) (P : Panel K) (F : ℕ → ℕ → K) (row0 col0 i j : ℕ) :
    ∃ A B : K, ∀ r,
      Coo.entry (Coo.finalizeSym (cylFk0 I (withR P r) F row0 col0)) i j
        = Coo.entry (Coo.finalizeSym (plateFk0 I P F row0 col0)) i j + A / r + B / r ^ 2 := by
  have key : ∀ p q, ∃ A B : K, ∀ r,
      Coo.entry (cylFk0 I (withR P r) F row0 col0) p q
        = Coo.entry (plateFk0 I P F row0 col0) p q + A / r + B / r ^ 2 := by
    intro p q
    simp only [cylFk0, plateFk0, Coo.entry_pad]
    refine ⟨_, _, fun r => build_poly row0 col0 P.m P.n Gen.PlateAna.fk0_pat
      (Gen.PlateAna.fk0 I P (Lam.ofABD F))
      (fun i k j l α β => (Gen.CylAna.fk0 I (withR P 1) (Lam.ofABD F) i k j l α β
          - Gen.CylAna.fk0 I (withR P (-1)) (Lam.ofABD F) i k j l α β) / 2)
      (fun i k j l α β => (Gen.CylAna.fk0 I (withR P 1) (Lam.ofABD F) i k j l α β
          + Gen.CylAna.fk0 I (withR P (-1)) (Lam.ofABD F) i k j l α β) / 2
          - Gen.PlateAna.fk0 I P (Lam.ofABD F) i k j l α β) _ r p q
      fun i k j l α β => ana_term I P (Lam.ofABD F) i k j l α β r⟩
  simp only [Coo.entry_finalizeSym]
  by_cases h : i ≤ j
  · simpa only [if_pos h] using key i j
  · simpa only [if_neg h] using key j i

/-- Mass, geometric stiffness of prescribed forces, aerodynamic matrices of a `y` flow and
aerodynamic damping: the closed forms are those of the plate, whatever the radius. -/
theorem ana_independent (I : Tab K) (P : Panel K) (r d h rho Nxx Nyy Nxy beta mu : K)
    (row0 col0 : ℕ) :
    cylFkM I (withR P r) d h rho row0 col0 = plateFkM I P d h rho row0 col0 ∧
    cylFkG0 I (withR P r) Nxx Nyy Nxy row0 col0 = plateFkG0 I P Nxx Nyy Nxy row0 col0 ∧
    cylFkAy I (withR P r) beta row0 col0 = plateFkAy I P beta row0 col0 ∧
    cylFcA I (withR P r) mu row0 col0 = plateFcA I P mu row0 col0 :=
  ⟨rfl, rfl, rfl, rfl⟩

/-- The same of the numerical versions; the geometric stiffness without a state (`c = 0`) is
that of the prescribed forces. -/
theorem num_independent (S : Shape K) (G : GaussTab K) (P : Panel K) (r d beta : K)
    (h rho : ℕ → ℕ → K) (row0 col0 nx ny : ℕ) :
    fkMnumF S G (withR P r) d h rho row0 col0 nx ny = fkMnumF S G P d h rho row0 col0 nx ny ∧
    fkAyNum S G (withR P r) beta row0 col0 nx ny = fkAyNum S G P beta row0 col0 nx ny :=
  ⟨rfl, rfl⟩

theorem hoop_zero (S : Shape K) (P : Panel K) (s0 : ℕ) (x y : K) (s : ℕ) :
    hoop S P s0 (fun _ => 0) x y s = 0 := by
  unfold hoop disp
  split <;> simp

/-- Without a state the numerical geometric stiffness does not depend on the radius. -/
theorem geo_independent (S : Shape K) (G : GaussTab K) (P : Panel K) (ha : P.a ≠ 0)
    (hb : P.b ≠ 0) (F : ℕ → ℕ → ℕ → ℕ → K) (hF : ∀ p q, ABDSym (F p q)) (s0 nx ny NL : ℕ)
    (N0 N1 N2 r : K) (i j : ℕ) :
    Coo.entry (Coo.finalizeSym
        (cylFkGnumF S G (withR P r) F (fun _ => 0) s0 s0 nx ny NL N0 N1 N2)) i j
      = Coo.entry (Coo.finalizeSym
        (plateFkGnumF S G P F (fun _ => 0) s0 s0 nx ny NL N0 N1 N2)) i j := by
  have h : ∀ d,
      Coo.quad (Coo.finalizeSym
        (cylFkGnumF S G (withR P r) F (fun _ => 0) s0 s0 nx ny NL N0 N1 N2)) d
      = Coo.quad (Coo.finalizeSym
        (plateFkGnumF S G P F (fun _ => 0) s0 s0 nx ny NL N0 N1 N2)) d := by
    intro d
    rw [plateFkGnum_quad S G P ha hb F hF, cylFkGnum_quad S G (withR P r) ha hb F hF]
    refine gaussP_congr (P := P) fun p _ q _ x y => ?_
    have e : ∀ κ, (fun s => if NL = 1 then vkWith 2 κ S P s0 (fun _ => 0) s x y
        else lin κ S P s0 (fun _ => 0) s x y) = fun s => if NL = 1
          then vkWith 2 0 S P s0 (fun _ => 0) s x y else lin 0 S P s0 (fun _ => 0) s x y := by
      intro κ
      funext s
      rw [vkWith_hoop 2 κ, lin_hoop κ, hoop_zero]; simp
    have e' := e (1 / r)
    show stressDens S P s0 d
      (N0 + resultant (F p q) (fun s => if NL = 1 then vkWith 2 (1 / r) S P s0 (fun _ => 0) s x y
        else lin (1 / r) S P s0 (fun _ => 0) s x y) 0)
      (N1 + resultant (F p q) (fun s => if NL = 1 then vkWith 2 (1 / r) S P s0 (fun _ => 0) s x y
        else lin (1 / r) S P s0 (fun _ => 0) s x y) 1)
      (N2 + resultant (F p q) (fun s => if NL = 1 then vkWith 2 (1 / r) S P s0 (fun _ => 0) s x y
        else lin (1 / r) S P s0 (fun _ => 0) s x y) 2) x y = _
    rw [e']
  apply mul_left_cancel₀ (two_ne_zero (α := K))
  rw [Coo.entry_bilin, Coo.entry_bilin, Coo.two_bilin_finalizeSym, Coo.two_bilin_finalizeSym,
    h, h, h]

end General

/-! ## The limit -/

open Filter Topology

theorem limit_of_expansion {f : ℝ → ℝ} {v : ℝ}
    (h : ∃ A B : ℝ, ∀ r, r ≠ 0 → f r = v + A / r + B / r ^ 2) : Tendsto f atTop (𝓝 v) := by
  obtain ⟨A, B, h⟩ := h
  have h1 : Tendsto (fun r : ℝ => A / r) atTop (𝓝 0) := tendsto_const_nhds.div_atTop tendsto_id
  have h2 : Tendsto (fun r : ℝ => B / r ^ 2) atTop (𝓝 0) :=
    tendsto_const_nhds.div_atTop (tendsto_pow_atTop two_ne_zero)
  have h3 : Tendsto (fun r : ℝ => v + A / r + B / r ^ 2) atTop (𝓝 v) := by
    have := (tendsto_const_nhds (x := v)).add h1 |>.add h2
    simpa using this
  refine h3.congr' ?_
  filter_upwards [eventually_ne_atTop 0] with r hr
  exact (h r hr).symm

/-- Every entry of the closed-form stiffness of the cylindrical shell tends to that of the
plate as the radius grows, for every laminate, all table values and all numbers of terms. -/
theorem ana_limit (I : Tab ℝ) (P : Panel ℝ) (F : ℕ → ℕ → ℝ) (row0 col0 i j : ℕ) :
    Tendsto (fun r => Coo.entry (Coo.finalizeSym (cylFk0 I { P with r := r } F row0 col0)) i j)
      atTop (𝓝 (Coo.entry (Coo.finalizeSym (plateFk0 I P F row0 col0)) i j)) := by
  obtain ⟨A, B, h⟩ := ana_expansion I P F row0 col0 i j
  exact limit_of_expansion ⟨A, B, fun r _ => h r⟩

/-- Numerical stiffness, linear and tangent, any sub-domain and any laminates at the points. -/
theorem num_limit (S : Shape ℝ) (G : GaussTab ℝ) (P : Panel ℝ) (ha : P.a ≠ 0) (hb : P.b ≠ 0)
    (F : ℕ → ℕ → ℕ → ℕ → ℝ) (hF : ∀ p q, ABDSym (F p q)) (c : ℕ → ℝ) (s0 nx ny NL i j : ℕ) :
    Tendsto (fun r => Coo.entry (Coo.finalizeSym
        (cylFkCnumF S G { P with r := r } F c s0 s0 nx ny NL)) i j)
      atTop (𝓝 (Coo.entry (Coo.finalizeSym (plateFkCnumF S G P F c s0 s0 nx ny NL)) i j)) :=
  limit_of_expansion (num_expansion S G P ha hb F hF c s0 nx ny NL i j)

/-- Geometric stiffness of a state. -/
theorem geo_limit (S : Shape ℝ) (G : GaussTab ℝ) (P : Panel ℝ) (ha : P.a ≠ 0) (hb : P.b ≠ 0)
    (F : ℕ → ℕ → ℕ → ℕ → ℝ) (hF : ∀ p q, ABDSym (F p q)) (c : ℕ → ℝ) (s0 nx ny NL : ℕ)
    (N0 N1 N2 : ℝ) (i j : ℕ) :
    Tendsto (fun r => Coo.entry (Coo.finalizeSym
        (cylFkGnumF S G { P with r := r } F c s0 s0 nx ny NL N0 N1 N2)) i j)
      atTop (𝓝 (Coo.entry (Coo.finalizeSym
        (plateFkGnumF S G P F c s0 s0 nx ny NL N0 N1 N2)) i j)) := by
  obtain ⟨A, h⟩ := geo_expansion S G P ha hb F hF c s0 nx ny NL N0 N1 N2 i j
  exact limit_of_expansion ⟨A, 0, fun r _ => by rw [zero_div, add_zero]; exact h r⟩

/-- Every component of the internal force. -/
theorem fint_limit (S : Shape ℝ) (G : GaussTab ℝ) (P : Panel ℝ) (ha : P.a ≠ 0) (hb : P.b ≠ 0)
    (F : ℕ → ℕ → ℕ → ℕ → ℝ) (hF : ∀ p q, ABDSym (F p q)) (c : ℕ → ℝ) (s0 nx ny i : ℕ) :
    Tendsto (fun r => vget (cylFintF S G { P with r := r } F c s0 nx ny) i)
      atTop (𝓝 (vget (plateFintF S G P F c s0 nx ny) i)) := by
  simp only [← C17.vdot_single]
  exact limit_of_expansion (fint_expansion S G P ha hb F hF c _ s0 nx ny)

/-- At a finite radius the shell is not the plate: a `1 × 1`-term panel with unit tables and a
unit membrane stiffness has `kC[w, w]` equal to 1/4 at `r = 1` and 0 for the plate. -/
theorem finite_radius :
    let I : Tab ℚ := { ff := fun _ _ _ _ => 1, ffp := fun _ _ _ _ => 0,
                       ffpp := fun _ _ _ _ => 0, fpfp := fun _ _ _ _ => 0,
                       fpfpp := fun _ _ _ _ => 0, fppfpp := fun _ _ _ _ => 0 }
    let F : ℕ → ℕ → ℚ := fun s t => if s = 1 ∧ t = 1 then 1 else 0
    ∃ P : Panel ℚ, P.r = 1 ∧
      Coo.entry (Coo.finalizeSym (cylFk0 I P F 0 0)) 2 2 = 1 / 4 ∧
      Coo.entry (Coo.finalizeSym (plateFk0 I P F 0 0)) 2 2 = 0 := by
  refine ⟨{ a := 1, b := 1, r := 1, m := 1, n := 1, x1 := -1, x2 := -1, y1 := -1, y2 := -1,
            xu := ⟨1, 1, 1, 1⟩, xv := ⟨1, 1, 1, 1⟩, xw := ⟨1, 1, 1, 1⟩,
            yu := ⟨1, 1, 1, 1⟩, yv := ⟨1, 1, 1, 1⟩, yw := ⟨1, 1, 1, 1⟩ }, rfl, ?_, ?_⟩
  · decide +kernel
  · decide +kernel

example (i j : ℕ) : let I := Tab.of (bardellShape ℝ) Mean.integral
    Tendsto (fun r => Coo.entry (Coo.finalizeSym
        (cylFk0 I { Witness.panel with r := r } Witness.abd 12 12)) i j)
      atTop (𝓝 (Coo.entry (Coo.finalizeSym (plateFk0 I Witness.panel Witness.abd 12 12)) i j)) :=
  ana_limit _ _ _ 12 12 i j

example (G : GaussTab ℝ) (c : ℕ → ℝ) (i j : ℕ) :
    Tendsto (fun r => Coo.entry (Coo.finalizeSym (cylFkCnumF (bardellShape ℝ) G
        { Witness.panel with r := r } (fun _ _ => Witness.abd) c 12 12 6 8 1)) i j)
      atTop (𝓝 (Coo.entry (Coo.finalizeSym (plateFkCnumF (bardellShape ℝ) G Witness.panel
        (fun _ _ => Witness.abd) c 12 12 6 8 1)) i j)) :=
  num_limit _ G Witness.panel (by simp [Witness.panel]) (by simp [Witness.panel]) _
    (fun _ _ => Witness.abd_sym) c 12 6 8 1 i j

example (G : GaussTab ℝ) (c : ℕ → ℝ) (i : ℕ) :
    Tendsto (fun r => vget (cylFintF (bardellShape ℝ) G { Witness.panel with r := r }
        (fun _ _ => Witness.abd) c 12 6 8) i)
      atTop (𝓝 (vget (plateFintF (bardellShape ℝ) G Witness.panel
        (fun _ _ => Witness.abd) c 12 6 8) i)) :=
  fint_limit _ G Witness.panel (by simp [Witness.panel]) (by simp [Witness.panel]) _
    (fun _ _ => Witness.abd_sym) c 12 6 8 i

end Verif.C12
