import Verif.Proofs.VonKarman

/-!
# Bilinear forms of the finalised matrices; expansion of the internal force
-/

set_option linter.unusedSectionVars false

namespace Verif

open Finset

namespace Coo

variable {K : Type*} [Field K]

theorem bilin_finalizeSym_comm (L : Coo K) (x y : ℕ → K) :
    bilin (finalizeSym L) x y = bilin (finalizeSym L) y x := by
  induction L with
  | nil => rfl
  | cons t L ih =>
    simp only [finalizeSym, bilin_append] at ih ⊢
    rcases lt_trichotomy t.row t.col with h | h | h
    · have h1 : t.row ≤ t.col := h.le
      simp only [List.filter_cons, h1, h, decide_true, if_true, bilin_cons, List.map_cons]
      linear_combination ih
    · have h1 : t.row ≤ t.col := h.le
      have h2 : ¬ t.row < t.col := by omega
      simp only [List.filter_cons, h1, h2, decide_true, decide_false, if_true, bilin_cons,
        if_false, Bool.false_eq_true]
      simp only [h]
      linear_combination ih
    · have h1 : ¬ t.row ≤ t.col := by omega
      have h2 : ¬ t.row < t.col := by omega
      simp only [List.filter_cons, h1, h2, decide_false, if_false, Bool.false_eq_true]
      exact ih

theorem bilin_add_left (L : Coo K) (x x' y : ℕ → K) (t : K) :
    bilin L (fun k => x k + t * x' k) y = bilin L x y + t * bilin L x' y := by
  induction L with
  | nil => simp
  | cons a L ih => simp only [bilin_cons, ih]; ring

theorem bilin_add_right (L : Coo K) (x y y' : ℕ → K) (t : K) :
    bilin L x (fun k => y k + t * y' k) = bilin L x y + t * bilin L x y' := by
  induction L with
  | nil => simp
  | cons a L ih => simp only [bilin_cons, ih]; ring

/-- Polarisation. -/
theorem two_bilin_finalizeSym (L : Coo K) (x y : ℕ → K) :
    2 * bilin (finalizeSym L) x y = quad (finalizeSym L) (fun k => x k + 1 * y k)
      - quad (finalizeSym L) x - quad (finalizeSym L) y := by
  unfold quad
  rw [bilin_add_left, bilin_add_right, bilin_add_right, bilin_finalizeSym_comm L y x]
  ring

end Coo

namespace Spec

variable {K : Type*} [Field K] [CharZero K] [DecidableEq K]

theorem gaussP_add (G : GaussTab K) (nx ny : ℕ) (P : Panel K) (f g : ℕ → ℕ → K → K → K) :
    gaussP G nx ny P (fun p q x y => f p q x y + g p q x y)
      = gaussP G nx ny P f + gaussP G nx ny P g := by
  simp only [gaussP, gauss, mul_add, Finset.sum_add_distrib]

theorem gaussP_smul (G : GaussTab K) (nx ny : ℕ) (P : Panel K) (t : K)
    (g : ℕ → ℕ → K → K → K) :
    gaussP G nx ny P (fun p q x y => t * g p q x y) = t * gaussP G nx ny P g := by
  simp only [gaussP, gauss, Finset.mul_sum]
  exact Finset.sum_congr rfl fun p _ => Finset.sum_congr rfl fun q _ => by ring

/-- `∑ₛ σ(e')ₛ eₛ`: work of the stresses of `e'` on `e`. -/
def work (F : ℕ → ℕ → K) (e' e : ℕ → K) : K := ∑ s ∈ range 6, resultant F e' s * e s

theorem work_add_left (F : ℕ → ℕ → K) (e f g : ℕ → K) (t : K) :
    work F (fun s => e s + t * f s) g = work F e g + t * work F f g := by
  simp only [work, resultant, Finset.sum_range_succ, Finset.sum_range_zero]; ring

theorem work_add_right (F : ℕ → ℕ → K) (e f g : ℕ → K) (t : K) :
    work F e (fun s => f s + t * g s) = work F e f + t * work F e g := by
  simp only [work, resultant, Finset.sum_range_succ, Finset.sum_range_zero]; ring

theorem work_symm (F : ℕ → ℕ → K) (hF : ∀ s t, F s t = F t s) (e f : ℕ → K) :
    work F e f = work F f e := by
  simp only [work, resultant, Finset.sum_mul]
  rw [Finset.sum_comm]
  exact Finset.sum_congr rfl fun s _ => Finset.sum_congr rfl fun t _ => by rw [hF]; ring

theorem work_congr (F : ℕ → ℕ → K) {e e' f f' : ℕ → K} (h : ∀ s < 6, e s = e' s)
    (h' : ∀ s < 6, f s = f' s) : work F e f = work F e' f' :=
  Finset.sum_congr rfl fun s hs => by
    rw [h' s (mem_range.1 hs), resultant_congr F e e' h]

theorem dens_work (F : ℕ → ℕ → K) (e : ℕ → K) : Spec.dens 6 F e = work F e e := by
  simp only [work, resultant, Spec.dens, Finset.sum_mul]
  exact Finset.sum_congr rfl fun s _ => Finset.sum_congr rfl fun t _ => by ring

/-- Bilinear form from the quadratic form of the strains. -/
theorem bilin_of_quad (L : Coo K) (G : GaussTab K) (nx ny : ℕ) (P : Panel K)
    (F : ℕ → ℕ → ℕ → ℕ → K) (hF : ∀ p q s t, F p q s t = F p q t s)
    (E : (ℕ → K) → ℕ → K → K → K)
    (hE : ∀ d e s x y, E (fun k => d k + 1 * e k) s x y = E d s x y + 1 * E e s x y)
    (hq : ∀ d, Coo.quad (Coo.finalizeSym L) d
      = gaussP G nx ny P fun p q x y => Spec.dens 6 (F p q) fun s => E d s x y) (d e : ℕ → K) :
    Coo.bilin (Coo.finalizeSym L) d e = gaussP G nx ny P fun p q x y =>
      work (F p q) (fun s => E e s x y) (fun s => E d s x y) := by
  have h2 : (2 : K) ≠ 0 := two_ne_zero
  apply mul_left_cancel₀ h2
  rw [Coo.two_bilin_finalizeSym, hq, hq, hq, ← gaussP_smul]
  have : ∀ p q x y, (Spec.dens 6 (F p q) fun s => E (fun k => d k + 1 * e k) s x y)
      = (Spec.dens 6 (F p q) fun s => E d s x y) + (Spec.dens 6 (F p q) fun s => E e s x y)
        + 2 * work (F p q) (fun s => E e s x y) (fun s => E d s x y) := by
    intro p q x y
    simp only [dens_work, hE, work_add_left, work_add_right]
    rw [work_symm (F p q) (hF p q) (fun s => E d s x y) (fun s => E e s x y)]
    ring
  simp only [this, gaussP_add]
  ring

theorem vkVar_add (κ : K) (S : Shape K) (P : Panel K) (s0 : ℕ) (c d e : ℕ → K) (t : K)
    (s : ℕ) (x y : K) : vkVar κ S P s0 c (fun k => d k + t * e k) s x y
      = vkVar κ S P s0 c d s x y + t * vkVar κ S P s0 c e s x y := by
  match s with
  | 0 => simp only [vkVar, lin_add, disp_add]; ring
  | 1 => simp only [vkVar, lin_add, disp_add]; ring
  | 2 => simp only [vkVar, lin_add, disp_add]; ring
  | s + 3 => simp only [vkVar, lin_add]; ring

/-- Second variation of the von Karman strains. -/
def vkSec (S : Shape K) (P : Panel K) (s0 : ℕ) (d e : ℕ → K) (s : ℕ) (x y : K) : K :=
  let D := fun p q => disp S P s0 d 2 p q (2 / P.a * x - 1) (2 / P.b * y - 1)
  let E := fun p q => disp S P s0 e 2 p q (2 / P.a * x - 1) (2 / P.b * y - 1)
  match s with
  | 0 => E 1 0 * D 1 0
  | 1 => E 0 1 * D 0 1
  | 2 => E 1 0 * D 0 1 + E 0 1 * D 1 0
  | _ => 0

theorem vkVar_state (κ : K) (S : Shape K) (P : Panel K) (s0 : ℕ) (c d e : ℕ → K) (t : K)
    (s : ℕ) (x y : K) : vkVar κ S P s0 (fun k => c k + t * e k) d s x y
      = vkVar κ S P s0 c d s x y + t * vkSec S P s0 d e s x y := by
  match s with
  | 0 => simp only [vkVar, vkSec, disp_add]; ring
  | 1 => simp only [vkVar, vkSec, disp_add]; ring
  | 2 => simp only [vkVar, vkSec, disp_add]; ring
  | s + 3 => simp only [vkVar, vkSec]; ring

theorem plateFkCnum_bilin (S : Shape K) (G : GaussTab K) (P : Panel K) (ha : P.a ≠ 0)
    (hb : P.b ≠ 0) (F : ℕ → ℕ → ℕ → ℕ → K) (hF : ∀ p q, ABDSym (F p q)) (c d e : ℕ → K)
    (s0 nx ny NL : ℕ) :
    Coo.bilin (Coo.finalizeSym (Model.plateFkCnumF S G P F c s0 s0 nx ny NL)) d e
      = gaussP G nx ny P fun p q x y => work (F p q)
          (fun s => if NL = 1 then vkVar 0 S P s0 c e s x y else lin 0 S P s0 e s x y)
          (fun s => if NL = 1 then vkVar 0 S P s0 c d s x y else lin 0 S P s0 d s x y) := by
  refine bilin_of_quad _ G nx ny P F (fun p q => (hF p q).symm)
    (fun d s x y => if NL = 1 then vkVar 0 S P s0 c d s x y else lin 0 S P s0 d s x y) ?_ ?_ d e
  · intro d e s x y
    split
    · exact vkVar_add 0 S P s0 c d e 1 s x y
    · exact lin_add 0 S P s0 d e 1 s x y
  · exact fun d => plateFkCnum_quad S G P ha hb F hF c d s0 nx ny NL

theorem cylFkCnum_bilin (S : Shape K) (G : GaussTab K) (P : Panel K) (ha : P.a ≠ 0)
    (hb : P.b ≠ 0) (hr : P.r ≠ 0) (F : ℕ → ℕ → ℕ → ℕ → K) (hF : ∀ p q, ABDSym (F p q))
    (c d e : ℕ → K) (s0 nx ny NL : ℕ) :
    Coo.bilin (Coo.finalizeSym (Model.cylFkCnumF S G P F c s0 s0 nx ny NL)) d e
      = gaussP G nx ny P fun p q x y => work (F p q)
          (fun s => if NL = 1 then vkVar (1 / P.r) S P s0 c e s x y
            else lin (1 / P.r) S P s0 e s x y)
          (fun s => if NL = 1 then vkVar (1 / P.r) S P s0 c d s x y
            else lin (1 / P.r) S P s0 d s x y) := by
  refine bilin_of_quad _ G nx ny P F (fun p q => (hF p q).symm)
    (fun d s x y => if NL = 1 then vkVar (1 / P.r) S P s0 c d s x y
      else lin (1 / P.r) S P s0 d s x y) ?_ ?_ d e
  · intro d e s x y
    split
    · exact vkVar_add (1 / P.r) S P s0 c d e 1 s x y
    · exact lin_add (1 / P.r) S P s0 d e 1 s x y
  · exact fun d => cylFkCnum_quad S G P ha hb hr F hF c d s0 nx ny NL

/-- Bilinear form of the initial stresses: `∑ₛ Nₛ δ²εₛ`. -/
theorem stressDens_add (S : Shape K) (P : Panel K) (s0 : ℕ) (d e : ℕ → K) (N0 N1 N2 x y : K) :
    stressDens S P s0 (fun k => d k + 1 * e k) N0 N1 N2 x y
      = stressDens S P s0 d N0 N1 N2 x y + stressDens S P s0 e N0 N1 N2 x y
        + 2 * (N0 * vkSec S P s0 d e 0 x y + N1 * vkSec S P s0 d e 1 x y
          + N2 * vkSec S P s0 d e 2 x y) := by
  simp only [stressDens, disp_add, vkSec]; ring

theorem plateFkGnum_bilin (S : Shape K) (G : GaussTab K) (P : Panel K) (ha : P.a ≠ 0)
    (hb : P.b ≠ 0) (F : ℕ → ℕ → ℕ → ℕ → K) (hF : ∀ p q, ABDSym (F p q)) (c d e : ℕ → K)
    (s0 nx ny : ℕ) :
    Coo.bilin (Coo.finalizeSym (Model.plateFkGnumF S G P F c s0 s0 nx ny 1 0 0 0)) d e
      = gaussP G nx ny P fun p q x y => work (F p q) (fun s => vkWith 2 0 S P s0 c s x y)
          (fun s => vkSec S P s0 d e s x y) := by
  apply mul_left_cancel₀ (two_ne_zero (α := K))
  rw [Coo.two_bilin_finalizeSym, plateFkGnum_quad S G P ha hb F hF, plateFkGnum_quad S G P ha hb F hF,
    plateFkGnum_quad S G P ha hb F hF, ← gaussP_smul]
  simp only [stressDens_add, gaussP_add, zero_add, if_true]
  have hc : ∀ A B C : K, A + B + C - A - B = C := fun A B C => by ring
  rw [hc]
  refine gaussP_congr fun p _ q _ x y => ?_
  simp only [work, Finset.sum_range_succ, Finset.sum_range_zero, vkSec]; ring

theorem cylFkGnum_bilin (S : Shape K) (G : GaussTab K) (P : Panel K) (ha : P.a ≠ 0)
    (hb : P.b ≠ 0) (F : ℕ → ℕ → ℕ → ℕ → K) (hF : ∀ p q, ABDSym (F p q)) (c d e : ℕ → K)
    (s0 nx ny : ℕ) :
    Coo.bilin (Coo.finalizeSym (Model.cylFkGnumF S G P F c s0 s0 nx ny 1 0 0 0)) d e
      = gaussP G nx ny P fun p q x y => work (F p q)
          (fun s => vkWith 2 (1 / P.r) S P s0 c s x y)
          (fun s => vkSec S P s0 d e s x y) := by
  apply mul_left_cancel₀ (two_ne_zero (α := K))
  rw [Coo.two_bilin_finalizeSym, cylFkGnum_quad S G P ha hb F hF, cylFkGnum_quad S G P ha hb F hF,
    cylFkGnum_quad S G P ha hb F hF, ← gaussP_smul]
  simp only [stressDens_add, gaussP_add, zero_add, if_true]
  have hc : ∀ A B C : K, A + B + C - A - B = C := fun A B C => by ring
  rw [hc]
  refine gaussP_congr fun p _ q _ x y => ?_
  simp only [work, Finset.sum_range_succ, Finset.sum_range_zero, vkSec]; ring

/-- Expansion of the virtual work of the internal force along a line of states. -/
theorem fint_line (G : GaussTab K) (nx ny : ℕ) (P : Panel K) (F : ℕ → ℕ → ℕ → ℕ → K)
    (g κ : K) (S : Shape K) (s0 : ℕ) (c d e : ℕ → K) (t : K) :
    (gaussP G nx ny P fun p q x y => work (F p q)
        (fun s => vkWith g κ S P s0 (fun k => c k + t * e k) s x y)
        (fun s => vkVar κ S P s0 (fun k => c k + t * e k) d s x y))
      = (gaussP G nx ny P fun p q x y => work (F p q) (fun s => vkWith g κ S P s0 c s x y)
          (fun s => vkVar κ S P s0 c d s x y))
        + t * (gaussP G nx ny P fun p q x y =>
            work (F p q) (fun s => vkVarWith g κ S P s0 c e s x y)
              (fun s => vkVar κ S P s0 c d s x y)
            + work (F p q) (fun s => vkWith g κ S P s0 c s x y)
              (fun s => vkSec S P s0 d e s x y))
        + t ^ 2 * (gaussP G nx ny P fun p q x y =>
            work (F p q) (fun s => vkVarWith g κ S P s0 c e s x y)
              (fun s => vkSec S P s0 d e s x y)
            + work (F p q) (fun s => vkWith g κ S P s0 e s x y - lin κ S P s0 e s x y)
              (fun s => vkVar κ S P s0 c d s x y))
        + t ^ 3 * (gaussP G nx ny P fun p q x y =>
            work (F p q) (fun s => vkWith g κ S P s0 e s x y - lin κ S P s0 e s x y)
              (fun s => vkSec S P s0 d e s x y)) := by
  simp only [← gaussP_smul, ← gaussP_add]
  refine gaussP_congr fun p _ q _ x y => ?_
  have h1 : (fun s => vkWith g κ S P s0 (fun k => c k + t * e k) s x y)
      = fun s => (vkWith g κ S P s0 c s x y + t * vkVarWith g κ S P s0 c e s x y)
        + t ^ 2 * (vkWith g κ S P s0 e s x y - lin κ S P s0 e s x y) :=
    funext fun s => vkWith_add g κ S P s0 c e t s x y
  have h2 : (fun s => vkVar κ S P s0 (fun k => c k + t * e k) d s x y)
      = fun s => vkVar κ S P s0 c d s x y + t * vkSec S P s0 d e s x y :=
    funext fun s => vkVar_state κ S P s0 c d e t s x y
  rw [h1, h2]
  simp only [work_add_left, work_add_right]
  ring

end Spec
end Verif
