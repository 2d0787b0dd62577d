import Verif.Model.Builders
import Verif.Proofs.AnaEntries
import Verif.Proofs.PatZero

/-!
# Energies of the analytical builders (geometric stiffness and mass)
-/

namespace Verif

open Finset

variable {K : Type*} [Field K]

theorem applyB_slope (S : Shape K) (P : Panel K) (s0 : ℕ) (c : ℕ → K) (ξ η : K) :
    applyB S P s0 c (slopeB P.a P.b) 0 ξ η = Spec.disp S P s0 c 2 1 0 ξ η ∧
    applyB S P s0 c (slopeB P.a P.b) 1 ξ η = Spec.disp S P s0 c 2 0 1 ξ η := by
  constructor <;>
  · rw [applyB_eq]
    simp only [disp_eq, slopeB, Finset.sum_range_succ, Finset.sum_range_zero]
    simp

theorem dens_slope (Nxx Nyy Nxy : K) (e : ℕ → K) :
    Spec.dens 2 (memN Nxx Nyy Nxy) e
      = Nxx * e 0 ^ 2 + 2 * Nxy * (e 0 * e 1) + Nyy * e 1 ^ 2 := by
  simp only [Spec.dens, Finset.sum_range_succ, Finset.sum_range_zero, memN]; ring

theorem memN_symm (Nxx Nyy Nxy : K) (s t : ℕ) : memN Nxx Nyy Nxy s t = memN Nxx Nyy Nxy t s := by
  match s, t with
  | 0, 0 => rfl
  | 0, 1 => rfl
  | 1, 0 => rfl
  | 1, 1 => rfl
  | 0, _ + 2 => rfl
  | 1, _ + 2 => rfl
  | _ + 2, 0 => rfl
  | _ + 2, 1 => rfl
  | _ + 2, _ + 2 => rfl

theorem inertia_symm (m0 m2 : K) (s t : ℕ) : inertia m0 m2 s t = inertia m0 m2 t s := by
  rcases Nat.lt_or_ge s 5 with hs | hs
  · rcases Nat.lt_or_ge t 5 with ht | ht
    · interval_cases s <;> interval_cases t <;> rfl
    · obtain ⟨t, rfl⟩ := Nat.exists_eq_add_of_le' ht
      interval_cases s <;> rfl
  · obtain ⟨s, rfl⟩ := Nat.exists_eq_add_of_le' hs
    rcases Nat.lt_or_ge t 5 with ht | ht
    · interval_cases t <;> rfl
    · obtain ⟨t, rfl⟩ := Nat.exists_eq_add_of_le' ht
      rfl

theorem applyB_mass (S : Shape K) (P : Panel K) (s0 : ℕ) (c : ℕ → K) (d ξ η : K) :
    applyB S P s0 c (massB P.a P.b d) 0 ξ η
      = Spec.disp S P s0 c 0 0 0 ξ η + d * Spec.disp S P s0 c 2 1 0 ξ η ∧
    applyB S P s0 c (massB P.a P.b d) 1 ξ η
      = Spec.disp S P s0 c 1 0 0 ξ η + d * Spec.disp S P s0 c 2 0 1 ξ η ∧
    applyB S P s0 c (massB P.a P.b d) 2 ξ η = Spec.disp S P s0 c 2 0 0 ξ η ∧
    applyB S P s0 c (massB P.a P.b d) 3 ξ η = Spec.disp S P s0 c 2 1 0 ξ η ∧
    applyB S P s0 c (massB P.a P.b d) 4 ξ η = Spec.disp S P s0 c 2 0 1 ξ η := by
  refine ⟨?_, ?_, ?_, ?_, ?_⟩ <;> rw [applyB_eq] <;>
    simp only [disp_eq, massB, Finset.sum_range_succ, Finset.sum_range_zero,
      ← Finset.sum_add_distrib, Finset.mul_sum] <;>
    exact Finset.sum_congr rfl fun A _ => by ring

theorem dens_mass (m0 m2 : K) (e : ℕ → K) :
    Spec.dens 5 (inertia m0 m2) e
      = m0 * (e 0 ^ 2 + e 1 ^ 2 + e 2 ^ 2) + m2 * (e 3 ^ 2 + e 4 ^ 2) := by
  simp only [Spec.dens, Finset.sum_range_succ, Finset.sum_range_zero, inertia]; ring

end Verif
