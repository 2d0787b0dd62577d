import Verif.Spec.Exchange
import Verif.Spec.RealField
import Verif.Proofs.Mirror
import Verif.Proofs.VonKarman
import Mathlib.MeasureTheory.Integral.Prod
import Mathlib.MeasureTheory.Integral.IntervalIntegral.Basic

/-!
# Numbers, fields and integrals with the axes exchanged
-/

set_option linter.unusedSectionVars false

namespace Verif

open Finset Spec Model

variable {K : Type*} [Field K]

/-! ## Numbers -/

theorem other_other (α : ℕ) : other (other α) = α := by
  match α with
  | 0 => rfl
  | 1 => rfl
  | α + 2 => rfl

theorem other_lt {α : ℕ} (h : α < 3) : other α < 3 := by
  interval_cases α <;> decide

theorem pair_pair (s : ℕ) : pair (pair s) = s := by
  match s with
  | 0 => rfl
  | 1 => rfl
  | 2 => rfl
  | 3 => rfl
  | 4 => rfl
  | s + 5 => rfl

theorem pair_lt {s : ℕ} (h : s < 6) : pair s < 6 := by
  interval_cases s <;> decide

section
variable {m n s i j α : ℕ}

theorem flipNo_number (hi : i < m) (hj : j < n) (hα : α < 3) :
    flipNo m n s (s + 3 * (j * m + i) + α) = s + 3 * (i * n + j) + other α := by
  obtain ⟨h1, h2, h3⟩ := split_number (s := s) (j := j) hi hα
  rw [flipNo, if_pos ⟨by omega, number_lt hi hj hα⟩, h1, h2, h3]

theorem flipNo_flipNo (k : ℕ) : flipNo n m s (flipNo m n s k) = k := by
  by_cases hk : s ≤ k ∧ k < s + 3 * (m * n)
  · obtain ⟨i, hi, j, hj, α, hα, rfl⟩ := exists_number (Finset.mem_Ico.2 hk)
    unfold Spec.number
    rw [flipNo_number hi hj hα, flipNo_number hj hi (other_lt hα), other_other]
  · have e : flipNo m n s k = k := if_neg hk
    rw [e, flipNo, if_neg (mul_comm m n ▸ hk)]

theorem flip_flip (c : ℕ → K) : flipped n m s (flipped m n s c) = c := by
  funext k
  unfold flipped
  rw [flipNo_flipNo]

end

/-! ## Fields -/

section
variable [DecidableEq K] {S : Shape K} {P P' : Panel K}

theorem disp_flip (h : Exchanged P P') (s : ℕ) (c : ℕ → K) {α : ℕ} (hα : α < 3) (p q : ℕ) (ξ η : K) :
    disp S P' s (flipped P.m P.n s c) α p q ξ η = disp S P s c (other α) q p η ξ := by
  unfold disp
  rw [h.m, h.n, h.a, h.b, h.xf, h.yf, Finset.sum_comm, mul_comm ((2 / P.b) ^ p)]
  refine congrArg _ (Finset.sum_congr rfl fun j hj => Finset.sum_congr rfl fun i hi => ?_)
  rw [flipped, flipNo_number (mem_range.1 hi) (mem_range.1 hj) hα, mul_comm (S.D p i ξ _)]

/-- At physical points. -/
theorem disp_at (h : Exchanged P P') (s : ℕ) (c : ℕ → K) {α : ℕ} (hα : α < 3) (p q : ℕ) (x y : K) :
    disp S P' s (flipped P.m P.n s c) α p q (2 / P'.a * y - 1) (2 / P'.b * x - 1)
      = disp S P s c (other α) q p (2 / P.a * x - 1) (2 / P.b * y - 1) := by
  rw [h.a, h.b, disp_flip h s c hα]

theorem lin_flip (h : Exchanged P P') (s0 : ℕ) (c : ℕ → K) {s : ℕ} (hs : s < 6) (x y : K) :
    lin 0 S P' s0 (flipped P.m P.n s0 c) s y x = lin 0 S P s0 c (pair s) x y := by
  have hd := fun {α p q} (hα : α < 3) => disp_at (S := S) h s0 c (α := α) hα p q x y
  interval_cases s <;> simp only [lin, pair, zero_mul, add_zero] <;>
    simp only [hd (α := 0) (by omega), hd (α := 1) (by omega), hd (α := 2) (by omega), other]
  ring

theorem vkVar_flip (h : Exchanged P P') (s0 : ℕ) (c d : ℕ → K) {s : ℕ} (hs : s < 6) (x y : K) :
    vkVar 0 S P' s0 (flipped P.m P.n s0 c) (flipped P.m P.n s0 d) s y x = vkVar 0 S P s0 c d (pair s) x y := by
  have hd := fun (c : ℕ → K) {p q} => disp_at (S := S) h s0 c (α := 2) (by omega) p q x y
  have hl := lin_flip (S := S) h s0 d hs x y
  unfold vkVar
  rw [hl]
  interval_cases s <;> simp only [pair, hd, other]
  ring

theorem vkWith_flip (h : Exchanged P P') (g : K) (s0 : ℕ) (c : ℕ → K) {s : ℕ} (hs : s < 6) (x y : K) :
    vkWith g 0 S P' s0 (flipped P.m P.n s0 c) s y x = vkWith g 0 S P s0 c (pair s) x y := by
  have hd := fun (c : ℕ → K) {p q} => disp_at (S := S) h s0 c (α := 2) (by omega) p q x y
  have hl := lin_flip (S := S) h s0 c hs x y
  unfold vkWith
  rw [hl]
  interval_cases s <;> simp only [pair, hd, other]
  ring

end

/-! ## Laminates -/

theorem sum_pair {M : Type*} [AddCommMonoid M] (g : ℕ → M) : ∑ s ∈ range 6, g (pair s) = ∑ s ∈ range 6, g s :=
  Finset.sum_nbij' pair pair (fun _ h => mem_range.2 (pair_lt (mem_range.1 h)))
    (fun _ h => mem_range.2 (pair_lt (mem_range.1 h))) (fun s _ => pair_pair s) (fun s _ => pair_pair s)
    fun _ _ => rfl

theorem flipLam_sym {F : ℕ → ℕ → K} (hF : ABDSym F) : ABDSym (flipLam F) :=
  ⟨fun _ _ => hF.symm _ _, hF.b12.symm, hF.b26, hF.b16⟩

theorem dens_flip (F : ℕ → ℕ → K) {e e' : ℕ → K} (h : ∀ s < 6, e' s = e (pair s)) :
    dens 6 (flipLam F) e' = dens 6 F e := by
  unfold Spec.dens
  rw [← sum_pair fun s => ∑ t ∈ range 6, F s t * e s * e t]
  refine Finset.sum_congr rfl fun s hs => ?_
  rw [← sum_pair fun t => F (pair s) t * e (pair s) * e t]
  refine Finset.sum_congr rfl fun t ht => ?_
  rw [h s (mem_range.1 hs), h t (mem_range.1 ht), flipLam]

theorem resultant_flip (F : ℕ → ℕ → K) {e e' : ℕ → K} (h : ∀ s < 6, e' s = e (pair s)) (s : ℕ) :
    resultant (flipLam F) e' s = resultant F e (pair s) := by
  unfold resultant
  rw [← sum_pair fun t => F (pair s) t * e t]
  refine Finset.sum_congr rfl fun t ht => ?_
  rw [h t (mem_range.1 ht), flipLam]

/-! ## Integrals -/

theorem gaussP_flip [DecidableEq K] {P P' : Panel K} (h : Exchanged P P') {G : GaussTab K} {nx ny : ℕ}
    {g g' : ℕ → ℕ → K → K → K} (hg : ∀ p q x y, g' q p y x = g p q x y) :
    gaussP G ny nx P' g' = gaussP G nx ny P g := by
  unfold gaussP gauss
  rw [h.xdom, h.ydom, Finset.sum_comm]
  refine Finset.sum_congr rfl fun p _ => Finset.sum_congr rfl fun q _ => ?_
  rw [hg]
  ring

open MeasureTheory in
theorem integral_flip {g : ℝ → ℝ → ℝ} (hg : Continuous fun p : ℝ × ℝ => g p.1 p.2) (a b : ℝ) :
    ∫ x in (0 : ℝ)..a, ∫ y in (0 : ℝ)..b, g x y = ∫ y in (0 : ℝ)..b, ∫ x in (0 : ℝ)..a, g x y := by
  have key : ∫ x in Set.uIoc 0 a, ∫ y in Set.uIoc 0 b, g x y
      = ∫ y in Set.uIoc 0 b, ∫ x in Set.uIoc 0 a, g x y := by
    refine integral_integral_swap ?_
    rw [Measure.prod_restrict]
    have : IntegrableOn (Function.uncurry g) (Set.uIcc 0 a ×ˢ Set.uIcc 0 b) (volume.prod volume) :=
      hg.continuousOn.integrableOn_compact (isCompact_uIcc.prod isCompact_uIcc)
    exact this.mono_set (Set.prod_mono Set.uIoc_subset_uIcc Set.uIoc_subset_uIcc)
  simp only [intervalIntegral.intervalIntegral_eq_integral_uIoc, integral_smul, key]
  rw [smul_comm]

section
variable {S : Shape ℝ} (hS : S.C2)
include hS

theorem D_continuous (p i : ℕ) (fl : Flags ℝ) : Continuous fun x => S.D p i x fl := by
  match p with
  | 0 => exact continuous_iff_continuousAt.2 fun x => (hS.d1 i x fl).continuousAt
  | 1 => exact continuous_iff_continuousAt.2 fun x => (hS.d2 i x fl).continuousAt
  | p + 2 => exact hS.cont i fl

theorem disp_continuous (P : Panel ℝ) (s : ℕ) (c : ℕ → ℝ) (α p q : ℕ) :
    Continuous fun z : ℝ × ℝ => disp S P s c α p q (2 / P.a * z.1 - 1) (2 / P.b * z.2 - 1) := by
  unfold disp
  refine continuous_const.mul (continuous_finsetSum _ fun i _ => continuous_finsetSum _ fun j _ => ?_)
  refine continuous_const.mul (((D_continuous hS p i _).comp ?_).mul ((D_continuous hS q j _).comp ?_)) <;>
    fun_prop

theorem lin_continuous (κ : ℝ) (P : Panel ℝ) (s0 : ℕ) (c : ℕ → ℝ) (s : ℕ) :
    Continuous fun z : ℝ × ℝ => lin κ S P s0 c s z.1 z.2 := by
  have hd := disp_continuous hS P s0 c
  match s with
  | 0 => exact hd 0 1 0
  | 1 => exact (hd 1 0 1).add (continuous_const.mul (hd 2 0 0))
  | 2 => exact (hd 0 0 1).add (hd 1 1 0)
  | 3 => exact (hd 2 2 0).neg
  | 4 => exact (hd 2 0 2).neg
  | s + 5 => exact continuous_const.mul (hd 2 1 1)

theorem dens_continuous (F : ℕ → ℕ → ℝ) (κ : ℝ) (P : Panel ℝ) (s0 : ℕ) (c : ℕ → ℝ) :
    Continuous fun z : ℝ × ℝ => dens 6 F fun s => lin κ S P s0 c s z.1 z.2 := by
  unfold Spec.dens
  exact continuous_finsetSum _ fun s _ => continuous_finsetSum _ fun t _ =>
    (continuous_const.mul (lin_continuous hS κ P s0 c s)).mul (lin_continuous hS κ P s0 c t)

end

end Verif
