import Verif.Proofs.Indep
import Verif.Proofs.RuleSound
import Verif.Props.C01

/-!
# The exact and the printed shape functions are hierarchical families
-/

namespace Verif.Indep

open Polynomial Finset Spec Model RuleCheck

/-- The polynomial with the given coefficients. -/
noncomputable def poly : List ℚ → ℝ[X]
  | [] => 0
  | c :: cs => C (c : ℝ) + X * poly cs

theorem eval_poly (l : List ℚ) (x : ℝ) : (poly l).eval x = pev l x := by
  induction l with
  | nil => simp [poly, pev]
  | cons c cs ih => rw [poly, eval_add, eval_mul, eval_X, eval_C, ih, pev]

theorem coeff_poly (l : List ℚ) (d : ℕ) : (poly l).coeff d = ((l.getD d 0 : ℚ) : ℝ) := by
  induction l generalizing d with
  | nil => simp [poly]
  | cons c cs ih =>
    cases d with
    | zero => simp [poly]
    | succ d => simp [poly, coeff_X_mul, ih, coeff_C]

/-- The conditions of `Fam` for lists of coefficients, as a test. -/
def famOK (k N : ℕ) (l : ℕ → List ℚ) : Bool :=
  (List.range N).all fun i =>
    if i < 4 then (List.range 5).all (fun d => (l i).getD d 0 == base k i d) && Nat.ble (l i).length 5
    else ((l i).drop (i - k + 1)).all (· == 0) && (l i).getD (i - k) 0 != 0

theorem getD_ge {l : List ℚ} {d : ℕ} (h : l.length ≤ d) : l.getD d 0 = 0 := by
  rw [List.getD_eq_getElem?_getD, List.getElem?_eq_none h]; rfl

theorem getD_drop {l : List ℚ} {n d : ℕ} (h : (l.drop n).all (· == 0) = true) (hd : n ≤ d) :
    l.getD d 0 = 0 := by
  rw [List.getD_eq_getElem?_getD]
  rcases he : l[d]? with _ | a
  · rfl
  · have hm : a ∈ l.drop n := by
      rw [List.mem_iff_getElem?]
      exact ⟨d - n, by rw [List.getElem?_drop, Nat.add_sub_cancel' hd, he]⟩
    simpa using List.all_eq_true.1 h a hm

theorem famOK_sound {k N : ℕ} {l : ℕ → List ℚ} (h : famOK k N l = true) (hN : 4 ≤ N) :
    Fam k N fun i => poly (l i) := by
  have h' := List.all_eq_true.1 h
  refine ⟨fun i h4 hi => ?_, fun i h4 hi => ?_, fun i hi d => ?_⟩
  · have h1 := h' i (List.mem_range.2 hi)
    rw [if_neg (by omega), Bool.and_eq_true] at h1
    refine natDegree_le_iff_coeff_eq_zero.2 fun d hd => ?_
    rw [coeff_poly, getD_drop h1.1 hd, Rat.cast_zero]
  · have h1 := h' i (List.mem_range.2 hi)
    rw [if_neg (by omega), Bool.and_eq_true] at h1
    rw [coeff_poly]
    exact Rat.cast_ne_zero.2 (by simpa using h1.2)
  · have h1 := h' i (List.mem_range.2 (by omega))
    rw [if_pos hi, Bool.and_eq_true] at h1
    rw [coeff_poly]
    by_cases hd : d < 5
    · have := List.all_eq_true.1 h1.1 d (List.mem_range.2 hd)
      rw [eq_of_beq this]
    · have hl := Nat.le_of_ble_eq_true h1.2
      rw [getD_ge (by omega)]
      unfold base
      split <;> first | rfl | (exfalso; omega)

theorem printed_fam : famOK 0 30 (lst Gen.sc_f) = true ∧ famOK 1 30 (lst Gen.sc_fp) = true ∧
    famOK 2 30 (lst Gen.sc_fpp) = true := by decide +kernel

/-- The printed functions. -/
theorem printed_hier : Hier (vecShape ℝ) 30 := by
  rw [C01.vec_eq_scalar]
  obtain ⟨h0, h1, h2⟩ := printed_fam
  refine ⟨fun k i => poly (lst (match k with | 0 => Gen.sc_f | 1 => Gen.sc_fp | _ => Gen.sc_fpp) i),
    fun k hk => ?_⟩
  match k, hk with
  | 0, _ => exact ⟨famOK_sound h0 (by norm_num), fun i hi x fl => by
      rw [eval_poly]; exact tabVal_eq row_f i hi x fl⟩
  | 1, _ => exact ⟨famOK_sound h1 (by norm_num), fun i hi x fl => by
      rw [eval_poly]; exact tabVal_eq row_fp i hi x fl⟩
  | 2, _ => exact ⟨famOK_sound h2 (by norm_num), fun i hi x fl => by
      rw [eval_poly]; exact tabVal_eq row_fpp i hi x fl⟩

/-! ## The exact functions -/

theorem getD_pderFrom (l : List ℚ) (k d : ℕ) :
    (pderFrom k l).getD d 0 = ((k : ℚ) + d + 1) * l.getD d 0 := by
  induction l generalizing k d with
  | nil => simp [pderFrom]
  | cons c cs ih =>
    cases d with
    | zero => simp [pderFrom]
    | succ d => simp only [pderFrom, List.getD_cons_succ, ih]; push_cast; ring

theorem getD_pder (l : List ℚ) (d : ℕ) : (pder l).getD d 0 = ((d : ℚ) + 1) * l.getD (d + 1) 0 := by
  cases l with
  | nil => simp [pder]
  | cons c cs => simp only [pder, getD_pderFrom, List.getD_cons_succ]; push_cast; ring

theorem fact_pos (n : ℕ) : 0 < fact n := by
  induction n with
  | zero => exact Nat.one_pos
  | succ n ih => exact Nat.mul_pos (Nat.succ_pos n) ih

theorem oddDF_pos (n : ℕ) : 0 < oddDF n := by
  induction n with
  | zero => exact Nat.one_pos
  | succ n ih => exact Nat.mul_pos (Nat.succ_pos _) ih

theorem bardell_high {i : ℕ} (h : 4 ≤ i) : bardell i = (List.range (i + 1)).map (bcoef i) := by
  match i, h with
  | i + 4, _ => rfl

theorem bardell_lead {i : ℕ} (h : 4 ≤ i) : (bardell i).getD i 0 ≠ 0 := by
  rw [bardell_high h, List.getD_eq_getElem?_getD, List.getElem?_map,
    List.getElem?_range (Nat.lt_succ_self i)]
  simp only [Option.map_some, Option.getD_some, bcoef, Nat.sub_self, Nat.zero_mod, if_true,
    Nat.zero_div]
  have h1 := oddDF_pos (i - 0 - 2)
  have h2 := fact_pos i
  have h3 := fact_pos 0
  positivity

theorem bardell_above {i d : ℕ} (h : 4 ≤ i) (hd : i < d) : (bardell i).getD d 0 = 0 := by
  rw [bardell_high h]
  exact getD_ge (by simpa using hd)

/-- `k` derivatives. -/
def pders (k : ℕ) (l : List ℚ) : List ℚ :=
  match k with
  | 0 => l
  | 1 => pder l
  | _ => pder (pder l)

theorem exact_fam (N k : ℕ) (hk : k ≤ 2) : Fam k N fun i => poly (pders k (bardell i)) := by
  have key : ∀ i, 4 ≤ i → (∀ d, i - k < d → (pders k (bardell i)).getD d 0 = 0) ∧
      (pders k (bardell i)).getD (i - k) 0 ≠ 0 := by
    intro i h4
    have hl := bardell_lead h4
    match k, hk with
    | 0, _ => exact ⟨fun d hd => bardell_above h4 hd, hl⟩
    | 1, _ =>
      refine ⟨fun d hd => ?_, ?_⟩
      · rw [pders, getD_pder, bardell_above h4 (by omega), mul_zero]
      · rw [pders, getD_pder, Nat.sub_add_cancel (by omega)]
        exact mul_ne_zero (by positivity) hl
    | 2, _ =>
      refine ⟨fun d hd => ?_, ?_⟩
      · show (pder (pder (bardell i))).getD d 0 = 0
        rw [getD_pder, getD_pder, bardell_above h4 (by omega), mul_zero, mul_zero]
      · show (pder (pder (bardell i))).getD (i - 2) 0 ≠ 0
        rw [getD_pder, getD_pder, show i - 2 + 1 + 1 = i by omega]
        exact mul_ne_zero (by positivity) (mul_ne_zero (by positivity) hl)
  refine ⟨fun i h4 _ => ?_, fun i h4 _ => ?_, fun i hi d => ?_⟩
  · refine natDegree_le_iff_coeff_eq_zero.2 fun d hd => ?_
    rw [coeff_poly, (key i h4).1 d hd, Rat.cast_zero]
  · rw [coeff_poly]
    exact Rat.cast_ne_zero.2 (key i h4).2
  · have h5 : famOK k 4 fun i => pders k (bardell i) := by
      match k, hk with
      | 0, _ => decide +kernel
      | 1, _ => decide +kernel
      | 2, _ => decide +kernel
    exact (famOK_sound h5 le_rfl).low i hi d

/-- The exact functions, any number of terms. -/
theorem exact_hier (N : ℕ) : Hier (bardellShape ℝ) N := by
  refine ⟨fun k i => poly (pders k (bardell i)), fun k hk => ⟨exact_fam N k hk, fun i _ x fl => ?_⟩⟩
  rw [eval_poly]
  match k, hk with
  | 0, _ => rfl
  | 1, _ => rfl
  | 2, _ => rfl

end Verif.Indep
