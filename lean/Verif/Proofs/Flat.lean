import Verif.Props.C16Shell

/-!
# Matrices and forces at states without deflection
-/

set_option linter.unusedSectionVars false

namespace Verif

open Model Spec

variable {E : Env ℝ} {P : Panel ℝ} {s0 : ℕ} {c : ℕ → ℝ}

/-- The slopes of a state without deflection. -/
theorem flat_slopes {S : Shape ℝ} (hS : S.C2) (hc : ∀ x y, u S P s0 c 2 x y = 0) (x y : ℝ) :
    disp S P s0 c 2 1 0 (2 / P.a * x - 1) (2 / P.b * y - 1) = 0 ∧
      disp S P s0 c 2 0 1 (2 / P.a * x - 1) (2 / P.b * y - 1) = 0 := by
  have h : u S P s0 c 2 = fun _ _ => 0 := funext fun x => funext fun y => hc x y
  rw [← u_dx hS, ← u_dy hS, h]
  simp [dx, dy]

theorem disp_smul (S : Shape ℝ) (α p q : ℕ) (r ξ η : ℝ) :
    disp S P s0 (fun k => r * c k) α p q ξ η = r * disp S P s0 c α p q ξ η := by
  unfold disp
  simp only [Finset.mul_sum]
  exact Finset.sum_congr rfl fun i _ => Finset.sum_congr rfl fun j _ => by ring

theorem u_smul (S : Shape ℝ) (α : ℕ) (r x y : ℝ) : u S P s0 (fun k => r * c k) α x y = r * u S P s0 c α x y := by
  unfold u
  simp only [Finset.mul_sum]
  exact Finset.sum_congr rfl fun i _ => Finset.sum_congr rfl fun j _ => by ring

theorem lin_smul (κ : ℝ) (S : Shape ℝ) (r : ℝ) (s : ℕ) (x y : ℝ) :
    lin κ S P s0 (fun k => r * c k) s x y = r * lin κ S P s0 c s x y := by
  unfold lin
  simp only [disp_smul]
  split <;> ring

theorem resultant_smul (F : ℕ → ℕ → ℝ) (e : ℕ → ℝ) (r : ℝ) (i : ℕ) :
    resultant F (fun s => r * e s) i = r * resultant F e i := by
  unfold resultant
  rw [Finset.mul_sum]
  exact Finset.sum_congr rfl fun _ _ => by ring

/-- The strains at such a state, and their changes, are the linear ones. -/
theorem flat_strain {S : Shape ℝ} (hS : S.C2) (hc : ∀ x y, u S P s0 c 2 x y = 0) (κ r : ℝ) (d : ℕ → ℝ) (s : ℕ)
    (x y : ℝ) : vkWith 2 κ S P s0 (fun k => r * c k) s x y = r * lin κ S P s0 c s x y ∧
      vkVar κ S P s0 (fun k => r * c k) d s x y = lin κ S P s0 d s x y := by
  obtain ⟨h1, h2⟩ := flat_slopes hS hc x y
  constructor
  · unfold vkWith
    simp only [disp_smul, h1, h2, lin_smul]
    split <;> ring
  · unfold vkVar
    simp only [disp_smul, h1, h2]
    split <;> ring

theorem flat_kC (hS : E.S.C2) (ha : P.a ≠ 0) (hb : P.b ≠ 0) (k : Kind) (hr : k = .cyl → P.r ≠ 0)
    (F : ℕ → ℕ → ℕ → ℕ → ℝ) (hF : ∀ p q, ABDSym (F p q)) (hc : ∀ x y, u E.S P s0 c 2 x y = 0) (r : ℝ) (z d : ℕ → ℝ)
    (nx ny : ℕ) : Coo.quad (Coo.finalizeSym (fkCnumF E k P F (fun k => r * c k) s0 s0 nx ny 1)) d
      = Coo.quad (Coo.finalizeSym (fkCnumF E k P F z s0 s0 nx ny 0)) d := by
  cases k
  · simp only [fkCnumF]
    rw [plateFkCnum_quad E.S E.G P ha hb F hF, plateFkCnum_quad E.S E.G P ha hb F hF]
    simp only [if_true, zero_ne_one, if_false, (flat_strain hS hc _ _ _ _ _ _).2]
  · simp only [fkCnumF]
    rw [cylFkCnum_quad E.S E.G P ha hb (hr rfl) F hF, cylFkCnum_quad E.S E.G P ha hb (hr rfl) F hF]
    simp only [if_true, zero_ne_one, if_false, (flat_strain hS hc _ _ _ _ _ _).2]

theorem flat_kG (hS : E.S.C2) (ha : P.a ≠ 0) (hb : P.b ≠ 0) (k : Kind)
    (F : ℕ → ℕ → ℕ → ℕ → ℝ) (hF : ∀ p q, ABDSym (F p q)) (hc : ∀ x y, u E.S P s0 c 2 x y = 0) (r : ℝ) (d : ℕ → ℝ)
    (nx ny : ℕ) (N1 N2 N3 : ℝ) :
    Coo.quad (Coo.finalizeSym (fkGnumF E k P F (fun k => r * c k) s0 s0 nx ny 1 N1 N2 N3)) d
      = r * Coo.quad (Coo.finalizeSym (fkGnumF E k P F c s0 s0 nx ny 0 N1 N2 N3)) d
        + (1 - r) * gaussP E.G nx ny P fun _ _ x y => stressDens E.S P s0 d N1 N2 N3 x y := by
  cases k
  · simp only [fkGnumF]
    rw [plateFkGnum_quad E.S E.G P ha hb F hF, plateFkGnum_quad E.S E.G P ha hb F hF, ← gaussP_smul, ← gaussP_smul,
      ← gaussP_add]
    refine gaussP_congr fun p _ q _ x y => ?_
    simp only [if_true, zero_ne_one, if_false, (flat_strain hS hc _ _ c _ _ _).1, resultant_smul, stressDens]
    ring
  · simp only [fkGnumF]
    rw [cylFkGnum_quad E.S E.G P ha hb F hF, cylFkGnum_quad E.S E.G P ha hb F hF, ← gaussP_smul, ← gaussP_smul,
      ← gaussP_add]
    refine gaussP_congr fun p _ q _ x y => ?_
    simp only [if_true, zero_ne_one, if_false, (flat_strain hS hc _ _ c _ _ _).1, resultant_smul, stressDens]
    ring

theorem flat_fint (hS : E.S.C2) (ha : P.a ≠ 0) (hb : P.b ≠ 0) (k : Kind) (hr : k = .cyl → P.r ≠ 0)
    (F : ℕ → ℕ → ℕ → ℕ → ℝ) (hF : ∀ p q, ABDSym (F p q)) (hc : ∀ x y, u E.S P s0 c 2 x y = 0) (r : ℝ) (z d : ℕ → ℝ)
    (nx ny : ℕ) : vdot (C16.fintF E k P F (fun k => r * c k) s0 nx ny) d
      = r * Coo.bilin (Coo.finalizeSym (fkCnumF E k P F z s0 s0 nx ny 0)) d c := by
  cases k
  · simp only [fkCnumF, C16.fintF]
    rw [plateFint_work E.S E.G P ha hb F hF, plateFkCnum_bilin E.S E.G P ha hb F hF, ← gaussP_smul]
    refine gaussP_congr fun p _ q _ x y => ?_
    simp only [zero_ne_one, if_false, (flat_strain hS hc _ _ d _ _ _).1, (flat_strain hS hc _ _ d _ _ _).2,
      resultant_smul, work, Finset.mul_sum]
    exact Finset.sum_congr rfl fun _ _ => by ring
  · simp only [fkCnumF, C16.fintF]
    rw [cylFint_work E.S E.G P ha hb (hr rfl) F hF, cylFkCnum_bilin E.S E.G P ha hb (hr rfl) F hF, ← gaussP_smul]
    refine gaussP_congr fun p _ q _ x y => ?_
    simp only [zero_ne_one, if_false, (flat_strain hS hc _ _ d _ _ _).1, (flat_strain hS hc _ _ d _ _ _).2,
      resultant_smul, work, Finset.mul_sum]
    exact Finset.sum_congr rfl fun _ _ => by ring

/-- `calc_kG` about a state, with linear kinematics. -/
theorem calcKG_state {K : Type} [Field K] [DecidableEq K] (E : Env K) (s t : Shell K) (A : KArgs K)
    (ht : s.rebuild E = .ok t)
    (hd : C38.Documented t { A with cCte := none } (A.nx.getD t.nx) (A.ny.getD t.ny)) (h1 : A.c ≠ none) :
    ∃ k F, t.model.bind kindOf = some k ∧ t.ABD = some F ∧
      s.calcKG E { A with cCte := none, NLgeom := false }
        = .ok (fin A.finalize (fkGnumF E k t.fixR.panel (C38.lamField F A.ABDnxny) (C38.coef A.c)
            A.row0 A.col0 (A.nx.getD t.nx) (A.ny.getD t.ny) 0 t.Nxx t.Nyy t.Nxy), t.fixR) := by
  obtain ⟨k, lam, F, hbt, hk, hl, hF⟩ := rebuild_built E s t ht
  refine ⟨k, F, hk, hF, ?_⟩
  have hA : lamABD t.forceOrtho lam.ABD = F := by
    obtain ⟨-, -, -, -, lam', -, rfl⟩ := (C54.rebuild_ok_iff E s t).1 ht
    cases hl
    cases hF
    exact C16.lamABD_twice _ _ (by simp +contextual) _
  have i2 : InSize t.fixR.panel A.row0 A.col0 (C38.sizeOf (3 * t.pan.m * t.pan.n) A.size) := ⟨hd.row, hd.col⟩
  have hr : readable (A.c.getD (.vec (C38.sizeOf (3 * t.pan.m * t.pan.n) A.size) fun _ => 0)) A.col0
      t.fixR.panel = .ok (C38.coef A.c) := by
    cases hc : A.c with
    | none => exact if_pos hd.col
    | some x =>
      obtain ⟨f, rfl⟩ := hd.c x hc
      exact if_pos hd.col
  have hs : A.size.value (3 * t.pan.m * t.pan.n) = C38.sizeOf (3 * t.pan.m * t.pan.n) A.size := C38.size_eq t A
  have hl' := C38.lamAt_doc F A.ABDnxny hd.abd
  have hn : A.c.isNone = false := by cases hc : A.c <;> simp_all
  have hfo : lamABD t.fixR.forceOrtho lam.ABD = F := hA
  unfold Shell.calcKG
  simp only [ht, bind, Except.bind, hs, C38.check_doc A.c hd.c, hbt, hn, Bool.false_and, Bool.not_false,
    Bool.and_true, Bool.false_eq_true, if_false, hr, hfo, fkGnum_eq]
  simp only [show t.fixR.nx = t.nx from rfl, show t.fixR.ny = t.ny from rfl, show t.fixR.pan = t.pan from rfl, hl',
    Except.map, lift]
  rw [fkGnumF_sparse E k _ _ _ _ _ _ _ _ _ i2]
  rfl

end Verif
