import Verif.Proofs.ShellBase
import Verif.Props.C26
import Verif.Props.C38

/-!
# A panel inside a larger matrix

The matrices of a panel calculated at an offset inside a larger matrix have the quadratic form of the
panel's own matrix on its slice of the state.
-/

set_option linter.unusedSectionVars false

namespace Verif

open Model

variable {K : Type} [Field K] [DecidableEq K]

theorem symW_shift (s : ℕ) (v : ℕ → K) (t : Trip K) :
    Coo.symW v ⟨s + t.row, s + t.col, t.val⟩ = Coo.symW (fun k => v (s + k)) t := by
  unfold Coo.symW
  simp only [Nat.add_lt_add_iff_left, Nat.add_left_cancel_iff]

theorem Translated.quad_finalizeSym {s : ℕ} {A B : Coo K} (h : Translated s A B) (v : ℕ → K) :
    Coo.quad (Coo.finalizeSym B) v = Coo.quad (Coo.finalizeSym A) fun k => v (s + k) := by
  obtain ⟨f, core, rfl, rfl⟩ := h
  rw [Coo.quad_finalizeSym_pad, Coo.quad_finalizeSym_pad, Coo.quad_finalizeSym, Coo.quad_finalizeSym,
    Coo.shift, List.map_map]
  refine congrArg List.sum (List.map_congr_left fun t _ => ?_)
  exact symW_shift s v t

theorem fk0_translated (E : Env K) (k : Kind) (P : Panel K) (F : ℕ → ℕ → K) (s : ℕ) :
    Translated s (fk0 E k P F 0 0) (fk0 E k P F s s) := by
  cases k
  · exact C26.plateFk0_translated ..
  · exact C26.cylFk0_translated ..

theorem fkG0_translated (E : Env K) (k : Kind) (P : Panel K) (N1 N2 N3 : K) (s : ℕ) :
    Translated s (fkG0 E k P N1 N2 N3 0 0) (fkG0 E k P N1 N2 N3 s s) := by
  cases k
  · exact C26.plateFkG0_translated ..
  · exact C26.cylFkG0_translated ..

theorem fkCnumF_translated (E : Env K) (k : Kind) (P : Panel K) (F : ℕ → ℕ → ℕ → ℕ → K) (cs : ℕ → K)
    (nx ny NL s : ℕ) : Translated s (fkCnumF E k P F (fun i => cs (s + i)) 0 0 nx ny NL)
      (fkCnumF E k P F cs s s nx ny NL) := by
  cases k
  · exact C26.plateFkCnumF_translated ..
  · exact C26.cylFkCnumF_translated ..

theorem fkGnumF_translated (E : Env K) (k : Kind) (P : Panel K) (F : ℕ → ℕ → ℕ → ℕ → K) (cs : ℕ → K)
    (nx ny NL : ℕ) (N1 N2 N3 : K) (s : ℕ) :
    Translated s (fkGnumF E k P F (fun i => cs (s + i)) 0 0 nx ny NL N1 N2 N3)
      (fkGnumF E k P F cs s s nx ny NL N1 N2 N3) := by
  cases k
  · exact C26.plateFkGnumF_translated ..
  · exact C26.cylFkGnumF_translated ..

/-- The part of a state that belongs to a panel. -/
def sliceC (s n : ℕ) : CArg K → CArg K
  | .vec _ f => .vec n fun k => f (s + k)
  | x => x

/-- `calc_kC` of a panel at an offset and alone. -/
theorem kC_slice (E : Env K) (s t : Shell K) (ht : s.rebuild E = .ok t) (c : Option (CArg K))
    (N s0 : ℕ) (hN : s0 + 3 * s.pan.m * s.pan.n ≤ N)
    (hc : ∀ x, c = some x → ∃ f, x = .vec N f) :
    ∃ L L0, s.calcKC E { c := c, row0 := s0, col0 := s0, size := .num N, finalize := false }
        = .ok (L, t.fixR) ∧
      s.calcKC E { c := c.map (sliceC s0 (3 * s.pan.m * s.pan.n)) } = .ok (L0, t.fixR) ∧
      ∀ v, Coo.quad (Coo.finalizeSym L) v = Coo.quad L0 fun k => v (s0 + k) := by
  have hp : t.pan = s.pan := by
    obtain ⟨-, -, -, -, lam, -, rfl⟩ := (C54.rebuild_ok_iff E s t).1 ht
    rfl
  obtain ⟨k, lam, F, hk, hl, hF, h1⟩ := C38.outcome_partial E s t
    { c := c, row0 := s0, col0 := s0, size := .num N, finalize := false } ht
    ⟨by simpa [C38.sizeOf] using hc, by simp, by simp, by simpa [C38.sizeOf, hp] using hN,
      by simpa [C38.sizeOf, hp] using hN⟩ (by simp) (by simp)
  obtain ⟨k', lam', F', hk', hl', hF', h2⟩ := C38.outcome_partial E s t
    { c := c.map (sliceC s0 (3 * s.pan.m * s.pan.n)) } ht
    ⟨by
      intro x hx
      cases c with
      | none => cases hx
      | some y =>
        obtain ⟨f, rfl⟩ := hc y rfl
        cases hx
        rw [hp]
        exact ⟨_, rfl⟩, by simp, by simp, by simp [C38.sizeOf], by simp [C38.sizeOf]⟩ (by simp) (by simp)
  rw [hk] at hk'
  cases hk'
  rw [hl] at hl'
  cases hl'
  rw [hF] at hF'
  cases hF'
  refine ⟨_, _, h1, h2, fun v => ?_⟩
  simp only [fin, if_true, Bool.false_eq_true, if_false]
  rw [Coo.finalizeSym_append_quad, Coo.finalizeSym_append_quad]
  congr 1
  · unfold C38.wantC
    cases c with
    | none =>
      simp only [Option.map_none, and_self, if_true]
      exact (fk0_translated ..).quad_finalizeSym v
    | some x =>
      simp only [Option.map_some, reduceCtorEq, false_and, if_false, Bool.false_eq_true]
      exact (fkCnumF_translated E k _ _ (fun _ => 0) _ _ _ s0).quad_finalizeSym v
  · unfold C38.wantG
    simp only [true_and]
    split
    · simp [Coo.finalizeSym, Coo.quad]
    · simp only [if_true]
      exact (fkG0_translated ..).quad_finalizeSym v

/-- `calc_kG` of a panel at an offset and alone. -/
theorem kG_slice (E : Env K) (s t : Shell K) (ht : s.rebuild E = .ok t) (c : Option (CArg K))
    (N s0 : ℕ) (hN : s0 + 3 * s.pan.m * s.pan.n ≤ N)
    (hc : ∀ x, c = some x → ∃ f, x = .vec N f) :
    ∃ L L0, s.calcKG E { c := c, row0 := s0, col0 := s0, size := .num N, finalize := false }
        = .ok (L, t.fixR) ∧
      s.calcKG E { c := c.map (sliceC s0 (3 * s.pan.m * s.pan.n)) } = .ok (L0, t.fixR) ∧
      ∀ v, Coo.quad (Coo.finalizeSym L) v = Coo.quad L0 fun k => v (s0 + k) := by
  have hp : t.fixR.pan = s.pan := by
    obtain ⟨-, -, -, -, lam, -, rfl⟩ := (C54.rebuild_ok_iff E s t).1 ht
    rfl
  obtain ⟨k, lam, F, hb, hk, hl, hF⟩ := rebuild_built E s t ht
  have hp' : t.pan = s.pan := hp
  have i1 : InSize t.fixR.panel s0 s0 N := by
    have : t.fixR.panel.m = s.pan.m ∧ t.fixR.panel.n = s.pan.n := by
      simp only [Shell.panel, hp, and_self]
    simpa only [InSize, this, and_self] using hN
  have i2 : InSize t.fixR.panel 0 0 (3 * s.pan.m * s.pan.n) := by
    have : t.fixR.panel.m = s.pan.m ∧ t.fixR.panel.n = s.pan.n := by
      simp only [Shell.panel, hp, and_self]
    simp only [InSize, this, and_self, zero_add, le_refl]
  cases c with
  | none =>
    refine ⟨fkG0 E k t.fixR.panel t.fixR.Nxx t.fixR.Nyy t.fixR.Nxy s0 s0,
      Coo.finalizeSym (fkG0 E k t.fixR.panel t.fixR.Nxx t.fixR.Nyy t.fixR.Nxy 0 0), ?_, ?_, ?_⟩
    · unfold Shell.calcKG
      simp only [ht, bind, Except.bind, checkOpt, hb, SizeArg.value, Option.isNone_none, Bool.not_false,
        Bool.and_self, if_true, fkG0_sparse E k _ _ _ _ i1]
      rfl
    · unfold Shell.calcKG
      simp only [ht, bind, Except.bind, checkOpt, hb, SizeArg.value, Option.map_none,
        Option.isNone_none, Bool.not_false, Bool.and_self, if_true, hp',
        fkG0_sparse E k _ _ _ _ i2]
      rfl
    · exact fun v => (fkG0_translated ..).quad_finalizeSym v
  | some x =>
    obtain ⟨f, rfl⟩ := hc x rfl
    have r1 : readable (CArg.vec N f) s0 t.fixR.panel = .ok f := if_pos i1.2
    have r2 : readable (CArg.vec (3 * s.pan.m * s.pan.n) fun k => f (s0 + k)) 0 t.fixR.panel
        = .ok fun k => f (s0 + k) := if_pos i2.2
    refine ⟨fkGnumF E k t.fixR.panel (fun _ _ => lamABD t.fixR.forceOrtho lam.ABD) f s0 s0 t.fixR.nx
        t.fixR.ny 0 t.fixR.Nxx t.fixR.Nyy t.fixR.Nxy,
      Coo.finalizeSym (fkGnumF E k t.fixR.panel (fun _ _ => lamABD t.fixR.forceOrtho lam.ABD)
        (fun k => f (s0 + k)) 0 0 t.fixR.nx t.fixR.ny 0 t.fixR.Nxx t.fixR.Nyy t.fixR.Nxy), ?_, ?_, ?_⟩
    · unfold Shell.calcKG
      simp only [ht, bind, Except.bind, checkOpt, checkC, hb, SizeArg.value, Option.isNone_some,
        Bool.false_and, Bool.false_eq_true, if_false, ne_eq, not_true_eq_false, Option.getD_some, r1,
        fkGnum_eq, lamAt, Option.getD_none, Except.map, lift,
        fkGnumF_sparse E k _ _ _ _ _ _ _ _ _ i1]
      rfl
    · unfold Shell.calcKG
      simp only [ht, bind, Except.bind, checkOpt, checkC, hb, SizeArg.value, Option.isNone_some,
        Option.map_some, sliceC, hp',
        Bool.false_and, Bool.false_eq_true, if_false, ne_eq, not_true_eq_false, Option.getD_some, r2,
        fkGnum_eq, lamAt, Option.getD_none, Except.map, lift,
        fkGnumF_sparse E k _ _ _ _ _ _ _ _ _ i2]
      rfl
    · exact fun v => (fkGnumF_translated ..).quad_finalizeSym v

/-- The analytical mass matrix of either model. -/
def fkM (E : Env K) (k : Kind) (P : Panel K) (d h rho : K) (row0 col0 : ℕ) : Coo K :=
  match k with
  | .plate => plateFkM E.I P d h rho row0 col0
  | .cyl => cylFkM E.I P d h rho row0 col0

/-- `calc_kM` of a panel at an offset and alone. -/
theorem kM_slice (E : Env K) (s : Shell K) {k : Kind} {lam : LamObj K}
    (hk : s.model.bind kindOf = some k) (hl : s.lam = some lam)
    (N s0 : ℕ) (hN : s0 + 3 * s.pan.m * s.pan.n ≤ N) :
    ∃ L L0, s.calcKM E (.num N) s0 s0 none none none none false = .ok (L, s.fixR) ∧
      s.calcKM E .none 0 0 none none none none true = .ok (L0, s.fixR) ∧
      ∀ v, Coo.quad (Coo.finalizeSym L) v = Coo.quad L0 fun k => v (s0 + k) := by
  have i1 : InSize s.fixR.panel s0 s0 N := ⟨hN, hN⟩
  have i2 : InSize s.fixR.panel 0 0 (3 * s.pan.m * s.pan.n) := by
    constructor <;> exact le_of_eq (zero_add _)
  have sp : ∀ (a b n : ℕ), InSize s.fixR.panel a b n → ∀ d h rho : K,
      toSparse n (fkM E k s.fixR.panel d h rho a b) = .ok (fkM E k s.fixR.panel d h rho a b) := by
    intro a b n hi d h rho
    cases k
    · exact toSparse_fits _ (C24.plateFkM_fits ..) hi pos_fdim
    · exact toSparse_fits _ (C24.cylFkM_fits ..) hi pos_fdim
  have tr : Translated s0 (fkM E k s.fixR.panel s.offset s.plyts.sum s.rho 0 0)
      (fkM E k s.fixR.panel s.offset s.plyts.sum s.rho s0 s0) := by
    cases k
    · exact C26.plateFkM_translated ..
    · exact C26.cylFkM_translated ..
  refine ⟨_, _, ?_, ?_, fun v => tr.quad_finalizeSym v⟩
  · unfold Shell.calcKM
    have := sp s0 s0 N i1 s.offset s.plyts.sum s.rho
    unfold fkM at this
    have hl' : s.fixR.lam = some lam := hl
    simp only [hk, hl', bind, Except.bind, SizeArg.value, Option.isNone_none, Bool.and_self, if_true]
    cases k <;> simp only at this ⊢ <;>
      rw [show s.fixR.offset = s.offset from rfl, show s.fixR.plyts = s.plyts from rfl,
        show s.fixR.rho = s.rho from rfl, this] <;> rfl
  · unfold Shell.calcKM
    have := sp 0 0 _ i2 s.offset s.plyts.sum s.rho
    unfold fkM at this
    have hl' : s.fixR.lam = some lam := hl
    simp only [hk, hl', bind, Except.bind, SizeArg.value, Option.isNone_none, Bool.and_self, if_true]
    cases k <;> simp only at this ⊢ <;>
      rw [show s.fixR.offset = s.offset from rfl, show s.fixR.plyts = s.plyts from rfl,
        show s.fixR.rho = s.rho from rfl, show s.fixR.pan = s.pan from rfl, this] <;> rfl

end Verif
