import Verif.Model.Shell
import Verif.Props.C24
import Verif.Props.C54

/-!
# Lemmas about the class `Shell`
-/

set_option linter.unusedSectionVars false

namespace Verif

open Model

variable {K : Type} [Field K] [DecidableEq K]

/-- The block of the panel lies inside the matrix. -/
def InSize (P : Panel K) (row0 col0 size : ℕ) : Prop :=
  row0 + 3 * P.m * P.n ≤ size ∧ col0 + 3 * P.m * P.n ≤ size

theorem toSparse_fits {L : Coo K} {f row0 col0 size : ℕ} (P : Panel K)
    (h : Fits L f row0 (3 * (P.m * P.n)) col0 (3 * (P.m * P.n))) (hs : InSize P row0 col0 size)
    (hf : 0 < f → 0 < P.m * P.n) : toSparse size L = .ok L := by
  unfold InSize at hs
  rw [mul_assoc] at hs
  unfold toSparse
  rw [if_pos]
  rw [List.all_eq_true]
  intro t ht
  have := h.inMatrix hs.1 hs.2 (fun h => by have := hf h; omega) t ht
  simpa using this

theorem pos_fdim {d m n : ℕ} (h : 0 < d * m * m * n * n) : 0 < m * n := by
  rcases Nat.eq_zero_or_pos m with rfl | hm
  · simp at h
  rcases Nat.eq_zero_or_pos n with rfl | hn
  · simp at h
  exact Nat.mul_pos hm hn

theorem fk0_sparse (E : Env K) (k : Kind) (P : Panel K) (F : ℕ → ℕ → K) {row0 col0 size : ℕ}
    (h : InSize P row0 col0 size) :
    toSparse size (fk0 E k P F row0 col0) = .ok (fk0 E k P F row0 col0) := by
  cases k
  · exact toSparse_fits P (C24.plateFk0_fits ..) h pos_fdim
  · exact toSparse_fits P (C24.cylFk0_fits ..) h pos_fdim

theorem fkG0_sparse (E : Env K) (k : Kind) (P : Panel K) (N1 N2 N3 : K) {row0 col0 size : ℕ}
    (h : InSize P row0 col0 size) :
    toSparse size (fkG0 E k P N1 N2 N3 row0 col0) = .ok (fkG0 E k P N1 N2 N3 row0 col0) := by
  cases k
  · exact toSparse_fits P (C24.plateFkG0_fits ..) h pos_fdim
  · exact toSparse_fits P (C24.cylFkG0_fits ..) h pos_fdim

/-- `fkC_num` of either model for a laminate known at each point. -/
def fkCnumF (E : Env K) (k : Kind) (P : Panel K) (F : ℕ → ℕ → ℕ → ℕ → K) (cs : ℕ → K)
    (row0 col0 nx ny NL : ℕ) : Coo K :=
  match k with
  | .plate => plateFkCnumF E.S E.G P F cs row0 col0 nx ny NL
  | .cyl => cylFkCnumF E.S E.G P F cs row0 col0 nx ny NL

/-- `fkG_num` of either model for a laminate known at each point. -/
def fkGnumF (E : Env K) (k : Kind) (P : Panel K) (F : ℕ → ℕ → ℕ → ℕ → K) (cs : ℕ → K)
    (row0 col0 nx ny NL : ℕ) (N1 N2 N3 : K) : Coo K :=
  match k with
  | .plate => plateFkGnumF E.S E.G P F cs row0 col0 nx ny NL N1 N2 N3
  | .cyl => cylFkGnumF E.S E.G P F cs row0 col0 nx ny NL N1 N2 N3

theorem fkCnum_eq (E : Env K) (k : Kind) (P : Panel K) (inp : LamInput K) (cs : ℕ → K)
    (row0 col0 nx ny NL : ℕ) : fkCnum E k P inp cs row0 col0 nx ny NL
      = (lamAt nx ny inp).map fun F => fkCnumF E k P F cs row0 col0 nx ny NL := by
  cases k <;> rfl

theorem fkGnum_eq (E : Env K) (k : Kind) (P : Panel K) (inp : LamInput K) (cs : ℕ → K)
    (row0 col0 nx ny NL : ℕ) (N1 N2 N3 : K) : fkGnum E k P inp cs row0 col0 nx ny NL N1 N2 N3
      = (lamAt nx ny inp).map fun F => fkGnumF E k P F cs row0 col0 nx ny NL N1 N2 N3 := by
  cases k <;> rfl

theorem fkCnumF_sparse (E : Env K) (k : Kind) (P : Panel K) (F : ℕ → ℕ → ℕ → ℕ → K) (cs : ℕ → K)
    {row0 col0 size : ℕ} (nx ny NL : ℕ) (h : InSize P row0 col0 size) :
    toSparse size (fkCnumF E k P F cs row0 col0 nx ny NL)
      = .ok (fkCnumF E k P F cs row0 col0 nx ny NL) := by
  cases k
  · exact toSparse_fits P (C24.plateFkCnumF_fits ..) h pos_fdim
  · exact toSparse_fits P (C24.cylFkCnumF_fits ..) h pos_fdim

theorem fkGnumF_sparse (E : Env K) (k : Kind) (P : Panel K) (F : ℕ → ℕ → ℕ → ℕ → K) (cs : ℕ → K)
    {row0 col0 size : ℕ} (nx ny NL : ℕ) (N1 N2 N3 : K) (h : InSize P row0 col0 size) :
    toSparse size (fkGnumF E k P F cs row0 col0 nx ny NL N1 N2 N3)
      = .ok (fkGnumF E k P F cs row0 col0 nx ny NL N1 N2 N3) := by
  cases k
  · exact toSparse_fits P (C24.plateFkGnumF_fits ..) h pos_fdim
  · exact toSparse_fits P (C24.cylFkGnumF_fits ..) h pos_fdim

/-- What a successful rebuild guarantees to the calculations that follow. -/
theorem rebuild_built (E : Env K) (s t : Shell K) (h : s.rebuild E = .ok t) :
    ∃ k lam F, t.fixR.built = .ok (k, lam, F) ∧ t.model.bind kindOf = some k ∧ t.lam = some lam ∧
      t.ABD = some F := by
  obtain ⟨⟨k, hk⟩, -, -, -, lam, -, rfl⟩ := (C54.rebuild_ok_iff E s t).1 h
  refine ⟨k, _, _, ?_, by simpa using hk, rfl, rfl⟩
  simp [Shell.built, Shell.fixR, hk]

end Verif
