import Verif.Proofs.ConnLoop
import Verif.Basic.Exc
import Verif.Props.C45
import Verif.Model.Bay

/-!
# C44: the penalties of two panels

What the penalty constants of a joint are in terms of the laminates of the two panels joined: along an
edge `x = const` the stiffnesses along `x` count, along `y = const` those along `y`.
-/

namespace Verif.C44

open Model

variable {K : Type} [Field K] [LinearOrder K]

/-- The constant of two stiffnesses: twice their harmonic mean by the sum of the thicknesses. -/
def mean (s t h k : K) : K := 4 * s * t / ((s + t) * (h + k))

variable {E : Env K} {M M' : Multi K} {A B : ℕ} {kt : K} {kr : Option K}

/-- The panels as they are after the calculation, and their laminates. -/
structure Used (E : Env K) (M M' : Multi K) (A B : ℕ) (lA lB : LamObj K) : Prop where
  first : (M.shells A).rebuild E = .ok (M'.shells A)
  second : (M.shells B).rebuild E = .ok (M'.shells B)
  lamA : (M'.shells A).lam = some lA
  lamB : (M'.shells B).lam = some lB
  others : ∀ p, p ≠ A → p ≠ B → M'.shells p = M.shells p

theorem used {ct : String} (h : ktkr E M A B ct = .ok ((kt, kr), M')) :
    ∃ lA lB, Used E M M' A B lA lB ∧
      calcKtKr (penOf (M'.shells A) lA) (penOf (M'.shells B) lB) ct = some (kt, kr) := by
  obtain ⟨tA, tB, lA, lB, hA, hB, hlA, hlB, hk, e, e1, e2⟩ := ktkr_ok E M M' A B ct _ h
  refine ⟨lA, lB, ⟨by rw [e1]; exact hA, by rw [e2]; exact hB, by rw [e1]; exact hlA,
    by rw [e2]; exact hlB, fun p h1 h2 => ?_⟩, by rw [e1, e2]; exact hk⟩
  rw [e]
  simp only [Multi.setShell, h1, h2, if_false]

/-- A joint along `x = const`. -/
theorem used_x (h : ktkr E M A B "xcte" = .ok ((kt, kr), M')) : ∃ lA lB, Used E M M' A B lA lB ∧
    kt = mean (lA.ABD 0 0) (lB.ABD 0 0) lA.h lB.h ∧
    kr = some (mean (lA.ABD 3 3) (lB.ABD 3 3) lA.h lB.h) := by
  obtain ⟨lA, lB, hu, hk⟩ := used h
  have hl : lower "xcte" = "xcte" := by decide +kernel
  simp only [calcKtKr, hl, if_true, Option.some.injEq, Prod.mk.injEq] at hk
  exact ⟨lA, lB, hu, hk.1.symm, hk.2.symm⟩

theorem ycte (p q : PenLam K) : calcKtKr p q "ycte" = some (mean p.A22 q.A22 p.h q.h,
    some (mean p.D22 q.D22 p.h q.h)) := by
  have hl : lower "ycte" = "ycte" := by decide +kernel
  have hn : ¬ "ycte" = "xcte" := by decide
  simp only [calcKtKr, hl, hn, if_true, if_false, mean]

/-- A joint along `y = const`. -/
theorem used_y (h : ktkr E M A B "ycte" = .ok ((kt, kr), M')) : ∃ lA lB, Used E M M' A B lA lB ∧
    kt = mean (lA.ABD 1 1) (lB.ABD 1 1) lA.h lB.h ∧
    kr = some (mean (lA.ABD 4 4) (lB.ABD 4 4) lA.h lB.h) := by
  obtain ⟨lA, lB, hu, hk⟩ := used h
  simp only [ycte, Option.some.injEq, Prod.mk.injEq] at hk
  exact ⟨lA, lB, hu, hk.1.symm, hk.2.symm⟩

/-- A joint of two faces: by the smaller side of the first panel. -/
theorem used_face (h : ktkr E M A B "bot-top" = .ok ((kt, kr), M')) : ∃ lA lB, Used E M M' A B lA lB ∧
    kt = mean (lA.ABD 0 0) (lB.ABD 0 0) lA.h lB.h / min (M.shells A).pan.a (M.shells A).pan.b ∧
    kr = none := by
  obtain ⟨lA, lB, hu, hk⟩ := used h
  have hl : lower "bot-top" = "bot-top" := by decide +kernel
  have h1 : ¬ "bot-top" = "xcte" := by decide
  have h2 : ¬ "bot-top" = "ycte" := by decide
  simp only [calcKtKr, hl, h1, h2, if_true, if_false, Option.some.injEq, Prod.mk.injEq] at hk
  have hp : (M'.shells A).pan = (M.shells A).pan := (rebuild_kept E hu.first).1
  refine ⟨lA, lB, hu, ?_, hk.2.symm⟩
  rw [← hk.1, ← hp]
  rfl

/-- The joint of the flange of a stiffener, along `y = const`. -/
theorem used_flange {p q p' q' : Shell K} {k : K × K} (h : ktkrY E p q = .ok (k, p', q')) :
    ∃ l l', p.rebuild E = .ok p' ∧ q.rebuild E = .ok q' ∧ p'.lam = some l ∧ q'.lam = some l' ∧
      k = (mean (l.ABD 1 1) (l'.ABD 1 1) l.h l'.h, mean (l.ABD 4 4) (l'.ABD 4 4) l.h l'.h) := by
  unfold ktkrY at h
  obtain ⟨a, ha, h⟩ := bind_ok.1 h
  obtain ⟨b, hb, h⟩ := bind_ok.1 h
  cases hl : a.lam with
  | none => rw [hl] at h; cases h
  | some l =>
    cases hl' : b.lam with
    | none => rw [hl, hl'] at h; cases h
    | some l' =>
      rw [hl, hl'] at h
      simp only [ycte] at h
      cases h
      exact ⟨l, l', ha, hb, hl, hl', rfl⟩

/-- The two panels of `C45` have all three. -/
example : (∃ x, ktkr C45.env C45.two 0 1 "xcte" = .ok x) ∧ (∃ x, ktkr C45.env C45.two 0 1 "ycte" = .ok x) ∧
    ∃ x, ktkr C45.env C45.two 0 1 "bot-top" = .ok x :=
  ⟨exists_ok (by decide +kernel), exists_ok (by decide +kernel), exists_ok (by decide +kernel)⟩

example : ∃ x, ktkrY C45.env (C45.shells 0) (C45.shells 1) = .ok x := exists_ok (by decide +kernel)

end Verif.C44
