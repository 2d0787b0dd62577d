import Verif.Proofs.Fext
import Verif.Proofs.RealField
import Verif.Model.Tables
import Verif.Spec.Witness
import Verif.Spec.Bardell
import Mathlib.Tactic.NormNum

/-!
# C33: external forces do the right work
-/

namespace Verif.C33

open Model Spec Finset

variable {K : Type*} [Field K]

/-- `fext · c` is the work of the constant loads plus `inc` times that of the incremented ones. -/
theorem work (S : Shape K) (G : GaussTab K) (P : Panel K) (L : Loads K) (hL : WellFormed L)
    (inc : K) (size : SizeArg) (col0 : ℕ)
    (h : col0 + 3 * P.m * P.n ≤ size.value (3 * P.m * P.n)) :
    ∃ f, shellFext S G P L inc size col0 = .ok f ∧ ∀ c,
      ∑ k ∈ range (size.value (3 * P.m * P.n)), f k * c k
        = constWork G P L (field S P col0 c) + inc * incWork G P L (field S P col0 c) := by
  obtain ⟨f, e, hw, -⟩ := shellFext_adds S G P L hL inc size col0 h
  exact ⟨f, e, hw⟩

/-- Nothing is written outside the block of the panel. -/
theorem outside (S : Shape K) (G : GaussTab K) (P : Panel K) (L : Loads K) (hL : WellFormed L)
    (inc : K) (size : SizeArg) (col0 : ℕ)
    (h : col0 + 3 * P.m * P.n ≤ size.value (3 * P.m * P.n)) (f : ℕ → K)
    (hf : shellFext S G P L inc size col0 = .ok f) (k : ℕ)
    (hk : k < col0 ∨ col0 + 3 * P.m * P.n ≤ k) : f k = 0 := by
  obtain ⟨f', e, -, ho⟩ := shellFext_adds S G P L hL inc size col0 h
  rw [e] at hf
  cases hf
  exact ho k (by omega)

/-- Unit vector. -/
def unit (k q : ℕ) : K := if q = k then 1 else 0

/-- The force vector itself: element `k` is the work on the unit vector `k`. -/
theorem element (S : Shape K) (G : GaussTab K) (P : Panel K) (L : Loads K) (hL : WellFormed L)
    (inc : K) (size : SizeArg) (col0 : ℕ)
    (h : col0 + 3 * P.m * P.n ≤ size.value (3 * P.m * P.n)) (f : ℕ → K)
    (hf : shellFext S G P L inc size col0 = .ok f) (k : ℕ) (hk : k < size.value (3 * P.m * P.n)) :
    f k = constWork G P L (field S P col0 (unit k)) + inc * incWork G P L (field S P col0 (unit k)) := by
  obtain ⟨f', e, hw⟩ := work S G P L hL inc size col0 h
  rw [e] at hf
  cases hf
  rw [← hw]
  simp [unit, sum_ite_eq', hk]

/-- The vector is affine in `inc`. -/
theorem affine (S : Shape K) (G : GaussTab K) (P : Panel K) (L : Loads K) (hL : WellFormed L)
    (size : SizeArg) (col0 : ℕ) (h : col0 + 3 * P.m * P.n ≤ size.value (3 * P.m * P.n)) :
    ∃ f0 f1 : ℕ → K, ∀ inc, ∃ f, shellFext S G P L inc size col0 = .ok f ∧
      ∀ k, f k = f0 k + inc * f1 k := by
  refine ⟨fun k => if k < size.value (3 * P.m * P.n) then
      constWork G P L (field S P col0 (unit k)) else 0,
    fun k => if k < size.value (3 * P.m * P.n) then
      incWork G P L (field S P col0 (unit k)) else 0, fun inc => ?_⟩
  obtain ⟨f, e, -⟩ := work S G P L hL inc size col0 h
  refine ⟨f, e, fun k => ?_⟩
  beta_reduce
  by_cases hk : k < size.value (3 * P.m * P.n)
  · rw [if_pos hk, if_pos hk, element S G P L hL inc size col0 h f e k hk]
  · rw [if_neg hk, if_neg hk, outside S G P L hL inc size col0 h f e k (by omega)]; ring

theorem work_both (G : GaussTab K) (P : Panel K) (L M : Loads K) (U : ℕ → K → K → K) :
    constWork G P (both L M) U = constWork G P L U + constWork G P M U ∧
      incWork G P (both L M) U = incWork G P L U + incWork G P M U := by
  simp only [constWork, incWork, both, List.map_append, List.sum_append]
  constructor <;> ring

/-- Loads superpose. -/
theorem additive (S : Shape K) (G : GaussTab K) (P : Panel K) (L M : Loads K) (hL : WellFormed L)
    (hM : WellFormed M) (inc : K) (size : SizeArg) (col0 : ℕ)
    (h : col0 + 3 * P.m * P.n ≤ size.value (3 * P.m * P.n)) :
    ∃ f g s, shellFext S G P L inc size col0 = .ok f ∧ shellFext S G P M inc size col0 = .ok g ∧
      shellFext S G P (both L M) inc size col0 = .ok s ∧ ∀ k, s k = f k + g k := by
  have hB : WellFormed (both L M) := by
    intro l hl
    simp only [both, List.mem_append] at hl
    have h1 := hL l
    have h2 := hM l
    simp only [List.mem_append] at h1 h2
    tauto
  obtain ⟨f, ef, -⟩ := work S G P L hL inc size col0 h
  obtain ⟨g, eg, -⟩ := work S G P M hM inc size col0 h
  obtain ⟨s, es, -⟩ := work S G P (both L M) hB inc size col0 h
  refine ⟨f, g, s, ef, eg, es, fun k => ?_⟩
  by_cases hk : k < size.value (3 * P.m * P.n)
  · rw [element S G P L hL inc size col0 h f ef k hk, element S G P M hM inc size col0 h g eg k hk,
      element S G P _ hB inc size col0 h s es k hk, (work_both G P L M _).1, (work_both G P L M _).2]
    ring
  · rw [outside S G P L hL inc size col0 h f ef k (by omega),
      outside S G P M hM inc size col0 h g eg k (by omega),
      outside S G P _ hB inc size col0 h s es k (by omega), add_zero]

/-! ## The recording methods -/

/-- The recording methods only add records that fix exactly one coordinate. -/
theorem wellFormed_add (L : Loads K) (hL : WellFormed L) [DecidableEq K] :
    (∀ x y fx fy fz cte, WellFormed (L.addPointLoad x y fx fy fz cte)) ∧
    (∀ x y ku up kv vp kw wp cte, WellFormed (L.addPointPd x y ku up kv vp kw wp cte)) ∧
    (∀ x fx fy fz cte M, L.addDistrLoadFixedX x fx fy fz cte = .ok M → WellFormed M) ∧
    (∀ y fx fy fz cte M, L.addDistrLoadFixedY y fx fy fz cte = .ok M → WellFormed M) ∧
    (∀ x ku kv kw fu fv fw cte M,
      L.addDistrPdFixedX x ku kv kw fu fv fw cte = .ok M → WellFormed M) ∧
    (∀ y ku kv kw fu fv fw cte M,
      L.addDistrPdFixedY y ku kv kw fu fv fw cte = .ok M → WellFormed M) := by
  have hl := hL
  unfold WellFormed at hl
  simp only [List.mem_append] at hl
  have ex : ∀ (x : K) f g h, OnLine (⟨some x, none, f, g, h⟩ : DLoad K) := fun x f g h => by
    simp [OnLine]
  have ey : ∀ (y : K) f g h, OnLine (⟨none, some y, f, g, h⟩ : DLoad K) := fun x f g h => by
    simp [OnLine]
  refine ⟨?_, ?_, ?_, ?_, ?_, ?_⟩
  · intro x y fx fy fz cte
    cases cte <;> exact hL
  · intro x y ku up kv vp kw wp cte
    cases cte <;> exact hL
  · intro x fx fy fz cte M h
    unfold Loads.addDistrLoadFixedX at h
    split at h
    · cases h
    · cases cte <;> simp only [if_true, Bool.false_eq_true, if_false, Except.ok.injEq] at h <;>
        subst h <;> intro l hm <;> simp only [List.mem_append, List.mem_singleton] at hm <;>
        rcases hm with ((hm | hm) | hm) | hm <;> (try rcases hm with hm | rfl) <;>
        first | exact ex _ _ _ _ | exact hl l (by tauto)
  · intro x fx fy fz cte M h
    unfold Loads.addDistrLoadFixedY at h
    split at h
    · cases h
    · cases cte <;> simp only [if_true, Bool.false_eq_true, if_false, Except.ok.injEq] at h <;>
        subst h <;> intro l hm <;> simp only [List.mem_append, List.mem_singleton] at hm <;>
        rcases hm with ((hm | hm) | hm) | hm <;> (try rcases hm with hm | rfl) <;>
        first | exact ey _ _ _ _ | exact hl l (by tauto)
  · intro x ku kv kw fu fv fw cte M h
    unfold Loads.addDistrPdFixedX at h
    split at h
    · cases h
    split at h
    · cases h
    cases hu : pdFunc ku fu <;> cases hv : pdFunc kv fv <;> cases hw : pdFunc kw fw <;>
      rw [hu, hv, hw] at h <;> simp only [bind, Except.bind, pure, Except.pure, reduceCtorEq] at h
    cases cte <;> simp only [if_true, Bool.false_eq_true, if_false, Except.ok.injEq] at h <;>
        subst h <;> intro l hm <;> simp only [List.mem_append, List.mem_singleton] at hm <;>
        rcases hm with ((hm | hm) | hm) | hm <;> (try rcases hm with hm | rfl) <;>
        first | exact ex _ _ _ _ | exact hl l (by tauto)
  · intro x ku kv kw fu fv fw cte M h
    unfold Loads.addDistrPdFixedY at h
    split at h
    · cases h
    split at h
    · cases h
    cases hu : pdFunc ku fu <;> cases hv : pdFunc kv fv <;> cases hw : pdFunc kw fw <;>
      rw [hu, hv, hw] at h <;> simp only [bind, Except.bind, pure, Except.pure, reduceCtorEq] at h
    cases cte <;> simp only [if_true, Bool.false_eq_true, if_false, Except.ok.injEq] at h <;>
        subst h <;> intro l hm <;> simp only [List.mem_append, List.mem_singleton] at hm <;>
        rcases hm with ((hm | hm) | hm) | hm <;> (try rcases hm with hm | rfl) <;>
        first | exact ey _ _ _ _ | exact hl l (by tauto)

/-- A point load adds exactly its own work, scaled by `inc` only if it is not constant. -/
theorem point_load_work (G : GaussTab K) (P : Panel K) (L : Loads K) (x y fx fy fz inc : K)
    (cte : Bool) (U : ℕ → K → K → K) :
    constWork G P (L.addPointLoad x y fx fy fz cte) U
        + inc * incWork G P (L.addPointLoad x y fx fy fz cte) U
      = constWork G P L U + inc * incWork G P L U
        + (if cte then 1 else inc) * (fx * U 0 x y + fy * U 1 x y + fz * U 2 x y) := by
  cases cte <;>
  · simp only [Loads.addPointLoad, constWork, incWork, List.map_append, List.sum_append,
      List.map_cons, List.map_nil, List.sum_cons, List.sum_nil, pointWork, if_true,
      Bool.false_eq_true, if_false]
    ring

/-! ## One term per direction -/

/-- Finding: with a single term along the line the quadrature table has no rule, and a distributed
load disappears without a message. -/
theorem one_term_vanishes (P : Panel K) (hm : P.m = 1) (y : K) (fx fy fz : Option (K → K))
    (U : ℕ → K → K → K) : distrWork (gaussTab K) P U ⟨none, some y, fx, fy, fz⟩ = 0 := by
  have h : (gaussTab K).wt 1 0 = 0 := by
    simp [gaussTab, gaussPair, dec]
  simp [distrWork, lineQuad, hm, h]

/-- Loads of both kinds on the witness panel. -/
def loads : Loads ℚ where
  pointLoads := [⟨1, 1 / 2, 1, 2, 3⟩]
  pointLoadsInc := [⟨3, 1 / 2, 0, 0, 1⟩]
  distrLoads := [⟨some 3, none, some fun y => y, none, none⟩]
  distrLoadsInc := [⟨none, some 1, none, some fun _ => 1, none⟩]

theorem loads_wf : WellFormed loads := by
  intro l hl
  simp only [loads, List.append_assoc, List.mem_append, List.mem_singleton, List.not_mem_nil,
    or_false] at hl
  rcases hl with rfl | rfl <;> simp [OnLine]

example : ∃ f, shellFext (bardellShape ℚ) (gaussTab ℚ) Witness.panel loads (1 / 2) (.num 300) 100
      = .ok f ∧ ∀ c, ∑ k ∈ range 300, f k * c k
        = constWork (gaussTab ℚ) Witness.panel loads (field (bardellShape ℚ) Witness.panel 100 c)
          + 1 / 2 * incWork (gaussTab ℚ) Witness.panel loads
            (field (bardellShape ℚ) Witness.panel 100 c) :=
  work _ _ _ _ loads_wf _ _ _ (by norm_num [Witness.panel, SizeArg.value])

end Verif.C33
