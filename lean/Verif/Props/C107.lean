import Verif.Proofs.Flat
import Verif.Proofs.EntryForm
import Verif.Proofs.TState
import Verif.Props.C80Ready

/-!
# C107: linear buckling is exact for a panel that stays flat

A state `c` without deflection; the loads grow in proportion, `p c`.
`equilibrium`: along it the internal force is `p` times the linear stiffness times `c`.
`tangent`: the tangent stiffness at `p c` is the linear stiffness plus `p` times the linear geometric
stiffness about `c`; loads given beside the state do not grow with it.
`singular`: so the tangent is singular exactly at the critical multipliers of linear buckling,
`stable`, `held`: and is positive definite exactly below the first.
-/

set_option linter.unusedSectionVars false

namespace Verif.C107

open Model Spec Indep C16

variable {E : Env ℝ} {s t : Shell ℝ} {A : KArgs ℝ} {c : ℕ → ℝ}

/-- No deflection. -/
def Flat (S : Shape ℝ) (P : Panel ℝ) (s0 : ℕ) (c : ℕ → ℝ) : Prop := ∀ x y, u S P s0 c 2 x y = 0

/-- The arguments with the state `p c`. -/
noncomputable def at_ (t : Shell ℝ) (A : KArgs ℝ) (c : ℕ → ℝ) (p : ℝ) : KArgs ℝ :=
  { A with c := some (.vec (C38.sizeOf (3 * t.pan.m * t.pan.n) A.size) fun k => p * c k) }

/-- The arguments of the linear analysis. -/
def linear (A : KArgs ℝ) : KArgs ℝ := { A with cCte := none, NLgeom := false }

theorem documented (h : Call E s t A c) :
    C38.Documented t { A with cCte := none } (A.nx.getD t.nx) (A.ny.getD t.ny) :=
  ⟨fun x hx => ⟨c, by rw [h.state] at hx; exact (Option.some.inj hx).symm⟩, by simp, h.field,
    by rw [h.place.1]; exact h.place.2, h.place.2⟩

theorem call_at (h : Call E s t A c) (p : ℝ) : Call E s t (at_ t A c p) fun k => p * c k :=
  ⟨h.built, h.smooth, h.sides, h.curved, h.free, h.place, rfl, h.whole, h.field, h.sym⟩

theorem quad_pair {L : Coo ℝ} (h : C80.Sym L) (i j : ℕ) : Coo.quad L (fun k => unit i k + 1 * unit j k)
    = Coo.quad L (unit i) + Coo.quad L (unit j) + 2 * Coo.entry L i j := by
  unfold Coo.quad
  rw [Coo.bilin_add_left, Coo.bilin_add_right, Coo.bilin_add_right, ← Coo.entry_bilin, ← Coo.entry_bilin,
    ← Coo.entry_bilin, ← Coo.entry_bilin, h j i]
  ring

/-- A symmetric matrix is known from its quadratic form. -/
theorem entry_of_quad {T K G : Coo ℝ} (hT : C80.Sym T) (hK : C80.Sym K) (hG : C80.Sym G) {p : ℝ}
    (h : ∀ d, Coo.quad T d = Coo.quad K d + p * Coo.quad G d) (i j : ℕ) :
    Coo.entry T i j = Coo.entry K i j + p * Coo.entry G i j := by
  have e := h fun k => unit i k + 1 * unit j k
  rw [quad_pair hT, quad_pair hK, quad_pair hG, h (unit i), h (unit j)] at e
  linarith

section
variable {k : Kind} {F : ℕ → ℕ → ℝ} (h : Call E s t A c) (hk : t.model.bind kindOf = some k) (hF : t.ABD = some F)
include h hk hF

theorem linear_kC : s.calcKC E (linear A) = .ok (Coo.finalizeSym (fkCnumF E k t.panel (C38.lamField F A.ABDnxny)
    (fun _ => 0) A.col0 A.col0 (A.nx.getD t.nx) (A.ny.getD t.ny) 0), t.fixR) := by
  obtain ⟨k', lam, F', hk', hl, hF', eC⟩ := C38.outcome_partial E s t (linear A) h.built
    ⟨(documented h).c, by simp [linear], h.field, (documented h).row, h.place.2⟩ (by simp [linear]) (by simp [linear])
  cases hk.symm.trans hk'
  cases hF.symm.trans hF'
  have wC : C38.wantC E k t.fixR.panel lam.ABD F (linear A) (A.nx.getD t.nx) (A.ny.getD t.ny)
      = fkCnumF E k t.panel (C38.lamField F A.ABDnxny) (fun _ => 0) A.col0 A.col0 (A.nx.getD t.nx) (A.ny.getD t.ny)
        0 := by
    unfold C38.wantC
    rw [if_neg (by simp [linear, h.state])]
    simp only [linear, Bool.false_eq_true, if_false, h.place.1]
    rfl
  have wG : C38.wantG E k t.fixR F (linear A) (A.nx.getD t.nx) (A.ny.getD t.ny) = [] := by
    unfold C38.wantG
    exact if_pos ⟨rfl, h.free⟩
  have ew : (linear A).finalize = true := h.whole
  rw [show (linear A).nx = A.nx from rfl, show (linear A).ny = A.ny from rfl, wC, wG, List.append_nil, ew] at eC
  rw [eC, fin, if_pos rfl]

theorem linear_kG : s.calcKG E (linear A) = .ok (Coo.finalizeSym (fkGnumF E k t.panel (C38.lamField F A.ABDnxny)
    c A.col0 A.col0 (A.nx.getD t.nx) (A.ny.getD t.ny) 0 t.Nxx t.Nyy t.Nxy), t.fixR) := by
  obtain ⟨k', F', hk', hF', eG⟩ := calcKG_state E s t A h.built (documented h) (by rw [h.state]; simp)
  cases hk.symm.trans hk'
  cases hF.symm.trans hF'
  have e2 : C38.coef A.c = c := by rw [h.state]; rfl
  refine Eq.trans eG ?_
  rw [h.whole, h.place.1, e2, fin, if_pos rfl]
  rfl

theorem tangent_kT (p : ℝ) : s.calcKT E (at_ t A c p) = .ok
    (Coo.finalizeSym (fkCnumF E k t.panel (C38.lamField F A.ABDnxny) (fun j => p * c j)
          A.col0 A.col0 (A.nx.getD t.nx) (A.ny.getD t.ny) 1)
      ++ Coo.finalizeSym (fkGnumF E k t.panel (C38.lamField F A.ABDnxny) (fun j => p * c j)
          A.col0 A.col0 (A.nx.getD t.nx) (A.ny.getD t.ny) 1 t.Nxx t.Nyy t.Nxy), t.fixR) := by
  obtain ⟨k2, F2, hk2, hF2, eT⟩ := calcKT_eq E s t (at_ t A c p) h.built (documented (call_at h p)) (by simp [at_]) h.free
  cases hk.symm.trans hk2
  cases hF.symm.trans hF2
  have e1 : (at_ t A c p).finalize = true := h.whole
  have e2 : (at_ t A c p).row0 = A.col0 := h.place.1
  rw [e1, e2, fin, if_pos rfl, fin, if_pos rfl] at eT
  exact eT

end

theorem sides (h : Call E s t A c) : t.panel.a ≠ 0 ∧ t.panel.b ≠ 0 := by
  obtain ⟨-, -, -, -, lam, -, rfl⟩ := (C54.rebuild_ok_iff E s t).1 h.built
  exact h.sides

/-- Work of the loads given beside the state. -/
noncomputable def beside (E : Env ℝ) (t : Shell ℝ) (A : KArgs ℝ) (d : ℕ → ℝ) : ℝ :=
  gaussP E.G (A.nx.getD t.nx) (A.ny.getD t.ny) t.panel fun _ _ x y =>
    C19.initialStress (membrane t) (u E.S t.panel A.col0 d 2) x y

/-- **Equilibrium.**  Linear stiffness and internal force. -/
theorem equilibrium (h : Call E s t A c) (hc : Flat E.S t.panel A.col0 c) :
    ∃ (K : Coo ℝ) (w : Shell ℝ) (f : ℝ → VecW ℝ), s.calcKC E (linear A) = .ok (K, w) ∧
      (∀ p, w.calcFint E (.vec (C38.sizeOf (3 * t.pan.m * t.pan.n) A.size) fun k => p * c k) A.size A.col0 A.nx A.ny
        A.ABDnxny = .ok (f p, w)) ∧ ∀ p d, vdot (f p) d = p * Coo.bilin K d c := by
  obtain ⟨k, lam, F, -, hk, -, hF⟩ := rebuild_built E s t h.built
  refine ⟨_, _, fun p => fintF E k t.panel (C38.lamField F A.ABDnxny) (fun j => p * c j) A.col0
    (A.nx.getD t.nx) (A.ny.getD t.ny), linear_kC h hk hF, fun p => ?_, fun p d => ?_⟩
  · exact calcFint_eq E t.fixR hk hF A.size A.col0 A.nx A.ny A.ABDnxny h.field h.place.2 _
  · exact flat_fint h.smooth (sides h).1 (sides h).2 k (fun e => h.curved (by rw [hk, e])) _ (h.sym F hF) hc p _ d _ _

/-- **Tangent.**  Linear stiffness, linear geometric stiffness and tangent. -/
theorem tangent (h : Call E s t A c) (hc : Flat E.S t.panel A.col0 c) :
    ∃ (K G : Coo ℝ) (w : Shell ℝ), s.calcKC E (linear A) = .ok (K, w) ∧ s.calcKG E (linear A) = .ok (G, w) ∧
      C80.Sym K ∧ C80.Sym G ∧ ∀ p, ∃ T, s.calcKT E (at_ t A c p) = .ok (T, w) ∧ C80.Sym T ∧
        ∀ d, Coo.quad T d = Coo.quad K d + p * Coo.quad G d + (1 - p) * beside E t A d := by
  obtain ⟨k, lam, F, -, hk, -, hF⟩ := rebuild_built E s t h.built
  refine ⟨_, _, _, linear_kC h hk hF, linear_kG h hk hF, sym_finalize _, sym_finalize _, fun p =>
    ⟨_, tangent_kT h hk hF p, sym_append (sym_finalize _) (sym_finalize _), fun d => ?_⟩⟩
  rw [Coo.quad_append, flat_kC h.smooth (sides h).1 (sides h).2 k (fun e => h.curved (by rw [hk, e])) _ (h.sym F hF) hc p
    (fun _ => 0) d, flat_kG h.smooth (sides h).1 (sides h).2 k _ (h.sym F hF) hc p d, add_assoc]
  congr 3
  refine gaussP_congr fun _ _ _ _ x y => ?_
  simp only [stressDens, C19.initialStress, membrane, u_dx h.smooth, u_dy h.smooth]
  norm_num

/-- Without other loads, entry by entry. -/
theorem entries (h : Call E s t A c) (hc : Flat E.S t.panel A.col0 c) (hN : t.Nxx = 0 ∧ t.Nyy = 0 ∧ t.Nxy = 0) :
    ∃ (K G : Coo ℝ) (w : Shell ℝ), s.calcKC E (linear A) = .ok (K, w) ∧ s.calcKG E (linear A) = .ok (G, w) ∧
      C80.Sym K ∧ C80.Sym G ∧ ∀ p, ∃ T, s.calcKT E (at_ t A c p) = .ok (T, w) ∧
        (∀ i j, Coo.entry T i j = Coo.entry K i j + p * Coo.entry G i j) ∧
        ∀ d, Coo.quad T d = Coo.quad K d + p * Coo.quad G d := by
  obtain ⟨K, G, w, h1, h2, h3, h4, h5⟩ := tangent h hc
  have z : ∀ d, beside E t A d = 0 := fun d => by
    simp [beside, C19.initialStress, membrane, hN, gaussP, gauss]
  refine ⟨K, G, w, h1, h2, h3, h4, fun p => ?_⟩
  obtain ⟨T, t1, t2, t3⟩ := h5 p
  have q : ∀ d, Coo.quad T d = Coo.quad K d + p * Coo.quad G d := fun d => by rw [t3, z, mul_zero, add_zero]
  exact ⟨T, t1, entry_of_quad t2 h3 h4 q, q⟩

/-- **Singular tangent.**  On unknowns `J`, the tangent at `p c` is singular exactly when `p` is a critical
multiplier of the linear problem. -/
theorem singular (h : Call E s t A c) (hc : Flat E.S t.panel A.col0 c) (hN : t.Nxx = 0 ∧ t.Nyy = 0 ∧ t.Nxy = 0)
    (J : Finset ℕ) : ∃ (K G : Coo ℝ) (w : Shell ℝ), s.calcKC E (linear A) = .ok (K, w) ∧
      s.calcKG E (linear A) = .ok (G, w) ∧ ∀ p : ℝ, ∃ T, s.calcKT E (at_ t A c p) = .ok (T, w) ∧
        ((∃ z : ℕ → ℂ, (∃ k ∈ J, z k ≠ 0) ∧ ∀ k ∈ J, ∑ l ∈ J, ((Coo.entry T k l : ℝ) : ℂ) * z l = 0) ↔ Critical J K G p) := by
  obtain ⟨K, G, w, h1, h2, -, -, h5⟩ := entries h hc hN
  refine ⟨K, G, w, h1, h2, fun p => ?_⟩
  obtain ⟨T, t1, t2, -⟩ := h5 p
  refine ⟨T, t1, exists_congr fun z => and_congr_right fun _ => forall₂_congr fun k _ => ?_⟩
  have e : ∑ l ∈ J, ((Coo.entry T k l : ℝ) : ℂ) * z l
      = ∑ l ∈ J, ((Coo.entry K k l : ℝ) : ℂ) * z l + p * ∑ l ∈ J, ((Coo.entry G k l : ℝ) : ℂ) * z l := by
    rw [Finset.mul_sum, ← Finset.sum_add_distrib]
    refine Finset.sum_congr rfl fun l _ => ?_
    rw [t2]
    push_cast
    ring
  rw [e]

/-- **Stable below the first.**  On unknowns `J` where the linear stiffness is positive definite, so is the tangent
at `p c` exactly while `p` is below every positive critical multiplier of the linear problem. -/
theorem stable (h : Call E s t A c) (hc : Flat E.S t.panel A.col0 c) (hN : t.Nxx = 0 ∧ t.Nyy = 0 ∧ t.Nxy = 0)
    (J : Finset ℕ) : ∃ (K G : Coo ℝ) (w : Shell ℝ), s.calcKC E (linear A) = .ok (K, w) ∧
      s.calcKG E (linear A) = .ok (G, w) ∧ (C80.Pos J K → ∀ p : ℝ, 0 ≤ p → ∃ T, s.calcKT E (at_ t A c p) = .ok (T, w) ∧
        (C80.Pos J T ↔ ∀ r : ℝ, 0 < r → Critical J K G r → p < r)) := by
  obtain ⟨K, G, w, h1, h2, h3, h4, h5⟩ := entries h hc hN
  refine ⟨K, G, w, h1, h2, fun hp p h0 => ?_⟩
  obtain ⟨T, t1, -, t2⟩ := h5 p
  refine ⟨T, t1, ?_⟩
  rw [← C80.stable_iff h4 h3 hp h0]
  simp only [C80.Pos, t2]

/-- **Held panels.**  With a laminate that is positive definite at every point and edges that prevent every motion
without strain, the tangent at `p c` is positive definite on the amplitudes that are switched on exactly while `p` is
below every positive critical multiplier of the linear problem. -/
theorem held (h : Call E s t A c) (hc : Flat E.S t.panel A.col0 c) (hN : t.Nxx = 0 ∧ t.Nyy = 0 ∧ t.Nxy = 0)
    {n : ℕ} (hS : Hier E.S n) (h4 : 4 ≤ n) (hm : t.pan.m ≤ n) (hn : t.pan.n ≤ n) (hG : E.G = gaussTab ℝ)
    (hx : (xdom t.panel).1 < (xdom t.panel).2) (hy : (ydom t.panel).1 < (ydom t.panel).2)
    (hpos : ∀ F, t.ABD = some F → ∀ p q, C76.ABDDef (C38.lamField F A.ABDnxny p q))
    (hR : C76.Rule t.panel (A.nx.getD t.nx) (A.ny.getD t.ny))
    (hE : ∀ k, t.model.bind kindOf = some k → Restrained (curv k t.panel) t.panel) :
    ∃ (K G : Coo ℝ) (w : Shell ℝ), s.calcKC E (linear A) = .ok (K, w) ∧ s.calcKG E (linear A) = .ok (G, w) ∧
      ∀ p : ℝ, 0 ≤ p → ∃ T, s.calcKT E (at_ t A c p) = .ok (T, w) ∧
        (C80.Pos (C76.actives t.panel A.col0) T ↔
          ∀ r : ℝ, 0 < r → Critical (C76.actives t.panel A.col0) K G r → p < r) := by
  obtain ⟨K, G, w, h1, h2, h3⟩ := stable h hc hN (C76.actives t.panel A.col0)
  refine ⟨K, G, w, h1, h2, h3 (C80.pos_of ?_)⟩
  obtain ⟨k, lam, F, -, hk, -, hF⟩ := rebuild_built E s t h.built
  cases h1.symm.trans (linear_kC h hk hF)
  have a := (sides h).1
  have b := (sides h).2
  have hsym := h.sym F hF
  have dA := dense_nodes (m := t.panel.m) (le_trans (by norm_num) hR.x4) hR.x64 hR.x4 hR.xm a hx
  have dB := dense_nodes (m := t.panel.n) (le_trans (by norm_num) hR.y4) hR.y64 hR.y4 hR.yn b hy
  have hp' : ∀ p q, C13.ABDPos (C38.lamField F A.ABDnxny p q) := fun p q e => (hpos F hF p q).nonneg e
  cases k with
  | plate =>
    refine (C77.definite_iff hS h4 hm hn a b 0 dA dB (fun d => ?_) fun d => ?_).1 (hE _ hk)
    · simp only [fkCnumF, hG]
      exact (C13.numerical_psd E.S t.panel a b hx.le hy.le _ hsym hp' _ d _ _ _ 0).1
    · simp only [fkCnumF, hG]
      rw [plateFkCnum_quad _ _ _ a b _ hsym]
      exact C77.gauss_zero hx hy 0 (hpos F hF) _ d _ hR (by norm_num)
  | cyl =>
    have r := h.curved hk
    refine (C77.definite_iff hS h4 hm hn a b (1 / t.panel.r) dA dB (fun d => ?_) fun d => ?_).1 (hE _ hk)
    · simp only [fkCnumF, hG]
      exact (C13.numerical_psd E.S t.panel a b hx.le hy.le _ hsym hp' _ d _ _ _ 0).2 r
    · simp only [fkCnumF, hG]
      rw [cylFkCnum_quad _ _ _ a b r _ hsym]
      exact C77.gauss_zero hx hy _ (hpos F hF) _ d _ hR (by norm_num)

/-! ## A concrete case -/

/-- Amplitudes of in-plane displacements only, none of them zero. -/
def pushed (k : ℕ) : ℝ := if k % 3 = 2 then 0 else 1

/-- The cylindrical panel of `C16`, placed in a larger matrix. -/
theorem flat_case : ∃ t, Call C16.env C16.shell t (args pushed) pushed ∧
    Flat C16.env.S t.panel (args pushed).col0 pushed ∧ (t.Nxx = 0 ∧ t.Nyy = 0 ∧ t.Nxy = 0) := by
  obtain ⟨t, h, h1, h2, h3, -⟩ := shell_call pushed
  refine ⟨t, h, fun x y => ?_, h1, h2, h3⟩
  have : ∀ i, (12 + 3 * i + 2) % 3 = 2 := fun i => by omega
  simp [u, args, pushed, this]

example : ∃ t, Flat C16.env.S t.panel 12 pushed ∧ ∀ J : Finset ℕ, ∃ (K G : Coo ℝ) (w : Shell ℝ),
    C16.shell.calcKC C16.env (linear (args pushed)) = .ok (K, w) ∧
    C16.shell.calcKG C16.env (linear (args pushed)) = .ok (G, w) ∧
    ∀ p : ℝ, ∃ T, C16.shell.calcKT C16.env (at_ t (args pushed) pushed p) = .ok (T, w) ∧
      ((∃ z : ℕ → ℂ, (∃ k ∈ J, z k ≠ 0) ∧ ∀ k ∈ J, ∑ l ∈ J, ((Coo.entry T k l : ℝ) : ℂ) * z l = 0) ↔ Critical J K G p) := by
  obtain ⟨t, h, hc, hN⟩ := flat_case
  exact ⟨t, hc, fun J => singular h hc hN J⟩

example (J : Finset ℕ) : ∃ (t : Shell ℝ) (K G : Coo ℝ) (w : Shell ℝ),
    C16.shell.calcKC C16.env (linear (args pushed)) = .ok (K, w) ∧
    C16.shell.calcKG C16.env (linear (args pushed)) = .ok (G, w) ∧
    (C80.Pos J K → ∀ p : ℝ, 0 ≤ p → ∃ T, C16.shell.calcKT C16.env (at_ t (args pushed) pushed p) = .ok (T, w) ∧
      (C80.Pos J T ↔ ∀ r : ℝ, 0 < r → Critical J K G r → p < r)) := by
  obtain ⟨t, h, hc, hN⟩ := flat_case
  exact ⟨t, stable h hc hN J⟩

/-- The edges of that panel hold it. -/
example : ∃ (t : Shell ℝ) (K G : Coo ℝ) (w : Shell ℝ),
    C16.shell.calcKC C16.env (linear (args pushed)) = .ok (K, w) ∧
    C16.shell.calcKG C16.env (linear (args pushed)) = .ok (G, w) ∧
    ∀ p : ℝ, 0 ≤ p → ∃ T, C16.shell.calcKT C16.env (at_ t (args pushed) pushed p) = .ok (T, w) ∧
      (C80.Pos (C76.actives t.panel 12) T ↔ ∀ r : ℝ, 0 < r → Critical (C76.actives t.panel 12) K G r → p < r) := by
  obtain ⟨t, h, hc, hN⟩ := flat_case
  obtain ⟨-, -, -, -, lam, hl, e⟩ := (C54.rebuild_ok_iff C16.env C16.shell t).1 h.built
  have ep : t.panel = { Witness.panel with r := 5 } := by rw [e]; rfl
  have em : t.pan = Witness.panel := by rw [e]; rfl
  have hd : lam.ABD = fun i j => if i = j then (1 : ℝ) + 1 else 0 := by
    have := Except.ok.inj hl
    rw [← this]
    simp [C16.shell, C40.shell, orFill]
  refine ⟨t, held h hc hN (exact_hier 7) (by norm_num) (by rw [em]; decide) (by rw [em]; decide) rfl ?_ ?_ ?_ ?_ ?_⟩
  · rw [ep]
    simp [xdom, Witness.panel]
  · rw [ep]
    simp [ydom, Witness.panel]
  · intro F hF p q e' ⟨s, hs, hne⟩
    rw [e] at hF
    cases hF
    simp only [C38.lamField, args, hd, C16.shell, C40.shell, lamABD]
    have : dens 6 (fun i j => if i = j then (1 : ℝ) + 1 else 0) e'
        = 2 * (e' 0 ^ 2 + e' 1 ^ 2 + e' 2 ^ 2 + e' 3 ^ 2 + e' 4 ^ 2 + e' 5 ^ 2) := by
      simp [dens, Finset.sum_range_succ]
      ring
    refine lt_of_lt_of_eq ?_ this.symm
    refine mul_pos two_pos ?_
    have hp : 0 < e' s ^ 2 := by positivity
    match s, hs with
    | 0, _ => positivity
    | 1, _ => positivity
    | 2, _ => positivity
    | 3, _ => positivity
    | 4, _ => positivity
    | 5, _ => positivity
  · rw [ep, e]
    refine ⟨?_, ?_, ?_, ?_, ?_, ?_⟩ <;> simp [args, C16.shell, C40.shell, Witness.panel]
  · intro k hk
    rw [ep]
    exact C77.supported _ (by simp [Witness.panel]) (by simp [Witness.panel]) C76.panel_supported

end Verif.C107
