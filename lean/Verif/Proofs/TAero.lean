import Verif.Proofs.TState
import Verif.Props.C22

/-!
# Aerodynamic matrix of the panel with a T stiffener
-/

set_option linter.unusedSectionVars false

namespace Verif

open Model Spec

/-- Work of the pressure caused by the motion `d` on the motion `c` of one panel of an assembly, by the
quadrature rule of the panel. -/
noncomputable def panelAir (E : Env ℝ) (A : Assy ℝ) (alongX : Bool) (beta gamma : ℝ) (d c : ℕ → ℝ)
    (k : ℕ) : ℝ :=
  let s := (A.part k).shell
  gaussP E.G (max s.nx s.pan.m) (max s.ny s.pan.n) s.panel fun _ _ x y =>
    if alongX then
      C22.pistonX beta gamma (u E.S s.panel (A.start k) d 2) (u E.S s.panel (A.start k) c 2) x y
    else C22.pistonY beta (u E.S s.panel (A.start k) d 2) (u E.S s.panel (A.start k) c 2) x y

theorem follows_exists {M : ℝ} (hM : 1 ≤ M) (V rho r : ℝ) : ∃ b g, C23.Follows M V rho r b g := by
  have hq := (C23.root_pos hM).ne'
  refine ⟨rho * V ^ 2 / Real.sqrt (C23.mach M ^ 2 - 1), if r = 0 then 0 else
    rho * V ^ 2 / Real.sqrt (C23.mach M ^ 2 - 1) / (2 * r * Real.sqrt (C23.mach M ^ 2 - 1)), ?_, ?_, ?_⟩
  · field_simp
  · intro h
    rw [if_neg h]
    field_simp
  · intro h
    rw [if_pos h]

variable {E : Env ℝ} {q : TArgs ℝ} {x1u : ℝ} {dn : ℕ} {T : ℕ → Shell ℝ} {lam : ℕ → LamObj ℝ}

theorem skin_flow {k : ℕ} (hk : k < 9) :
    (q.part x1u dn k).shell.Mach = q.Mach ∧ (q.part x1u dn k).shell.V = q.airSpeed ∧
      (q.part x1u dn k).shell.rhoAir = q.rhoAir ∧ (q.part x1u dn k).shell.flow = q.flow ∧
      (q.part x1u dn k).shell.beta = none ∧ (q.part x1u dn k).shell.r = q.r := by
  interval_cases k <;> exact ⟨rfl, rfl, rfl, rfl, rfl, rfl⟩

/-- The loop over the skin. -/
theorem TBuilt.aero (h : TBuilt E q x1u dn T lam) {Mc V rho beta gamma : ℝ} (hM : q.Mach = some Mc)
    (h1 : 1 ≤ Mc) (hV : q.airSpeed = some V) (hr : q.rhoAir = some rho)
    (hx : q.flow = "x" ∨ q.flow = "X" ∨ q.flow = "y" ∨ q.flow = "Y")
    (hF : C23.Follows Mc V rho (q.r.getD 0) beta gamma) (l : List ℕ) (hn : l.Nodup) (hl : ∀ p ∈ l, p < 9)
    (M : Multi ℝ) (L0 : Coo ℝ) (hp : M.place = (q.assy x1u dn).multi.place)
    (hs : ∀ p ∈ l, M.shells p = (T p).fixR) :
    ∃ M' L, l.foldlM (tAeroStep Real.sqrt E (q.assy x1u dn).multi.getSize) (M, L0) = .ok (M', L) ∧
      ∀ r s, Coo.entry L r s = Coo.entry L0 r s + (l.map fun k => if r ≤ s then
        panelAir E (q.assy x1u dn) (decide (lower q.flow = "x")) beta gamma (unit r) (unit s) k else 0).sum := by
  induction l generalizing M L0 with
  | nil => exact ⟨M, L0, rfl, fun r s => by simp⟩
  | cons p l ih =>
    obtain ⟨n1, n2⟩ := List.nodup_cons.1 hn
    have hp9 := hl p List.mem_cons_self
    have hpc : p < (q.assy x1u dn).count := show p < 15 by omega
    obtain ⟨pl, hq, q0, q1⟩ := multi_place (A := q.assy x1u dn) hpc
    have qr : pl.row0 = (q.assy x1u dn).start p := by
      have := C39.blocks_partial (fun p => ((q.assy x1u dn).part p).shell) (fun _ => none)
        (List.range (q.assy x1u dn).count) none List.nodup_range p (by simpa using hpc)
      rw [List.getElem_range] at this
      have e := hq.symm.trans this
      cases e
      rfl
    have hsz : (q.assy x1u dn).start (p + 1) ≤ (q.assy x1u dn).multi.getSize := by
      rw [Assy_size]
      exact (h.fit.start_lt (show p + 1 < 15 by omega) le_rfl).le
    obtain ⟨f1, f2, f3, f4, f5, f6⟩ := skin_flow (q := q) (x1u := x1u) (dn := dn) hp9
    have hkept : (T p).fixR.Mach = some Mc ∧ (T p).fixR.V = some V ∧ (T p).fixR.rhoAir = some rho ∧
        (T p).fixR.flow = q.flow ∧ (T p).fixR.beta = none ∧ (T p).fixR.r.getD 0 = q.r.getD 0 ∧
        (T p).fixR.pan = (q.part x1u dn p).shell.pan ∧ (T p).fixR.panel = (q.part x1u dn p).shell.panel ∧
        (T p).fixR.nx = max (q.part x1u dn p).shell.nx (q.part x1u dn p).shell.pan.m ∧
        (T p).fixR.ny = max (q.part x1u dn p).shell.ny (q.part x1u dn p).shell.pan.n := by
      obtain ⟨-, -, -, -, lam', -, e⟩ := (C54.rebuild_ok_iff E _ _).1 (h.built p hpc)
      rw [e, ← hM, ← hV, ← hr, ← f1, ← f2, ← f3, ← f4, ← f5, ← f6]
      exact ⟨rfl, rfl, rfl, rfl, rfl, rfl, rfl, rfl, rfl, rfl⟩
    obtain ⟨e1, e2, e3, e4, e5, e6, e7, e8, e9, e10⟩ := hkept
    obtain ⟨k, -, -, -, hk, -⟩ := rebuild_built E _ _ (h.built p hpc)
    have hin : InSize (T p).fixR.pan ((q.assy x1u dn).start p) ((q.assy x1u dn).start p)
        ((SizeArg.num (q.assy x1u dn).multi.getSize).value (3 * (T p).fixR.pan.m * (T p).fixR.pan.n)) := by
      have : (q.assy x1u dn).start p + 3 * (T p).fixR.pan.m * (T p).fixR.pan.n
          ≤ (q.assy x1u dn).multi.getSize := by
        rw [e7]
        refine le_trans (le_of_eq ?_) hsz
        rw [Assy_start_succ hpc]
        rfl
      exact ⟨this, this⟩
    obtain ⟨L1, t, hk1⟩ := C23.exists_call (E := E) (s := (T p).fixR) false hk e1 h1 e2 e3
      (by rw [e4]; exact hx) hin
    obtain ⟨Mc', V', rho', b, g, g1, g2, g3, -, g4, g5, g6, -⟩ := C23.first_call e5 hk1
    have z1 := e1.symm.trans g1
    have z2 := e2.symm.trans g2
    have z3 := e3.symm.trans g3
    cases z1
    cases z2
    cases z3
    rw [e6] at g6
    obtain ⟨rfl, rfl⟩ := C23.follows_unique h1 g6 hF
    obtain ⟨k', b', g', M'', L2, -, -, hL, -, hfin, ht⟩ := calcKA_ok.1 hk1
    have hbg : b' = b ∧ g' = g := by
      rw [ht] at g4 g5
      exact ⟨Option.some.inj g4, Option.some.inj g5⟩
    obtain ⟨rfl, rfl⟩ := hbg
    have hfin : L1 = L2 := hfin
    subst hfin
    obtain ⟨s1, s2⟩ := h.sides hpc
    have hen := C22.fkA_entry h.smooth (s := afterKA (T p).fixR b' g' M'') (k := k')
      (by show (T p).fixR.pan.a ≠ 0; rw [e7]; exact s1.ne') (by show (T p).fixR.pan.b ≠ 0; rw [e7]; exact s2.ne') hL
    obtain ⟨M', L, hfold, hE⟩ := ih n2 (fun r hr => hl r (List.mem_cons_of_mem _ hr)) (M.setShell p t)
      (L0 ++ L1) hp (fun r hr => by
        have hne : r ≠ p := fun e => n1 (e ▸ hr)
        rw [show (M.setShell p t).shells r = M.shells r from if_neg hne]
        exact hs r (List.mem_cons_of_mem _ hr))
    refine ⟨M', L, ?_, fun r s => ?_⟩
    · rw [List.foldlM_cons]
      have : tAeroStep Real.sqrt E (q.assy x1u dn).multi.getSize (M, L0) p
          = .ok (M.setShell p t, L0 ++ L1) := by
        unfold tAeroStep
        simp only [hp, hq, hs p List.mem_cons_self, qr, q0, hk1, bind, Except.bind]
        rfl
      rw [this]
      exact hfold
    · rw [hE, Coo.entry_append, hen, List.map_cons, List.sum_cons, add_assoc]
      congr 2
      have hfl : (afterKA (T p).fixR b' g' M'').flow = q.flow := e4
      rw [hfl]
      refine if_congr Iff.rfl ?_ rfl
      unfold C22.coeff panelAir
      have hpn : (afterKA (T p).fixR b' g' M'').panel = ((q.assy x1u dn).part p).shell.panel := e8
      have hnx : (afterKA (T p).fixR b' g' M'').nx = _ := e9
      have hny : (afterKA (T p).fixR b' g' M'').ny = _ := e10
      rw [hpn, hnx, hny]
      rfl

end Verif
