import Verif.Proofs.BayRigid
import Verif.Proofs.TState

/-!
# Geometric stiffness of a bay in a given state
-/

set_option linter.unusedSectionVars false

namespace Verif

open Model Spec

section
variable {K : Type} [Field K] [LinearOrder K]

/-- A panel that accepts a state. -/
theorem calcKG_len {E : Env K} {s t : Shell K} {N M : ℕ} {f : ℕ → K} {L : Coo K}
    (h : s.calcKG E { size := .num N, finalize := false, c := some (.vec M f) } = .ok (L, t)) : M = N := by
  unfold Shell.calcKG at h
  obtain ⟨r, -, h⟩ := bind_ok.1 h
  obtain ⟨_, h1, -⟩ := bind_ok.1 h
  have h2 : checkC (.vec M f) N = .ok () := h1
  by_contra hn
  simp [checkC, hn] at h2

/-- Geometric stiffness of a bay in a state: the skin panels are in the state, the flanges are not. -/
theorem kG_state_energy (E : BayEnv K) (B B' : Bay K) (k : Coo K) (hT : C52.Terms B) (M : ℕ) (f : ℕ → K)
    (h : B.calcKG E (some (.vec M f)) = .ok (k, B')) :
    ∃ R N, B.rebuild E = .ok R ∧ R.getSize = .ok N ∧ R.blade1 = [] ∧ ∃ Qp Q2 : List ((ℕ → K) → K),
      List.Forall₂ (fun p => C52.Own (fun b => b.calcKG E.toEnv
        { c := some (.vec (3 * b.pan.m * b.pan.n) f) }) 0 (some p)) R.panels Qp ∧
      Q2.length = R.blade2.length ∧
      (∀ i s q, R.blade2[i]? = some s → Q2[i]? = some q →
        C52.Own (fun b => b.calcKG E.toEnv {}) (C52.start R i) s.flange q) ∧
      ∀ v, Coo.quad k v = (Qp.map fun q => q v).sum + (Q2.map fun q => q v).sum := by
  obtain ⟨R, N, hR, hN, Qp, Q1, Q2, g1, g2, g3, g4, g5⟩ := C52.assemble_energy hT h
    (fun p => C52.Own (fun b => b.calcKG E.toEnv
        { c := some (.vec (3 * b.pan.m * b.pan.n) f) }) 0 (some p)) (fun _ _ _ => False)
    (fun _ off s q => C52.Own (fun b => b.calcKG E.toEnv {}) off s.flange q)
    (fun R N p L t hb hp hN hf => by
      have e := calcKG_len hf
      subst e
      obtain ⟨L1, L0, e1, e2, e3⟩ := kG_slice E.toEnv p p (hb.panels p hp) (some (.vec M f)) M 0 (by omega)
        (fun x hx => ⟨f, by cases hx; rfl⟩)
      rw [e1] at hf
      cases hf
      refine ⟨rfl, L0, p.fixR, ?_, e3⟩
      simpa only [Option.map_some, sliceC, zero_add] using e2)
    (fun R C N s L t hb hC hN hs hf => by
      cases hf)
    (fun R C N off s L t C' hb hC hN hw hs hf => by
      unfold Blade2.calcKG at hf
      obtain ⟨s', hr, hf⟩ := bind_ok.1 hf
      rw [hb.blade2 s hs C hC] at hr
      cases hr
      obtain ⟨⟨L', f'⟩, h1, hf⟩ := bind_ok.1 hf
      cases hf
      refine ⟨rfl, ?_, C52.own_part h1 fun b t e hbt => ?_⟩
      · rcases optPart_ok h1 with ⟨e, e', -⟩ | ⟨b, t, e, e', hbt⟩
        · simp [C52.width, e, e']
        · have hwf : C52.width s = 3 * b.pan.m * b.pan.n := by unfold C52.width; rw [e]
          obtain ⟨r, L0, hr, rfl, -, -⟩ := calcKG_part hbt (by rw [← hwf]; exact hw)
          rw [hwf]
          simp only [C52.width, e']
          show 3 * r.pan.m * r.pan.n = _
          rw [(rebuild_kept E.toEnv hr).1]
      · have hwf : C52.width s = 3 * b.pan.m * b.pan.n := by unfold C52.width; rw [e]
        obtain ⟨r, L0, -, -, e1, e2⟩ := calcKG_part hbt (by rw [← hwf]; exact hw)
        exact ⟨L0, t, e1, e2⟩)
  have e1 : R.blade1 = [] := by
    cases hl : R.blade1 with
    | nil => rfl
    | cons a l =>
      rw [hl] at g2
      cases g2
      contradiction
  rw [e1] at g2
  cases g2
  refine ⟨R, N, hR, hN, e1, Qp, Q2, g1, g3, g4, fun v => ?_⟩
  rw [g5 v, List.map_nil, List.sum_nil, add_zero]

/-- In a state of the right length the geometric stiffness of a bay without 1D stiffeners exists. -/
theorem kG_state_exists (E : BayEnv K) (B R : Bay K) (N : ℕ) (hT : C52.Terms B) (hne : B.panels ≠ [])
    (hR : B.rebuild E = .ok R) (hN : R.getSize = .ok N) (hr : Ready E R) (h1 : R.blade1 = []) (f : ℕ → K) :
    ∃ x, B.calcKG E (some (.vec N f)) = .ok x := by
  have hb := C52.built hT hR
  refine assemble_total hR hN hne ?_ ?_ ?_
  · intro p hp
    have hpr := hb.panels p hp
    obtain ⟨L, -, e1, -⟩ := kG_slice E.toEnv p p hpr (some (.vec N f)) N 0 (C57.panel_le hb hN hp)
      (fun x hx => ⟨f, by cases hx; rfl⟩)
    exact ⟨L, e1⟩
  · intro C s hC hs
    rw [h1] at hs
    cases hs
  · intro C off s hC hs hw
    obtain ⟨g, hf, -⟩ := C57.flange_of hN hs
    obtain ⟨rf, hrf⟩ := hr.flange s hs g hf
    have hwf : C52.width s = 3 * g.pan.m * g.pan.n := by unfold C52.width; rw [hf]
    obtain ⟨Lf, -, e1, -⟩ := kG_slice E.toEnv g rf hrf none N off (by rw [← hwf]; exact hw) (by simp)
    refine ⟨Lf, { s with flange := some rf.fixR }, C, ?_, hC, flangeSize_ok hf rfl
      (show rf.model.bind kindOf ≠ none from rebuild_kind hrf)
      (show rf.pan = g.pan from (rebuild_kept E.toEnv hrf).1)⟩
    refine bind_ok.2 ⟨s, hb.blade2 s hs C hC, bind_ok.2 ⟨(Lf, some rf.fixR), ?_, rfl⟩⟩
    rw [hf]
    exact bind_ok.2 ⟨_, e1, rfl⟩

/-! ## Changing the 2D stiffeners of a bay -/

theorem mapE_map {α : Type} {F : α → Except Fail α} {g : α → α} (hg : ∀ a b, F a = .ok b → F (g a) = .ok (g b)) :
    ∀ {l l' : List α}, mapE F l = .ok l' → mapE F (l.map g) = .ok (l'.map g)
  | [], l', h => by cases h; rfl
  | a :: l, l', h => by
    obtain ⟨b, h1, h⟩ := bind_ok.1 h
    obtain ⟨bs, h2, h⟩ := bind_ok.1 h
    cases h
    exact bind_ok.2 ⟨_, hg a b h1, bind_ok.2 ⟨_, mapE_map hg h2, rfl⟩⟩

/-- A bay with its 2D stiffeners changed. -/
def changed (g : Blade2 K → Blade2 K) (B : Bay K) : Bay K := { B with blade2 := B.blade2.map g }

theorem changed_rebuild {E : BayEnv K} {B R : Bay K} {g : Blade2 K → Blade2 K}
    (hg : ∀ C s t, Blade2.rebuild E C s = .ok t → Blade2.rebuild E C (g s) = .ok (g t))
    (h : B.rebuild E = .ok R) : (changed g B).rebuild E = .ok (changed g R) := by
  unfold Bay.rebuild at h
  obtain ⟨⟨m, ps⟩, h1, h⟩ := bind_ok.1 h
  obtain ⟨b1, h2, h⟩ := bind_ok.1 h
  obtain ⟨b2, h3, h⟩ := bind_ok.1 h
  cases h
  exact bind_ok.2 ⟨_, h1, bind_ok.2 ⟨_, h2, bind_ok.2 ⟨_, mapE_map (fun s t => hg _ s t) h3, rfl⟩⟩⟩

end

end Verif
