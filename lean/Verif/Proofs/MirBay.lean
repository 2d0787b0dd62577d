import Verif.Proofs.MirrorAll
import Verif.Proofs.MovedBay
import Verif.Props.C49
import Verif.Props.C95
import Verif.Props.C101
import Verif.Spec.MirBay

/-!
# Lemmas on mirrored bays
-/

set_option linter.unusedSectionVars false

namespace Verif

open Finset Spec Model

theorem forall₂_at {α β : Type} {P : α → β → Prop} {l : List α} {l' : List β} (h : List.Forall₂ P l l') :
    ∀ {i : ℕ} {a : α}, l[i]? = some a → ∃ b, l'[i]? = some b ∧ P a b := by
  induction h with
  | nil => intro i a e; simp at e
  | cons hab _ ih =>
    intro i a e
    cases i with
    | zero =>
      cases e
      exact ⟨_, rfl, hab⟩
    | succ i => exact ih e

/-- Sums over two lists of parts that correspond to each other. -/
theorem sum_both {α : Type} {C : α → α → Prop} {P P' : α → ((ℕ → ℝ) → ℝ) → Prop} {l l' : List α}
    (hC : List.Forall₂ C l l') {Q Q' : List ((ℕ → ℝ) → ℝ)} (h : List.Forall₂ P l Q)
    (h' : List.Forall₂ P' l' Q') {v w : ℕ → ℝ}
    (hq : ∀ a ∈ l, ∀ a' ∈ l', C a a' → ∀ q q', P a q → P' a' q' → q' w = q v) :
    (Q'.map fun q => q w).sum = (Q.map fun q => q v).sum := by
  induction hC generalizing Q Q' with
  | nil =>
    cases h
    cases h'
    rfl
  | cons hab _ ih =>
    cases h with
    | cons h1 h2 =>
      cases h' with
      | cons h1' h2' =>
        simp only [List.map_cons, List.sum_cons]
        rw [hq _ List.mem_cons_self _ List.mem_cons_self hab _ _ h1 h1', ih h2 h2'
          fun a ha a' ha' => hq a (List.mem_cons_of_mem _ ha) a' (List.mem_cons_of_mem _ ha')]

/-! ## Shells -/

section
variable {E : Env ℝ} {g : Facing} {P P' : Panel ℝ} {s s' t t' : Shell ℝ} {lam lam' : LamObj ℝ}

theorem Sheet.side_ne (h : Sheet E P s t lam) (ha : P.a ≠ 0) (hb : P.b ≠ 0) : s.pan.a ≠ 0 ∧ s.pan.b ≠ 0 := by
  obtain ⟨x1, x2, y1, y2, e⟩ := h.plan
  have ea : s.pan.a = P.a := by
    have := congrArg Panel.a e
    exact this
  have eb : s.pan.b = P.b := by
    have := congrArg Panel.b e
    exact this
  exact ⟨ea ▸ ha, eb ▸ hb⟩

theorem Sheet.shape (h : Sheet E P s t lam) : s.r.getD 0 = 0 ∧ t.model.bind kindOf = some .plate ∨
    s.r.getD 0 ≠ 0 ∧ t.model.bind kindOf = some .cyl := by
  obtain ⟨x1, x2, y1, y2, e⟩ := h.plan
  have er : s.r.getD 0 = P.r := by
    have := congrArg Panel.r e
    exact this
  rw [er]
  exact h.kind

section
variable (hI : E.I.Exact E.S Mean.integral) (hC : E.S.C2) (hE : E.S.Even) (hm : MirShell E g s s')
  (ha : s.pan.a ≠ 0) (hb : s.pan.b ≠ 0) (hX : g.X = true → 4 ≤ s.pan.m) (hY : g.Y = true → 4 ≤ s.pan.n)
  {q q' : (ℕ → ℝ) → ℝ} {off off' : ℕ} {v w : ℕ → ℝ}
  (hv : ∀ k < 3 * s.pan.m * s.pan.n, w (off' + k) = mir g s.pan.m s.pan.n 0 (fun i => v (off + i)) k)
include hI hC hE hm ha hb hX hY hv

/-- Stiffness of a mirrored shell. -/
theorem part_kC (h : Sheet E P s t lam) (h' : Sheet E P' s' t' lam')
    (hq : C52.Own (fun b => b.calcKC E {}) off (some s) q) (hq' : C52.Own (fun b => b.calcKC E {}) off' (some s') q') :
    q' w = q v := by
  obtain ⟨-, t0, t0', b, b', hx⟩ := hm
  cases h.built.symm.trans b
  cases h'.built.symm.trans b'
  obtain ⟨l, l', l1, l2, l3, l4⟩ := hx.lam
  cases h.hlam.symm.trans l1
  cases h'.hlam.symm.trans l2
  obtain ⟨L, _, c, e⟩ := hq
  obtain ⟨L', _, c', e'⟩ := hq'
  have e1 : s'.pan.m = s.pan.m := hx.panel.m
  have e2 : s'.pan.n = s.pan.n := hx.panel.n
  have e3 : s'.pan.a = s.pan.a := hx.panel.a
  have e4 : s'.pan.b = s.pan.b := hx.panel.b
  rw [e, e', shell_kC_strain hI hC b ha hb h.shape h.unloaded l1 h.sym c,
    shell_kC_strain hI hC b' (e3 ▸ ha) (e4 ▸ hb) h'.shape h'.unloaded l2 h'.sym c', l3]
  refine (strainWork_block (P := s'.panel) _ fun k hk => hv k (by rw [← e1, ← e2]; exact hk)).trans ?_
  refine strainWork_mir hE hx.panel hX hY ha hb hC (fun hz => ?_) _ _
  rcases hx.shape with q | q
  · exact q.1
  · rw [q.2.2] at hz
    cases hz

/-- Geometric stiffness of a mirrored shell. -/
theorem part_kG (hq : C52.Own (fun b => b.calcKG E {}) off (some s) q)
    (hq' : C52.Own (fun b => b.calcKG E {}) off' (some s') q') : q' w = q v := by
  obtain ⟨-, t0, t0', b, b', hx⟩ := hm
  obtain ⟨L, _, c, e⟩ := hq
  obtain ⟨L', _, c', e'⟩ := hq'
  have e1 : s'.pan.m = s.pan.m := hx.panel.m
  have e2 : s'.pan.n = s.pan.n := hx.panel.n
  have e3 : s'.pan.a = s.pan.a := hx.panel.a
  have e4 : s'.pan.b = s.pan.b := hx.panel.b
  rw [e, e', shell_kG_slope hI hC b ha hb c, shell_kG_slope hI hC b' (e3 ▸ ha) (e4 ▸ hb) c', hx.nxx, hx.nyy, hx.nxy]
  refine (slopeWork_block (P := s'.panel) _ _ _ fun k hk => hv k (by rw [← e1, ← e2]; exact hk)).trans ?_
  exact slopeWork_mir hE hx.panel hX hY ha hb hC _ _ _ _

end

theorem kM_ready {w : Shell ℝ} {L : Coo ℝ} (h : s.calcKM E .none 0 0 none none none none true = .ok (L, w)) :
    ∃ k l, s.model.bind kindOf = some k ∧ s.lam = some l := by
  unfold Shell.calcKM at h
  cases hk : s.model.bind kindOf with
  | none =>
    simp only [hk] at h
    cases h
  | some k =>
    cases hl : s.fixR.lam with
    | none =>
      simp only [hk, hl] at h
      cases h
    | some l => exact ⟨k, l, rfl, hl⟩

end

section
variable {E : BayEnv ℝ} {g : Facing} {s s' : Shell ℝ}

/-- Mass of a mirrored shell. -/
theorem part_kM (hI : E.I.Exact E.S Mean.integral) (hC : E.S.C2) (hE : E.S.Even) (hm : MirShell E.toEnv g s s')
    (ha : s.pan.a ≠ 0) (hb : s.pan.b ≠ 0) (hX : g.X = true → 4 ≤ s.pan.m) (hY : g.Y = true → 4 ≤ s.pan.n)
    {q q' : (ℕ → ℝ) → ℝ} {off off' : ℕ} {v w : ℕ → ℝ}
    (hv : ∀ k < 3 * s.pan.m * s.pan.n, w (off' + k) = mir g s.pan.m s.pan.n 0 (fun i => v (off + i)) k)
    (hq : C52.Own (C52.massOf E) off (some s) q) (hq' : C52.Own (C52.massOf E) off' (some s') q') : q' w = q v := by
  obtain ⟨ht, t0, t0', b, b', hx⟩ := hm
  obtain ⟨L, _, c, e⟩ := hq
  obtain ⟨L', _, c', e'⟩ := hq'
  have e1 : s'.pan.m = s.pan.m := hx.panel.m
  have e2 : s'.pan.n = s.pan.n := hx.panel.n
  have e3 : s'.pan.a = s.pan.a := hx.panel.a
  have e4 : s'.pan.b = s.pan.b := hx.panel.b
  obtain ⟨k, l, k1, l1⟩ := kM_ready c
  obtain ⟨k', l', k1', l1'⟩ := kM_ready c'
  rw [e, e', shell_kM_kinetic hI hC k1 l1 ha hb c, shell_kM_kinetic hI hC k1' l1' (e3 ▸ ha) (e4 ▸ hb) c',
    hx.rho, hx.offset, ht]
  refine (kineticWork_block (P := s'.panel) _ _ _ fun k hk => hv k (by rw [← e1, ← e2]; exact hk)).trans ?_
  exact kineticWork_mir hE hx.panel hX hY ha hb hC _ _ _ _

end

/-- A part that both bays have or lack. -/
theorem own_opt {g : Shell ℝ → Except Fail (Coo ℝ × Shell ℝ)} {C : Shell ℝ → Shell ℝ → Prop}
    {o o' : Option (Shell ℝ)} (ho : Option.Rel C o o') {off off' : ℕ} {q q' : (ℕ → ℝ) → ℝ} {v w : ℕ → ℝ}
    (h : C52.Own g off o q) (h' : C52.Own g off' o' q')
    (hq : ∀ s s', o = some s → o' = some s' → C s s' → q' w = q v) : q' w = q v := by
  cases ho with
  | none => rw [h, h']
  | some hC => exact hq _ _ rfl rfl hC

/-- What a flange stands on: its base, or else the first of the two panels. -/
def Under (R : Bay ℝ) (s : Blade2 ℝ) (p : Shell ℝ) : Prop :=
  s.base = some p ∨ s.base = none ∧ R.panels[s.panel1]? = some p

/-! ## Beams -/

section
variable {S : Shape ℝ} {X Y : Bool} {P P' : Panel ℝ} (hE : S.Even) (hS : S.C2) (h : Turned X Y P P')
  (hm : X = true → 4 ≤ P.m) (hn : Y = true → 4 ≤ P.n) (ha : P.a ≠ 0) (hb : P.b ≠ 0)
include hE hS h hm hn ha hb

theorem dxx_mir (s : ℕ) (c : ℕ → ℝ) (x y : ℝ) :
    dx (dx (u S P' s (mir ⟨X, Y, false⟩ P.m P.n s c) 2)) (across X P.a x) (across Y P.b y)
      = dx (dx (u S P s c 2)) x y := by
  have e := disp_mir (g := ⟨X, Y, false⟩) hE h hm hn ha hb s c (α := 2) (p := 2) (q := 0) (by omega) (by omega)
    (by omega) x y
  have sX := sgn_sq (K := ℝ) X
  simp only [← phys_zero, dx_phys hS _ _ _ _ _ _ zero_lt_two, dx_phys hS _ _ _ _ _ _ one_lt_two, phys, Nat.reduceAdd]
  rw [e]
  simp only [dSign]
  have hz : (sgn false : ℝ) = 1 := rfl
  rw [hz, pow_two, sX]
  ring

theorem dxy_mir (s : ℕ) (c : ℕ → ℝ) (x y : ℝ) :
    dy (dx (u S P' s (mir ⟨X, Y, false⟩ P.m P.n s c) 2)) (across X P.a x) (across Y P.b y)
      = sgn X * sgn Y * dy (dx (u S P s c 2)) x y := by
  have e := disp_mir (g := ⟨X, Y, false⟩) hE h hm hn ha hb s c (α := 2) (p := 1) (q := 1) (by omega) (by omega)
    (by omega) x y
  simp only [← phys_zero, dx_phys hS _ _ _ _ _ _ zero_lt_two, dy_phys hS _ _ _ _ _ _ zero_lt_two, phys, Nat.reduceAdd]
  rw [e]
  simp only [dSign]
  have hz : (sgn false : ℝ) = 1 := rfl
  rw [hz]
  ring

end

section
variable {E : BayEnv ℝ} {X Y : Bool} {R R' : Bay ℝ} {q q' : (ℕ → ℝ) → ℝ} {v w : ℕ → ℝ}
  (hI : E.I.Exact E.S Mean.integral) (hC : E.S.C2) (hE : E.S.Even) (hT : Turned X Y (bayPanel R 0) (bayPanel R' 0))
  (hm : (X = true → 4 ≤ R.skin.m) ∧ (Y = true → 4 ≤ R.skin.n)) (ha : R.skin.a ≠ 0) (hb : R.skin.b ≠ 0)
  (hv : ∀ k < 3 * R.skin.m * R.skin.n, w k = mir ⟨X, Y, false⟩ R.skin.m R.skin.n 0 v k)
include hT hv

theorem skin_u {S : Shape ℝ} {α : ℕ} (hα : α < 3) :
    u S R'.skin 0 w α = u S (bayPanel R' 0) 0 (mir ⟨X, Y, false⟩ (bayPanel R 0).m (bayPanel R 0).n 0 v) α := by
  have e1 : R'.skin.m = R.skin.m := hT.m
  have e2 : R'.skin.n = R.skin.n := hT.n
  refine u_block (P := R'.skin) (fun k hk => ?_) hα
  rw [Nat.zero_add]
  exact hv k (by rw [← e1, ← e2]; exact hk)

include hE hC hm ha hb

/-- The skin of the mirrored bay. -/
theorem skin_image : Image ⟨X, Y, false⟩ R.skin.a R.skin.b (u E.S R.skin 0 v) (u E.S R'.skin 0 w) := by
  refine ⟨fun α hα x y => ?_, fun x y => ?_, fun x y => ?_⟩
  · rw [skin_u hT hv hα]
    exact u_mir (g := ⟨X, Y, false⟩) hE hT hm.1 hm.2 ha hb _ v hα x y
  · rw [skin_u hT hv (by omega)]
    exact dx_mir (g := ⟨X, Y, false⟩) hE hT hm.1 hm.2 ha hb hC _ v (by omega) x y
  · rw [skin_u hT hv (by omega)]
    exact dy_mir (g := ⟨X, Y, false⟩) hE hT hm.1 hm.2 ha hb hC _ v (by omega) x y

include hI

theorem beam_mir {s s' : Blade1 ℝ} (hs : MirBlade1 E.toEnv X Y R.skin.b s s') (h : C52.Beam E R s q)
    (h' : C52.Beam E R' s' q') : q' w = q v := by
  have ea : R'.skin.a = R.skin.a := hT.a
  have eb : R'.skin.b = R.skin.b := hT.b
  have sX := sgn_sq (K := ℝ) X
  have sY := sgn_sq (K := ℝ) Y
  have hsec := hs.sec
  unfold C52.Beam at h h'
  cases hc : s.sec with
  | none =>
    rw [hc] at hsec
    cases hc' : s'.sec with
    | none =>
      simp only [hc] at h
      simp only [hc'] at h'
      rw [h, h']
    | some c => rw [hc'] at hsec; cases hsec
  | some c =>
    rw [hc] at hsec
    cases hc' : s'.sec with
    | none => rw [hc'] at hsec; cases hsec
    | some c' =>
      rw [hc'] at hsec
      obtain ⟨-, s1, s2, s3⟩ : MirSection X Y c c' := by
        cases hsec with
        | some r => exact r
      simp only [hc] at h
      simp only [hc'] at h'
      obtain ⟨bf, b1, h⟩ := h
      obtain ⟨bf', b1', h'⟩ := h'
      rw [hs.bf, b1] at b1'
      cases b1'
      rw [h, h', C48.stiffness_energy hI hC R.skin ha hb,
        C48.stiffness_energy hI hC R'.skin (ea ▸ ha) (eb ▸ hb), hs.ys, hs.dbf, hs.Jxx, s1, s2, s3, ea]
      simp only [beamEnergy]
      rw [← C89.integral_across X R.skin.a]
      refine intervalIntegral.integral_congr fun x _ => ?_
      have d0 := dx_mir (g := ⟨X, Y, false⟩) hE hT hm.1 hm.2 ha hb hC 0 v (α := 0) (by omega) x s.ys
      have d1 := dxx_mir hE hC hT hm.1 hm.2 ha hb 0 v x s.ys
      have d2 := dxy_mir hE hC hT hm.1 hm.2 ha hb 0 v x s.ys
      rw [← skin_u hT hv (by omega)] at d0 d1 d2
      have e0 : dx (u E.S R'.skin 0 w 0) (across X R.skin.a x) (across Y R.skin.b s.ys)
          = dx (u E.S R.skin 0 v 0) x s.ys := by
        refine d0.trans ?_
        simp only [dSign]
        rw [sX, one_mul]
        rfl
      have e1 : dx (dx (u E.S R'.skin 0 w 2)) (across X R.skin.a x) (across Y R.skin.b s.ys)
          = dx (dx (u E.S R.skin 0 v 2)) x s.ys := d1
      have e2 : dy (dx (u E.S R'.skin 0 w 2)) (across X R.skin.a x) (across Y R.skin.b s.ys)
          = sgn X * sgn Y * dy (dx (u E.S R.skin 0 v 2)) x s.ys := d2
      rw [e0, e1, e2]
      generalize dx (u E.S R.skin 0 v 0) x s.ys = p
      generalize dx (dx (u E.S R.skin 0 v 2)) x s.ys = r
      generalize dy (dx (u E.S R.skin 0 v 2)) x s.ys = t
      linear_combination (bf * (s.Jxx * t ^ 2 - 2 * c.S1 * (p + s.dbf * r) * t)) * (sX + sgn X * sgn X * sY)

theorem beamG_mir {s s' : Blade1 ℝ} (hs : MirBlade1 E.toEnv X Y R.skin.b s s') (h : C52.BeamG E R s q)
    (h' : C52.BeamG E R' s' q') : q' w = q v := by
  have ea : R'.skin.a = R.skin.a := hT.a
  have sX := sgn_sq (K := ℝ) X
  have hsec := hs.sec
  unfold C52.BeamG at h h'
  cases hc : s.sec with
  | none =>
    rw [hc] at hsec
    cases hc' : s'.sec with
    | none =>
      simp only [hc] at h
      simp only [hc'] at h'
      rw [h, h']
    | some c => rw [hc'] at hsec; cases hsec
  | some c =>
    rw [hc] at hsec
    cases hc' : s'.sec with
    | none => rw [hc'] at hsec; cases hsec
    | some c' =>
      simp only [hc] at h
      simp only [hc'] at h'
      rw [h, h', C48.geometric_energy hI hC R.skin ha, C48.geometric_energy hI hC R'.skin (ea ▸ ha), hs.ys, hs.Fx, ea]
      simp only [beamGeo]
      rw [← C89.integral_across X R.skin.a]
      refine intervalIntegral.integral_congr fun x _ => ?_
      have e := (skin_image hC hE hT hm ha hb hv).dx x s.ys
      simp only at e
      rw [e]
      have hz : (sgn false : ℝ) = 1 := rfl
      rw [hz]
      linear_combination (s.Fx.getD 0 * dx (u E.S R.skin 0 v 2) x s.ys ^ 2) * sX

theorem beamM_mir {s s' : Blade1 ℝ} (hp : List.Forall₂ (MirShell E.toEnv ⟨X, Y, false⟩) R.panels R'.panels)
    (hs : MirBlade1 E.toEnv X Y R.skin.b s s') (h : C52.BeamM E R s q) (h' : C52.BeamM E R' s' q') : q' w = q v := by
  have ea : R'.skin.a = R.skin.a := hT.a
  have eb : R'.skin.b = R.skin.b := hT.b
  have sX := sgn_sq (K := ℝ) X
  have sY := sgn_sq (K := ℝ) Y
  have hsec := hs.sec
  unfold C52.BeamM at h h'
  cases hc : s.sec with
  | none =>
    rw [hc] at hsec
    cases hc' : s'.sec with
    | none =>
      simp only [hc] at h
      simp only [hc'] at h'
      rw [h, h']
    | some c => rw [hc'] at hsec; cases hsec
  | some c =>
    rw [hc] at hsec
    cases hc' : s'.sec with
    | none => rw [hc'] at hsec; cases hsec
    | some c' =>
      rw [hc'] at hsec
      obtain ⟨s0, -, -, -⟩ : MirSection X Y c c' := by
        cases hsec with
        | some r => exact r
      simp only [hc] at h
      simp only [hc'] at h'
      obtain ⟨p1, p2, bf, a1, a2, b1, h⟩ := h
      obtain ⟨p1', p2', bf', a1', a2', b1', h'⟩ := h'
      rw [hs.bf, b1] at b1'
      cases b1'
      obtain ⟨q1, f1, g1⟩ := forall₂_at hp a1
      obtain ⟨q2, f2, g2⟩ := forall₂_at hp a2
      have ht : 1 / 2 * p1'.plyts.sum + 1 / 2 * p2'.plyts.sum = 1 / 2 * p1.plyts.sum + 1 / 2 * p2.plyts.sum := by
        rw [hs.panel1] at a1'
        rw [hs.panel2] at a2'
        cases Y
        · cases f1.symm.trans a1'
          cases f2.symm.trans a2'
          rw [g1.1, g2.1]
        · cases f2.symm.trans a1'
          cases f1.symm.trans a2'
          rw [g1.1, g2.1, add_comm]
      rw [h, h', C49.mass_form hI hC R.skin ha hb, C49.mass_form hI hC R'.skin (ea ▸ ha) (eb ▸ hb), hs.ys, hs.rho,
        hs.dbf, s0, ht, ea]
      rw [← C89.integral_across X R.skin.a]
      refine intervalIntegral.integral_congr fun x _ => ?_
      have im := skin_image hC hE hT hm ha hb hv
      have d0 := im.disp 0 (by omega) x s.ys
      have d1 := im.disp 1 (by omega) x s.ys
      have d2 := im.disp 2 (by omega) x s.ys
      have d3 := im.dx x s.ys
      have d4 := im.dy x s.ys
      have hz : (sgn false : ℝ) = 1 := rfl
      simp only [dSign, hz, one_mul] at d0 d1 d2 d3 d4
      rw [d0, d1, d2, d3, d4]
      generalize u E.S R.skin 0 v 0 x s.ys = p0
      generalize u E.S R.skin 0 v 1 x s.ys = p1
      generalize u E.S R.skin 0 v 2 x s.ys = p2
      generalize dx (u E.S R.skin 0 v 2) x s.ys = p3
      generalize dy (u E.S R.skin 0 v 2) x s.ys = p4
      generalize (1 / 2 * _ + 1 / 2 * _ : ℝ) = h
      linear_combination (bf * c.hf * s.rho * (p0 ^ 2 + 4 * s.dbf * (p0 * p3) +
        sixth / 2 * (4 * (bf * bf) + 6 * bf * (h + 2 * 0) + 3 * (h + 2 * 0) ^ 2) * p3 ^ 2)) * sX +
        (bf * c.hf * s.rho * (p1 ^ 2 + 4 * s.dbf * (p1 * p4) +
        sixth / 2 * (4 * (bf * bf) + 6 * bf * (h + 2 * 0) + 3 * (h + 2 * 0) ^ 2) * p4 ^ 2)) * sY

omit hT hv hE hC hm ha hb hI in
theorem pen_mir {E : Env ℝ} {g : Facing} {s s' t t' : Shell ℝ} {l l' : LamObj ℝ} (hs : MirShell E g s s')
    (h : s.rebuild E = .ok t) (h' : s'.rebuild E = .ok t') (hl : t.lam = some l) (hl' : t'.lam = some l') :
    penOf t' l' = penOf t l := by
  obtain ⟨-, t0, t0', b, b', hx⟩ := hs
  cases h.symm.trans b
  cases h'.symm.trans b'
  obtain ⟨m, m', m1, m2, m3, m4⟩ := hx.lam
  cases hl.symm.trans m1
  cases hl'.symm.trans m2
  have e0 : t'.pan = s'.pan := (rebuild_kept E h').1
  have e3 : t.pan = s.pan := (rebuild_kept E h).1
  have e1 : s'.pan.a = s.pan.a := hx.panel.a
  have e2 : s'.pan.b = s.pan.b := hx.panel.b
  have z := sgn_sq (K := ℝ) g.Z
  have d0 : l'.ABD 0 0 = l.ABD 0 0 := by rw [m3]; simp [mirLam, kSign, eSign]
  have d1 : l'.ABD 1 1 = l.ABD 1 1 := by rw [m3]; simp [mirLam, kSign, eSign]
  have d3 : l'.ABD 3 3 = l.ABD 3 3 := by rw [m3]; simp [mirLam, kSign, eSign, z]
  have d4 : l'.ABD 4 4 = l.ABD 4 4 := by rw [m3]; simp [mirLam, kSign, eSign, z]
  simp only [penOf, d0, d1, d3, d4, m4, e0, e1, e2, e3]

/-- The joint of a mirrored flange. -/
theorem joint_mir {s s' : Blade2 ℝ} {f f' : Shell ℝ} {off : ℕ} (hs : MirBlade2 E.toEnv X Y R.skin.b s s')
    (hf : s.flange = some f) (hf' : s'.flange = some f') (hff : MirShell E.toEnv ⟨X, false, Y⟩ f f')
    (fa : f.pan.a ≠ 0) (fb : f.pan.b ≠ 0) (ho : 3 * R.skin.m * R.skin.n ≤ off)
    (hpen : ∀ p p' t t' l l', Under R s p → Under R' s' p' → p.rebuild E.toEnv = .ok t →
      p'.rebuild E.toEnv = .ok t' → t.lam = some l → t'.lam = some l' → penOf t' l' = penOf t l)
    (him : Image ⟨X, false, Y⟩ f.pan.a f.pan.b (u E.S f.panel off v) (u E.S f'.panel off w))
    (h : C52.Joint E R off s q) (h' : C52.Joint E R' off s' q') : q' w = q v := by
  have ea : R'.skin.a = R.skin.a := hT.a
  have eb : R'.skin.b = R.skin.b := hT.b
  have em : R'.skin.m = R.skin.m := hT.m
  have en : R'.skin.n = R.skin.n := hT.n
  obtain ⟨-, t0, t0', b, b', hx⟩ := id hff
  have fa' : f'.pan.a = f.pan.a := hx.panel.a
  have fb' : f'.pan.b = f.pan.b := hx.panel.b
  unfold C52.Joint at h h'
  simp only [hf] at h
  simp only [hf'] at h'
  obtain ⟨p, p1, f1, l1, l2, kt, kr, a1, a2, a3, a4, a5, a6, h⟩ := h
  obtain ⟨p', p1', f1', l1', l2', kt', kr', b1, b2, b3, b4, b5, b6, h'⟩ := h'
  have a1 : Under R s p := by
    cases e : s.base with
    | none => exact .inr ⟨e, by simpa only [e] using a1⟩
    | some b => exact .inl (by simp only [e] at a1 ⊢; rw [a1])
  have b1 : Under R' s' p' := by
    cases e : s'.base with
    | none => exact .inr ⟨e, by simpa only [e] using b1⟩
    | some b => exact .inl (by simp only [e] at b1 ⊢; rw [b1])
  rw [hpen p p' p1 p1' l1 l1' a1 b1 a2 b2 a4 b4, pen_mir hff a3 b3 a5 b5, a6] at b6
  obtain ⟨rfl, rfl⟩ : kt = kt' ∧ kr = kr' := by simpa using b6
  have ho' : 0 + 3 * (R'.skin.m * R'.skin.n) ≤ off := by rw [em, en, Nat.zero_add, ← mul_assoc]; exact ho
  rw [h, h', C50.blade_joint hI hC R.skin f.panel ha hb fa fb kt kr s.ys 0 off
      (by rw [Nat.zero_add, ← mul_assoc]; exact ho),
    C50.blade_joint hI hC R'.skin f'.panel (ea ▸ ha) (eb ▸ hb) (show f'.pan.a ≠ 0 from fa' ▸ fa)
      (show f'.pan.b ≠ 0 from fb' ▸ fb) kt kr s'.ys 0 off ho', hs.ys]
  have key := springs_mir (S := E.S) (P1 := bayPanel R 0) (P1' := bayPanel R' 0) (P2 := f.panel) (P2' := f'.panel)
    (g1 := ⟨X, Y, false⟩) (g2 := ⟨X, false, Y⟩) hT hx.panel ha hb (a := 0) (b := off) (v := v) (v' := w)
    (skin_image hC hE hT hm ha hb hv) him (f := "BFycte") (by tauto) (by simp [SamePlane]) kt kr s.ys 0
  simp only [C40.springs, String.reduceEq, if_false, if_true, or_self, across, Bool.false_eq_true] at key
  exact key

end

end Verif
