import Verif.Props.C28
import Verif.Props.C52

/-!
# C56: dividing the skin of a bay

The claim fails.  The panels of a bay differ in `y1`, `y2` only, which the closed-form matrices do not
read, and all of them use the amplitudes of the skin: `n` panels give `n` times the matrix of the whole
skin (`kC_counted`, `kG_counted`, `kM_counted`), so two divisions with different numbers of panels
never agree (`claim_violated`).  A bay with one panel has the matrix of the whole skin
(`kC_partial`, `kG_partial`, `kM_partial`).
-/

set_option linter.unusedSectionVars false

namespace Verif.C56

open Model

variable {K : Type} [Field K] [LinearOrder K]

/-- The whole skin of a bay as one panel. -/
def whole (B : Bay K) : Shell K :=
  Shell.new { B.skin with x1 := -1, x2 := 1, y1 := -1, y2 := 1 } B.r B.model B.stack B.plyt B.plyts
    B.laminaprop B.laminaprops B.rho 0

/-- `add_panel(y1, y2)` for each pair. -/
def divide (B : Bay K) (cuts : List (K × K)) : Bay K :=
  cuts.foldl (fun B c => B.addPanel c.1 c.2 none none none none none none none) B

theorem divide_panels (B : Bay K) (cuts : List (K × K)) :
    (divide B cuts).panels = B.panels ++ cuts.map fun c => C28.onPart (whole B) (-1) 1 c.1 c.2 := by
  unfold divide
  induction cuts generalizing B with
  | nil => simp
  | cons c cuts ih =>
    rw [List.foldl_cons, ih, List.map_cons, List.append_cons]
    rfl

theorem divide_rest (B : Bay K) (cuts : List (K × K)) :
    (divide B cuts).blade1 = B.blade1 ∧ (divide B cuts).blade2 = B.blade2 := by
  unfold divide
  induction cuts generalizing B with
  | nil => simp
  | cons c cuts ih => exact ih (B.addPanel c.1 c.2 none none none none none none none)

theorem divide_terms (B : Bay K) (hT : C52.Terms B) (cuts : List (K × K)) :
    C52.Terms (divide B cuts) := by
  unfold divide
  induction cuts generalizing B with
  | nil => exact hT
  | cons c cuts ih => exact ih _ (C52.terms_addPanel B hT _ _ _ _ _ _ _ _ _)

/-- A bay without panels and stiffeners. -/
structure Bare (B : Bay K) : Prop where
  panels : B.panels = []
  blade1 : B.blade1 = []
  blade2 : B.blade2 = []

/-- The rebuilt panels are parts of the rebuilt whole skin. -/
theorem rebuilt_panels {E : BayEnv K} {B R : Bay K} (hB : B.panels = []) {cuts : List (K × K)}
    (h : (divide B cuts).rebuild E = .ok R) :
    List.Forall₂ (fun (c : K × K) t => ∃ w, (whole B).rebuild E.toEnv = .ok w ∧
      t = C28.onPart w (-1) 1 c.1 c.2) cuts R.panels := by
  obtain ⟨m, ps, hp, e1, -⟩ := bay_rebuild_ok h
  obtain ⟨g, -⟩ := rebuildPanels_ok hp
  rw [divide_panels, hB, List.nil_append, List.forall₂_map_left_iff] at g
  rw [e1]
  refine g.imp fun c t ht => ?_
  rw [C28.rebuild_part] at ht
  cases hw : (whole B).rebuild E.toEnv with
  | error e => rw [hw] at ht; cases ht
  | ok w =>
    rw [hw] at ht
    cases ht
    exact ⟨w, rfl, rfl⟩

/-- Equal parts add up to a multiple. -/
theorem sum_parts {g : Shell K → Except Fail (Coo K × Shell K)} {cuts : List (K × K)}
    {ps : List (Shell K)} {Q : List ((ℕ → K) → K)} {P : K × K → Shell K → Prop} {L : Coo K}
    (h : List.Forall₂ P cuts ps) (hQ : List.Forall₂ (fun p => C52.Own g 0 (some p)) ps Q)
    (hL : ∀ c p, P c p → ∃ t, g p = .ok (L, t)) (v : ℕ → K) :
    (Q.map fun q => q v).sum = cuts.length * Coo.quad L v := by
  induction h generalizing Q with
  | nil => cases hQ; simp
  | cons h1 h2 ih =>
    cases hQ with
    | cons k1 k2 =>
      obtain ⟨L', t, e, hq⟩ := k1
      obtain ⟨t', e'⟩ := hL _ _ h1
      rw [e] at e'
      cases e'
      rw [List.map_cons, List.sum_cons, ih k2, hq, List.length_cons]
      simp only [Nat.zero_add]
      push_cast
      ring

theorem first_part {P : K × K → Shell K → Prop} {cuts : List (K × K)} {ps : List (Shell K)}
    (h : List.Forall₂ P cuts ps) (hc : cuts ≠ []) : ∃ c p, c ∈ cuts ∧ p ∈ ps ∧ P c p := by
  cases h with
  | nil => exact absurd rfl hc
  | cons h1 h2 => exact ⟨_, _, List.mem_cons_self .., List.mem_cons_self .., h1⟩

theorem own_exists {g : Shell K → Except Fail (Coo K × Shell K)} {ps : List (Shell K)}
    {Q : List ((ℕ → K) → K)} (hQ : List.Forall₂ (fun p => C52.Own g 0 (some p)) ps Q) {p : Shell K}
    (hp : p ∈ ps) : ∃ L t, g p = .ok (L, t) := by
  induction hQ with
  | nil => simp at hp
  | cons k1 _ ih =>
    rcases List.mem_cons.1 hp with rfl | hp
    · obtain ⟨L, t, e, -⟩ := k1
      exact ⟨L, t, e⟩
    · exact ih hp

/-- The common argument: `g` gives the same matrix for all parts of the rebuilt skin. -/
theorem counted {E : BayEnv K} {B R : Bay K} (hB : B.panels = []) {cuts : List (K × K)}
    (hc : cuts ≠ []) (hR : (divide B cuts).rebuild E = .ok R)
    {g : Shell K → Except Fail (Coo K × Shell K)}
    (hg : ∀ (w : Shell K) (c : K × K), (whole B).rebuild E.toEnv = .ok w →
      g (C28.onPart w (-1) 1 c.1 c.2) = (g w).map (C28.withPart (-1) 1 c.1 c.2))
    {Q : List ((ℕ → K) → K)} (hQ : List.Forall₂ (fun p => C52.Own g 0 (some p)) R.panels Q) :
    ∃ w L t, (whole B).rebuild E.toEnv = .ok w ∧ g w = .ok (L, t) ∧
      ∀ v, (Q.map fun q => q v).sum = cuts.length * Coo.quad L v := by
  have hp := rebuilt_panels hB hR
  obtain ⟨c, p, -, hp1, w, hw, rfl⟩ := first_part hp hc
  obtain ⟨L, t, e⟩ := own_exists hQ hp1
  rw [hg w c hw] at e
  cases hgw : g w with
  | error x => rw [hgw] at e; cases e
  | ok x =>
    obtain ⟨L', t'⟩ := x
    refine ⟨w, L', t', hw, hgw, fun v => sum_parts hp hQ ?_ v⟩
    rintro c p ⟨w', hw', rfl⟩
    rw [hw] at hw'
    cases hw'
    refine ⟨C28.onPart t' (-1) 1 c.1 c.2, ?_⟩
    rw [hg w c hw, hgw]
    rfl

theorem calcKC_rebuilt {E : Env K} {s w : Shell K} (h : s.rebuild E = .ok w) :
    w.calcKC E {} = s.calcKC E {} := by
  unfold Shell.calcKC
  rw [h, C54.idempotent E s w h]

theorem calcKG_rebuilt {E : Env K} {s w : Shell K} (h : s.rebuild E = .ok w) :
    w.calcKG E {} = s.calcKG E {} := by
  unfold Shell.calcKG
  rw [h, C54.idempotent E s w h]

/-- The skin counts once for each panel in the stiffness. -/
theorem kC_counted (E : BayEnv K) (B B' : Bay K) (hB : Bare B) (cuts : List (K × K)) (hc : cuts ≠ [])
    (k : Coo K) (h : (divide B cuts).calcKC E = .ok (k, B')) :
    ∃ L t, (whole B).calcKC E.toEnv {} = .ok (L, t) ∧
      ∀ v, Coo.quad k v = cuts.length * Coo.quad L v := by
  have hT := divide_terms B (C52.terms_empty B hB.panels hB.blade1 hB.blade2) cuts
  obtain ⟨R, N, hR, -, Qp, Q1, Q2, hp, h1, h2, -, hq⟩ := C52.kC_energy E _ B' k hT h
  obtain ⟨m, ps, -, -, -, -, -, g1, g2⟩ := bay_rebuild_ok hR
  rw [(divide_rest B cuts).1, hB.blade1] at g1
  rw [(divide_rest B cuts).2, hB.blade2] at g2
  obtain ⟨w, L, t, hw, hL, hs⟩ := counted hB.panels hc hR
    (fun w c _ => C28.kC_ignores E.toEnv w .none 0 0 true none none (-1) 1 c.1 c.2) hp
  refine ⟨L, t, ?_, fun v => ?_⟩
  · rw [← calcKC_rebuilt hw]; exact hL
  · rw [List.forall₂_nil_left_iff.1 g1] at h1
    rw [List.forall₂_nil_left_iff.1 g2] at h2
    rw [hq v, hs v, List.forall₂_nil_left_iff.1 h1, List.length_eq_zero_iff.1 h2]
    simp

/-- The skin counts once for each panel in the geometric stiffness. -/
theorem kG_counted (E : BayEnv K) (B B' : Bay K) (hB : Bare B) (cuts : List (K × K)) (hc : cuts ≠ [])
    (k : Coo K) (h : (divide B cuts).calcKG E none = .ok (k, B')) :
    ∃ L t, (whole B).calcKG E.toEnv {} = .ok (L, t) ∧
      ∀ v, Coo.quad k v = cuts.length * Coo.quad L v := by
  have hT := divide_terms B (C52.terms_empty B hB.panels hB.blade1 hB.blade2) cuts
  obtain ⟨R, N, hR, -, Qp, Q1, Q2, hp, h1, h2, -, hq⟩ := C52.kG_energy E _ B' k hT h
  obtain ⟨m, ps, -, -, -, -, -, g1, g2⟩ := bay_rebuild_ok hR
  rw [(divide_rest B cuts).1, hB.blade1] at g1
  rw [(divide_rest B cuts).2, hB.blade2] at g2
  obtain ⟨w, L, t, hw, hL, hs⟩ := counted hB.panels hc hR
    (fun w c _ => C28.kG_ignores E.toEnv w .none 0 0 true none none (-1) 1 c.1 c.2) hp
  refine ⟨L, t, ?_, fun v => ?_⟩
  · rw [← calcKG_rebuilt hw]; exact hL
  · rw [List.forall₂_nil_left_iff.1 g1] at h1
    rw [List.forall₂_nil_left_iff.1 g2] at h2
    rw [hq v, hs v, List.forall₂_nil_left_iff.1 h1, List.length_eq_zero_iff.1 h2]
    simp

/-- The skin counts once for each panel in the mass matrix. -/
theorem kM_counted (E : BayEnv K) (B B' : Bay K) (hB : Bare B) (cuts : List (K × K)) (hc : cuts ≠ [])
    (k : Coo K) (h : (divide B cuts).calcKM E = .ok (k, B')) :
    ∃ w L t, (whole B).rebuild E.toEnv = .ok w ∧
      w.calcKM E.toEnv .none 0 0 none none none none true = .ok (L, t) ∧
      ∀ v, Coo.quad k v = cuts.length * Coo.quad L v := by
  have hT := divide_terms B (C52.terms_empty B hB.panels hB.blade1 hB.blade2) cuts
  obtain ⟨R, N, hR, -, Qp, Q1, Q2, hp, h1, h2, -, hq⟩ := C52.kM_energy E _ B' k hT h
  obtain ⟨m, ps, -, -, -, -, -, g1, g2⟩ := bay_rebuild_ok hR
  rw [(divide_rest B cuts).1, hB.blade1] at g1
  rw [(divide_rest B cuts).2, hB.blade2] at g2
  obtain ⟨w, L, t, hw, hL, hs⟩ := counted hB.panels hc hR
    (fun w c _ => C28.kM_ignores E.toEnv w .none 0 0 none none true (-1) 1 c.1 c.2) hp
  refine ⟨w, L, t, hw, hL, fun v => ?_⟩
  rw [List.forall₂_nil_left_iff.1 g1] at h1
  rw [List.forall₂_nil_left_iff.1 g2] at h2
  rw [hq v, hs v, List.forall₂_nil_left_iff.1 h1, List.length_eq_zero_iff.1 h2]
  simp

/-- A bay of one panel has the stiffness of its skin, whatever the limits of the panel. -/
theorem kC_partial (E : BayEnv K) (B B' : Bay K) (hB : Bare B) (c : K × K) (k : Coo K)
    (h : (divide B [c]).calcKC E = .ok (k, B')) :
    ∃ L t, (whole B).calcKC E.toEnv {} = .ok (L, t) ∧ ∀ v, Coo.quad k v = Coo.quad L v := by
  obtain ⟨L, t, e, hq⟩ := kC_counted E B B' hB [c] (by simp) k h
  exact ⟨L, t, e, fun v => by rw [hq v]; simp⟩

theorem kG_partial (E : BayEnv K) (B B' : Bay K) (hB : Bare B) (c : K × K) (k : Coo K)
    (h : (divide B [c]).calcKG E none = .ok (k, B')) :
    ∃ L t, (whole B).calcKG E.toEnv {} = .ok (L, t) ∧ ∀ v, Coo.quad k v = Coo.quad L v := by
  obtain ⟨L, t, e, hq⟩ := kG_counted E B B' hB [c] (by simp) k h
  exact ⟨L, t, e, fun v => by rw [hq v]; simp⟩

theorem kM_partial (E : BayEnv K) (B B' : Bay K) (hB : Bare B) (c : K × K) (k : Coo K)
    (h : (divide B [c]).calcKM E = .ok (k, B')) :
    ∃ w L t, (whole B).rebuild E.toEnv = .ok w ∧
      w.calcKM E.toEnv .none 0 0 none none none none true = .ok (L, t) ∧
      ∀ v, Coo.quad k v = Coo.quad L v := by
  obtain ⟨w, L, t, hw, e, hq⟩ := kM_counted E B B' hB [c] (by simp) k h
  exact ⟨w, L, t, hw, e, fun v => by rw [hq v]; simp⟩

/-- Divisions into different numbers of panels have different stiffness, wherever the skin has any. -/
theorem claim_violated [IsStrictOrderedRing K] (E : BayEnv K) (B B1 B2 : Bay K) (hB : Bare B)
    (cuts1 cuts2 : List (K × K)) (hc1 : cuts1 ≠ []) (hc2 : cuts2 ≠ [])
    (hne : cuts1.length ≠ cuts2.length) (k1 k2 : Coo K)
    (h1 : (divide B cuts1).calcKC E = .ok (k1, B1)) (h2 : (divide B cuts2).calcKC E = .ok (k2, B2))
    (v : ℕ → K) (hv : Coo.quad k1 v ≠ 0) : Coo.quad k1 v ≠ Coo.quad k2 v := by
  obtain ⟨L, t, e, hq⟩ := kC_counted E B B1 hB cuts1 hc1 k1 h1
  obtain ⟨L', t', e', hq'⟩ := kC_counted E B B2 hB cuts2 hc2 k2 h2
  rw [e] at e'
  cases e'
  rw [hq v] at hv
  rw [hq v, hq' v]
  intro h
  have hL : Coo.quad L v ≠ 0 := right_ne_zero_of_mul hv
  exact hne (Nat.cast_injective (mul_right_cancel₀ hL h))

/-! ## Witness -/

/-- A bay with a flat skin. -/
def bay : Bay ℚ := { C46.bay with skin := { Witness.panel with m := 1, n := 2 } }

example : Bare bay := ⟨rfl, rfl, rfl⟩

/-- One panel, and two halves: all matrices exist, and the stiffness doubles. -/
example : ∃ k1 B1 k2 B2 v, (divide bay [(0, 1)]).calcKC C52.env = .ok (k1, B1) ∧
    (divide bay [(0, 1 / 2), (1 / 2, 1)]).calcKC C52.env = .ok (k2, B2) ∧
    Coo.quad k1 v ≠ 0 ∧ Coo.quad k1 v ≠ Coo.quad k2 v := by
  obtain ⟨⟨k1, B1⟩, h1⟩ := exists_ok (x := (divide bay [(0, 1)]).calcKC C52.env) (by decide +kernel)
  obtain ⟨⟨k2, B2⟩, h2⟩ := exists_ok (x := (divide bay [(0, 1 / 2), (1 / 2, 1)]).calcKC C52.env)
    (by decide +kernel)
  have e : ((divide bay [(0, 1)]).calcKC C52.env).toOption.map (fun x =>
      decide (Coo.quad x.1 (fun _ => 1) ≠ 0)) = some true := by decide +kernel
  have hv : Coo.quad k1 (fun _ => 1) ≠ 0 := by
    rw [h1] at e
    simpa [Except.toOption] using e
  exact ⟨k1, B1, k2, B2, fun _ => 1, h1, h2, hv, claim_violated C52.env bay B1 B2 ⟨rfl, rfl, rfl⟩ _ _
    (by simp) (by simp) (by simp) k1 k2 h1 h2 _ hv⟩

example : ((divide bay [(0, 1 / 2), (1 / 2, 1)]).calcKG C52.env none).isOk = true ∧
    ((divide bay [(0, 1 / 2), (1 / 2, 1)]).calcKM C52.env).isOk = true := by decide +kernel

end Verif.C56
