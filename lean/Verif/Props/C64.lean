import Verif.Proofs.Blades

/-!
# C64: closed cylinder

`create_cylinder_assy` lays equal panels around the circumference and joins each to the next, the last
one to the first.  `create_cylinder_blade_stiffened` stands a blade on the first edge of each.
-/

set_option linter.unusedSectionVars false

namespace Verif.C64

open Model Spec

/-! ## Panels -/

/-- Fewer than two panels are refused, any other number is accepted. -/
theorem accepted (pi : ℝ) (q : CylArgs ℝ) :
    (q.npanels < 2 → createCylinder pi q = .error (.raised .valueError)) ∧
    (2 ≤ q.npanels → ∃ A, createCylinder pi q = .ok A ∧ A.count = q.npanels) := by
  constructor
  · intro h
    rw [createCylinder, if_pos h]
  · intro h
    exact ⟨_, by rw [createCylinder, if_neg (by omega)], rfl⟩

/-- Every point of the circumference lies on exactly one panel: the panel `i` covers
`[y0, y0 + b)`. -/
theorem tiles (q : CylArgs ℝ) (hr : 0 < q.r) (A : Assy ℝ) (h : createCylinder Real.pi q = .ok A) (s : ℝ)
    (h0 : 0 ≤ s) (h1 : s < 2 * Real.pi * q.r) :
    ∃! i, i < A.count ∧ (A.part i).y0 ≤ s ∧ s < (A.part i).y0 + (A.part i).shell.pan.b := by
  have hn : 2 ≤ q.npanels := by
    by_contra hn
    rw [(accepted _ q).1 (by omega)] at h
    cases h
  rw [createCylinder, if_neg (by omega)] at h
  cases h
  have hn' : (0 : ℝ) < q.npanels := by exact_mod_cast (by omega : 0 < q.npanels)
  have hb : 0 < bSkin Real.pi q := by
    unfold bSkin
    have := Real.pi_pos
    positivity
  have hc : bSkin Real.pi q * q.npanels = 2 * Real.pi * q.r := by
    unfold bSkin
    field_simp
  have key : ∀ i : ℕ, (i : ℝ) * bSkin Real.pi q ≤ s ∧ s < i * bSkin Real.pi q + bSkin Real.pi q ↔
      ⌊s / bSkin Real.pi q⌋₊ = i := by
    intro i
    rw [Nat.floor_eq_iff (by positivity), le_div_iff₀ hb, div_lt_iff₀ hb]
    constructor <;> rintro ⟨h1, h2⟩ <;> exact ⟨h1, by linarith⟩
  refine ⟨⌊s / bSkin Real.pi q⌋₊, ⟨?_, (key _).2 rfl⟩, fun i hi => ((key i).1 hi.2).symm⟩
  show ⌊s / bSkin Real.pi q⌋₊ < q.npanels
  rw [Nat.floor_lt (by positivity), div_lt_iff₀ hb]
  linarith

/-- All panels have the height of the cylinder and its radius, fixed translations at both ends and
free edges along `x`. -/
theorem panels (q : CylArgs ℝ) (A : Assy ℝ) (h : createCylinder Real.pi q = .ok A) (i : ℕ) :
    (A.part i).x0 = 0 ∧ (A.part i).shell.r = some q.r ∧ (A.part i).shell.pan.a = q.height ∧
    (∀ f ∈ [(A.part i).shell.pan.xu, (A.part i).shell.pan.xv, (A.part i).shell.pan.xw],
      f = ⟨0, 1, 0, 1⟩) ∧
    (∀ f ∈ [(A.part i).shell.pan.yu, (A.part i).shell.pan.yv, (A.part i).shell.pan.yw],
      f = ⟨1, 1, 1, 1⟩) := by
  have hn : ¬ q.npanels < 2 := fun hn => by
    rw [(accepted _ q).1 hn] at h
    cases h
  rw [createCylinder, if_neg hn] at h
  cases h
  simp [skinPart, cylShell, Shell.new, edgeFlags]

/-! ## Stiffness -/

/-- **C64.**  The stiffness matrix of the cylinder exists.  Its quadratic form is the strain energy of
all panels plus that of springs along every edge, which oppose the jumps of the displacements and of
the slope between a panel and the next around the circumference. -/
theorem stiffness {E : Env ℝ} (hI : E.I.Exact E.S Mean.integral) (hS : E.S.C2) (q : CylArgs ℝ)
    (hn : 2 ≤ q.npanels) (hm : 0 < q.m ∧ 0 < q.n) (hh : 0 < q.height) (hr : 0 < q.r)
    {t : Shell ℝ} (ht : (skinPart Real.pi q 0).shell.rebuild E = .ok t) {lam : LamObj ℝ}
    (hl : t.lam = some lam) (hF : ABDSym lam.ABD) (hpos : C44.Pos (penOf t lam)) :
    ∃ A k0 M kt kr, createCylinder Real.pi q = .ok A ∧
      A.multi.calcKC E (some A.conns) none = .ok (k0, M) ∧ 0 < kt ∧ 0 < kr ∧
      ∀ v, let P := (skinPart Real.pi q 0).shell.panel
        let N := 3 * q.m * q.n
        Coo.quad k0 v
          = ((List.range q.npanels).map fun i => strainWork E.S P lam.ABD fun k => v (i * N + k)).sum
          + ((List.range q.npanels).map fun i =>
              edgeEnergy E.S P kt kr (i * N) ((i + 1) % q.npanels * N) v).sum := by
  have hA : createCylinder Real.pi q = .ok ⟨skinPart Real.pi q, q.npanels, skinConns Real.pi q⟩ := by
    rw [createCylinder, if_neg (by omega)]
  have hs : Skin q (skinPart Real.pi q 0).shell.pan (fun _ => 0)
      ⟨skinPart Real.pi q, q.npanels, skinConns Real.pi q⟩ :=
    ⟨rfl, rfl, fun _ _ => rfl, rfl, rfl, rfl, rfl⟩
  obtain ⟨k0, M, -, -, kt, kr, h1, -, h2, h3, h4, -⟩ := hs.energy hI hS hn hm hh hr ht hl hF hpos
  exact ⟨_, k0, M, kt, kr, hA, h1, h2, h3, h4⟩

/-- Three panels of 5 × 7 terms. -/
noncomputable def args : CylArgs ℝ where
  height := 2
  r := 1
  stack := [0, 90]
  plyt := 1 / 8
  laminaprop := [1]
  npanels := 3
  m := 5
  n := 7

theorem args_built : ∃ t lam, (skinPart Real.pi args 0).shell.rebuild C40.env = .ok t ∧
    t.lam = some lam ∧ ABDSym lam.ABD ∧ C44.Pos (penOf t lam) := by
  refine ⟨_, _, rfl, rfl, ?_, ?_⟩
  · constructor <;> simp [lamABD, C40.env, skinPart, cylShell, Shell.new]
    intro s t
    by_cases h : s = t
    · subst h; rfl
    · rw [if_neg h, if_neg (Ne.symm h)]
  · have := Real.pi_pos
    constructor <;> simp [penOf, lamABD, C40.env, orFill, skinPart, cylShell, Shell.new, args, bSkin]
    all_goals positivity

/-- Such a cylinder can be built and meets the hypotheses of `stiffness` and `tiles`. -/
example : ∃ A k0 M, createCylinder Real.pi args = .ok A ∧
    A.multi.calcKC C40.env (some A.conns) none = .ok (k0, M) ∧
    ∃! i, i < A.count ∧ (A.part i).y0 ≤ 3 ∧ 3 < (A.part i).y0 + (A.part i).shell.pan.b := by
  obtain ⟨t, lam, h1, h2, h3, h4⟩ := args_built
  obtain ⟨A, k0, M, kt, kr, g1, g2, -⟩ := stiffness (Tab.of_exact _ _) bardellShape_C2 args (by decide)
    ⟨by decide, by decide⟩ (by simp [args]) (by simp [args]) h1 h2 h3 h4
  exact ⟨A, k0, M, g1, g2, tiles args (by simp [args]) A g1 3 (by norm_num) (by
    have := Real.two_le_pi
    simp only [args]
    linarith)⟩

/-! ## Blades -/

/-- Wrong numbers of panels or of blades are refused. -/
theorem blades_accepted (pi : ℝ) (q : CylArgs ℝ) (sts : List (List ℝ)) (widths : List ℝ) :
    (∃ A, createCylinderBlades pi q sts widths = .ok A) ↔
      2 ≤ q.npanels ∧ sts.length = q.npanels ∧ widths.length = q.npanels := by
  unfold createCylinderBlades
  by_cases h1 : q.npanels < 2
  · rw [if_pos h1]
    exact ⟨fun ⟨_, h⟩ => (nomatch h), fun h => by omega⟩
  rw [if_neg h1]
  by_cases h2 : sts.length ≠ q.npanels
  · rw [if_pos h2]
    exact ⟨fun ⟨_, h⟩ => (nomatch h), fun h => absurd h.2.1 h2⟩
  rw [if_neg h2]
  by_cases h3 : widths.length ≠ q.npanels
  · rw [if_pos h3]
    exact ⟨fun ⟨_, h⟩ => (nomatch h), fun h => absurd h.2.2 h3⟩
  rw [if_neg h3]
  exact ⟨fun _ => ⟨by omega, by omega, by omega⟩, fun _ => ⟨_, rfl⟩⟩

/-- **C64, blades.**  The stiffness of the stiffened cylinder: that of the closed skin, the strain
energy of the flat blades, and springs between each blade and the first edge of its panel. -/
theorem blades_stiffness {E : Env ℝ} {q : CylArgs ℝ} {sts : List (List ℝ)} {widths : List ℝ}
    {t : Shell ℝ} {lam : LamObj ℝ} {tb : ℕ → Shell ℝ} {lamb : ℕ → LamObj ℝ}
    (h : BladesFit E q sts widths t lam tb lamb) :
    ∃ A k0 M kt kr, ∃ kt' kr' : ℕ → ℝ, createCylinderBlades Real.pi q sts widths = .ok A ∧
      A.multi.calcKC E (some A.conns) none = .ok (k0, M) ∧ 0 < kt ∧ 0 < kr ∧
      (∀ i < q.npanels, 0 < kt' i ∧ 0 < kr' i) ∧
      ∀ v, let P := (skinPart Real.pi q 0).shell.panel
        let B := fun i => (bladePart Real.pi q sts widths i).shell.panel
        let N := 3 * q.m * q.n
        Coo.quad k0 v
          = ((List.range q.npanels).map fun i => strainWork E.S P lam.ABD fun k => v (i * N + k)).sum
          + ((List.range q.npanels).map fun i =>
              strainWork E.S (B i) (lamb i).ABD fun k => v ((q.npanels + i) * N + k)).sum
          + ((List.range q.npanels).map fun i =>
              edgeEnergy E.S P kt kr (i * N) ((i + 1) % q.npanels * N) v).sum
          + ((List.range q.npanels).map fun i => standEnergy E.S P (B i) (kt' i) (kr' i) (i * N)
              ((q.npanels + i) * N) v).sum := by
  obtain ⟨A, hA⟩ := (blades_accepted Real.pi q sts widths).2 ⟨h.num, h.nstacks, h.nwidths⟩
  have hs : Stiffened q sts widths (skinPart Real.pi q 0).shell.pan
      (fun i => (bladePart Real.pi q sts widths i).shell.pan) (fun _ => 0) (fun _ => 0) A := by
    have hA' := hA
    have hn := h.num
    rw [createCylinderBlades, if_neg (by omega), if_neg (by have := h.nstacks; omega),
      if_neg (by have := h.nwidths; omega)] at hA'
    cases hA'
    refine ⟨rfl, ?_, fun p hp => ?_, fun i hi => ?_, rfl, rfl, rfl, rfl, fun _ => rfl, fun _ => rfl,
      fun _ => rfl, fun _ => rfl⟩
    · show _ ++ _ = _ ++ _
      congr 1
      refine List.ext_getElem (by simp) fun i h1 h2 => ?_
      simp [bladeConn]
    · simp only [hp, if_true]
      rfl
    · simp only [show ¬ q.npanels + i < q.npanels by omega, if_false, Nat.add_sub_cancel_left]
      rfl
  obtain ⟨k0, M, -, -, kt, kr, kt', kr', h1, -, h2, h3, h4, h5, -⟩ := hs.energy h
  exact ⟨A, k0, M, kt, kr, kt', kr', hA, h1, h2, h3, h4, h5⟩

theorem blades_built : ∃ t lam tb lamb, BladesFit C40.env args [[0], [45, 0], [0, 0, 90]] [1, 2, 3] t lam tb
    lamb := by
  obtain ⟨t, lam, h1, h2, h3, h4⟩ := args_built
  have hb : ∀ i, ∃ tb lamb, i < args.npanels → (bladePart Real.pi args [[0], [45, 0], [0, 0, 90]] [1, 2, 3] i).shell.rebuild C40.env = .ok tb ∧
      tb.lam = some lamb ∧ ABDSym lamb.ABD ∧ C44.Pos (penOf tb lamb) := by
    intro i
    by_cases hi : i < args.npanels
    · suffices ∃ tb lamb, (bladePart Real.pi args [[0], [45, 0], [0, 0, 90]] [1, 2, 3] i).shell.rebuild C40.env = .ok tb ∧
          tb.lam = some lamb ∧ ABDSym lamb.ABD ∧ C44.Pos (penOf tb lamb) by
        obtain ⟨tb, lamb, h⟩ := this
        exact ⟨tb, lamb, fun _ => h⟩
      have h : i = 0 ∨ i = 1 ∨ i = 2 := by
        have : args.npanels = 3 := rfl
        omega
      rcases h with rfl | rfl | rfl
      all_goals
        refine ⟨_, _, rfl, rfl, ?_, ?_⟩
        · constructor <;> simp [lamABD, C40.env, bladePart, cylShell, Shell.new]
          intro s t
          by_cases h : s = t
          · subst h; rfl
          · rw [if_neg h, if_neg (Ne.symm h)]
        · constructor <;> simp [penOf, lamABD, C40.env, orFill, bladePart, cylShell, Shell.new, args]
          all_goals norm_num
    · exact ⟨t, lam, fun h => absurd h hi⟩
  choose tb lamb hb using hb
  refine ⟨t, lam, tb, lamb, Tab.of_exact _ _, bardellShape_C2, by decide, rfl, rfl, ⟨by decide, by decide⟩,
    by simp [args], by simp [args], ?_, h1, h2, h3, h4, fun i hi => (hb i hi).1,
    fun i hi => (hb i hi).2.1, fun i hi => (hb i hi).2.2.1, fun i hi => (hb i hi).2.2.2⟩
  intro i hi
  have h : i = 0 ∨ i = 1 ∨ i = 2 := by
    have : args.npanels = 3 := rfl
    omega
  rcases h with rfl | rfl | rfl <;> simp

/-- Three different blades. -/
example : ∃ A k0 M, createCylinderBlades Real.pi args [[0], [45, 0], [0, 0, 90]] [1, 2, 3] = .ok A ∧
    A.multi.calcKC C40.env (some A.conns) none = .ok (k0, M) := by
  obtain ⟨t, lam, tb, lamb, h⟩ := blades_built
  obtain ⟨A, k0, M, kt, kr, kt', kr', g1, g2, -⟩ := blades_stiffness h
  exact ⟨A, k0, M, g1, g2⟩

end Verif.C64
