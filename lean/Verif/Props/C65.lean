import Verif.Proofs.AssyFext
import Verif.Props.C64

/-!
# C65: axial loads given panel by panel

The functions for cylinders under compression take one value of `Nxx` per panel.  Claim: each panel is
loaded with its own value.  True of the two functions that use the values directly; false of the two
that take them from a static analysis, where every panel gets the last value, and of `cylinder_spla`,
which does not use its value.
-/

set_option linter.unusedSectionVars false

namespace Verif.C65

open Model Spec Finset

/-! ## Values used directly -/

/-- **C65, constant loads.**  The geometric stiffness given to the solver is the work of the given
values through the slopes of the panels, value `i` on panel `i`; the stiffness is that of the closed
cylinder whose edge `x = a` moves freely along `x`. -/
theorem nxx_cte {E : Env ℝ} (hI : E.I.Exact E.S Mean.integral) (hS : E.S.C2) (q : CylArgs ℝ)
    (hn : 2 ≤ q.npanels) (hm : 0 < q.m ∧ 0 < q.n) (hh : 0 < q.height) (hr : 0 < q.r)
    {t : Shell ℝ} (ht : (skinPart Real.pi q 0).shell.rebuild E = .ok t) {lam : LamObj ℝ}
    (hl : t.lam = some lam) (hF : ABDSym lam.ABD) (hpos : C44.Pos (penOf t lam))
    (Nxxs : List ℝ) (hN : Nxxs.length = q.npanels) :
    ∃ A k0 kG kt kr, cylinderNxxCte E Real.pi q Nxxs = .ok (A, k0, kG) ∧ 0 < kt ∧ 0 < kr ∧
      let P := (skinPart Real.pi q 0).freeX2u.shell.panel
      let N := 3 * q.m * q.n
      (∀ v, Coo.quad k0 v
          = ((List.range q.npanels).map fun i => strainWork E.S P lam.ABD fun k => v (i * N + k)).sum
          + ((List.range q.npanels).map fun i =>
              edgeEnergy E.S P kt kr (i * N) ((i + 1) % q.npanels * N) v).sum) ∧
      ∀ v, Coo.quad kG v = ((List.range q.npanels).map fun i =>
        slopeWork E.S P (Nxxs.getD i 0) 0 0 fun k => v (i * N + k)).sum := by
  have hA : createCylinder Real.pi q = .ok ⟨skinPart Real.pi q, q.npanels, skinConns Real.pi q⟩ := by
    rw [createCylinder, if_neg (by omega)]
  have hs : Skin q (skinPart Real.pi q 0).freeX2u.shell.pan (fun i => Nxxs.getD i 0)
      ⟨fun i => ((skinPart Real.pi q i).setNxx (Nxxs.getD i 0)).freeX2u, q.npanels,
        skinConns Real.pi q⟩ :=
    ⟨rfl, rfl, fun _ _ => rfl, rfl, rfl, rfl, rfl⟩
  obtain ⟨k0, M, kG, M', kt, kr, h1, g1, h2, h3, h4, h5, -⟩ := hs.energy hI hS hn hm hh hr ht hl hF hpos
  refine ⟨⟨fun i => ((skinPart Real.pi q i).setNxx (Nxxs.getD i 0)).freeX2u, q.npanels,
    skinConns Real.pi q⟩, k0, kG, kt, kr, ?_, h2, h3, h4, h5⟩
  unfold cylinderNxxCte
  simp only [hA, bind, Except.bind, hN, ne_eq, not_true_eq_false, if_false, h1, g1]
  rfl

/-- A list of another length is refused. -/
theorem nxx_cte_length (E : Env ℝ) (q : CylArgs ℝ) (Nxxs : List ℝ) (hN : Nxxs.length ≠ q.npanels) :
    cylinderNxxCte E Real.pi q Nxxs = .error (.raised .valueError) ∧
    cylinderFromStatic E Real.pi q Nxxs = .error (.raised .valueError) := by
  unfold cylinderNxxCte cylinderFromStatic createCylinder
  by_cases h : q.npanels < 2
  · simp [h, bind, Except.bind]
  · simp [h, bind, Except.bind, hN]

theorem made {E : Env ℝ} {q : CylArgs ℝ} {sts : List (List ℝ)} {widths : List ℝ} {t : Shell ℝ}
    {lam : LamObj ℝ} {tb : ℕ → Shell ℝ} {lamb : ℕ → LamObj ℝ}
    (h : BladesFit E q sts widths t lam tb lamb) {A : Assy ℝ}
    (hA : createCylinderBlades Real.pi q sts widths = .ok A) :
    Groups A q.npanels ∧ (∀ p < q.npanels, A.part p = skinPart Real.pi q p) ∧
      (∀ i < q.npanels, A.part (q.npanels + i) = bladePart Real.pi q sts widths i) ∧
      A.conns = skinConns Real.pi q ++ (List.range q.npanels).map (bladeConn q.npanels) := by
  have hn := h.num
  rw [createCylinderBlades, if_neg (by omega), if_neg (by have := h.nstacks; omega),
    if_neg (by have := h.nwidths; omega)] at hA
  cases hA
  have e1 : ∀ p < q.npanels, (if p < q.npanels then skinPart Real.pi q p
      else bladePart Real.pi q sts widths (p - q.npanels)) = skinPart Real.pi q p :=
    fun p hp => if_pos hp
  have e2 : ∀ i < q.npanels, (if q.npanels + i < q.npanels then skinPart Real.pi q (q.npanels + i)
      else bladePart Real.pi q sts widths (q.npanels + i - q.npanels))
        = bladePart Real.pi q sts widths i := fun i _ => by
    rw [if_neg (by omega), Nat.add_sub_cancel_left]
  refine ⟨⟨rfl, fun p hp => ?_, fun i hi => ?_⟩, e1, e2, ?_⟩
  · show (if p < q.npanels then _ else _ : Model.Part ℝ).group = _
    rw [e1 p hp]
    rfl
  · show (if q.npanels + i < q.npanels then _ else _ : Model.Part ℝ).group = _
    rw [e2 i hi]
    rfl
  · show _ ++ _ = _ ++ _
    congr 1
    refine List.ext_getElem (by simp) fun i h1 h2 => ?_
    simp [bladeConn]

/-- **C65, constant loads, blades.**  The same with one value per panel of the skin and one per
blade. -/
theorem blades_nxx_cte {E : Env ℝ} {q : CylArgs ℝ} {sts : List (List ℝ)} {widths : List ℝ}
    {t : Shell ℝ} {lam : LamObj ℝ} {tb : ℕ → Shell ℝ} {lamb : ℕ → LamObj ℝ}
    (h : BladesFit E q sts widths t lam tb lamb) (NxxsSkin NxxsBlade : List ℝ)
    (hN : NxxsSkin.length = q.npanels) (hNb : NxxsBlade.length = q.npanels) :
    ∃ A k0 kG, bladesNxxCte E Real.pi q sts widths NxxsSkin NxxsBlade = .ok (A, k0, kG) ∧
      let P := (skinPart Real.pi q 0).freeX2u.shell.panel
      let B := fun i => (bladePart Real.pi q sts widths i).freeX2u.shell.panel
      let N := 3 * q.m * q.n
      ∀ v, Coo.quad kG v = ((List.range q.npanels).map fun i =>
          slopeWork E.S P (NxxsSkin.getD i 0) 0 0 fun k => v (i * N + k)).sum
        + ((List.range q.npanels).map fun i =>
          slopeWork E.S (B i) (NxxsBlade.getD i 0) 0 0 fun k => v ((q.npanels + i) * N + k)).sum := by
  obtain ⟨A, hA⟩ := (C64.blades_accepted Real.pi q sts widths).2 ⟨h.num, h.nstacks, h.nwidths⟩
  obtain ⟨hg, hp, hpb, hc⟩ := made h hA
  have hs : Stiffened q sts widths (skinPart Real.pi q 0).freeX2u.shell.pan
      (fun i => (bladePart Real.pi q sts widths i).freeX2u.shell.pan) (fun i => NxxsSkin.getD i 0)
      (fun i => NxxsBlade.getD i 0) (constLoads NxxsSkin NxxsBlade A q.npanels (q.npanels + q.npanels)) := by
    refine ⟨hg.count, hc, fun p hlt => ?_, fun i hlt => ?_, rfl, rfl, rfl, rfl, fun _ => rfl,
      fun _ => rfl, fun _ => rfl, fun _ => rfl⟩
    · simp only [constLoads, show ¬ q.npanels + q.npanels ≤ p by omega, if_false, hlt, if_true, hp p hlt]
      rfl
    · simp only [constLoads, show ¬ q.npanels + q.npanels ≤ q.npanels + i by omega, if_false,
        show ¬ q.npanels + i < q.npanels by omega, hpb i hlt, Nat.add_sub_cancel_left]
      rfl
  obtain ⟨k0, M, kG, M', kt, kr, kt', kr', h1, h2, -, -, -, -, h3, -⟩ := hs.energy h
  refine ⟨constLoads NxxsSkin NxxsBlade A q.npanels (q.npanels + q.npanels), k0, kG, ?_, h3⟩
  unfold bladesNxxCte
  simp only [hA, bind, Except.bind, hN, hNb, ne_eq, not_true_eq_false, if_false,
    bladeNxxLoop_eq hg, h1, h2]
  rfl

/-! ## Values from a static analysis -/

/-- **C65, negative.**  The forces are those of the *last* value on every panel. -/
theorem from_static {E : Env ℝ} (hI : E.I.Exact E.S Mean.integral) (hS : E.S.C2) (q : CylArgs ℝ)
    (hn : 2 ≤ q.npanels) (hm : 0 < q.m ∧ 0 < q.n) (hh : 0 < q.height) (hr : 0 < q.r)
    {t : Shell ℝ} (ht : (skinPart Real.pi q 0).shell.rebuild E = .ok t) {lam : LamObj ℝ}
    (hl : t.lam = some lam) (hpos : C44.Pos (penOf t lam))
    (Nxxs : List ℝ) (hN : Nxxs.length = q.npanels) :
    ∃ A f k0, cylinderFromStatic E Real.pi q Nxxs = .ok (A, f, k0) ∧
      let P := (skinPart Real.pi q 0).freeX2u.shell.panel
      let N := 3 * q.m * q.n
      ∀ c, ∑ k ∈ range (q.npanels * N), f k * c k = ((List.range q.npanels).map fun i =>
        axialWork E.G E.S P (Nxxs.getD (q.npanels - 1) 0) (i * N) c).sum := by
  have hA : createCylinder Real.pi q = .ok ⟨skinPart Real.pi q, q.npanels, skinConns Real.pi q⟩ := by
    rw [createCylinder, if_neg (by omega)]
  have hs : Skin q (skinPart Real.pi q 0).freeX2u.shell.pan (fun _ => 0)
      ⟨fun i => (skinPart Real.pi q i).freeX2u, q.npanels, skinConns Real.pi q⟩ :=
    ⟨rfl, rfl, fun _ _ => rfl, rfl, rfl, rfl, rfl⟩
  obtain ⟨f, M, k0, M', h1, h2, h3⟩ := (hs.fit hI hS hn hm hh hr ht hl hpos).fext (fun _ _ => rfl)
    fun _ => Nxxs.getD (q.npanels - 1) 0
  refine ⟨loaded ⟨fun i => (skinPart Real.pi q i).freeX2u, q.npanels, skinConns Real.pi q⟩ q.npanels
    fun _ _ => Nxxs.getD (q.npanels - 1) 0, f, k0, ?_, fun c => ?_⟩
  · have e := apply_range (staticLoop Nxxs q.npanels)
      ⟨fun i => (skinPart Real.pi q i).freeX2u, q.npanels, skinConns Real.pi q⟩ q.npanels
      (fun _ i _ => Nxxs.getD i 0) (by rw [staticLoop_eq])
    rw [staticLoop_eq] at e
    unfold cylinderFromStatic
    simp only [hA, bind, Except.bind, hN, ne_eq, not_true_eq_false, if_false, staticLoop_eq, e, lift]
    simp only [h1]
    erw [h2]
    rfl
  · have h3 := h3 c
    rw [Assy_size, show Assy.count _ = q.npanels from rfl, hs.start le_rfl] at h3
    rw [h3]
    congr 1
    refine List.map_congr_left fun i hi => ?_
    rw [hs.start (List.mem_range.1 hi).le]
    rfl

/-- **C65, what holds.**  The claim, if all values are equal. -/
theorem from_static_partial {E : Env ℝ} (hI : E.I.Exact E.S Mean.integral) (hS : E.S.C2) (q : CylArgs ℝ)
    (hn : 2 ≤ q.npanels) (hm : 0 < q.m ∧ 0 < q.n) (hh : 0 < q.height) (hr : 0 < q.r)
    {t : Shell ℝ} (ht : (skinPart Real.pi q 0).shell.rebuild E = .ok t) {lam : LamObj ℝ}
    (hl : t.lam = some lam) (hpos : C44.Pos (penOf t lam))
    (Nxxs : List ℝ) (hN : Nxxs.length = q.npanels)
    (heq : ∀ i < q.npanels, Nxxs.getD i 0 = Nxxs.getD (q.npanels - 1) 0) :
    ∃ A f k0, cylinderFromStatic E Real.pi q Nxxs = .ok (A, f, k0) ∧
      let P := (skinPart Real.pi q 0).freeX2u.shell.panel
      let N := 3 * q.m * q.n
      ∀ c, ∑ k ∈ range (q.npanels * N), f k * c k = ((List.range q.npanels).map fun i =>
        axialWork E.G E.S P (Nxxs.getD i 0) (i * N) c).sum := by
  obtain ⟨A, f, k0, h1, h2⟩ := from_static hI hS q hn hm hh hr ht hl hpos Nxxs hN
  refine ⟨A, f, k0, h1, fun c => (h2 c).trans ?_⟩
  congr 1
  refine List.map_congr_left fun i hi => ?_
  rw [heq i (List.mem_range.1 hi)]

/-- The same for stiffened cylinders: every panel of the skin and every blade gets the value of the
last blade. -/
theorem blades_from_static {E : Env ℝ} {q : CylArgs ℝ} {sts : List (List ℝ)} {widths : List ℝ}
    {t : Shell ℝ} {lam : LamObj ℝ} {tb : ℕ → Shell ℝ} {lamb : ℕ → LamObj ℝ}
    (h : BladesFit E q sts widths t lam tb lamb) (NxxsSkin NxxsBlade : List ℝ)
    (hN : NxxsSkin.length = q.npanels) (hNb : NxxsBlade.length = q.npanels) :
    ∃ A f k0, bladesFromStatic E Real.pi q sts widths NxxsSkin NxxsBlade = .ok (A, f, k0) ∧
      let P := (skinPart Real.pi q 0).freeX2u.shell.panel
      let B := fun i => (bladePart Real.pi q sts widths i).freeX2u.shell.panel
      let N := 3 * q.m * q.n
      let F := NxxsBlade.getD (q.npanels - 1) 0
      ∀ c, ∑ k ∈ range ((q.npanels + q.npanels) * N), f k * c k
        = ((List.range q.npanels).map fun i => axialWork E.G E.S P F (i * N) c).sum
        + ((List.range q.npanels).map fun i =>
            axialWork E.G E.S (B i) F ((q.npanels + i) * N) c).sum := by
  obtain ⟨A, hA⟩ := (C64.blades_accepted Real.pi q sts widths).2 ⟨h.num, h.nstacks, h.nwidths⟩
  obtain ⟨hg, hp, hpb, hc⟩ := made h hA
  obtain ⟨part, count, conns⟩ := A
  obtain rfl : count = q.npanels + q.npanels := hg.count
  dsimp only at hp hpb
  have hs : Stiffened q sts widths (skinPart Real.pi q 0).freeX2u.shell.pan
      (fun i => (bladePart Real.pi q sts widths i).freeX2u.shell.pan) (fun _ => 0) (fun _ => 0)
      ⟨fun i => (part i).freeX2u, q.npanels + q.npanels, conns⟩ := by
    refine ⟨hg.count, hc, fun p hlt => ?_, fun i hlt => ?_, rfl, rfl, rfl, rfl, fun _ => rfl,
      fun _ => rfl, fun _ => rfl, fun _ => rfl⟩
    · simp only [hp p hlt]
      rfl
    · simp only [hpb i hlt]
      rfl
  obtain ⟨f, M, k0, M', h1, h2, h3⟩ := (hs.fit h).fext
    (fun p hlt => by
      replace hlt : p < q.npanels + q.npanels := hlt
      rcases split_index hlt with hlt | ⟨i, hi, rfl⟩
      · simp only [hp p hlt]; rfl
      · simp only [hpb i hi]; rfl)
    fun _ => NxxsBlade.getD (q.npanels - 1) 0
  refine ⟨loaded ⟨fun i => (part i).freeX2u, q.npanels + q.npanels, conns⟩ (q.npanels + q.npanels)
    fun _ _ => NxxsBlade.getD (q.npanels - 1) 0, f, k0, ?_, fun c => ?_⟩
  · have hv : (varsAt NxxsSkin NxxsBlade q.npanels (q.npanels + q.npanels)).Nxx.getD 0
        = NxxsBlade.getD (q.npanels - 1) 0 := by
      have := h.num
      simp [varsAt, show q.npanels ≠ 0 by omega]
    have e := apply_range (bladeStaticLoop NxxsSkin NxxsBlade ⟨part, q.npanels + q.npanels, conns⟩)
      ⟨fun i => (part i).freeX2u, q.npanels + q.npanels, conns⟩ (q.npanels + q.npanels)
      (fun _ v _ => v.Nxx.getD 0) (by rw [bladeStaticLoop_eq hg])
    rw [bladeStaticLoop_eq hg] at e
    simp only [hv] at e
    unfold bladesFromStatic
    simp only [hA, bind, Except.bind, hN, hNb, ne_eq, not_true_eq_false, if_false,
      bladeStaticLoop_eq hg, e, lift]
    simp only [h1]
    erw [h2]
    rfl
  · have h3 := h3 c
    rw [Assy_size] at h3
    dsimp only at h3
    rw [hs.start le_rfl, List.range_add, List.map_append, List.sum_append,
      List.map_map] at h3
    rw [h3]
    congr 1
    · congr 1
      refine List.map_congr_left fun i hi => ?_
      have := List.mem_range.1 hi
      rw [hs.start (by omega), hs.part i this]
      rfl
    · congr 1
      refine List.map_congr_left fun i hi => ?_
      have := List.mem_range.1 hi
      simp only [Function.comp_apply]
      rw [hs.start (by omega)]
      erw [hs.partb i this]
      rfl

/-- **C65, what holds, blades.**  The claim, if all values are equal. -/
theorem blades_from_static_partial {E : Env ℝ} {q : CylArgs ℝ} {sts : List (List ℝ)} {widths : List ℝ}
    {t : Shell ℝ} {lam : LamObj ℝ} {tb : ℕ → Shell ℝ} {lamb : ℕ → LamObj ℝ}
    (h : BladesFit E q sts widths t lam tb lamb) (NxxsSkin NxxsBlade : List ℝ)
    (hN : NxxsSkin.length = q.npanels) (hNb : NxxsBlade.length = q.npanels)
    (heq : ∀ i < q.npanels, NxxsSkin.getD i 0 = NxxsBlade.getD (q.npanels - 1) 0 ∧
      NxxsBlade.getD i 0 = NxxsBlade.getD (q.npanels - 1) 0) :
    ∃ A f k0, bladesFromStatic E Real.pi q sts widths NxxsSkin NxxsBlade = .ok (A, f, k0) ∧
      let P := (skinPart Real.pi q 0).freeX2u.shell.panel
      let B := fun i => (bladePart Real.pi q sts widths i).freeX2u.shell.panel
      let N := 3 * q.m * q.n
      ∀ c, ∑ k ∈ range ((q.npanels + q.npanels) * N), f k * c k
        = ((List.range q.npanels).map fun i =>
            axialWork E.G E.S P (NxxsSkin.getD i 0) (i * N) c).sum
        + ((List.range q.npanels).map fun i =>
            axialWork E.G E.S (B i) (NxxsBlade.getD i 0) ((q.npanels + i) * N) c).sum := by
  obtain ⟨A, f, k0, h1, h2⟩ := blades_from_static h NxxsSkin NxxsBlade hN hNb
  refine ⟨A, f, k0, h1, fun c => (h2 c).trans ?_⟩
  congr 2
  · refine List.map_congr_left fun i hi => ?_
    rw [(heq i (List.mem_range.1 hi)).1]
  · refine List.map_congr_left fun i hi => ?_
    rw [(heq i (List.mem_range.1 hi)).2]

/-- **C65, negative, single perturbation load.**  The value of `Nxx` given to `cylinder_spla` has no
effect: the only force is the perturbation load, at the middle of the first panel. -/
theorem spla {E : Env ℝ} (hI : E.I.Exact E.S Mean.integral) (hS : E.S.C2) (q : CylArgs ℝ)
    (hn : 2 ≤ q.npanels) (hm : 0 < q.m ∧ 0 < q.n) (hh : 0 < q.height) (hr : 0 < q.r)
    {t : Shell ℝ} (ht : (skinPart Real.pi q 0).shell.rebuild E = .ok t) {lam : LamObj ℝ}
    (hl : t.lam = some lam) (hpos : C44.Pos (penOf t lam)) (Nxx SPLA : ℝ) :
    ∃ A f M, cylinderSpla Real.pi q Nxx SPLA = .ok A ∧ A.fext E = .ok (f, M) ∧
      let P := (skinPart Real.pi q 0).freeX2u.shell.panel
      ∀ c, ∑ k ∈ range (q.npanels * (3 * q.m * q.n)), f k * c k
        = -SPLA * Spec.field E.S P 0 c 2 (q.height / 2) (Real.pi * q.r / q.npanels) := by
  have hA : createCylinder Real.pi q = .ok ⟨skinPart Real.pi q, q.npanels, skinConns Real.pi q⟩ := by
    rw [createCylinder, if_neg (by omega)]
  have hs : Skin q (skinPart Real.pi q 0).freeX2u.shell.pan (fun _ => 0)
      ⟨fun i => (skinPart Real.pi q i).freeX2u, q.npanels, skinConns Real.pi q⟩ :=
    ⟨rfl, rfl, fun _ _ => rfl, rfl, rfl, rfl, rfl⟩
  set A0 : Assy ℝ := ⟨fun i => (skinPart Real.pi q i).freeX2u, q.npanels, skinConns Real.pi q⟩ with hA0
  have hfit := hs.fit hI hS hn hm hh hr ht hl hpos
  have e := apply_range (splaLoop A0) A0 q.npanels (fun _ p _ => (A0.part p).shell.Nxx)
    (by rw [splaLoop_eq])
  rw [splaLoop_eq] at e
  have e0 : ∀ p, (A0.part p).shell.Nxx = 0 := fun _ => rfl
  simp only [e0] at e
  let p0 := (loaded A0 q.npanels fun _ _ => (0 : ℝ)).part 0
  let l0 := p0.loads.addPointLoad (p0.shell.pan.a / 2) (p0.shell.pan.b / 2) 0 0 (-SPLA) true
  let A : Assy ℝ := { loaded A0 q.npanels fun _ _ => (0 : ℝ) with
    part := fun i => if i = 0 then { p0 with loads := l0 }
      else (loaded A0 q.npanels fun _ _ => (0 : ℝ)).part i }
  have hsh : ∀ p, (A.part p).shell = (A0.part p).shell := fun p => by
    show (if p = 0 then _ else _ : Model.Part ℝ).shell = _
    split
    · rename_i h; subst h
      exact loaded_shell _ _ _ _
    · exact loaded_shell _ _ _ _
  have hmulti : A.multi = A0.multi := by
    unfold Assy.multi
    simp only [hsh]
    rfl
  have hl0 : (A.part 0).loads = { pointLoads := [⟨q.height / 2, bSkin Real.pi q / 2, 0, 0, -SPLA⟩]
                                  distrLoads := [⟨some q.height, none, some fun _ => 0, none, none⟩] } := by
    have : 0 < q.npanels := by omega
    simp [A, l0, p0, loaded, this, withLoad, Loads.addPointLoad, hA0, skinPart, Part.freeX2u, cylShell,
      Shell.new]
  have hl1 : ∀ p < q.npanels, p ≠ 0 → (A.part p).loads
      = { distrLoads := [⟨some q.height, none, some fun _ => 0, none, none⟩] } := fun p hp h0 => by
    simp [A, h0, loaded, hp, withLoad, hA0, skinPart, Part.freeX2u, cylShell, Shell.new]
  obtain ⟨f, M, hf, hw⟩ := C67.fext_work E A0.multi (laid_init _ _ _ _ List.nodup_range)
    (fun p => (A.part p).loads) 1 _ (fun p hp => hfit.built p (List.mem_range.1 hp))
    (fun p hp l hl' => by
      have hp' : p < q.npanels := List.mem_range.1 hp
      by_cases h0 : p = 0
      · subst h0
        rw [hl0] at hl'
        simp at hl'
        subst hl'
        simp [OnLine]
      · rw [hl1 p hp' h0] at hl'
        simp at hl'
        subst hl'
        simp [OnLine])
  refine ⟨A, f, M, ?_, ?_, fun c => ?_⟩
  · unfold cylinderSpla
    simp only [hA, bind, Except.bind]
    rw [← hA0]
    simp only [splaLoop_eq, e0, e, lift]
    rfl
  · unfold Assy.fext
    rw [hmulti]
    exact hf
  · have hw := hw c
    rw [Assy_size, show A0.count = q.npanels from rfl, hs.start le_rfl] at hw
    rw [hw]
    simp only [show A0.multi.panels = List.range q.npanels from rfl, List.length_range]
    have hg : ∀ i < q.npanels, (List.range q.npanels).getD i 0 = i := fun i hi => by
      simp [List.getD, hi]
    obtain ⟨k, hk⟩ : ∃ k, q.npanels = k + 1 := ⟨q.npanels - 1, by omega⟩
    have : ((List.range q.npanels).map fun i => if i = 0 then
        -SPLA * Spec.field E.S (skinPart Real.pi q 0).freeX2u.shell.panel 0 c 2 (q.height / 2)
          (Real.pi * q.r / q.npanels) else 0).sum = -SPLA * Spec.field E.S
            (skinPart Real.pi q 0).freeX2u.shell.panel 0 c 2 (q.height / 2) (Real.pi * q.r / q.npanels) := by
      rw [hk, List.range_succ_eq_map, List.map_cons, List.sum_cons, if_pos rfl, List.map_map,
        List.sum_eq_zero, add_zero]
      intro x hx
      obtain ⟨i, -, rfl⟩ := List.mem_map.1 hx
      simp
    rw [← this]
    congr 1
    refine List.map_congr_left fun i hi => ?_
    have hi' := List.mem_range.1 hi
    rw [hg i hi']
    by_cases h0 : i = 0
    · subst h0
      rw [if_pos rfl, hl0]
      have hb : bSkin Real.pi q / 2 = Real.pi * q.r / q.npanels := by
        unfold bSkin; ring
      simp [C67.loadWork, constWork, incWork, distrWork, comp, lineQuad, pointWork, C40.start, hb]
      exact .inl rfl
    · rw [if_neg h0, hl1 i hi' h0]
      simp [C67.loadWork, constWork, incWork, distrWork, comp, lineQuad]

/-! ## Concrete cases -/

/-- Gauss points of the two-point rule. -/
noncomputable def env : Env ℝ :=
  { C40.env with G := ⟨fun _ p => if p = 0 then -(1 / √3) else 1 / √3, fun _ _ => 1⟩ }

/-- Two panels of 3 × 2 terms. -/
noncomputable def args : CylArgs ℝ := { C64.args with npanels := 2, m := 3, n := 2 }

theorem args_built : ∃ t lam, (skinPart Real.pi args 0).shell.rebuild env = .ok t ∧
    t.lam = some lam ∧ ABDSym lam.ABD ∧ C44.Pos (penOf t lam) := by
  refine ⟨_, _, rfl, rfl, ?_, ?_⟩
  · constructor <;> simp [lamABD, env, C40.env, skinPart, cylShell, Shell.new]
    intro s t
    by_cases h : s = t
    · subst h; rfl
    · rw [if_neg h, if_neg (Ne.symm h)]
  · have := Real.pi_pos
    constructor <;> simp [penOf, lamABD, env, C40.env, orFill, skinPart, cylShell, Shell.new, args,
      C64.args, bSkin]
    all_goals positivity

/-- A constant `Nxx` on each of two panels. -/
example : ∃ A k0 kG, cylinderNxxCte env Real.pi args [1, 2] = .ok (A, k0, kG) := by
  obtain ⟨t, lam, h1, h2, h3, h4⟩ := args_built
  obtain ⟨A, k0, kG, kt, kr, g, -⟩ := nxx_cte (Tab.of_exact _ _) bardellShape_C2 args (by decide)
    ⟨by decide, by decide⟩ (by simp [args, C64.args]) (by simp [args, C64.args]) h1 h2 h3 h4 [1, 2] rfl
  exact ⟨A, k0, kG, g⟩

example : ∃ A k0 kG, bladesNxxCte C40.env Real.pi C64.args [[0], [45, 0], [0, 0, 90]] [1, 2, 3] [1, 2, 3]
    [4, 5, 6] = .ok (A, k0, kG) := by
  obtain ⟨t, lam, tb, lamb, h⟩ := C64.blades_built
  obtain ⟨A, k0, kG, g, -⟩ := blades_nxx_cte h [1, 2, 3] [4, 5, 6] rfl rfl
  exact ⟨A, k0, kG, g⟩

example : ∃ A f k0, bladesFromStatic C40.env Real.pi C64.args [[0], [45, 0], [0, 0, 90]] [1, 2, 3] [1, 2, 3]
    [4, 5, 6] = .ok (A, f, k0) := by
  obtain ⟨t, lam, tb, lamb, h⟩ := C64.blades_built
  obtain ⟨A, f, k0, g, -⟩ := blades_from_static h [1, 2, 3] [4, 5, 6] rfl rfl
  exact ⟨A, f, k0, g⟩

/-- Equal values on all panels. -/
example : (∃ A f k0, cylinderFromStatic env Real.pi args [4, 4] = .ok (A, f, k0)) ∧
    ∀ i < args.npanels, ([4, 4] : List ℝ).getD i 0 = [4, 4].getD (args.npanels - 1) 0 := by
  have heq : ∀ i < args.npanels, ([4, 4] : List ℝ).getD i 0 = [4, 4].getD (args.npanels - 1) 0 := by
    intro i hi
    have : args.npanels = 2 := rfl
    have h : i = 0 ∨ i = 1 := by omega
    rcases h with rfl | rfl <;> simp [this]
  obtain ⟨t, lam, h1, h2, h3, h4⟩ := args_built
  obtain ⟨A, f, k0, g, -⟩ := from_static_partial (Tab.of_exact _ _) bardellShape_C2 args (by decide)
    ⟨by decide, by decide⟩ (by simp [args, C64.args]) (by simp [args, C64.args]) h1 h2 h4 [4, 4] rfl heq
  exact ⟨⟨A, f, k0, g⟩, heq⟩

/-- The mode that moves the end of the first panel. -/
def mode : ℕ → ℝ := fun k => if k = 6 then 1 else 0

theorem mode_work (N : ℝ) : axialWork env.G env.S (skinPart Real.pi args 0).freeX2u.shell.panel N 0 mode
    = N * (Real.pi / 2) ∧
    axialWork env.G env.S (skinPart Real.pi args 0).freeX2u.shell.panel N 18 mode = 0 := by
  have hp := Real.pi_pos.ne'
  constructor
  · simp [axialWork, lineQuad, Finset.sum_range_succ, Spec.field, disp, mode, Shape.D, env, C40.env,
      bardellShape, flag, bardell, pev, skinPart, Part.freeX2u, cylShell, Shell.new, Shell.panel, args,
      C64.args, bSkin, edgeFlags, Panel.xf, Panel.yf]
    generalize (√3)⁻¹ = x
    have e : ∀ z : ℝ, 2 * ((z + 1) * Real.pi / 2) / Real.pi - 1 = z := fun z => by
      field_simp
      ring
    rw [e, e]
    ring
  · simp [axialWork, lineQuad, Spec.field, disp, mode, Finset.sum_range_succ, skinPart, Part.freeX2u,
      cylShell, Shell.new, Shell.panel, args, C64.args]

theorem args_starts (g : ℕ → ℝ) : ((List.range args.npanels).map fun i =>
    axialWork env.G env.S (skinPart Real.pi args 0).freeX2u.shell.panel (g i) (i * (3 * args.m * args.n))
      mode).sum = g 0 * (Real.pi / 2) := by
  have e : List.range args.npanels = [0, 1] := rfl
  rw [e]
  simp only [List.map_cons, List.map_nil, List.sum_cons, List.sum_nil]
  have h0 : 0 * (3 * args.m * args.n) = 0 := rfl
  have h1 : 1 * (3 * args.m * args.n) = 18 := rfl
  rw [h0, h1, (mode_work _).1, (mode_work _).2]
  ring

/-- **C65, counterexample.**  With 1 and 2 asked for, the first panel is loaded with 2. -/
theorem from_static_violated : ∃ A f k0, cylinderFromStatic env Real.pi args [1, 2] = .ok (A, f, k0) ∧
    ∃ c, ∑ k ∈ range (args.npanels * (3 * args.m * args.n)), f k * c k
      ≠ ((List.range args.npanels).map fun i => axialWork env.G env.S
          (skinPart Real.pi args 0).freeX2u.shell.panel ([1, 2].getD i 0) (i * (3 * args.m * args.n)) c).sum := by
  obtain ⟨t, lam, h1, h2, h3, h4⟩ := args_built
  obtain ⟨A, f, k0, g, hf⟩ := from_static (Tab.of_exact _ _) bardellShape_C2 args (by decide)
    ⟨by decide, by decide⟩ (by simp [args, C64.args]) (by simp [args, C64.args]) h1 h2 h4 [1, 2] rfl
  refine ⟨A, f, k0, g, mode, ?_⟩
  rw [hf mode, args_starts, args_starts]
  have hp := Real.pi_pos
  have e : args.npanels - 1 = 1 := rfl
  simp only [e, List.getD, List.getElem?_cons_succ, List.getElem?_cons_zero, Option.getD_some]
  intro h
  linarith

/-- **C65, counterexample.**  With `Nxx = 1` asked for, no axial force acts. -/
theorem spla_violated : ∃ A f M, cylinderSpla Real.pi args 1 0 = .ok A ∧ A.fext env = .ok (f, M) ∧
    ∃ c, ∑ k ∈ range (args.npanels * (3 * args.m * args.n)), f k * c k
      ≠ ((List.range args.npanels).map fun i => axialWork env.G env.S
          (skinPart Real.pi args 0).freeX2u.shell.panel 1 (i * (3 * args.m * args.n)) c).sum := by
  obtain ⟨t, lam, h1, h2, h3, h4⟩ := args_built
  obtain ⟨A, f, k0, g, g', hf⟩ := spla (Tab.of_exact _ _) bardellShape_C2 args (by decide)
    ⟨by decide, by decide⟩ (by simp [args, C64.args]) (by simp [args, C64.args]) h1 h2 h4 1 0
  refine ⟨A, f, k0, g, g', mode, ?_⟩
  rw [hf mode, args_starts]
  have hp := Real.pi_pos
  simp only [neg_zero, zero_mul]
  intro h
  linarith

theorem blades_built : ∃ t lam tb lamb, BladesFit env args [[0], [90]] [1, 2] t lam tb lamb := by
  obtain ⟨t, lam, h1, h2, h3, h4⟩ := args_built
  have h : ∀ i < args.npanels, i = 0 ∨ i = 1 := fun i hi => by
    have : args.npanels = 2 := rfl
    omega
  have hb : ∀ i, ∃ tb lamb, i < args.npanels →
      (bladePart Real.pi args [[0], [90]] [1, 2] i).shell.rebuild env = .ok tb ∧
      tb.lam = some lamb ∧ ABDSym lamb.ABD ∧ C44.Pos (penOf tb lamb) := by
    intro i
    by_cases hi : i < args.npanels
    · suffices ∃ tb lamb, (bladePart Real.pi args [[0], [90]] [1, 2] i).shell.rebuild env = .ok tb ∧
          tb.lam = some lamb ∧ ABDSym lamb.ABD ∧ C44.Pos (penOf tb lamb) by
        obtain ⟨tb, lamb, h⟩ := this
        exact ⟨tb, lamb, fun _ => h⟩
      rcases h i hi with rfl | rfl
      all_goals
        refine ⟨_, _, rfl, rfl, ?_, ?_⟩
        · constructor <;> simp [lamABD, env, C40.env, bladePart, cylShell, Shell.new]
          intro s t
          by_cases h : s = t
          · subst h; rfl
          · rw [if_neg h, if_neg (Ne.symm h)]
        · constructor <;> simp [penOf, lamABD, env, C40.env, orFill, bladePart, cylShell, Shell.new, args,
            C64.args]
    · exact ⟨t, lam, fun h => absurd h hi⟩
  choose tb lamb hb using hb
  refine ⟨t, lam, tb, lamb, Tab.of_exact _ _, bardellShape_C2, by decide, rfl, rfl, ⟨by decide, by decide⟩,
    by simp [args, C64.args], by simp [args, C64.args], ?_, h1, h2, h3, h4, fun i hi => (hb i hi).1,
    fun i hi => (hb i hi).2.1, fun i hi => (hb i hi).2.2.1, fun i hi => (hb i hi).2.2.2⟩
  intro i hi
  rcases h i hi with rfl | rfl <;> simp

theorem mode_blades (N : ℝ) (i s : ℕ) (hs : 18 ≤ s) : axialWork env.G env.S
    (bladePart Real.pi args [[0], [90]] [1, 2] i).freeX2u.shell.panel N s mode = 0 := by
  have : ∀ k, mode (s + k) = 0 := fun k => if_neg (by omega)
  simp [axialWork, lineQuad, Spec.field, disp, this]

/-- **C65, counterexample.**  With 1 asked for on the first panel of the skin, it is loaded with the
value 2 of the last blade. -/
theorem blades_from_static_violated : ∃ A f k0,
    bladesFromStatic env Real.pi args [[0], [90]] [1, 2] [1, 1] [1, 2] = .ok (A, f, k0) ∧
    ∃ c, ∑ k ∈ range ((args.npanels + args.npanels) * (3 * args.m * args.n)), f k * c k
      ≠ ((List.range args.npanels).map fun i => axialWork env.G env.S
          (skinPart Real.pi args 0).freeX2u.shell.panel ([1, 1].getD i 0) (i * (3 * args.m * args.n)) c).sum
        + ((List.range args.npanels).map fun i => axialWork env.G env.S
          (bladePart Real.pi args [[0], [90]] [1, 2] i).freeX2u.shell.panel ([1, 2].getD i 0)
          ((args.npanels + i) * (3 * args.m * args.n)) c).sum := by
  obtain ⟨t, lam, tb, lamb, h⟩ := blades_built
  obtain ⟨A, f, k0, g, hf⟩ := blades_from_static h [1, 1] [1, 2] rfl rfl
  refine ⟨A, f, k0, g, mode, ?_⟩
  have hz : ∀ g : ℕ → ℝ, ((List.range args.npanels).map fun i => axialWork env.G env.S
      (bladePart Real.pi args [[0], [90]] [1, 2] i).freeX2u.shell.panel (g i)
      ((args.npanels + i) * (3 * args.m * args.n)) mode).sum = 0 := fun g => by
    refine List.sum_eq_zero fun x hx => ?_
    obtain ⟨i, -, rfl⟩ := List.mem_map.1 hx
    refine mode_blades _ _ _ ?_
    show 18 ≤ (2 + i) * 18
    omega
  rw [hf mode]
  simp only
  rw [args_starts, args_starts, hz, hz]
  have hp := Real.pi_pos
  have e : args.npanels - 1 = 1 := rfl
  simp only [e, List.getD, List.getElem?_cons_succ, List.getElem?_cons_zero, Option.getD_some]
  intro h
  linarith

end Verif.C65
