import Verif.Props.C78

/-!
# C78: the ready-made assemblies cannot move without strain

Cylinders, cylinders with blades, and the panel with a T stiffener, with and without the defect.
-/

set_option linter.unusedSectionVars false

namespace Verif

open Spec Model Indep

section
variable {E : Env ℝ} {A : Assy ℝ} {T : ℕ → Shell ℝ} {lam : ℕ → LamObj ℝ}

/-- Every stiffness matrix of a restrained assembly is definite. -/
theorem Solid.definite (h : Solid E A T lam) {N : ℕ} (hS : Hier E.S N) (hN : 4 ≤ N)
    (hmn : ∀ k < A.count, (A.panel k).m ≤ N ∧ (A.panel k).n ≤ N)
    (hR : AssyRestrained A.count A.panel (thick T) A.conns) {k0 : Coo ℝ} {M : Multi ℝ}
    (hk : A.multi.calcKC E (some A.conns) none = .ok (k0, M)) :
    AssyDefinite A.count A.panel A.start k0 := by
  obtain ⟨k0', M', h1, h2, -⟩ := C78.definite_iff h hS hN hmn
  have := h1.symm.trans hk
  cases this
  exact h2 hR

theorem rebuilt_panel (h : Fit E A T) {p : ℕ} (hp : p < A.count) :
    (rebuilt A T).panel p = A.panel p := by
  unfold Assy.panel
  rw [rebuilt_shell hp]
  obtain ⟨-, -, -, -, lam1, -, e⟩ := (C54.rebuild_ok_iff E _ _).1 (h.built p hp)
  rw [e]
  rfl

theorem Solid.again (h : Solid E A T lam) : Solid E (rebuilt A T) T lam where
  fit := h.fit.again
  hlam := h.hlam
  sym := h.sym
  laminate := h.laminate
  kind p hp := by
    have hp' : p < A.count := hp
    rw [rebuilt_shell hp']
    have := h.kind p hp'
    obtain ⟨-, -, -, -, lam1, -, e⟩ := (C54.rebuild_ok_iff E _ _).1 (h.fit.built p hp')
    have hr : (T p).r = (A.part p).shell.r := by rw [e]
    rw [hr]
    exact this
  unloaded p hp := by
    have hp' : p < A.count := hp
    rw [rebuilt_shell hp']
    have := h.unloaded p hp'
    obtain ⟨-, -, -, -, lam1, -, e⟩ := (C54.rebuild_ok_iff E _ _).1 (h.fit.built p hp')
    rw [e]
    exact this

theorem rebuilt_start (h : Fit E A T) {k : ℕ} (hk : k ≤ A.count) : (rebuilt A T).start k = A.start k := by
  induction k with
  | zero => simp [Assy.start, C40.start]
  | succ k ih =>
    rw [Assy_start_succ (show k < (rebuilt A T).count from hk), Assy_start_succ hk, ih (by omega),
      rebuilt_shell hk, h.pan hk]

/-- The same for the matrix made after the external forces. -/
theorem Solid.definite_fext (h : Solid E A T lam) {N : ℕ} (hS : Hier E.S N) (hN : 4 ≤ N)
    (hmn : ∀ k < A.count, (A.panel k).m ≤ N ∧ (A.panel k).n ≤ N)
    (hR : ∀ k < A.count, Restrained (1 / (A.panel k).r) (A.panel k)) {A' : Assy ℝ}
    (hA : A'.multi = A.multi) {f : ℕ → ℝ} {M M' : Multi ℝ} {k0 : Coo ℝ}
    (hf : A'.fext E = .ok (f, M)) (hk : M.calcKC E (some A.conns) none = .ok (k0, M')) :
    AssyDefinite A.count A.panel A.start k0 := by
  rw [h.fit.fext_multi hA hf] at hk
  have hp := fun k (hk : k < A.count) => rebuilt_panel h.fit hk
  have := h.again.definite hS hN (fun k hk => by rw [hp k hk]; exact hmn k hk)
    (fun M hM _ k hk => by
      have := hM k hk
      rw [hp k hk] at this ⊢
      exact hR k hk (M k) this) hk
  intro v
  obtain ⟨h1, h2⟩ := this v
  constructor
  · rintro ⟨k, hk, i, hi, hv⟩
    refine h1 ⟨k, hk, i, ?_, hv⟩
    rw [hp k hk, rebuilt_start h.fit hk.le]
    exact hi
  · intro hz
    refine h2 fun k hk i hi => hz k hk i ?_
    rw [hp k hk, rebuilt_start h.fit (le_of_lt hk)] at hi
    exact hi

theorem loaded_definite {A : Assy ℝ} {n : ℕ} {f : ℕ → ℝ → ℝ} {L : Coo ℝ}
    (h : AssyDefinite A.count A.panel A.start L) :
    AssyDefinite (loaded A n f).count (loaded A n f).panel (loaded A n f).start L := by
  have h1 : (loaded A n f).panel = A.panel := funext fun k => by
    unfold Assy.panel
    rw [loaded_shell]
  have h2 : (loaded A n f).start = A.start := funext fun k => by
    unfold Assy.start
    simp only [loaded_shell]
    rfl
  rw [h1, h2]
  exact h

/-- A panel held at one end in all directions and at the other end in its normal direction. -/
theorem ends_restrained (κ : ℝ) {P : Panel ℝ} (ha : 0 < P.a) (hb : 0 < P.b) (hu : P.xu.t1 = 0)
    (hv : P.xv.t1 = 0) (hw : P.xw.t1 = 0 ∧ P.xw.t2 = 0) : Restrained κ P :=
  C77.supported κ ha hb ⟨.inl (.inl ⟨hw.1, .inl hw.2⟩), .inl ⟨.inl hu, .inl (.inl hv)⟩⟩

end

/-! ## Cylinders -/

section
variable {E : Env ℝ} {q : CylArgs ℝ} {pan : Panel ℝ} {N : ℕ → ℝ} {A : Assy ℝ}

/-- The flags of the ends of a cylinder, whatever `x2u` is. -/
def EndFlags (P : Panel ℝ) : Prop := P.xu.t1 = 0 ∧ P.xv.t1 = 0 ∧ P.xw.t1 = 0 ∧ P.xw.t2 = 0

theorem Skin.solid (hA : Skin q pan N A) (hI : E.I.Exact E.S Mean.integral) (hS : E.S.C2)
    (hn : 2 ≤ q.npanels) (hm : 0 < q.m ∧ 0 < q.n) (hh : 0 < q.height) (hr : 0 < q.r)
    {t : Shell ℝ} (ht : (skinPart Real.pi q 0).shell.rebuild E = .ok t) {lam : LamObj ℝ}
    (hl : t.lam = some lam) (hF : ABDSym lam.ABD) (hD : C76.ABDDef lam.ABD)
    (hpos : C44.Pos (penOf t lam)) :
    Solid E A (fun p => { t with pan := pan, Nxx := N p }) fun _ => lam where
  fit := hA.fit hI hS hn hm hh hr ht hl hpos
  hlam _ _ := hl
  sym _ _ := hF
  laminate _ _ := hD
  kind p hp := by
    rw [hA.count] at hp
    rw [hA.part p hp]
    have hmod : t.model.bind kindOf = some .cyl := by
      obtain ⟨-, -, -, -, -, -, rfl⟩ := (C54.rebuild_ok_iff E _ t).1 ht
      rfl
    exact .inr ⟨hr.ne', hmod⟩
  unloaded p hp := by
    rw [hA.count] at hp
    rw [hA.part p hp]
    simp [C38.PreStress, skinPart, cylShell, Shell.new]

theorem Skin.panel (hA : Skin q pan N A) {p : ℕ} (hp : p < A.count) :
    A.panel p = { pan with r := q.r } := by
  rw [hA.count] at hp
  unfold Assy.panel
  rw [hA.part p hp]
  rfl

theorem Skin.restrained (hA : Skin q pan N A) (hn : 2 ≤ q.npanels) (hh : 0 < q.height) (hr : 0 < q.r)
    (hf : EndFlags pan) : ∀ k < A.count, Restrained (1 / (A.panel k).r) (A.panel k) := fun k hk => by
  rw [hA.panel hk]
  exact ends_restrained _ (by rw [← hA.a] at hh; exact hh)
    (by have := bSkin_pos hn hr; rw [← hA.b] at this; exact this) hf.1 hf.2.1 hf.2.2

end

/-! ## Blades -/

section
variable {E : Env ℝ} {q : CylArgs ℝ} {sts : List (List ℝ)} {widths : List ℝ} {pan : Panel ℝ}
  {panb : ℕ → Panel ℝ} {N Nb : ℕ → ℝ} {A : Assy ℝ} {t : Shell ℝ} {lam : LamObj ℝ}
  {tb : ℕ → Shell ℝ} {lamb : ℕ → LamObj ℝ}

/-- Laminates of the skin and of the blades. -/
def bladeLam (q : CylArgs ℝ) (lam : LamObj ℝ) (lamb : ℕ → LamObj ℝ) (p : ℕ) : LamObj ℝ :=
  if p < q.npanels then lam else lamb (p - q.npanels)

theorem bladeLam_blade (i : ℕ) : bladeLam q lam lamb (q.npanels + i) = lamb i := by
  rw [bladeLam, if_neg (by omega), Nat.add_sub_cancel_left]

theorem Stiffened.solid (hA : Stiffened q sts widths pan panb N Nb A)
    (h : BladesFit E q sts widths t lam tb lamb) (hD : C76.ABDDef lam.ABD)
    (hDb : ∀ i < q.npanels, C76.ABDDef (lamb i).ABD) :
    Solid E A (bladeT q pan panb N Nb t tb) (bladeLam q lam lamb) where
  fit := hA.fit h
  hlam p hp := by
    rw [hA.count] at hp
    rcases split_index hp with hp | ⟨i, hi, rfl⟩
    · rw [bladeT_skin hp, bladeLam, if_pos hp]
      exact h.hlam
    · rw [bladeT_blade, bladeLam_blade]
      exact h.hlamb i hi
  sym p hp := by
    rw [hA.count] at hp
    rcases split_index hp with hp | ⟨i, hi, rfl⟩
    · rw [bladeLam, if_pos hp]
      exact h.sym
    · rw [bladeLam_blade]
      exact h.symb i hi
  laminate p hp := by
    rw [hA.count] at hp
    rcases split_index hp with hp | ⟨i, hi, rfl⟩
    · rw [bladeLam, if_pos hp]
      exact hD
    · rw [bladeLam_blade]
      exact hDb i hi
  kind p hp := by
    rw [hA.count] at hp
    rcases split_index hp with hp | ⟨i, hi, rfl⟩
    · rw [bladeT_skin hp, hA.part p hp]
      have hmod : t.model.bind kindOf = some .cyl := by
        obtain ⟨-, -, -, -, -, -, rfl⟩ := (C54.rebuild_ok_iff E _ t).1 h.built
        rfl
      exact .inr ⟨h.r.ne', hmod⟩
    · rw [bladeT_blade, hA.partb i hi]
      have hmod : (tb i).model.bind kindOf = some .plate := by
        obtain ⟨-, -, -, -, lam1, -, e1⟩ := (C54.rebuild_ok_iff E _ _).1 (h.builtb i hi)
        rw [e1]
        rfl
      exact .inl ⟨rfl, hmod⟩
  unloaded p hp := by
    rw [hA.count] at hp
    rcases split_index hp with hp | ⟨i, hi, rfl⟩
    · rw [hA.part p hp]
      simp [C38.PreStress, skinPart, cylShell, Shell.new]
    · rw [hA.partb i hi]
      simp [C38.PreStress, bladePart, cylShell, Shell.new]

theorem Stiffened.panels (hA : Stiffened q sts widths pan panb N Nb A) {p : ℕ} (hp : p < A.count) :
    A.panel p = { pan with r := q.r } ∨ ∃ i < q.npanels, A.panel p = { panb i with r := 0 } := by
  rw [hA.count] at hp
  unfold Assy.panel
  rcases split_index hp with hp | ⟨i, hi, rfl⟩
  · rw [hA.part p hp]
    exact .inl rfl
  · rw [hA.partb i hi]
    exact .inr ⟨i, hi, rfl⟩

theorem Stiffened.restrained (hA : Stiffened q sts widths pan panb N Nb A)
    (h : BladesFit E q sts widths t lam tb lamb) (hf : EndFlags pan) (hfb : ∀ i, EndFlags (panb i)) :
    ∀ k < A.count, Restrained (1 / (A.panel k).r) (A.panel k) := fun k hk => by
  rcases hA.panels hk with e | ⟨i, hi, e⟩ <;> rw [e]
  · exact ends_restrained _ (by have := h.height; rw [← hA.a] at this; exact this)
      (by have := bSkin_pos h.num h.r; rw [← hA.b] at this; exact this) hf.1 hf.2.1 hf.2.2
  · exact ends_restrained _ (by have := h.height; rw [← hA.ab i] at this; exact this)
      (by have := h.width i hi; rw [← hA.bb i] at this; exact this) (hfb i).1 (hfb i).2.1 (hfb i).2.2

end

namespace C78

/-! ## The functions for cylinders -/

section
variable {E : Env ℝ} (hI : E.I.Exact E.S Mean.integral) (hC : E.S.C2) {N : ℕ} (hS : Hier E.S N)
  (hN : 4 ≤ N) (q : CylArgs ℝ) (hq : q.m ≤ N ∧ q.n ≤ N) (hn : 2 ≤ q.npanels) (hm : 0 < q.m ∧ 0 < q.n)
  (hh : 0 < q.height) (hr : 0 < q.r) {t : Shell ℝ}
  (ht : (skinPart Real.pi q 0).shell.rebuild E = .ok t) {lam : LamObj ℝ} (hl : t.lam = some lam)
  (hF : ABDSym lam.ABD) (hD : C76.ABDDef lam.ABD) (hpos : C44.Pos (penOf t lam))

include hI hC hS hN hq hn hm hh hr ht hl hF hD hpos

/-- **C78, cylinder.**  The stiffness matrix of the closed cylinder is positive definite on the
amplitudes that are switched on. -/
theorem cylinder : ∃ A k0 M, createCylinder Real.pi q = .ok A ∧
    A.multi.calcKC E (some A.conns) none = .ok (k0, M) ∧ AssyDefinite A.count A.panel A.start k0 := by
  have hA : createCylinder Real.pi q = .ok ⟨skinPart Real.pi q, q.npanels, skinConns Real.pi q⟩ := by
    rw [createCylinder, if_neg (by omega)]
  have hs : Skin q (skinPart Real.pi q 0).shell.pan (fun _ => 0)
      ⟨skinPart Real.pi q, q.npanels, skinConns Real.pi q⟩ :=
    ⟨rfl, rfl, fun _ _ => rfl, rfl, rfl, rfl, rfl⟩
  have hso := hs.solid hI hC hn hm hh hr ht hl hF hD hpos
  obtain ⟨k0, M, -, -, -, -, h1, -⟩ := hs.energy hI hC hn hm hh hr ht hl hF hpos
  exact ⟨_, k0, M, hA, h1, hso.definite hS hN (fun _ _ => hq)
    (fun M hM _ k hk => hs.restrained hn hh hr ⟨rfl, rfl, rfl, rfl⟩ k hk (M k) (hM k hk)) h1⟩

/-- The same for the cylinder whose loaded end moves along `x`, with loads given panel by panel. -/
theorem cylinder_nxx (Nxxs : List ℝ) (hN' : Nxxs.length = q.npanels) :
    ∃ A k0 kG, cylinderNxxCte E Real.pi q Nxxs = .ok (A, k0, kG) ∧
      AssyDefinite A.count A.panel A.start k0 := by
  have hA : createCylinder Real.pi q = .ok ⟨skinPart Real.pi q, q.npanels, skinConns Real.pi q⟩ := by
    rw [createCylinder, if_neg (by omega)]
  have hs : Skin q (skinPart Real.pi q 0).freeX2u.shell.pan (fun i => Nxxs.getD i 0)
      ⟨fun i => ((skinPart Real.pi q i).setNxx (Nxxs.getD i 0)).freeX2u, q.npanels,
        skinConns Real.pi q⟩ :=
    ⟨rfl, rfl, fun _ _ => rfl, rfl, rfl, rfl, rfl⟩
  have hso := hs.solid hI hC hn hm hh hr ht hl hF hD hpos
  obtain ⟨k0, M, kG, M', kt, kr, h1, g1, -⟩ := hs.energy hI hC hn hm hh hr ht hl hF hpos
  refine ⟨_, k0, kG, ?_, hso.definite hS hN (fun _ _ => hq) (fun M hM _ k hk =>
    hs.restrained hn hh hr ⟨rfl, rfl, rfl, rfl⟩ k hk (M k) (hM k hk)) h1⟩
  unfold cylinderNxxCte
  simp only [hA, bind, Except.bind, hN', ne_eq, not_true_eq_false, if_false, h1, g1]
  rfl

/-- The same with the loads of a static analysis: the matrix that the static solver gets. -/
theorem cylinder_static (Nxxs : List ℝ) (hN' : Nxxs.length = q.npanels) :
    ∃ A f k0, cylinderFromStatic E Real.pi q Nxxs = .ok (A, f, k0) ∧
      AssyDefinite A.count A.panel A.start k0 := by
  obtain ⟨A, f, k0, h, -⟩ := C65.from_static hI hC q hn hm hh hr ht hl hpos Nxxs hN'
  refine ⟨A, f, k0, h, ?_⟩
  have hA : createCylinder Real.pi q = .ok ⟨skinPart Real.pi q, q.npanels, skinConns Real.pi q⟩ := by
    rw [createCylinder, if_neg (by omega)]
  have hs : Skin q (skinPart Real.pi q 0).freeX2u.shell.pan (fun _ => 0)
      ⟨fun i => (skinPart Real.pi q i).freeX2u, q.npanels, skinConns Real.pi q⟩ :=
    ⟨rfl, rfl, fun _ _ => rfl, rfl, rfl, rfl, rfl⟩
  have hso := hs.solid hI hC hn hm hh hr ht hl hF hD hpos
  have e := apply_range (staticLoop Nxxs q.npanels)
    ⟨fun i => (skinPart Real.pi q i).freeX2u, q.npanels, skinConns Real.pi q⟩ q.npanels
    (fun _ i _ => Nxxs.getD i 0) (by rw [staticLoop_eq])
  unfold cylinderFromStatic at h
  obtain ⟨A0, h0, h⟩ := bind_ok.1 h
  rw [hA] at h0
  cases h0
  rw [if_neg (by simp [hN'])] at h
  obtain ⟨A1, h1, h⟩ := bind_ok.1 h
  rw [e] at h1
  cases h1
  obtain ⟨⟨f', M⟩, h2, h⟩ := bind_ok.1 h
  obtain ⟨⟨k, M'⟩, h3, h⟩ := bind_ok.1 h
  cases h
  exact loaded_definite (hso.definite_fext hS hN (fun _ _ => hq)
    (hs.restrained hn hh hr ⟨rfl, rfl, rfl, rfl⟩) (loaded_multi _ _ _) h2 h3)

end

/-! ## The functions for cylinders with blades -/

section
variable {E : Env ℝ} {q : CylArgs ℝ} {sts : List (List ℝ)} {widths : List ℝ} {t : Shell ℝ}
  {lam : LamObj ℝ} {tb : ℕ → Shell ℝ} {lamb : ℕ → LamObj ℝ}
  (h : BladesFit E q sts widths t lam tb lamb) {N : ℕ} (hS : Hier E.S N) (hN : 4 ≤ N)
  (hq : q.m ≤ N ∧ q.n ≤ N) (hD : C76.ABDDef lam.ABD) (hDb : ∀ i < q.npanels, C76.ABDDef (lamb i).ABD)

include h hS hN hq hD hDb

/-- **C78, cylinder with blades.** -/
theorem blades : ∃ A k0 M, createCylinderBlades Real.pi q sts widths = .ok A ∧
    A.multi.calcKC E (some A.conns) none = .ok (k0, M) ∧ AssyDefinite A.count A.panel A.start k0 := by
  obtain ⟨A, hA⟩ := (C64.blades_accepted Real.pi q sts widths).2 ⟨h.num, h.nstacks, h.nwidths⟩
  obtain ⟨hg, hp, hpb, hc⟩ := C65.made h hA
  have hs : Stiffened q sts widths (skinPart Real.pi q 0).shell.pan
      (fun i => (bladePart Real.pi q sts widths i).shell.pan) (fun _ => 0) (fun _ => 0) A := by
    refine ⟨hg.count, hc, fun p hlt => ?_, fun i hlt => ?_, rfl, rfl, rfl, rfl, fun _ => rfl,
      fun _ => rfl, fun _ => rfl, fun _ => rfl⟩
    · rw [hp p hlt]
      rfl
    · rw [hpb i hlt]
      rfl
  obtain ⟨k0, M, -, -, -, -, -, -, h1, -⟩ := hs.energy h
  refine ⟨A, k0, M, hA, h1, (hs.solid h hD hDb).definite hS hN (fun k hk => ?_) (fun M hM _ k hk =>
    hs.restrained h ⟨rfl, rfl, rfl, rfl⟩ (fun _ => ⟨rfl, rfl, rfl, rfl⟩) k hk (M k) (hM k hk)) h1⟩
  rcases hs.panels hk with e | ⟨i, hi, e⟩ <;> rw [e] <;> exact hq

/-- The same with a loaded end that moves along `x`. -/
theorem blades_nxx (NxxsSkin NxxsBlade : List ℝ) (hNs : NxxsSkin.length = q.npanels)
    (hNb : NxxsBlade.length = q.npanels) : ∃ A k0 kG,
      bladesNxxCte E Real.pi q sts widths NxxsSkin NxxsBlade = .ok (A, k0, kG) ∧
      AssyDefinite A.count A.panel A.start k0 := by
  obtain ⟨A, hA⟩ := (C64.blades_accepted Real.pi q sts widths).2 ⟨h.num, h.nstacks, h.nwidths⟩
  obtain ⟨hg, hp, hpb, hc⟩ := C65.made h hA
  have hs : Stiffened q sts widths (skinPart Real.pi q 0).freeX2u.shell.pan
      (fun i => (bladePart Real.pi q sts widths i).freeX2u.shell.pan) (fun i => NxxsSkin.getD i 0)
      (fun i => NxxsBlade.getD i 0) (constLoads NxxsSkin NxxsBlade A q.npanels (q.npanels + q.npanels)) := by
    refine ⟨hg.count, hc, fun p hlt => ?_, fun i hlt => ?_, rfl, rfl, rfl, rfl, fun _ => rfl,
      fun _ => rfl, fun _ => rfl, fun _ => rfl⟩
    · simp only [constLoads, show ¬ q.npanels + q.npanels ≤ p by omega, if_false, hlt, if_true, hp p hlt]
      rfl
    · simp only [constLoads, show ¬ q.npanels + q.npanels ≤ q.npanels + i by omega, if_false,
        show ¬ q.npanels + i < q.npanels by omega, hpb i hlt, Nat.add_sub_cancel_left]
      rfl
  obtain ⟨k0, M, kG, M', kt, kr, kt', kr', h1, h2, -⟩ := hs.energy h
  refine ⟨constLoads NxxsSkin NxxsBlade A q.npanels (q.npanels + q.npanels), k0, kG, ?_,
    (hs.solid h hD hDb).definite hS hN (fun k hk => ?_) (fun M hM _ k hk =>
    hs.restrained h ⟨rfl, rfl, rfl, rfl⟩ (fun _ => ⟨rfl, rfl, rfl, rfl⟩) k hk (M k) (hM k hk)) h1⟩
  · unfold bladesNxxCte
    simp only [hA, bind, Except.bind, hNs, hNb, ne_eq, not_true_eq_false, if_false,
      bladeNxxLoop_eq hg, h1, h2]
    rfl
  · rcases hs.panels hk with e | ⟨i, hi, e⟩ <;> rw [e] <;> exact hq

/-- The same with the loads of a static analysis. -/
theorem blades_static (NxxsSkin NxxsBlade : List ℝ) (hNs : NxxsSkin.length = q.npanels)
    (hNb : NxxsBlade.length = q.npanels) : ∃ A f k0,
      bladesFromStatic E Real.pi q sts widths NxxsSkin NxxsBlade = .ok (A, f, k0) ∧
      AssyDefinite A.count A.panel A.start k0 := by
  obtain ⟨A, f, k0, hB, -⟩ := C65.blades_from_static h NxxsSkin NxxsBlade hNs hNb
  refine ⟨A, f, k0, hB, ?_⟩
  obtain ⟨A', hA⟩ := (C64.blades_accepted Real.pi q sts widths).2 ⟨h.num, h.nstacks, h.nwidths⟩
  obtain ⟨hg, hp, hpb, hc⟩ := C65.made h hA
  obtain ⟨part, count, conns⟩ := A'
  obtain rfl : count = q.npanels + q.npanels := hg.count
  dsimp only at hp hpb
  have hs : Stiffened q sts widths (skinPart Real.pi q 0).freeX2u.shell.pan
      (fun i => (bladePart Real.pi q sts widths i).freeX2u.shell.pan) (fun _ => 0) (fun _ => 0)
      ⟨fun i => (part i).freeX2u, q.npanels + q.npanels, conns⟩ := by
    refine ⟨hg.count, hc, fun p hlt => ?_, fun i hlt => ?_, rfl, rfl, rfl, rfl, fun _ => rfl,
      fun _ => rfl, fun _ => rfl, fun _ => rfl⟩
    · simp only [hp p hlt]
      rfl
    · simp only [hpb i hlt]
      rfl
  have e := apply_range (bladeStaticLoop NxxsSkin NxxsBlade ⟨part, q.npanels + q.npanels, conns⟩)
    ⟨fun i => (part i).freeX2u, q.npanels + q.npanels, conns⟩ (q.npanels + q.npanels)
    (fun _ v _ => v.Nxx.getD 0) (by rw [bladeStaticLoop_eq hg])
  unfold bladesFromStatic at hB
  obtain ⟨A0, h0, hB⟩ := bind_ok.1 hB
  rw [hA] at h0
  cases h0
  rw [if_neg (by simp [hNs]), if_neg (by simp [hNb])] at hB
  obtain ⟨A1, h1, hB⟩ := bind_ok.1 hB
  rw [e] at h1
  cases h1
  obtain ⟨⟨f', M⟩, h2, hB⟩ := bind_ok.1 hB
  obtain ⟨⟨k, M'⟩, h3, hB⟩ := bind_ok.1 hB
  cases hB
  refine loaded_definite ((hs.solid h hD hDb).definite_fext hS hN (fun k hk => ?_)
    (hs.restrained h ⟨rfl, rfl, rfl, rfl⟩ (fun _ => ⟨rfl, rfl, rfl, rfl⟩)) (loaded_multi _ _ _) h2 h3)
  rcases hs.panels hk with e | ⟨i, hi, e⟩ <;> rw [e] <;> exact hq

end

/-! ## The panel with a T stiffener -/

section
variable {E : Env ℝ} {q : TArgs ℝ} {x1u : ℝ} {dn : ℕ} {T : ℕ → Shell ℝ} {lam : ℕ → LamObj ℝ}

/-- Two edges that meet at a corner hold a panel: one of them in all directions, the other along its
tangent across and normally. -/
theorem corner_restrained (κ : ℝ) {P : Panel ℝ} (hu : P.xu.t2 = 0)
    (hv : P.yv.t2 = 0 ∨ P.xv.t2 = 0) (hw : P.xw.t2 = 0) (hw' : P.yw.t2 = 0) : Restrained κ P := by
  intro M h
  have u0 := (h 0 (by norm_num)).2.2.1 hu
  obtain ⟨-, -, v0, -, -, -, v1, -⟩ := h 1 (by norm_num)
  obtain ⟨-, -, w0, -, -, -, w1, -⟩ := h 2 (by norm_num)
  have w0 := w0 hw
  have w1 := w1 hw'
  simp only [Motion.field] at u0 v0 v1 w0 w1
  have e2 : M.γ = 0 := by
    have := w0 0
    have := w0 1
    linarith
  have e3 : M.β = 0 := by
    have := w1 0
    have := w1 1
    linarith
  have e1 : M.α = 0 := by
    have := w0 0
    rw [e2, e3] at this
    linarith
  rw [e3] at u0
  have e4 : M.p = 0 := by
    have := u0 0
    linarith
  have e5 : M.θ = 0 := by
    have := u0 1
    linarith
  have e6 : M.q = 0 := by
    rw [e1, e2, e3, e5] at v0 v1
    rcases hv with hv | hv
    · have := v1 hv 0
      linarith
    · have := v0 hv 0
      linarith
  intro c hc x y
  match c, hc with
  | 0, _ => simp only [Motion.field, e3, e4, e5]; ring
  | 1, _ => simp only [Motion.field, e1, e2, e3, e5, e6]; ring
  | 2, _ => simp only [Motion.field, e1, e2, e3]; ring

theorem solid_T (h : TBuilt E q x1u dn T lam) (hD : ∀ k < 15, C76.ABDDef (lam k).ABD) :
    Solid E (q.assy x1u dn) T lam where
  fit := h.fit
  hlam := h.hlam
  sym := h.sym
  laminate := hD
  kind _ hp := tPart_kind h hp
  unloaded _ hp := (tPart_loads hp).2.1

/-- All panels are joined to the first one, whether the skin and the base are bonded in the middle or
not. -/
theorem linked_T (x1u : ℝ) (dn : ℕ) {k : ℕ} (hk : k < 15) :
    Relation.ReflTransGen (Linked (q.assy x1u dn).conns) 0 k := by
  have key : ∀ {i j : ℕ} (d : ConnD ℝ), (d, false) ∈ tConns (q.part x1u dn) q.hasDefect →
      d.p1 = i → d.p2 = j → Linked (q.assy x1u dn).conns i j := fun d hd h1 h2 =>
    ⟨d, C66.mem_conns hd, .inl ⟨h1, h2⟩⟩
  have l01 : Linked (q.assy x1u dn).conns 0 1 := key (ssy (q.part x1u dn) 0 1) (by simp [tConns]) rfl rfl
  have l03 : Linked (q.assy x1u dn).conns 0 3 := key (ssx (q.part x1u dn) 0 3) (by simp [tConns]) rfl rfl
  have l12 : Linked (q.assy x1u dn).conns 1 2 := key (ssy (q.part x1u dn) 1 2) (by simp [tConns]) rfl rfl
  have l14 : Linked (q.assy x1u dn).conns 1 4 := key (ssx (q.part x1u dn) 1 4) (by simp [tConns]) rfl rfl
  have l25 : Linked (q.assy x1u dn).conns 2 5 := key (ssx (q.part x1u dn) 2 5) (by simp [tConns]) rfl rfl
  have l36 : Linked (q.assy x1u dn).conns 3 6 := key (ssx (q.part x1u dn) 3 6) (by simp [tConns]) rfl rfl
  have l47 : Linked (q.assy x1u dn).conns 4 7 := key (ssx (q.part x1u dn) 4 7) (by simp [tConns]) rfl rfl
  have l58 : Linked (q.assy x1u dn).conns 5 8 := key (ssx (q.part x1u dn) 5 8) (by simp [tConns]) rfl rfl
  have l19 : Linked (q.assy x1u dn).conns 1 9 := key (sb 1 9) (by simp [tConns]) rfl rfl
  have l911 : Linked (q.assy x1u dn).conns 9 11 := key (ssx (q.part x1u dn) 9 11) (by simp [tConns]) rfl rfl
  have l1113 : Linked (q.assy x1u dn).conns 11 13 := key (ssx (q.part x1u dn) 11 13) (by simp [tConns]) rfl rfl
  have l910 : Linked (q.assy x1u dn).conns 9 10 := key (bfy (q.part x1u dn) 9 10) (by simp [tConns]) rfl rfl
  have l1112 : Linked (q.assy x1u dn).conns 11 12 := key (bfy (q.part x1u dn) 11 12) (by simp [tConns]) rfl rfl
  have l1314 : Linked (q.assy x1u dn).conns 13 14 := key (bfy (q.part x1u dn) 13 14) (by simp [tConns]) rfl rfl
  have r0 : Relation.ReflTransGen (Linked (q.assy x1u dn).conns) 0 0 := .refl
  have r1 := r0.tail l01
  have r2 := r1.tail l12
  have r3 := r0.tail l03
  have r4 := r1.tail l14
  have r9 := r1.tail l19
  have r11 := r9.tail l911
  have r13 := r11.tail l1113
  interval_cases k
  · exact r0
  · exact r1
  · exact r2
  · exact r3
  · exact r4
  · exact r2.tail l25
  · exact r3.tail l36
  · exact r4.tail l47
  · exact (r2.tail l25).tail l58
  · exact r9
  · exact r9.tail l910
  · exact r11
  · exact r11.tail l1112
  · exact r13
  · exact r13.tail l1314

/-- The supports of the first panel and the joints hold the stiffened panel, with and without the
defect, whether the loaded edge moves or not. -/
theorem restrained_T (hd : TDims q) (x1u : ℝ) (dn : ℕ) (h : ℕ → ℝ) :
    AssyRestrained (q.assy x1u dn).count (q.assy x1u dn).panel h (q.assy x1u dn).conns := by
  refine linked h (fun k hk => hd.sides x1u dn hk) (fun d hd => ?_) fun k hk =>
    ⟨0, show 0 < 15 by decide, corner_restrained _ rfl
      (.inl rfl) rfl rfl, linked_T x1u dn hk⟩
  obtain ⟨i, j, h1, h2, h3⟩ := tConn_cases hd
  have hi : i < (q.assy x1u dn).count := show i < 15 by omega
  rcases h3 with ⟨rfl, -⟩ | ⟨rfl, -⟩ | ⟨rfl, -⟩ | ⟨rfl, -⟩ <;> exact ⟨hi, h2⟩

/-- Numbers of terms within the functions at hand. -/
def TTerms (q : TArgs ℝ) (N : ℕ) : Prop := (q.m ≤ N ∧ q.n ≤ N) ∧
  (q.mb.getD q.m ≤ N ∧ q.nb.getD q.n ≤ N) ∧ q.mf.getD q.m ≤ N ∧ q.nf.getD q.n ≤ N

/-- **C78, panel with a T stiffener.** -/
theorem tstiff (h : TBuilt E q x1u dn T lam) (hD : ∀ k < 15, C76.ABDDef (lam k).ABD) {N : ℕ}
    (hS : Hier E.S N) (hN : 4 ≤ N) (hq : TTerms q N) {k0 : Coo ℝ} {M : Multi ℝ}
    (hk : (q.assy x1u dn).multi.calcKC E (some (q.assy x1u dn).conns) none = .ok (k0, M)) :
    AssyDefinite 15 (q.assy x1u dn).panel (q.assy x1u dn).start k0 := by
  refine (solid_T h hD).definite hS hN (fun k hk => ?_) (restrained_T h.dims x1u dn _) hk
  obtain ⟨h1, h2, h3⟩ := hq
  have hk' : k < 15 := hk
  interval_cases k <;> first | exact h1 | exact h2 | exact h3

/-- The matrices given to the solvers of buckling (with given loads, with loads of a static analysis),
of frequencies and of flutter are definite. -/
theorem tstiff_matrices {N : ℕ} (hS : Hier E.S N) (hN : 4 ≤ N) (hq : TTerms q N)
    (solve : Coo ℝ → (ℕ → ℝ) → Except Fail (ℕ → ℝ)) (root : ℝ → ℝ) (s : Bool) :
    (∀ T lam, TBuilt E q (if s then 1 else 0) 1 T lam → (∀ k < 15, C76.ABDDef (lam k).ABD) →
      ∀ R, tstiffCompression E solve q s = .ok R →
        AssyDefinite 15 (q.assy (if s then 1 else 0) 1).panel (q.assy (if s then 1 else 0) 1).start R.2.1) ∧
    (∀ T lam, TBuilt E q 1 2 T lam → (∀ k < 15, C76.ABDDef (lam k).ABD) →
      (∀ R, tstiffFreq E q = .ok R → AssyDefinite 15 (q.assy 1 2).panel (q.assy 1 2).start R.2.1) ∧
      ∀ R, tstiffFlutter root E solve q s = .ok R →
        AssyDefinite 15 (q.assy 1 2).panel (q.assy 1 2).start R.2.1) := by
  refine ⟨fun T lam h hD R hR => ?_, fun T lam h hD => ⟨fun R hR => ?_, fun R hR => ?_⟩⟩
  · unfold tstiffCompression at hR
    obtain ⟨⟨k0, M⟩, h1, hR⟩ := bind_ok.1 hR
    have hd := tstiff h hD hS hN hq h1
    cases s
    · obtain ⟨⟨kG, M'⟩, -, hR⟩ := bind_ok.1 hR
      cases hR
      exact hd
    · obtain ⟨⟨A, M', f, c⟩, -, hR⟩ := bind_ok.1 hR
      obtain ⟨⟨kG, M'⟩, -, hR⟩ := bind_ok.1 hR
      cases hR
      exact hd
  · unfold tstiffFreq at hR
    obtain ⟨⟨k0, M⟩, h1, hR⟩ := bind_ok.1 hR
    obtain ⟨⟨kM, M'⟩, -, hR⟩ := bind_ok.1 hR
    cases hR
    exact tstiff h hD hS hN hq h1
  · unfold tstiffFlutter at hR
    obtain ⟨⟨k0, M⟩, h1, hR⟩ := bind_ok.1 hR
    have hd := tstiff h hD hS hN hq h1
    cases s
    · obtain ⟨_, -, hR⟩ := bind_ok.1 hR
      cases hR
      exact hd
    · obtain ⟨⟨A, M', f, c⟩, -, hR⟩ := bind_ok.1 hR
      obtain ⟨_, -, hR⟩ := bind_ok.1 hR
      cases hR
      exact hd

end

/-! ## Concrete cases -/

/-- The laminates of the examples are definite. -/
theorem env_def {s t : Shell ℝ} {lam : LamObj ℝ} (h : s.rebuild C40.env = .ok t) (hl : t.lam = some lam)
    (hf : s.forceOrtho = false) (hp : C44.Pos (penOf t lam)) : C76.ABDDef lam.ABD := by
  obtain ⟨-, -, -, -, lam1, h1, rfl⟩ := (C54.rebuild_ok_iff _ _ _).1 h
  cases h1
  simp only [Option.some.injEq] at hl
  subst hl
  have hA := hp.A11
  simp only [penOf, hf, Bool.false_and, lamABD, Bool.false_eq_true, if_false, if_true] at hA ⊢
  rintro e ⟨s, hs, hne⟩
  have : ∀ c : ℝ, dens 6 (fun i j => if i = j then c else 0) e
      = c * (e 0 ^ 2 + e 1 ^ 2 + e 2 ^ 2 + e 3 ^ 2 + e 4 ^ 2 + e 5 ^ 2) := fun c => by
    simp [dens, Finset.sum_range_succ]; ring
  rw [this]
  refine mul_pos hA ?_
  have hp : 0 < e s ^ 2 := by positivity
  match s, hs with
  | 0, _ => positivity
  | 1, _ => positivity
  | 2, _ => positivity
  | 3, _ => positivity
  | 4, _ => positivity
  | 5, _ => positivity

/-- Three panels of 5 × 7 terms. -/
example : (∃ A k0 M, createCylinder Real.pi C64.args = .ok A ∧
      A.multi.calcKC C40.env (some A.conns) none = .ok (k0, M) ∧
      AssyDefinite A.count A.panel A.start k0) ∧
    (∃ A k0 kG, cylinderNxxCte C40.env Real.pi C64.args [1, 2, 3] = .ok (A, k0, kG) ∧
      AssyDefinite A.count A.panel A.start k0) ∧
    ∃ A f k0, cylinderFromStatic C40.env Real.pi C64.args [1, 2, 3] = .ok (A, f, k0) ∧
      AssyDefinite A.count A.panel A.start k0 := by
  obtain ⟨t, lam, h1, h2, h3, h4⟩ := C64.args_built
  have hD := env_def h1 h2 rfl h4
  exact ⟨cylinder (Tab.of_exact _ _) bardellShape_C2 (exact_hier 7) (by norm_num) C64.args
      ⟨by decide, by decide⟩ (by decide) ⟨by decide, by decide⟩ (by simp [C64.args])
      (by simp [C64.args]) h1 h2 h3 hD h4,
    cylinder_nxx (Tab.of_exact _ _) bardellShape_C2 (exact_hier 7) (by norm_num) C64.args
      ⟨by decide, by decide⟩ (by decide) ⟨by decide, by decide⟩ (by simp [C64.args])
      (by simp [C64.args]) h1 h2 h3 hD h4 _ rfl,
    cylinder_static (Tab.of_exact _ _) bardellShape_C2 (exact_hier 7) (by norm_num) C64.args
      ⟨by decide, by decide⟩ (by decide) ⟨by decide, by decide⟩ (by simp [C64.args])
      (by simp [C64.args]) h1 h2 h3 hD h4 _ rfl⟩

/-- Three different blades on them. -/
example : (∃ A k0 M, createCylinderBlades Real.pi C64.args [[0], [45, 0], [0, 0, 90]] [1, 2, 3] = .ok A ∧
      A.multi.calcKC C40.env (some A.conns) none = .ok (k0, M) ∧
      AssyDefinite A.count A.panel A.start k0) ∧
    (∃ A k0 kG, bladesNxxCte C40.env Real.pi C64.args [[0], [45, 0], [0, 0, 90]] [1, 2, 3] [1, 1, 1]
      [0, 2, 0] = .ok (A, k0, kG) ∧ AssyDefinite A.count A.panel A.start k0) ∧
    ∃ A f k0, bladesFromStatic C40.env Real.pi C64.args [[0], [45, 0], [0, 0, 90]] [1, 2, 3] [1, 1, 1]
      [0, 2, 0] = .ok (A, f, k0) ∧ AssyDefinite A.count A.panel A.start k0 := by
  obtain ⟨t, lam, tb, lamb, h⟩ := C64.blades_built
  have hD := env_def h.built h.hlam rfl h.pos
  have hDb := fun i hi => env_def (h.builtb i hi) (h.hlamb i hi) rfl (h.posb i hi)
  exact ⟨blades h (exact_hier 7) (by norm_num) ⟨by decide, by decide⟩ hD hDb,
    blades_nxx h (exact_hier 7) (by norm_num) ⟨by decide, by decide⟩ hD hDb _ _ rfl rfl,
    blades_static h (exact_hier 7) (by norm_num) ⟨by decide, by decide⟩ hD hDb _ _ rfl rfl⟩

/-- A curved panel with a stiffener, a quarter of it loose: one solution for every set of forces. -/
example (f : ℕ → ℝ) : ∃ k0 kM, tstiffFreq C40.env C66.args = .ok (C66.args.assy 1 2, k0, kM) ∧
    ∃! d : ℕ → ℝ, (∀ i, (¬ ∃ k < 15, Active ((C66.args.assy 1 2).panel k)
        ((C66.args.assy 1 2).start k) i) → d i = 0) ∧
      ∀ i, (∃ k < 15, Active ((C66.args.assy 1 2).panel k) ((C66.args.assy 1 2).start k) i) →
        ∑ l ∈ actives 15 (C66.args.assy 1 2).panel (C66.args.assy 1 2).start, Coo.entry k0 i l * d l
          = f i := by
  obtain ⟨T, lam, h⟩ := C66.args_built 1 2
  obtain ⟨k0, kM, -, -, h1, -⟩ := C66.freq h
  have hD := fun k hk => env_def (h.built k hk) (h.hlam k hk)
    (by interval_cases k <;> rfl) (h.pos k hk)
  exact ⟨k0, kM, h1, solvable (((tstiff_matrices (exact_hier 6) (by norm_num)
    ⟨⟨by decide, by decide⟩, ⟨by decide, by decide⟩, by decide, by decide⟩
    (fun _ _ => .error (.raised .valueError)) id false).2 T lam h hD).1 _ h1) f⟩

/-- The same panel without any support at the edges would slide along `x`. -/
example (h : ℕ → ℝ) : ¬ AssyRestrained 15 (fun k => { (C66.args.assy 1 2).panel k with
    xu := ⟨1, 1, 1, 1⟩ }) h (C66.args.assy 1 2).conns := by
  refine floating (by norm_num) h (fun k hk i hi => ⟨?_, ?_⟩) fun d hd => ?_
  · match i, hi with
    | 0, _ => simp [flag, Panel.xf]
    | 1, _ => simp [flag, Panel.xf]
    | 2, _ => simp [flag, Panel.xf]
    | 3, _ => simp [flag, Panel.xf]
  · have e : ((C66.args.assy 1 2).panel k).yf 0 = edgeFlags 1 1 := by
      interval_cases k <;> rfl
    show flag (((C66.args.assy 1 2).panel k).yf 0) i ≠ 0
    rw [e]
    match i, hi with
    | 0, _ => simp [flag, edgeFlags]
    | 1, _ => simp [flag, edgeFlags]
    | 2, _ => simp [flag, edgeFlags]
    | 3, _ => simp [flag, edgeFlags]
  · obtain ⟨i, j, h1, h2, h3⟩ := tConn_cases hd
    rcases h3 with ⟨rfl, -⟩ | ⟨rfl, -⟩ | ⟨rfl, -⟩ | ⟨rfl, -⟩ <;> simp [ssx, ssy, sb, bfy]

end C78
end Verif
