import Verif.Proofs.BayRigid
import Verif.Props.C80Ready

/-!
# C81: the stiffness of a stiffened bay

A bay is held by its supports and joints exactly when the assembly of its skin and of the flanges of its
2D stiffeners is; bases and 1D stiffeners add stiffness but no condition.
-/

set_option linter.unusedSectionVars false

namespace Verif.C81

open Spec Model Indep C80

variable {E : BayEnv ℝ} {B R : Bay ℝ} {N : ℕ}

/-- The amplitudes of a bay that are switched on. -/
noncomputable def actives (R : Bay ℝ) : Finset ℕ :=
  C78.actives (R.blade2.length + 1) (bayPanel R) (bayStart R)

/-- **C81.**  The stiffness matrix of a bay exists.  It is positive definite exactly when supports and
joints leave no motion of skin and flanges without strain but rest (the "only if" for four terms or more
in both directions). -/
theorem definite_iff (h : SolidBay E B R N) {n : ℕ} (hS : Hier E.S n) (hn : 4 ≤ n)
    (hmn : ∀ k < R.blade2.length + 1, (bayPanel R k).m ≤ n ∧ (bayPanel R k).n ≤ n) :
    ∃ k0 B', B.calcKC E = .ok (k0, B') ∧ (BayRestrained R → BayDefinite R k0) ∧
      ((∀ k < R.blade2.length + 1, 4 ≤ (bayPanel R k).m ∧ 4 ≤ (bayPanel R k).n) →
        BayDefinite R k0 → BayRestrained R) := by
  obtain ⟨k0, B', h1, h2⟩ := h.kernel hS hn (hmn 0 (Nat.succ_pos _))
  exact ⟨k0, B', h1, C78.definite_of_kernel h.smooth hS hn hmn h.part_sides (bayJoints_range R) h2 h.glue⟩

/-- One part that is held by its own edges, skin or flange, holds the whole bay. -/
theorem held (h : SolidBay E B R N) {k : ℕ} (hk : k < R.blade2.length + 1)
    (hr : Restrained (1 / (bayPanel R k).r) (bayPanel R k)) : BayRestrained R := by
  have hl : ∀ i < R.blade2.length, Linked (bayJoints R) 0 (i + 1) ∧ Linked (bayJoints R) (i + 1) 0 :=
    fun i hi => ⟨⟨bayJoint R i, List.mem_map.2 ⟨i, List.mem_range.2 hi, rfl⟩, .inl ⟨rfl, rfl⟩⟩,
      ⟨bayJoint R i, List.mem_map.2 ⟨i, List.mem_range.2 hi, rfl⟩, .inr ⟨rfl, rfl⟩⟩⟩
  have h0 : Relation.ReflTransGen (Linked (bayJoints R)) k 0 := by
    cases k with
    | zero => exact .refl
    | succ i => exact .single (hl i (by omega)).2
  refine C78.linked _ h.part_sides (bayJoints_range R) fun j hj => ⟨k, hk, hr, ?_⟩
  cases j with
  | zero => exact h0
  | succ i => exact h0.tail (hl i (by omega)).1

/-- A bay of which no part is held along `x` is not restrained. -/
theorem floating (h : ∀ k < R.blade2.length + 1, ∀ i < 4,
    flag ((bayPanel R k).xf 0) i ≠ 0 ∧ flag ((bayPanel R k).yf 0) i ≠ 0) : ¬ BayRestrained R :=
  C78.floating (Nat.succ_pos _) _ h fun d hd => by
    obtain ⟨i, -, rfl⟩ := List.mem_map.1 hd
    simp [bayJoint]

/-- **C81, static analysis.**  Every set of forces has exactly one solution on the amplitudes that are
switched on. -/
theorem solvable {L : Coo ℝ} (hL : BayDefinite R L) (f : ℕ → ℝ) :
    ∃! d : ℕ → ℝ, (∀ i, (¬ ∃ k < R.blade2.length + 1, Active (bayPanel R k) (bayStart R k) i) → d i = 0) ∧
      ∀ i, (∃ k < R.blade2.length + 1, Active (bayPanel R k) (bayStart R k) i) →
        ∑ l ∈ actives R, Coo.entry L i l * d l = f i := C78.solvable hL f

theorem sym_assemble {fp : ℕ → Shell ℝ → Except Fail (Coo ℝ × Shell ℝ)}
    {f1 : Bay ℝ → ℕ → Blade1 ℝ → Except Fail (Coo ℝ × Blade1 ℝ)}
    {f2 : ℕ → Bay ℝ → ℕ → Blade2 ℝ → Except Fail (Coo ℝ × Blade2 ℝ × Bay ℝ)} {k : Coo ℝ} {B' : Bay ℝ}
    (h : B.assemble E fp f1 f2 = .ok (k, B')) : Sym k := by
  unfold Bay.assemble at h
  obtain ⟨R, -, h⟩ := bind_ok.1 h
  obtain ⟨N, -, h⟩ := bind_ok.1 h
  obtain ⟨⟨Lp, ps⟩, -, h⟩ := bind_ok.1 h
  obtain ⟨⟨L1, b1⟩, -, h⟩ := bind_ok.1 h
  obtain ⟨off, -, h⟩ := bind_ok.1 h
  obtain ⟨⟨L2, b2, C⟩, -, h⟩ := bind_ok.1 h
  obtain ⟨k', hk, h⟩ := bind_ok.1 h
  cases h
  exact finSum_sym hk

/-- All matrices of a bay are symmetric. -/
theorem symmetric {k : Coo ℝ} {B' : Bay ℝ} :
    (B.calcKC E = .ok (k, B') → Sym k) ∧ (∀ c, B.calcKG E c = .ok (k, B') → Sym k) ∧
      (B.calcKM E = .ok (k, B') → Sym k) :=
  ⟨fun h => sym_assemble h, fun _ h => sym_assemble h, fun h => sym_assemble h⟩

/-- **C81, buckling.**  The critical multipliers of the loads of a bay that is held are real, and the bay
is stable exactly below the smallest positive one. -/
theorem buckling (h : SolidBay E B R N) {n : ℕ} (hS : Hier E.S n) (hn : 4 ≤ n)
    (hmn : ∀ k < R.blade2.length + 1, (bayPanel R k).m ≤ n ∧ (bayPanel R k).n ≤ n)
    (hR : BayRestrained R) :
    ∃ k0 kG B1 B2, B.calcKC E = .ok (k0, B1) ∧ B.calcKG E none = .ok (kG, B2) ∧
      Buckles (actives R) k0 kG := by
  obtain ⟨k0, B1, h1, h2, -⟩ := definite_iff h hS hn hmn
  obtain ⟨⟨kG, B2⟩, h3⟩ := C57.kG_exists E B R N h.terms h.panels h.rebuilt h.size h.ready
  exact ⟨k0, kG, B1, B2, h1, h3, buckles (symmetric.2.1 none h3) (symmetric.1 h1) (pos_of_assy (h2 hR))⟩

/-! ## Mass -/

/-- A bay without bases and 1D stiffeners, of which all densities and thicknesses are positive.  With a
base there is no mass matrix (C57), and that of a 1D stiffener is not a kinetic energy (C49). -/
structure Heavy (R : Bay ℝ) : Prop where
  blade1 : R.blade1 = []
  base : ∀ s ∈ R.blade2, s.base = none
  skin : ∀ p ∈ R.panels, 0 < p.rho ∧ 0 < p.plyts.sum
  flange : ∀ s ∈ R.blade2, ∀ f, s.flange = some f → 0 < f.rho ∧ 0 < f.plyts.sum

theorem own_mass {P : Panel ℝ} (hI : E.I.Exact E.S Mean.integral) (hC : E.S.C2) {n : ℕ} (hS : Hier E.S n)
    (hmn : P.m ≤ n ∧ P.n ≤ n) (ha : 0 < P.a) (hb : 0 < P.b) {off : ℕ} {p : Shell ℝ} {q : (ℕ → ℝ) → ℝ}
    (hp : ∃ x1 x2 y1 y2, p.panel = { P with x1 := x1, x2 := x2, y1 := y1, y2 := y2 })
    {k : Kind} (hk : p.model.bind kindOf = some k) {lam : LamObj ℝ} (hl : p.lam = some lam)
    (hr : 0 < p.rho ∧ 0 < p.plyts.sum) (hq : C52.Own (C52.massOf E) off (some p) q) (v : ℕ → ℝ) :
    0 ≤ q v ∧ (q v = 0 ↔ ∀ i, Active P off i → v i = 0) := by
  obtain ⟨L, t, h1, h2⟩ := hq
  obtain ⟨x1, x2, y1, y2, e⟩ := hp
  have ea : p.pan.a = P.a := by
    have := congrArg Panel.a e
    exact this
  have eb : p.pan.b = P.b := by
    have := congrArg Panel.b e
    exact this
  rw [h2 v, shell_kM_kinetic hI hC hk hl (by rw [ea]; exact ha.ne') (by rw [eb]; exact hb.ne') h1, e]
  exact kineticWork_zero hC hS hmn.1 hmn.2 ha hb hr.1 hr.2 p.offset off v

/-- **C81, mass.**  The mass matrix of such a bay is positive definite. -/
theorem mass (h : SolidBay E B R N) (hH : Heavy R) {n : ℕ} (hS : Hier E.S n)
    (hmn : ∀ k < R.blade2.length + 1, (bayPanel R k).m ≤ n ∧ (bayPanel R k).n ≤ n) :
    ∃ kM B', B.calcKM E = .ok (kM, B') ∧ BayDefinite R kM := by
  obtain ⟨⟨kM, B'⟩, hk⟩ := C57.kM_exists_partial E B R N h.terms h.panels h.rebuilt h.size
    (by simp [hH.blade1]) fun s hs b e => by rw [hH.base s hs] at e; cases e
  obtain ⟨R', N', r1, r2, Qp, Q1, Q2, e1, e2, e3, e4, e5⟩ := C52.kM_energy E B B' kM h.terms hk
  obtain rfl := Except.ok.inj (h.rebuilt.symm.trans r1)
  have hb := C52.built h.terms h.rebuilt
  obtain rfl : Q1 = [] := by
    rw [hH.blade1] at e2
    exact List.forall₂_nil_left_iff.1 e2
  refine ⟨kM, B', hk, fun v => ?_⟩
  have hp : ∀ q ∈ Qp, 0 ≤ q v ∧ (q v = 0 ↔ ∀ i, Active (bayPanel R 0) 0 i → v i = 0) := fun q hq => by
    obtain ⟨p, hp, ho⟩ := C52.forall₂_mem_right e1 q hq
    obtain ⟨t, lam, hs⟩ := h.skin p hp
    obtain rfl := Except.ok.inj ((hb.panels p hp).symm.trans hs.built)
    obtain ⟨k, hk⟩ : ∃ k, p.model.bind kindOf = some k := by
      rcases hs.kind with ⟨-, e⟩ | ⟨-, e⟩ <;> exact ⟨_, e⟩
    exact own_mass h.exact h.smooth hS (hmn 0 (Nat.succ_pos _)) h.sides.1 h.sides.2 hs.plan hk hs.hlam
      (hH.skin p hp) ho v
  have h2 : ∀ i q, Q2[i]? = some q → 0 ≤ q v ∧
      (q v = 0 ↔ ∀ j, Active (bayPanel R (i + 1)) (bayStart R (i + 1)) j → v j = 0) := fun i q hq => by
    have hlt : i < R.blade2.length := by
      rw [← e3]
      exact (List.getElem?_eq_some_iff.1 hq).1
    have hi := List.getElem?_eq_getElem hlt
    have hs := List.getElem_mem hlt
    obtain ⟨qb, qf, hob, hof, hq⟩ := e4 i _ q hi hq
    rw [hH.base _ hs] at hob
    obtain ⟨f, hf, hm⟩ := C57.flange_of h.size hs
    rw [hf] at hof
    obtain ⟨f', hf', ef⟩ := h.has_flange hi
    rw [hf] at hf'
    cases hf'
    obtain ⟨k, hk⟩ := Option.ne_none_iff_exists'.1 hm
    obtain ⟨l, hl⟩ : ∃ l, f.lam = some l := by
      rcases (blade2_kept (hb.blade2 _ hs { R with panels := R.panels.map Shell.fixR }
          ⟨rfl, rfl, rfl⟩)).1 with ⟨e, -⟩ | ⟨g, x, e, e'⟩
      · rw [hf] at e; cases e
      · rw [hf] at e'
        cases e'
        exact ⟨x, rfl⟩
    have hsd := h.part_sides (i + 1) (by omega)
    have hmf := hmn (i + 1) (by omega)
    rw [ef] at hsd hmf
    have := own_mass (P := f.panel) h.exact h.smooth hS hmf hsd.1 hsd.2
      ⟨f.panel.x1, f.panel.x2, f.panel.y1, f.panel.y2, rfl⟩ hk hl (hH.flange _ hs f hf) hof v
    rw [hq v, show qb v = 0 from hob v, zero_add, ef, bayStart_succ]
    exact this
  obtain ⟨p0, p1⟩ := sum_zero_iff Qp (fun q => q v) fun q hq => (hp q hq).1
  have hget : ∀ q ∈ Q2, ∃ i, Q2[i]? = some q := fun q hq => by
    obtain ⟨i, hi, rfl⟩ := List.getElem_of_mem hq
    exact ⟨i, List.getElem?_eq_getElem hi⟩
  obtain ⟨t0, t1⟩ := sum_zero_iff Q2 (fun q => q v) fun q hq => by
    obtain ⟨i, hi⟩ := hget q hq
    exact (h2 i q hi).1
  have key : Coo.quad kM v = 0 ↔
      ∀ k < R.blade2.length + 1, ∀ i, Active (bayPanel R k) (bayStart R k) i → v i = 0 := by
    rw [e5 v]
    simp only [List.map_nil, List.sum_nil, add_zero]
    rw [add_eq_zero_iff_of_nonneg p0 t0, p1, t1]
    constructor
    · rintro ⟨z1, z2⟩ k hk
      cases k with
      | zero =>
        obtain ⟨q, hq⟩ := List.exists_mem_of_ne_nil _ (h.parts_ne e1)
        exact (hp q hq).2.1 (z1 q hq)
      | succ i =>
        have hi : i < Q2.length := by rw [e3]; omega
        exact (h2 i _ (List.getElem?_eq_getElem hi)).2.1 (z2 _ (List.getElem_mem hi))
    · intro z
      refine ⟨fun q hq => (hp q hq).2.2 (z 0 (Nat.succ_pos _)), fun q hq => ?_⟩
      obtain ⟨i, hi⟩ := hget q hq
      have : i < Q2.length := (List.getElem?_eq_some_iff.1 hi).1
      exact (h2 i q hi).2.2 (z (i + 1) (by omega))
  have h0 : 0 ≤ Coo.quad kM v := by
    rw [e5 v]
    simp only [List.map_nil, List.sum_nil, add_zero]
    positivity
  refine ⟨?_, key.2⟩
  rintro ⟨k, hk, i, hi, hne⟩
  exact lt_of_le_of_ne h0 fun e => hne (key.1 e.symm k hk i hi)

/-- **C81, vibrations.**  The frequencies of a bay that is held, without bases and 1D stiffeners, are real
and positive. -/
theorem frequencies (h : SolidBay E B R N) (hH : Heavy R) {n : ℕ} (hS : Hier E.S n) (hn : 4 ≤ n)
    (hmn : ∀ k < R.blade2.length + 1, (bayPanel R k).m ≤ n ∧ (bayPanel R k).n ≤ n)
    (hR : BayRestrained R) :
    ∃ k0 kM B1 B2, B.calcKC E = .ok (k0, B1) ∧ B.calcKM E = .ok (kM, B2) ∧
      Vibrates (actives R) k0 kM := by
  obtain ⟨k0, B1, h1, h2, -⟩ := definite_iff h hS hn hmn
  obtain ⟨kM, B2, h3, h4⟩ := mass h hH hS hmn
  exact ⟨k0, kM, B1, B2, h1, h3, vibrates (symmetric.1 h1) (symmetric.2.2 h3) (pos_of_assy (h2 hR))
    (pos_of_assy h4)⟩

end Verif.C81
