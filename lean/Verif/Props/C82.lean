import Verif.Proofs.UnitsField
import Verif.Props.C38
import Verif.Props.C28
import Verif.Props.C54
import Verif.Spec.Bardell
import Verif.Spec.Witness
import Verif.Spec.Modes

/-!
# C82: results do not depend on the system of units

If all inputs of a panel are converted to other units of length, force and time, the matrices, forces and
fields are the converted ones, with the same failures, and the solutions, buckling multipliers and
frequencies follow.  Stated with factors only: `Spec/Units.lean` and `Spec/UnitsShell.lean` multiply every
attribute according to its dimension.
-/

namespace Verif.C82

open Model Spec

variable {K : Type} [Field K] [DecidableEq K] {U : UnitSys K} {E : Env K} {s : Shell K}

/-! ## Panels -/

/-- The laminate of the converted panel is the converted laminate. -/
theorem rebuild (hE : U.Homog E) : (U.shell s).rebuild E = (s.rebuild E).map U.shell := rebuild_units hE s

/-- Stiffness, by any path, with any arguments: force per length. -/
theorem kC (hE : U.Homog E) (hP : U.Clear s.pan) (A : KArgs K) :
    (U.shell s).calcKC E (U.kargs A) = (s.calcKC E A).map fun t => (scale U.line t.1, U.shell t.2) :=
  calcKC_units hE hP A

/-- Geometric stiffness. -/
theorem kG (hE : U.Homog E) (hP : U.Clear s.pan) (A : KArgs K) :
    (U.shell s).calcKG E (U.kargs A) = (s.calcKG E A).map fun t => (scale U.line t.1, U.shell t.2) :=
  calcKG_units hE hP A

/-- Tangent stiffness. -/
theorem kT (hE : U.Homog E) (hP : U.Clear s.pan) (A : KArgs K) :
    (U.shell s).calcKT E (U.kargs A) = (s.calcKT E A).map fun t => (scale U.line t.1, U.shell t.2) :=
  calcKT_units hE hP A

/-- Mass. -/
theorem kM (hP : U.Clear s.pan) (size : SizeArg) (row0 col0 : ℕ) (h rho : Option (Field2 K))
    (nx ny : Option ℕ) (finalize : Bool) :
    (U.shell s).calcKM E size row0 col0 (h.map (UnitSys.field2 U.len)) (rho.map (UnitSys.field2 U.rho))
      nx ny finalize
      = (s.calcKM E size row0 col0 h rho nx ny finalize).map fun t => (scale U.mass t.1, U.shell t.2) :=
  calcKM_units hP size row0 col0 h rho nx ny finalize

/-- Internal forces. -/
theorem fint (hP : U.Clear s.pan) (c : CArg K) (size : SizeArg) (col0 : ℕ) (nx ny : Option ℕ)
    (abd : Option (LamInput K)) :
    (U.shell s).calcFint E (U.amps c) size col0 nx ny (abd.map U.lamIn)
      = (s.calcFint E c size col0 nx ny abd).map fun t =>
        (t.1.map fun w => (w.1, U.force * w.2), U.shell t.2) :=
  calcFint_units hP c size col0 nx ny abd

/-- External forces. -/
theorem fext (S : Shape K) (G : GaussTab K) (P : Panel K) (L : Loads K) (inc : K) (size : SizeArg)
    (col0 : ℕ) : shellFext S G (U.panel P) (U.loads L) inc size col0
      = (shellFext S G P L inc size col0).map fun f k => U.force * f k :=
  shellFext_units S P G L inc size col0

/-- Displacements and rotations. -/
theorem uvw (S : Shape K) (P : Panel K) (c : ℕ → K) (xs ys : Option (Arr K)) (gridx gridy cores : ℕ) :
    shellUvw S (U.panel P) (fun i => U.len * c i) (xs.map U.arr) (ys.map U.arr) gridx gridy cores
      = (shellUvw S P c xs ys gridx gridy cores).map fun t => (t.1, t.2.map U.uvw) :=
  shellUvw_units S P c xs ys gridx gridy cores

/-- Strains and curvatures. -/
theorem strain (S : Shape K) (P : Panel K) (c : ℕ → K) (xs ys : Option (Arr K))
    (gridx gridy cores : ℕ) (NL : Bool) :
    shellStrain S (U.panel P) (fun i => U.len * c i) (xs.map U.arr) (ys.map U.arr) gridx gridy cores NL
      = (shellStrain S P c xs ys gridx gridy cores NL).map fun t => (t.1, t.2.map U.strain) :=
  shellStrain_units S P c xs ys gridx gridy cores NL

/-- Forces and moments per length. -/
theorem stress (S : Shape K) (P : Panel K) (c : ℕ → K) (own ABD : Option (ℕ → ℕ → K))
    (xs ys : Option (Arr K)) (gridx gridy cores : ℕ) (NL : Bool) :
    shellStress S (U.panel P) (fun i => U.len * c i) (own.map U.abd) (ABD.map U.abd) (xs.map U.arr)
      (ys.map U.arr) gridx gridy cores NL
      = (shellStress S P c own ABD xs ys gridx gridy cores NL).map fun t => (t.1, t.2.map U.stress) :=
  shellStress_units S P c own ABD xs ys gridx gridy cores NL

/-- Springs at a point: `kuvw` is force per length, `kphi` moment per angle. -/
theorem constraint (S : Shape K) (P : Panel K) (x y : K) (u v w phix phiy : Bool) (kuvw kphi : K)
    (p q : ℕ) :
    pointConstraint S (U.panel P) (U.len * x) (U.len * y) u v w phix phiy (U.line * kuvw)
      (U.force * U.len * kphi) p q
      = U.line * pointConstraint S P x y u v w phix phiy kuvw kphi p q :=
  pointConstraint_units S P x y u v w phix phiy kuvw kphi p q

/-! ## Recording loads -/

/-- A point load in the new units. -/
theorem point_load (L : Loads K) (x y fx fy fz : K) (cte : Bool) :
    (U.loads L).addPointLoad (U.len * x) (U.len * y) (U.force * fx) (U.force * fy) (U.force * fz) cte
      = U.loads (L.addPointLoad x y fx fy fz cte) := by
  cases cte <;> simp [Loads.addPointLoad, UnitSys.loads, UnitSys.pload]

/-- A load along a line. -/
theorem distr_load (L : Loads K) (x : K) (fx fy fz : Option (K → K)) (cte : Bool) :
    (U.loads L).addDistrLoadFixedX (U.len * x) (fx.map U.lineFun) (fy.map U.lineFun) (fz.map U.lineFun) cte
        = (L.addDistrLoadFixedX x fx fy fz cte).map U.loads ∧
      (U.loads L).addDistrLoadFixedY (U.len * x) (fx.map U.lineFun) (fy.map U.lineFun) (fz.map U.lineFun) cte
        = (L.addDistrLoadFixedY x fx fy fz cte).map U.loads := by
  constructor
  · unfold Loads.addDistrLoadFixedX
    refine ite_units (by simp) rfl (ite_units Iff.rfl ?_ ?_) <;>
      simp [UnitSys.loads, UnitSys.dload, Except.map]
  · unfold Loads.addDistrLoadFixedY
    refine ite_units (by simp) rfl (ite_units Iff.rfl ?_ ?_) <;>
      simp [UnitSys.loads, UnitSys.dload, Except.map]

/-- A displacement prescribed at a point: the springs are forces per length. -/
theorem point_pd (L : Loads K) (x y ku up kv vp kw wp : K) (cte : Bool) :
    (U.loads L).addPointPd (U.len * x) (U.len * y) (U.line * ku) (U.len * up) (U.line * kv) (U.len * vp)
        (U.line * kw) (U.len * wp) cte
      = U.loads (L.addPointPd x y ku up kv vp kw wp cte) := by
  have h : ∀ k z : K, U.line * k * (U.len * z) = U.force * (k * z) := fun k z => by
    have := U.len_ne
    unfold UnitSys.line
    field_simp
  cases cte <;> simp [Loads.addPointPd, UnitSys.loads, UnitSys.pload, h]

/-- A displacement as a function of the position. -/
def dispFun (U : UnitSys K) (f : K → K) (t : K) : K := U.len * f (t / U.len)

theorem pdFunc_units (k : Option K) (f : Option (K → K)) :
    pdFunc (k.map (U.area * ·)) (f.map (dispFun U)) = (pdFunc k f).map (Option.map U.lineFun) := by
  have hl := U.len_ne
  cases k with
  | none => cases f <;> rfl
  | some k =>
    cases f with
    | none => rfl
    | some f =>
      refine congrArg Except.ok (congrArg some (funext fun t => ?_))
      simp only [dispFun, UnitSys.lineFun, UnitSys.area, UnitSys.line]
      field_simp

theorem anyK_units (ku kv kw : Option K) :
    anyK (ku.map (U.area * ·)) (kv.map (U.area * ·)) (kw.map (U.area * ·)) = anyK ku kv kw := by
  have h : U.area ≠ 0 := div_ne_zero U.force_ne (pow_ne_zero 2 U.len_ne)
  cases ku <;> cases kv <;> cases kw <;> simp [anyK, h]

/-- Displacements prescribed along a line: the springs are forces per area. -/
theorem distr_pd (L : Loads K) (x : K) (ku kv kw : Option K) (fu fv fw : Option (K → K)) (cte : Bool) :
    (U.loads L).addDistrPdFixedX (U.len * x) (ku.map (U.area * ·)) (kv.map (U.area * ·))
          (kw.map (U.area * ·)) (fu.map (dispFun U)) (fv.map (dispFun U)) (fw.map (dispFun U)) cte
        = (L.addDistrPdFixedX x ku kv kw fu fv fw cte).map U.loads ∧
      (U.loads L).addDistrPdFixedY (U.len * x) (ku.map (U.area * ·)) (kv.map (U.area * ·))
          (kw.map (U.area * ·)) (fu.map (dispFun U)) (fv.map (dispFun U)) (fw.map (dispFun U)) cte
        = (L.addDistrPdFixedY x ku kv kw fu fv fw cte).map U.loads := by
  constructor
  · unfold Loads.addDistrPdFixedX
    rw [anyK_units]
    refine ite_units Iff.rfl rfl (ite_units (by simp) rfl ?_)
    refine bind_units (pdFunc_units ku fu) fun u => bind_units (pdFunc_units kv fv) fun v =>
      bind_units (pdFunc_units kw fw) fun w => ?_
    cases cte <;> simp [UnitSys.loads, UnitSys.dload, Except.map, pure, Except.pure]
  · unfold Loads.addDistrPdFixedY
    rw [anyK_units]
    refine ite_units Iff.rfl rfl (ite_units (by simp) rfl ?_)
    refine bind_units (pdFunc_units ku fu) fun u => bind_units (pdFunc_units kv fv) fun v =>
      bind_units (pdFunc_units kw fw) fun w => ?_
    cases cte <;> simp [UnitSys.loads, UnitSys.dload, Except.map, pure, Except.pure]

/-! ## Aerodynamics -/

/-- The aerodynamic matrix, from the flight condition or from stored parameters. -/
theorem kA {K : Type} [Field K] [LinearOrder K] {U : UnitSys K} {E : Env K} {s : Shell K}
    (hP : U.Clear s.pan) (root : K → K) (size : SizeArg) (row0 col0 : ℕ) (finalize : Bool) :
    (U.shell s).calcKA root E size row0 col0 finalize
      = (s.calcKA root E size row0 col0 finalize).map fun t => (scale U.line t.1, U.shell t.2) :=
  calcKA_units hP root size row0 col0 finalize

/-- The limits of integration are never mistaken when they lie on the panel. -/
theorem clear {K : Type} [Field K] [LinearOrder K] [IsStrictOrderedRing K] {U : UnitSys K} (hU : 0 < U.len)
    (P : Panel K) (hx : P.x1 = -1 ∨ P.x2 = -1 ∨ 0 ≤ P.x1 ∧ 0 ≤ P.x2)
    (hy : P.y1 = -1 ∨ P.y2 = -1 ∨ 0 ≤ P.y1 ∧ 0 ≤ P.y2) : U.Clear P := by
  have key : ∀ x : K, 0 ≤ x → U.len * x ≠ -1 := by
    intro x h0 he
    have := mul_nonneg hU.le h0
    rw [he] at this
    exact absurd this (by norm_num)
  constructor
  · intro h1 h2
    rcases hx with h | h | h
    · exact absurd h h1
    · exact absurd h h2
    · exact ⟨key _ h.1, key _ h.2⟩
  · intro h1 h2
    rcases hy with h | h | h
    · exact absurd h h1
    · exact absurd h h2
    · exact ⟨key _ h.1, key _ h.2⟩

/-! ## Solutions -/

omit [DecidableEq K] in
theorem entry_scale (k : K) (L : Coo K) (i j : ℕ) :
    Coo.entry (scale k L) i j = k * Coo.entry L i j := by
  induction L with
  | nil => simp [scale]
  | cons t L ih =>
    rw [show scale k (t :: L) = ⟨t.row, t.col, k * t.val⟩ :: scale k L from rfl, Coo.entry_cons,
      Coo.entry_cons, ih]
    split <;> ring

/-- A panel under loads: the converted amplitudes solve the converted problem, and nothing else does. -/
theorem static (hE : U.Homog E) (hP : U.Clear s.pan) {A : KArgs K} {L : Coo K} {s' : Shell K}
    (h : s.calcKC E A = .ok (L, s')) (t : Finset ℕ) (c f : ℕ → K) :
    ∃ L', (U.shell s).calcKC E (U.kargs A) = .ok (L', U.shell s') ∧
      ((∀ k ∈ t, ∑ l ∈ t, Coo.entry L' k l * (U.len * c l) = U.force * f k) ↔
        ∀ k ∈ t, ∑ l ∈ t, Coo.entry L k l * c l = f k) := by
  refine ⟨scale U.line L, by rw [kC hE hP, h]; rfl, forall₂_congr fun k _ => ?_⟩
  have e : ∑ l ∈ t, Coo.entry (scale U.line L) k l * (U.len * c l)
      = U.force * ∑ l ∈ t, Coo.entry L k l * c l := by
    rw [Finset.mul_sum]
    refine Finset.sum_congr rfl fun l _ => ?_
    have := U.len_ne
    rw [entry_scale, UnitSys.line]
    field_simp
  rw [e]
  exact mul_right_inj' U.force_ne

section real

variable {U : UnitSys ℝ} {E : Env ℝ} {s : Shell ℝ}

/-- Buckling multipliers are the same numbers. -/
theorem buckling (hE : U.Homog E) (hP : U.Clear s.pan) {A B : KArgs ℝ} {L G : Coo ℝ} {s1 s2 : Shell ℝ}
    (h1 : s.calcKC E A = .ok (L, s1)) (h2 : s.calcKG E B = .ok (G, s2)) :
    ∃ L' G', (U.shell s).calcKC E (U.kargs A) = .ok (L', U.shell s1) ∧
      (U.shell s).calcKG E (U.kargs B) = .ok (G', U.shell s2) ∧
      ∀ t p, Critical t L' G' p ↔ Critical t L G p := by
  refine ⟨scale U.line L, scale U.line G, by rw [kC hE hP, h1]; rfl, by rw [kG hE hP, h2]; rfl,
    fun t p => exists_congr fun z => and_congr_right fun _ => forall₂_congr fun k _ => ?_⟩
  have hne : (U.line : ℂ) ≠ 0 := Complex.ofReal_ne_zero.2 (div_ne_zero U.force_ne U.len_ne)
  have e : ∀ L : Coo ℝ, ∑ l ∈ t, ((Coo.entry (scale U.line L) k l : ℝ) : ℂ) * z l
      = U.line * ∑ l ∈ t, ((Coo.entry L k l : ℝ) : ℂ) * z l := fun L => by
    rw [Finset.mul_sum]
    refine Finset.sum_congr rfl fun l _ => ?_
    rw [entry_scale, Complex.ofReal_mul, mul_assoc]
  rw [e, e, mul_left_comm, ← mul_add, mul_eq_zero, or_iff_right hne]

/-- Frequencies are inverse times. -/
theorem frequency (hE : U.Homog E) (hP : U.Clear s.pan) {A : KArgs ℝ} {L M : Coo ℝ} {s1 s2 : Shell ℝ}
    {size : SizeArg} {row0 col0 : ℕ} {h rho : Option (Field2 ℝ)} {nx ny : Option ℕ} {finalize : Bool}
    (h1 : s.calcKC E A = .ok (L, s1))
    (h2 : s.calcKM E size row0 col0 h rho nx ny finalize = .ok (M, s2)) :
    ∃ L' M', (U.shell s).calcKC E (U.kargs A) = .ok (L', U.shell s1) ∧
      (U.shell s).calcKM E size row0 col0 (h.map (UnitSys.field2 U.len)) (rho.map (UnitSys.field2 U.rho))
        nx ny finalize = .ok (M', U.shell s2) ∧
      ∀ t (ω : ℂ), Eigen t L' M' ((ω / U.time) ^ 2) ↔ Eigen t L M (ω ^ 2) := by
  refine ⟨scale U.line L, scale U.mass M, by rw [kC hE hP, h1]; rfl, by rw [kM hP, h2]; rfl,
    fun t ω => exists_congr fun z => and_congr_right fun _ => forall₂_congr fun k _ => ?_⟩
  have hne : (U.line : ℂ) ≠ 0 := Complex.ofReal_ne_zero.2 (div_ne_zero U.force_ne U.len_ne)
  have ht : (U.time : ℂ) ≠ 0 := Complex.ofReal_ne_zero.2 U.time_ne
  have e : ∀ (κ : ℝ) (L : Coo ℝ), ∑ l ∈ t, ((Coo.entry (scale κ L) k l : ℝ) : ℂ) * z l
      = κ * ∑ l ∈ t, ((Coo.entry L k l : ℝ) : ℂ) * z l := fun κ L => by
    rw [Finset.mul_sum]
    refine Finset.sum_congr rfl fun l _ => ?_
    rw [entry_scale, Complex.ofReal_mul, mul_assoc]
  have hm : (U.mass : ℂ) = U.line * (U.time : ℂ) ^ 2 := by
    rw [UnitSys.mass, UnitSys.line]
    push_cast
    ring
  rw [e, e, hm, show (ω / U.time) ^ 2 * (U.line * (U.time : ℂ) ^ 2
      * ∑ l ∈ t, ((Coo.entry M k l : ℝ) : ℂ) * z l)
    = U.line * (ω ^ 2 * ∑ l ∈ t, ((Coo.entry M k l : ℝ) : ℂ) * z l) by field_simp]
  exact mul_right_inj' hne

end real

/-! ## Concrete cases -/

/-- Millimetres to metres, newtons to kilonewtons, seconds to milliseconds. -/
def units (K : Type) [Field K] [CharZero K] : UnitSys K where
  len := 1 / 1000
  force := 1 / 1000
  time := 1000
  len_ne := by norm_num
  force_ne := by norm_num
  time_ne := by norm_num

/-- First modulus of the first ply. -/
def modulus (props : List (List K)) : K := (props.head?.bind (·.head?)).getD 0

/-- A calculator of laminates without Poisson effect, stiff as the first ply, placed with an offset; a
stack that does not match the thicknesses is refused. -/
def plain (stack plyts : List K) (props : List (List K)) (rhos : List K) (d : K) : Except Err (LamObj K) :=
  let h := plyts.sum
  if stack.length ≠ plyts.length then .error .valueError
  else .ok ⟨fun i j => if i < 3 ∧ j = i then modulus props * h
      else if i < 3 ∧ j = i + 3 ∨ j < 3 ∧ i = j + 3 then modulus props * h * d
      else if i = j then modulus props * h * (d ^ 2 + h ^ 2 / 12) else 0,
    h, (List.zipWith (· * ·) plyts rhos).sum⟩

omit [DecidableEq K] in
theorem modulus_units (props : List (List K)) : modulus (props.map U.lamina) = U.area * modulus props := by
  cases props with
  | nil => simp [modulus]
  | cons l ls =>
    cases l <;> simp [modulus, UnitSys.lamina]

omit [DecidableEq K] in
theorem zip_units (k k' : K) (l l' : List K) :
    (List.zipWith (· * ·) (l.map (k * ·)) (l'.map (k' * ·))).sum
      = k' * k * (List.zipWith (· * ·) l l').sum := by
  induction l generalizing l' with
  | nil => simp
  | cons x l ih =>
    cases l' with
    | nil => simp
    | cons y l' =>
      simp only [List.map_cons, List.zipWith_cons_cons, List.sum_cons, ih]
      ring

/-- This calculator does not care about units. -/
theorem plain_homog (E : Env K) (h : E.mkLam = plain) : U.Homog E := by
  intro stack plyts props rhos d
  rw [h]
  unfold plain
  refine ite_units (by simp) rfl ?_
  have hl := U.len_ne
  refine congrArg Except.ok ?_
  simp only [UnitSys.lamObj, sum_units, zip_units, modulus_units]
  congr 1
  funext i j
  by_cases h1 : i < 3 ∧ j = i
  · obtain ⟨h1, rfl⟩ := h1
    simp only [UnitSys.abd, h1, and_self, if_true, UnitSys.area, UnitSys.line]
    field_simp
  · by_cases h2 : i < 3 ∧ j = i + 3 ∨ j < 3 ∧ i = j + 3
    · rw [if_neg h1, if_pos h2, UnitSys.abd, if_neg (by omega), if_pos (by omega), if_neg h1, if_pos h2,
        UnitSys.area]
      field_simp
    · by_cases h3 : i = j
      · rw [if_neg h1, if_neg h2, if_pos h3, UnitSys.abd, if_neg (by omega), if_neg (by omega), if_neg h1,
          if_neg h2, if_pos h3, UnitSys.area]
        field_simp
      · simp [UnitSys.abd, h1, h2, h3]

/-- The Bardell functions, tables of ones and a rule with one point. -/
def env : Env ℚ where
  S := bardellShape ℚ
  I := ⟨fun _ _ _ _ => 1, fun _ _ _ _ => 1, fun _ _ _ _ => 1, fun _ _ _ _ => 1, fun _ _ _ _ => 1,
    fun _ _ _ _ => 1⟩
  G := ⟨fun _ _ => 0, fun _ _ => 2⟩
  mkLam := plain
  shared := true

/-- A curved panel, 300 by 200, with four plies, loads and a flight condition, integrated over its first half. -/
def shell : Shell ℚ :=
  { C54.shell with
    pan := { (Witness.panel : Panel ℚ) with a := 300, b := 200, m := 2, n := 1, x1 := 0, x2 := 150 }
    r := some 1000, nx := 1, ny := 1, offset := 1 / 4, Nxx := -1, NxyCte := 2
    Mach := some 2, V := some 600000, rhoAir := some (12 / 10 ^ 13) }

theorem homog : (units ℚ).Homog env := plain_homog env rfl

theorem shell_clear : (units ℚ).Clear shell.pan :=
  clear (by norm_num [units]) _ (by simp [shell, Witness.panel]) (by simp [shell, Witness.panel])

/-- Without pre-stress. -/
def free : Shell ℚ := { shell with NxyCte := 0 }

/-- Amplitudes as an argument. -/
def withC : KArgs ℚ := { c := some (.vec 6 fun i => i + 1), NLgeom := true }

example : ∃ t : Coo ℚ × Shell ℚ, ((units ℚ).shell shell).calcKC env ((units ℚ).kargs {})
    = .ok (scale (units ℚ).line t.1, (units ℚ).shell t.2) := by
  obtain ⟨t, ht⟩ := exists_ok (x := shell.calcKC env {}) (by decide +kernel)
  exact ⟨t, by rw [kC homog shell_clear, ht]; rfl⟩

example : ∃ t : Coo ℚ × Shell ℚ, ((units ℚ).shell free).calcKT env ((units ℚ).kargs withC)
    = .ok (scale (units ℚ).line t.1, (units ℚ).shell t.2) := by
  obtain ⟨t, ht⟩ := exists_ok (x := free.calcKT env withC) (by decide +kernel)
  exact ⟨t, by rw [kT homog (s := free) shell_clear, ht]; rfl⟩

example : ∃ t : Coo ℚ × Shell ℚ, ((units ℚ).shell shell).calcKG env ((units ℚ).kargs withC)
    = .ok (scale (units ℚ).line t.1, (units ℚ).shell t.2) := by
  obtain ⟨t, ht⟩ := exists_ok (x := shell.calcKG env withC) (by decide +kernel)
  exact ⟨t, by rw [kG homog shell_clear, ht]; rfl⟩

/-- After a first evaluation. -/
def shell' : Shell ℚ := match shell.rebuild env with
  | .ok t => t
  | .error _ => shell

theorem shell'_clear : (units ℚ).Clear shell'.pan := shell_clear

example : ∃ t : Coo ℚ × Shell ℚ, ((units ℚ).shell shell').calcKM env .none 0 0 (some ⟨1, 1, fun _ _ => 1 / 1000 * 2⟩) none
    (some 1) (some 1) true = .ok (scale (units ℚ).mass t.1, (units ℚ).shell t.2) := by
  obtain ⟨t, ht⟩ := exists_ok (x := shell'.calcKM env .none 0 0 (some ⟨1, 1, fun _ _ => 2⟩) none (some 1)
    (some 1) true) (by decide +kernel)
  exact ⟨t, (kM shell'_clear .none 0 0 (some ⟨1, 1, fun _ _ => 2⟩) none (some 1) (some 1) true).trans
    (by rw [ht]; rfl)⟩

example : ∃ t : VecW ℚ × Shell ℚ, ((units ℚ).shell shell').calcFint env (.vec 6 fun i => 1 / 1000 * ((i : ℚ) + 1)) .none 0 none
    none none = .ok (t.1.map fun w => (w.1, (units ℚ).force * w.2), (units ℚ).shell t.2) := by
  obtain ⟨t, ht⟩ := exists_ok (x := shell'.calcFint env (.vec 6 fun i => (i : ℚ) + 1) .none 0 none none none)
    (by decide +kernel)
  exact ⟨t, (fint shell'_clear (.vec 6 fun i => (i : ℚ) + 1) .none 0 none none none).trans (by rw [ht]; rfl)⟩

example : ∃ t : Coo ℚ × Shell ℚ, ((units ℚ).shell shell').calcKA (fun _ => 2) env .none 0 0 true
    = .ok (scale (units ℚ).line t.1, (units ℚ).shell t.2) := by
  obtain ⟨t, ht⟩ := exists_ok (x := shell'.calcKA (fun _ => 2) env .none 0 0 true) (by decide +kernel)
  exact ⟨t, by rw [kA shell'_clear, ht]; rfl⟩

/-- A force of 5 at (100, 50) and a load `t` per length along `x = 300`. -/
def someLoads : Loads ℚ where
  pointLoads := [⟨100, 50, 1, 0, 5⟩]
  distrLoadsInc := [⟨some 300, none, some fun t => t, none, none⟩]

example : ∃ f : ℕ → ℚ, shellFext env.S env.G ((units ℚ).panel shell.panel) ((units ℚ).loads someLoads) 2 .none 0
    = .ok fun k => (units ℚ).force * f k := by
  obtain ⟨f, hf⟩ := exists_ok (x := shellFext env.S env.G shell.panel someLoads 2 .none 0) (by decide +kernel)
  exact ⟨f, by rw [fext, hf]; rfl⟩

example : ∃ t : List ℕ × List (ℕ → ℚ), shellStress env.S ((units ℚ).panel shell.panel) (fun i => 1 / 1000 * ((i : ℚ) + 1))
    (some ((units ℚ).abd fun i j => if i = j then 7 else 1)) none none none 3 2 4 true
      = .ok (t.1, t.2.map (units ℚ).stress) := by
  obtain ⟨t, ht⟩ := exists_ok (x := shellStress env.S shell.panel (fun i => (i : ℚ) + 1)
    (some fun i j => if i = j then 7 else 1) none none none 3 2 4 true) (by decide +kernel)
  exact ⟨t, (stress env.S shell.panel (fun i => (i : ℚ) + 1) (some fun i j => if i = j then 7 else 1) none none
    none 3 2 4 true).trans (by rw [ht]; rfl)⟩

example : ∃ L s', shell.calcKC env {} = .ok (L, s') := by
  obtain ⟨t, ht⟩ := exists_ok (x := shell.calcKC env {}) (by decide +kernel)
  exact ⟨t.1, t.2, ht⟩

section real

/-- The same over the real numbers. -/
noncomputable def envR : Env ℝ where
  S := bardellShape ℝ
  I := Tab.of (bardellShape ℝ) Mean.integral
  G := ⟨fun _ _ => 0, fun _ _ => 2⟩
  mkLam := plain
  shared := true

/-- A flat panel with one term under compression. -/
noncomputable def shellR : Shell ℝ :=
  { C28.shell with Nxx := -1, offset := 1 / 4 }

example : ∃ L G s1 s2, (units ℝ).Homog envR ∧ (units ℝ).Clear shellR.pan ∧
    shellR.calcKC envR {} = .ok (L, s1) ∧ shellR.calcKG envR {} = .ok (G, s2) := by
  obtain ⟨t, ht⟩ : ∃ t, shellR.rebuild envR = .ok t := ⟨_, rfl⟩
  obtain ⟨k, lam', F, hk, hl', -, h⟩ := C38.outcome_partial envR shellR t {} ht
    ⟨by simp, by simp, by simp, by simp [C38.sizeOf], by simp [C38.sizeOf]⟩ (by simp) (by simp)
  exact ⟨_, _, _, _, plain_homog envR rfl, by simp [UnitSys.Clear, shellR, C28.shell, C21.plate1], h, rfl⟩

end real

end Verif.C82
