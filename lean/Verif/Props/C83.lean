import Verif.Proofs.UnitsAssy
import Verif.Props.C82

/-!
# C83: results of assemblies do not depend on the system of units

Violated for the joint `SB_TSL`, whose penalty is a fixed number over the area of the panel: its matrix keeps
its numbers in all units (`tsl_fixed`, `tsl_violated`).  With all other joints the methods of `MultiDomain`
and the ready-made assemblies and analyses give converted results for converted inputs, with the same
failures.
-/

set_option linter.unusedSectionVars false

namespace Verif.C83

open Model Spec

variable {K : Type} [Field K] [LinearOrder K] {U : UnitSys K} {E : Env K} {M : Multi K}

/-- The list of connections that a call reads has no joint `SB_TSL`. -/
def NoTsl (M : Multi K) (conn : Option (List (ConnD K))) : Prop :=
  ∀ l, (conn = some l ∨ conn = none ∧ M.conn = some l) → ∀ d ∈ l, d.func ≠ "SB_TSL"

theorem NoTsl.used {conn : Option (List (ConnD K))} (h : NoTsl M conn) :
    ∀ d ∈ Model.used M conn, d.func ≠ "SB_TSL" := by
  intro d hd
  unfold Model.used at hd
  cases conn with
  | some l => exact h l (.inl rfl) d hd
  | none =>
    rcases e : M.conn with _ | l
    · rw [e] at hd; simp at hd
    · rw [e] at hd; exact h l (.inr ⟨rfl, e⟩) d hd

/-! ## Matrices -/

/-- Springs along points and lines that hold panels. -/
theorem springs (s : Shell K) (l : LamObj K) :
    kuvwPoint (penOf (U.shell s) (U.lamObj l)) = ((U.line * (kuvwPoint (penOf s l)).1,
      U.line * (kuvwPoint (penOf s l)).2.1, U.line * (kuvwPoint (penOf s l)).2.2) : K × K × K) ∧
    kuvwLineX (penOf (U.shell s) (U.lamObj l)) = ((U.area * (kuvwLineX (penOf s l)).1,
      U.area * (kuvwLineX (penOf s l)).2.1, U.area * (kuvwLineX (penOf s l)).2.2) : K × K × K) ∧
    kuvwLineY (penOf (U.shell s) (U.lamObj l)) = ((U.area * (kuvwLineY (penOf s l)).1,
      U.area * (kuvwLineY (penOf s l)).2.1, U.area * (kuvwLineY (penOf s l)).2.2) : K × K × K) := by
  have hd : ∀ x y : K, U.line * x / (U.len * y) = U.area * (x / y) := fun x y => by
    rw [mul_div_mul_comm, UnitSys.area, UnitSys.line, div_div, ← pow_two]
  refine ⟨?_, ?_, ?_⟩ <;>
    simp [kuvwPoint, kuvwLineX, kuvwLineY, penOf, UnitSys.lamObj, UnitSys.abd, UnitSys.shell, UnitSys.panel,
      hd]

/-- The matrices of such springs. -/
theorem spring_matrices (S : Shape K) (I : Tab K) (P : Panel K) (ku kv kw x y : K) (row0 col0 : ℕ) :
    fkCpd S (U.panel P) (U.line * ku) (U.line * kv) (U.line * kw) (U.len * x) (U.len * y) row0 col0
      = scale U.line (fkCpd S P ku kv kw x y row0 col0) ∧
    fkCldXcte S I (U.panel P) (U.area * ku) (U.area * kv) (U.area * kw) (U.len * x) row0 col0
      = scale U.line (fkCldXcte S I P ku kv kw x row0 col0) ∧
    fkCldYcte S I (U.panel P) (U.area * ku) (U.area * kv) (U.area * kw) (U.len * y) row0 col0
      = scale U.line (fkCldYcte S I P ku kv kw y row0 col0) :=
  ⟨fkCpd_units U S P ku kv kw x y row0 col0, fkCldXcte_units U S I P ku kv kw x row0 col0,
    fkCldYcte_units U S I P ku kv kw y row0 col0⟩

/-- Geometric stiffness. -/
theorem kG (hE : U.Homog E) (hM : ∀ p, U.Clear (M.shells p).pan) (c : Option (CArg K)) (finalize : Bool) :
    (U.multi M).calcKG E (c.map U.amps) finalize
      = (M.calcKG E c finalize).map fun t => (scale U.line t.1, U.multi t.2) :=
  multi_calcKG_units hE M hM c finalize

/-- Mass. -/
theorem kM (hM : ∀ p, U.Clear (M.shells p).pan) (finalize : Bool) :
    (U.multi M).calcKM E finalize = (M.calcKM E finalize).map fun t => (scale U.mass t.1, U.multi t.2) :=
  multi_calcKM_units M hM finalize

/-- External forces. -/
theorem fext (hE : U.Homog E) (loads : ℕ → Loads K) (inc : K) :
    (U.multi M).calcFext E (fun p => U.loads (loads p)) inc
      = (M.calcFext E loads inc).map fun t => (fun k => U.force * t.1 k, U.multi t.2) := by
  unfold Multi.calcFext
  rw [getSize_units, ← fextLoop_units hE]
  simp only [mul_zero]
  rfl

/-! ## Fields -/

/-- Displacements, strains and stresses on the grids. -/
theorem fields (S : Shape K) (M : Multi K) (groupOf : ℕ → String) (c : ℕ → K) (group : String)
    (gridx gridy cores : ℕ) (NL : Bool) :
    (U.multi M).uvw S groupOf (fun i => U.len * c i) group gridx gridy cores
      = (M.uvw S groupOf c group gridx gridy cores).map (List.map (U.sampled (List.map U.uvw))) ∧
    (U.multi M).strain S groupOf (fun i => U.len * c i) group gridx gridy cores NL
      = (M.strain S groupOf c group gridx gridy cores NL).map
          (List.map (U.sampled (List.map U.strain))) ∧
    (U.multi M).stress S groupOf (fun i => U.len * c i) group gridx gridy cores NL
      = (M.stress S groupOf c group gridx gridy cores NL).map
          (List.map (U.sampled (List.map U.stress))) :=
  ⟨multi_uvw_units .., multi_strain_units .., multi_stress_units ..⟩

/-- Displacements, strains and stresses at given points. -/
theorem points (S : Shape K) (M : Multi K) (groupOf : ℕ → String) (c : ℕ → K) (group : String)
    (xg yg : Option (List K)) (cores : ℕ) (NL : Bool) :
    (U.multi M).uvwGauss S groupOf (fun i => U.len * c i) group (xg.map (List.map (U.len * ·)))
        (yg.map (List.map (U.len * ·))) cores
      = (M.uvwGauss S groupOf c group xg yg cores).map (List.map (U.sampled (List.map U.uvw))) ∧
    (U.multi M).strainGauss S groupOf (fun i => U.len * c i) group (xg.map (List.map (U.len * ·)))
        (yg.map (List.map (U.len * ·))) cores NL
      = (M.strainGauss S groupOf c group xg yg cores NL).map
          (List.map (U.sampled (List.map U.strain))) ∧
    (U.multi M).stressGauss S groupOf (fun i => U.len * c i) group (xg.map (List.map (U.len * ·)))
        (yg.map (List.map (U.len * ·))) cores NL
      = (M.stressGauss S groupOf c group xg yg cores NL).map
          (List.map (U.sampled (List.map U.stress))) :=
  ⟨uvwGauss_units .., strainGauss_units .., stressGauss_units ..⟩

/-! ## Joints -/

variable [IsStrictOrderedRing K]

/-- The penalties of joints: force per area and force, force per volume for bonded faces. -/
theorem penalties (hU : 0 < U.len) (s1 s2 : Shell K) (l1 l2 : LamObj K) (ct : String) :
    calcKtKr (penOf (U.shell s1) (U.lamObj l1)) (penOf (U.shell s2) (U.lamObj l2)) ct
      = (calcKtKr (penOf s1 l1) (penOf s2 l2) ct).map fun t =>
        ((if lower ct = "bot-top" then U.vol else U.area) * t.1, t.2.map (U.force * ·)) :=
  calcKtKr_units hU s1 s2 l1 l2 ct

/-- The matrix of the joints, with the list as it is left behind.  Missing: joints `SB_TSL`. -/
theorem conn_partial (hE : U.Homog E) (hU : 0 < U.len) (conn : Option (List (ConnD K)))
    (hl : NoTsl M conn) (finalize : Bool) :
    (U.multi M).getKCconn E (conn.map (List.map U.connD)) finalize
      = (M.getKCconn E conn finalize).map fun t =>
        (scale U.line t.1, t.2.1.map (List.map U.connD), U.multi t.2.2) :=
  getKCconn_units hE hU M conn hl.used finalize

/-- Stiffness.  Missing: joints `SB_TSL`. -/
theorem kC_partial (hE : U.Homog E) (hU : 0 < U.len) (hM : ∀ p, U.Clear (M.shells p).pan)
    (conn : Option (List (ConnD K))) (hl : NoTsl M conn) (c : Option (CArg K)) (finalize : Bool) :
    (U.multi M).calcKC E (conn.map (List.map U.connD)) (c.map U.amps) finalize
      = (M.calcKC E conn c finalize).map fun t => (scale U.line t.1, U.multi t.2) :=
  multi_calcKC_units hE hU M hM conn hl.used c finalize

/-- Tangent stiffness.  Missing: joints `SB_TSL`. -/
theorem kT_partial (hE : U.Homog E) (hU : 0 < U.len) (hM : ∀ p, U.Clear (M.shells p).pan)
    (hl : NoTsl M none) (c : Option (CArg K)) (finalize : Bool) :
    (U.multi M).calcKT E (c.map U.amps) finalize
      = (M.calcKT E c finalize).map fun t => (scale U.line t.1, U.multi t.2) :=
  multi_calcKT_units hE hU M hM hl.used c finalize

/-- Internal forces.  Missing: joints `SB_TSL`. -/
theorem fint_partial (hE : U.Homog E) (hU : 0 < U.len) (hM : ∀ p, U.Clear (M.shells p).pan)
    (hl : NoTsl M none) (c : CArg K) :
    (U.multi M).calcFint E (U.amps c)
      = (M.calcFint E c).map fun t => (U.forces t.1, U.multi t.2) :=
  multi_calcFint_units hE hU M hM hl.used c

/-- The joint `SB_TSL` has the same numbers in all units. -/
theorem tsl_fixed (M : Multi K) (size A B : ℕ) (d : ConnD K) (hd : d.func = "SB_TSL") :
    connOne E (U.multi M) size A B (U.connD d)
      = (connOne E M size A B d).map fun t => (t.1, U.multi t.2) := by
  have hl := U.len_ne
  let V : UnitSys K := ⟨U.len, U.len, U.time, hl, hl, U.time_ne⟩
  have hline : V.line = 1 := div_self hl
  have hvol : ∀ a b : K, 10000 / (U.len * a * (U.len * b)) = V.vol * (10000 / (a * b)) := by
    intro a b
    rw [show U.len * a * (U.len * b) = U.len ^ 2 * (a * b) by ring,
      show V.vol = 1 / U.len ^ 2 by simp only [UnitSys.vol, V]; field_simp, div_mul_div_comm, one_mul]
  have hs : ∀ (I : Tab K) (P Q : Panel K) (k t : K) (i j : ℕ),
      connSB I (U.panel P) (U.panel Q) (V.vol * k) (U.len * t) i j = connSB I P Q k t i j := by
    intro I P Q k t i j
    have h := connSB_units V I P Q k t i j
    rw [hline] at h
    rw [show V.panel P = U.panel P from rfl, show V.panel Q = U.panel Q from rfl,
      show V.len = U.len from rfl] at h
    rw [h]
    simp [scale]
  have hp : ∀ p, ((U.multi M).shells p).panel = U.panel (M.shells p).panel := fun p => panel_units _
  unfold connOne
  rw [show (U.multi M).place = M.place from rfl]
  cases M.place A with
  | none => rfl
  | some qA =>
  cases M.place B with
  | none => rfl
  | some qB =>
  refine bind_same (x := Except.ok (qA, qB)) fun q => ?_
  have hd' : (U.connD d).func = "SB_TSL" := hd
  simp only [hd, hd']
  norm_num
  refine bind_same fun tsl => ?_
  have ha : ∀ p, ((U.multi M).shells p).pan.a = U.len * (M.shells p).pan.a := fun p => rfl
  have hb : ∀ p, ((U.multi M).shells p).pan.b = U.len * (M.shells p).pan.b := fun p => rfl
  simp only [ha, hb, hvol, hp]
  refine ite_units ?_ rfl ?_
  · simp [hl]
  · refine ite_units Iff.rfl ?_ rfl
    refine bind_units (thick_units _) fun tA => bind_units (thick_units _) fun tB => ?_
    simp only [mul_div_assoc, ← mul_add, hs]
    exact bind_same fun L => rfl

/-! ## Ready-made assemblies -/

/-- Cylinders: the same panels, joints and, under constant or static compression, matrices and forces. -/
theorem cylinder (hE : U.Homog E) (hU : 0 < U.len) (pi : K) (q : CylArgs K) (Nxxs : List K)
    (Nxx SPLA : K) :
    createCylinder pi (U.cylArgs q) = (createCylinder pi q).map U.assy ∧
    cylinderNxxCte E pi (U.cylArgs q) (Nxxs.map (U.line * ·))
      = (cylinderNxxCte E pi q Nxxs).map (fun t => (U.assy t.1, scale U.line t.2.1, scale U.line t.2.2)) ∧
    cylinderFromStatic E pi (U.cylArgs q) (Nxxs.map (U.line * ·))
      = (cylinderFromStatic E pi q Nxxs).map
        (fun t => (U.assy t.1, fun k => U.force * t.2.1 k, scale U.line t.2.2)) ∧
    cylinderSpla pi (U.cylArgs q) (U.line * Nxx) (U.force * SPLA)
      = (cylinderSpla pi q Nxx SPLA).map U.assy :=
  ⟨createCylinder_units pi q, cylinderNxxCte_units hE hU pi q Nxxs,
    cylinderFromStatic_units hE hU pi q Nxxs, cylinderSpla_units pi q Nxx SPLA⟩

/-- Cylinders with blades. -/
theorem blades (hE : U.Homog E) (hU : 0 < U.len) (pi : K) (q : CylArgs K) (s : List (List K))
    (w a b : List K) :
    createCylinderBlades pi (U.cylArgs q) s (w.map (U.len * ·))
      = (createCylinderBlades pi q s w).map U.assy ∧
    bladesNxxCte E pi (U.cylArgs q) s (w.map (U.len * ·)) (a.map (U.line * ·)) (b.map (U.line * ·))
      = (bladesNxxCte E pi q s w a b).map
        (fun t => (U.assy t.1, scale U.line t.2.1, scale U.line t.2.2)) ∧
    bladesFromStatic E pi (U.cylArgs q) s (w.map (U.len * ·)) (a.map (U.line * ·)) (b.map (U.line * ·))
      = (bladesFromStatic E pi q s w a b).map
        (fun t => (U.assy t.1, fun k => U.force * t.2.1 k, scale U.line t.2.2)) :=
  ⟨createBlades_units pi q s w, bladesNxxCte_units hE hU pi q s w a b,
    bladesFromStatic_units hE hU pi q s w a b⟩

/-- Panels with a T stiffener: buckling and vibration. -/
theorem tstiff (hE : U.Homog E) (hU : 0 < U.len) {solve : Coo K → (ℕ → K) → Except Fail (ℕ → K)}
    (hs : U.Linear solve) (q : TArgs K) (b : Bool) :
    tstiffCompression E solve (U.tArgs q) b = (tstiffCompression E solve q b).map (fun t =>
      (U.assy t.1, scale U.line t.2.1,
        t.2.2.1.map fun e => (fun k => U.force * e.1 k, fun k => U.len * e.2 k), scale U.line t.2.2.2)) ∧
    tstiffFreq E (U.tArgs q)
      = (tstiffFreq E q).map (fun t => (U.assy t.1, scale U.line t.2.1, scale U.mass t.2.2)) :=
  ⟨tstiffCompression_units hE hU hs q b, tstiffFreq_units hE hU q⟩

/-- Panels with a T stiffener in a flow. -/
theorem flutter (hE : U.Homog E) (hU : 0 < U.len) {solve : Coo K → (ℕ → K) → Except Fail (ℕ → K)}
    (hs : U.Linear solve) (root : K → K) (q : TArgs K) (b : Bool) :
    tstiffFlutter root E solve (U.tArgs q) b = (tstiffFlutter root E solve q b).map (fun t =>
      (U.assy t.1, scale U.line t.2.1,
        t.2.2.1.map fun e => (fun k => U.force * e.1 k, fun k => U.len * e.2 k),
        scale U.mass t.2.2.2.1, scale U.line t.2.2.2.2.1, scale U.line t.2.2.2.2.2)) :=
  tstiffFlutter_units hE hU hs root q b

/-! ## Solutions -/

/-- Solutions under loads are the converted ones. -/
theorem static (L : Coo K) (t : Finset ℕ) (c f : ℕ → K) :
    (∀ k ∈ t, ∑ l ∈ t, Coo.entry (scale U.line L) k l * (U.len * c l) = U.force * f k) ↔
      ∀ k ∈ t, ∑ l ∈ t, Coo.entry L k l * c l = f k := by
  refine forall₂_congr fun k _ => ?_
  have e : ∑ l ∈ t, Coo.entry (scale U.line L) k l * (U.len * c l)
      = U.force * ∑ l ∈ t, Coo.entry L k l * c l := by
    rw [Finset.mul_sum]
    refine Finset.sum_congr rfl fun l _ => ?_
    have := U.len_ne
    rw [C82.entry_scale, UnitSys.line]
    field_simp
  rw [e]
  exact mul_right_inj' U.force_ne

section real

variable {U : UnitSys ℝ}

/-- Buckling multipliers are the same numbers. -/
theorem buckling (L G : Coo ℝ) (t : Finset ℕ) (p : ℂ) :
    Critical t (scale U.line L) (scale U.line G) p ↔ Critical t L G p := by
  refine exists_congr fun z => and_congr_right fun _ => forall₂_congr fun k _ => ?_
  have hne : (U.line : ℂ) ≠ 0 := Complex.ofReal_ne_zero.2 (div_ne_zero U.force_ne U.len_ne)
  have e : ∀ L : Coo ℝ, ∑ l ∈ t, ((Coo.entry (scale U.line L) k l : ℝ) : ℂ) * z l
      = U.line * ∑ l ∈ t, ((Coo.entry L k l : ℝ) : ℂ) * z l := fun L => by
    rw [Finset.mul_sum]
    refine Finset.sum_congr rfl fun l _ => ?_
    rw [C82.entry_scale, Complex.ofReal_mul, mul_assoc]
  rw [e, e, mul_left_comm, ← mul_add, mul_eq_zero, or_iff_right hne]

/-- Frequencies are inverse times. -/
theorem frequency (L M : Coo ℝ) (t : Finset ℕ) (ω : ℂ) :
    Eigen t (scale U.line L) (scale U.mass M) ((ω / U.time) ^ 2) ↔ Eigen t L M (ω ^ 2) := by
  refine exists_congr fun z => and_congr_right fun _ => forall₂_congr fun k _ => ?_
  have hne : (U.line : ℂ) ≠ 0 := Complex.ofReal_ne_zero.2 (div_ne_zero U.force_ne U.len_ne)
  have ht : (U.time : ℂ) ≠ 0 := Complex.ofReal_ne_zero.2 U.time_ne
  have e : ∀ (κ : ℝ) (L : Coo ℝ), ∑ l ∈ t, ((Coo.entry (scale κ L) k l : ℝ) : ℂ) * z l
      = κ * ∑ l ∈ t, ((Coo.entry L k l : ℝ) : ℂ) * z l := fun κ L => by
    rw [Finset.mul_sum]
    refine Finset.sum_congr rfl fun l _ => ?_
    rw [C82.entry_scale, Complex.ofReal_mul, mul_assoc]
  have hm : (U.mass : ℂ) = U.line * (U.time : ℂ) ^ 2 := by
    rw [UnitSys.mass, UnitSys.line]
    push_cast
    ring
  rw [e, e, hm, show (ω / U.time) ^ 2 * (U.line * (U.time : ℂ) ^ 2
      * ∑ l ∈ t, ((Coo.entry M k l : ℝ) : ℂ) * z l)
    = U.line * (ω ^ 2 * ∑ l ∈ t, ((Coo.entry M k l : ℝ) : ℂ) * z l) by field_simp]
  exact mul_right_inj' hne

end real

/-! ## Concrete cases -/

open C82 (units env homog plain)

/-- Millimetres to metres, newtons unchanged. -/
def lengths : UnitSys ℚ where
  len := 1 / 1000
  force := 1
  time := 1
  len_ne := by norm_num
  force_ne := by norm_num
  time_ne := by norm_num

/-- Panels with one term. -/
def shells : ℕ → Shell ℚ := fun _ =>
  { C82.free with pan := { C82.free.pan with m := 1, n := 1, x1 := -1 } }

/-- Two panels. -/
def two : Multi ℚ := Multi.init shells (fun _ => none) [0, 1] none

theorem two_clear (U : UnitSys ℚ) (p : ℕ) : U.Clear (two.shells p).pan := by
  simp [UnitSys.Clear, two, Multi.init, shells, C82.free, C82.shell, Witness.panel]

/-- Two panels that have been built before. -/
def ready : Multi ℚ := Multi.init (fun _ => C82.shell') (fun _ => none) [0, 1] none

theorem ready_clear (U : UnitSys ℚ) (h : 0 < U.len) (p : ℕ) : U.Clear (ready.shells p).pan :=
  show U.Clear C82.shell.pan from
    C82.clear h _ (by simp [C82.shell, Witness.panel]) (by simp [C82.shell, Witness.panel])

/-- Their faces joined by a law of traction and separation. -/
def tsl : ConnD ℚ := { p1 := 0, p2 := 1, func := "SB_TSL", tsl := some "linear" }

/-- Ends joined, and faces bonded, the second with its panels in reverse. -/
def joints : List (ConnD ℚ) :=
  [{ p1 := 0, p2 := 1, func := "SSxcte", xcte1 := some 300, xcte2 := some 0 },
    { p1 := 1, p2 := 0, func := "SB" },
    { p1 := 0, p2 := 1, func := "BFycte", ycte1 := some 100, ycte2 := some 0 }]

theorem joints_noTsl (M : Multi ℚ) : NoTsl M (some joints) := by
  rintro l (h | ⟨h, -⟩) d hd
  · cases h
    simp only [joints, List.mem_cons, List.not_mem_nil, or_false] at hd
    rcases hd with rfl | rfl | rfl <;> simp
  · cases h

/-- The largest number of a matrix, zero if there is none. -/
def top (r : Except Fail (Coo ℚ × Option (List (ConnD ℚ)) × Multi ℚ)) : ℚ :=
  match r with
  | .ok (L, _, _) => (L.map fun t => t.val).foldl max 0
  | .error _ => 0

/-- The claim fails: with newtons and metres instead of newtons and millimetres, the stiffness of the joint
`SB_TSL` is not multiplied by 1000. -/
theorem tsl_violated :
    ∃ (U : UnitSys ℚ) (E : Env ℚ) (M : Multi ℚ) (d : ConnD ℚ), U.Homog E ∧ 0 < U.len ∧
      (∀ p, U.Clear (M.shells p).pan) ∧ (∃ t, M.getKCconn E (some [d]) = .ok t) ∧
      (∃ t, (U.multi M).getKCconn E (some [U.connD d]) = .ok t) ∧
      top ((U.multi M).getKCconn E (some [U.connD d])) ≠ U.line * top (M.getKCconn E (some [d])) := by
  refine ⟨lengths, env, ready, tsl, C82.plain_homog env rfl, by norm_num [lengths],
    ready_clear _ (by norm_num [lengths]),
    exists_ok (by decide +kernel), exists_ok (by decide +kernel), by decide +kernel⟩

example : ∃ t : Coo ℚ × Multi ℚ, ((units ℚ).multi two).calcKC env (some (joints.map (units ℚ).connD)) none
    = .ok (scale (units ℚ).line t.1, (units ℚ).multi t.2) := by
  obtain ⟨t, ht⟩ := exists_ok (x := two.calcKC env (some joints) none) (by decide +kernel)
  exact ⟨t, (kC_partial homog (by norm_num [units]) (two_clear _) (some joints) (joints_noTsl _) none
    true).trans (by rw [ht]; rfl)⟩

/-- After a first evaluation. -/
def built : Multi ℚ := match two.calcKC env (some joints) none with
  | .ok (_, M) => { M with conn := some joints }
  | .error _ => two

theorem built_clear : ∀ p, (units ℚ).Clear (built.shells p).pan := by
  unfold built
  split
  · rename_i t M h
    exact (calcKC_pans h).clear (two_clear _)
  · exact two_clear _

example : ∃ t : VecW ℚ × Multi ℚ,
    ((units ℚ).multi built).calcFint env (.vec 6 fun i => 1 / 1000 * ((i : ℚ) + 1))
    = .ok ((units ℚ).forces t.1, (units ℚ).multi t.2) := by
  obtain ⟨t, ht⟩ := exists_ok (x := built.calcFint env (.vec 6 fun i => (i : ℚ) + 1)) (by decide +kernel)
  refine ⟨t, (fint_partial homog (by norm_num [units]) built_clear ?_ (.vec 6 fun i => (i : ℚ) + 1)).trans
    (by rw [ht]; rfl)⟩
  rintro l (h | ⟨-, h⟩) d hd
  · cases h
  · have : built.conn = some joints := by
      unfold built
      obtain ⟨t, ht⟩ := exists_ok (x := two.calcKC env (some joints) none) (by decide +kernel)
      rw [ht]
    rw [this] at h
    exact joints_noTsl built l (.inl h) d hd

example : ∃ t : Coo ℚ × Multi ℚ,
    ((units ℚ).multi built).calcKG env (some (.vec 6 fun i => 1 / 1000 * ((i : ℚ) + 1)))
    = .ok (scale (units ℚ).line t.1, (units ℚ).multi t.2) := by
  obtain ⟨t, ht⟩ := exists_ok (x := built.calcKG env (some (.vec 6 fun i => (i : ℚ) + 1)))
    (by decide +kernel)
  exact ⟨t, (kG homog built_clear (some (.vec 6 fun i => (i : ℚ) + 1)) true).trans (by rw [ht]; rfl)⟩

example : ∃ t : Coo ℚ × Multi ℚ, ((units ℚ).multi built).calcKM env
    = .ok (scale (units ℚ).mass t.1, (units ℚ).multi t.2) := by
  obtain ⟨t, ht⟩ := exists_ok (x := built.calcKM env) (by decide +kernel)
  exact ⟨t, (kM built_clear true).trans (by rw [ht]; rfl)⟩

/-- A cylinder of two panels with one term. -/
def cyl : CylArgs ℚ where
  height := 500
  r := 200
  stack := [0, 90]
  plyt := 1 / 8
  laminaprop := [70000, 70000, 3 / 10]
  npanels := 2
  m := 1
  n := 1

example : ∃ t : Assy ℚ × Coo ℚ × Coo ℚ, cylinderNxxCte env (22 / 7) ((units ℚ).cylArgs cyl) [-1, -2]
    = .ok ((units ℚ).assy t.1, scale (units ℚ).line t.2.1, scale (units ℚ).line t.2.2) := by
  obtain ⟨t, ht⟩ := exists_ok (x := cylinderNxxCte env (22 / 7) cyl [-1, -2]) (by decide +kernel)
  have h := (cylinder homog (by norm_num [units]) (22 / 7) cyl [-1, -2] 0 0).2.1
  rw [ht] at h
  refine ⟨t, Eq.trans ?_ h⟩
  norm_num [units, UnitSys.line]

example : ∃ t : Assy ℚ × (ℕ → ℚ) × Coo ℚ,
    bladesFromStatic env (22 / 7) ((units ℚ).cylArgs cyl) [[0], [45, 0]]
    [1 / 50, 1 / 40] [-1, -2] [-3, -4]
    = .ok ((units ℚ).assy t.1, fun k => (units ℚ).force * t.2.1 k, scale (units ℚ).line t.2.2) := by
  obtain ⟨t, ht⟩ := exists_ok (x := bladesFromStatic env (22 / 7) cyl [[0], [45, 0]] [20, 25] [-1, -2] [-3, -4])
    (by decide +kernel)
  have h := (blades homog (by norm_num [units]) (22 / 7) cyl [[0], [45, 0]] [20, 25] [-1, -2] [-3, -4]).2.2
  rw [ht] at h
  refine ⟨t, Eq.trans ?_ h⟩
  norm_num [units, UnitSys.line]

/-- Division by the diagonal. -/
def jacobi (L : Coo ℚ) (f : ℕ → ℚ) : Except Fail (ℕ → ℚ) := .ok fun k => f k / Coo.entry L k k

theorem jacobi_linear (U : UnitSys ℚ) : U.Linear jacobi := by
  intro L f
  refine congrArg Except.ok (funext fun k => ?_)
  rw [C82.entry_scale, mul_div_mul_comm, UnitSys.line]
  have h1 := U.len_ne
  have h2 := U.force_ne
  congr 1
  field_simp

/-- A panel with a T stiffener, a defect and a flow. -/
def tee : TArgs ℚ where
  a := 600
  b := 400
  ys := 200
  bb := 50
  bf := 40
  defectA := 1 / 4
  rho := 27 / 10 ^ 10
  plyt := 1 / 8
  laminaprop := [70000, 70000, 3 / 10]
  stackSkin := [0, 90]
  stackBase := [0]
  stackFlange := [45]
  NxxSkin := -1
  NxxBase := -2
  NxxFlange := -3
  m := 1
  n := 1
  nx := some 1
  ny := some 1
  nxb := some 1
  nyb := some 1
  nxf := some 1
  nyf := some 1
  airSpeed := some 600000
  rhoAir := some (12 / 10 ^ 13)
  Mach := some 2

example : ∃ t : Assy ℚ × Coo ℚ × Option ((ℕ → ℚ) × (ℕ → ℚ)) × Coo ℚ × Coo ℚ × Coo ℚ,
    tstiffFlutter (fun _ => 2) env jacobi ((units ℚ).tArgs tee) false
      = .ok ((units ℚ).assy t.1, scale (units ℚ).line t.2.1,
        t.2.2.1.map fun e => (fun k => (units ℚ).force * e.1 k, fun k => (units ℚ).len * e.2 k),
        scale (units ℚ).mass t.2.2.2.1, scale (units ℚ).line t.2.2.2.2.1,
        scale (units ℚ).line t.2.2.2.2.2) := by
  obtain ⟨t, ht⟩ := exists_ok (x := tstiffFlutter (fun _ => 2) env jacobi tee false) (by decide +kernel)
  exact ⟨t, by rw [flutter homog (by norm_num [units]) (jacobi_linear _), ht]; rfl⟩

end Verif.C83
