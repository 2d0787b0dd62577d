import Verif.Proofs.UnitsBayOut
import Verif.Props.C83
import Verif.Props.C46
import Verif.Props.C81Ready

/-!
# C86: results of stiffened bays do not depend on the system of units

Violated in two places.  The torsion term of a flange as a beam is `Jxx`, a second moment of area, where a
stiffness is needed: no shear modulus occurs, so the term keeps its numbers when the unit of force changes
(`torsion_fixed`, `torsion_violated`).  And `isclose` compares positions with an absolute tolerance of `1e-8`
whatever the unit of length (`close_violated`).  Without flanges as beams, and when `isclose` gives the same
answers, all methods of the bay give converted results for converted inputs, with the same failures.
-/

set_option linter.unusedSectionVars false

namespace Verif.C86

open Model Spec

variable {K : Type} [Field K] [LinearOrder K] {U : UnitSys K} {E : BayEnv K} {B : Bay K}

/-! ## Matrices -/

/-- Rebuilding. -/
theorem rebuild (hE : U.HomogBay E) (hB : U.ClearBay B) : (U.bay B).rebuild E = (B.rebuild E).map U.bay :=
  rebuildBay_units hE hB

/-- Number of unknowns. -/
theorem size : (U.bay B).getSize = B.getSize := sizeBay_units B

/-- Stiffness; with flanges as beams only in systems where their torsion term happens to come out right. -/
theorem kC_partial [IsStrictOrderedRing K] (hE : U.HomogBay E) (hU : 0 < U.len) (hB : U.ClearBay B)
    (hf : U.force = U.len ^ 3 ∨ ∀ s ∈ B.blade1, s.fstack = none) :
    (U.bay B).calcKC E = (B.calcKC E).map fun t => (scale U.line t.1, U.bay t.2) :=
  calcKCBay_units hE hU hB hf

/-- Geometric stiffness. -/
theorem kG (hE : U.HomogBay E) (hB : U.ClearBay B) (c : Option (CArg K)) :
    (U.bay B).calcKG E (c.map U.amps) = (B.calcKG E c).map fun t => (scale U.line t.1, U.bay t.2) :=
  calcKGBay_units hE hB c

/-- Mass. -/
theorem kM (hE : U.HomogBay E) (hB : U.ClearBay B) :
    (U.bay B).calcKM E = (B.calcKM E).map fun t => (scale U.mass t.1, U.bay t.2) :=
  calcKMBay_units hE hB

/-- Aerodynamic matrix. -/
theorem kA {B : AeroBay K} (hE : U.HomogBay E) (hB : U.ClearBay B.toBay) (root : K → K) :
    (U.aeroBay B).calcKA root E
      = (B.calcKA root E).map fun t => (scale U.line t.1, t.2.1, U.aeroBay t.2.2) :=
  calcKABay_units hE hB root

/-- The matrix of a flange as a beam is the one that belongs to another torsion constant. -/
theorem torsion_fixed (size row0 col0 : ℕ) (s : Blade1 K) :
    (U.blade1 s).partC E (U.bay B) size row0 col0
      = (Blade1.partC E B size row0 col0 { s with Jxx := U.len ^ 3 / U.force * s.Jxx }).map
        (scale U.line) :=
  partC_units s

/-! ## Putting a bay together -/

/-- A panel of the skin. -/
theorem panel {y1 y2 : K} (h1 : U.Off y1) (h2 : U.Off y2) (stack : Option (List K))
    (plyts : Option (List K)) (plyt : Option K) (laminaprops : Option (List (List K)))
    (laminaprop : Option (List K)) (model : Option String) (rho : Option K) :
    (U.bay B).addPanel (U.len * y1) (U.len * y2) stack (plyts.map (List.map (U.len * ·)))
      (plyt.map (U.len * ·)) (laminaprops.map (List.map U.lamina)) (laminaprop.map U.lamina) model
      (rho.map (U.rho * ·))
      = U.bay (B.addPanel y1 y2 stack plyts plyt laminaprops laminaprop model rho) :=
  addPanel_units h1 h2 ..

/-- A stiffener with a flange as a beam. -/
theorem blade1_partial (hE : U.HomogBay E) {ys : K} (hys : SameClose U B ys)
    (hl : ∀ p ∈ B.panels, p.pan.y1 ≠ -1 ∧ p.pan.y2 ≠ -1) (rho bb bf : Option K)
    (hbb : ∀ x, bb = some x → U.Off (ys - x / 2) ∧ U.Off (ys + x / 2)) (base flange : LamArgs K) :
    (U.bay B).addBlade1 E (U.len * ys) (rho.map (U.rho * ·)) (bb.map (U.len * ·)) (bf.map (U.len * ·))
      (U.lamArgs base) (U.lamArgs flange)
      = (B.addBlade1 E ys rho bb bf base flange).map U.bay :=
  addBlade1_units hE hys hl rho bb bf hbb base flange

/-- A stiffener with a flange as a panel. -/
theorem blade2_partial (hE : U.HomogBay E) {ys : K} (hys : SameClose U B ys)
    (hl : ∀ p ∈ B.panels, p.pan.y1 ≠ -1 ∧ p.pan.y2 ≠ -1) (rho bb bf : Option K)
    (hbb : ∀ x, bb = some x → U.Off (ys - x / 2) ∧ U.Off (ys + x / 2)) (base flange : LamArgs K)
    (mf nf : ℕ) :
    (U.bay B).addBlade2 E (U.len * ys) (rho.map (U.rho * ·)) (bb.map (U.len * ·)) (bf.map (U.len * ·))
      (U.lamArgs base) (U.lamArgs flange) mf nf
      = (B.addBlade2 E ys rho bb bf base flange mf nf).map U.bay :=
  addBlade2_units hE hys hl rho bb bf hbb base flange mf nf

/-- Where `isclose` is not misled: positions that agree exactly, or differ by much more than the tolerances in
both systems. -/
theorem close [IsStrictOrderedRing K] (hU : 0 < U.len) {x y : K}
    (h : x = y ∨ 1 / 100000000 + 1 / 100000 * |y| < |x - y| ∧
      1 / 100000000 + 1 / 100000 * (U.len * |y|) < U.len * |x - y|) :
    Near (U.len * x) (U.len * y) ↔ Near x y := by
  have e : ∀ z : K, |U.len * z| = U.len * |z| := fun z => by rw [abs_mul, abs_of_pos hU]
  unfold Near
  rw [← mul_sub, e, e]
  rcases h with rfl | ⟨h1, h2⟩
  · have hp : (0 : K) ≤ 1 / 100000000 + 1 / 100000 * |x| := by positivity
    have hq : (0 : K) ≤ 1 / 100000000 + 1 / 100000 * (U.len * |x|) := by positivity
    rw [sub_self, abs_zero, mul_zero]
    exact iff_of_true hq hp
  · exact iff_of_false (not_le.2 h2) (not_le.2 h1)

/-! ## Displacements and solutions -/

/-- Displacements of the skin. -/
theorem skin (S : Shape K) (B : OutBay K) (len : ℕ) (c : ℕ → K) (xs ys : Option (Arr K))
    (gridx gridy cores : ℕ) :
    (U.outBay B).uvwSkin S len (fun i => U.len * c i) (xs.map U.arr) (ys.map U.arr) gridx gridy cores
      = (B.uvwSkin S len c xs ys gridx gridy cores).map fun t => (t.1, t.2.map U.uvw) :=
  uvwSkin_units S B len c xs ys gridx gridy cores

/-- Displacements of a flange. -/
theorem flange (S : Shape K) (B : OutBay K) (len : ℕ) (c : ℕ → K) (si : ℕ) (region : String)
    (xs ys : Option (Arr K)) (gridx gridy cores : ℕ) :
    (U.outBay B).uvwStiffener S len (fun i => U.len * c i) si region (xs.map U.arr) (ys.map U.arr) gridx
      gridy cores
      = (B.uvwStiffener S len c si region xs ys gridx gridy cores).map fun t => (t.1, t.2.map U.uvw) :=
  uvwStiffener_units S B len c si region xs ys gridx gridy cores

section real

variable {U : UnitSys ℝ} {E : BayEnv ℝ} {B : Bay ℝ}

/-- Buckling multipliers are the same numbers. -/
theorem buckling_partial (hE : U.HomogBay E) (hU : 0 < U.len) (hB : U.ClearBay B)
    (hf : U.force = U.len ^ 3 ∨ ∀ s ∈ B.blade1, s.fstack = none) {c : Option (CArg ℝ)} {L G : Coo ℝ}
    {B1 B2 : Bay ℝ} (h1 : B.calcKC E = .ok (L, B1)) (h2 : B.calcKG E c = .ok (G, B2)) :
    ∃ L' G', (U.bay B).calcKC E = .ok (L', U.bay B1) ∧
      (U.bay B).calcKG E (c.map U.amps) = .ok (G', U.bay B2) ∧
      ∀ t p, Critical t L' G' p ↔ Critical t L G p :=
  ⟨scale U.line L, scale U.line G, by rw [kC_partial hE hU hB hf, h1]; rfl, by rw [kG hE hB, h2]; rfl,
    fun t p => C83.buckling L G t p⟩

/-- Frequencies are inverse times. -/
theorem frequency_partial (hE : U.HomogBay E) (hU : 0 < U.len) (hB : U.ClearBay B)
    (hf : U.force = U.len ^ 3 ∨ ∀ s ∈ B.blade1, s.fstack = none) {L M : Coo ℝ}
    {B1 B2 : Bay ℝ} (h1 : B.calcKC E = .ok (L, B1)) (h2 : B.calcKM E = .ok (M, B2)) :
    ∃ L' M', (U.bay B).calcKC E = .ok (L', U.bay B1) ∧ (U.bay B).calcKM E = .ok (M', U.bay B2) ∧
      ∀ t (ω : ℂ), Eigen t L' M' ((ω / U.time) ^ 2) ↔ Eigen t L M (ω ^ 2) :=
  ⟨scale U.line L, scale U.mass M, by rw [kC_partial hE hU hB hf, h1]; rfl, by rw [kM hE hB, h2]; rfl,
    fun t ω => C83.frequency L M t ω⟩

end real

/-! ## Concrete cases -/

open C82 (units plain modulus)

/-- Plies without coupling, as stiff as the first property says. -/
def plies {K : Type} [Field K] (stack plyts : List K) (props : List (List K)) : Except Err (List (Ply K)) :=
  if stack.length ≠ plyts.length then .error .valueError
  else .ok (plyts.map fun h => ⟨h, modulus props, modulus props / 4, 0, modulus props⟩)

/-- Surroundings. -/
def env : BayEnv ℚ where
  toEnv := C82.env
  plies := plies

theorem homog_of [LinearOrder K] (U : UnitSys K) (E : BayEnv K) (h : E.mkLam = plain) (h' : E.plies = plies) :
    U.HomogBay E := by
  refine ⟨C82.plain_homog _ h, fun stack plyts props => ?_⟩
  rw [h']
  unfold plies
  refine ite_units (by simp) rfl ?_
  refine congrArg Except.ok ?_
  rw [List.map_map, List.map_map]
  refine List.map_congr_left fun h _ => ?_
  simp only [Function.comp, C82.modulus_units, UnitSys.ply]
  congr 1 <;> ring

theorem homog (U : UnitSys ℚ) : U.HomogBay env := homog_of U env rfl rfl

/-- A skin, 300 by 200, with two panels. -/
def plate : Bay ℚ :=
  ({ C46.bay with
    skin := { (Witness.panel : Panel ℚ) with a := 300, b := 200, m := 1, n := 1, yw := ⟨1, 1, 1, 1⟩ }
    r := none, plyt := some 1, laminaprop := [70000, 70000, 3 / 10, 27000, 27000, 27000]
    rho := 27 / 10 ^ 10 }.addPanel 0 100 none none none none none none none).addPanel 100 200
      none none none none none none none

/-- Half way, a stiffener with perhaps a base and a flange as a beam. -/
def beam (base flange : Option (List ℚ)) : Blade1 ℚ where
  panel1 := 0
  panel2 := 1
  rho := 27 / 10 ^ 10
  ys := 100
  bb := some 40
  bf := some 20
  bstack := base
  bplyts := [1]
  blaminaprops := [[70000, 70000, 3 / 10, 27000, 27000, 27000]]
  fstack := flange
  fplyts := [1, 1]
  flaminaprops := [[70000, 70000, 3 / 10, 27000, 27000, 27000], [70000, 70000, 3 / 10, 27000, 27000, 27000]]
  Fx := some (-3)
  base := none
  sec := none
  dbf := 0
  Jxx := 0

/-- At the same place, one with a flange as a panel. -/
def blade : Blade2 ℚ where
  panel1 := 0
  panel2 := 1
  rho := 27 / 10 ^ 10
  ys := 100
  bstack := [0]
  bplyts := [1]
  blaminaprops := [[70000, 70000, 3 / 10, 27000, 27000, 27000]]
  base := some (plate.newBase 100 40 (27 / 10 ^ 10) [0] [1]
    [[70000, 70000, 3 / 10, 27000, 27000, 27000]] 1)
  flange := some (plate.newFlange 1 1 20 (27 / 10 ^ 10) [0] [1]
    [[70000, 70000, 3 / 10, 27000, 27000, 27000]])

/-- All together. -/
def full (base flange : Option (List ℚ)) : Bay ℚ :=
  { plate with blade1 := [beam base flange], blade2 := [blade] }

theorem off {U : UnitSys ℚ} (h : 0 < U.len) {y : ℚ} (hy : 0 ≤ y) : U.Off y := by
  have := mul_nonneg h.le hy
  exact ⟨by linarith, by linarith⟩

theorem beam_clear {U : UnitSys ℚ} (h : 0 < U.len) (base flange : Option (List ℚ)) (bs : List (Blade2 ℚ))
    (hb : ∀ s ∈ bs, s = blade) :
    U.ClearBay { plate with blade1 := [beam base flange], blade2 := bs } := by
  have hm : ∀ {α : Type} {a b : α}, a ∈ [b] → a = b := fun h => List.mem_singleton.1 h
  have h1 : (0 : ℚ) ≤ 100 - 40 / 2 := by decide +kernel
  have h2 : (0 : ℚ) ≤ 100 + 40 / 2 := by decide +kernel
  refine ⟨fun p hp => ?_, fun s hs bb hb => ?_, fun s hs b hb => ?_, fun s hs b e => ?_, fun s hs f e => ?_⟩
  · rcases List.mem_cons.1 hp with rfl | hp
    · exact C82.clear h _ (.inl rfl) (.inr (.inr ⟨by decide +kernel, by decide +kernel⟩))
    · cases hm hp
      exact C82.clear h _ (.inl rfl) (.inr (.inr ⟨by decide +kernel, by decide +kernel⟩))
  · cases hm hs
    cases hb
    exact ⟨off h h1, off h h2⟩
  · cases hm hs
    cases hb
  · cases hb s hs
    cases e
    exact newBase_clear (off h h1) (off h h2) ..
  · cases hb s hs
    cases e
    exact newFlange_clear ..

theorem full_clear {U : UnitSys ℚ} (h : 0 < U.len) (base flange : Option (List ℚ)) :
    U.ClearBay (full base flange) := beam_clear h base flange _ fun _ hs => List.mem_singleton.1 hs

theorem units_len : 0 < (units ℚ).len := by norm_num [units]

example : ∃ t, ((units ℚ).bay (full (some [0]) none)).calcKC env = .ok t := by
  obtain ⟨t, ht⟩ := exists_ok (x := (full (some [0]) none).calcKC env) (by decide +kernel)
  refine ⟨(scale (units ℚ).line t.1, (units ℚ).bay t.2), ?_⟩
  rw [kC_partial (homog _) units_len (full_clear units_len _ _) (.inr fun s hs => ?_), ht]
  · rfl
  · cases List.mem_singleton.1 hs
    rfl

example : ∃ t, ((units ℚ).bay (full (some [0]) (some [0, 0]))).calcKG env none = .ok t := by
  obtain ⟨t, ht⟩ := exists_ok (x := (full (some [0]) (some [0, 0])).calcKG env none) (by decide +kernel)
  exact ⟨(scale (units ℚ).line t.1, (units ℚ).bay t.2), by
    rw [show (none : Option (CArg ℚ)) = none.map (units ℚ).amps from rfl,
      kG (homog _) (full_clear units_len _ _), ht]; rfl⟩

example : ∃ t, ((units ℚ).bay { plate with blade1 := [beam none (some [0, 0])], blade2 := [] }).calcKM env
    = .ok t := by
  obtain ⟨t, ht⟩ := exists_ok
    (x := Bay.calcKM env { plate with blade1 := [beam none (some [0, 0])], blade2 := [] }) (by decide +kernel)
  exact ⟨(scale (units ℚ).mass t.1, (units ℚ).bay t.2), by
    rw [kM (homog _) (beam_clear units_len _ _ _ fun _ h => by cases h), ht]; rfl⟩

/-- An entry of the stiffness. -/
def bend (B : Bay ℚ) : ℚ :=
  match B.calcKC env with
  | .ok t => Coo.entry t.1 2 2
  | .error _ => 0

/-- The stiffness of a bay with a flange as a beam is another one in other units. -/
theorem torsion_violated : ∃ (U : UnitSys ℚ) (B : Bay ℚ) (E : BayEnv ℚ), 0 < U.len ∧ U.HomogBay E ∧
    U.ClearBay B ∧ ∃ t, B.calcKC E = .ok t ∧ ∃ t', (U.bay B).calcKC E = .ok t' ∧
      Coo.entry t'.1 2 2 ≠ U.line * Coo.entry t.1 2 2 := by
  obtain ⟨t, ht⟩ := exists_ok (x := (full (some [0]) (some [0, 0])).calcKC env) (by decide +kernel)
  obtain ⟨t', ht'⟩ := exists_ok (x := ((units ℚ).bay (full (some [0]) (some [0, 0]))).calcKC env)
    (by decide +kernel)
  refine ⟨units ℚ, full (some [0]) (some [0, 0]), env, units_len, homog _, full_clear units_len _ _, t, ht,
    t', ht', ?_⟩
  have e : bend ((units ℚ).bay (full (some [0]) (some [0, 0])))
      ≠ (units ℚ).line * bend (full (some [0]) (some [0, 0])) := by decide +kernel
  unfold bend at e
  rw [ht, ht'] at e
  exact e

/-- A stiffener very close to an edge is refused in millimetres, and accepted in metres. -/
theorem close_violated : ∃ (U : UnitSys ℚ) (B : Bay ℚ) (ys : ℚ), 0 < U.len ∧ U.ClearBay B ∧
    B.findPanels ys = .error (.raised .runtimeError) ∧
    ∃ ij, (U.bay B).findPanels (U.len * ys) = .ok ij := by
  refine ⟨units ℚ, full none none, 1 / 1000000, units_len, full_clear units_len _ _, ?_, exists_ok ?_⟩
  · decide +kernel
  · decide +kernel

theorem plate_close : SameClose (units ℚ) plate 100 := by
  refine ⟨?_, ?_⟩
  · rintro y (rfl | rfl)
    · exact close units_len (.inr ⟨by decide +kernel, by decide +kernel⟩)
    · exact close units_len (.inr ⟨by decide +kernel, by decide +kernel⟩)
  · intro p hp
    rcases List.mem_cons.1 hp with rfl | hp
    · rintro y (rfl | rfl)
      · exact close units_len (.inr ⟨by decide +kernel, by decide +kernel⟩)
      · exact close units_len (.inl rfl)
    · cases List.mem_singleton.1 hp
      rintro y (rfl | rfl)
      · exact close units_len (.inl rfl)
      · exact close units_len (.inr ⟨by decide +kernel, by decide +kernel⟩)

/-- One ply. -/
def ply : LamArgs ℚ :=
  { stack := some [0], plyt := some 1, laminaprop := some [70000, 70000, 3 / 10, 27000, 27000, 27000] }

theorem plate_limits : ∀ p ∈ plate.panels, p.pan.y1 ≠ -1 ∧ p.pan.y2 ≠ -1 := by decide +kernel

theorem strip {x : ℚ} (h : some (40 : ℚ) = some x) :
    (units ℚ).Off (100 - x / 2) ∧ (units ℚ).Off (100 + x / 2) := by
  cases h
  exact ⟨off units_len (by decide +kernel), off units_len (by decide +kernel)⟩

example : ∃ B, ((units ℚ).bay plate).addBlade1 env ((units ℚ).len * 100) none
    ((some (40 : ℚ)).map ((units ℚ).len * ·)) ((some (20 : ℚ)).map ((units ℚ).len * ·))
    ((units ℚ).lamArgs ply) ((units ℚ).lamArgs ply) = .ok B := by
  obtain ⟨t, ht⟩ := exists_ok (x := plate.addBlade1 env 100 none (some 40) (some 20) ply ply)
    (by decide +kernel)
  refine ⟨(units ℚ).bay t, ?_⟩
  rw [← Option.map_none (f := ((units ℚ).rho * ·)),
    blade1_partial (homog _) plate_close plate_limits none _ _ (fun _ => strip), ht]
  rfl

example : ∃ B, ((units ℚ).bay plate).addBlade2 env ((units ℚ).len * 100) none
    ((some (40 : ℚ)).map ((units ℚ).len * ·)) ((some (20 : ℚ)).map ((units ℚ).len * ·))
    ((units ℚ).lamArgs ply) ((units ℚ).lamArgs ply) 1 1 = .ok B := by
  obtain ⟨t, ht⟩ := exists_ok (x := plate.addBlade2 env 100 none (some 40) (some 20) ply ply 1 1)
    (by decide +kernel)
  refine ⟨(units ℚ).bay t, ?_⟩
  rw [← Option.map_none (f := ((units ℚ).rho * ·)),
    blade2_partial (homog _) plate_close plate_limits none _ _ (fun _ => strip), ht]
  rfl

/-- A bay in a flow, of which the size is known. -/
def windy : AeroBay ℚ where
  toBay := { plate with Mach := some 2, V := some 600000, rhoAir := some (12 / 10 ^ 13)
                        speedSound := some 300000 }
  flow := "x"
  gamma := none
  aeromu := none
  size := some 6

example : ∃ t, ((units ℚ).aeroBay windy).calcKA id env = .ok t := by
  obtain ⟨t, ht⟩ := exists_ok (x := windy.calcKA id env) (by decide +kernel)
  have h : (units ℚ).ClearBay windy.toBay := by
    refine ⟨(full_clear units_len none none).panels, ?_, ?_, ?_, ?_⟩ <;>
      exact fun s hs => (List.not_mem_nil hs).elim
  exact ⟨_, by rw [kA (homog _) h, ht]; rfl⟩

/-- Over the real numbers. -/
noncomputable def envR : BayEnv ℝ where
  toEnv := C82.envR
  plies := plies

/-- The skin with a flange as a panel at its edge. -/
noncomputable def flanged : Bay ℝ :=
  { C81.sheet1 with
    blade2 := [{ panel1 := 0, panel2 := 0, rho := 1, ys := 0, bstack := [], bplyts := [], blaminaprops := []
                 base := none, flange := some (C81.sheet1.newFlange 4 6 (1 / 3) 1 [0] [1 / 2] [[1]]) }] }

theorem flanged_clear {U : UnitSys ℝ} (h : 0 < U.len) : U.ClearBay flanged := by
  refine ⟨fun p hp => ?_, fun s hs => (List.not_mem_nil hs).elim,
    fun s hs => (List.not_mem_nil hs).elim, fun s hs b e => ?_, fun s hs f e => ?_⟩
  · cases List.mem_singleton.1 hp
    exact C82.clear h _ (.inl rfl) (.inr (.inr ⟨le_rfl, zero_le_one⟩))
  · cases List.mem_singleton.1 hs
    cases e
  · cases List.mem_singleton.1 hs
    cases e
    exact newFlange_clear ..

theorem flanged_terms : C52.Terms flanged where
  panels := fun p hp => by
    cases List.mem_singleton.1 hp
    exact ⟨rfl, rfl⟩
  base1 := fun s hs => (List.not_mem_nil hs).elim
  base2 := fun s hs b e => by
    cases List.mem_singleton.1 hs
    cases e

example : ∃ L G M B1 B2 B3, (∀ U : UnitSys ℝ, U.HomogBay envR) ∧
    (∀ U : UnitSys ℝ, 0 < U.len → U.ClearBay flanged) ∧ (∀ s ∈ flanged.blade1, s.fstack = none) ∧
    flanged.calcKC envR = .ok (L, B1) ∧ flanged.calcKG envR none = .ok (G, B2) ∧
    flanged.calcKM envR = .ok (M, B3) := by
  obtain ⟨R, hR, hr, hN, h2⟩ : ∃ R, flanged.rebuild envR = .ok R ∧ Ready envR R ∧
      R.getSize = .ok (105 + (72 + 0)) ∧ ((∀ s ∈ R.blade1, s.base = none) ∧ ∀ s ∈ R.blade2, s.base = none) := by
    refine ⟨_, bind_ok.2 ⟨_, rfl, bind_ok.2 ⟨_, rfl, bind_ok.2 ⟨_,
      bind_ok.2 ⟨_, bind_ok.2 ⟨_, C81.pair_self rfl, rfl⟩, rfl⟩, rfl⟩⟩⟩, ?_, rfl, ?_⟩
    · refine ⟨fun s hs => (List.not_mem_nil hs).elim, fun s hs b hb => ?_, fun s hs b hb => ?_⟩
      · cases List.mem_singleton.1 hs
        cases hb
      · cases List.mem_singleton.1 hs
        cases hb
        exact ⟨_, rfl⟩
    · refine ⟨fun s hs => (List.not_mem_nil hs).elim, fun s hs => ?_⟩
      cases List.mem_singleton.1 hs
      rfl
  have hne : flanged.panels ≠ [] := List.cons_ne_nil _ _
  obtain ⟨⟨L, B1⟩, h1⟩ := C57.kC_exists envR flanged R _ flanged_terms hne hR hN hr
  obtain ⟨⟨G, B2⟩, h3⟩ := C57.kG_exists envR flanged R _ flanged_terms hne hR hN hr
  obtain ⟨⟨M, B3⟩, h4⟩ := C57.kM_exists_partial envR flanged R _ flanged_terms hne hR hN h2.1
    (fun s hs b e => by rw [h2.2 s hs] at e; cases e)
  exact ⟨L, G, M, B1, B2, B3, fun U => homog_of U envR rfl rfl, fun U h => flanged_clear h,
    fun s hs => (List.not_mem_nil hs).elim, h1, h3, h4⟩

end Verif.C86
