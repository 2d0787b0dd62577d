import Verif.Spec.UnitsBay
import Verif.Proofs.UnitsMulti
import Verif.Proofs.UnitsVal

/-!
# Stiffened bays in other units
-/

namespace Verif

open Spec

section values
variable {K : Type} [Field K] [DecidableEq K] (U : UnitSys K) (S : Shape K) (I : Tab K) (P Pf : Panel K)
  (i k j l α β : ℕ)

theorem eta_units (ys b : K) : 2 * (U.len * ys) / (U.len * b) - 1 = 2 * ys / b - 1 := by
  have := U.len_ne
  rw [show 2 * (U.len * ys) = U.len * (2 * ys) by ring, mul_div_mul_left _ _ this]

/-- Cancel the factors. -/
macro "blade_val" U:term : tactic => `(tactic| (
  have := UnitSys.len_ne $U
  have := UnitSys.force_ne $U
  simp only [UnitSys.panel, eta_units]
  simp only [UnitSys.line, UnitSys.area]
  try field_simp
  try ring))

/-- The constant of torsion is multiplied like a stiffness here. -/
theorem fkCf_val_units (E1 F1 J S1 bf df ys : K) :
    Gen.Blade1D.fkCf S I (U.panel P) (U.line * E1) (U.force * U.len * F1) (U.force * U.len * J)
      (U.force * S1) (U.len * bf) (U.len * df) (U.len * ys) i k j l α β
      = U.line * Gen.Blade1D.fkCf S I P E1 F1 J S1 bf df ys i k j l α β := by
  unfold Gen.Blade1D.fkCf
  split
  · unfold Gen.Blade1D.fkCf_00; blade_val U
  · unfold Gen.Blade1D.fkCf_02; blade_val U
  · unfold Gen.Blade1D.fkCf_20; blade_val U
  · unfold Gen.Blade1D.fkCf_22; blade_val U
  · simp

theorem fkGf_val_units (Fx ys : K) :
    Gen.Blade1D.fkGf S I (U.panel P) (U.force * Fx) (U.len * ys) i k j l α β
      = U.line * Gen.Blade1D.fkGf S I P Fx ys i k j l α β := by
  unfold Gen.Blade1D.fkGf
  split
  · unfold Gen.Blade1D.fkGf_22; blade_val U
  · simp

theorem fkMf_22_units (c bf h hb hf rho a b fA fB g k ge l : K) :
    c * (U.len * bf) * (U.len * hf) * (U.rho * rho) *
        ((U.len * a * (U.len * a)) * fA * (3 * (U.len * b * (U.len * b)) * g * k +
          ge * l * (4 * (U.len * bf * (U.len * bf)) + 6 * (U.len * bf) * (U.len * h + 2 * (U.len * hb)) +
            3 * (U.len * h + 2 * (U.len * hb)) ^ 2)) +
        (U.len * b * (U.len * b)) * fB * g * k * (4 * (U.len * bf * (U.len * bf)) +
          6 * (U.len * bf) * (U.len * h + 2 * (U.len * hb)) + 3 * (U.len * h + 2 * (U.len * hb)) ^ 2)) /
        (U.len * a * (U.len * b * (U.len * b)))
      = U.mass * (c * bf * hf * rho * ((a * a) * fA * (3 * (b * b) * g * k +
          ge * l * (4 * (bf * bf) + 6 * bf * (h + 2 * hb) + 3 * (h + 2 * hb) ^ 2)) +
        (b * b) * fB * g * k * (4 * (bf * bf) + 6 * bf * (h + 2 * hb) + 3 * (h + 2 * hb) ^ 2)) /
        (a * (b * b))) := by
  have hl := U.len_ne
  have e : U.mass = U.len ^ 6 * U.rho / U.len ^ 3 := by
    unfold UnitSys.rho
    field_simp
  rw [e, ← mul_div_mul_comm]
  congr 1 <;> ring

theorem fkMf_val_units (bf df h hb hf rho ys : K) :
    Gen.Blade1D.fkMf S I (U.panel P) (U.len * bf) (U.len * df) (U.len * h) (U.len * hb) (U.len * hf)
      (U.rho * rho) (U.len * ys) i k j l α β
      = U.mass * Gen.Blade1D.fkMf S I P bf df h hb hf rho ys i k j l α β := by
  have hl := U.len_ne
  have h3 : U.mass = U.len ^ 3 * U.rho := by unfold UnitSys.rho; field_simp
  have h4 : U.mass = U.len ^ 4 * U.rho / U.len := by unfold UnitSys.rho; field_simp
  unfold Gen.Blade1D.fkMf
  split
  · unfold Gen.Blade1D.fkMf_00; simp only [UnitSys.panel, eta_units, h3]; ring
  · unfold Gen.Blade1D.fkMf_02; simp only [UnitSys.panel, eta_units, h3]; ring
  · unfold Gen.Blade1D.fkMf_11; simp only [UnitSys.panel, eta_units, h3]; ring
  · unfold Gen.Blade1D.fkMf_12; simp only [UnitSys.panel, eta_units]; rw [h4, ← mul_div_mul_comm]; congr 1; ring
  · unfold Gen.Blade1D.fkMf_20; simp only [UnitSys.panel, eta_units, h3]; ring
  · unfold Gen.Blade1D.fkMf_21; simp only [UnitSys.panel, eta_units]; rw [h4, ← mul_div_mul_comm]; congr 1; ring
  · unfold Gen.Blade1D.fkMf_22
    simp only [UnitSys.panel, eta_units]
    exact fkMf_22_units U ..
  · simp

theorem fkCss_val_units (kr kt ys : K) :
    Gen.Blade2D.fkCss S I (U.panel P) (U.force * kr) (U.area * kt) (U.len * ys) i k j l α β
      = U.line * Gen.Blade2D.fkCss S I P kr kt ys i k j l α β := by
  unfold Gen.Blade2D.fkCss
  split
  · unfold Gen.Blade2D.fkCss_00; blade_val U
  · unfold Gen.Blade2D.fkCss_11; blade_val U
  · unfold Gen.Blade2D.fkCss_22; blade_val U
  · simp

theorem fkCsf_val_units (bf kr kt ys : K) :
    Gen.Blade2D.fkCsf S I (U.panel P) (U.panel Pf) (U.len * bf) (U.force * kr) (U.area * kt) (U.len * ys)
      i k j l α β
      = U.line * Gen.Blade2D.fkCsf S I P Pf bf kr kt ys i k j l α β := by
  unfold Gen.Blade2D.fkCsf
  split
  · unfold Gen.Blade2D.fkCsf_00; blade_val U
  · unfold Gen.Blade2D.fkCsf_12; blade_val U
  · unfold Gen.Blade2D.fkCsf_21; blade_val U
  · unfold Gen.Blade2D.fkCsf_22; blade_val U
  · simp

theorem fkCff_val_units (bf kr kt : K) :
    Gen.Blade2D.fkCff S I (U.panel P) (U.panel Pf) (U.len * bf) (U.force * kr) (U.area * kt) i k j l α β
      = U.line * Gen.Blade2D.fkCff S I P Pf bf kr kt i k j l α β := by
  unfold Gen.Blade2D.fkCff
  split
  · unfold Gen.Blade2D.fkCff_00; blade_val U
  · unfold Gen.Blade2D.fkCff_11; blade_val U
  · unfold Gen.Blade2D.fkCff_22; blade_val U
  · simp

end values

namespace Model

section builders
variable {K : Type} [Field K] [DecidableEq K] (U : UnitSys K) (S : Shape K) (I : Tab K) (P Pf : Panel K)

theorem fkCf_units (ys bf df E1 F1 S1 J : K) (row0 col0 : ℕ) :
    fkCf S I (U.panel P) (U.len * ys) (U.len * bf) (U.len * df) (U.line * E1) (U.force * U.len * F1)
      (U.force * S1) (U.force * U.len * J) row0 col0
      = scale U.line (fkCf S I P ys bf df E1 F1 S1 J row0 col0) := by
  unfold fkCf
  rw [scale_pad]
  exact congrArg _ (scale_symBuild (fun _ _ _ _ _ _ => fkCf_val_units ..) ..)

theorem fkGf_units (ys Fx : K) (row0 col0 : ℕ) :
    fkGf S I (U.panel P) (U.len * ys) (U.force * Fx) row0 col0
      = scale U.line (fkGf S I P ys Fx row0 col0) := by
  unfold fkGf
  rw [scale_pad]
  exact congrArg _ (scale_symBuild (fun _ _ _ _ _ _ => fkGf_val_units ..) ..)

theorem fkMf_units (ys rho h hb hf bf df : K) (row0 col0 : ℕ) :
    fkMf S I (U.panel P) (U.len * ys) (U.rho * rho) (U.len * h) (U.len * hb) (U.len * hf) (U.len * bf)
      (U.len * df) row0 col0
      = scale U.mass (fkMf S I P ys rho h hb hf bf df row0 col0) := by
  unfold fkMf
  rw [scale_pad]
  exact congrArg _ (scale_symBuild (fun _ _ _ _ _ _ => fkMf_val_units ..) ..)

theorem bladeConn_units (kt kr ys : K) (s sf : ℕ) :
    bladeConn S I (U.panel P) (U.panel Pf) (U.area * kt) (U.force * kr) (U.len * ys) s sf
      = scale U.line (bladeConn S I P Pf kt kr ys s sf) := by
  unfold bladeConn fkCss fkCsf fkCff
  rw [scale_append, scale_append, scale_pad, scale_pad, scale_pad]
  refine congrArg₂ _ (congrArg₂ _ (congrArg _ ?_) (congrArg _ ?_)) (congrArg _ ?_)
  · exact scale_symBuild (fun _ _ _ _ _ _ => fkCss_val_units ..) ..
  · exact scale_crossBuild (fun _ _ _ _ _ _ => fkCsf_val_units ..) ..
  · exact scale_symBuild (fun _ _ _ _ _ _ => fkCff_val_units ..) ..

end builders

section bay
variable {K : Type} [Field K] [LinearOrder K] {U : UnitSys K} {E : BayEnv K} {B : Bay K}

/-! ## Panels, bases, flanges -/

theorem off_coord {y y' : K} (h : U.Off y) (h' : U.Off y') : U.coord y y' = U.len * y :=
  coord_of_ne h.1 h'.1

theorem coord_mark (y : K) : U.coord (-1) y = -1 := by simp [UnitSys.coord]

theorem coord_mark' (y : K) : U.coord y (-1) = y := by simp [UnitSys.coord]

theorem newShell_units (pan : Panel K) (r : Option K) (model : Option String) (stack : List K)
    (plyt : Option K) (plyts : List K) (laminaprop : List K) (laminaprops : List (List K)) (rho offset : K) :
    U.shell (Shell.new pan r model stack plyt plyts laminaprop laminaprops rho offset)
      = Shell.new (U.panel pan) (r.map (U.len * ·)) model stack (plyt.map (U.len * ·))
        (plyts.map (U.len * ·)) (U.lamina laminaprop) (laminaprops.map U.lamina) (U.rho * rho)
        (U.len * offset) := by
  simp [UnitSys.shell, Shell.new, UnitSys.panel]

theorem lamina_nil : U.lamina [] = [] := rfl

theorem newBase_units {ys bb : K} (h1 : U.Off (ys - bb / 2)) (h2 : U.Off (ys + bb / 2)) (rho : K)
    (stack plyts : List K) (laminaprops : List (List K)) (h : K) :
    (U.bay B).newBase (U.len * ys) (U.len * bb) (U.rho * rho) stack (plyts.map (U.len * ·))
      (laminaprops.map U.lamina) (U.len * h)
      = U.shell (B.newBase ys bb rho stack plyts laminaprops h) := by
  unfold Bay.newBase
  rw [newShell_units, sum_units]
  have e1 : U.len * ys - U.len * bb / 2 = U.len * (ys - bb / 2) := by ring
  have e2 : U.len * ys + U.len * bb / 2 = U.len * (ys + bb / 2) := by ring
  have e3 : -(U.len * h) / 2 - U.len * plyts.sum / 2 = U.len * (-h / 2 - plyts.sum / 2) := by ring
  rw [e1, e2, e3]
  congr 1
  simp only [UnitSys.panel, UnitSys.bay, coord_mark, coord_mark', off_coord h1 h2, off_coord h2 h1]

theorem newBase_clear {ys bb : K} (h1 : U.Off (ys - bb / 2)) (h2 : U.Off (ys + bb / 2)) (rho : K)
    (stack plyts : List K) (laminaprops : List (List K)) (h : K) :
    U.Clear (B.newBase ys bb rho stack plyts laminaprops h).pan :=
  ⟨fun h => absurd rfl h, fun _ _ => ⟨h1.2, h2.2⟩⟩

theorem newFlange_units (mf nf : ℕ) (bf rho : K) (stack plyts : List K) (laminaprops : List (List K)) :
    (U.bay B).newFlange mf nf (U.len * bf) (U.rho * rho) stack (plyts.map (U.len * ·))
      (laminaprops.map U.lamina) = U.shell (B.newFlange mf nf bf rho stack plyts laminaprops) := by
  unfold Bay.newFlange
  rw [newShell_units, mul_zero]
  congr 1
  simp only [UnitSys.panel, UnitSys.bay, coord_mark, coord_mark', mul_zero]

theorem newFlange_clear (mf nf : ℕ) (bf rho : K) (stack plyts : List K) (laminaprops : List (List K)) :
    U.Clear (B.newFlange mf nf bf rho stack plyts laminaprops).pan :=
  ⟨fun h => absurd rfl h, fun h => absurd rfl h⟩

theorem skinThick_units (p q : Shell K) :
    skinThick (U.shell p) (U.shell q) = U.len * skinThick p q := by
  unfold skinThick
  rw [show (U.shell p).plyts = p.plyts.map (U.len * ·) from rfl,
    show (U.shell q).plyts = q.plyts.map (U.len * ·) from rfl, sum_units, sum_units]
  ring

theorem option_units {k : K} (hk : k ≠ 0) (o o' : Option K) : o.map (k * ·) = o'.map (k * ·) ↔ o = o' := by
  cases o <;> cases o' <;> simp [hk]

/-- Two things in other units. -/
def both {α β : Type} (g : α → β) (t : α × α) : β × β := (g t.1, g t.2)

theorem pair_units (i j : ℕ) : (U.bay B).pair i j = (B.pair i j).map (both U.shell) := by
  unfold Bay.pair
  rw [show (U.bay B).panels = B.panels.map U.shell from rfl, List.getElem?_map, List.getElem?_map]
  rcases B.panels[i]? with _ | p
  · rfl
  rcases B.panels[j]? with _ | q
  · rfl
  refine ite_units ?_ rfl rfl
  rw [show (U.shell p).r = p.r.map (U.len * ·) from rfl, show (U.shell q).r = q.r.map (U.len * ·) from rfl,
    option_units U.len_ne]
  exact Iff.rfl

/-! ## Constants of a flange -/

theorem area_ne : U.area ≠ 0 := div_ne_zero U.force_ne (pow_ne_zero 2 U.len_ne)

theorem area_div (a b c : K) : U.area * a * (U.area * b) / (U.area * c) = U.area * (a * b / c) := by
  rw [show U.area * a * (U.area * b) = U.area * (U.area * (a * b)) by ring,
    mul_div_mul_left _ _ area_ne, mul_div_assoc]

theorem ply_e (p : Ply K) : (U.ply p).h * ((U.ply p).q11 - (U.ply p).q12 ^ 2 / (U.ply p).q22)
    = U.line * (p.h * (p.q11 - p.q12 ^ 2 / p.q22)) := by
  have hl := U.len_ne
  have hline : U.line = U.len * U.area := by unfold UnitSys.line UnitSys.area; field_simp
  show U.len * p.h * (U.area * p.q11 - (U.area * p.q12) ^ 2 / (U.area * p.q22)) = _
  rw [pow_two, area_div, hline]
  ring

theorem ply_s (y : K) (p : Ply K) :
    -(U.len * y) * (U.ply p).h * ((U.ply p).q16 - (U.ply p).q12 * (U.ply p).q16 / (U.ply p).q22)
      = U.force * (-y * p.h * (p.q16 - p.q12 * p.q16 / p.q22)) := by
  have hl := U.len_ne
  have hforce : U.force = U.len * U.len * U.area := by unfold UnitSys.area; field_simp
  show -(U.len * y) * (U.len * p.h) *
    (U.area * p.q16 - U.area * p.q12 * (U.area * p.q16) / (U.area * p.q22)) = _
  rw [area_div, hforce]
  ring

theorem plyLoop_units (l : List (Ply K)) (y t e s : K) :
    plyLoop (U.len * y) (U.len * t) (l.map U.ply) (U.line * e, U.force * s)
      = (U.line * (plyLoop y t l (e, s)).1, U.force * (plyLoop y t l (e, s)).2) := by
  induction l generalizing y t e s with
  | nil => rfl
  | cons p l ih =>
    have h1 : U.len * y + (U.len * t / 2 + (U.ply p).h / 2) = U.len * (y + (t / 2 + p.h / 2)) := by
      show U.len * y + (U.len * t / 2 + U.len * p.h / 2) = _
      ring
    simp only [List.map_cons, plyLoop, h1]
    rw [ply_e, ply_s, ← mul_add, ← mul_add, show (U.ply p).h = U.len * p.h from rfl]
    exact ih _ _ _ _

theorem plySums_units (l : List (Ply K)) :
    plySums (l.map U.ply) = (plySums l).map fun t => (U.line * t.1, U.force * t.2) := by
  cases l with
  | nil => rfl
  | cons p l =>
    have h1 : (U.ply p).h / 2 = U.len * (p.h / 2) := by
      show U.len * p.h / 2 = _
      ring
    simp only [List.map_cons, plySums, h1]
    rw [ply_e, ply_s, ← mul_zero U.line, ← mul_add, mul_zero, ← mul_zero U.force, ← mul_add, mul_zero,
      show (U.ply p).h = U.len * p.h from rfl, plyLoop_units]
    rfl

theorem sectionOf_units (hf bf : K) (o : Option (List (Ply K))) :
    sectionOf (U.len * hf) (U.len * bf) (o.map (List.map U.ply))
      = (sectionOf hf bf o).map (Option.map U.sect) := by
  cases o with
  | none => rfl
  | some l =>
    refine bind_units (plySums_units l) fun t => ?_
    show Except.ok (some (Section.mk _ _ _ _)) = Except.ok (some (Section.mk _ _ _ _))
    have hl := U.len_ne
    have : (U.len * bf) ^ 2 / 12 * (U.line * t.1) = U.force * U.len * (bf ^ 2 / 12 * t.1) := by
      unfold UnitSys.line
      field_simp
    rw [this]

/-! ## Stiffeners with a flange as a beam -/

variable {s : Blade1 K} {size row0 col0 : ℕ}

/-- What concerns one stiffener in `ClearBay`. -/
def Clear1 (U : UnitSys K) (s : Blade1 K) : Prop :=
  (∀ bb, s.bb = some bb → U.Off (s.ys - bb / 2) ∧ U.Off (s.ys + bb / 2)) ∧
    ∀ b, s.base = some b → U.Clear b.pan

theorem hf_units (s : Blade1 K) : (U.blade1 s).hf = U.len * s.hf := by
  unfold Blade1.hf
  rw [show (U.blade1 s).fstack = s.fstack from rfl]
  cases s.fstack with
  | none => simp
  | some st => exact sum_units _ _

theorem flangePlies_units (hE : U.HomogBay E) (s : Blade1 K) :
    (U.blade1 s).flangePlies E = (s.flangePlies E).map (Option.map (List.map U.ply)) := by
  unfold Blade1.flangePlies
  rw [show (U.blade1 s).fstack = s.fstack from rfl]
  cases s.fstack with
  | none => rfl
  | some st =>
    refine bind_units (g := (U.len * ·)) (number_units _) fun _ => ?_
    refine bind_units (g := List.map U.ply) ?_ fun l => rfl
    rw [← lift_map]
    exact congrArg lift (hE.2 ..)

/-- A base and a thickness in other units. -/
def baseOut (U : UnitSys K) (t : Option (Shell K) × K) : Option (Shell K) × K :=
  (t.1.map U.shell, U.len * t.2)

theorem freshBase_units (hs : Clear1 U s) (h : K) :
    (U.blade1 s).freshBase (U.bay B) (U.len * h) = (s.freshBase B h).map (baseOut U) := by
  unfold Blade1.freshBase
  rw [show (U.blade1 s).bstack = s.bstack from rfl]
  cases s.bstack with
  | none =>
    show Except.ok (_, _) = Except.ok (_, _)
    rw [mul_zero]
    rfl
  | some st =>
    refine bind_units' (g := (U.len * ·)) (number_units _) fun bb hbb => ?_
    have hb : s.bb = some bb := by
      cases hs : s.bb with
      | none => rw [hs] at hbb; cases hbb
      | some x => rw [hs] at hbb; cases hbb; rfl
    obtain ⟨h1, h2⟩ := hs.1 bb hb
    show Except.ok (some _, _) = Except.ok (some _, _)
    rw [show (U.blade1 s).bplyts = s.bplyts.map (U.len * ·) from rfl, sum_units]
    exact congrArg (fun b => Except.ok (some b, U.len * s.bplyts.sum)) (newBase_units h1 h2 ..)

theorem freshBase_clear (hs : Clear1 U s) {h : K} {t : Option (Shell K) × K}
    (ht : s.freshBase B h = .ok t) : ∀ b, t.1 = some b → U.Clear b.pan := by
  unfold Blade1.freshBase at ht
  intro b hb
  split at ht
  · cases ht
    exact hs.2 b hb
  · obtain ⟨bb, hbb, ht⟩ := bind_ok.1 ht
    cases ht
    cases hb
    have hb : s.bb = some bb := by
      cases hs : s.bb with
      | none => rw [hs] at hbb; cases hbb
      | some x => rw [hs] at hbb; cases hbb; rfl
    obtain ⟨h1, h2⟩ := hs.1 bb hb
    exact newBase_clear h1 h2 ..

theorem rebuild1_units (hE : U.HomogBay E) (hs : Clear1 U s) :
    (U.blade1 s).rebuild E (U.bay B) = (s.rebuild E B).map U.blade1 := by
  unfold Blade1.rebuild
  refine bind_units (pair_units s.panel1 s.panel2) fun pq => ?_
  refine bind_units (flangePlies_units hE s) fun plies => ?_
  simp only [both, skinThick_units]
  refine bind_units (freshBase_units hs _) fun base => ?_
  refine bind_units (g := (U.len * ·)) (number_units _) fun bf => ?_
  simp only [hf_units]
  refine bind_units (sectionOf_units ..) fun sec => ?_
  show Except.ok _ = Except.ok _
  refine congrArg Except.ok ?_
  simp only [UnitSys.blade1, baseOut]
  congr 1 <;> ring

theorem rebuild1_clear (hs : Clear1 U s) {s' : Blade1 K} (h : s.rebuild E B = .ok s') : Clear1 U s' := by
  unfold Blade1.rebuild at h
  obtain ⟨pq, _, h⟩ := bind_ok.1 h
  obtain ⟨plies, _, h⟩ := bind_ok.1 h
  obtain ⟨base, hb, h⟩ := bind_ok.1 h
  obtain ⟨bf, _, h⟩ := bind_ok.1 h
  obtain ⟨sec, _, h⟩ := bind_ok.1 h
  cases h
  exact ⟨hs.1, freshBase_clear hs hb⟩

theorem rebuild1_plain (hf : s.fstack = none) {s' : Blade1 K} (h : s.rebuild E B = .ok s') :
    s'.sec = none := by
  unfold Blade1.rebuild at h
  obtain ⟨pq, _, h⟩ := bind_ok.1 h
  obtain ⟨plies, hp, h⟩ := bind_ok.1 h
  obtain ⟨base, hb, h⟩ := bind_ok.1 h
  obtain ⟨bf, _, h⟩ := bind_ok.1 h
  obtain ⟨sec, hsec, h⟩ := bind_ok.1 h
  cases h
  unfold Blade1.flangePlies at hp
  rw [hf] at hp
  cases hp
  cases hsec
  rfl

/-- A matrix and an optional part afterwards. -/
def optOut (U : UnitSys K) (k : K) (t : Coo K × Option (Shell K)) : Coo K × Option (Shell K) :=
  (scale k t.1, t.2.map U.shell)

theorem optPart_units {f f' : Shell K → Except Fail (Coo K × Shell K)} {k : K} {o : Option (Shell K)}
    (hf : ∀ b, o = some b → f' (U.shell b) = (f b).map (outUnits U k)) :
    optPart f' (o.map U.shell) = (optPart f o).map (optOut U k) := by
  cases o with
  | none => rfl
  | some b => exact bind_units (hf b rfl) fun t => rfl

/-- A matrix and a stiffener afterwards. -/
def out1 (U : UnitSys K) (k : K) (t : Coo K × Blade1 K) : Coo K × Blade1 K :=
  (scale k t.1, U.blade1 t.2)

theorem kC_units (hE : U.HomogBay E) {b : Shell K} (hb : U.Clear b.pan) (row0 col0 size : ℕ) :
    (U.shell b).calcKC E.toEnv { size := .num size, row0 := row0, col0 := col0, finalize := false }
      = (b.calcKC E.toEnv { size := .num size, row0 := row0, col0 := col0, finalize := false }).map
        (outUnits U U.line) :=
  calcKC_units hE.1 hb { size := .num size, row0 := row0, col0 := col0, finalize := false }

theorem kG_units (hE : U.HomogBay E) {b : Shell K} (hb : U.Clear b.pan) (row0 col0 size : ℕ)
    (c : Option (CArg K)) :
    (U.shell b).calcKG E.toEnv
        { size := .num size, row0 := row0, col0 := col0, finalize := false, c := c.map U.amps }
      = (b.calcKG E.toEnv { size := .num size, row0 := row0, col0 := col0, finalize := false, c := c }).map
        (outUnits U U.line) :=
  calcKG_units hE.1 hb { size := .num size, row0 := row0, col0 := col0, finalize := false, c := c }

theorem kM_units {b : Shell K} (hb : U.Clear b.pan) (row0 col0 size : ℕ) :
    (U.shell b).calcKM E.toEnv (.num size) row0 col0 none none none none false
      = (b.calcKM E.toEnv (.num size) row0 col0 none none none none false).map (outUnits U U.mass) :=
  calcKM_units hb (.num size) row0 col0 none none none none false

/-- The part of the flange: as if the torsion constant were another one. -/
theorem partC_units (s : Blade1 K) :
    (U.blade1 s).partC E (U.bay B) size row0 col0
      = (Blade1.partC E B size row0 col0 { s with Jxx := U.len ^ 3 / U.force * s.Jxx }).map
        (scale U.line) := by
  unfold Blade1.partC
  rw [show (U.blade1 s).sec = s.sec.map U.sect from rfl]
  cases s.sec with
  | none => rfl
  | some c =>
    refine bind_units (g := (U.len * ·)) (number_units _) fun bf => ?_
    rw [← toSparse_units]
    refine congrArg _ ?_
    have hf := U.force_ne
    have e : (U.blade1 s).Jxx = U.force * U.len * (U.len ^ 3 / U.force * s.Jxx) := by
      show U.len ^ 4 * s.Jxx = _
      field_simp
    rw [e]
    exact fkCf_units ..

theorem calcKC1_units (hE : U.HomogBay E) (hs : Clear1 U s) (hf : U.force = U.len ^ 3 ∨ s.fstack = none) :
    (U.blade1 s).calcKC E (U.bay B) size row0 col0 = (s.calcKC E B size row0 col0).map (out1 U U.line) := by
  unfold Blade1.calcKC
  refine bind_units' (rebuild1_units hE hs) fun s' h => ?_
  have hs' := rebuild1_clear hs h
  refine bind_units (g := optOut U U.line) (optPart_units fun b hb => kC_units hE (hs'.2 b hb) ..)
    fun t => ?_
  refine bind_units (g := scale U.line) ?_ fun L => ?_
  · rcases hf with hf | hf
    · have := partC_units (U := U) (E := E) (B := B) (size := size) (row0 := row0) (col0 := col0) s'
      rw [← hf, div_self U.force_ne, one_mul] at this
      exact this
    · unfold Blade1.partC
      rw [show (U.blade1 s').sec = s'.sec.map U.sect from rfl, rebuild1_plain hf h]
      rfl
  · show Except.ok _ = Except.ok _
    simp only [out1, scale_append]
    rfl

theorem partG_units (s : Blade1 K) :
    (U.blade1 s).partG E (U.bay B) size row0 col0 = (s.partG E B size row0 col0).map (scale U.line) := by
  unfold Blade1.partG
  rw [show (U.blade1 s).sec = s.sec.map U.sect from rfl]
  cases s.sec with
  | none => rfl
  | some c =>
    show toSparse size _ = (toSparse size _).map _
    have : (U.blade1 s).Fx.getD 0 = U.force * s.Fx.getD 0 := by
      show (s.Fx.map _).getD 0 = _
      cases s.Fx <;> simp
    rw [this, ← toSparse_units]
    exact congrArg _ (fkGf_units ..)

theorem calcKG1_units (hE : U.HomogBay E) (hs : Clear1 U s) (c : Option (CArg K)) :
    (U.blade1 s).calcKG E (U.bay B) size row0 col0 (c.map U.amps)
      = (s.calcKG E B size row0 col0 c).map (out1 U U.line) := by
  unfold Blade1.calcKG
  rw [isSome_map]
  refine ite_units Iff.rfl rfl ?_
  exact bind_units (rebuild1_units hE hs) fun s' => bind_units (partG_units s') fun L => rfl

theorem partM_units (s : Blade1 K) :
    (U.blade1 s).partM E (U.bay B) size row0 col0 = (s.partM E B size row0 col0).map (scale U.mass) := by
  unfold Blade1.partM
  rw [show (U.blade1 s).sec = s.sec.map U.sect from rfl]
  cases s.sec with
  | none => rfl
  | some c =>
    refine bind_units (pair_units s.panel1 s.panel2) fun pq => ?_
    refine bind_units (g := (U.len * ·)) (number_units _) fun bf => ?_
    simp only [both, skinThick_units]
    rw [← toSparse_units]
    have := fkMf_units U E.S E.I B.skin s.ys s.rho (skinThick pq.1 pq.2) 0 c.hf bf s.dbf row0 col0
    rw [mul_zero] at this
    exact congrArg _ this

theorem calcKM1_units (hE : U.HomogBay E) (hs : Clear1 U s) :
    (U.blade1 s).calcKM E (U.bay B) size row0 col0 = (s.calcKM E B size row0 col0).map (out1 U U.mass) := by
  unfold Blade1.calcKM
  refine bind_units' (rebuild1_units hE hs) fun s' h => ?_
  have hs' := rebuild1_clear hs h
  refine bind_units (g := optOut U U.mass) (optPart_units fun b hb => kM_units (hs'.2 b hb) ..)
    fun t => ?_
  refine bind_units (g := scale U.mass) (partM_units _) fun L => ?_
  show Except.ok _ = Except.ok _
  simp only [out1, scale_append]
  rfl

/-! ## Stiffeners with a flange as a panel -/

/-- What concerns one stiffener in `ClearBay`. -/
def Clear2 (U : UnitSys K) (s : Blade2 K) : Prop :=
  (∀ b, s.base = some b → U.Clear b.pan) ∧ ∀ f, s.flange = some f → U.Clear f.pan

theorem optLam_units {f f' : Shell K → Except Err (LamObj K)} {o : Option (Shell K)}
    (hf : ∀ b, f' (U.shell b) = (f b).map U.lamObj) :
    optLam f' (o.map U.shell) = (optLam f o).map (Option.map U.shell) := by
  cases o with
  | none => rfl
  | some b =>
    refine bind_units (g := U.lamObj) ?_ fun l => rfl
    rw [hf, lift_map]

theorem optLam_clear {f : Shell K → Except Err (LamObj K)} {o o' : Option (Shell K)}
    (h : optLam f o = .ok o') (ho : ∀ b, o = some b → U.Clear b.pan) : ∀ b, o' = some b → U.Clear b.pan := by
  cases o with
  | none => cases h; intro b hb; cases hb
  | some a =>
    obtain ⟨l, _, h⟩ := bind_ok.1 h
    cases h
    intro b hb
    cases hb
    exact ho a rfl

theorem rebuild2_units (hE : U.HomogBay E) (s : Blade2 K) :
    (U.blade2 s).rebuild E (U.bay B) = (s.rebuild E B).map U.blade2 := by
  unfold Blade2.rebuild
  refine bind_units (pair_units s.panel1 s.panel2) fun pq => ?_
  refine bind_units (optLam_units fun f => ?_) fun flange => bind_units (optLam_units fun f => ?_) fun base => rfl
  · have := hE.1 f.stack f.plyts f.laminaprops [] 0
    rw [mul_zero] at this
    exact this
  · have := hE.1 s.bstack s.bplyts s.blaminaprops [] (-skinThick pq.1 pq.2 / 2 - s.bplyts.sum / 2)
    rw [← this]
    simp only [both, skinThick_units]
    rw [show (U.blade2 s).bplyts = s.bplyts.map (U.len * ·) from rfl, sum_units]
    refine congrArg (E.mkLam _ _ _ _) ?_
    ring

theorem rebuild2_clear {s s' : Blade2 K} (hs : Clear2 U s) (h : s.rebuild E B = .ok s') : Clear2 U s' := by
  unfold Blade2.rebuild at h
  obtain ⟨pq, _, h⟩ := bind_ok.1 h
  obtain ⟨f, hf, h⟩ := bind_ok.1 h
  obtain ⟨b, hb, h⟩ := bind_ok.1 h
  cases h
  exact ⟨optLam_clear hb hs.1, optLam_clear hf hs.2⟩

/-- Constants and two panels. -/
def penYOut (U : UnitSys K) (t : (K × K) × Shell K × Shell K) : (K × K) × Shell K × Shell K :=
  ((U.area * t.1.1, U.force * t.1.2), U.shell t.2.1, U.shell t.2.2)

section
variable [IsStrictOrderedRing K]

theorem ktkrY_units {E : Env K} (hE : U.Homog E) (hU : 0 < U.len) (p q : Shell K) :
    ktkrY E (U.shell p) (U.shell q) = (ktkrY E p q).map (penYOut U) := by
  unfold ktkrY
  refine bind_units (rebuild_units hE p) fun p => bind_units (rebuild_units hE q) fun q => ?_
  rw [show (U.shell p).lam = p.lam.map U.lamObj from rfl, show (U.shell q).lam = q.lam.map U.lamObj from rfl]
  have hy : ktUnit U "ycte" = U.area := by simp [ktUnit, lower]
  cases p.lam with
  | none => rfl
  | some lp =>
    cases q.lam with
    | none => rfl
    | some lq =>
      simp only [Option.map_some, calcKtKr_units hU, hy]
      rcases calcKtKr (penOf p lp) (penOf q lq) "ycte" with _ | ⟨kt, _ | kr⟩ <;> rfl

end

theorem setPanel_units (i : ℕ) (p : Shell K) :
    (U.bay B).setPanel i (U.shell p) = U.bay (B.setPanel i p) := by
  simp [Bay.setPanel, UnitSys.bay, List.map_set]

/-- Constants, base, flange and bay. -/
def pen2Out (U : UnitSys K) (t : (K × K) × Option (Shell K) × Shell K × Bay K) :
    (K × K) × Option (Shell K) × Shell K × Bay K :=
  ((U.area * t.1.1, U.force * t.1.2), t.2.1.map U.shell, U.shell t.2.2.1, U.bay t.2.2.2)

/-- A matrix, a stiffener and the bay afterwards. -/
def out2 (U : UnitSys K) (k : K) (t : Coo K × Blade2 K × Bay K) : Coo K × Blade2 K × Bay K :=
  (scale k t.1, U.blade2 t.2.1, U.bay t.2.2)

section
variable [IsStrictOrderedRing K]

theorem ktkr2_units (hE : U.HomogBay E) (hU : 0 < U.len) (s : Blade2 K) (base : Option (Shell K))
    (f : Shell K) :
    (U.blade2 s).ktkr E (U.bay B) (base.map U.shell) (U.shell f) = (s.ktkr E B base f).map (pen2Out U) := by
  unfold Blade2.ktkr
  cases base with
  | none =>
    refine bind_units (pair_units s.panel1 s.panel2) fun pq => ?_
    refine bind_units (ktkrY_units hE.1 hU _ _) fun t => ?_
    show Except.ok _ = Except.ok _
    rw [setPanel_units]
    rfl
  | some sh => exact bind_units (ktkrY_units hE.1 hU _ _) fun t => rfl

theorem flangeC_units (hE : U.HomogBay E) (hU : 0 < U.len) (size off : ℕ) (s : Blade2 K) (hs : Clear2 U s)
    (base : Option (Shell K)) :
    (U.blade2 s).flangeC E (U.bay B) size off (base.map U.shell)
      = (s.flangeC E B size off base).map (out2 U U.line) := by
  unfold Blade2.flangeC
  rw [show (U.blade2 s).flange = s.flange.map U.shell from rfl]
  cases hf : s.flange with
  | none =>
    show Except.ok _ = Except.ok _
    simp only [out2, scale_nil]
    simp only [UnitSys.blade2, hf]
  | some f =>
    refine bind_units (kC_units hE (hs.2 f hf) ..) fun t => ?_
    refine bind_units (ktkr2_units hE hU s base _) fun u => ?_
    refine bind_units (g := scale U.line) ?_ fun L => ?_
    · rw [← toSparse_units]
      refine congrArg _ ?_
      rw [panel_units]
      exact bladeConn_units ..
    · show Except.ok _ = Except.ok _
      simp only [out2, scale_append]
      rfl

theorem calcKC2_units (hE : U.HomogBay E) (hU : 0 < U.len) (size off : ℕ) (s : Blade2 K)
    (hs : Clear2 U s) :
    (U.blade2 s).calcKC E (U.bay B) size off = (s.calcKC E B size off).map (out2 U U.line) := by
  unfold Blade2.calcKC
  refine bind_units' (rebuild2_units hE s) fun s' h => ?_
  have hs' := rebuild2_clear hs h
  refine bind_units (g := optOut U U.line) (optPart_units fun b hb => kC_units hE (hs'.1 b hb) ..)
    fun t => ?_
  refine bind_units (flangeC_units hE hU size off s' hs' _) fun u => ?_
  show Except.ok _ = Except.ok _
  simp only [out2, scale_append]

end

theorem calcKG2_units (hE : U.HomogBay E) (size off : ℕ) (s : Blade2 K) (hs : Clear2 U s) :
    (U.blade2 s).calcKG E (U.bay B) size off = (s.calcKG E B size off).map (out2 U U.line) := by
  unfold Blade2.calcKG
  refine bind_units' (rebuild2_units hE s) fun s' h => ?_
  have hs' := rebuild2_clear hs h
  exact bind_units (g := optOut U U.line)
    (optPart_units fun b hb => kG_units hE (hs'.2 b hb) off off size none) fun t => rfl

theorem calcKM2_units (hE : U.HomogBay E) (size off : ℕ) (s : Blade2 K) (hs : Clear2 U s) :
    (U.blade2 s).calcKM E (U.bay B) size off = (s.calcKM E B size off).map (out2 U U.mass) := by
  unfold Blade2.calcKM
  refine bind_units' (rebuild2_units hE s) fun s' h => ?_
  have hs' := rebuild2_clear hs h
  refine bind_units (g := optOut U U.mass) (optPart_units fun b hb => kM_units (hs'.1 b hb) ..)
    fun t => ?_
  refine bind_units (g := optOut U U.mass) (optPart_units fun b hb => kM_units (hs'.2 b hb) ..)
    fun u => ?_
  show Except.ok _ = Except.ok _
  simp only [out2, scale_append]
  rfl

/-! ## The bay -/

theorem rebuildPanels_units {E : Env K} (hE : U.Homog E) (m : Option String) (l : List (Shell K)) :
    rebuildPanels E m (l.map U.shell)
      = (rebuildPanels E m l).map fun t => (t.1, t.2.map U.shell) := by
  induction l generalizing m with
  | nil => rfl
  | cons p l ih =>
    refine bind_units (rebuild_units hE p) fun p' => ?_
    cases m with
    | none => exact bind_units (ih p'.model) fun t => rfl
    | some x => exact ite_units Iff.rfl rfl (bind_units (ih (some x)) fun t => rfl)

theorem rebuildPanels_mem {E : Env K} {m : Option String} {l : List (Shell K)}
    {t : Option String × List (Shell K)} (h : rebuildPanels E m l = .ok t) :
    ∀ p ∈ t.2, ∃ q ∈ l, p.pan = q.pan := by
  induction l generalizing m t with
  | nil => cases h; simp
  | cons q l ih =>
    obtain ⟨q', hq, h⟩ := bind_ok.1 h
    have key : ∀ {m' : Option String}, (do
        let (m, ps) ← rebuildPanels E m' l
        return (m, q' :: ps)) = Except.ok t → ∀ p ∈ t.2, ∃ q₁ ∈ q :: l, p.pan = q₁.pan := by
      intro m' h
      obtain ⟨u, hu, h⟩ := bind_ok.1 h
      cases h
      intro p hp
      rcases List.mem_cons.1 hp with rfl | hp
      · exact ⟨q, List.mem_cons_self .., rebuild_pan hq⟩
      · obtain ⟨q₁, h1, h2⟩ := ih hu p hp
        exact ⟨q₁, List.mem_cons_of_mem _ h1, h2⟩
    cases m with
    | none => exact key h
    | some x =>
      dsimp only at h
      split at h
      · cases h
      · exact key h

theorem mapE_units {α : Type} {f f' : α → Except Fail α} {g : α → α} {l : List α}
    (h : ∀ a ∈ l, f' (g a) = (f a).map g) : mapE f' (l.map g) = (mapE f l).map (List.map g) := by
  induction l with
  | nil => rfl
  | cons a l ih =>
    refine bind_units (h a (List.mem_cons_self ..)) fun b => ?_
    exact bind_units (ih fun x hx => h x (List.mem_cons_of_mem _ hx)) fun bs => rfl

theorem mapE_mem {α : Type} {f : α → Except Fail α} {l l' : List α} (h : mapE f l = .ok l') :
    ∀ b ∈ l', ∃ a ∈ l, f a = .ok b := by
  induction l generalizing l' with
  | nil => cases h; simp
  | cons a l ih =>
    obtain ⟨b, hb, h⟩ := bind_ok.1 h
    obtain ⟨bs, hbs, h⟩ := bind_ok.1 h
    cases h
    intro x hx
    rcases List.mem_cons.1 hx with rfl | hx
    · exact ⟨a, List.mem_cons_self .., hb⟩
    · obtain ⟨y, h1, h2⟩ := ih hbs x hx
      exact ⟨y, List.mem_cons_of_mem _ h1, h2⟩

theorem clear1 (hB : U.ClearBay B) {s : Blade1 K} (hs : s ∈ B.blade1) : Clear1 U s :=
  ⟨hB.strips s hs, hB.bases1 s hs⟩

theorem clear2 (hB : U.ClearBay B) {s : Blade2 K} (hs : s ∈ B.blade2) : Clear2 U s :=
  ⟨hB.bases2 s hs, hB.flanges s hs⟩

theorem rebuildBay_units (hE : U.HomogBay E) (hB : U.ClearBay B) :
    (U.bay B).rebuild E = (B.rebuild E).map U.bay := by
  unfold Bay.rebuild
  refine bind_units (rebuildPanels_units hE.1 B.model B.panels) fun t => ?_
  refine bind_units (mapE_units (g := U.blade1) fun s hs =>
    rebuild1_units (B := { B with model := t.1, panels := t.2 }) hE (clear1 hB hs)) fun b1 => ?_
  exact bind_units (mapE_units (g := U.blade2) fun s hs =>
    rebuild2_units (B := { B with model := t.1, panels := t.2, blade1 := b1 }) hE s) fun b2 => rfl

theorem rebuild1_fstack {s s' : Blade1 K} (h : s.rebuild E B = .ok s') : s'.fstack = s.fstack := by
  unfold Blade1.rebuild at h
  obtain ⟨pq, _, h⟩ := bind_ok.1 h
  obtain ⟨plies, _, h⟩ := bind_ok.1 h
  obtain ⟨base, hb, h⟩ := bind_ok.1 h
  obtain ⟨bf, _, h⟩ := bind_ok.1 h
  obtain ⟨sec, _, h⟩ := bind_ok.1 h
  cases h
  rfl

theorem rebuildBay_clear (hB : U.ClearBay B) {B' : Bay K} (h : B.rebuild E = .ok B') :
    U.ClearBay B' ∧ ((∀ s ∈ B.blade1, s.fstack = none) → ∀ s ∈ B'.blade1, s.fstack = none) := by
  unfold Bay.rebuild at h
  obtain ⟨t, ht, h⟩ := bind_ok.1 h
  obtain ⟨b1, h1, h⟩ := bind_ok.1 h
  obtain ⟨b2, h2, h⟩ := bind_ok.1 h
  cases h
  refine ⟨⟨fun p hp => ?_, fun s hs => ?_, fun s hs => ?_, fun s hs => ?_, fun s hs => ?_⟩, fun hf s hs => ?_⟩
  · obtain ⟨q, hq, e⟩ := rebuildPanels_mem ht p hp
    rw [e]
    exact hB.panels q hq
  · obtain ⟨a, ha, h⟩ := mapE_mem h1 s hs
    exact (rebuild1_clear (clear1 hB ha) h).1
  · obtain ⟨a, ha, h⟩ := mapE_mem h1 s hs
    exact (rebuild1_clear (clear1 hB ha) h).2
  · obtain ⟨a, ha, h⟩ := mapE_mem h2 s hs
    exact (rebuild2_clear (clear2 hB ha) h).1
  · obtain ⟨a, ha, h⟩ := mapE_mem h2 s hs
    exact (rebuild2_clear (clear2 hB ha) h).2
  · obtain ⟨a, ha, h⟩ := mapE_mem h1 s hs
    rw [rebuild1_fstack h]
    exact hf a ha

theorem shellSize_units (s : Shell K) : (U.shell s).getSize = s.getSize := rfl

theorem flangeSizes_units (l : List (Blade2 K)) : flangeSizes (l.map U.blade2) = flangeSizes l := by
  induction l with
  | nil => rfl
  | cons s l ih =>
    rw [List.map_cons, flangeSizes, flangeSizes, ih, show (U.blade2 s).flange = s.flange.map U.shell from rfl]
    cases s.flange <;> rfl

theorem sizeBay_units (B : Bay K) : (U.bay B).getSize = B.getSize := by
  unfold Bay.getSize
  rw [show (U.bay B).skinSize = B.skinSize from rfl, show (U.bay B).blade2 = B.blade2.map U.blade2 from rfl,
    flangeSizes_units]

theorem sumLoop_units {α : Type} {f f' : α → Except Fail (Coo K × α)} {g : α → α} {k : K} {l : List α}
    (h : ∀ a ∈ l, f' (g a) = (f a).map fun t => (scale k t.1, g t.2)) :
    sumLoop f' (l.map g) = (sumLoop f l).map fun t => (scale k t.1, t.2.map g) := by
  induction l with
  | nil => rfl
  | cons a l ih =>
    refine bind_units (h a (List.mem_cons_self ..)) fun b => ?_
    refine bind_units (ih fun x hx => h x (List.mem_cons_of_mem _ hx)) fun bs => ?_
    show Except.ok _ = Except.ok _
    simp only [scale_append, List.map_cons]

theorem flangeSize_units (s : Blade2 K) : flangeSize (U.blade2 s) = flangeSize s := by
  unfold flangeSize
  rw [show (U.blade2 s).flange = s.flange.map U.shell from rfl]
  cases s.flange <;> rfl

theorem blade2Loop_units {f f' : Bay K → ℕ → Blade2 K → Except Fail (Coo K × Blade2 K × Bay K)} {k : K}
    {l : List (Blade2 K)} (h : ∀ B off, ∀ s ∈ l, f' (U.bay B) off (U.blade2 s) = (f B off s).map (out2 U k))
    (B : Bay K) (off : ℕ) :
    blade2Loop f' (U.bay B) off (l.map U.blade2)
      = (blade2Loop f B off l).map fun t => (scale k t.1, t.2.1.map U.blade2, U.bay t.2.2) := by
  induction l generalizing B off with
  | nil => rfl
  | cons s l ih =>
    refine bind_units (h B off s (List.mem_cons_self ..)) fun t => ?_
    simp only [out2, flangeSize_units]
    refine bind_same fun d => ?_
    refine bind_units (ih (fun B off s hs => h B off s (List.mem_cons_of_mem _ hs)) _ _) fun u => ?_
    show Except.ok _ = Except.ok _
    simp only [scale_append, List.map_cons]

/-- A matrix and the bay afterwards. -/
def bayOut (U : UnitSys K) (k : K) (t : Coo K × Bay K) : Coo K × Bay K := (scale k t.1, U.bay t.2)

theorem assemble_units (hE : U.HomogBay E) (hB : U.ClearBay B) {k : K}
    {fp fp' : ℕ → Shell K → Except Fail (Coo K × Shell K)}
    {f1 f1' : Bay K → ℕ → Blade1 K → Except Fail (Coo K × Blade1 K)}
    {f2 f2' : ℕ → Bay K → ℕ → Blade2 K → Except Fail (Coo K × Blade2 K × Bay K)}
    (hp : ∀ size s, U.Clear s.pan → fp' size (U.shell s) = (fp size s).map (outUnits U k))
    (h1 : ∀ B' : Bay K, B.rebuild E = .ok B' → ∀ (C : Bay K) size, ∀ s ∈ B'.blade1,
      f1' (U.bay C) size (U.blade1 s) = (f1 C size s).map (out1 U k))
    (h2 : ∀ size B off s, Clear2 U s → f2' size (U.bay B) off (U.blade2 s) = (f2 size B off s).map (out2 U k)) :
    (U.bay B).assemble E fp' f1' f2' = (B.assemble E fp f1 f2).map (bayOut U k) := by
  unfold Bay.assemble
  refine bind_units' (rebuildBay_units hE hB) fun B' hr => ?_
  obtain ⟨hB', -⟩ := rebuildBay_clear hB hr
  rw [sizeBay_units]
  refine bind_same fun size => ?_
  refine bind_units (sumLoop_units (g := U.shell) (k := k) fun s hs => hp size s (hB'.panels s hs)) fun t => ?_
  refine bind_units (sumLoop_units (g := U.blade1) (k := k) fun s hs =>
    h1 B' hr { B' with panels := t.2 } size s hs) fun u => ?_
  refine bind_same fun off => ?_
  refine bind_units (blade2Loop_units (k := k) (fun B off s hs => h2 size B off s (clear2 hB' hs))
    { B' with panels := t.2, blade1 := u.2 } off) fun v => ?_
  dsimp only
  rw [← scale_append, ← scale_append]
  exact bind_units (finSum_units (by simp [UnitSys.bay]) true k _) fun L => rfl

theorem calcKGBay_units (hE : U.HomogBay E) (hB : U.ClearBay B) (c : Option (CArg K)) :
    (U.bay B).calcKG E (c.map U.amps) = (B.calcKG E c).map (bayOut U U.line) :=
  assemble_units hE hB (fun size s hs => kG_units hE hs 0 0 size c)
    (fun B' hr C size s hs => calcKG1_units hE (clear1 (rebuildBay_clear hB hr).1 hs) c)
    (fun size B off s hs => calcKG2_units hE size off s hs)

theorem calcKMBay_units (hE : U.HomogBay E) (hB : U.ClearBay B) :
    (U.bay B).calcKM E = (B.calcKM E).map (bayOut U U.mass) :=
  assemble_units hE hB (fun size s hs => kM_units hs 0 0 size)
    (fun B' hr C size s hs => calcKM1_units hE (clear1 (rebuildBay_clear hB hr).1 hs))
    (fun size B off s hs => calcKM2_units hE size off s hs)

theorem calcKCBay_units [IsStrictOrderedRing K] (hE : U.HomogBay E) (hU : 0 < U.len) (hB : U.ClearBay B)
    (hf : U.force = U.len ^ 3 ∨ ∀ s ∈ B.blade1, s.fstack = none) :
    (U.bay B).calcKC E = (B.calcKC E).map (bayOut U U.line) :=
  assemble_units hE hB (fun size s hs => kC_units hE hs 0 0 size)
    (fun B' hr C size s hs => calcKC1_units hE (clear1 (rebuildBay_clear hB hr).1 hs)
      (hf.imp_right fun hf => (rebuildBay_clear hB hr).2 hf s hs))
    (fun size B off s hs => calcKC2_units hE hU size off s hs)

end bay

end Model

end Verif
