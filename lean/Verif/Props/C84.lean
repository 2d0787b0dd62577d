import Verif.Spec.Flange
import Verif.Props.C52

/-!
# C84: the section constants of a 1D flange

The claim is `IsSection` for `E1` and `S1`, `F1 = bf² E1 / 12`, and the axis of the flange above base and
skin.  It is violated for `S1`: the positions of the plies are measured from the lower face (`face`,
`plane_violated`), and the coupling is reduced with `q16` in the place of `q26` (`coupling_violated`).
Everything else holds (`axial`, `bending`, `axis`), and `S1` holds for plies without coupling
(`section_partial`) and in the cases of `section_iff`.
-/

set_option linter.unusedSectionVars false

namespace Verif.C84

open Model Spec

variable {K : Type} [Field K] [LinearOrder K]

/-- The axial stress as the code has it. -/
def axialOf (p : FullPly K) : K := p.q11 - p.q12 ^ 2 / p.q22

/-- The shear stress as the code has it. -/
def shearOf (p : FullPly K) : K := p.q16 - p.q12 * p.q16 / p.q22

theorem integral_cons (f : FullPly K → K) (z : K) (p : FullPly K) (l : List (FullPly K)) :
    integral f z (p :: l) = f p * p.h + integral f (z + p.h) l := by
  simp only [integral, layers, List.map_cons, List.sum_cons]
  ring

/-- The position does not matter for the integral of a constant. -/
theorem integral_shift (f : FullPly K → K) (z z' : K) (l : List (FullPly K)) :
    integral f z l = integral f z' l := by
  induction l generalizing z z' with
  | nil => rfl
  | cons p l ih => rw [integral_cons, integral_cons, ih]

theorem moment_cons (f : FullPly K → K) (z : K) (p : FullPly K) (l : List (FullPly K)) :
    firstMoment f z (p :: l) = f p * (((z + p.h) ^ 2 - z ^ 2) / 2) + firstMoment f (z + p.h) l := rfl

/-- Change of the reference plane. -/
theorem moment_shift [CharZero K] (f : FullPly K → K) (z d : K) (l : List (FullPly K)) :
    firstMoment f (z + d) l = firstMoment f z l + d * integral f z l := by
  induction l generalizing z with
  | nil => simp [firstMoment, integral, layers]
  | cons p l ih =>
    rw [moment_cons, moment_cons, integral_cons, show z + d + p.h = z + p.h + d by ring, ih]
    ring

theorem loop_sums [CharZero K] (l : List (FullPly K)) (z h : K) (es : K × K) :
    plyLoop (z - h / 2) h (l.map FullPly.read) es
      = (es.1 + integral axialOf z l, es.2 - firstMoment shearOf z l) := by
  induction l generalizing z h es with
  | nil => simp [plyLoop, integral, firstMoment, layers]
  | cons p l ih =>
    have e : z - h / 2 + (h / 2 + p.h / 2) = z + p.h - p.h / 2 := by ring
    have e' : plyLoop (z - h / 2) h ((p :: l).map FullPly.read) es
        = plyLoop (z + p.h - p.h / 2) p.h (l.map FullPly.read)
          (es.1 + p.h * axialOf p, es.2 + -(z + p.h - p.h / 2) * p.h * shearOf p) := by
      rw [← e]; rfl
    rw [e', ih, integral_cons, moment_cons]
    refine Prod.ext ?_ ?_
    · show es.1 + p.h * axialOf p + _ = _
      ring
    · show es.2 + -(z + p.h - p.h / 2) * p.h * shearOf p - _ = _
      ring

/-- What the loop over the plies gives: the moment is taken about the lower face. -/
theorem face [CharZero K] (l : List (FullPly K)) (hl : l ≠ []) :
    plySums (l.map FullPly.read) = .ok (integral axialOf 0 l, -firstMoment shearOf 0 l) := by
  cases l with
  | nil => exact absurd rfl hl
  | cons p l =>
    have e : plySums ((p :: l).map FullPly.read)
        = .ok (plyLoop (p.h - p.h / 2) p.h (l.map FullPly.read)
          (0 + p.h * axialOf p, 0 + -(p.h - p.h / 2) * p.h * shearOf p)) := by
      rw [show p.h - p.h / 2 = p.h / 2 by ring]; rfl
    rw [e, loop_sums, integral_cons, moment_cons]
    refine congrArg Except.ok (Prod.ext ?_ ?_)
    · show 0 + p.h * axialOf p + _ = _
      rw [zero_add, zero_add]; ring
    · show 0 + -(p.h - p.h / 2) * p.h * shearOf p - _ = _
      rw [zero_add]; ring

/-- The response of a ply is unique, and its axial part is the one of the code. -/
theorem response_iff (p : FullPly K) (h : p.q22 ≠ 0) (s t : K) :
    p.Response s t ↔ s = axialOf p ∧ t = p.q16 - p.q12 * p.q26 / p.q22 := by
  constructor
  · rintro ⟨e, h1, rfl, rfl⟩
    have he : e = -p.q12 / p.q22 := by
      rw [eq_div_iff h]
      linear_combination h1
    subst he
    unfold axialOf
    constructor <;> ring
  · rintro ⟨rfl, rfl⟩
    refine ⟨-p.q12 / p.q22, ?_, ?_, ?_⟩
    · rw [mul_div_cancel₀ _ h]; ring
    · unfold axialOf; ring
    · ring

theorem integral_congr {f g : FullPly K → K} {l : List (FullPly K)} (h : ∀ p ∈ l, f p = g p) (z : K) :
    integral f z l = integral g z l := by
  induction l generalizing z with
  | nil => rfl
  | cons p l ih =>
    rw [integral_cons, integral_cons, h p List.mem_cons_self, ih fun q hq => h q (List.mem_cons_of_mem _ hq)]

theorem moment_congr {f g : FullPly K → K} {l : List (FullPly K)} (h : ∀ p ∈ l, f p = g p) (z : K) :
    firstMoment f z l = firstMoment g z l := by
  induction l generalizing z with
  | nil => rfl
  | cons p l ih =>
    rw [moment_cons, moment_cons, h p List.mem_cons_self, ih fun q hq => h q (List.mem_cons_of_mem _ hq)]

/-- `E1` is the axial stiffness of the stack. -/
theorem axial [CharZero K] (l : List (FullPly K)) (h : ∀ p ∈ l, p.q22 ≠ 0) (E1 S1 : K)
    (hs : plySums (l.map FullPly.read) = .ok (E1, S1)) (s t : FullPly K → K)
    (hr : ∀ p ∈ l, p.Response (s p) (t p)) : E1 = integral s 0 l := by
  rcases eq_or_ne l [] with rfl | hl
  · cases hs
  rw [face l hl] at hs
  cases hs
  exact integral_congr (fun p hp => ((response_iff p (h p hp) _ _).1 (hr p hp)).1.symm) 0

/-- When both constants are right: the two errors of `S1` together vanish. -/
theorem section_iff [CharZero K] (l : List (FullPly K)) (h : ∀ p ∈ l, p.q22 ≠ 0) (E1 S1 : K)
    (hs : plySums (l.map FullPly.read) = .ok (E1, S1)) :
    IsSection l E1 S1 ↔
      firstMoment (fun p => p.q12 * (p.q26 - p.q16) / p.q22) (-(thickness l / 2)) l
        + thickness l / 2 * integral shearOf 0 l = 0 := by
  rcases eq_or_ne l [] with rfl | hl
  · cases hs
  have hlin : ∀ z (l : List (FullPly K)),
      firstMoment (fun p => p.q16 - p.q12 * p.q26 / p.q22) z l
        = firstMoment shearOf z l - firstMoment (fun p => p.q12 * (p.q26 - p.q16) / p.q22) z l := by
    intro z l
    induction l generalizing z with
    | nil => simp [firstMoment, layers]
    | cons p l ih =>
      simp only [moment_cons, ih, shearOf]
      ring
  have hm := moment_shift shearOf (-(thickness l / 2)) (thickness l / 2) l
  rw [neg_add_cancel, integral_shift shearOf _ 0] at hm
  rw [face l hl] at hs
  cases hs
  constructor
  · rintro ⟨s, t, hr, -, h2⟩
    rw [moment_congr (g := fun p => p.q16 - p.q12 * p.q26 / p.q22)
      (fun p hp => ((response_iff p (h p hp) _ _).1 (hr p hp)).2), hlin] at h2
    linear_combination -h2 - hm
  · intro e
    refine ⟨axialOf, fun p => p.q16 - p.q12 * p.q26 / p.q22,
      fun p hp => (response_iff p (h p hp) _ _).2 ⟨rfl, rfl⟩, rfl, ?_⟩
    rw [hlin]
    linear_combination -e - hm

/-- Plies without coupling of axial strain and shear, for example with the angles 0 and 90: all is right.
Missing: plies with coupling. -/
theorem section_partial [CharZero K] (l : List (FullPly K))
    (h : ∀ p ∈ l, p.q22 ≠ 0 ∧ p.q16 = 0 ∧ p.q26 = 0) (E1 S1 : K)
    (hs : plySums (l.map FullPly.read) = .ok (E1, S1)) : IsSection l E1 S1 ∧ S1 = 0 := by
  have h0 : ∀ (f : FullPly K → K), (∀ p ∈ l, f p = 0) → ∀ z, firstMoment f z l = 0 ∧ integral f z l = 0 := by
    intro f hf z
    rw [moment_congr (g := fun _ => 0) hf, integral_congr (g := fun _ => 0) hf]
    simp [firstMoment, integral]
  have h1 : ∀ p ∈ l, shearOf p = 0 := fun p hp => by simp [shearOf, (h p hp).2.1]
  refine ⟨(section_iff l (fun p hp => (h p hp).1) E1 S1 hs).2 ?_, ?_⟩
  · rw [(h0 _ (fun p hp => by simp [(h p hp).2.1, (h p hp).2.2]) _).1, (h0 _ h1 _).2, mul_zero, add_zero]
  · rcases eq_or_ne l [] with rfl | hl
    · cases hs
    rw [face l hl, (h0 _ h1 _).1, neg_zero] at hs
    cases hs
    rfl

/-- One ply with coupling: the claim needs `S1 = 0`, and the code has another number. -/
theorem plane_violated [CharZero K] (p : FullPly K) (h : p.q22 ≠ 0) (hh : p.h ≠ 0)
    (hc : p.q16 ≠ 0) (hq : p.q12 ≠ p.q22) (E1 S1 : K)
    (hs : plySums [p.read] = .ok (E1, S1)) :
    S1 ≠ 0 ∧ ∀ e s, IsSection [p] e s → s = 0 := by
  have h2 : (2 : K) ≠ 0 := two_ne_zero
  constructor
  · have := face [p] (by simp)
    rw [List.map_cons, List.map_nil, hs] at this
    cases this
    rw [moment_cons]
    simp only [firstMoment, layers, List.map_nil, List.sum_nil, add_zero, zero_add, shearOf]
    have : p.q16 - p.q12 * p.q16 / p.q22 ≠ 0 := by
      rw [show p.q16 - p.q12 * p.q16 / p.q22 = p.q16 * (p.q22 - p.q12) / p.q22 by field_simp]
      exact div_ne_zero (mul_ne_zero hc (sub_ne_zero.2 (Ne.symm hq))) h
    refine neg_ne_zero.2 (mul_ne_zero this ?_)
    rw [show ((p.h ^ 2 - 0 ^ 2) / 2 : K) = p.h ^ 2 / 2 by ring]
    exact div_ne_zero (pow_ne_zero 2 hh) h2
  · rintro e s ⟨_, t, -, -, rfl⟩
    rw [moment_cons]
    simp only [firstMoment, layers, List.map_nil, List.sum_nil, add_zero, thickness, List.map_cons,
      List.sum_cons]
    ring

/-- Two stacks that differ in `q26` only: the code has the same `S1` for both, and the claim asks for two
different ones. -/
theorem coupling_violated :
    ∃ l l' : List (FullPly ℚ), l.map FullPly.read = l'.map FullPly.read ∧
      (∃ E S, plySums (l.map FullPly.read) = .ok (E, S)) ∧
      ∃ e s e' s', IsSection l e s ∧ IsSection l' e' s' ∧ s ≠ s' := by
  let p : FullPly ℚ := ⟨1, 2, 1, 1, 2, 1, 1⟩
  let m : FullPly ℚ := ⟨1, 2, 1, -1, 2, -1, 1⟩
  let p' : FullPly ℚ := ⟨1, 2, 1, 1, 2, 0, 1⟩
  let m' : FullPly ℚ := ⟨1, 2, 1, -1, 2, 0, 1⟩
  have key : ∀ l : List (FullPly ℚ), (∀ q ∈ l, q.q22 ≠ 0) → IsSection l (integral axialOf 0 l)
      (-firstMoment (fun q => q.q16 - q.q12 * q.q26 / q.q22) (-(thickness l / 2)) l) := fun l h =>
    ⟨axialOf, _, fun q hq => (response_iff q (h q hq) _ _).2 ⟨rfl, rfl⟩, rfl, rfl⟩
  refine ⟨[p, m], [p', m'], rfl, ⟨_, _, rfl⟩, _, _, _, _, key _ ?_, key _ ?_, ?_⟩
  · simp [p, m]
  · simp [p', m']
  · simp [firstMoment, layers, thickness, p, m, p', m']
    norm_num

/-! ## The stiffener -/

theorem blade_ok {E : BayEnv K} {B : Bay K} {s t : Blade1 K} (h : s.rebuild E B = .ok t) :
    ∃ pq pl ba bf se, B.pair s.panel1 s.panel2 = .ok pq ∧ s.flangePlies E = .ok pl ∧
      s.freshBase B (skinThick pq.1 pq.2) = .ok ba ∧ number s.bf = .ok bf ∧
      sectionOf s.hf bf pl = .ok se ∧ t = { s with
        base := ba.1, sec := se, dbf := bf / 2 + ba.2 + skinThick pq.1 pq.2 / 2
        Jxx := s.hf * bf ^ 3 / 12 + bf * s.hf ^ 3 / 12 } := by
  unfold Blade1.rebuild at h
  obtain ⟨pq, g1, h⟩ := bind_ok.1 h
  obtain ⟨pl, g2, h⟩ := bind_ok.1 h
  obtain ⟨ba, g3, h⟩ := bind_ok.1 h
  obtain ⟨bf, g4, h⟩ := bind_ok.1 h
  obtain ⟨se, g5, h⟩ := bind_ok.1 h
  exact ⟨pq, pl, ba, bf, se, g1, g2, g3, g4, g5, (Except.ok.inj h).symm⟩

theorem number_ok {o : Option K} {x : K} (h : number o = .ok x) : o = some x := by
  cases o with
  | none => cases h
  | some v => cases h; rfl

/-- A stiffener with a flange: the constants are those of the plies of the flange, `F1` is that of a blade of
the height `bf` with `E1` spread over it, and `Jxx` is the polar second moment of the section. -/
theorem bending {E : BayEnv K} {B : Bay K} {s t : Blade1 K} (h : s.rebuild E B = .ok t)
    (st : List K) (hst : s.fstack = some st) :
    ∃ bf l sec, s.bf = some bf ∧ E.plies st s.fplyts s.flaminaprops = .ok l ∧ t.sec = some sec ∧
      sec.hf = s.fplyts.sum ∧ plySums l = .ok (sec.E1, sec.S1) ∧ sec.F1 = sec.E1 * bf ^ 2 / 12 ∧
      t.Jxx = bf * sec.hf * (bf ^ 2 + sec.hf ^ 2) / 12 := by
  obtain ⟨pq, pl, ba, bf, se, -, g2, -, g4, g5, rfl⟩ := blade_ok h
  unfold Blade1.flangePlies at g2
  simp only [hst] at g2
  obtain ⟨_, -, g2⟩ := bind_ok.1 g2
  obtain ⟨l, hl, g2⟩ := bind_ok.1 g2
  cases g2
  have hl' : E.plies st s.fplyts s.flaminaprops = .ok l := by
    unfold lift at hl
    cases e : E.plies st s.fplyts s.flaminaprops with
    | error _ => rw [e] at hl; cases hl
    | ok v => rw [e] at hl; cases hl; rfl
  obtain ⟨ef, hef, g5⟩ := bind_ok.1 g5
  cases g5
  have hhf : s.hf = s.fplyts.sum := by unfold Blade1.hf; rw [hst]
  refine ⟨bf, l, _, number_ok g4, hl', rfl, hhf, hef, ?_, ?_⟩
  · show bf ^ 2 / 12 * ef.1 = ef.1 * bf ^ 2 / 12
    ring
  · show s.hf * bf ^ 3 / 12 + bf * s.hf ^ 3 / 12 = bf * s.hf * (bf ^ 2 + s.hf ^ 2) / 12
    ring

/-- The middle of the flange stands on the base, and the base on the skin: half of the mean thickness of the
two panels, the thickness of the base if there is one, and half of the height. -/
theorem axis {E : BayEnv K} {B : Bay K} {s t : Blade1 K} (h : s.rebuild E B = .ok t) :
    ∃ bf p q, s.bf = some bf ∧ B.panels[s.panel1]? = some p ∧ B.panels[s.panel2]? = some q ∧
      t.dbf = (p.plyts.sum + q.plyts.sum) / 2 / 2 + (if s.bstack = none then 0 else s.bplyts.sum) + bf / 2 := by
  obtain ⟨pq, pl, ba, bf, se, g1, -, g3, g4, -, rfl⟩ := blade_ok h
  obtain ⟨k1, k2⟩ := C52.pair_panels g1
  have hb : ba.2 = if s.bstack = none then 0 else s.bplyts.sum := by
    unfold Blade1.freshBase at g3
    cases e : s.bstack with
    | none => simp only [e] at g3; cases g3; rw [if_pos rfl]
    | some v =>
      simp only [e] at g3
      obtain ⟨bb, -, g3⟩ := bind_ok.1 g3
      cases g3
      rw [if_neg (by simp)]
  refine ⟨bf, pq.1, pq.2, number_ok g4, k1, k2, ?_⟩
  show bf / 2 + ba.2 + skinThick pq.1 pq.2 / 2 = _
  rw [hb]
  unfold skinThick
  ring

/-! ## Concrete cases -/

/-- A ply with an angle. -/
def ply : FullPly ℚ := ⟨1 / 4, 60, 30, 20, 60, 20, 35⟩

example : ∃ E S, plySums [ply.read] = .ok (E, S) ∧ S ≠ 0 ∧ ∀ e s, IsSection [ply] e s → s = 0 := by
  refine ⟨_, _, rfl, ?_⟩
  exact plane_violated ply (by norm_num [ply]) (by norm_num [ply]) (by norm_num [ply]) (by norm_num [ply])
    _ _ rfl

/-- A stiffener with a base and a flange of two plies in a bay of two panels. -/
example : (C52.stiffened C52.ply C52.ply).toOption.bind (fun B => (B.rebuild C52.env).toOption.map fun R =>
      R.blade1.map fun s => (s.rebuild C52.env R).toOption.map fun t => [t.dbf, (t.sec.map Section.E1).getD 0])
    = some [some [(1 / 2 + 1 / 2) / 2 / 2 + 1 / 2 + 1 / 3 / 2, 1 / 2 * (5 / 3)]] := by
  decide +kernel

/-- Two angles that balance each other. -/
example : IsSection [ply, { ply with q16 := -20, q26 := -20 }] (45 / 2) (5 / 8) := by
  refine (section_iff _ (by simp [ply]) _ _ ?_).2 ?_
  · have : plySums ([ply, { ply with q16 := -20, q26 := -20 }].map FullPly.read) = .ok (45 / 2, 5 / 8) := by
      rw [face _ (by simp)]
      simp only [integral, firstMoment, layers, axialOf, shearOf, ply, List.map_cons, List.map_nil,
        List.sum_cons, List.sum_nil]
      norm_num
    exact this
  · simp only [integral, firstMoment, layers, shearOf, ply, List.map_cons, List.map_nil, thickness,
      List.sum_cons, List.sum_nil]
    norm_num

/-- Angles 0 and 90. -/
example : ∃ E S, plySums ([⟨1 / 4, 140, 3, 0, 10, 0, 5⟩, ⟨1 / 8, 10, 3, 0, 140, 0, 5⟩].map
      (FullPly.read : FullPly ℚ → Ply ℚ)) = .ok (E, S) ∧
    IsSection [⟨1 / 4, 140, 3, 0, 10, 0, 5⟩, ⟨1 / 8, 10, 3, 0, 140, 0, 5⟩] E S := by
  refine ⟨_, _, rfl, (section_partial _ ?_ _ _ rfl).1⟩
  simp

end Verif.C84
