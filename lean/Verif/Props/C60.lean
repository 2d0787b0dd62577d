import Verif.Props.C22
import Verif.Props.C56

/-!
# C60: the aerodynamic matrix of a stiffened bay

`StiffPanelBay.calc_kA` should give a matrix of the size of the bay, for the pressure on the whole
skin, with the flight condition of the bay.  It takes the matrix of the first panel
(`first_panel`): its own number of rows, its own sub-domain, its own `beta`.
-/

namespace Verif.C60

open Model Finset Spec

section

variable {K : Type} [Field K] [LinearOrder K]

/-- The first panel as `calc_kA` prepares it. -/
def prepared (B : AeroBay K) (M : Option K) (size : ℕ) (p : Shell K) : Shell K :=
  { p with
    flow := B.flow
    Mach := M
    rhoAir := B.rhoAir
    size := some size
    V := B.V
    r := B.r }

/-- The matrix of the bay is the matrix of its first panel, finalised. -/
theorem first_panel {root : K → K} {E : BayEnv K} {B B' : AeroBay K} {L : Coo K} {N : ℕ}
    (h : B.calcKA root E = .ok (L, N, B')) :
    ∃ R M size p ps L0 p', B.toBay.rebuild E = .ok R ∧ R.panels = p :: ps ∧ B.size = some size ∧
      ({ B with toBay := R } : AeroBay K).flight = .ok M ∧
      (prepared { B with toBay := R } M size p).calcKA root E.toEnv .none 0 0 false = .ok (L0, p') ∧
      L = Coo.finalizeSkew L0 ∧ N = 3 * p'.pan.m * p'.pan.n ∧ B'.panels = p' :: ps := by
  unfold AeroBay.calcKA at h
  obtain ⟨R, hR, h⟩ := bind_ok.1 h
  obtain ⟨M, hM, h⟩ := bind_ok.1 h
  simp only at h
  split at h
  · cases h
  · next p ps hp =>
    split at h
    · cases h
    · next n hn =>
      obtain ⟨⟨L0, p'⟩, hL, h⟩ := bind_ok.1 h
      cases h
      exact ⟨R, M, n, p, ps, L0, p', hR, hp, hn, hM, hL, rfl, rfl, rfl⟩

/-- A bay on which no other calculation has been made has no attribute `size`: there is no matrix. -/
theorem needs_size {root : K → K} {E : BayEnv K} {B : AeroBay K} (h : B.size = none)
    (x : Coo K × ℕ × AeroBay K) : B.calcKA root E ≠ .ok x := by
  intro hc
  obtain ⟨L, N, B'⟩ := x
  obtain ⟨R, M, size, p, ps, L0, p', -, -, hs, -⟩ := first_panel hc
  rw [h] at hs
  cases hs

/-- The number of rows is that of the skin alone. -/
theorem rows {root : K → K} {E : BayEnv K} {B B' : AeroBay K} {L : Coo K} {N : ℕ}
    (hT : C52.Terms B.toBay) (h : B.calcKA root E = .ok (L, N, B')) :
    N = 3 * B.skin.m * B.skin.n := by
  obtain ⟨R, M, size, p, ps, L0, p', hR, hp, -, -, hL, -, hN, -⟩ := first_panel h
  obtain ⟨k, b', g', M', L1, -, -, -, -, -, rfl⟩ := calcKA_ok.1 hL
  obtain ⟨m, qs, -, -, -, e, -⟩ := bay_rebuild_ok hR
  have := (C52.built hT hR).terms.panels p (by rw [hp]; exact List.mem_cons_self)
  have hN : N = 3 * p.pan.m * p.pan.n := hN
  rw [hN, this.1, this.2, e]

/-- It is the size of the bay if no stiffener has unknowns of its own.  Missing for the full claim:
stiffeners with a flange (`rows_violated`). -/
theorem rows_partial {root : K → K} {E : BayEnv K} {B B' : AeroBay K} {L : Coo K} {N n : ℕ}
    (hT : C52.Terms B.toBay) (h : B.calcKA root E = .ok (L, N, B')) (h2 : B.blade2 = [])
    (hn : B.getSize = .ok n) : N = n := by
  rw [rows hT h]
  unfold Bay.getSize at hn
  obtain ⟨d, hd, hn⟩ := bind_ok.1 hn
  obtain ⟨k, hk, hn⟩ := bind_ok.1 hn
  rw [h2] at hk
  cases hk
  unfold Bay.skinSize at hd
  split at hd
  · cases hd
  · cases hd
    cases hn
    rfl

/-- With such stiffeners it is never the size of the bay. -/
theorem rows_short {root : K → K} {E : BayEnv K} {B B' : AeroBay K} {L : Coo K} {N n : ℕ}
    (hT : C52.Terms B.toBay) (h : B.calcKA root E = .ok (L, N, B')) (hn : B.getSize = .ok n)
    {s : Blade2 K} (hs : s ∈ B.blade2) {f : Shell K} {k : ℕ} (hf : s.flange = some f)
    (hk : f.getSize = .ok k) (hpos : 0 < k) : N < n := by
  rw [rows hT h]
  unfold Bay.getSize at hn
  obtain ⟨d, hd, hn⟩ := bind_ok.1 hn
  obtain ⟨t, ht, hn⟩ := bind_ok.1 hn
  cases hn
  have hd' : d = 3 * B.skin.m * B.skin.n := by
    unfold Bay.skinSize at hd
    split at hd
    · cases hd
    · cases hd; rfl
  have : ∀ (l : List (Blade2 K)) (t : ℕ), s ∈ l → flangeSizes l = .ok t → 0 < t := by
    intro l
    induction l with
    | nil => intro t hs; simp at hs
    | cons a l ih =>
      intro t hs ht
      unfold flangeSizes at ht
      split at ht
      · cases ht
      · next g hg =>
        obtain ⟨d1, h1, ht⟩ := bind_ok.1 ht
        obtain ⟨d2, h2, ht⟩ := bind_ok.1 ht
        cases ht
        rcases List.mem_cons.1 hs with rfl | hs
        · rw [hf] at hg
          cases hg
          rw [hk] at h1
          cases h1
          omega
        · have := ih d2 hs h2
          omega
  have := this _ _ hs ht
  omega

/-- Attribute `beta` of the bay is not used: the matrix is the same whatever it is. -/
theorem beta_ignored (root : K → K) (E : BayEnv K) (B : AeroBay K) (b b' : K) :
    (({ B with beta := some b } : AeroBay K).calcKA root E).map (fun x => (x.1, x.2.1))
      = (({ B with beta := some b' } : AeroBay K).calcKA root E).map fun x => (x.1, x.2.1) := by
  have hr : ∀ b, ({ B with beta := some b } : AeroBay K).toBay.rebuild E
      = (B.toBay.rebuild E).map fun R => { R with beta := some b } := by
    intro b
    show ({ B.toBay with beta := some b } : Bay K).rebuild E = _
    unfold Bay.rebuild
    show ((rebuildPanels E.toEnv B.model B.panels) >>= _) = _
    cases rebuildPanels E.toEnv B.model B.panels with
    | error e => rfl
    | ok x =>
      obtain ⟨m, ps⟩ := x
      show (mapE (Blade1.rebuild E { B.toBay with model := m, panels := ps }) B.blade1 >>= _)
        = ((mapE (Blade1.rebuild E { B.toBay with model := m, panels := ps }) B.blade1) >>= _).map _
      cases mapE (Blade1.rebuild E { B.toBay with model := m, panels := ps }) B.blade1 with
      | error e => rfl
      | ok b1 =>
        show (mapE (Blade2.rebuild E { B.toBay with model := m, panels := ps, blade1 := b1 }) B.blade2
            >>= _) = ((mapE (Blade2.rebuild E { B.toBay with model := m, panels := ps, blade1 := b1 })
            B.blade2) >>= _).map _
        cases mapE (Blade2.rebuild E { B.toBay with model := m, panels := ps, blade1 := b1 })
          B.blade2 with
        | error e => rfl
        | ok b2 => rfl
  unfold AeroBay.calcKA
  rw [hr, hr]
  cases B.toBay.rebuild E with
  | error e => rfl
  | ok R =>
    cases hp : R.panels with
    | nil => simp [Except.map, bind, Except.bind, AeroBay.flight, hp]
    | cons p ps =>
      cases B.size with
      | none => simp [Except.map, bind, Except.bind, AeroBay.flight, hp]
      | some n =>
        simp only [Except.map, bind, Except.bind, AeroBay.flight, hp]
        generalize Shell.calcKA root E.toEnv _ _ _ _ _ = z
        cases z <;> rfl

/-- The first panel after a rebuild of the bay. -/
theorem rebuilt_first {E : BayEnv K} {B R : Bay K} {p q : Shell K} {ps qs : List (Shell K)}
    (h : B.rebuild E = .ok R) (hB : B.panels = p :: ps) (hR : R.panels = q :: qs) :
    p.rebuild E.toEnv = .ok q := by
  obtain ⟨m, l, hl, e, -⟩ := bay_rebuild_ok h
  obtain ⟨hf, -⟩ := rebuildPanels_ok hl
  rw [hB, ← e, hR] at hf
  cases hf with
  | cons h _ => exact h

theorem panels_ne {E : BayEnv K} {B R : Bay K} {q : Shell K} {qs : List (Shell K)}
    (h : B.rebuild E = .ok R) (hR : R.panels = q :: qs) : ∃ p ps, B.panels = p :: ps := by
  obtain ⟨m, l, hl, e, -⟩ := bay_rebuild_ok h
  obtain ⟨hf, -⟩ := rebuildPanels_ok hl
  rw [← e, hR] at hf
  cases hB : B.panels with
  | nil => rw [hB] at hf; cases hf
  | cons p ps => exact ⟨p, ps, rfl⟩

/-- What a rebuild leaves alone in a bay. -/
theorem rebuilt_flight {E : BayEnv K} {B R : Bay K} (h : B.rebuild E = .ok R) :
    R.beta = B.beta ∧ R.Mach = B.Mach ∧ R.V = B.V ∧ R.rhoAir = B.rhoAir ∧
      R.speedSound = B.speedSound ∧ R.r = B.r := by
  unfold Bay.rebuild at h
  obtain ⟨⟨m, ps⟩, hp, h⟩ := bind_ok.1 h
  obtain ⟨b1, h1, h⟩ := bind_ok.1 h
  obtain ⟨b2, h2, h⟩ := bind_ok.1 h
  cases h
  exact ⟨rfl, rfl, rfl, rfl, rfl, rfl⟩

/-- `beta` given on the bay instead of a Mach number: the panel asks for the Mach number. -/
theorem beta_fails {root : K → K} {E : BayEnv K} {B : AeroBay K} {b : K} (hb : B.beta = some b)
    (hM : B.Mach = none) (hp : ∀ p ∈ B.panels, p.beta = none) (x : Coo K × ℕ × AeroBay K) :
    B.calcKA root E ≠ .ok x := by
  intro hc
  obtain ⟨L, N, B'⟩ := x
  obtain ⟨R, M, size, q, qs, L0, p', hR, hq, -, hf, hL, -⟩ := first_panel hc
  obtain ⟨p, ps, hB⟩ := panels_ne hR hq
  have hpq := rebuilt_first hR hB hq
  obtain ⟨f1, f2, -⟩ := rebuilt_flight hR
  have hqb : q.beta = none := by
    obtain ⟨-, -, -, -, -, -, -, -, e, -⟩ := C54.untouched _ _ _ hpq
    rw [e]
    exact hp p (by rw [hB]; exact List.mem_cons_self)
  have hMn : M = none := by
    unfold AeroBay.flight at hf
    simp only [f1, hb, f2, hM] at hf
    cases hf
    rfl
  obtain ⟨k, b', g', M', L1, -, hpi, -⟩ := calcKA_ok.1 hL
  unfold Shell.piston at hpi
  simp only [Shell.fixR, prepared, hqb, hMn, machOf] at hpi
  cases hpi

/-- The speed of sound, which is not used, has to be given. -/
theorem sound_needed {root : K → K} {E : BayEnv K} {B : AeroBay K} (hb : B.beta = none)
    (hs : B.speedSound = none) (x : Coo K × ℕ × AeroBay K) : B.calcKA root E ≠ .ok x := by
  intro hc
  obtain ⟨L, N, B'⟩ := x
  obtain ⟨R, M, size, q, qs, L0, p', hR, hq, -, hf, hL, -⟩ := first_panel hc
  obtain ⟨f1, -, -, -, f5, -⟩ := rebuilt_flight hR
  unfold AeroBay.flight at hf
  simp only [f1, hb, f5, hs] at hf
  obtain ⟨_, _, hf⟩ := bind_ok.1 hf
  obtain ⟨_, _, hf⟩ := bind_ok.1 hf
  obtain ⟨_, _, hf⟩ := bind_ok.1 hf
  obtain ⟨_, _, hf⟩ := bind_ok.1 hf
  obtain ⟨_, h, hf⟩ := bind_ok.1 hf
  cases h

theorem calcKA_size (root : K → K) (E : Env K) (s : Shell K) (n : Option ℕ) (row0 col0 : ℕ) (fi : Bool) :
    ({ s with size := n } : Shell K).calcKA root E .none row0 col0 fi
      = (s.calcKA root E .none row0 col0 fi).map fun x => (x.1, { x.2 with size := n }) := by
  unfold Shell.calcKA
  simp only
  show ((key (s.model.bind kindOf)) >>= _) = _
  cases key (s.model.bind kindOf) with
  | error e => rfl
  | ok k =>
    show ((s.fixR.piston root) >>= _) = Except.map _ ((s.fixR.piston root) >>= _)
    cases s.fixR.piston root with
    | error e => rfl
    | ok x =>
      obtain ⟨b, g, M⟩ := x
      show ((afterKA s b g M).fkA E k b g row0 col0 >>= _)
        = Except.map _ ((afterKA s b g M).fkA E k b g row0 col0 >>= _)
      cases (afterKA s b g M).fkA E k b g row0 col0 with
      | error e => rfl
      | ok L =>
        show (toSparse _ L >>= _) = Except.map _ (toSparse _ L >>= _)
        cases toSparse (SizeArg.none.value (3 * s.pan.m * s.pan.n)) L with
        | error e => simp only; rfl
        | ok L => simp only; rfl

/-- The panels after the first, and the stiffeners, do not change the matrix. -/
theorem others_ignored {root : K → K} {E : BayEnv K} {B C B' C' : AeroBay K} {L L' : Coo K}
    {N N' : ℕ} {p : Shell K} {ps qs : List (Shell K)} (hB : B.panels = p :: ps)
    (hC : C.panels = p :: qs) (h1 : C.flow = B.flow) (h2 : C.Mach = B.Mach) (h3 : C.V = B.V)
    (h4 : C.rhoAir = B.rhoAir) (h5 : C.r = B.r) (h6 : C.beta = B.beta)
    (h7 : C.speedSound = B.speedSound)
    (hb : B.calcKA root E = .ok (L, N, B')) (hc : C.calcKA root E = .ok (L', N', C')) :
    L' = L ∧ N' = N := by
  obtain ⟨R, M, n, q, qs, L0, p', hR, hq, -, hf, hL, rfl, rfl, -⟩ := first_panel hb
  obtain ⟨R2, M2, n2, q2, qs2, L2, p2, hR2, hq2, -, hf2, hL2, rfl, rfl, -⟩ := first_panel hc
  have e := (rebuilt_first hR hB hq).symm.trans (rebuilt_first hR2 hC hq2)
  cases e
  obtain ⟨f1, f2, f3, f4, f5, f6⟩ := rebuilt_flight hR
  obtain ⟨g1, g2, g3, g4, g5, g6⟩ := rebuilt_flight hR2
  have e : M2 = M := by
    unfold AeroBay.flight at hf hf2
    simp only [f1, f2, f3, f4, f5] at hf
    simp only [g1, g2, g3, g4, g5, h2, h3, h4, h6, h7] at hf2
    rw [hf] at hf2
    cases hf2
    rfl
  subst e
  have e : prepared { C with toBay := R2 } M2 n2 q
      = { prepared { B with toBay := R } M2 n q with size := some n2 } := by
    unfold prepared
    simp only [g3, g4, g6, f3, f4, f6, h1, h3, h4, h5]
  rw [e, calcKA_size, hL] at hL2
  cases hL2
  exact ⟨rfl, rfl⟩

end

/-- The entries: the operator on the sub-domain of the first panel. -/
theorem entries {root : ℝ → ℝ} {E : BayEnv ℝ} (hS : E.S.C2) {B B' : AeroBay ℝ} {L : Coo ℝ} {N : ℕ}
    {p : Shell ℝ} {ps : List (Shell ℝ)} (hB : B.panels = p :: ps) (ha : p.pan.a ≠ 0)
    (hb : p.pan.b ≠ 0) (h : B.calcKA root E = .ok (L, N, B')) :
    ∃ p' beta gamma, p' ∈ B'.panels ∧ p'.pan = p.pan ∧ p'.beta = some beta ∧ p'.gamma = some gamma ∧
      ∀ r q, Coo.entry L r q =
        if r ≤ q then C22.coeff E.toEnv p' (decide (lower B.flow = "x")) beta gamma 0 0 r q
        else - C22.coeff E.toEnv p' (decide (lower B.flow = "x")) beta gamma 0 0 q r := by
  obtain ⟨R, M, n, q, qs, L0, p', hR, hq, -, hf, hL, rfl, -, hB'⟩ := first_panel h
  obtain ⟨e, -⟩ := rebuild_kept _ (rebuilt_first hR hB hq)
  obtain ⟨k, b, g, M', L1, h1, h2, h3, h4, h5, rfl⟩ := calcKA_ok.1 hL
  obtain ⟨b', g', e1, e2, hE⟩ := C22.finalised hS (s := prepared { B with toBay := R } M n q)
    (show q.pan.a ≠ 0 by rw [e]; exact ha) (show q.pan.b ≠ 0 by rw [e]; exact hb)
    (calcKA_ok.2 ⟨k, b, g, M', L1, h1, h2, h3, h4, rfl, rfl⟩)
  refine ⟨afterKA (prepared { B with toBay := R } M n q) b g M', b', g', by rw [hB']; exact List.mem_cons_self, e, e1, e2, ?_⟩
  rw [h5]
  exact hE

/-- A bay whose size is known, in a supersonic flow, has a matrix. -/
theorem exists_call {E : BayEnv ℝ} {B : AeroBay ℝ} {R : Bay ℝ} {M V rho a : ℝ} {n : ℕ}
    (hR : B.toBay.rebuild E = .ok R) (hp : B.panels ≠ []) (hn : B.size = some n)
    (hb : B.beta = none) (hM : B.Mach = some M) (h1 : 1 ≤ M) (hV : B.V = some V)
    (hr : B.rhoAir = some rho) (hs : B.speedSound = some a)
    (hx : B.flow = "x" ∨ B.flow = "X" ∨ B.flow = "y" ∨ B.flow = "Y") :
    ∃ x, B.calcKA Real.sqrt E = .ok x := by
  obtain ⟨f1, f2, f3, f4, f5, f6⟩ := rebuilt_flight hR
  obtain ⟨M', hM', hf⟩ : ∃ M' : ℝ, 1 ≤ M' ∧
      ({ B with toBay := R } : AeroBay ℝ).flight = .ok (some M') := by
    unfold AeroBay.flight
    simp only [f1, f2, f3, f4, f5, hb, hM, hV, hr, hs, machOf, number, bind, Except.bind]
    rw [if_neg (not_lt.2 h1)]
    by_cases he : M = 1
    · exact ⟨10001 / 10000, by norm_num, by rw [if_pos he]; rfl⟩
    · exact ⟨M, h1, by rw [if_neg he]; rfl⟩
  obtain ⟨p, ps, hB⟩ : ∃ p ps, B.panels = p :: ps := by
    cases h : B.panels with
    | nil => exact absurd h hp
    | cons p ps => exact ⟨p, ps, rfl⟩
  obtain ⟨m, l, hl, e, -⟩ := bay_rebuild_ok hR
  obtain ⟨hf2, -⟩ := rebuildPanels_ok hl
  rw [hB, ← e] at hf2
  cases hq : R.panels with
  | nil => rw [hq] at hf2; cases hf2
  | cons q qs =>
    obtain ⟨k, lam, F, -, hk, -⟩ := rebuild_built _ _ _ (rebuilt_first hR hB hq)
    obtain ⟨L, p', hL⟩ := C23.exists_call (E := E.toEnv)
      (s := prepared { B with toBay := R } (some M') n q) (size := .none) (row0 := 0) (col0 := 0)
      false hk rfl hM' (f3.trans hV) (f4.trans hr) hx (by constructor <;> simp [SizeArg.value])
    unfold AeroBay.calcKA
    rw [hn] at hf
    simp only [hR, hf, hq, hn, bind, Except.bind]
    unfold prepared at hL
    simp only at hL
    rw [hL]
    exact ⟨_, rfl⟩

/-- A rule with two points, and functions that are not constant. -/
def env : BayEnv ℚ where
  toEnv := { C54.env with
    S := ⟨fun i x _ => x ^ i, fun i x _ => i * x ^ (i - 1), fun _ _ _ => 0⟩
    G := ⟨fun _ g => if g = 0 then -1 / 2 else if g = 1 then 1 / 2 else 0,
      fun _ g => if g < 2 then 1 else 0⟩ }
  plies := C46.benv.plies

/-- A bay with its attributes for `calc_kA`, after a call of `get_size`. -/
def flying (B : Bay ℚ) : AeroBay ℚ where
  toBay := B
  flow := "x"
  gamma := none
  aeromu := none
  size := B.getSize.toOption

/-- A flat skin in one panel and in two halves. -/
def one : AeroBay ℚ :=
  flying (C56.divide { C56.bay with model := some "plate_clpt_donnell_bardell" } [(0, 1)])

def two : AeroBay ℚ :=
  flying (C56.divide { C56.bay with model := some "plate_clpt_donnell_bardell" }
    [(0, 1 / 2), (1 / 2, 1)])

/-- The division of the skin changes the matrix. -/
theorem claim_violated : ∃ k1 B1 k2 B2, one.calcKA (fun _ => 1) env = .ok (k1, 6, B1) ∧
    two.calcKA (fun _ => 1) env = .ok (k2, 6, B2) ∧ Coo.entry k1 2 2 = 27 / 10 ∧
    Coo.entry k2 2 2 = 27 / 20 := by
  have e1 : (one.calcKA (fun _ => 1) env).toOption.map (fun x => (Coo.entry x.1 2 2, x.2.1))
      = some (27 / 10, 6) := by decide +kernel
  have e2 : (two.calcKA (fun _ => 1) env).toOption.map (fun x => (Coo.entry x.1 2 2, x.2.1))
      = some (27 / 20, 6) := by decide +kernel
  cases h1 : one.calcKA (fun _ => 1) env with
  | error e => rw [h1] at e1; cases e1
  | ok x =>
    cases h2 : two.calcKA (fun _ => 1) env with
    | error e => rw [h2] at e2; cases e2
    | ok y =>
      rw [h1] at e1
      rw [h2] at e2
      obtain ⟨k1, n1, B1⟩ := x
      obtain ⟨k2, n2, B2⟩ := y
      simp only [Except.toOption, Option.map_some, Option.some.injEq, Prod.mk.injEq] at e1 e2
      obtain ⟨e1, rfl⟩ := e1
      obtain ⟨e2, rfl⟩ := e2
      exact ⟨k1, B1, k2, B2, rfl, rfl, e1, e2⟩

/-- A bay with two flanges, after a rebuild. -/
def stiff : Except Fail (AeroBay ℚ) := do
  let B ← C52.stiffened C52.ply C52.ply
  let B ← B.rebuild C52.env
  return flying B

/-- With flanges the matrix is smaller than those of `calc_kC`. -/
theorem rows_violated : ∃ B k B', stiff = .ok B ∧ B.calcKA (fun _ => 1) C52.env = .ok (k, 6, B') ∧
    B.getSize = .ok 18 := by
  have e : stiff.toOption.bind (fun B => (B.calcKA (fun _ => 1) C52.env).toOption.bind fun x =>
      B.getSize.toOption.map fun n => (x.2.1, n)) = some (6, 18) := by decide +kernel
  cases h : stiff with
  | error x => rw [h] at e; cases e
  | ok B =>
    rw [h] at e
    cases hk : B.calcKA (fun _ => 1) C52.env with
    | error x =>
      simp only [Except.toOption, Option.bind_some, hk] at e
      cases e
    | ok x =>
      obtain ⟨k, n, B'⟩ := x
      cases hn : B.getSize with
      | error x =>
        simp only [Except.toOption, Option.bind_some, hk, hn] at e
        cases e
      | ok N =>
        simp only [Except.toOption, Option.bind_some, hk, hn, Option.map_some, Option.some.injEq,
          Prod.mk.injEq] at e
        obtain ⟨rfl, rfl⟩ := e
        exact ⟨B, k, B', rfl, hk, hn⟩

/-- The hypotheses of `rows_partial` and `others_ignored` are met. -/
example : C52.Terms one.toBay ∧ one.blade2 = [] ∧ one.getSize = .ok 6 ∧
    (∃ x, one.calcKA (fun _ => 1) env = .ok x) ∧
    ∃ p ps qs, two.panels = p :: ps ∧ ps ≠ [] ∧
      ({ two with panels := [p] } : AeroBay ℚ).panels = p :: qs ∧
      ∃ x, ({ two with panels := [p] } : AeroBay ℚ).calcKA (fun _ => 1) env = .ok x := by
  refine ⟨C56.divide_terms _ (C52.terms_empty _ rfl rfl rfl) _, rfl, by decide +kernel,
    exists_ok (by decide +kernel), _, _, [], rfl, by simp, rfl, exists_ok (by decide +kernel)⟩

/-- Of `needs_size`, `beta_fails` and `sound_needed`. -/
example : ({ one with size := none } : AeroBay ℚ).size = none ∧
    ({ one with beta := some 2, Mach := none } : AeroBay ℚ).Mach = none ∧
    (∀ p ∈ one.panels, p.beta = none) ∧ one.beta = none ∧
    ({ one with speedSound := none } : AeroBay ℚ).speedSound = none := by
  refine ⟨rfl, rfl, ?_, rfl, rfl⟩
  intro p hp
  have : p ∈ [_] := hp
  rw [List.mem_singleton.1 this]
  rfl

/-- Of `rows_short`. -/
example : ∃ B k B', stiff = .ok B ∧ B.calcKA (fun _ => 1) C52.env = .ok (k, 6, B') ∧ 6 < 18 :=
  let ⟨B, k, B', h, hk, _⟩ := rows_violated
  ⟨B, k, B', h, hk, by decide⟩

/-- A real bay, with the functions of the code. -/
noncomputable def rbay : AeroBay ℝ where
  skin := { Witness.panel with m := 1, n := 2 }
  r := none
  model := some "plate_clpt_donnell_bardell"
  stack := [0]
  plyt := some (1 / 2)
  plyts := []
  laminaprop := [1]
  laminaprops := []
  rho := 1
  beta := none
  Mach := some 2
  V := some 3
  rhoAir := some 1
  speedSound := some 1
  panels := [C22.panel]
  blade1 := []
  blade2 := []
  flow := "y"
  gamma := none
  aeromu := none
  size := some 6

noncomputable def renv : BayEnv ℝ where
  toEnv := C22.env
  plies := fun _ _ _ => .ok []

example : ∃ L N B' beta gamma p', rbay.calcKA Real.sqrt renv = .ok (L, N, B') ∧ p' ∈ B'.panels ∧
    p'.beta = some beta ∧ p'.gamma = some gamma ∧
    ∀ r q, r ≤ q → Coo.entry L r q = C22.coeff renv.toEnv p' false beta gamma 0 0 r q := by
  have hR : ∃ R, rbay.toBay.rebuild renv = .ok R := ⟨_, rfl⟩
  obtain ⟨R, hR⟩ := hR
  obtain ⟨⟨L, N, B'⟩, h⟩ := exists_call hR (by simp [rbay]) rfl rfl rfl (by norm_num) rfl rfl rfl
    (.inr (.inr (.inl rfl)))
  obtain ⟨p', b, g, h1, -, h2, h3, h4⟩ := entries C22.env_C2 (p := C22.panel) (ps := []) rfl
    (by simp [C22.panel, C23.panel, C40.shell, Witness.panel])
    (by simp [C22.panel, C23.panel, C40.shell, Witness.panel]) h
  refine ⟨L, N, B', b, g, p', h, h1, h2, h3, fun r q hrq => ?_⟩
  rw [h4, if_pos hrq, decide_eq_false]
  intro e
  rcases lower_x.1 e with e | e <;> simp [rbay] at e

end Verif.C60
