import Verif.Proofs.Aero
import Verif.Props.C40Conn

/-!
# C23: the parameters of the piston theory follow the flight condition

The first call of `calc_kA` takes `beta` and `gamma` from the flight condition.  Afterwards they are
stored, and later changes of `Mach`, `V` and `rho_air` have no effect (`stale`, `claim_violated`).
-/

namespace Verif.C23

open Model

/-- The Mach number of the theory; the linear theory has no value at `1`. -/
noncomputable def mach (M : ℝ) : ℝ := if M = 1 then 1.0001 else M

theorem one_lt_mach {M : ℝ} (h : 1 ≤ M) : 1 < mach M := by
  unfold mach
  split
  · norm_num
  · next hM => exact lt_of_le_of_ne h (Ne.symm hM)

theorem root_pos {M : ℝ} (h : 1 ≤ M) : 0 < Real.sqrt (mach M ^ 2 - 1) :=
  Real.sqrt_pos.2 (by nlinarith [one_lt_mach h])

theorem mach_eq (M : ℝ) : (if M = 1 then (10001 : ℝ) / 10000 else M) = mach M := by
  unfold mach
  split <;> norm_num

/-- `beta`, `gamma` are those of the flight condition `M`, `V`, `rho` on a surface of radius `r`
(`0` for a flat one): `beta √(M²-1) = rho V²` and `2 r √(M²-1) gamma = beta`. -/
def Follows (M V rho r beta gamma : ℝ) : Prop :=
  beta * Real.sqrt (mach M ^ 2 - 1) = rho * V ^ 2 ∧
  (r ≠ 0 → 2 * r * Real.sqrt (mach M ^ 2 - 1) * gamma = beta) ∧ (r = 0 → gamma = 0)

/-- There is at most one such pair. -/
theorem follows_unique {M V rho r b g b' g' : ℝ} (hM : 1 ≤ M) (h : Follows M V rho r b g)
    (h' : Follows M V rho r b' g') : b = b' ∧ g = g' := by
  have hq := (root_pos hM).ne'
  have hb : b = b' := mul_right_cancel₀ hq (h.1.trans h'.1.symm)
  refine ⟨hb, ?_⟩
  by_cases hr : r = 0
  · rw [h.2.2 hr, h'.2.2 hr]
  · exact mul_left_cancel₀ (mul_ne_zero (mul_ne_zero two_ne_zero hr) hq)
      ((h.2.1 hr).trans (hb.trans (h'.2.1 hr).symm))

/-- A panel without stored parameters: if the call succeeds, a supersonic (or sonic) flight condition
was given, and the parameters stored are those of this condition.  A Mach number `1` becomes
`1.0001`. -/
theorem first_call {E : Env ℝ} {s s' : Shell ℝ} {size : SizeArg} {row0 col0 : ℕ} {fi : Bool}
    {L : Coo ℝ} (hb : s.beta = none) (h : s.calcKA Real.sqrt E size row0 col0 fi = .ok (L, s')) :
    ∃ M V rho b g, s.Mach = some M ∧ s.V = some V ∧ s.rhoAir = some rho ∧ 1 ≤ M ∧
      s'.beta = some b ∧ s'.gamma = some g ∧ Follows M V rho (s.r.getD 0) b g ∧
      s'.Mach = some (mach M) := by
  obtain ⟨k, b, g, M, L0, -, hp, -, -, -, rfl⟩ := calcKA_ok.1 h
  obtain ⟨M0, V, rho, h1, h2, h3, h4, h5, h6, h7⟩ := (piston_ok (by exact hb)).1 hp
  rw [mach_eq] at h5 h6 h7
  refine ⟨M0, V, rho, b, g, h1, h3, h4, h2, rfl, rfl, ?_, h5⟩
  have hr : (s.fixR.r.getD 0) = s.r.getD 0 := rfl
  rw [hr] at h7
  have hq := (root_pos h2).ne'
  refine ⟨?_, fun h0 => ?_, fun h0 => ?_⟩
  · rw [h6]; field_simp
  · rw [h7, if_pos h0]; field_simp
  · rw [h7, if_neg (not_not.2 h0)]

/-- A missing Mach number is refused. -/
theorem no_mach {E : Env ℝ} {s : Shell ℝ} {k : Kind} (size : SizeArg) (row0 col0 : ℕ) (fi : Bool)
    (hk : s.model.bind kindOf = some k) (hb : s.beta = none) (hM : s.Mach = none) :
    s.calcKA Real.sqrt E size row0 col0 fi = .error (.raised .valueError) := by
  unfold Shell.calcKA
  rw [hk]
  simp only [key, Shell.piston, Shell.fixR, hb, hM, machOf]
  rfl

/-- A subsonic Mach number is refused. -/
theorem subsonic {E : Env ℝ} {s : Shell ℝ} {k : Kind} {M : ℝ} (size : SizeArg) (row0 col0 : ℕ)
    (fi : Bool) (hk : s.model.bind kindOf = some k) (hb : s.beta = none) (hM : s.Mach = some M)
    (h1 : M < 1) :
    s.calcKA Real.sqrt E size row0 col0 fi = .error (.raised .valueError) := by
  unfold Shell.calcKA
  rw [hk]
  simp only [key, Shell.piston, Shell.fixR, hb, hM, machOf, if_pos h1]
  rfl

/-- A flow direction other than `x`, `y` (in either case of letters) is refused. -/
theorem bad_flow {E : Env ℝ} {s : Shell ℝ} {k : Kind} {M V rho : ℝ} (size : SizeArg) (row0 col0 : ℕ)
    (fi : Bool) (hk : s.model.bind kindOf = some k) (hM : s.Mach = some M) (h1 : 1 ≤ M)
    (hV : s.V = some V) (hr : s.rhoAir = some rho)
    (hx : s.flow ≠ "x" ∧ s.flow ≠ "X" ∧ s.flow ≠ "y" ∧ s.flow ≠ "Y") :
    s.calcKA Real.sqrt E size row0 col0 fi = .error (.raised .valueError) := by
  have hp : ∃ t, s.fixR.piston Real.sqrt = .ok t := by
    cases hb : s.beta with
    | none => exact ⟨_, (piston_ok (by exact hb)).2 ⟨M, V, rho, hM, h1, hV, hr, rfl, rfl, rfl⟩⟩
    | some b => exact ⟨_, piston_stored (by exact hb)⟩
  obtain ⟨⟨b, g, M'⟩, hp⟩ := hp
  have nx : ¬ lower s.flow = "x" := fun h => by
    rcases lower_x.1 h with h | h
    · exact hx.1 h
    · exact hx.2.1 h
  have ny : ¬ lower s.flow = "y" := fun h => by
    rcases lower_y.1 h with h | h
    · exact hx.2.2.1 h
    · exact hx.2.2.2 h
  unfold Shell.calcKA
  rw [hk]
  simp only [key, hp]
  show (Shell.fkA E k _ b g row0 col0 >>= _) = _
  rw [show Shell.fkA E k { s.fixR with beta := some b, gamma := some g, Mach := M' } b g row0 col0
    = .error (.raised .valueError) by
      unfold Shell.fkA
      rw [if_neg (by exact nx), if_neg (by exact ny)]]
  rfl

/-- A supersonic flight condition, a flow direction and room for the block are enough. -/
theorem exists_call {E : Env ℝ} {s : Shell ℝ} {k : Kind} {M V rho : ℝ} {size : SizeArg}
    {row0 col0 : ℕ} (fi : Bool) (hk : s.model.bind kindOf = some k) (hM : s.Mach = some M)
    (h1 : 1 ≤ M) (hV : s.V = some V) (hr : s.rhoAir = some rho)
    (hx : s.flow = "x" ∨ s.flow = "X" ∨ s.flow = "y" ∨ s.flow = "Y")
    (hs : InSize s.pan row0 col0 (size.value (3 * s.pan.m * s.pan.n))) :
    ∃ L s', s.calcKA Real.sqrt E size row0 col0 fi = .ok (L, s') := by
  have hp : ∃ t, s.fixR.piston Real.sqrt = .ok t := by
    cases hb : s.beta with
    | none => exact ⟨_, (piston_ok (by exact hb)).2 ⟨M, V, rho, hM, h1, hV, hr, rfl, rfl, rfl⟩⟩
    | some b => exact ⟨_, piston_stored (by exact hb)⟩
  obtain ⟨⟨b, g, M'⟩, hp⟩ := hp
  have hf : lower (afterKA s b g M').flow = "x" ∨ lower (afterKA s b g M').flow = "y" := by
    rcases hx with h | h | h | h
    · exact .inl (lower_x.2 (.inl h))
    · exact .inl (lower_x.2 (.inr h))
    · exact .inr (lower_y.2 (.inl h))
    · exact .inr (lower_y.2 (.inr h))
  obtain ⟨L, hL, hT⟩ := fkA_total E k (afterKA s b g M') b g hf hs
  exact ⟨_, _, calcKA_ok.2 ⟨k, b, g, M', L, hk, hp, hL, hT, rfl, rfl⟩⟩

/-- A change of the flight condition between two calls. -/
def fly (s : Shell ℝ) (M V rho : Option ℝ) : Shell ℝ := { s with Mach := M, V := V, rhoAir := rho }

/-- After a successful call, a call under any other flight condition (even a subsonic one, or none)
returns the same matrix and keeps the parameters. -/
theorem stale {E : Env ℝ} {s s' : Shell ℝ} {size : SizeArg} {row0 col0 : ℕ} {fi : Bool} {L : Coo ℝ}
    (h : s.calcKA Real.sqrt E size row0 col0 fi = .ok (L, s')) (M V rho : Option ℝ) :
    (fly s' M V rho).calcKA Real.sqrt E size row0 col0 fi = .ok (L, fly s' M V rho) := by
  obtain ⟨k, b, g, M', L0, hk, -, hL, hT, rfl, rfl⟩ := calcKA_ok.1 h
  refine calcKA_ok.2 ⟨k, b, g, M, L0, hk, piston_stored rfl, ?_, hT, rfl, rfl⟩
  exact hL

/-- A sequence of flight conditions with a call under each. -/
noncomputable def calls (E : Env ℝ) (size : SizeArg) (row0 col0 : ℕ) (fi : Bool) :
    Shell ℝ → List (Option ℝ × Option ℝ × Option ℝ) → Except Fail (List (Coo ℝ) × Shell ℝ)
  | s, [] => .ok ([], s)
  | s, f :: fs => do
    let (L, s) ← (fly s f.1 f.2.1 f.2.2).calcKA Real.sqrt E size row0 col0 fi
    let (Ls, s) ← calls E size row0 col0 fi s fs
    return (L :: Ls, s)

/-- The whole sequence: every matrix is the first one, and the parameters stay those of the first
call. -/
theorem calls_stale {E : Env ℝ} {size : SizeArg} {row0 col0 : ℕ} {fi : Bool}
    (fs : List (Option ℝ × Option ℝ × Option ℝ)) {s s' : Shell ℝ} {L : Coo ℝ}
    (h : s.calcKA Real.sqrt E size row0 col0 fi = .ok (L, s')) :
    ∃ t, calls E size row0 col0 fi s' fs = .ok (fs.map fun _ => L, t) ∧ t.beta = s'.beta ∧
      t.gamma = s'.gamma := by
  induction fs generalizing s s' with
  | nil => exact ⟨s', rfl, rfl, rfl⟩
  | cons f fs ih =>
    have h1 := stale h f.1 f.2.1 f.2.2
    obtain ⟨t, ht, hb, hg⟩ := ih h1
    refine ⟨t, ?_, hb, hg⟩
    unfold calls
    exact bind_ok.2 ⟨_, h1, bind_ok.2 ⟨_, ht, rfl⟩⟩

/-- If `beta` is reset by hand before a call, the parameters follow the flight condition, in every
sequence of calls.  Missing from the full claim: without the reset they do not (`claim_violated`). -/
theorem follows_partial {E : Env ℝ} {s s' : Shell ℝ} {size : SizeArg} {row0 col0 : ℕ} {fi : Bool}
    {M V rho : ℝ} {L : Coo ℝ}
    (h : ({ fly s (some M) (some V) (some rho) with beta := none } : Shell ℝ).calcKA Real.sqrt E size
      row0 col0 fi = .ok (L, s')) :
    ∃ b g, s'.beta = some b ∧ s'.gamma = some g ∧ Follows M V rho (s.r.getD 0) b g := by
  obtain ⟨M', V', rho', b, g, hM, hV, hr, -, hb, hg, hf, -⟩ := first_call rfl h
  cases hM
  cases hV
  cases hr
  exact ⟨b, g, hb, hg, hf⟩

/-- A flat panel in a flow of Mach number `5/4`. -/
noncomputable def panel : Shell ℝ :=
  { C40.shell with
    model := some "plate_clpt_donnell_bardell"
    Mach := some (5 / 4)
    V := some 3
    rhoAir := some 2 }

theorem sqrt_panel : Real.sqrt (mach (5 / 4) ^ 2 - 1) = 3 / 4 := by
  have : mach (5 / 4) = 5 / 4 := by unfold mach; rw [if_neg (by norm_num)]
  rw [this, show ((5 : ℝ) / 4) ^ 2 - 1 = (3 / 4) ^ 2 by norm_num]
  exact Real.sqrt_sq (by norm_num)

theorem panel_ok : ∃ L s', panel.calcKA Real.sqrt C40.env .none 0 0 = .ok (L, s') :=
  exists_call true (k := .plate) rfl rfl (by norm_num) rfl rfl (.inl rfl)
    (by constructor <;> simp [SizeArg.value])

/-- The hypotheses of `first_call` are met: `beta = 24`, `gamma = 0`. -/
example : ∃ L s', panel.calcKA Real.sqrt C40.env .none 0 0 = .ok (L, s') ∧ s'.beta = some 24 ∧
    s'.gamma = some 0 := by
  obtain ⟨L, s', h⟩ := panel_ok
  refine ⟨L, s', h, ?_⟩
  obtain ⟨M, V, rho, b, g, hM, hV, hr, -, hb, hg, hf, -⟩ := first_call rfl h
  cases hM
  cases hV
  cases hr
  have h1 := hf.1
  rw [sqrt_panel] at h1
  rw [hb, hg, hf.2.2 rfl]
  exact ⟨congrArg some (by linarith), rfl⟩

/-- A curved panel in the same flow: `gamma = 24 / (2 · 2 · 3/4) = 8`. -/
example : ∃ L s', ({ panel with model := some "cylshell_clpt_donnell_bardell", r := some 2 } :
    Shell ℝ).calcKA Real.sqrt C40.env .none 0 0 = .ok (L, s') ∧ s'.beta = some 24 ∧
    s'.gamma = some 8 := by
  obtain ⟨L, s', h⟩ := exists_call (E := C40.env) (size := .none) (row0 := 0) (col0 := 0)
    (s := { panel with model := some "cylshell_clpt_donnell_bardell", r := some 2 })
    true (k := .cyl) rfl rfl (by norm_num) rfl rfl (.inl rfl)
    (by constructor <;> simp [SizeArg.value])
  refine ⟨L, s', h, ?_⟩
  obtain ⟨M, V, rho, b, g, hM, hV, hr, -, hb, hg, hf, -⟩ := first_call rfl h
  cases hM
  cases hV
  cases hr
  have h1 := hf.1
  have h2 := hf.2.1 (by simp)
  rw [sqrt_panel] at h1 h2
  simp only [Option.getD_some] at h2
  have e1 : b = 24 := by linarith
  rw [hb, hg, e1]
  exact ⟨rfl, congrArg some (by linarith)⟩

/-- The claim fails: after one call, the speed is doubled, the next call succeeds, and its parameters
are not those of the flight condition. -/
theorem claim_violated : ∃ (L L' : Coo ℝ) (s' t : Shell ℝ) (b g : ℝ),
    panel.calcKA Real.sqrt C40.env .none 0 0 = .ok (L, s') ∧
    (fly s' (some (5 / 4)) (some 6) (some 2)).calcKA Real.sqrt C40.env .none 0 0 = .ok (L', t) ∧
    t.beta = some b ∧ t.gamma = some g ∧ ¬ Follows (5 / 4) 6 2 0 b g := by
  obtain ⟨L, s', h⟩ := panel_ok
  obtain ⟨M, V, rho, b, g, hM, hV, hr, -, hb, hg, hf, -⟩ := first_call rfl h
  refine ⟨L, L, s', _, b, g, h, stale h _ _ _, hb, hg, fun hn => ?_⟩
  cases hM
  cases hV
  cases hr
  have h1 := hf.1.symm.trans hn.1
  norm_num at h1

example : ({ panel with Mach := none } : Shell ℝ).calcKA Real.sqrt C40.env .none 0 0
    = .error (.raised .valueError) := no_mach (k := .plate) _ _ _ _ rfl rfl rfl

example : ({ panel with Mach := some (9 / 10) } : Shell ℝ).calcKA Real.sqrt C40.env .none 0 0
    = .error (.raised .valueError) := subsonic (k := .plate) _ _ _ _ rfl rfl rfl (by norm_num)

example : ({ panel with flow := "z" } : Shell ℝ).calcKA Real.sqrt C40.env .none 0 0
    = .error (.raised .valueError) :=
  bad_flow (k := .plate) _ _ _ _ rfl rfl (by norm_num) rfl rfl (by simp)

end Verif.C23
