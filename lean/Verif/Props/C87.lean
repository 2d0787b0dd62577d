import Verif.Spec.Static
import Verif.Props.C25Assembly
import Verif.Props.C67
import Verif.Props.C78Ready

/-!
# C87: work and energy in linear static analysis

Reciprocity of loads and displacements, the energy theorem and the minimum of the potential energy, for
the matrices and the force vectors that panels and assemblies hand to the static solver.  `Balanced` and
`Smallest` are in `Spec/Static.lean`, the work of loads in `Spec/Work.lean`.
-/

set_option linter.unusedSectionVars false

namespace Verif.C87

open Model Spec Finset Indep

section
variable {K : Type} [Field K]

/-! ## Symmetric matrices -/

theorem reciprocal {t : Finset ℕ} {L : Coo K} (hs : ∀ k l, Coo.entry L k l = Coo.entry L l k)
    {f g c d : ℕ → K} (h1 : Balanced t L f c) (h2 : Balanced t L g d) :
    ∑ k ∈ t, f k * d k = ∑ k ∈ t, g k * c k := by
  have e1 : ∑ k ∈ t, f k * d k = ∑ k ∈ t, (∑ l ∈ t, Coo.entry L k l * c l) * d k :=
    sum_congr rfl fun k hk => by rw [h1.eq k hk]
  have e2 : ∑ k ∈ t, g k * c k = ∑ k ∈ t, (∑ l ∈ t, Coo.entry L k l * d l) * c k :=
    sum_congr rfl fun k hk => by rw [h2.eq k hk]
  rw [e1, e2]
  simp only [sum_mul]
  rw [sum_comm]
  refine sum_congr rfl fun k _ => sum_congr rfl fun l _ => ?_
  rw [hs l k]
  ring

theorem bilin_on (L : Coo K) (s : Finset ℕ) {c d : ℕ → K} (hc : ∀ k ∉ s, c k = 0)
    (hd : ∀ k ∉ s, d k = 0) :
    Coo.bilin L c d = ∑ k ∈ s, c k * ∑ l ∈ s, Coo.entry L k l * d l := by
  induction L with
  | nil => simp
  | cons t L ih =>
    have e : ∑ k ∈ s, c k * ∑ l ∈ s, (if t.row = k ∧ t.col = l then t.val else 0) * d l
        = t.val * c t.row * d t.col := by
      have h1 : ∀ k, ∑ l ∈ s, (if t.row = k ∧ t.col = l then t.val else 0) * d l
          = if t.row = k then t.val * d t.col else 0 := by
        intro k
        by_cases hk : t.row = k
        · simp only [hk, true_and, if_true, ite_mul, zero_mul, sum_ite_eq]
          split
          · rfl
          · rename_i h; rw [hd _ h, mul_zero]
        · simp [hk]
      simp only [h1, mul_ite, mul_zero, sum_ite_eq]
      split
      · ring
      · rename_i h; rw [hc _ h]; ring
    rw [Coo.bilin_cons, ← e]
    simp only [Coo.entry_cons, add_mul, sum_add_distrib, mul_add]
    rw [← ih]

theorem bilin_balanced {t : Finset ℕ} {L : Coo K} {f c d : ℕ → K} (h : Balanced t L f c)
    (hd : ∀ k ∉ t, d k = 0) : Coo.bilin L d c = ∑ k ∈ t, f k * d k := by
  rw [bilin_on L t hd h.off]
  exact sum_congr rfl fun k hk => by rw [h.eq k hk, mul_comm]

/-- Sums over all amplitudes of a model are sums over the unknowns. -/
theorem sum_on {t : Finset ℕ} {n : ℕ} (ht : ∀ k ∈ t, k < n) (f : ℕ → K) {d : ℕ → K}
    (hd : ∀ k ∉ t, d k = 0) : ∑ k ∈ t, f k * d k = ∑ k ∈ range n, f k * d k :=
  sum_subset (fun k hk => mem_range.2 (ht k hk)) fun k _ hk => by rw [hd k hk, mul_zero]

end

/-! ## One panel -/

section
variable {K : Type} [Field K] [LinearOrder K]

theorem fin_symmetric (L : Coo K) (k l : ℕ) : Coo.entry (fin true L) k l = Coo.entry (fin true L) l k :=
  Coo.entry_finalizeSym_comm L k l

theorem kC_symmetric {E : Env K} {s s' : Shell K} {A : KArgs K} (hA : A.finalize = true) {L : Coo K}
    (h : s.calcKC E A = .ok (L, s')) (k l : ℕ) : Coo.entry L k l = Coo.entry L l k := by
  unfold Shell.calcKC at h
  obtain ⟨_, -, h⟩ := bind_ok.1 h
  obtain ⟨_, -, h⟩ := bind_ok.1 h
  obtain ⟨_, -, h⟩ := bind_ok.1 h
  obtain ⟨_, -, h⟩ := bind_ok.1 h
  cases h
  rw [hA]
  exact fin_symmetric _ k l

theorem kG_symmetric {E : Env K} {s s' : Shell K} {A : KArgs K} (hA : A.finalize = true) {L : Coo K}
    (h : s.calcKG E A = .ok (L, s')) (k l : ℕ) : Coo.entry L k l = Coo.entry L l k := by
  unfold Shell.calcKG at h
  obtain ⟨_, -, h⟩ := bind_ok.1 h
  obtain ⟨_, -, h⟩ := bind_ok.1 h
  obtain ⟨⟨_, _, _⟩, -, h⟩ := bind_ok.1 h
  dsimp only at h
  split at h
  · obtain ⟨_, -, h⟩ := bind_ok.1 h
    cases h
    rw [hA]
    exact fin_symmetric _ k l
  · obtain ⟨_, -, h⟩ := bind_ok.1 h
    obtain ⟨_, -, h⟩ := bind_ok.1 h
    obtain ⟨_, -, h⟩ := bind_ok.1 h
    cases h
    rw [hA]
    exact fin_symmetric _ k l

theorem kT_symmetric {E : Env K} {s s' : Shell K} {A : KArgs K} (hA : A.finalize = true) {L : Coo K}
    (h : s.calcKT E A = .ok (L, s')) (k l : ℕ) : Coo.entry L k l = Coo.entry L l k := by
  unfold Shell.calcKT at h
  obtain ⟨⟨L1, _⟩, h1, h⟩ := bind_ok.1 h
  obtain ⟨⟨L2, _⟩, h2, h⟩ := bind_ok.1 h
  cases h
  rw [Coo.entry_append, Coo.entry_append]
  exact congrArg₂ _ (kC_symmetric (by exact hA) h1 k l) (kG_symmetric (by exact hA) h2 k l)

/-- The matrix of a panel: stiffness or tangent stiffness, in any state, with any arguments. -/
def Stiffness (E : Env K) (s : Shell K) (A : KArgs K) (L : Coo K) : Prop :=
  ∃ s', s.calcKC E A = .ok (L, s') ∨ s.calcKT E A = .ok (L, s')

theorem Stiffness.symmetric {E : Env K} {s : Shell K} {A : KArgs K} (hA : A.finalize = true) {L : Coo K}
    (h : Stiffness E s A L) (k l : ℕ) : Coo.entry L k l = Coo.entry L l k := by
  obtain ⟨s', h | h⟩ := h
  · exact kC_symmetric hA h k l
  · exact kT_symmetric hA h k l

section
variable {E : Env K} {P : Panel K} {L M : Loads K} {inc inc' : K} {size : SizeArg} {s0 : ℕ}
  {f g c d : ℕ → K} {t : Finset ℕ}

/-- The forces do on any amplitudes the work of the loads on the displacements. -/
theorem work_on (hL : WellFormed L) (hs : s0 + 3 * P.m * P.n ≤ size.value (3 * P.m * P.n))
    (ht : ∀ k ∈ t, k < size.value (3 * P.m * P.n))
    (hf : shellFext E.S E.G P L inc size s0 = .ok f) (hd : ∀ k ∉ t, d k = 0) :
    ∑ k ∈ t, f k * d k = C67.loadWork E P L inc s0 d := by
  obtain ⟨f', e, hw⟩ := C33.work E.S E.G P L hL inc size s0 hs
  cases e.symm.trans hf
  rw [sum_on ht f hd]
  exact hw d

variable {s : Shell K} {A : KArgs K} {k : Coo K}

/-- **C87, reciprocity.**  The work of the first loads on the displacements under the second ones is the
work of the second loads on the displacements under the first ones. -/
theorem panel_reciprocal (hA : A.finalize = true) (hk : Stiffness E s A k) (hL : WellFormed L)
    (hM : WellFormed M) (hs : A.col0 + 3 * s.pan.m * s.pan.n ≤ A.size.value (3 * s.pan.m * s.pan.n))
    (ht : ∀ k ∈ t, k < A.size.value (3 * s.pan.m * s.pan.n))
    (hf : shellFext E.S E.G s.panel L inc A.size A.col0 = .ok f)
    (hg : shellFext E.S E.G s.panel M inc' A.size A.col0 = .ok g)
    (hc : Balanced t k f c) (hd : Balanced t k g d) :
    C67.loadWork E s.panel L inc A.col0 d = C67.loadWork E s.panel M inc' A.col0 c := by
  rw [← work_on (P := s.panel) hL hs ht hf hd.off, ← work_on (P := s.panel) hM hs ht hg hc.off]
  exact reciprocal (hk.symmetric hA) hc hd

/-- A single force `F` at `(x, y)` in the direction of the displacement component `α`. -/
def single (α : ℕ) (x y F : K) : Loads K :=
  { pointLoads := [⟨x, y, if α = 0 then F else 0, if α = 1 then F else 0, if α = 2 then F else 0⟩] }

theorem single_wf (α : ℕ) (x y F : K) : WellFormed (single α x y F) := by
  intro l hl
  simp [single] at hl

theorem single_work (E : Env K) (P : Panel K) {α : ℕ} (hα : α < 3) (x y F inc : K) (s0 : ℕ) (c : ℕ → K) :
    C67.loadWork E P (single α x y F) inc s0 c = F * Spec.field E.S P s0 c α x y := by
  have : α = 0 ∨ α = 1 ∨ α = 2 := by omega
  rcases this with rfl | rfl | rfl <;>
    simp [C67.loadWork, constWork, incWork, single, pointWork]

/-- **C87, displacements.**  The displacement at one point in one direction under a force at another point
in another direction is the same when the two are exchanged. -/
theorem panel_exchange {α β : ℕ} (hα : α < 3) (hβ : β < 3) {F x y x' y' : K} (hF : F ≠ 0)
    (hA : A.finalize = true) (hk : Stiffness E s A k)
    (hs : A.col0 + 3 * s.pan.m * s.pan.n ≤ A.size.value (3 * s.pan.m * s.pan.n))
    (ht : ∀ k ∈ t, k < A.size.value (3 * s.pan.m * s.pan.n))
    (hf : shellFext E.S E.G s.panel (single α x y F) inc A.size A.col0 = .ok f)
    (hg : shellFext E.S E.G s.panel (single β x' y' F) inc' A.size A.col0 = .ok g)
    (hc : Balanced t k f c) (hd : Balanced t k g d) :
    Spec.field E.S s.panel A.col0 d α x y = Spec.field E.S s.panel A.col0 c β x' y' := by
  have := panel_reciprocal hA hk (single_wf _ _ _ _) (single_wf _ _ _ _) hs ht hf hg hc hd
  rw [single_work E _ hα, single_work E _ hβ] at this
  exact mul_left_cancel₀ hF this

/-- **C87, superposition.**  Both sets of loads together are balanced by the sum of the amplitudes. -/
theorem panel_superposed {L M : Loads K} {F G H : ℕ → K} (hL : WellFormed L) (hM : WellFormed M)
    (hs : s0 + 3 * P.m * P.n ≤ size.value (3 * P.m * P.n))
    (hf : shellFext E.S E.G P L inc size s0 = .ok F) (hg : shellFext E.S E.G P M inc size s0 = .ok G)
    (hh : shellFext E.S E.G P (both L M) inc size s0 = .ok H)
    (hc : Balanced t k F c) (hd : Balanced t k G d) : Balanced t k H fun i => c i + d i := by
  obtain ⟨f', g', h', e1, e2, e3, e⟩ := C33.additive E.S E.G P L M hL hM inc size s0 hs
  cases e1.symm.trans hf
  cases e2.symm.trans hg
  cases e3.symm.trans hh
  refine ⟨fun i hi => by rw [hc.off i hi, hd.off i hi, add_zero], fun i hi => ?_⟩
  simp only [mul_add, sum_add_distrib]
  rw [hc.eq i hi, hd.eq i hi, e]

end
end

/-! ## Energy -/

section
variable {t : Finset ℕ} {L : Coo ℝ} {f c d : ℕ → ℝ}

theorem bilin_comm (hs : ∀ k l, Coo.entry L k l = Coo.entry L l k) (hc : ∀ k ∉ t, c k = 0)
    (hd : ∀ k ∉ t, d k = 0) : Coo.bilin L c d = Coo.bilin L d c := by
  rw [bilin_on L t hc hd, bilin_on L t hd hc]
  simp only [mul_sum]
  rw [sum_comm]
  refine sum_congr rfl fun k _ => sum_congr rfl fun l _ => ?_
  rw [hs l k]
  ring

/-- The potential of the forces `f`. -/
noncomputable def potential (t : Finset ℕ) (L : Coo ℝ) (f c : ℕ → ℝ) : ℝ :=
  1 / 2 * Coo.quad L c - ∑ k ∈ t, f k * c k

/-- The potential along a line. -/
theorem potential_line (hs : ∀ k l, Coo.entry L k l = Coo.entry L l k) (hc : ∀ k ∉ t, c k = 0)
    (hd : ∀ k ∉ t, d k = 0) (r : ℝ) : potential t L f (fun k => c k + r * d k)
      = potential t L f c + r * (Coo.bilin L d c - ∑ k ∈ t, f k * d k) + r ^ 2 * (1 / 2 * Coo.quad L d) := by
  unfold potential
  rw [C67.bilin_line, bilin_comm hs hc hd]
  simp only [mul_add, sum_add_distrib]
  rw [show ∑ k ∈ t, f k * (r * d k) = r * ∑ k ∈ t, f k * d k by
    rw [mul_sum]; exact sum_congr rfl fun k _ => by ring]
  ring

/-- How far any amplitudes are above equilibrium: the energy of the difference. -/
theorem potential_above (hs : ∀ k l, Coo.entry L k l = Coo.entry L l k) (h : Balanced t L f c)
    (hd : ∀ k ∉ t, d k = 0) :
    potential t L f d = potential t L f c + 1 / 2 * Coo.quad L fun k => d k - c k := by
  have h0 : ∀ k ∉ t, d k - c k = 0 := fun k hk => by rw [hd k hk, h.off k hk, sub_zero]
  have := potential_line (f := f) hs h.off h0 1
  rw [bilin_balanced h h0] at this
  rw [show d = fun k => c k + 1 * (d k - c k) from funext fun k => by ring, this,
    show (fun k => c k + 1 * (d k - c k) - c k) = fun k => d k - c k from funext fun k => by ring]
  ring

/-- Equilibrium is the minimum of the potential. -/
theorem balanced_iff (hs : ∀ k l, Coo.entry L k l = Coo.entry L l k)
    (hp : ∀ v : ℕ → ℝ, (∀ k ∉ t, v k = 0) → 0 ≤ Coo.quad L v) :
    Balanced t L f c ↔ Smallest t (potential t L f) c := by
  constructor
  · refine fun h => ⟨h.off, fun d hd => ?_⟩
    rw [potential_above hs h hd]
    linarith [hp (fun k => d k - c k) fun k hk => by rw [hd k hk, h.off k hk, sub_zero]]
  · refine fun h => ⟨h.off, fun k hk => ?_⟩
    -- the slope along the unit vector
    set e : ℕ → ℝ := fun i => if i = k then 1 else 0 with he
    have h0 : ∀ i ∉ t, e i = 0 := fun i hi => if_neg (by rintro rfl; exact hi hk)
    set b := Coo.bilin L e c - ∑ i ∈ t, f i * e i with hb
    have key : ∀ r : ℝ, 0 ≤ r * b + r ^ 2 * (1 / 2 * Coo.quad L e) := fun r => by
      have h1 := potential_line (f := f) hs h.off h0 r
      have h2 := h.least (fun i => c i + r * e i) fun i hi => by rw [h.off i hi, h0 i hi]; ring
      linarith
    have hq := hp e h0
    have : b = 0 := by
      by_contra hne
      rcases hq.eq_or_lt with h1 | h1
      · have := key (-b)
        rw [← h1] at this
        nlinarith [sq_nonneg b, mul_self_pos.2 hne]
      · have := key (-(b / Coo.quad L e))
        have e1 : -(b / Coo.quad L e) * b + (-(b / Coo.quad L e)) ^ 2 * (1 / 2 * Coo.quad L e)
            = -(b * b / (2 * Coo.quad L e)) := by
          field_simp
          ring
        rw [e1] at this
        have : 0 < b * b / (2 * Coo.quad L e) := div_pos (mul_self_pos.2 hne) (by linarith)
        linarith
    rw [hb, bilin_on L t h0 h.off] at this
    simp only [he, ite_mul, one_mul, zero_mul, mul_ite, mul_one, mul_zero, sum_ite_eq', hk, if_true]
      at this
    linarith

end

/-! ## Energy of one panel -/

section
variable {E : Env ℝ} {P : Panel ℝ} {L : Loads ℝ} {inc : ℝ} {size : SizeArg} {s0 : ℕ} {f c d : ℕ → ℝ}
  {t : Finset ℕ} {F : ℕ → ℕ → ℝ}

/-- Strain energy of a panel with curvature `κ`. -/
noncomputable def strainEnergy (κ : ℝ) (S : Shape ℝ) (P : Panel ℝ) (F : ℕ → ℕ → ℝ) (s0 : ℕ)
    (c : ℕ → ℝ) : ℝ :=
  1 / 2 * ∫ x in (0 : ℝ)..P.a, ∫ y in (0 : ℝ)..P.b, dens 6 F fun s =>
    donnell κ (u S P s0 c 0) (u S P s0 c 1) (u S P s0 c 2) s x y

/-- The closed-form stiffness of a panel. -/
noncomputable def closed (E : Env ℝ) (k : Kind) (P : Panel ℝ) (F : ℕ → ℕ → ℝ) (s0 : ℕ) : Coo ℝ :=
  Coo.finalizeSym (match k with | .plate => plateFk0 E.I P F s0 s0 | .cyl => cylFk0 E.I P F s0 s0)

/-- Its curvature. -/
noncomputable def curv (k : Kind) (P : Panel ℝ) : ℝ := match k with | .plate => 0 | .cyl => 1 / P.r

theorem closed_quad (hI : E.I.Exact E.S Mean.integral) (hS : E.S.C2) (k : Kind) (ha : P.a ≠ 0)
    (hb : P.b ≠ 0) (hr : k = .cyl → P.r ≠ 0) (hF : ABDSym F) (s0 : ℕ) (c : ℕ → ℝ) :
    1 / 2 * Coo.quad (closed E k P F s0) c = strainEnergy (curv k P) E.S P F s0 c := by
  unfold strainEnergy
  cases k with
  | plate => exact congrArg _ (C08.plate_fk0_strain_energy hI hS P ha hb F hF s0 c)
  | cyl => exact congrArg _ (C11.cyl_fk0_strain_energy hI hS P ha hb (hr rfl) F hF s0 c)

variable {k : Kind}

/-- **C87, energy.**  In equilibrium the strain energy is half the work of the loads. -/
theorem panel_energy (hI : E.I.Exact E.S Mean.integral) (hS : E.S.C2) (ha : P.a ≠ 0) (hb : P.b ≠ 0)
    (hr : k = .cyl → P.r ≠ 0) (hF : ABDSym F) (hL : WellFormed L)
    (hs : s0 + 3 * P.m * P.n ≤ size.value (3 * P.m * P.n))
    (ht : ∀ k ∈ t, k < size.value (3 * P.m * P.n))
    (hf : shellFext E.S E.G P L inc size s0 = .ok f) (h : Balanced t (closed E k P F s0) f c) :
    strainEnergy (curv k P) E.S P F s0 c = 1 / 2 * C67.loadWork E P L inc s0 c := by
  rw [← closed_quad hI hS k ha hb hr hF, ← work_on hL hs ht hf h.off]
  exact congrArg _ (bilin_balanced h h.off)

/-- **C87, minimum.**  The amplitudes are in equilibrium exactly if they make the strain energy minus the
work of the loads smallest. -/
theorem panel_minimum (hI : E.I.Exact E.S Mean.integral) (hS : E.S.C2) (ha : 0 < P.a) (hb : 0 < P.b)
    (hr : k = .cyl → P.r ≠ 0) (hF : ABDSym F) (hpos : C13.ABDPos F) (hL : WellFormed L)
    (hs : s0 + 3 * P.m * P.n ≤ size.value (3 * P.m * P.n))
    (ht : ∀ k ∈ t, k < size.value (3 * P.m * P.n))
    (hf : shellFext E.S E.G P L inc size s0 = .ok f) :
    Balanced t (closed E k P F s0) f c ↔
      Smallest t (fun c => strainEnergy (curv k P) E.S P F s0 c - C67.loadWork E P L inc s0 c) c := by
  have e : ∀ d : ℕ → ℝ, (∀ k ∉ t, d k = 0) → potential t (closed E k P F s0) f d
      = strainEnergy (curv k P) E.S P F s0 d - C67.loadWork E P L inc s0 d := fun d hd => by
    rw [potential, closed_quad hI hS k ha.ne' hb.ne' hr hF, work_on hL hs ht hf hd]
  rw [balanced_iff (L := closed E k P F s0) (fun _ _ => Coo.entry_finalizeSym_comm _ _ _) fun v _ => ?_]
  · constructor <;> intro h <;> refine ⟨h.off, fun d hd => ?_⟩ <;> have := h.least d hd
    · rwa [e _ h.off, e _ hd] at this
    · rw [e _ h.off, e _ hd]
      exact this
  · have := C13.analytical_psd hI hS P ha hb F hF hpos s0 v
    cases k with
    | plate => exact this.1
    | cyl => exact this.2 (hr rfl)

/-- A force never moves its own point of application against itself. -/
theorem panel_along {α : ℕ} (hα : α < 3) {x y F₀ : ℝ} (hI : E.I.Exact E.S Mean.integral) (hS : E.S.C2)
    (ha : 0 < P.a) (hb : 0 < P.b) (hr : k = .cyl → P.r ≠ 0) (hF : ABDSym F) (hpos : C13.ABDPos F)
    (hs : s0 + 3 * P.m * P.n ≤ size.value (3 * P.m * P.n))
    (ht : ∀ k ∈ t, k < size.value (3 * P.m * P.n))
    (hf : shellFext E.S E.G P (single α x y F₀) inc size s0 = .ok f)
    (h : Balanced t (closed E k P F s0) f c) : 0 ≤ F₀ * Spec.field E.S P s0 c α x y := by
  have e := panel_energy hI hS ha.ne' hb.ne' hr hF (single_wf _ _ _ _) hs ht hf h
  rw [single_work E P hα] at e
  have : 0 ≤ strainEnergy (curv k P) E.S P F s0 c := mul_nonneg (by norm_num)
    (intervalIntegral.integral_nonneg ha.le fun x _ => intervalIntegral.integral_nonneg hb.le fun y _ =>
      hpos _)
  linarith

theorem actives_lt {n : ℕ} (hs : s0 + 3 * P.m * P.n ≤ n) : ∀ k ∈ C76.actives P s0, k < n := fun k hk => by
  classical
  exact (mem_range.1 (mem_filter.1 hk).1).trans_le hs

/-- **C87, the panel at rest.**  If the supports hold the panel, there is exactly one minimum for every
set of loads. -/
theorem panel_solved (hI : E.I.Exact (bardellShape ℝ) Mean.integral) (hE : E.S = bardellShape ℝ)
    (ha : 0 < P.a) (hb : 0 < P.b) (hr : k = .cyl → P.r ≠ 0) (m4 : 4 ≤ P.m) (n4 : 4 ≤ P.n)
    (hR : Restrained (curv k P) P) (hF : ABDSym F) (hD : C76.ABDDef F) (hL : WellFormed L)
    (hs : s0 + 3 * P.m * P.n ≤ size.value (3 * P.m * P.n)) (inc : ℝ) :
    ∃ f, shellFext E.S E.G P L inc size s0 = .ok f ∧
      ∃! c, Balanced (C76.actives P s0) (closed E k P F s0) f c ∧
        Smallest (C76.actives P s0)
          (fun c => strainEnergy (curv k P) E.S P F s0 c - C67.loadWork E P L inc s0 c) c := by
  obtain ⟨f, hf, -⟩ := C33.work E.S E.G P L hL inc size s0 hs
  have hd : C76.Definite P s0 (closed E k P F s0) := by
    have := C77.stiffness_ana hI P ha hb m4 n4 F hF hD s0
    cases k with
    | plate => exact this.1.2 hR
    | cyl => exact (this.2 (hr rfl)).2 hR
  obtain ⟨c, ⟨h1, h2⟩, h3⟩ := C76.solvable hd f
  have hm := C76.mem_actives P s0
  have hc : Balanced (C76.actives P s0) (closed E k P F s0) f c :=
    ⟨fun i hi => h1 i fun e => hi ((hm i).2 e), fun i hi => h2 i ((hm i).1 hi)⟩
  exact ⟨f, hf, c, ⟨hc, (panel_minimum (hE ▸ hI) (hE ▸ bardellShape_C2) ha hb hr hF
    (fun e => hD.nonneg e) hL hs (actives_lt hs) hf).1 hc⟩, fun d hd => h3 d
    ⟨fun i hi => hd.1.off i fun e => hi ((hm i).1 e), fun i hi => hd.1.eq i ((hm i).2 hi)⟩⟩

end

/-! ## Assemblies -/

section
variable {K : Type} [Field K] [LinearOrder K] {E : Env K} {M N N' : Multi K}
  {conn : Option (List (ConnD K))} {cc : Option (CArg K)} {k : Coo K}

/-- The matrix of an assembly. -/
theorem multi_symmetric (hN : ∀ A, N.kCconn = some A → ∀ r c, A.entry r c = A.entry c r)
    (h : N.calcKC E conn cc true = .ok (k, N')) (r s : ℕ) : Coo.entry k r s = Coo.entry k s r := by
  obtain ⟨L, -, e⟩ := C25.later_kC hN h
  rw [e, e]
  exact Coo.entry_finalizeSym_comm _ _ _

/-- Work of the loads of all panels on their own displacements. -/
def allWork (E : Env K) (M : Multi K) (loads : ℕ → Loads K) (inc : K) (c : ℕ → K) : K :=
  ∑ i ∈ range M.panels.length, C67.loadWork E (M.shells (M.panels.getD i 0)).panel
    (loads (M.panels.getD i 0)) inc (C40.start M.shells M.panels i) c

variable {loads loads' : ℕ → Loads K} {inc inc' : K} {T : ℕ → Shell K} {f g c d : ℕ → K} {t : Finset ℕ}

theorem multi_work {M' : Multi K} (hM : Laid M)
    (hT : ∀ p ∈ M.panels, (M.shells p).rebuild E = .ok (T p))
    (hL : ∀ p ∈ M.panels, WellFormed (loads p)) (ht : ∀ k ∈ t, k < M.getSize)
    (hf : M.calcFext E loads inc = .ok (f, M')) (hd : ∀ k ∉ t, d k = 0) :
    ∑ k ∈ t, f k * d k = allWork E M loads inc d := by
  obtain ⟨f', M'', e, hw⟩ := C67.fext_work E M hM loads inc T hT hL
  cases e.symm.trans hf
  rw [sum_on ht f hd, hw d]
  rfl

/-- **C87, reciprocity in an assembly.**  The loads may be on different panels; the matrix may come from
any earlier or later state of the assembly. -/
theorem multi_reciprocal {M₁ M₂ : Multi K} (hN : ∀ A, N.kCconn = some A → ∀ r c, A.entry r c = A.entry c r)
    (hk : N.calcKC E conn cc true = .ok (k, N')) (hM : Laid M)
    (hT : ∀ p ∈ M.panels, (M.shells p).rebuild E = .ok (T p))
    (hL : ∀ p ∈ M.panels, WellFormed (loads p)) (hL' : ∀ p ∈ M.panels, WellFormed (loads' p))
    (ht : ∀ k ∈ t, k < M.getSize) (hf : M.calcFext E loads inc = .ok (f, M₁))
    (hg : M.calcFext E loads' inc' = .ok (g, M₂)) (hc : Balanced t k f c) (hd : Balanced t k g d) :
    allWork E M loads inc d = allWork E M loads' inc' c := by
  rw [← multi_work hM hT hL ht hf hd.off, ← multi_work hM hT hL' ht hg hc.off]
  exact reciprocal (multi_symmetric hN hk) hc hd

/-- A single force on the `i`-th panel. -/
def singleOn (M : Multi K) (i α : ℕ) (x y F : K) (p : ℕ) : Loads K :=
  if p = M.panels.getD i 0 then single α x y F else {}

theorem singleOn_wf (M : Multi K) (i α : ℕ) (x y F : K) (p : ℕ) : WellFormed (singleOn M i α x y F p) := by
  unfold singleOn
  split
  · exact single_wf _ _ _ _
  · intro l hl
    simp at hl

theorem singleOn_work (hM : Laid M) {i : ℕ} (hi : i < M.panels.length) {α : ℕ} (hα : α < 3)
    (x y F inc : K) (c : ℕ → K) : allWork E M (singleOn M i α x y F) inc c
      = F * Spec.field E.S (M.shells (M.panels.getD i 0)).panel (C40.start M.shells M.panels i) c α x y := by
  unfold allWork
  rw [sum_eq_single_of_mem i (mem_range.2 hi) fun j hj hne => ?_]
  · rw [singleOn, if_pos rfl, single_work E _ hα]
  · have hj := mem_range.1 hj
    have : M.panels.getD j 0 ≠ M.panels.getD i 0 := fun e => hne (by
      simp only [List.getD, List.getElem?_eq_getElem hj, List.getElem?_eq_getElem hi,
        Option.getD_some] at e
      exact (hM.nodup.getElem_inj_iff).1 e)
    rw [singleOn, if_neg this]
    simp [C67.loadWork, constWork, incWork]

/-- **C87, displacements in an assembly.**  The displacement at a point of one panel under a force at a
point of another panel is the same when the two are exchanged. -/
theorem multi_exchange {M₁ M₂ : Multi K} {i j α β : ℕ} (hi : i < M.panels.length)
    (hj : j < M.panels.length) (hα : α < 3) (hβ : β < 3) {F x y x' y' : K} (hF : F ≠ 0)
    (hN : ∀ A, N.kCconn = some A → ∀ r c, A.entry r c = A.entry c r)
    (hk : N.calcKC E conn cc true = .ok (k, N')) (hM : Laid M)
    (hT : ∀ p ∈ M.panels, (M.shells p).rebuild E = .ok (T p)) (ht : ∀ k ∈ t, k < M.getSize)
    (hf : M.calcFext E (singleOn M i α x y F) inc = .ok (f, M₁))
    (hg : M.calcFext E (singleOn M j β x' y' F) inc' = .ok (g, M₂))
    (hc : Balanced t k f c) (hd : Balanced t k g d) :
    Spec.field E.S (M.shells (M.panels.getD i 0)).panel (C40.start M.shells M.panels i) d α x y
      = Spec.field E.S (M.shells (M.panels.getD j 0)).panel (C40.start M.shells M.panels j) c β x' y' := by
  have := multi_reciprocal hN hk hM hT (fun p _ => singleOn_wf M i α x y F p)
    (fun p _ => singleOn_wf M j β x' y' F p) ht hf hg hc hd
  rw [singleOn_work hM hi hα, singleOn_work hM hj hβ] at this
  exact mul_left_cancel₀ hF this

/-- **C87, energy of an assembly.**  In equilibrium twice the energy is the work of the loads. -/
theorem multi_energy {M' : Multi K} (hM : Laid M)
    (hT : ∀ p ∈ M.panels, (M.shells p).rebuild E = .ok (T p))
    (hL : ∀ p ∈ M.panels, WellFormed (loads p)) (ht : ∀ k ∈ t, k < M.getSize)
    (hf : M.calcFext E loads inc = .ok (f, M')) (hc : Balanced t k f c) :
    Coo.quad k c = allWork E M loads inc c := by
  rw [← multi_work hM hT hL ht hf hc.off]
  exact bilin_balanced hc hc.off

end

section
variable {E : Env ℝ} {A : Assy ℝ} {T : ℕ → Shell ℝ} {lam : ℕ → LamObj ℝ} {k : Coo ℝ} {N' M' : Multi ℝ}
  {inc : ℝ} {f c : ℕ → ℝ} {t : Finset ℕ} {loads : ℕ → Loads ℝ}

/-- **C87, minimum for an assembly** of panels with positive definite laminates and any joints: the
amplitudes are in equilibrium exactly if they make the energy of panels and joints minus the work of the
loads smallest. -/
theorem multi_minimum (h : Solid E A T lam)
    (hk : A.multi.calcKC E (some A.conns) none = .ok (k, N'))
    (hL : ∀ p ∈ A.multi.panels, WellFormed (loads p)) (ht : ∀ k ∈ t, k < A.multi.getSize)
    (hf : A.multi.calcFext E loads inc = .ok (f, M')) :
    Balanced t k f c ↔
      Smallest t (fun c => 1 / 2 * Coo.quad k c - allWork E A.multi loads inc c) c := by
  have hM : Laid A.multi := laid_init _ _ _ _ List.nodup_range
  have e : ∀ d : ℕ → ℝ, (∀ k ∉ t, d k = 0) → potential t k f d
      = 1 / 2 * Coo.quad k d - allWork E A.multi loads inc d := fun d hd => by
    rw [potential, multi_work hM (fun p hp => h.fit.built p (List.mem_range.1 hp)) hL ht hf hd]
  have h0 : ∀ B, A.multi.kCconn = some B → ∀ r c, B.entry r c = B.entry c r := fun B h => by
    cases (show (none : Option (Coo ℝ)) = some B from h)
  rw [balanced_iff (multi_symmetric h0 hk) fun v _ => ?_]
  · constructor <;> intro h <;> refine ⟨h.off, fun d hd => ?_⟩ <;> have := h.least d hd
    · rwa [e _ h.off, e _ hd] at this
    · rw [e _ h.off, e _ hd]
      exact this
  · obtain ⟨k', M, h1, h2⟩ := h.kernel
    cases h1.symm.trans hk
    exact (h2 v).1

/-- **C87, the assembly at rest.**  If the supports and the joints hold the assembly, there is exactly one
minimum for every set of loads. -/
theorem multi_solved (h : Solid E A T lam) {N : ℕ} (hS : Hier E.S N) (hN : 4 ≤ N)
    (hmn : ∀ k < A.count, (A.panel k).m ≤ N ∧ (A.panel k).n ≤ N)
    (hR : AssyRestrained A.count A.panel (thick T) A.conns)
    (hL : ∀ p ∈ A.multi.panels, WellFormed (loads p)) (inc : ℝ) :
    ∃ k f N' M', A.multi.calcKC E (some A.conns) none = .ok (k, N') ∧
      A.multi.calcFext E loads inc = .ok (f, M') ∧
      ∃! c, Balanced (C78.actives A.count A.panel A.start) k f c ∧
        Smallest (C78.actives A.count A.panel A.start)
          (fun c => 1 / 2 * Coo.quad k c - allWork E A.multi loads inc c) c := by
  have hM : Laid A.multi := laid_init _ _ _ _ List.nodup_range
  obtain ⟨k, N', hk, -⟩ := h.kernel
  obtain ⟨f, M', hf, -⟩ := C67.fext_work E A.multi hM loads inc T
    (fun p hp => h.fit.built p (List.mem_range.1 hp)) hL
  have hm : ∀ i, i ∈ C78.actives A.count A.panel A.start ↔
      ∃ k < A.count, Active (A.panel k) (A.start k) i := fun i => by
    simp [C78.actives, C76.mem_actives]
  have ht : ∀ i ∈ C78.actives A.count A.panel A.start, i < A.multi.getSize := fun i hi => by
    simp only [C78.actives, mem_biUnion, mem_range, C76.actives, mem_filter] at hi
    obtain ⟨p, hp, hi, -⟩ := hi
    have e := Assy_start_succ hp
    have : A.start (p + 1) ≤ A.multi.getSize := by
      rw [Assy_size]
      rcases Nat.lt_or_ge (p + 1) A.count with e | e
      · exact (h.fit.start_lt e le_rfl).le
      · rw [show p + 1 = A.count by omega]
    have e2 : A.start p + 3 * (A.panel p).m * (A.panel p).n
        = A.start p + 3 * (A.part p).shell.pan.m * (A.part p).shell.pan.n := rfl
    omega
  refine ⟨k, f, N', M', hk, hf, ?_⟩
  obtain ⟨c, ⟨h1, h2⟩, h3⟩ := C78.solvable (h.definite hS hN hmn hR hk) f
  have hc : Balanced (C78.actives A.count A.panel A.start) k f c :=
    ⟨fun i hi => h1 i fun e => hi ((hm i).2 e), fun i hi => h2 i ((hm i).1 hi)⟩
  exact ⟨c, ⟨hc, (multi_minimum h hk hL ht hf).1 hc⟩, fun d hd => h3 d
    ⟨fun i hi => hd.1.off i fun e => hi ((hm i).1 e), fun i hi => hd.1.eq i ((hm i).2 hi)⟩⟩

end

/-! ## Concrete cases -/

/-- A force of 2 at a point of a plate held on two edges, and a curved one. -/
example (k : Kind) : ∃ f c, shellFext C40.env.S C40.env.G Witness.panel (single 2 (1 / 2) (1 / 3) 2) 1
      (.num 300) 12 = .ok f ∧
    Balanced (C76.actives Witness.panel 12) (closed C40.env k Witness.panel C13.lam 12) f c ∧
    strainEnergy (curv k Witness.panel) (bardellShape ℝ) Witness.panel C13.lam 12 c
      = 1 / 2 * (2 * Spec.field (bardellShape ℝ) Witness.panel 12 c 2 (1 / 2) (1 / 3)) := by
  obtain ⟨f, h1, c, ⟨h2, -⟩, -⟩ := panel_solved (E := C40.env) (k := k) (P := Witness.panel) (F := C13.lam)
    (L := single 2 (1 / 2) (1 / 3) 2) (size := .num 300) (s0 := 12) (Tab.of_exact _ _) rfl
    (by simp [Witness.panel]) (by simp [Witness.panel]) (fun _ => by simp [Witness.panel])
    (by simp [Witness.panel]) (by simp [Witness.panel])
    (C77.supported _ (by simp [Witness.panel]) (by simp [Witness.panel]) C76.panel_supported)
    C13.lam_sym C76.lam_def (single_wf _ _ _ _) (by norm_num [Witness.panel, SizeArg.value]) 1
  refine ⟨f, c, h1, h2, ?_⟩
  refine Eq.trans ?_ (congrArg _ (single_work C40.env Witness.panel (by norm_num) (1 / 2) (1 / 3) 2 1 12 c))
  exact panel_energy (E := C40.env) (Tab.of_exact _ _) bardellShape_C2 (by simp [Witness.panel])
    (by simp [Witness.panel]) (fun _ => by simp [Witness.panel]) C13.lam_sym (single_wf _ _ _ _)
    (by norm_num [Witness.panel, SizeArg.value]) (actives_lt (by norm_num [Witness.panel, SizeArg.value]))
    h1 h2

/-- The number stored at `(2, 2)`. -/
def diagonal (r : Except Fail (Coo ℚ × Shell ℚ)) : ℚ :=
  match r with
  | .ok (L, _) => Coo.entry L 2 2
  | .error _ => 0

theorem one_ok : ∃ L s', (C45.shells 0).calcKC C45.env {} = .ok (L, s') ∧ Coo.entry L 2 2 ≠ 0 := by
  obtain ⟨p, hk⟩ := exists_ok (x := (C45.shells 0).calcKC C45.env {}) (by decide +kernel)
  have : diagonal ((C45.shells 0).calcKC C45.env {}) ≠ 0 := by decide +kernel
  rw [hk] at this
  exact ⟨p.1, p.2, hk, this⟩

/-- Two forces on a panel with one amplitude that is not held. -/
example : ∃ L s' f g, (C45.shells 0).calcKC C45.env {} = .ok (L, s') ∧
    shellFext C45.env.S C45.env.G (C45.shells 0).panel (single 2 (1 / 2) 1 3) 1 .none 0 = .ok f ∧
    shellFext C45.env.S C45.env.G (C45.shells 0).panel (single 2 2 (1 / 4) 3) 1 .none 0 = .ok g ∧
    Balanced {2} L f (fun k => if k = 2 then f 2 / Coo.entry L 2 2 else 0) ∧
    Balanced {2} L g (fun k => if k = 2 then g 2 / Coo.entry L 2 2 else 0) ∧
    Spec.field C45.env.S (C45.shells 0).panel 0 (fun k => if k = 2 then g 2 / Coo.entry L 2 2 else 0) 2
        (1 / 2) 1
      = Spec.field C45.env.S (C45.shells 0).panel 0
        (fun k => if k = 2 then f 2 / Coo.entry L 2 2 else 0) 2 2 (1 / 4) := by
  obtain ⟨L, s', hk, hne⟩ := one_ok
  have hb : ∀ f : ℕ → ℚ, Balanced {2} L f (fun k => if k = 2 then f 2 / Coo.entry L 2 2 else 0) :=
    fun f => ⟨fun k hk => if_neg (by simpa using hk), fun k hk => by
      obtain rfl := mem_singleton.1 hk
      simp only [sum_singleton, if_true]
      field_simp⟩
  obtain ⟨f, hf, -⟩ := C33.work C45.env.S C45.env.G (C45.shells 0).panel _ (single_wf 2 (1 / 2) 1 3) 1
    .none 0 (by decide)
  obtain ⟨g, hg, -⟩ := C33.work C45.env.S C45.env.G (C45.shells 0).panel _ (single_wf 2 2 (1 / 4) 3) 1
    .none 0 (by decide)
  exact ⟨L, s', f, g, hk, hf, hg, hb f, hb g, panel_exchange (E := C45.env) (s := C45.shells 0)
    (A := {}) (by norm_num) (by norm_num) (by norm_num) rfl ⟨s', .inl hk⟩ (by decide) (by decide) hf hg (hb f) (hb g)⟩

/-- Pressure-like sets of point loads on all fifteen panels of a stiffened panel with a loose part. -/
example : ∃ k f N' M', (C66.args.assy 1 2).multi.calcKC C40.env (some (C66.args.assy 1 2).conns) none
      = .ok (k, N') ∧
    (C66.args.assy 1 2).multi.calcFext C40.env (fun p => single 2 (1 / 10) (1 / 20) (p + 1)) 1
      = .ok (f, M') ∧
    ∃ c, Smallest (C78.actives 15 (C66.args.assy 1 2).panel (C66.args.assy 1 2).start)
      (fun c => 1 / 2 * Coo.quad k c - allWork C40.env (C66.args.assy 1 2).multi
        (fun p => single 2 (1 / 10) (1 / 20) (p + 1)) 1 c) c := by
  obtain ⟨T, lam, h⟩ := C66.args_built 1 2
  have hD := fun k hk => C78.env_def (h.built k hk) (h.hlam k hk)
    (by interval_cases k <;> rfl) (h.pos k hk)
  have hmn : ∀ k < (C66.args.assy 1 2).count, ((C66.args.assy 1 2).panel k).m ≤ 6 ∧
      ((C66.args.assy 1 2).panel k).n ≤ 6 := fun k hk => by
    have hk' : k < 15 := hk
    interval_cases k <;> exact ⟨by decide, by decide⟩
  obtain ⟨k, f, N', M', h1, h2, c, ⟨-, h3⟩, -⟩ := multi_solved (C78.solid_T h hD) (exact_hier 6)
    (by norm_num) hmn (C78.restrained_T h.dims 1 2 _)
    (loads := fun p => single 2 (1 / 10) (1 / 20) (p + 1)) (fun p _ => single_wf _ _ _ _) 1
  exact ⟨k, f, N', M', h1, h2, c, h3⟩

end Verif.C87
