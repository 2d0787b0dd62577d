import Verif.Spec.Flutter
import Verif.Props.C90
import Verif.Props.C59
import Verif.Props.C74
import Verif.Props.C82
import Mathlib.LinearAlgebra.Matrix.ToLinearEquiv

/-!
# C93: flutter of a plate does not depend on how the plate is described

`Shell.calc_kA` stores the upper triangle and completes it by skew symmetry (C22), so which of two terms
has the smaller number matters.  Exchanging the axes together with the direction of the flow, or mirroring
the plate along the flow, gives the matrix that it should for all supports.  Mirroring it across the flow
does only if the edges crossed by the flow are held (`across_violated`).
-/

set_option linter.unusedSectionVars false

namespace Verif.C93

open Finset Spec Model Indep C80 C22 C59

/-! ## Eigenvalues -/

section
variable {t : Finset ℕ} {A B A' B' : Coo ℝ}

theorem flutter_eigen {K A M : Coo ℝ} (μ : ℂ) : Flutter t K A M μ ↔ Eigen t (K ++ A) M μ := by
  simp only [Flutter, Eigen, Coo.entry_append]

/-- A pair of matrices and the transposed pair have the same eigenvalues. -/
theorem eigen_transpose (hA : ∀ k ∈ t, ∀ l ∈ t, Coo.entry A' k l = Coo.entry A l k)
    (hB : ∀ k ∈ t, ∀ l ∈ t, Coo.entry B' k l = Coo.entry B l k) (μ : ℂ) : Eigen t A' B' μ ↔ Eigen t A B μ := by
  have key : ∀ A B : Coo ℝ, Eigen t A B μ ↔ (Matrix.of fun k l : t =>
      ((Coo.entry A k l : ℝ) : ℂ) - μ * ((Coo.entry B k l : ℝ) : ℂ)).det = 0 := fun A B => by
    rw [← Matrix.exists_mulVec_eq_zero_iff]
    have e : ∀ (z : ℕ → ℂ) (k : ℕ), ∑ l ∈ t, ((Coo.entry A k l : ℝ) : ℂ) * z l
        - μ * ∑ l ∈ t, ((Coo.entry B k l : ℝ) : ℂ) * z l
        = ∑ l : t, (((Coo.entry A k l : ℝ) : ℂ) - μ * ((Coo.entry B k l : ℝ) : ℂ)) * z l := fun z k => by
      rw [Finset.mul_sum, ← Finset.sum_sub_distrib,
        Finset.sum_coe_sort t fun l => (((Coo.entry A k l : ℝ) : ℂ) - μ * ((Coo.entry B k l : ℝ) : ℂ)) * z l]
      exact Finset.sum_congr rfl fun l _ => by ring
    constructor
    · rintro ⟨z, ⟨k, hk, hz⟩, h⟩
      refine ⟨fun l => z l, fun h0 => hz (congrFun h0 ⟨k, hk⟩), funext fun l => ?_⟩
      have := e z l
      rw [h l l.2, sub_self] at this
      exact this.symm
    · rintro ⟨z, hz, h⟩
      obtain ⟨k, hk⟩ := Function.ne_iff.1 hz
      refine ⟨fun l => if hl : l ∈ t then z ⟨l, hl⟩ else 0, ⟨k, k.2, ?_⟩, fun l hl => sub_eq_zero.1 ?_⟩
      · simpa using hk
      · rw [e]
        have := congrFun h ⟨l, hl⟩
        refine Eq.trans (Finset.sum_congr rfl fun q _ => ?_) this
        simp
  rw [key, key, ← Matrix.det_transpose]
  have : (Matrix.of fun k l : t => ((Coo.entry A' k l : ℝ) : ℂ) - μ * ((Coo.entry B' k l : ℝ) : ℂ)).transpose
      = Matrix.of fun k l : t => ((Coo.entry A k l : ℝ) : ℂ) - μ * ((Coo.entry B k l : ℝ) : ℂ) := by
    ext k l
    simp only [Matrix.transpose_apply, Matrix.of_apply, hA l l.2 k k.2, hB l l.2 k k.2]
  rw [this]

/-- **C93, the sense of the flow.**  Reversing the flow, which changes the sign of a skew-symmetric
matrix, does not change the eigenvalues. -/
theorem reverse {K A A' M : Coo ℝ} (hK : Sym K) (hM : Sym M)
    (hA : ∀ k ∈ t, ∀ l ∈ t, Coo.entry A k l = - Coo.entry A l k)
    (hA' : ∀ k ∈ t, ∀ l ∈ t, Coo.entry A' k l = - Coo.entry A k l) (μ : ℂ) :
    Flutter t K A' M μ ↔ Flutter t K A M μ := by
  rw [flutter_eigen, flutter_eigen]
  refine eigen_transpose (fun k hk l hl => ?_) (fun k _ l _ => hM k l) μ
  rw [Coo.entry_append, Coo.entry_append, hA' k hk l hl, hA k hk l hl, neg_neg, hK k l]

end

/-! ## The terms of the deflection -/

/-- Of two different functions one vanishes at each end. -/
def Ends (S : Shape ℝ) : Prop :=
  ∀ i k fl, i ≠ k → S.f i 1 fl * S.f k 1 fl = 0 ∧ S.f i (-1) fl * S.f k (-1) fl = 0

theorem bardell_ends : Ends (bardellShape ℝ) := by
  have h1 : ∀ i fl, i ≠ 2 → (bardellShape ℝ).f i 1 fl = 0 := fun i fl hi => by
    by_cases h : 4 ≤ i
    · exact (C74.ends i h fl).1
    · have : i = 0 ∨ i = 1 ∨ i = 3 := by omega
      rcases this with rfl | rfl | rfl
      · rw [f0]; norm_num
      · simp [bardellShape, bardell, pev]; norm_num
      · simp [bardellShape, bardell, pev]; norm_num
  have h0 : ∀ i fl, i ≠ 0 → (bardellShape ℝ).f i (-1) fl = 0 := fun i fl hi => by
    by_cases h : 4 ≤ i
    · exact (C74.ends i h fl).2.1
    · have : i = 2 ∨ i = 1 ∨ i = 3 := by omega
      rcases this with rfl | rfl | rfl
      · rw [f2]; norm_num
      · simp [bardellShape, bardell, pev]
      · simp [bardellShape, bardell, pev]
  intro i k fl hik
  constructor
  · by_cases h : i = 2
    · rw [h1 k fl fun e => hik (h.trans e.symm), mul_zero]
    · rw [h1 i fl h, zero_mul]
  · by_cases h : i = 0
    · rw [h0 k fl fun e => hik (h.trans e.symm), mul_zero]
    · rw [h0 i fl h, zero_mul]

section
variable {S : Shape ℝ} {P : Panel ℝ} {s0 : ℕ}

theorem term {i j : ℕ} (hi : i < P.m) (hj : j < P.n) (x y : ℝ) :
    u S P s0 (unit (s0 + 3 * (j * P.m + i) + 2)) 2 x y
      = S.f i (2 / P.a * x - 1) P.xw * S.f j (2 / P.b * y - 1) P.yw := by
  have key : ∀ i' < P.m, ∀ j', s0 + 3 * (j' * P.m + i') + 2 = s0 + 3 * (j * P.m + i) + 2 → i' = i ∧ j' = j :=
    fun i' hi' j' e => by
      obtain ⟨-, h2, h3⟩ := split_number (s := s0) (j := j) hi (by omega : 2 < 3)
      obtain ⟨-, g2, g3⟩ := split_number (s := s0) (j := j') hi' (by omega : 2 < 3)
      rw [e] at g2 g3
      exact ⟨g2.symm.trans h2, g3.symm.trans h3⟩
  unfold u
  rw [Finset.sum_eq_single i, Finset.sum_eq_single j]
  · rw [unit, if_pos rfl, one_mul]
    rfl
  · intro j' _ hj'
    rw [unit, if_neg fun e => hj' (key i hi j' e).2, zero_mul]
  · exact fun h => absurd (mem_range.2 hj) h
  · intro i' hi' hne
    refine Finset.sum_eq_zero fun j' _ => ?_
    rw [unit, if_neg fun e => hne (key i' (mem_range.1 hi') j' e).1, zero_mul]
  · exact fun h => absurd (mem_range.2 hi) h

/-- A number is that of a term of the deflection, or it has no deflection. -/
theorem term_or (S : Shape ℝ) (P : Panel ℝ) (s0 r : ℕ) : (∀ x y, u S P s0 (unit r) 2 x y = 0) ∨
    ∃ i < P.m, ∃ j < P.n, r = s0 + 3 * (j * P.m + i) + 2 := by
  by_cases h : ∃ i < P.m, ∃ j < P.n, r = s0 + 3 * (j * P.m + i) + 2
  · exact .inr h
  · refine .inl fun x y => ?_
    unfold u
    refine Finset.sum_eq_zero fun i hi => Finset.sum_eq_zero fun j hj => ?_
    rw [unit, if_neg fun e => h ⟨i, mem_range.1 hi, j, mem_range.1 hj, e.symm⟩, zero_mul]

end

/-! ## Skew pairs of terms -/

section
variable {E : Env ℝ} {s : Shell ℝ} {ax : Bool} {beta : ℝ} {s0 : ℕ}

theorem coeff_zero {r q : ℕ}
    (h : (∀ x y, u E.S s.panel s0 (unit r) 2 x y = 0) ∨ ∀ x y, u E.S s.panel s0 (unit q) 2 x y = 0) :
    coeff E s ax beta 0 s0 s0 r q = 0 := by
  unfold coeff gaussP gauss
  refine Finset.sum_eq_zero fun p _ => Finset.sum_eq_zero fun p' _ => mul_eq_zero_of_right _ ?_
  rcases h with h | h
  · have h' : u E.S s.panel s0 (unit r) 2 = fun _ _ => 0 := funext fun x => funext fun y => h x y
    rw [h']
    simp [pistonX, pistonY, dx, dy]
  · simp [pistonX, pistonY, h]

/-- What the finalised matrix needs: exactness of the rule across the flow. -/
structure Whole (E : Env ℝ) (s : Shell ℝ) (ax : Bool) : Prop where
  smooth : E.S.C2
  a : s.panel.a ≠ 0
  b : s.panel.b ≠ 0
  full : FullDomain s.panel
  parts : if ax then PartsExact E.S E.G s.nx s.panel.m s.panel.xw
    else PartsExact E.S E.G s.ny s.panel.n s.panel.yw

/-- The edges crossed by the flow do not deflect. -/
def Held (E : Env ℝ) (s : Shell ℝ) (ax : Bool) : Prop :=
  if ax then ∀ i < s.panel.m, E.S.f i 1 s.panel.xw = 0 ∧ E.S.f i (-1) s.panel.xw = 0
  else ∀ j < s.panel.n, E.S.f j 1 s.panel.yw = 0 ∧ E.S.f j (-1) s.panel.yw = 0

/-- The number of the function in the direction of the flow. -/
def lead (ax : Bool) (i j : ℕ) : ℕ := if ax then i else j

theorem skew_pair (h : Whole E s ax) {i j i' j' : ℕ} (hi : i < s.panel.m) (hj : j < s.panel.n)
    (hi' : i' < s.panel.m) (hj' : j' < s.panel.n)
    (hne : (Ends E.S ∧ lead ax i j ≠ lead ax i' j') ∨ Held E s ax) :
    coeff E s ax beta 0 s0 s0 (s0 + 3 * (j * s.panel.m + i) + 2) (s0 + 3 * (j' * s.panel.m + i') + 2)
      = - coeff E s ax beta 0 s0 s0 (s0 + 3 * (j' * s.panel.m + i') + 2) (s0 + 3 * (j * s.panel.m + i) + 2) := by
  have ha := h.a
  have hb := h.b
  have hp := h.parts
  have ea : 2 / s.panel.a * s.panel.a - 1 = 1 := by field_simp; ring
  have eb : 2 / s.panel.b * s.panel.b - 1 = 1 := by field_simp; ring
  have ez : ∀ c : ℝ, 2 / c * 0 - 1 = -1 := fun c => by ring
  cases ax
  · rw [if_neg (by simp)] at hp
    have e := coeff_y h.smooth ha hb h.full hp beta 0 s0 (s0 + 3 * (j * s.panel.m + i) + 2)
      (s0 + 3 * (j' * s.panel.m + i') + 2)
    have hz : E.S.f j 1 s.panel.yw * E.S.f j' 1 s.panel.yw = 0 ∧
        E.S.f j (-1) s.panel.yw * E.S.f j' (-1) s.panel.yw = 0 := by
      rcases hne with ⟨h1, h2⟩ | h1
      · exact h1 j j' _ h2
      · simp only [Held, Bool.false_eq_true, if_false] at h1
        simp [h1 j hj]
    have e0 : C59.edgeY E.G s.nx s.panel (fun x y => C59.w E s s0 (s0 + 3 * (j * s.panel.m + i) + 2) x y
        * C59.w E s s0 (s0 + 3 * (j' * s.panel.m + i') + 2) x y) = 0 := by
      unfold C59.edgeY C59.w
      refine Finset.sum_eq_zero fun p _ => mul_eq_zero_of_right _ ?_
      simp only [term hi hj, term hi' hj', eb, ez]
      linear_combination (E.S.f i (2 / s.panel.a * node E.G s.nx 0 s.panel.a p - 1) s.panel.xw *
        E.S.f i' (2 / s.panel.a * node E.G s.nx 0 s.panel.a p - 1) s.panel.xw) * (hz.1 - hz.2)
    rw [e0] at e
    linarith
  · rw [if_pos rfl] at hp
    have e := coeff_x h.smooth ha hb h.full hp beta 0 s0 (s0 + 3 * (j * s.panel.m + i) + 2)
      (s0 + 3 * (j' * s.panel.m + i') + 2)
    have hz : E.S.f i 1 s.panel.xw * E.S.f i' 1 s.panel.xw = 0 ∧
        E.S.f i (-1) s.panel.xw * E.S.f i' (-1) s.panel.xw = 0 := by
      rcases hne with ⟨h1, h2⟩ | h1
      · exact h1 i i' _ h2
      · simp only [Held, if_true] at h1
        simp [h1 i hi]
    have e0 : C59.edgeX E.G s.ny s.panel (fun x y => C59.w E s s0 (s0 + 3 * (j * s.panel.m + i) + 2) x y
        * C59.w E s s0 (s0 + 3 * (j' * s.panel.m + i') + 2) x y) = 0 := by
      unfold C59.edgeX C59.w
      refine Finset.sum_eq_zero fun p _ => mul_eq_zero_of_right _ ?_
      simp only [term hi hj, term hi' hj', ea, ez]
      linear_combination (E.S.f j (2 / s.panel.b * node E.G s.ny 0 s.panel.b p - 1) s.panel.yw *
        E.S.f j' (2 / s.panel.b * node E.G s.ny 0 s.panel.b p - 1) s.panel.yw) * (hz.1 - hz.2)
    rw [e0] at e
    linarith

/-- Renumbering a matrix that is completed by skew symmetry. -/
theorem completed {φ : ℕ → ℕ} (co : ℕ → ℕ → ℝ) (k l : ℕ)
    (h : (k ≤ l ↔ φ k ≤ φ l) ∨ co (φ k) (φ l) = - co (φ l) (φ k)) :
    (if k ≤ l then co (φ k) (φ l) else - co (φ l) (φ k))
      = if φ k ≤ φ l then co (φ k) (φ l) else - co (φ l) (φ k) := by
  rcases h with h | h
  · simp only [h]
  · rw [← h]
    simp

end

/-! ## What `calc_kA` returns -/

section
variable {root : ℝ → ℝ} {E : Env ℝ} {s s' s2 s2' : Shell ℝ} {size size2 : SizeArg} {s0 : ℕ} {L L2 : Coo ℝ}

/-- Flow along `x`. -/
def alongX (s : Shell ℝ) : Bool := decide (lower s.flow = "x")

theorem entries (hS : E.S.C2) (ha : s.pan.a ≠ 0) (hb : s.pan.b ≠ 0)
    (h : s.calcKA root E size s0 s0 true = .ok (L, s')) (hg : s'.gamma = some 0) :
    ∃ beta, s'.beta = some beta ∧ ∀ r q, Coo.entry L r q =
      if r ≤ q then coeff E s' (alongX s) beta 0 s0 s0 r q else - coeff E s' (alongX s) beta 0 s0 s0 q r := by
  obtain ⟨b, g, h1, h2, h3⟩ := finalised hS ha hb h
  rw [hg] at h2
  cases h2
  exact ⟨b, h1, h3⟩

/-- The same flow gives the same parameters. -/
theorem same (hf : SameFlow s s2) (h : s.calcKA root E size s0 s0 true = .ok (L, s'))
    (h2 : s2.calcKA root E size2 s0 s0 true = .ok (L2, s2')) : s2'.beta = s'.beta ∧ s2'.gamma = s'.gamma := by
  obtain ⟨k, b, g, M, L0, -, hp, -, -, -, rfl⟩ := calcKA_ok.1 h
  obtain ⟨k2, b2, g2, M2, L02, -, hp2, -, -, -, rfl⟩ := calcKA_ok.1 h2
  have e : s2.fixR.piston root = s.fixR.piston root := by
    unfold Shell.piston Shell.fixR
    simp only [hf.beta, hf.gamma, hf.Mach, hf.V, hf.rhoAir, hf.r]
  rw [e, hp] at hp2
  cases hp2
  exact ⟨rfl, rfl⟩

theorem coeff_flip (hS : E.S.C2) (h : Exchanged s.panel s2.panel) (hx : s2.nx = s.ny) (hy : s2.ny = s.nx)
    (beta : ℝ) (k l : ℕ) : coeff E s2 false beta 0 s0 s0 k l
      = coeff E s true beta 0 s0 s0 (flipNo s.panel.n s.panel.m s0 k) (flipNo s.panel.n s.panel.m s0 l) := by
  unfold coeff
  rw [hx, hy]
  refine gaussP_flip h fun p q x y => ?_
  have hu := fun k => (C90.flipped_unit (m := s.panel.m) (n := s.panel.n) (s := s0) k).symm
  have hd := fun {c p q} => disp_at (S := E.S) h s0 c (α := 2) (by omega) p q x y
  simp only [Bool.false_eq_true, if_false, if_true, pistonX, pistonY]
  rw [hu k, hu l]
  simp only [u_dx hS, u_dy hS, u_disp, hd, other]
  ring

/-- The order of two terms of the same function along the flow is the same in both numberings. -/
theorem order_iff {m n i j j' : ℕ} (hm : 0 < m) :
    s0 + 3 * (i * n + j) + 2 ≤ s0 + 3 * (i * n + j') + 2 ↔ s0 + 3 * (j * m + i) + 2 ≤ s0 + 3 * (j' * m + i) + 2 := by
  have : j * m ≤ j' * m ↔ j ≤ j' := Nat.mul_le_mul_right_iff hm
  omega

/-- **C93, the axes.**  The plate described with the axes exchanged, in the flow along its `y`, has the
same aerodynamic matrix with the terms renumbered. -/
theorem axes (hE : Ends E.S) (hx : Exchanged s.pan s2.pan) (hnx : s2.nx = s.ny) (hny : s2.ny = s.nx)
    (hf : lower s.flow = "x") (hf2 : lower s2.flow = "y") (hs : SameFlow s s2)
    (h : s.calcKA root E size s0 s0 true = .ok (L, s'))
    (h2 : s2.calcKA root E size2 s0 s0 true = .ok (L2, s2')) (hw : Whole E s' true) (hg : s'.gamma = some 0) :
    C90.Renamed s.pan.m s.pan.n s0 L L2 := by
  obtain ⟨e1, e2, e3⟩ := after h
  obtain ⟨g1, g2, g3⟩ := after h2
  have hx' : Exchanged s'.panel s2'.panel := by
    rw [e1, g1]
    exact ⟨hx.m, hx.n, hx.a, hx.b, hx.xf, hx.yf, hx.xdom, hx.ydom⟩
  have em : s'.panel.m = s.pan.m := by rw [e1]; rfl
  have en : s'.panel.n = s.pan.n := by rw [e1]; rfl
  have ea : s'.panel.a = s.pan.a := by rw [e1]; rfl
  have eb : s'.panel.b = s.pan.b := by rw [e1]; rfl
  have ha := hw.a
  have hb := hw.b
  rw [ea] at ha
  rw [eb] at hb
  obtain ⟨q1, q2⟩ := same hs h h2
  obtain ⟨b, hb1, hL⟩ := entries hw.smooth ha hb h hg
  obtain ⟨b2, hb2, hL2⟩ := entries hw.smooth (hx.a ▸ hb) (hx.b ▸ ha) h2 (q2.trans hg)
  obtain rfl : b = b2 := Option.some.inj (hb1.symm.trans (q1.symm.trans hb2))
  have a1 : alongX s = true := decide_eq_true hf
  have a2 : alongX s2 = false := decide_eq_false (by rw [hf2]; decide)
  intro k l
  rw [hL2, hL, a1, a2, ← em, ← en]
  simp only [coeff_flip hw.smooth hx' (g2.trans (hnx.trans e3.symm)) (g3.trans (hny.trans e2.symm))]
  refine completed (fun r q => coeff E s' true b 0 s0 s0 r q) k l ?_
  rcases term_or E.S s'.panel s0 (flipNo s'.panel.n s'.panel.m s0 k) with hz | ⟨i, hi, j, hj, ek⟩
  · exact .inr (by beta_reduce; rw [coeff_zero (.inl hz), coeff_zero (.inr hz), neg_zero])
  rcases term_or E.S s'.panel s0 (flipNo s'.panel.n s'.panel.m s0 l) with hz | ⟨i', hi', j', hj', el⟩
  · exact .inr (by beta_reduce; rw [coeff_zero (.inl hz), coeff_zero (.inr hz), neg_zero])
  by_cases hne : i = i'
  · left
    subst hne
    have k1 : k = s0 + 3 * (i * s'.panel.n + j) + 2 := by
      rw [← flipNo_flipNo (n := s'.panel.m) (m := s'.panel.n) (s := s0) k, ek, flipNo_number hi hj (by omega)]
      rfl
    have l1 : l = s0 + 3 * (i * s'.panel.n + j') + 2 := by
      rw [← flipNo_flipNo (n := s'.panel.m) (m := s'.panel.n) (s := s0) l, el, flipNo_number hi' hj' (by omega)]
      rfl
    rw [ek, el]
    conv_lhs => rw [k1, l1]
    exact order_iff (by omega)
  · right
    beta_reduce
    rw [ek, el]
    exact skew_pair hw hi hj hi' hj' (.inl ⟨hE, hne⟩)

/-! ### Mirror images -/

variable {X Y : Bool}

/-- Does the mirror image turn the direction of the flow? -/
def turns (X Y ax : Bool) : Bool := if ax then X else Y

theorem coeff_turn (hS : E.S.C2) (hEv : E.S.Even) (h : Turned X Y s.panel s2.panel)
    (hm : X = true → 4 ≤ s.panel.m) (hn : Y = true → 4 ≤ s.panel.n) (ha : s.panel.a ≠ 0) (hb : s.panel.b ≠ 0)
    (hx : s2.nx = s.nx) (hy : s2.ny = s.ny) (gx : X = true → E.G.Even s.nx) (gy : Y = true → E.G.Even s.ny)
    (ax : Bool) (beta : ℝ) (k l : ℕ) : coeff E s2 ax beta 0 s0 s0 k l
      = sgn (turns X Y ax) * (signNo X Y s.panel.m s.panel.n s0 k * signNo X Y s.panel.m s.panel.n s0 l) *
        coeff E s ax beta 0 s0 s0 (twinNo X Y s.panel.m s.panel.n s0 k) (twinNo X Y s.panel.m s.panel.n s0 l) := by
  unfold coeff
  rw [hx, hy, ← gaussP_smul]
  refine gaussP_turn h gx gy fun p _ q _ x y => ?_
  have hu : ∀ k, (unit k : ℕ → ℝ) = turn X Y s.panel.m s.panel.n s0 (fun l =>
      signNo X Y s.panel.m s.panel.n s0 k * unit (twinNo X Y s.panel.m s.panel.n s0 k) l) := fun k => by
    funext l
    simp only [turn, unit]
    by_cases hl : l = k
    · subst hl
      rw [if_pos rfl, if_pos rfl, mul_one, signNo_sq X Y hm hn]
    · have : twinNo X Y s.panel.m s.panel.n s0 l ≠ twinNo X Y s.panel.m s.panel.n s0 k := fun e => hl (by
        rw [← twinNo_twinNo X Y hm hn (s := s0) l, e, twinNo_twinNo X Y hm hn])
      rw [if_neg this, if_neg hl, mul_zero, mul_zero]
  have hc : ∀ (c : ℕ → ℝ) (g : ℝ) (p q : ℕ) (ξ η : ℝ), disp E.S s.panel s0 (fun l => g * c l) 2 p q ξ η
      = g * disp E.S s.panel s0 c 2 p q ξ η := fun c g p q ξ η => by
    simp only [Aero.disp_w, Finset.mul_sum]
    exact Finset.sum_congr rfl fun i _ => Finset.sum_congr rfl fun j _ => by ring
  have hd := fun {c p q} (hp : p ≤ 2) (hq : q ≤ 2) =>
    disp_across (S := E.S) hEv h hm hn ha hb s0 c (α := 2) (by omega) hp hq x y
  rw [hu k, hu l]
  cases ax
  · simp only [Bool.false_eq_true, if_false, pistonY, u_dy hS, u_disp, hd (p := 0) (q := 0) (by omega) (by omega),
      hd (p := 0) (q := 1) (by omega) (by omega), hc, uSign, turns, pow_zero, pow_one]
    ring
  · simp only [if_true, pistonX, u_dx hS, u_disp, hd (p := 0) (q := 0) (by omega) (by omega),
      hd (p := 1) (q := 0) (by omega) (by omega), hc, uSign, turns, pow_zero, pow_one]
    ring

/-- Entry by entry, the aerodynamic matrix of the mirror image; its sign changes with the sense of the
flow. -/
def Imaged (X Y ax : Bool) (m n s : ℕ) (A A' : Coo ℝ) : Prop :=
  ∀ k l, Coo.entry A' k l = sgn (turns X Y ax) * (signNo X Y m n s k * signNo X Y m n s l) *
    Coo.entry A (twinNo X Y m n s k) (twinNo X Y m n s l)

/-- **C93, mirror images.**  Mirrored along the flow, with any supports; mirrored in any way, if the
edges crossed by the flow are held.  Missing for the full claim: it fails for plates mirrored across the
flow if those edges are free (`across_violated`). -/
theorem mirror_partial (hE : Ends E.S) (hEv : E.S.Even) (hx : Turned X Y s.pan s2.pan)
    (hm : X = true → 4 ≤ s.pan.m) (hn : Y = true → 4 ≤ s.pan.n) (hnx : s2.nx = s.nx) (hny : s2.ny = s.ny)
    (gx : X = true → E.G.Even s.nx) (gy : Y = true → E.G.Even s.ny) (hf : s2.flow = s.flow) (hs : SameFlow s s2)
    (h : s.calcKA root E size s0 s0 true = .ok (L, s'))
    (h2 : s2.calcKA root E size2 s0 s0 true = .ok (L2, s2')) (hw : Whole E s' (alongX s))
    (hg : s'.gamma = some 0) (hc : Held E s' (alongX s) ∨ turns X Y (!alongX s) = false) :
    Imaged X Y (alongX s) s.pan.m s.pan.n s0 L L2 := by
  obtain ⟨e1, e2, e3⟩ := after h
  obtain ⟨g1, g2, g3⟩ := after h2
  have hx' : Turned X Y s'.panel s2'.panel := by
    rw [e1, g1]
    exact ⟨hx.m, hx.n, hx.a, hx.b, by simp [Shell.panel, Shell.fixR, hs.r], hx.xf, hx.yf, hx.xdom, hx.ydom⟩
  have em : s'.panel.m = s.pan.m := by rw [e1]; rfl
  have en : s'.panel.n = s.pan.n := by rw [e1]; rfl
  have ea : s'.panel.a = s.pan.a := by rw [e1]; rfl
  have eb : s'.panel.b = s.pan.b := by rw [e1]; rfl
  have ha := hw.a
  have hb := hw.b
  rw [ea] at ha
  rw [eb] at hb
  rw [← em] at hm
  rw [← en] at hn
  obtain ⟨q1, q2⟩ := same hs h h2
  obtain ⟨b, hb1, hL⟩ := entries hw.smooth ha hb h hg
  obtain ⟨b2, hb2, hL2⟩ := entries hw.smooth (hx.a ▸ ha) (hx.b ▸ hb) h2 (q2.trans hg)
  obtain rfl : b = b2 := Option.some.inj (hb1.symm.trans (q1.symm.trans hb2))
  have a2 : alongX s2 = alongX s := by unfold alongX; rw [hf]
  intro k l
  have ct := fun k l => coeff_turn (s0 := s0) hw.smooth hEv hx' hm hn hw.a hw.b (g2.trans (hnx.trans e2.symm))
    (g3.trans (hny.trans e3.symm)) (fun e => e2 ▸ gx e) (fun e => e3 ▸ gy e) (alongX s) b k l
  rw [hL2, hL, a2, ← em, ← en]
  simp only [ct]
  have key := completed (φ := twinNo X Y s'.panel.m s'.panel.n s0)
    (fun r q => coeff E s' (alongX s) b 0 s0 s0 r q) k l ?_
  · beta_reduce at key
    rw [← key]
    split <;> ring
  rcases term_or E.S s'.panel s0 (twinNo X Y s'.panel.m s'.panel.n s0 k) with hz | ⟨i, hi, j, hj, ek⟩
  · exact .inr (by beta_reduce; rw [coeff_zero (.inl hz), coeff_zero (.inr hz), neg_zero])
  rcases term_or E.S s'.panel s0 (twinNo X Y s'.panel.m s'.panel.n s0 l) with hz | ⟨i', hi', j', hj', el⟩
  · exact .inr (by beta_reduce; rw [coeff_zero (.inl hz), coeff_zero (.inr hz), neg_zero])
  by_cases hne : lead (alongX s) i j ≠ lead (alongX s) i' j'
  · right
    beta_reduce
    rw [ek, el]
    exact skew_pair hw hi hj hi' hj' (.inl ⟨hE, hne⟩)
  rcases hc with hc | hc
  · right
    beta_reduce
    rw [ek, el]
    exact skew_pair hw hi hj hi' hj' (.inr hc)
  left
  have hne := not_not.1 hne
  have k1 : k = s0 + 3 * (twin Y j * s'.panel.m + twin X i) + 2 := by
    rw [← twinNo_twinNo X Y hm hn (s := s0) k, ek, twinNo_number X Y hi hj (by omega)]
  have l1 : l = s0 + 3 * (twin Y j' * s'.panel.m + twin X i') + 2 := by
    rw [← twinNo_twinNo X Y hm hn (s := s0) l, el, twinNo_number X Y hi' hj' (by omega)]
  rw [ek, el]
  conv_lhs => rw [k1, l1]
  cases hax : alongX s
  · rw [hax] at hne hc
    simp only [lead, turns, Bool.not_false, Bool.false_eq_true, if_false, if_true] at hne hc
    subst hne hc
    simp only [twin, Bool.false_eq_true, if_false]
    omega
  · rw [hax] at hne hc
    simp only [lead, turns, Bool.not_true, Bool.false_eq_true, if_false, if_true] at hne hc
    subst hne hc
    simp only [twin, Bool.false_eq_true, if_false]
    omega

/-- With the edges crossed by the flow held the matrix is skew-symmetric, its diagonal is zero. -/
theorem skew_held (h : s.calcKA root E size s0 s0 true = .ok (L, s')) (hw : Whole E s' (alongX s))
    (hg : s'.gamma = some 0) (hc : Held E s' (alongX s)) (k l : ℕ) : Coo.entry L k l = - Coo.entry L l k := by
  by_cases hkl : k ≠ l
  · exact skew h hkl
  obtain rfl := not_not.1 hkl
  obtain ⟨e1, e2, e3⟩ := after h
  have ha := hw.a
  have hb := hw.b
  rw [e1] at ha hb
  obtain ⟨b, hb1, hL⟩ := entries hw.smooth ha hb h hg
  rw [hL, if_pos le_rfl]
  rcases term_or E.S s'.panel s0 k with hz | ⟨i, hi, j, hj, ek⟩
  · rw [coeff_zero (.inl hz), neg_zero]
  · rw [ek]
    exact skew_pair hw hi hj hi hj (.inr hc)

end

/-! ## Flutter -/

section
variable {m n s0 : ℕ} {t t' : Finset ℕ} {K K' A A' M M' : Coo ℝ} {X Y ax : Bool}

/-- **C93, flutter and the axes.** -/
theorem flutter_axes (ht : ∀ k, k ∈ t' ↔ flipNo n m s0 k ∈ t) (hK : C90.Renamed m n s0 K K')
    (hM : C90.Renamed m n s0 M M') (hA : C90.Renamed m n s0 A A') (μ : ℂ) :
    Flutter t' K' A' M' μ ↔ Flutter t K A M μ := by
  rw [flutter_eigen, flutter_eigen]
  refine C90.eigen_iff ht (fun k l => ?_) hM μ
  rw [Coo.entry_append, Coo.entry_append, hK, hA]

/-- **C93, flutter of the mirror image.**  Also if the flow comes from the other side. -/
theorem flutter_mirror (hm : X = true → 4 ≤ m) (hn : Y = true → 4 ≤ n)
    (ht : ∀ k, k ∈ t' ↔ twinNo X Y m n s0 k ∈ t) (hK : C89.Mirrored X Y m n s0 K K')
    (hM : C89.Mirrored X Y m n s0 M M') (hA : Imaged X Y ax m n s0 A A') (sK : Sym K) (sM : Sym M)
    (hs : turns X Y ax = true → ∀ k l, Coo.entry A k l = - Coo.entry A l k) (μ : ℂ) :
    Flutter t' K' A' M' μ ↔ Flutter t K A M μ := by
  have h1 : Flutter t' K' A' M' μ ↔ Flutter t K (scale (sgn (turns X Y ax)) A) M μ := by
    rw [flutter_eigen, flutter_eigen]
    refine C89.eigen_iff hm hn ht (fun k l => ?_) hM μ
    rw [Coo.entry_append, Coo.entry_append, hK, hA, C82.entry_scale]
    ring
  rw [h1]
  cases hx : turns X Y ax
  · simp only [flutter_eigen, Eigen, Coo.entry_append, C82.entry_scale, sgn, Bool.false_eq_true, if_false, one_mul]
  · refine reverse sK sM (fun k _ l _ => hs hx k l) (fun k _ l _ => ?_) μ
    rw [C82.entry_scale, sgn, if_pos rfl, neg_one_mul]

end

section
variable {root : ℝ → ℝ} {E : Env ℝ} {s s' s2 s2' : Shell ℝ} {size size2 : SizeArg} {s0 : ℕ} {L L2 : Coo ℝ}
  {F : ℕ → ℕ → ℝ}

/-- **C93, a plate and the same plate with the axes exchanged** flutter alike, with any supports. -/
theorem plate_axes (hI : E.I.Exact E.S Mean.integral) (hE : Ends E.S) (hx : Exchanged s.pan s2.pan)
    (hnx : s2.nx = s.ny) (hny : s2.ny = s.nx) (hf : lower s.flow = "x") (hf2 : lower s2.flow = "y")
    (hs : SameFlow s s2) (h : s.calcKA root E size s0 s0 true = .ok (L, s'))
    (h2 : s2.calcKA root E size2 s0 s0 true = .ok (L2, s2')) (hw : Whole E s' true) (hg : s'.gamma = some 0)
    (hF : ABDSym F) (off h' rho : ℝ) (μ : ℂ) :
    Flutter (C76.actives s2.pan s0) (C87.closed E .plate s2.pan (flipLam F) s0) L2
        (C88.mass E .plate s2.pan off h' rho s0) μ ↔
      Flutter (C76.actives s.pan s0) (C87.closed E .plate s.pan F s0) L (C88.mass E .plate s.pan off h' rho s0) μ := by
  obtain ⟨e1, -, -⟩ := after h
  have ha := hw.a
  have hb := hw.b
  rw [e1] at ha hb
  exact flutter_axes (C90.mem_actives hx s0) (C90.stiffness hI hw.smooth hx ha hb hF s0)
    (C90.mass hI hw.smooth hx ha hb off h' rho s0) (axes hE hx hnx hny hf hf2 hs h h2 hw hg) μ

/-- **C93, a plate and its mirror image** flutter alike, if the edges crossed by the flow are held. -/
theorem plate_mirror {X Y : Bool} (hI : E.I.Exact E.S Mean.integral) (hE : Ends E.S) (hEv : E.S.Even)
    (hx : Turned X Y s.pan s2.pan)
    (hm : X = true → 4 ≤ s.pan.m) (hn : Y = true → 4 ≤ s.pan.n) (hnx : s2.nx = s.nx) (hny : s2.ny = s.ny)
    (gx : X = true → E.G.Even s.nx) (gy : Y = true → E.G.Even s.ny) (hf : s2.flow = s.flow) (hs : SameFlow s s2)
    (h : s.calcKA root E size s0 s0 true = .ok (L, s'))
    (h2 : s2.calcKA root E size2 s0 s0 true = .ok (L2, s2')) (hw : Whole E s' (alongX s))
    (hg : s'.gamma = some 0) (hc : Held E s' (alongX s)) (hF : ABDSym F) (off h' rho : ℝ) (μ : ℂ) :
    Flutter (C76.actives s2.pan s0) (C87.closed E .plate s2.pan (turnLam X Y F) s0) L2
        (C88.mass E .plate s2.pan off h' rho s0) μ ↔
      Flutter (C76.actives s.pan s0) (C87.closed E .plate s.pan F s0) L (C88.mass E .plate s.pan off h' rho s0) μ := by
  obtain ⟨e1, -, -⟩ := after h
  have ha := hw.a
  have hb := hw.b
  rw [e1] at ha hb
  exact flutter_mirror hm hn (C89.mem_actives hx hm hn s0)
    (C89.stiffness hI hw.smooth hEv hx hm hn ha hb (fun e => by cases e) hF s0)
    (C89.mass hI hw.smooth hEv hx hm hn ha hb off h' rho s0)
    (mirror_partial hE hEv hx hm hn hnx hny gx gy hf hs h h2 hw hg (.inl hc))
    (fun k l => Coo.entry_finalizeSym_comm _ k l) (fun k l => Coo.entry_finalizeSym_comm _ k l)
    (fun _ => skew_held h hw hg hc) μ

end

/-! ## Concrete cases -/

theorem parts4 (fl : Flags ℝ) : PartsExact (bardellShape ℝ) boole 5 4 fl := by
  have f1 : ∀ x : ℝ, (bardellShape ℝ).f 1 x fl = fl.r1 * ((1 - x - x ^ 2 + x ^ 3) / 8) := fun x => by
    simp [bardellShape, bardell, pev, flag]; ring_nf; simp
  have f3 : ∀ x : ℝ, (bardellShape ℝ).f 3 x fl = fl.r2 * ((-1 - x + x ^ 2 + x ^ 3) / 8) := fun x => by
    simp [bardellShape, bardell, pev, flag]; ring_nf; simp
  have p1 : ∀ x : ℝ, (bardellShape ℝ).fp 1 x fl = fl.r1 * ((-1 - 2 * x + 3 * x ^ 2) / 8) := fun x => by
    simp [bardellShape, bardell, pev, pder, pderFrom, flag]; ring_nf; simp
  have p2 : ∀ x : ℝ, (bardellShape ℝ).fp 2 x fl = fl.t2 * ((3 - 3 * x ^ 2) / 4) := fun x => by
    simp [bardellShape, bardell, pev, pder, pderFrom, flag]; ring_nf; simp
  have p3 : ∀ x : ℝ, (bardellShape ℝ).fp 3 x fl = fl.r2 * ((-1 + 2 * x + 3 * x ^ 2) / 8) := fun x => by
    simp [bardellShape, bardell, pev, pder, pderFrom, flag]; ring_nf; simp
  intro i k hi hk
  interval_cases i <;> interval_cases k <;>
    (simp only [f0, f1, f2, f3, fp0, p1, p2, p3, Finset.sum_range_succ, Finset.sum_range_zero, boole]
     norm_num
     try ring)

theorem boole_even : boole.Even 5 := by
  intro i hi
  interval_cases i <;> norm_num [boole]

/-- A plate whose edge `x = 0` is free to deflect and to turn, in the flow of C23. -/
noncomputable def plate : Shell ℝ :=
  { C59.clamped with pan := { Witness.panel with m := 2, n := 3, xw := ⟨1, 1, 0, 0⟩, yw := ⟨1, 1, 1, 1⟩ } }

/-- The same plate with the axes exchanged. -/
noncomputable def plate2 : Shell ℝ :=
  { plate with
    pan := { plate.pan with
      m := 3, n := 2, a := plate.pan.b, b := plate.pan.a,
      xu := plate.pan.yv, xv := plate.pan.yu, xw := plate.pan.yw, yu := plate.pan.xv, yv := plate.pan.xu,
      yw := plate.pan.xw }
    flow := "y" }

theorem plates : Exchanged plate.pan plate2.pan where
  m := rfl
  n := rfl
  a := rfl
  b := rfl
  xf := fun α => by
    match α with
    | 0 => rfl
    | 1 => rfl
    | α + 2 => rfl
  yf := fun α => by
    match α with
    | 0 => rfl
    | 1 => rfl
    | α + 2 => rfl
  xdom := by simp [xdom, ydom, plate2, plate, Witness.panel]
  ydom := by simp [xdom, ydom, plate2, plate, Witness.panel]

example : ∃ L s' L2 s2', plate.calcKA Real.sqrt C22.env .none 0 0 = .ok (L, s') ∧
    plate2.calcKA Real.sqrt C22.env .none 0 0 = .ok (L2, s2') ∧ C90.Renamed 2 3 0 L L2 := by
  obtain ⟨L, s', h⟩ : ∃ L s', plate.calcKA Real.sqrt C22.env .none 0 0 = .ok (L, s') :=
    C23.exists_call true (k := .plate) rfl rfl (by norm_num) rfl rfl (.inl rfl)
      (by constructor <;> simp [SizeArg.value])
  obtain ⟨L2, s2', h2⟩ : ∃ L s', plate2.calcKA Real.sqrt C22.env .none 0 0 = .ok (L, s') :=
    C23.exists_call true (k := .plate) rfl rfl (by norm_num) rfl rfl (.inr (.inr (.inl rfl)))
      (by constructor <;> simp [SizeArg.value])
  obtain ⟨e1, e2, e3⟩ := after h
  refine ⟨L, s', L2, s2', h, h2, axes bardell_ends plates rfl rfl (lower_x.2 (.inl rfl)) (by decide)
    ⟨rfl, rfl, rfl, rfl, rfl, rfl⟩ h h2 ⟨env_C2, ?_, ?_, ?_, ?_⟩ ?_⟩
  · rw [e1]; norm_num [Shell.panel, Shell.fixR, plate, Witness.panel]
  · rw [e1]; norm_num [Shell.panel, Shell.fixR, plate, Witness.panel]
  · rw [e1]; constructor <;> simp [xdom, ydom, Shell.panel, Shell.fixR, plate, Witness.panel]
  · rw [e1, e2]
    exact fun i k hi hk => parts4 _ i k (lt_trans hi (by norm_num [Shell.panel, Shell.fixR, plate]))
      (lt_trans hk (by norm_num [Shell.panel, Shell.fixR, plate]))
  · obtain ⟨M, V, rho, b, g, -, -, -, -, -, hg, hf, -⟩ := C23.first_call rfl h
    rw [hg, hf.2.2 rfl]

/-- A plate held along `x = 0` and `x = a`, of which it may turn along the second; in the flow of C23. -/
noncomputable def held : Shell ℝ :=
  { C59.clamped with pan := { Witness.panel with m := 4, n := 4, xw := ⟨0, 0, 0, 1⟩, yw := ⟨1, 1, 0, 1⟩ } }

/-- Turned by half a turn: the flow comes from the other side. -/
noncomputable def held2 : Shell ℝ :=
  { held with
    pan := { held.pan with
      xu := turnFlags true held.pan.xu, xv := turnFlags true held.pan.xv, xw := turnFlags true held.pan.xw,
      yu := turnFlags true held.pan.yu, yv := turnFlags true held.pan.yv, yw := turnFlags true held.pan.yw } }

theorem helds : Turned true true held.pan held2.pan where
  m := rfl
  n := rfl
  a := rfl
  b := rfl
  r := rfl
  xf := fun α => by
    match α with
    | 0 => rfl
    | 1 => rfl
    | α + 2 => rfl
  yf := fun α => by
    match α with
    | 0 => rfl
    | 1 => rfl
    | α + 2 => rfl
  xdom := by simp [xdom, held2, held, Witness.panel]
  ydom := by simp [ydom, held2, held, Witness.panel]

/-- Both flutter alike. -/
example : ∃ L s' L2 s2', held.calcKA Real.sqrt C22.env .none 0 0 = .ok (L, s') ∧
    held2.calcKA Real.sqrt C22.env .none 0 0 = .ok (L2, s2') ∧ ∀ μ : ℂ,
    Flutter (C76.actives held2.pan 0) (C87.closed C22.env .plate held2.pan (turnLam true true C13.lam) 0) L2
        (C88.mass C22.env .plate held2.pan 0 1 2 0) μ ↔
      Flutter (C76.actives held.pan 0) (C87.closed C22.env .plate held.pan C13.lam 0) L
        (C88.mass C22.env .plate held.pan 0 1 2 0) μ := by
  obtain ⟨L, s', h⟩ : ∃ L s', held.calcKA Real.sqrt C22.env .none 0 0 = .ok (L, s') :=
    C23.exists_call true (k := .plate) rfl rfl (by norm_num) rfl rfl (.inl rfl)
      (by constructor <;> simp [SizeArg.value])
  obtain ⟨L2, s2', h2⟩ : ∃ L s', held2.calcKA Real.sqrt C22.env .none 0 0 = .ok (L, s') :=
    C23.exists_call true (k := .plate) rfl rfl (by norm_num) rfl rfl (.inl rfl)
      (by constructor <;> simp [SizeArg.value])
  obtain ⟨e1, e2, e3⟩ := after h
  have ax : alongX held = true := decide_eq_true (lower_x.2 (.inl rfl))
  refine ⟨L, s', L2, s2', h, h2, plate_mirror (Tab.of_exact _ _) bardell_ends bardellShape_even helds
    (fun _ => le_rfl) (fun _ => le_rfl) rfl rfl (fun _ => boole_even) (fun _ => boole_even) rfl
    ⟨rfl, rfl, rfl, rfl, rfl, rfl⟩ h h2 ⟨env_C2, ?_, ?_, ?_, ?_⟩ ?_ ?_ C13.lam_sym 0 1 2⟩
  · rw [e1]; norm_num [Shell.panel, Shell.fixR, held, Witness.panel]
  · rw [e1]; norm_num [Shell.panel, Shell.fixR, held, Witness.panel]
  · rw [e1]; constructor <;> simp [xdom, ydom, Shell.panel, Shell.fixR, held, Witness.panel]
  · rw [ax, if_pos rfl, e1, e2]
    exact parts4 _
  · obtain ⟨M, V, rho, b, g, -, -, -, -, -, hg, hf, -⟩ := C23.first_call rfl h
    rw [hg, hf.2.2 rfl]
  · rw [ax]
    unfold Held
    rw [if_pos rfl, e1]
    intro i hi
    have hi : i < 4 := hi
    interval_cases i <;> simp [Shell.panel, Shell.fixR, held, C22.env, C40.env, bardellShape, bardell, pev, flag]
    norm_num

/-- A plate with its edge `x = 0` free to deflect, and free along `y = 0` and `y = b`: its own mirror
image in `y = b / 2`. -/
noncomputable def wide : Shell ℝ :=
  { C59.clamped with
    pan := { Witness.panel with
      m := 1, n := 4, xw := ⟨1, 0, 0, 0⟩, yu := ⟨1, 1, 1, 1⟩, yv := ⟨1, 1, 1, 1⟩, yw := ⟨1, 1, 1, 1⟩ } }

theorem wide_self : Turned false true wide.pan wide.pan where
  m := rfl
  n := rfl
  a := rfl
  b := rfl
  r := rfl
  xf := fun _ => rfl
  yf := fun α => by
    match α with
    | 0 => rfl
    | 1 => rfl
    | α + 2 => rfl
  xdom := by simp
  ydom := by simp [ydom, wide, Witness.panel]

/-- **C93, the claim fails across the flow.**  The aerodynamic matrix of a plate that is its own mirror
image is not: two terms that exchange their places get opposite signs. -/
theorem across_violated : ∃ L s', wide.calcKA Real.sqrt C22.env .none 0 0 = .ok (L, s') ∧
    Whole C22.env s' true ∧ s'.gamma = some 0 ∧ Turned false true wide.pan wide.pan ∧
    ¬ Imaged false true true wide.pan.m wide.pan.n 0 L L := by
  obtain ⟨L, s', h⟩ : ∃ L s', wide.calcKA Real.sqrt C22.env .none 0 0 = .ok (L, s') :=
    C23.exists_call true (k := .plate) rfl rfl (by norm_num) rfl rfl (.inl rfl)
      (by constructor <;> simp [SizeArg.value])
  obtain ⟨e1, e2, e3⟩ := after h
  have hw : Whole C22.env s' true := by
    refine ⟨env_C2, ?_, ?_, ?_, ?_⟩
    · rw [e1]; norm_num [Shell.panel, Shell.fixR, wide, Witness.panel]
    · rw [e1]; norm_num [Shell.panel, Shell.fixR, wide, Witness.panel]
    · rw [e1]; constructor <;> simp [xdom, ydom, Shell.panel, Shell.fixR, wide, Witness.panel]
    · rw [if_pos rfl, e1, e2]
      exact fun i k hi hk => parts4 _ i k (lt_trans hi (by norm_num [Shell.panel, Shell.fixR, wide]))
        (lt_trans hk (by norm_num [Shell.panel, Shell.fixR, wide]))
  obtain ⟨M, V, rho, b, g, hM, hV, hr, h1M, hb, hg, hf, -⟩ := C23.first_call rfl h
  have hg0 : s'.gamma = some 0 := by rw [hg, hf.2.2 rfl]
  refine ⟨L, s', h, hw, hg0, wide_self, fun hI => ?_⟩
  have ax : alongX wide = true := decide_eq_true (lower_x.2 (.inl rfl))
  obtain ⟨b', hb', he⟩ := entries env_C2 (by norm_num [wide, Witness.panel]) (by norm_num [wide, Witness.panel]) h hg0
  obtain rfl : b = b' := Option.some.inj (hb.symm.trans hb')
  have hb0 : b ≠ 0 := by
    intro h0
    cases hV
    cases hr
    have e2 := hf.1
    rw [h0] at e2
    norm_num at e2
  have t2 : ∀ x y, u C22.env.S s'.panel 0 (unit 2) 2 x y
      = (bardellShape ℝ).f 0 (2 / s'.panel.a * x - 1) s'.panel.xw *
        (bardellShape ℝ).f 0 (2 / s'.panel.b * y - 1) s'.panel.yw := fun x y => by
    refine Eq.trans ?_ (term (S := C22.env.S) (P := s'.panel) (s0 := 0) (i := 0) (j := 0) (by rw [e1]; exact one_pos)
      (by rw [e1]; exact four_pos) x y)
    simp
  have t8 : ∀ x y, u C22.env.S s'.panel 0 (unit 8) 2 x y
      = (bardellShape ℝ).f 0 (2 / s'.panel.a * x - 1) s'.panel.xw *
        (bardellShape ℝ).f 2 (2 / s'.panel.b * y - 1) s'.panel.yw := fun x y => by
    refine Eq.trans ?_ (term (S := C22.env.S) (P := s'.panel) (s0 := 0) (i := 0) (j := 2) (by rw [e1]; exact one_pos)
      (by rw [e1]; norm_num [Shell.panel, Shell.fixR, wide]) x y)
    have : s'.panel.m = 1 := by rw [e1]; rfl
    rw [this]
  have hsym : coeff C22.env s' true b 0 0 0 8 2 = coeff C22.env s' true b 0 0 0 2 8 := by
    unfold coeff
    congr 1
    funext _ _ x y
    have d2 : dx (u C22.env.S s'.panel 0 (unit 2) 2) x y
        = deriv (fun x => (bardellShape ℝ).f 0 (2 / s'.panel.a * x - 1) s'.panel.xw) x *
          (bardellShape ℝ).f 0 (2 / s'.panel.b * y - 1) s'.panel.yw := by
      simp only [dx, t2, deriv_mul_const_field]
    have d8 : dx (u C22.env.S s'.panel 0 (unit 8) 2) x y
        = deriv (fun x => (bardellShape ℝ).f 0 (2 / s'.panel.a * x - 1) s'.panel.xw) x *
          (bardellShape ℝ).f 2 (2 / s'.panel.b * y - 1) s'.panel.yw := by
      simp only [dx, t8, deriv_mul_const_field]
    simp only [if_true, pistonX, d2, d8, t2, t8]
    ring
  have hz := coeff_x env_C2 hw.a hw.b hw.full (by simpa using hw.parts) b 0 0 2 8
  have hedge : C59.edgeX C22.env.G s'.ny s'.panel (fun x y => C59.w C22.env s' 0 2 x y * C59.w C22.env s' 0 8 x y) ≠ 0 := by
    unfold C59.edgeX C59.w
    simp only [t2, t8]
    rw [e1, e3]
    norm_num [Finset.sum_range_succ, Shell.panel, Shell.fixR, wide, C59.clamped, Witness.panel, C22.env,
      boole, node, f0, f2]
  have h28 : Coo.entry L 2 8 = coeff C22.env s' true b 0 0 0 2 8 := by
    rw [he, if_pos (by norm_num), ax]
  have h82 : Coo.entry L 8 2 = - coeff C22.env s' true b 0 0 0 2 8 := by
    rw [he, if_neg (by norm_num), ax]
  have key := hI 2 8
  have n2 : twinNo false true wide.pan.m wide.pan.n 0 2 = 8 :=
    twinNo_number false true (s := 0) (m := 1) (n := 4) (i := 0) (j := 0) (α := 2) (by norm_num) (by norm_num) (by norm_num)
  have n8 : twinNo false true wide.pan.m wide.pan.n 0 8 = 2 :=
    twinNo_number false true (s := 0) (m := 1) (n := 4) (i := 0) (j := 2) (α := 2) (by norm_num) (by norm_num) (by norm_num)
  have s2 : (signNo false true wide.pan.m wide.pan.n 0 2 : ℝ) = 1 :=
    (signNo_number false true (s := 0) (m := 1) (n := 4) (i := 0) (j := 0) (α := 2) (by norm_num) (by norm_num)
      (by norm_num)).trans (by norm_num [uSign, sgn])
  have s8 : (signNo false true wide.pan.m wide.pan.n 0 8 : ℝ) = 1 :=
    (signNo_number false true (s := 0) (m := 1) (n := 4) (i := 0) (j := 2) (α := 2) (by norm_num) (by norm_num)
      (by norm_num)).trans (by norm_num [uSign, sgn])
  rw [n2, n8, s2, s8, h28, h82] at key
  have sg : (sgn (turns false true true) : ℝ) = 1 := by simp [turns, sgn]
  rw [sg] at key
  have c0 : coeff C22.env s' true b 0 0 0 2 8 = 0 := by linarith
  rw [hsym, c0] at hz
  have : b * C59.edgeX C22.env.G s'.ny s'.panel (fun x y => C59.w C22.env s' 0 2 x y * C59.w C22.env s' 0 8 x y) = 0 := by
    linarith
  rcases mul_eq_zero.1 this with h0 | h0
  · exact hb0 h0
  · exact hedge h0

end Verif.C93
