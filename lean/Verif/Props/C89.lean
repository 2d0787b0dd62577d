import Verif.Proofs.Mirror
import Verif.Props.C88
import Verif.Props.C05

/-!
# C89: a mirrored structure behaves as the mirror image

Mirrored supports, domain, laminate, loads and state give the mirrored matrices and vectors, therefore
the same frequencies and buckling loads and the mirrored displacements.  The mirror image is described in
`Spec/Mirror.lean`.
-/

set_option linter.unusedSectionVars false

namespace Verif.C89

open Finset Spec Model Indep C80

/-- Entry by entry, the matrix of the mirror image: numbers of terms exchanged, with their signs. -/
def Mirrored (X Y : Bool) (m n s : ℕ) (A A' : Coo ℝ) : Prop :=
  ∀ k l, Coo.entry A' k l = signNo X Y m n s k * signNo X Y m n s l *
    Coo.entry A (twinNo X Y m n s k) (twinNo X Y m n s l)

section
variable {X Y : Bool} {m n s : ℕ} {A A' B B' : Coo ℝ}

theorem bilin_smul (L : Coo ℝ) (a b : ℝ) (x y : ℕ → ℝ) :
    Coo.bilin L (fun k => a * x k) (fun k => b * y k) = a * b * Coo.bilin L x y := by
  unfold Coo.bilin
  rw [← List.sum_map_mul_left]
  exact congrArg List.sum (List.map_congr_left fun t _ => by ring)

theorem turn_add (c d : ℕ → ℝ) (t : ℝ) : turn X Y m n s (fun k => c k + t * d k)
    = fun k => turn X Y m n s c k + t * turn X Y m n s d k := by
  funext k
  simp only [turn]
  ring

/-- Equal energies of mirrored amplitudes: the matrix is the mirrored one. -/
theorem mirrored_of_quad (hm : X = true → 4 ≤ m) (hn : Y = true → 4 ≤ n) {L L' : Coo ℝ}
    (h : ∀ c, Coo.quad (Coo.finalizeSym L') (turn X Y m n s c) = Coo.quad (Coo.finalizeSym L) c) :
    Mirrored X Y m n s (Coo.finalizeSym L) (Coo.finalizeSym L') := by
  have hb : ∀ c d, Coo.bilin (Coo.finalizeSym L') (turn X Y m n s c) (turn X Y m n s d)
      = Coo.bilin (Coo.finalizeSym L) c d := fun c d => by
    apply mul_left_cancel₀ (two_ne_zero (α := ℝ))
    rw [Coo.two_bilin_finalizeSym, Coo.two_bilin_finalizeSym, ← turn_add, h, h, h]
  have hu : ∀ k, turn X Y m n s (fun l => signNo X Y m n s k * unit (twinNo X Y m n s k) l)
      = (unit k : ℕ → ℝ) := fun k => by
    funext l
    simp only [turn, unit]
    by_cases hl : l = k
    · subst hl
      rw [if_pos rfl, if_pos rfl, mul_one, signNo_sq X Y hm hn]
    · have : twinNo X Y m n s l ≠ twinNo X Y m n s k := fun e => hl (by
        rw [← twinNo_twinNo X Y hm hn (s := s) l, e, twinNo_twinNo X Y hm hn])
      rw [if_neg this, if_neg hl, mul_zero, mul_zero]
  intro k l
  rw [Coo.entry_bilin, Coo.entry_bilin, ← hu k, ← hu l, hb, bilin_smul]

/-! ## What follows for the analyses -/

variable {t t' : Finset ℕ}

theorem sum_over {M : Type*} [AddCommMonoid M] (hm : X = true → 4 ≤ m) (hn : Y = true → 4 ≤ n)
    (ht : ∀ k, k ∈ t' ↔ twinNo X Y m n s k ∈ t) (g : ℕ → M) :
    ∑ l ∈ t', g (twinNo X Y m n s l) = ∑ l ∈ t, g l :=
  Finset.sum_nbij' (twinNo X Y m n s) (twinNo X Y m n s) (fun l hl => (ht l).1 hl)
    (fun l hl => (ht _).2 (by rwa [twinNo_twinNo X Y hm hn])) (fun l _ => twinNo_twinNo X Y hm hn l)
    (fun l _ => twinNo_twinNo X Y hm hn l) fun _ _ => rfl

theorem mul_over (hm : X = true → 4 ≤ m) (hn : Y = true → 4 ≤ n)
    (ht : ∀ k, k ∈ t' ↔ twinNo X Y m n s k ∈ t) (hA : Mirrored X Y m n s A A') (z : ℕ → ℂ) (k : ℕ) :
    ∑ l ∈ t', ((Coo.entry A' k l : ℝ) : ℂ) * ((signNo X Y m n s l : ℝ) * z (twinNo X Y m n s l))
      = (signNo X Y m n s k : ℝ) * ∑ l ∈ t, ((Coo.entry A (twinNo X Y m n s k) l : ℝ) : ℂ) * z l := by
  rw [← sum_over hm hn ht, Finset.mul_sum]
  refine Finset.sum_congr rfl fun l _ => ?_
  rw [hA k l]
  have := signNo_sq (K := ℝ) X Y hm hn (s := s) l
  push_cast
  have e : ((signNo X Y m n s l : ℝ) : ℂ) * (signNo X Y m n s l : ℝ) = 1 := by exact_mod_cast this
  linear_combination ((signNo X Y m n s k : ℝ) *
    ((Coo.entry A (twinNo X Y m n s k) (twinNo X Y m n s l) : ℝ) : ℂ) * z (twinNo X Y m n s l)) * e

theorem sign_ne (hm : X = true → 4 ≤ m) (hn : Y = true → 4 ≤ n) (k : ℕ) :
    (signNo X Y m n s k : ℝ) ≠ 0 := fun h => by
  have := signNo_sq (K := ℝ) X Y hm hn (s := s) k
  rw [h, zero_mul] at this
  exact zero_ne_one this

theorem back_mirror (hm : X = true → 4 ≤ m) (hn : Y = true → 4 ≤ n) (hA : Mirrored X Y m n s A A') :
    Mirrored X Y m n s A' A := fun k l => by
  rw [hA, signNo_twinNo X Y hm hn, signNo_twinNo X Y hm hn, twinNo_twinNo X Y hm hn,
    twinNo_twinNo X Y hm hn]
  have h1 := signNo_sq (K := ℝ) X Y hm hn (s := s) k
  have h2 := signNo_sq (K := ℝ) X Y hm hn (s := s) l
  calc Coo.entry A k l = (signNo X Y m n s k * signNo X Y m n s k) *
        (signNo X Y m n s l * signNo X Y m n s l) * Coo.entry A k l := by rw [h1, h2]; ring
    _ = _ := by ring

theorem back_mem (hm : X = true → 4 ≤ m) (hn : Y = true → 4 ≤ n)
    (ht : ∀ k, k ∈ t' ↔ twinNo X Y m n s k ∈ t) (k : ℕ) : k ∈ t ↔ twinNo X Y m n s k ∈ t' := by
  rw [ht, twinNo_twinNo X Y hm hn]

theorem eigen_to (hm : X = true → 4 ≤ m) (hn : Y = true → 4 ≤ n)
    (ht : ∀ k, k ∈ t' ↔ twinNo X Y m n s k ∈ t) (hA : Mirrored X Y m n s A A')
    (hB : Mirrored X Y m n s B B') {μ : ℂ} (h : Eigen t A B μ) : Eigen t' A' B' μ := by
  obtain ⟨z, ⟨k, hk, hz⟩, h⟩ := h
  refine ⟨fun l => (signNo X Y m n s l : ℝ) * z (twinNo X Y m n s l),
    ⟨twinNo X Y m n s k, (back_mem hm hn ht k).1 hk, ?_⟩, fun l hl => ?_⟩
  · beta_reduce
    rw [twinNo_twinNo X Y hm hn]
    exact mul_ne_zero (Complex.ofReal_ne_zero.2 (sign_ne hm hn _)) hz
  · rw [mul_over hm hn ht hA, mul_over hm hn ht hB, h _ ((ht l).1 hl)]
    ring

/-- **C89, frequencies.**  A structure and its mirror image have the same eigenvalues. -/
theorem eigen_iff (hm : X = true → 4 ≤ m) (hn : Y = true → 4 ≤ n)
    (ht : ∀ k, k ∈ t' ↔ twinNo X Y m n s k ∈ t) (hA : Mirrored X Y m n s A A')
    (hB : Mirrored X Y m n s B B') (μ : ℂ) : Eigen t' A' B' μ ↔ Eigen t A B μ :=
  ⟨eigen_to hm hn (back_mem hm hn ht) (back_mirror hm hn hA) (back_mirror hm hn hB),
    eigen_to hm hn ht hA hB⟩

theorem critical_to (hm : X = true → 4 ≤ m) (hn : Y = true → 4 ≤ n)
    (ht : ∀ k, k ∈ t' ↔ twinNo X Y m n s k ∈ t) (hA : Mirrored X Y m n s A A')
    (hB : Mirrored X Y m n s B B') {p : ℂ} (h : Critical t A B p) : Critical t' A' B' p := by
  obtain ⟨z, ⟨k, hk, hz⟩, h⟩ := h
  refine ⟨fun l => (signNo X Y m n s l : ℝ) * z (twinNo X Y m n s l),
    ⟨twinNo X Y m n s k, (back_mem hm hn ht k).1 hk, ?_⟩, fun l hl => ?_⟩
  · beta_reduce
    rw [twinNo_twinNo X Y hm hn]
    exact mul_ne_zero (Complex.ofReal_ne_zero.2 (sign_ne hm hn _)) hz
  · rw [mul_over hm hn ht hA, mul_over hm hn ht hB]
    have := h _ ((ht l).1 hl)
    linear_combination ((signNo X Y m n s l : ℝ) : ℂ) * this

/-- **C89, buckling.**  A structure and its mirror image have the same critical loads. -/
theorem critical_iff (hm : X = true → 4 ≤ m) (hn : Y = true → 4 ≤ n)
    (ht : ∀ k, k ∈ t' ↔ twinNo X Y m n s k ∈ t) (hA : Mirrored X Y m n s A A')
    (hB : Mirrored X Y m n s B B') (p : ℂ) : Critical t' A' B' p ↔ Critical t A B p :=
  ⟨critical_to hm hn (back_mem hm hn ht) (back_mirror hm hn hA) (back_mirror hm hn hB),
    critical_to hm hn ht hA hB⟩

/-- **C89, static analysis.**  The mirrored forces are balanced by the mirrored amplitudes. -/
theorem balanced (hm : X = true → 4 ≤ m) (hn : Y = true → 4 ≤ n)
    (ht : ∀ k, k ∈ t' ↔ twinNo X Y m n s k ∈ t) (hA : Mirrored X Y m n s A A') {f f' c : ℕ → ℝ}
    (hf : ∀ k ∈ t', f' k = turn X Y m n s f k) (h : Balanced t A f c) :
    Balanced t' A' f' (turn X Y m n s c) := by
  refine ⟨fun k hk => ?_, fun k hk => ?_⟩
  · rw [turn, h.off _ fun e => hk ((ht k).2 e), mul_zero]
  · have e := mul_over hm hn ht hA (fun l => (c l : ℂ)) k
    have e' : ∑ l ∈ t', Coo.entry A' k l * turn X Y m n s c l
        = signNo X Y m n s k * ∑ l ∈ t, Coo.entry A (twinNo X Y m n s k) l * c l := by
      unfold turn
      exact_mod_cast e
    rw [e', h.eq _ ((ht k).1 hk), hf k hk, turn]

/-- Mirroring amplitudes is linear. -/
noncomputable def turnMap (X Y : Bool) (m n s : ℕ) : (ℕ → ℝ) →ₗ[ℝ] (ℕ → ℝ) where
  toFun := turn X Y m n s
  map_add' v w := by
    funext k
    simp only [turn, Pi.add_apply]
    ring
  map_smul' r v := by
    funext k
    simp only [turn, Pi.smul_apply, RingHom.id_apply, smul_eq_mul]
    ring

theorem quad_turn (hm : X = true → 4 ≤ m) (hn : Y = true → 4 ≤ n)
    (ht : ∀ k, k ∈ t' ↔ twinNo X Y m n s k ∈ t) (hA : Mirrored X Y m n s A A') {v : ℕ → ℝ}
    (hv : ∀ k ∉ t, v k = 0) : Coo.quad A' (turn X Y m n s v) = Coo.quad A v := by
  have hv' : ∀ k ∉ t', turn X Y m n s v k = 0 := fun k hk => by
    rw [turn, hv _ fun e => hk ((ht k).2 e), mul_zero]
  rw [form_quad A hv, form_quad A' hv']
  unfold form
  rw [← sum_over hm hn ht]
  refine Finset.sum_congr rfl fun k _ => ?_
  have e := mul_over hm hn ht hA (fun l => (v l : ℂ)) k
  have e' : ∑ l ∈ t', Coo.entry A' k l * turn X Y m n s v l
      = signNo X Y m n s k * ∑ l ∈ t, Coo.entry A (twinNo X Y m n s k) l * v l := by
    unfold turn
    exact_mod_cast e
  rw [e', turn]
  have := signNo_sq (K := ℝ) X Y hm hn (s := s) k
  linear_combination (v (twinNo X Y m n s k) * ∑ l ∈ t, Coo.entry A (twinNo X Y m n s k) l * v l) * this

theorem values_le (hm : X = true → 4 ≤ m) (hn : Y = true → 4 ≤ n)
    (ht : ∀ k, k ∈ t' ↔ twinNo X Y m n s k ∈ t) (hA : Mirrored X Y m n s A A')
    (hB : Mirrored X Y m n s B B') (hs : Sym B) (hs' : Sym B') (hp : Pos t B) {φ lam φ' lam'}
    (h : Modes t A B φ lam) (h' : Modes t' A' B' φ' lam') {a : ℕ} (ha : a < t.card) (ha' : a < t'.card) :
    lam' ⟨a, ha'⟩ ≤ lam ⟨a, ha⟩ :=
  C88.compare h h' hs hs' (turnMap X Y m n s) ha ha'
    (fun v hv k hk => show turn X Y m n s v k = 0 by
      rw [turn, hv _ fun e => hk ((ht k).2 e), mul_zero])
    (fun v hv => (quad_turn hm hn ht hA hv).le)
    (fun v hv => (congrArg _ (quad_turn hm hn ht hB hv).symm).le)
    fun v hne hv => (hp v hne hv).trans_eq (quad_turn hm hn ht hB hv).symm

/-- **C89, the list of frequencies.**  Also with their multiplicities. -/
theorem values (hm : X = true → 4 ≤ m) (hn : Y = true → 4 ≤ n)
    (ht : ∀ k, k ∈ t' ↔ twinNo X Y m n s k ∈ t) (hA : Mirrored X Y m n s A A')
    (hB : Mirrored X Y m n s B B') (hs : Sym B) (hs' : Sym B') (hp : Pos t B) {φ lam φ' lam'}
    (h : Modes t A B φ lam) (h' : Modes t' A' B' φ' lam') :
    t'.card = t.card ∧ ∀ a, ∀ (ha : a < t.card) (ha' : a < t'.card), lam' ⟨a, ha'⟩ = lam ⟨a, ha⟩ := by
  have hb := back_mem hm hn ht
  have hp' : Pos t' B' := fun v ⟨k, hk, hne⟩ hv => by
    have h0 : ∀ k ∉ t, turn X Y m n s v k = 0 := fun k hk => by
      rw [turn, hv _ fun e => hk ((hb k).2 e), mul_zero]
    rw [← quad_turn hm hn hb (back_mirror hm hn hB) hv]
    refine hp _ ⟨twinNo X Y m n s k, (ht k).1 hk, ?_⟩ h0
    rw [turn, twinNo_twinNo X Y hm hn]
    exact mul_ne_zero (sign_ne hm hn _) hne
  refine ⟨?_, fun a ha ha' => le_antisymm (values_le hm hn ht hA hB hs hs' hp h h' ha ha')
    (values_le hm hn hb (back_mirror hm hn hA) (back_mirror hm hn hB) hs' hs hp' h' h ha' ha)⟩
  exact Finset.card_nbij' (twinNo X Y m n s) (twinNo X Y m n s) (fun l hl => (ht l).1 hl)
    (fun l hl => (hb l).1 hl) (fun l _ => twinNo_twinNo X Y hm hn l) fun l _ => twinNo_twinNo X Y hm hn l

end

/-! ## Panels -/

section
variable {E : Env ℝ} {X Y : Bool} {P P' : Panel ℝ} {k : Kind} {F : ℕ → ℕ → ℝ}

theorem integral_across (b : Bool) (len : ℝ) (g : ℝ → ℝ) :
    ∫ x in (0 : ℝ)..len, g (across b len x) = ∫ x in (0 : ℝ)..len, g x := by
  cases b
  · rfl
  · simp only [across, if_true]
    rw [intervalIntegral.integral_comp_sub_left, sub_self, sub_zero]

/-- A double integral of the mirrored integrand. -/
theorem integral_turn (a b : ℝ) {g g' : ℝ → ℝ → ℝ}
    (h : ∀ x y, g' (across X a x) (across Y b y) = g x y) :
    ∫ x in (0 : ℝ)..a, ∫ y in (0 : ℝ)..b, g' x y = ∫ x in (0 : ℝ)..a, ∫ y in (0 : ℝ)..b, g x y := by
  rw [← integral_across X]
  refine intervalIntegral.integral_congr fun x _ => ?_
  show ∫ y in (0 : ℝ)..b, g' (across X a x) y = _
  rw [← integral_across Y]
  exact intervalIntegral.integral_congr fun y _ => h x y

/-- The displacements of the mirrored amplitudes are the mirrored displacements. -/
theorem displacements {S : Shape ℝ} (hS : S.Even) (h : Turned X Y P P') (hm : X = true → 4 ≤ P.m)
    (hn : Y = true → 4 ≤ P.n) (ha : P.a ≠ 0) (hb : P.b ≠ 0) (s : ℕ) (c : ℕ → ℝ) {α : ℕ} (hα : α < 3)
    (x y : ℝ) : u S P' s (turn X Y P.m P.n s c) α (across X P.a x) (across Y P.b y)
      = uSign X Y α * u S P s c α x y := by
  rw [u_disp, u_disp, disp_across hS h hm hn ha hb s c hα (by omega) (by omega)]
  simp

/-- **C89, stiffness.**  Closed form. -/
theorem stiffness (hI : E.I.Exact E.S Mean.integral) (hS : E.S.C2) (hE : E.S.Even) (h : Turned X Y P P')
    (hm : X = true → 4 ≤ P.m) (hn : Y = true → 4 ≤ P.n) (ha : P.a ≠ 0) (hb : P.b ≠ 0)
    (hr : k = .cyl → P.r ≠ 0) (hF : ABDSym F) (s : ℕ) :
    Mirrored X Y P.m P.n s (C87.closed E k P F s) (C87.closed E k P' (turnLam X Y F) s) := by
  refine mirrored_of_quad hm hn fun c => ?_
  have h1 := C87.closed_quad hI hS k ha hb hr hF s c
  have h2 := C87.closed_quad (P := P') hI hS k (h.a ▸ ha) (h.b ▸ hb) (fun e => h.r ▸ hr e)
    (turnLam_sym hF X Y) s (turn X Y P.m P.n s c)
  have h3 : C87.strainEnergy (C87.curv k P') E.S P' (turnLam X Y F) s (turn X Y P.m P.n s c)
      = C87.strainEnergy (C87.curv k P) E.S P F s c := by
    unfold C87.strainEnergy
    rw [show C87.curv k P' = C87.curv k P by cases k <;> simp [C87.curv, h.r], h.a, h.b]
    refine congrArg _ (integral_turn (X := X) (Y := Y) P.a P.b fun x y => ?_)
    refine dens_turn X Y F fun j hj => ?_
    have e1 := linStrain_lin hS (C87.curv k P) P s c j x y
    have e2 := linStrain_lin hS (C87.curv k P) P' s (turn X Y P.m P.n s c) j (across X P.a x)
      (across Y P.b y)
    unfold linStrain at e1 e2
    rw [e1, e2]
    exact lin_across hE h hm hn ha hb _ s c hj x y
  have h4 : 1 / 2 * Coo.quad (C87.closed E k P' (turnLam X Y F) s) (turn X Y P.m P.n s c)
      = 1 / 2 * Coo.quad (C87.closed E k P F s) c := h2.trans (h3.trans h1.symm)
  have h5 := mul_left_cancel₀ (by norm_num : (1 / 2 : ℝ) ≠ 0) h4
  exact h5

/-- **C89, mass.**  Closed form. -/
theorem mass (hI : E.I.Exact E.S Mean.integral) (hS : E.S.C2) (hE : E.S.Even) (h : Turned X Y P P')
    (hm : X = true → 4 ≤ P.m) (hn : Y = true → 4 ≤ P.n) (ha : P.a ≠ 0) (hb : P.b ≠ 0)
    (off t rho : ℝ) (s : ℕ) :
    Mirrored X Y P.m P.n s (C88.mass E k P off t rho s) (C88.mass E k P' off t rho s) := by
  refine mirrored_of_quad hm hn fun c => ?_
  have h1 := C88.mass_quad hI hS k ha hb off t rho s c
  have h2 := C88.mass_quad (P := P') hI hS k (h.a ▸ ha) (h.b ▸ hb) off t rho s (turn X Y P.m P.n s c)
  refine h2.trans (Eq.trans ?_ h1.symm)
  rw [h.a, h.b]
  refine integral_turn (X := X) (Y := Y) P.a P.b fun x y => ?_
  have hd := fun {α p q} (hα : α < 3) (hp : p ≤ 2) (hq : q ≤ 2) =>
    disp_across hE h hm hn ha hb s c (α := α) (p := p) (q := q) hα hp hq x y
  have s1 := sgn_sq (K := ℝ) X
  have s2 := sgn_sq (K := ℝ) Y
  unfold C20.kinetic
  simp only [u_dx hS, u_dy hS, u_disp, hd (α := 0) (p := 0) (q := 0) (by omega) (by omega) (by omega),
    hd (α := 1) (p := 0) (q := 0) (by omega) (by omega) (by omega),
    hd (α := 2) (p := 0) (q := 0) (by omega) (by omega) (by omega),
    hd (α := 2) (p := 1) (q := 0) (by omega) (by omega) (by omega),
    hd (α := 2) (p := 0) (q := 1) (by omega) (by omega) (by omega), uSign, pow_zero, pow_one, mul_one,
    one_mul]
  generalize disp E.S P s c 0 0 0 (2 / P.a * x - 1) (2 / P.b * y - 1) = U
  generalize disp E.S P s c 1 0 0 (2 / P.a * x - 1) (2 / P.b * y - 1) = V
  generalize disp E.S P s c 2 1 0 (2 / P.a * x - 1) (2 / P.b * y - 1) = wx
  generalize disp E.S P s c 2 0 1 (2 / P.a * x - 1) (2 / P.b * y - 1) = wy
  linear_combination (rho * t * ((U + off * wx) ^ 2 + 0.0833333333333333 * t ^ 2 * wx ^ 2)) * s1
    + (rho * t * ((V + off * wy) ^ 2 + 0.0833333333333333 * t ^ 2 * wy ^ 2)) * s2

/-- **C89, geometric stiffness.**  Closed form; the shear force changes sign with either axis. -/
theorem geometric (hI : E.I.Exact E.S Mean.integral) (hS : E.S.C2) (hE : E.S.Even) (h : Turned X Y P P')
    (hm : X = true → 4 ≤ P.m) (hn : Y = true → 4 ≤ P.n) (ha : P.a ≠ 0) (hb : P.b ≠ 0)
    (Nxx Nyy Nxy : ℝ) (s : ℕ) :
    Mirrored X Y P.m P.n s (C88.geometric E k P Nxx Nyy Nxy s)
      (C88.geometric E k P' Nxx Nyy (sgn X * sgn Y * Nxy) s) := by
  refine mirrored_of_quad hm hn fun c => ?_
  have h1 := C88.geometric_quad hI hS k ha hb Nxx Nyy Nxy s c
  have h2 := C88.geometric_quad (P := P') hI hS k (h.a ▸ ha) (h.b ▸ hb) Nxx Nyy (sgn X * sgn Y * Nxy) s
    (turn X Y P.m P.n s c)
  refine h2.trans (Eq.trans ?_ h1.symm)
  rw [h.a, h.b]
  refine integral_turn (X := X) (Y := Y) P.a P.b fun x y => ?_
  have hd := fun {p q} (hp : p ≤ 2) (hq : q ≤ 2) =>
    disp_across hE h hm hn ha hb s c (α := 2) (p := p) (q := q) (by omega) hp hq x y
  have s1 := sgn_sq (K := ℝ) X
  have s2 := sgn_sq (K := ℝ) Y
  simp only [u_dx hS, u_dy hS, hd (p := 1) (q := 0) (by omega) (by omega),
    hd (p := 0) (q := 1) (by omega) (by omega), uSign, pow_zero, pow_one, mul_one, one_mul]
  generalize disp E.S P s c 2 1 0 (2 / P.a * x - 1) (2 / P.b * y - 1) = wx
  generalize disp E.S P s c 2 0 1 (2 / P.a * x - 1) (2 / P.b * y - 1) = wy
  linear_combination (Nxx * wx ^ 2 + 2 * Nxy * wx * wy * (sgn Y * sgn Y)) * s1
    + (Nyy * wy ^ 2 + 2 * Nxy * wx * wy) * s2

/-! ### By quadrature, about any state -/

variable {nx ny : ℕ} {Fs : ℕ → ℕ → ℕ → ℕ → ℝ}

/-- The mirrored laminate at the mirrored points. -/
noncomputable def turnField (X Y : Bool) (nx ny : ℕ) (Fs : ℕ → ℕ → ℕ → ℕ → ℝ) (p q : ℕ) : ℕ → ℕ → ℝ :=
  turnLam X Y (Fs (back X nx p) (back Y ny q))

/-- **C89, stiffness by quadrature**, linear or about a deflected state; the laminate may vary from point
to point. -/
theorem stiffness_num (hE : E.S.Even) (h : Turned X Y P P') (hm : X = true → 4 ≤ P.m)
    (hn : Y = true → 4 ≤ P.n) (hx : X = true → E.G.Even nx) (hy : Y = true → E.G.Even ny) (ha : P.a ≠ 0)
    (hb : P.b ≠ 0) (hr : k = .cyl → P.r ≠ 0) (hF : ∀ p q, ABDSym (Fs p q)) (c : ℕ → ℝ) (s NL : ℕ) :
    Mirrored X Y P.m P.n s (Coo.finalizeSym (fkCnumF E k P Fs c s s nx ny NL))
      (Coo.finalizeSym (fkCnumF E k P' (turnField X Y nx ny Fs) (turn X Y P.m P.n s c) s s nx ny NL)) := by
  refine mirrored_of_quad hm hn fun d => ?_
  have key : ∀ κ, (gaussP E.G nx ny P' fun p q x y => dens 6 (turnField X Y nx ny Fs p q) fun j =>
        if NL = 1 then vkVar κ E.S P' s (turn X Y P.m P.n s c) (turn X Y P.m P.n s d) j x y
        else lin κ E.S P' s (turn X Y P.m P.n s d) j x y)
      = gaussP E.G nx ny P fun p q x y => dens 6 (Fs p q) fun j =>
        if NL = 1 then vkVar κ E.S P s c d j x y else lin κ E.S P s d j x y := fun κ => by
    refine gaussP_turn h hx hy fun p hp q hq x y => ?_
    unfold turnField
    rw [back_back hp, back_back hq]
    refine dens_turn X Y _ fun j hj => ?_
    split
    · exact slopes_across hE h hm hn ha hb κ s c d hj x y
    · exact lin_across hE h hm hn ha hb κ s d hj x y
  have hF' : ∀ p q, ABDSym (turnField X Y nx ny Fs p q) := fun p q => turnLam_sym (hF _ _) X Y
  cases k with
  | plate =>
    have h1 := plateFkCnum_quad E.S E.G P ha hb Fs hF c d s nx ny NL
    have h2 := plateFkCnum_quad E.S E.G P' (h.a ▸ ha) (h.b ▸ hb) _ hF' (turn X Y P.m P.n s c)
      (turn X Y P.m P.n s d) s nx ny NL
    exact h2.trans ((key 0).trans h1.symm)
  | cyl =>
    have h1 := cylFkCnum_quad E.S E.G P ha hb (hr rfl) Fs hF c d s nx ny NL
    have h2 := cylFkCnum_quad E.S E.G P' (h.a ▸ ha) (h.b ▸ hb) (h.r ▸ hr rfl) _ hF'
      (turn X Y P.m P.n s c) (turn X Y P.m P.n s d) s nx ny NL
    rw [h.r] at h2
    exact h2.trans ((key (1 / P.r)).trans h1.symm)

/-- **C89, geometric stiffness by quadrature**, of any state. -/
theorem geometric_num (hE : E.S.Even) (h : Turned X Y P P') (hm : X = true → 4 ≤ P.m)
    (hn : Y = true → 4 ≤ P.n) (hx : X = true → E.G.Even nx) (hy : Y = true → E.G.Even ny) (ha : P.a ≠ 0)
    (hb : P.b ≠ 0) (hF : ∀ p q, ABDSym (Fs p q)) (c : ℕ → ℝ) (s NL : ℕ) (Nxx Nyy Nxy : ℝ) :
    Mirrored X Y P.m P.n s (Coo.finalizeSym (fkGnumF E k P Fs c s s nx ny NL Nxx Nyy Nxy))
      (Coo.finalizeSym (fkGnumF E k P' (turnField X Y nx ny Fs) (turn X Y P.m P.n s c) s s nx ny NL
        Nxx Nyy (sgn X * sgn Y * Nxy))) := by
  refine mirrored_of_quad hm hn fun d => ?_
  have key : ∀ κ, (gaussP E.G nx ny P' fun p q x y =>
        let e := fun j => if NL = 1 then vkWith 2 κ E.S P' s (turn X Y P.m P.n s c) j x y
          else lin κ E.S P' s (turn X Y P.m P.n s c) j x y
        stressDens E.S P' s (turn X Y P.m P.n s d) (Nxx + resultant (turnField X Y nx ny Fs p q) e 0)
          (Nyy + resultant (turnField X Y nx ny Fs p q) e 1)
          (sgn X * sgn Y * Nxy + resultant (turnField X Y nx ny Fs p q) e 2) x y)
      = gaussP E.G nx ny P fun p q x y =>
        let e := fun j => if NL = 1 then vkWith 2 κ E.S P s c j x y else lin κ E.S P s c j x y
        stressDens E.S P s d (Nxx + resultant (Fs p q) e 0) (Nyy + resultant (Fs p q) e 1)
          (Nxy + resultant (Fs p q) e 2) x y := fun κ => by
    refine gaussP_turn h hx hy fun p hp q hq x y => ?_
    have he : ∀ j < 6, (if NL = 1 then vkWith 2 κ E.S P' s (turn X Y P.m P.n s c) j (across X P.a x)
        (across Y P.b y) else lin κ E.S P' s (turn X Y P.m P.n s c) j (across X P.a x) (across Y P.b y))
        = eSign X Y j * if NL = 1 then vkWith 2 κ E.S P s c j x y else lin κ E.S P s c j x y :=
      fun j hj => by
        split
        · exact vkWith_across hE h hm hn ha hb 2 κ s c hj x y
        · exact lin_across hE h hm hn ha hb κ s c hj x y
    have hd := fun {p q} (hp : p ≤ 2) (hq : q ≤ 2) =>
      disp_across hE h hm hn ha hb s d (α := 2) (p := p) (q := q) (by omega) hp hq x y
    have s1 := sgn_sq (K := ℝ) X
    have s2 := sgn_sq (K := ℝ) Y
    unfold turnField
    rw [back_back hp, back_back hq]
    simp only [resultant_turn X Y (Fs p q) he]
    simp only [stressDens, hd (p := 1) (q := 0) (by omega) (by omega),
      hd (p := 0) (q := 1) (by omega) (by omega), uSign, eSign, pow_zero, pow_one, mul_one, one_mul]
    generalize disp E.S P s d 2 1 0 (2 / P.a * x - 1) (2 / P.b * y - 1) = wx
    generalize disp E.S P s d 2 0 1 (2 / P.a * x - 1) (2 / P.b * y - 1) = wy
    generalize resultant (Fs p q) _ 0 = r0
    generalize resultant (Fs p q) _ 1 = r1
    generalize resultant (Fs p q) _ 2 = r2
    linear_combination ((Nxx + r0) * wx ^ 2 + 2 * (Nxy + r2) * wx * wy * (sgn Y * sgn Y)) * s1
      + ((Nyy + r1) * wy ^ 2 + 2 * (Nxy + r2) * wx * wy) * s2
  have hF' : ∀ p q, ABDSym (turnField X Y nx ny Fs p q) := fun p q => turnLam_sym (hF _ _) X Y
  cases k with
  | plate =>
    have h1 := plateFkGnum_quad E.S E.G P ha hb Fs hF c d s nx ny NL Nxx Nyy Nxy
    have h2 := plateFkGnum_quad E.S E.G P' (h.a ▸ ha) (h.b ▸ hb) _ hF' (turn X Y P.m P.n s c)
      (turn X Y P.m P.n s d) s nx ny NL Nxx Nyy (sgn X * sgn Y * Nxy)
    exact h2.trans ((key 0).trans h1.symm)
  | cyl =>
    have h1 := cylFkGnum_quad E.S E.G P ha hb Fs hF c d s nx ny NL Nxx Nyy Nxy
    have h2 := cylFkGnum_quad E.S E.G P' (h.a ▸ ha) (h.b ▸ hb) _ hF' (turn X Y P.m P.n s c)
      (turn X Y P.m P.n s d) s nx ny NL Nxx Nyy (sgn X * sgn Y * Nxy)
    rw [h.r] at h2
    exact h2.trans ((key (1 / P.r)).trans h1.symm)

/-- **C89, mass by quadrature**; thickness and density may vary from point to point. -/
theorem mass_num (hE : E.S.Even) (h : Turned X Y P P') (hm : X = true → 4 ≤ P.m)
    (hn : Y = true → 4 ≤ P.n) (hx : X = true → E.G.Even nx) (hy : Y = true → E.G.Even ny) (ha : P.a ≠ 0)
    (hb : P.b ≠ 0) (off : ℝ) (t rho : ℕ → ℕ → ℝ) (s : ℕ) :
    Mirrored X Y P.m P.n s (Coo.finalizeSym (fkMnumF E.S E.G P off t rho s s nx ny))
      (Coo.finalizeSym (fkMnumF E.S E.G P' off (fun p q => t (back X nx p) (back Y ny q))
        (fun p q => rho (back X nx p) (back Y ny q)) s s nx ny)) := by
  refine mirrored_of_quad hm hn fun d => ?_
  have h1 := fkMnum_quad E.S E.G P ha hb off t rho d s nx ny
  have h2 := fkMnum_quad E.S E.G P' (h.a ▸ ha) (h.b ▸ hb) off (fun p q => t (back X nx p) (back Y ny q))
    (fun p q => rho (back X nx p) (back Y ny q)) (turn X Y P.m P.n s d) s nx ny
  refine h2.trans (Eq.trans (gaussP_turn h hx hy fun p hp q hq x y => ?_) h1.symm)
  have hd := fun {α p q} (hα : α < 3) (hp : p ≤ 2) (hq : q ≤ 2) =>
    disp_across hE h hm hn ha hb s d (α := α) (p := p) (q := q) hα hp hq x y
  have s1 := sgn_sq (K := ℝ) X
  have s2 := sgn_sq (K := ℝ) Y
  simp only [back_back hp, back_back hq, hd (α := 0) (p := 0) (q := 0) (by omega) (by omega) (by omega),
    hd (α := 1) (p := 0) (q := 0) (by omega) (by omega) (by omega),
    hd (α := 2) (p := 0) (q := 0) (by omega) (by omega) (by omega),
    hd (α := 2) (p := 1) (q := 0) (by omega) (by omega) (by omega),
    hd (α := 2) (p := 0) (q := 1) (by omega) (by omega) (by omega), uSign, pow_zero, pow_one, mul_one,
    one_mul]
  generalize disp E.S P s d 0 0 0 (2 / P.a * x - 1) (2 / P.b * y - 1) = U
  generalize disp E.S P s d 1 0 0 (2 / P.a * x - 1) (2 / P.b * y - 1) = V
  generalize disp E.S P s d 2 1 0 (2 / P.a * x - 1) (2 / P.b * y - 1) = wx
  generalize disp E.S P s d 2 0 1 (2 / P.a * x - 1) (2 / P.b * y - 1) = wy
  linear_combination (rho p q * t p q * ((U + off * wx) ^ 2 + c12 * t p q ^ 2 * wx ^ 2)) * s1
    + (rho p q * t p q * ((V + off * wy) ^ 2 + c12 * t p q ^ 2 * wy ^ 2)) * s2

/-- **C89, internal forces.**  In the mirrored state they do on mirrored amplitudes the same work. -/
theorem internal (hE : E.S.Even) (h : Turned X Y P P') (hm : X = true → 4 ≤ P.m)
    (hn : Y = true → 4 ≤ P.n) (hx : X = true → E.G.Even nx) (hy : Y = true → E.G.Even ny) (ha : P.a ≠ 0)
    (hb : P.b ≠ 0) (hF : ∀ p q, ABDSym (Fs p q)) (c d : ℕ → ℝ) (s : ℕ) :
    vdot (plateFintF E.S E.G P' (turnField X Y nx ny Fs) (turn X Y P.m P.n s c) s nx ny)
        (turn X Y P.m P.n s d) = vdot (plateFintF E.S E.G P Fs c s nx ny) d ∧
    (P.r ≠ 0 → vdot (cylFintF E.S E.G P' (turnField X Y nx ny Fs) (turn X Y P.m P.n s c) s nx ny)
        (turn X Y P.m P.n s d) = vdot (cylFintF E.S E.G P Fs c s nx ny) d) := by
  have key : ∀ κ, (gaussP E.G nx ny P' fun p q x y => ∑ j ∈ range 6,
        resultant (turnField X Y nx ny Fs p q) (fun i => vkWith 2 κ E.S P' s (turn X Y P.m P.n s c) i x y) j *
          vkVar κ E.S P' s (turn X Y P.m P.n s c) (turn X Y P.m P.n s d) j x y)
      = gaussP E.G nx ny P fun p q x y => ∑ j ∈ range 6,
        resultant (Fs p q) (fun i => vkWith 2 κ E.S P s c i x y) j * vkVar κ E.S P s c d j x y := fun κ => by
    refine gaussP_turn h hx hy fun p hp q hq x y => Finset.sum_congr rfl fun j hj => ?_
    have hj := mem_range.1 hj
    unfold turnField
    rw [back_back hp, back_back hq, slopes_across hE h hm hn ha hb κ s c d hj,
      resultant_turn X Y (Fs p q) fun i hi => vkWith_across hE h hm hn ha hb 2 κ s c hi x y]
    have := eSign_sq (K := ℝ) X Y j
    linear_combination (resultant (Fs p q) (fun i => vkWith 2 κ E.S P s c i x y) j *
      vkVar κ E.S P s c d j x y) * this
  have hF' : ∀ p q, ABDSym (turnField X Y nx ny Fs p q) := fun p q => turnLam_sym (hF _ _) X Y
  refine ⟨?_, fun hr => ?_⟩
  · rw [plateFint_work E.S E.G P ha hb Fs hF, plateFint_work E.S E.G P' (h.a ▸ ha) (h.b ▸ hb) _ hF']
    exact key 0
  · rw [cylFint_work E.S E.G P ha hb hr Fs hF, cylFint_work E.S E.G P' (h.a ▸ ha) (h.b ▸ hb) (h.r ▸ hr) _ hF',
      h.r]
    exact key (1 / P.r)

/-- The points of the table in the code are symmetric. -/
theorem gaussTab_even {n : ℕ} (h2 : 2 ≤ n) (h64 : n ≤ 64) : (gaussTab ℝ).Even n := fun i hi =>
  ⟨(C05.gauss_points_weights n h2 h64).2.2.1 i hi, (C05.gauss_points_weights n h2 h64).2.2.2.2 i hi⟩

end

/-! ### Loads -/

section
variable {S : Shape ℝ} {G : GaussTab ℝ} {X Y : Bool} {P P' : Panel ℝ}

theorem field_turn (hS : S.Even) (h : Turned X Y P P') (hm : X = true → 4 ≤ P.m)
    (hn : Y = true → 4 ≤ P.n) (ha : P.a ≠ 0) (hb : P.b ≠ 0) (s : ℕ) (c : ℕ → ℝ) {α : ℕ} (hα : α < 3)
    (x y : ℝ) : Spec.field S P' s (turn X Y P.m P.n s c) α (across X P.a x) (across Y P.b y)
      = uSign X Y α * Spec.field S P s c α x y := by
  have := displacements hS h hm hn ha hb s c hα x y
  rw [u_disp, u_disp] at this
  have e : ∀ z l : ℝ, 2 * z / l - 1 = 2 / l * z - 1 := fun z l => by ring
  unfold Spec.field
  rw [e, e, e, e]
  exact this

theorem point_turn (a b : ℝ) {U U' : ℕ → ℝ → ℝ → ℝ}
    (hU : ∀ α < 3, ∀ x y, U' α (across X a x) (across Y b y) = uSign X Y α * U α x y) (l : PLoad ℝ) :
    pointWork U' (turnPoint X Y a b l) = pointWork U l := by
  have s1 := sgn_sq (K := ℝ) X
  have s2 := sgn_sq (K := ℝ) Y
  simp only [pointWork, turnPoint, hU 0 (by omega), hU 1 (by omega), hU 2 (by omega), uSign, one_mul]
  linear_combination (l.fx * U 0 l.x l.y) * s1 + (l.fy * U 1 l.x l.y) * s2

theorem line_turn {b : Bool} {n : ℕ} (hG : b = true → G.Even n) (len : ℝ) {g g' : ℝ → ℝ}
    (h : ∀ t, g' (across b len t) = g t) : lineQuad G n len g' = lineQuad G n len g := by
  unfold lineQuad
  rw [← sum_back b n]
  refine Finset.sum_congr rfl fun p hp => ?_
  have hp := mem_range.1 hp
  rw [wt_back hG hp, pt_back hG hp, ← h]
  congr 2
  cases b
  · simp [sgn, across]
  · simp only [sgn, across, if_true]
    ring

theorem comp_turn (f : Option (ℝ → ℝ)) (r : ℝ) (w : ℝ → ℝ) (t : ℝ) :
    comp (f.map fun f s => r * f (w s)) t = r * comp f (w t) := by
  cases f <;> simp [comp]

theorem comp_turn' (f : Option (ℝ → ℝ)) (w : ℝ → ℝ) (t : ℝ) :
    comp (f.map fun f s => f (w s)) t = comp f (w t) := by
  cases f <;> simp [comp]

theorem across_across (b : Bool) (len x : ℝ) : across b len (across b len x) = x := by
  cases b
  · rfl
  · simp [across]

theorem distr_turn (h : Turned X Y P P') (hx : X = true → G.Even P.m) (hy : Y = true → G.Even P.n)
    {U U' : ℕ → ℝ → ℝ → ℝ}
    (hU : ∀ α < 3, ∀ x y, U' α (across X P.a x) (across Y P.b y) = uSign X Y α * U α x y) (l : DLoad ℝ) :
    distrWork G P' U' (turnLine X Y P.a P.b l) = distrWork G P U l := by
  have s1 := sgn_sq (K := ℝ) X
  have s2 := sgn_sq (K := ℝ) Y
  obtain ⟨x, y, fx, fy, fz⟩ := l
  cases x with
  | none =>
    cases y with
    | none => rfl
    | some y =>
      simp only [distrWork, turnLine, Option.map_none, Option.map_some]
      rw [h.m, h.a]
      refine line_turn hx P.a fun t => ?_
      simp only [comp_turn, comp_turn', Option.isSome_none, Bool.false_eq_true, if_false, across_across,
        hU 0 (by omega), hU 1 (by omega), hU 2 (by omega), uSign, one_mul]
      linear_combination (comp fx t * U 0 t y) * s1 + (comp fy t * U 1 t y) * s2
  | some x =>
    cases y with
    | none =>
      simp only [distrWork, turnLine, Option.map_none, Option.map_some]
      rw [h.n, h.b]
      refine line_turn hy P.b fun t => ?_
      simp only [comp_turn, comp_turn', Option.isSome_some, if_true, across_across,
        hU 0 (by omega), hU 1 (by omega), hU 2 (by omega), uSign, one_mul]
      linear_combination (comp fx t * U 0 x t) * s1 + (comp fy t * U 1 x t) * s2
    | some y => rfl

theorem sum_turn {β : Type} (w w' : β → ℝ) (g : β → β) (h : ∀ l, w' (g l) = w l) (L : List β) :
    ((L.map g).map w').sum = (L.map w).sum := by
  rw [List.map_map]
  exact congrArg List.sum (List.map_congr_left fun l _ => h l)

/-- **C89, loads.**  Mirrored loads do on mirrored displacements the same work. -/
theorem load_work {E : Env ℝ} (hS : E.S.Even) (h : Turned X Y P P') (hm : X = true → 4 ≤ P.m)
    (hn : Y = true → 4 ≤ P.n) (hx : X = true → E.G.Even P.m) (hy : Y = true → E.G.Even P.n) (ha : P.a ≠ 0)
    (hb : P.b ≠ 0) (L : Loads ℝ) (inc : ℝ) (s : ℕ) (c : ℕ → ℝ) :
    C67.loadWork E P' (turnLoads X Y P.a P.b L) inc s (turn X Y P.m P.n s c) = C67.loadWork E P L inc s c := by
  have hp := point_turn (X := X) (Y := Y) P.a P.b fun α hα x y =>
    field_turn hS h hm hn ha hb s c hα x y
  have hd := distr_turn h hx hy fun α hα x y => field_turn hS h hm hn ha hb s c hα x y
  unfold C67.loadWork constWork incWork turnLoads
  simp only [sum_turn _ _ _ hp, sum_turn _ _ _ hd]

theorem turnLoads_wf {L : Loads ℝ} (hL : WellFormed L) (a b : ℝ) : WellFormed (turnLoads X Y a b L) := by
  intro l hl
  simp only [turnLoads, ← List.map_append] at hl
  obtain ⟨l', hl', rfl⟩ := List.mem_map.1 hl
  have := hL l' hl'
  simpa [OnLine, turnLine] using this

/-- **C89, vector of forces.** -/
theorem forces {E : Env ℝ} (hS : E.S.Even) (h : Turned X Y P P') (hm : X = true → 4 ≤ P.m)
    (hn : Y = true → 4 ≤ P.n) (hx : X = true → E.G.Even P.m) (hy : Y = true → E.G.Even P.n) (ha : P.a ≠ 0)
    (hb : P.b ≠ 0) {L : Loads ℝ} (hL : WellFormed L) (inc : ℝ) (size : SizeArg) (s : ℕ)
    (hs : s + 3 * P.m * P.n ≤ size.value (3 * P.m * P.n)) :
    ∃ f f', shellFext E.S E.G P L inc size s = .ok f ∧
      shellFext E.S E.G P' (turnLoads X Y P.a P.b L) inc size s = .ok f' ∧
      ∀ k < size.value (3 * P.m * P.n), f' k = turn X Y P.m P.n s f k := by
  obtain ⟨f, hf, hw⟩ := C33.work E.S E.G P L hL inc size s hs
  have hs' : s + 3 * P'.m * P'.n ≤ size.value (3 * P'.m * P'.n) := by rw [h.m, h.n]; exact hs
  obtain ⟨f', hf', hw'⟩ := C33.work E.S E.G P' _ (turnLoads_wf (X := X) (Y := Y) hL P.a P.b) inc size s hs'
  refine ⟨f, f', hf, hf', fun k hk => ?_⟩
  rw [h.m, h.n] at hw'
  have hlt : ∀ l, l < size.value (3 * P.m * P.n) → twinNo X Y P.m P.n s l < size.value (3 * P.m * P.n) := by
    intro l hl
    by_cases hb : s ≤ l ∧ l < s + 3 * (P.m * P.n)
    · obtain ⟨i, hi, j, hj, α, hα, rfl⟩ := exists_number (Finset.mem_Ico.2 hb)
      have := number_lt (s := s) (twin_lt hm hi) (twin_lt hn hj) hα
      unfold Spec.number at this ⊢
      rw [twinNo_number X Y hi hj hα]
      have e : 3 * (P.m * P.n) = 3 * P.m * P.n := (mul_assoc _ _ _).symm
      omega
    · rw [twinNo, if_neg hb]
      exact hl
  have e : ∀ c, ∑ l ∈ range (size.value (3 * P.m * P.n)), f' l * turn X Y P.m P.n s c l
      = ∑ l ∈ range (size.value (3 * P.m * P.n)), f l * c l := fun c => by
    rw [hw c, hw' (turn X Y P.m P.n s c)]
    exact load_work hS h hm hn hx hy ha hb L inc s c
  have := e (turn X Y P.m P.n s (unit k))
  rw [turn_turn X Y hm hn] at this
  have e1 : ∀ g : ℕ → ℝ, ∑ l ∈ range (size.value (3 * P.m * P.n)), g l * unit k l = g k := fun g => by
    rw [Finset.sum_eq_single k (fun l _ hl => by rw [unit, if_neg hl, mul_zero])
      (fun h => absurd (mem_range.2 hk) h), unit, if_pos rfl, mul_one]
  rw [e1] at this
  rw [this, Finset.sum_eq_single (twinNo X Y P.m P.n s k)]
  · rw [turn, turn, twinNo_twinNo X Y hm hn, signNo_twinNo X Y hm hn, unit, if_pos rfl]
    ring
  · intro l _ hl
    rw [turn, unit, if_neg, mul_zero, mul_zero]
    exact fun e => hl (by rw [← e, twinNo_twinNo X Y hm hn])
  · exact fun h => absurd (mem_range.2 (hlt k hk)) h

end

/-! ### Analyses of a panel -/

section
variable {E : Env ℝ} {X Y : Bool} {P P' : Panel ℝ} {k : Kind} {F : ℕ → ℕ → ℝ}

theorem flag_across (b : Bool) (fl : Flags ℝ) (i : ℕ) : flag (turnFlags b fl) i = flag fl (twin b i) := by
  cases b
  · rfl
  · have := flag_turn fl (twin true i)
    rwa [twin_twin] at this

/-- The unknowns of the mirror image. -/
theorem mem_actives (h : Turned X Y P P') (hm : X = true → 4 ≤ P.m) (hn : Y = true → 4 ≤ P.n) (s l : ℕ) :
    l ∈ C76.actives P' s ↔ twinNo X Y P.m P.n s l ∈ C76.actives P s := by
  rw [C76.mem_actives, C76.mem_actives]
  constructor
  · rintro ⟨α, hα, i, hi, j, hj, h1, h2, rfl⟩
    rw [h.m] at hi
    rw [h.n] at hj
    rw [h.xf, flag_across] at h1
    rw [h.yf, flag_across] at h2
    rw [h.m, twinNo_number X Y hi hj hα]
    exact ⟨α, hα, _, twin_lt hm hi, _, twin_lt hn hj, h1, h2, rfl⟩
  · rintro ⟨α, hα, i, hi, j, hj, h1, h2, e⟩
    have e' : l = s + 3 * (twin Y j * P.m + twin X i) + α := by
      rw [← twinNo_twinNo X Y hm hn (s := s) l, e, twinNo_number X Y hi hj hα]
    refine ⟨α, hα, twin X i, h.m ▸ twin_lt hm hi, twin Y j, h.n ▸ twin_lt hn hj, ?_, ?_, by rw [e', h.m]⟩
    · rw [h.xf, flag_across, twin_twin]
      exact h1
    · rw [h.yf, flag_across, twin_twin]
      exact h2

/-- **C89, frequencies of a panel.**  A panel and its mirror image have the same frequencies. -/
theorem panel_frequencies (hI : E.I.Exact E.S Mean.integral) (hS : E.S.C2) (hE : E.S.Even)
    (h : Turned X Y P P') (hm : X = true → 4 ≤ P.m) (hn : Y = true → 4 ≤ P.n) (ha : P.a ≠ 0) (hb : P.b ≠ 0)
    (hr : k = .cyl → P.r ≠ 0) (hF : ABDSym F) (off t rho : ℝ) (s : ℕ) (μ : ℂ) :
    Eigen (C76.actives P' s) (C87.closed E k P' (turnLam X Y F) s) (C88.mass E k P' off t rho s) μ ↔
      Eigen (C76.actives P s) (C87.closed E k P F s) (C88.mass E k P off t rho s) μ :=
  eigen_iff hm hn (mem_actives h hm hn s) (stiffness hI hS hE h hm hn ha hb hr hF s)
    (mass hI hS hE h hm hn ha hb off t rho s) μ

/-- **C89, critical loads of a panel.** -/
theorem panel_buckling (hI : E.I.Exact E.S Mean.integral) (hS : E.S.C2) (hE : E.S.Even)
    (h : Turned X Y P P') (hm : X = true → 4 ≤ P.m) (hn : Y = true → 4 ≤ P.n) (ha : P.a ≠ 0) (hb : P.b ≠ 0)
    (hr : k = .cyl → P.r ≠ 0) (hF : ABDSym F) (Nxx Nyy Nxy : ℝ) (s : ℕ) (p : ℂ) :
    Critical (C76.actives P' s) (C87.closed E k P' (turnLam X Y F) s)
        (C88.geometric E k P' Nxx Nyy (sgn X * sgn Y * Nxy) s) p ↔
      Critical (C76.actives P s) (C87.closed E k P F s) (C88.geometric E k P Nxx Nyy Nxy s) p :=
  critical_iff hm hn (mem_actives h hm hn s) (stiffness hI hS hE h hm hn ha hb hr hF s)
    (geometric hI hS hE h hm hn ha hb Nxx Nyy Nxy s) p

/-- **C89, static analysis of a panel.**  Under the mirrored loads the displacements are the mirrored
ones, at every point. -/
theorem panel_static (hI : E.I.Exact E.S Mean.integral) (hS : E.S.C2) (hE : E.S.Even)
    (h : Turned X Y P P') (hm : X = true → 4 ≤ P.m) (hn : Y = true → 4 ≤ P.n)
    (hx : X = true → E.G.Even P.m) (hy : Y = true → E.G.Even P.n) (ha : P.a ≠ 0) (hb : P.b ≠ 0)
    (hr : k = .cyl → P.r ≠ 0) (hF : ABDSym F) {L : Loads ℝ} (hL : WellFormed L) (inc : ℝ)
    (size : SizeArg) (s : ℕ) (hs : s + 3 * P.m * P.n ≤ size.value (3 * P.m * P.n)) :
    ∃ f f', shellFext E.S E.G P L inc size s = .ok f ∧
      shellFext E.S E.G P' (turnLoads X Y P.a P.b L) inc size s = .ok f' ∧
      ∀ c, Balanced (C76.actives P s) (C87.closed E k P F s) f c →
        ∃ c', Balanced (C76.actives P' s) (C87.closed E k P' (turnLam X Y F) s) f' c' ∧
          ∀ α < 3, ∀ x y, u E.S P' s c' α (across X P.a x) (across Y P.b y)
            = uSign X Y α * u E.S P s c α x y := by
  obtain ⟨f, f', hf, hf', e⟩ := forces hE h hm hn hx hy ha hb hL inc size s hs
  refine ⟨f, f', hf, hf', fun c hc => ⟨turn X Y P.m P.n s c, balanced hm hn (mem_actives h hm hn s)
    (stiffness hI hS hE h hm hn ha hb hr hF s) (fun l hl => e l ?_) hc, fun α hα x y =>
      displacements hE h hm hn ha hb s c hα x y⟩⟩
  obtain ⟨α, hα, i, hi, j, hj, -, -, rfl⟩ := (C76.mem_actives P' s l).1 hl
  have := number_lt (s := s) hi hj hα
  unfold Spec.number at this
  rw [h.m, h.n] at this
  have e : 3 * (P.m * P.n) = 3 * P.m * P.n := (mul_assoc _ _ _).symm
  rw [h.m]
  omega

end

/-! ### Fewer than four terms -/

/-- With fewer than four terms the functions are not a symmetric set, and the mirror image has another
number of unknowns. -/
theorem few_terms : ∃ P P' : Panel ℝ, Turned true false P P' ∧ P.m = 3 ∧ 0 < P.n ∧
    C76.actives P 0 = ∅ ∧ C76.actives P' 0 ≠ ∅ := by
  let e : Flags ℝ := ⟨0, 0, 0, 1⟩
  let e' : Flags ℝ := ⟨0, 1, 0, 0⟩
  let o : Flags ℝ := ⟨1, 1, 1, 1⟩
  let P : Panel ℝ := ⟨3, 1, 2, 3, 4, -1, -1, -1, -1, e, e, e, o, o, o⟩
  let P' : Panel ℝ := ⟨3, 1, 2, 3, 4, -1, -1, -1, -1, e', e', e', o, o, o⟩
  refine ⟨P, P', ⟨rfl, rfl, rfl, rfl, rfl, fun α => ?_, fun α => rfl, ?_, ?_⟩, rfl, by norm_num [P], ?_, ?_⟩
  · match α with
    | 0 => rfl
    | 1 => rfl
    | α + 2 => rfl
  · simp [xdom, P, P']
  · simp [ydom, P, P']
  · refine Finset.eq_empty_of_forall_notMem fun l hl => ?_
    obtain ⟨α, hα, i, hi, j, hj, h1, -, -⟩ := (C76.mem_actives P 0 l).1 hl
    have hi : i < 3 := hi
    apply h1
    have hx : P.xf α = e := by
      match α with
      | 0 => rfl
      | 1 => rfl
      | α + 2 => rfl
    rw [hx]
    interval_cases i <;> rfl
  · refine Finset.nonempty_iff_ne_empty.1 ⟨_, (C76.mem_actives P' 0 _).2
      ⟨0, by omega, 1, (by norm_num [P'] : 1 < P'.m), 0, (by norm_num [P'] : 0 < P'.n), ?_, ?_, rfl⟩⟩
    · show (1 : ℝ) ≠ 0
      norm_num
    · show (1 : ℝ) ≠ 0
      norm_num

/-! ### Examples -/

/-- A part of a panel with mixed edge conditions. -/
noncomputable def part : Panel ℝ := { Witness.panel with x1 := 1 / 2, x2 := 2 }

/-- Its mirror image. -/
noncomputable def image : Panel ℝ :=
  { Witness.panel with x1 := 1, x2 := 5 / 2, xu := ⟨1, 1, 0, 1⟩, xv := ⟨0, 1, 0, 1⟩, xw := ⟨0, 1, 0, 0⟩ }

theorem part_image : Turned true false part image where
  m := rfl
  n := rfl
  a := rfl
  b := rfl
  r := rfl
  xf α := by
    match α with
    | 0 => rfl
    | 1 => rfl
    | α + 2 => rfl
  yf _ := rfl
  xdom := by norm_num [xdom, part, image, Witness.panel]
  ydom := by simp [ydom, part, image, Witness.panel]

/-- A panel turned by half a turn. -/
noncomputable def half : Panel ℝ :=
  { Witness.panel with
    xu := ⟨1, 1, 0, 1⟩, xv := ⟨0, 1, 0, 1⟩, xw := ⟨0, 1, 0, 0⟩
    yv := ⟨1, 1, 0, 1⟩ }

theorem panel_half : Turned true true Witness.panel half where
  m := rfl
  n := rfl
  a := rfl
  b := rfl
  r := rfl
  xf α := by
    match α with
    | 0 => rfl
    | 1 => rfl
    | α + 2 => rfl
  yf α := by
    match α with
    | 0 => rfl
    | 1 => rfl
    | α + 2 => rfl
  xdom := by simp [xdom, half, Witness.panel]
  ydom := by simp [ydom, half, Witness.panel]

example (k : Kind) (μ : ℂ) :
    Eigen (C76.actives image 12) (C87.closed C40.env k image (turnLam true false C13.lam) 12)
        (C88.mass C40.env k image (1 / 5) 2 3 12) μ ↔
      Eigen (C76.actives part 12) (C87.closed C40.env k part C13.lam 12)
        (C88.mass C40.env k part (1 / 5) 2 3 12) μ :=
  panel_frequencies (Tab.of_exact _ _) bardellShape_C2 bardellShape_even part_image
    (fun _ => by norm_num [part, Witness.panel]) (fun h => by cases h) (by norm_num [part, Witness.panel])
    (by norm_num [part, Witness.panel]) (fun _ => by norm_num [part, Witness.panel]) C13.lam_sym _ _ _ _ _

example (k : Kind) (p : ℂ) :
    Critical (C76.actives half 12) (C87.closed C40.env k half (turnLam true true C13.lam) 12)
        (C88.geometric C40.env k half (-1) 2 (sgn true * sgn true * 3) 12) p ↔
      Critical (C76.actives Witness.panel 12) (C87.closed C40.env k Witness.panel C13.lam 12)
        (C88.geometric C40.env k Witness.panel (-1) 2 3 12) p :=
  panel_buckling (Tab.of_exact _ _) bardellShape_C2 bardellShape_even panel_half
    (fun _ => by norm_num [Witness.panel]) (fun _ => by norm_num [Witness.panel])
    (by norm_num [Witness.panel]) (by norm_num [Witness.panel]) (fun _ => by norm_num [Witness.panel])
    C13.lam_sym _ _ _ _ _

/-- Functions of Bardell, exact integrals and the points of the code. -/
noncomputable def env : Env ℝ := { C40.env with G := gaussTab ℝ }

/-- A force and a force per length. -/
noncomputable def loads : Loads ℝ where
  pointLoads := [⟨1, 1 / 2, 1, 2, 3⟩]
  distrLoadsInc := [⟨some 3, none, some fun y => y, none, some fun y => y ^ 2⟩]

theorem loads_wf : WellFormed loads := by
  intro l hl
  simp only [loads, List.nil_append, List.append_nil, List.mem_singleton] at hl
  subst hl
  simp [OnLine]

example (k : Kind) : ∃ f f',
    shellFext env.S env.G Witness.panel loads (1 / 2) (.num 300) 12 = .ok f ∧
    shellFext env.S env.G half (turnLoads true true 3 1 loads) (1 / 2) (.num 300) 12 = .ok f' ∧
    ∀ c, Balanced (C76.actives Witness.panel 12) (C87.closed env k Witness.panel C13.lam 12) f c →
      ∃ c', Balanced (C76.actives half 12) (C87.closed env k half (turnLam true true C13.lam) 12) f' c' ∧
        ∀ α < 3, ∀ x y, u env.S half 12 c' α (across true 3 x) (across true 1 y)
          = uSign true true α * u env.S Witness.panel 12 c α x y :=
  panel_static (Tab.of_exact _ _) bardellShape_C2 bardellShape_even panel_half
    (fun _ => by norm_num [Witness.panel]) (fun _ => by norm_num [Witness.panel])
    (fun _ => gaussTab_even (n := 5) (by norm_num) (by norm_num))
    (fun _ => gaussTab_even (n := 7) (by norm_num) (by norm_num))
    (by norm_num [Witness.panel]) (by norm_num [Witness.panel]) (fun _ => by norm_num [Witness.panel])
    C13.lam_sym loads_wf (1 / 2) (.num 300) 12 (by norm_num [Witness.panel, SizeArg.value])

/-- A laminate of varying stiffness and a deflected state. -/
example (k : Kind) (c : ℕ → ℝ) :
    Mirrored true true 5 7 12
      (Coo.finalizeSym (fkCnumF env k Witness.panel (fun p q i j => (p + 2 * q + 1) * C13.lam i j) c
        12 12 6 9 1))
      (Coo.finalizeSym (fkCnumF env k half
        (turnField true true 6 9 fun p q i j => (p + 2 * q + 1) * C13.lam i j) (turn true true 5 7 12 c)
        12 12 6 9 1)) :=
  stiffness_num bardellShape_even panel_half
    (fun _ => by norm_num [Witness.panel]) (fun _ => by norm_num [Witness.panel])
    (fun _ => gaussTab_even (n := 6) (by norm_num) (by norm_num))
    (fun _ => gaussTab_even (n := 9) (by norm_num) (by norm_num))
    (by norm_num [Witness.panel]) (by norm_num [Witness.panel]) (fun _ => by norm_num [Witness.panel])
    (fun p q =>
      ⟨fun i j => by rw [C13.lam_sym.symm i j], by simp only [C13.lam_sym.b12],
        by simp only [C13.lam_sym.b16], by simp only [C13.lam_sym.b26]⟩) c 12 1

end Verif.C89
