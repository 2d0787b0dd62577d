import Verif.Proofs.Exchange
import Verif.Props.C89

/-!
# C90: a plate does not depend on which axis is called `x`

A plate described with the axes exchanged (`Spec/Exchange.lean`) gives the same matrices and vectors with
the terms renumbered, therefore the same frequencies, buckling loads and displacements.
-/

set_option linter.unusedSectionVars false

namespace Verif.C90

open Finset Spec Model Indep C80

/-- Entry by entry the same matrix, with the numbers of the exchanged plate. -/
def Renamed (m n s : ℕ) (A A' : Coo ℝ) : Prop :=
  ∀ k l, Coo.entry A' k l = Coo.entry A (flipNo n m s k) (flipNo n m s l)

section
variable {m n s : ℕ} {A A' B B' : Coo ℝ}

theorem flipped_unit (k : ℕ) : flipped m n s (unit (flipNo n m s k)) = (unit k : ℕ → ℝ) := by
  funext l
  simp only [flipped, unit]
  by_cases hl : l = k
  · rw [if_pos (by rw [hl]), if_pos hl]
  · rw [if_neg hl, if_neg fun e => hl ?_]
    rw [← flipNo_flipNo (m := n) (n := m) (s := s) l, e, flipNo_flipNo]

/-- Equal energies of the same displacements: the same matrix. -/
theorem renamed_of_quad {L L' : Coo ℝ}
    (h : ∀ c, Coo.quad (Coo.finalizeSym L') (flipped m n s c) = Coo.quad (Coo.finalizeSym L) c) :
    Renamed m n s (Coo.finalizeSym L) (Coo.finalizeSym L') := by
  have hb : ∀ c d, Coo.bilin (Coo.finalizeSym L') (flipped m n s c) (flipped m n s d)
      = Coo.bilin (Coo.finalizeSym L) c d := fun c d => by
    apply mul_left_cancel₀ (two_ne_zero (α := ℝ))
    have e : (fun k => flipped m n s c k + 1 * flipped m n s d k)
        = flipped m n s fun k => c k + 1 * d k := rfl
    rw [Coo.two_bilin_finalizeSym, Coo.two_bilin_finalizeSym]
    rw [e, h, h, h]
  intro k l
  rw [Coo.entry_bilin, Coo.entry_bilin, ← flipped_unit (m := m) (n := n) (s := s) k,
    ← flipped_unit (m := m) (n := n) (s := s) l, hb]

/-! ## What follows for the analyses -/

variable {t t' : Finset ℕ}

theorem back (hA : Renamed m n s A A') : Renamed n m s A' A := fun k l => by
  rw [hA, flipNo_flipNo, flipNo_flipNo]

theorem back_mem (ht : ∀ k, k ∈ t' ↔ flipNo n m s k ∈ t) (k : ℕ) : k ∈ t ↔ flipNo m n s k ∈ t' := by
  rw [ht, flipNo_flipNo]

theorem sum_over {M : Type*} [AddCommMonoid M] (ht : ∀ k, k ∈ t' ↔ flipNo n m s k ∈ t) (g : ℕ → M) :
    ∑ l ∈ t', g (flipNo n m s l) = ∑ l ∈ t, g l :=
  Finset.sum_nbij' (flipNo n m s) (flipNo m n s) (fun l hl => (ht l).1 hl)
    (fun l hl => (back_mem ht l).1 hl) (fun l _ => flipNo_flipNo l) (fun l _ => flipNo_flipNo l)
    fun _ _ => rfl

theorem mul_over {R : Type*} [Semiring R] (f : ℝ → R) (ht : ∀ k, k ∈ t' ↔ flipNo n m s k ∈ t)
    (hA : Renamed m n s A A') (z : ℕ → R) (k : ℕ) :
    ∑ l ∈ t', f (Coo.entry A' k l) * z (flipNo n m s l)
      = ∑ l ∈ t, f (Coo.entry A (flipNo n m s k) l) * z l := by
  rw [← sum_over ht]
  exact Finset.sum_congr rfl fun l _ => by rw [hA k l]

theorem eigen_to (ht : ∀ k, k ∈ t' ↔ flipNo n m s k ∈ t) (hA : Renamed m n s A A')
    (hB : Renamed m n s B B') {μ : ℂ} (h : Eigen t A B μ) : Eigen t' A' B' μ := by
  obtain ⟨z, ⟨k, hk, hz⟩, h⟩ := h
  refine ⟨fun l => z (flipNo n m s l), ⟨flipNo m n s k, (back_mem ht k).1 hk, ?_⟩, fun l hl => ?_⟩
  · beta_reduce
    rwa [flipNo_flipNo]
  · have e1 := mul_over (fun x : ℝ => (x : ℂ)) ht hA z l
    have e2 := mul_over (fun x : ℝ => (x : ℂ)) ht hB z l
    rw [e1, e2, h _ ((ht l).1 hl)]

/-- **C90, frequencies.** -/
theorem eigen_iff (ht : ∀ k, k ∈ t' ↔ flipNo n m s k ∈ t) (hA : Renamed m n s A A')
    (hB : Renamed m n s B B') (μ : ℂ) : Eigen t' A' B' μ ↔ Eigen t A B μ :=
  ⟨eigen_to (back_mem ht) (back hA) (back hB), eigen_to ht hA hB⟩

theorem critical_to (ht : ∀ k, k ∈ t' ↔ flipNo n m s k ∈ t) (hA : Renamed m n s A A')
    (hB : Renamed m n s B B') {p : ℂ} (h : Critical t A B p) : Critical t' A' B' p := by
  obtain ⟨z, ⟨k, hk, hz⟩, h⟩ := h
  refine ⟨fun l => z (flipNo n m s l), ⟨flipNo m n s k, (back_mem ht k).1 hk, ?_⟩, fun l hl => ?_⟩
  · beta_reduce
    rwa [flipNo_flipNo]
  · have e1 := mul_over (fun x : ℝ => (x : ℂ)) ht hA z l
    have e2 := mul_over (fun x : ℝ => (x : ℂ)) ht hB z l
    rw [e1, e2]
    exact h _ ((ht l).1 hl)

/-- **C90, buckling.** -/
theorem critical_iff (ht : ∀ k, k ∈ t' ↔ flipNo n m s k ∈ t) (hA : Renamed m n s A A')
    (hB : Renamed m n s B B') (p : ℂ) : Critical t' A' B' p ↔ Critical t A B p :=
  ⟨critical_to (back_mem ht) (back hA) (back hB), critical_to ht hA hB⟩

/-- **C90, static analysis.** -/
theorem balanced (ht : ∀ k, k ∈ t' ↔ flipNo n m s k ∈ t) (hA : Renamed m n s A A') {f f' c : ℕ → ℝ}
    (hf : ∀ k ∈ t', f' k = flipped m n s f k) (h : Balanced t A f c) :
    Balanced t' A' f' (flipped m n s c) := by
  refine ⟨fun k hk => h.off _ fun e => hk ((ht k).2 e), fun k hk => ?_⟩
  have e := mul_over id ht hA c k
  rw [hf k hk]
  exact e.trans (h.eq _ ((ht k).1 hk))

/-- Renumbering is linear. -/
noncomputable def flipMap (m n s : ℕ) : (ℕ → ℝ) →ₗ[ℝ] (ℕ → ℝ) where
  toFun := flipped m n s
  map_add' _ _ := rfl
  map_smul' _ _ := rfl

theorem quad_flip (ht : ∀ k, k ∈ t' ↔ flipNo n m s k ∈ t) (hA : Renamed m n s A A') {v : ℕ → ℝ}
    (hv : ∀ k ∉ t, v k = 0) : Coo.quad A' (flipped m n s v) = Coo.quad A v := by
  have hv' : ∀ k ∉ t', flipped m n s v k = 0 := fun k hk => hv _ fun e => hk ((ht k).2 e)
  rw [form_quad A hv, form_quad A' hv']
  unfold form
  rw [← sum_over ht]
  exact Finset.sum_congr rfl fun k _ => congrArg _ (mul_over id ht hA v k)

theorem values_le (ht : ∀ k, k ∈ t' ↔ flipNo n m s k ∈ t) (hA : Renamed m n s A A')
    (hB : Renamed m n s B B') (hs : Sym B) (hs' : Sym B') (hp : Pos t B) {φ lam φ' lam'}
    (h : Modes t A B φ lam) (h' : Modes t' A' B' φ' lam') {a : ℕ} (ha : a < t.card) (ha' : a < t'.card) :
    lam' ⟨a, ha'⟩ ≤ lam ⟨a, ha⟩ :=
  C88.compare h h' hs hs' (flipMap m n s) ha ha'
    (fun v hv k hk => hv _ fun e => hk ((ht k).2 e))
    (fun v hv => (quad_flip ht hA hv).le)
    (fun v hv => (congrArg _ (quad_flip ht hB hv).symm).le)
    fun v hne hv => (hp v hne hv).trans_eq (quad_flip ht hB hv).symm

/-- **C90, the list of frequencies.**  Also with their multiplicities. -/
theorem values (ht : ∀ k, k ∈ t' ↔ flipNo n m s k ∈ t) (hA : Renamed m n s A A')
    (hB : Renamed m n s B B') (hs : Sym B) (hs' : Sym B') (hp : Pos t B) {φ lam φ' lam'}
    (h : Modes t A B φ lam) (h' : Modes t' A' B' φ' lam') :
    t'.card = t.card ∧ ∀ a, ∀ (ha : a < t.card) (ha' : a < t'.card), lam' ⟨a, ha'⟩ = lam ⟨a, ha⟩ := by
  have hb := back_mem ht
  have hp' : Pos t' B' := fun v ⟨k, hk, hne⟩ hv => by
    rw [← quad_flip hb (back hB) hv]
    refine hp _ ⟨flipNo n m s k, (ht k).1 hk, ?_⟩ fun k hk => hv _ fun e => hk ((hb k).2 e)
    rwa [flipped, flipNo_flipNo]
  refine ⟨?_, fun a ha ha' => le_antisymm (values_le ht hA hB hs hs' hp h h' ha ha')
    (values_le hb (back hA) (back hB) hs' hs hp' h' h ha' ha)⟩
  exact Finset.card_nbij' (flipNo n m s) (flipNo m n s) (fun l hl => (ht l).1 hl)
    (fun l hl => (hb l).1 hl) (fun l _ => flipNo_flipNo l) fun l _ => flipNo_flipNo l

end

/-! ## Plates -/

section
variable {E : Env ℝ} {P P' : Panel ℝ} {F : ℕ → ℕ → ℝ}

/-- The same displacements. -/
theorem displacements {S : Shape ℝ} (h : Exchanged P P') (s : ℕ) (c : ℕ → ℝ) {α : ℕ} (hα : α < 3)
    (x y : ℝ) : u S P' s (flipped P.m P.n s c) α y x = u S P s c (other α) x y := by
  rw [u_disp, u_disp, disp_at h s c hα]

/-- **C90, stiffness.**  Closed form. -/
theorem stiffness (hI : E.I.Exact E.S Mean.integral) (hS : E.S.C2) (h : Exchanged P P') (ha : P.a ≠ 0)
    (hb : P.b ≠ 0) (hF : ABDSym F) (s : ℕ) :
    Renamed P.m P.n s (C87.closed E .plate P F s) (C87.closed E .plate P' (flipLam F) s) := by
  refine renamed_of_quad fun c => ?_
  have h1 := C87.closed_quad hI hS .plate ha hb (fun e => by cases e) hF s c
  have h2 := C87.closed_quad (P := P') hI hS .plate (h.a ▸ hb) (h.b ▸ ha) (fun e => by cases e)
    (flipLam_sym hF) s (flipped P.m P.n s c)
  have h3 : C87.strainEnergy (C87.curv .plate P') E.S P' (flipLam F) s (flipped P.m P.n s c)
      = C87.strainEnergy (C87.curv .plate P) E.S P F s c := by
    unfold C87.strainEnergy
    have e1 := fun j x y => linStrain_lin hS 0 P s c j x y
    have e2 := fun j x y => linStrain_lin hS 0 P' s (flipped P.m P.n s c) j x y
    unfold linStrain at e1 e2
    simp only [C87.curv, e1, e2]
    have e3 := integral_flip (g := fun x y => Spec.dens 6 F fun j => lin 0 E.S P s c j x y)
      (dens_continuous hS F 0 P s c) P.a P.b
    rw [e3, h.a, h.b]
    refine congrArg _ (intervalIntegral.integral_congr fun y _ => intervalIntegral.integral_congr fun x _ => ?_)
    exact dens_flip F fun j hj => lin_flip h s c hj x y
  have h4 : 1 / 2 * Coo.quad (C87.closed E .plate P' (flipLam F) s) (flipped P.m P.n s c)
      = 1 / 2 * Coo.quad (C87.closed E .plate P F s) c := h2.trans (h3.trans h1.symm)
  have h5 := mul_left_cancel₀ (by norm_num : (1 / 2 : ℝ) ≠ 0) h4
  exact h5

/-- **C90, mass.**  Closed form. -/
theorem mass (hI : E.I.Exact E.S Mean.integral) (hS : E.S.C2) (h : Exchanged P P') (ha : P.a ≠ 0)
    (hb : P.b ≠ 0) (off t rho : ℝ) (s : ℕ) :
    Renamed P.m P.n s (C88.mass E .plate P off t rho s) (C88.mass E .plate P' off t rho s) := by
  refine renamed_of_quad fun c => ?_
  have h1 := C88.mass_quad hI hS .plate ha hb off t rho s c
  have h2 := C88.mass_quad (P := P') hI hS .plate (h.a ▸ hb) (h.b ▸ ha) off t rho s (flipped P.m P.n s c)
  refine h2.trans (Eq.trans ?_ h1.symm)
  have hc : Continuous fun z : ℝ × ℝ =>
      C20.kinetic rho t off (u E.S P s c 0) (u E.S P s c 1) (u E.S P s c 2) z.1 z.2 := by
    have hd := disp_continuous hS P s c
    simp only [C20.kinetic, u_dx hS, u_dy hS, u_disp]
    have d0 := hd 0 0 0
    have d1 := hd 1 0 0
    have d2 := hd 2 0 0
    have d3 := hd 2 1 0
    have d4 := hd 2 0 1
    fun_prop
  rw [integral_flip hc, h.a, h.b]
  refine intervalIntegral.integral_congr fun y _ => intervalIntegral.integral_congr fun x _ => ?_
  have hd := fun {α p q} (hα : α < 3) => disp_at (S := E.S) h s c (α := α) hα p q x y
  simp only [C20.kinetic, u_dx hS, u_dy hS, u_disp, hd (α := 0) (by omega), hd (α := 1) (by omega),
    hd (α := 2) (by omega), other]
  ring

/-- **C90, geometric stiffness.**  Closed form. -/
theorem geometric (hI : E.I.Exact E.S Mean.integral) (hS : E.S.C2) (h : Exchanged P P') (ha : P.a ≠ 0)
    (hb : P.b ≠ 0) (Nxx Nyy Nxy : ℝ) (s : ℕ) :
    Renamed P.m P.n s (C88.geometric E .plate P Nxx Nyy Nxy s)
      (C88.geometric E .plate P' Nyy Nxx Nxy s) := by
  refine renamed_of_quad fun c => ?_
  have h1 := C88.geometric_quad hI hS .plate ha hb Nxx Nyy Nxy s c
  have h2 := C88.geometric_quad (P := P') hI hS .plate (h.a ▸ hb) (h.b ▸ ha) Nyy Nxx Nxy s
    (flipped P.m P.n s c)
  refine h2.trans (Eq.trans ?_ h1.symm)
  have hc : Continuous fun z : ℝ × ℝ => Nxx * dx (u E.S P s c 2) z.1 z.2 ^ 2
      + 2 * Nxy * (dx (u E.S P s c 2) z.1 z.2 * dy (u E.S P s c 2) z.1 z.2)
      + Nyy * dy (u E.S P s c 2) z.1 z.2 ^ 2 := by
    simp only [u_dx hS, u_dy hS]
    have d3 := disp_continuous hS P s c 2 1 0
    have d4 := disp_continuous hS P s c 2 0 1
    fun_prop
  have e3 := integral_flip (g := fun x y => Nxx * dx (u E.S P s c 2) x y ^ 2
      + 2 * Nxy * (dx (u E.S P s c 2) x y * dy (u E.S P s c 2) x y)
      + Nyy * dy (u E.S P s c 2) x y ^ 2) hc P.a P.b
  rw [e3, h.a, h.b]
  refine intervalIntegral.integral_congr fun y _ => intervalIntegral.integral_congr fun x _ => ?_
  have hd := fun {p q} => disp_at (S := E.S) h s c (α := 2) (by omega) p q x y
  simp only [u_dx hS, u_dy hS, hd, other]
  ring

/-! ### By quadrature, about any state -/

variable {nx ny : ℕ} {Fs : ℕ → ℕ → ℕ → ℕ → ℝ}

/-- The laminate at the points of the exchanged plate. -/
def flipField (Fs : ℕ → ℕ → ℕ → ℕ → ℝ) (p q : ℕ) : ℕ → ℕ → ℝ := flipLam (Fs q p)

/-- **C90, stiffness by quadrature**, linear or about a deflected state; the laminate may vary from point
to point. -/
theorem stiffness_num (h : Exchanged P P') (ha : P.a ≠ 0) (hb : P.b ≠ 0) (hF : ∀ p q, ABDSym (Fs p q))
    (c : ℕ → ℝ) (s NL : ℕ) :
    Renamed P.m P.n s (Coo.finalizeSym (fkCnumF E .plate P Fs c s s nx ny NL))
      (Coo.finalizeSym (fkCnumF E .plate P' (flipField Fs) (flipped P.m P.n s c) s s ny nx NL)) := by
  refine renamed_of_quad fun d => ?_
  have h1 := plateFkCnum_quad E.S E.G P ha hb Fs hF c d s nx ny NL
  have h2 := plateFkCnum_quad E.S E.G P' (h.a ▸ hb) (h.b ▸ ha) (flipField Fs)
    (fun p q => flipLam_sym (hF q p)) (flipped P.m P.n s c) (flipped P.m P.n s d) s ny nx NL
  refine h2.trans (Eq.trans (gaussP_flip h fun p q x y => ?_) h1.symm)
  refine dens_flip (Fs p q) fun j hj => ?_
  split
  · exact vkVar_flip h s c d hj x y
  · exact lin_flip h s d hj x y

/-- **C90, geometric stiffness by quadrature**, of any state. -/
theorem geometric_num (h : Exchanged P P') (ha : P.a ≠ 0) (hb : P.b ≠ 0) (hF : ∀ p q, ABDSym (Fs p q))
    (c : ℕ → ℝ) (s NL : ℕ) (Nxx Nyy Nxy : ℝ) :
    Renamed P.m P.n s (Coo.finalizeSym (fkGnumF E .plate P Fs c s s nx ny NL Nxx Nyy Nxy))
      (Coo.finalizeSym (fkGnumF E .plate P' (flipField Fs) (flipped P.m P.n s c) s s ny nx NL
        Nyy Nxx Nxy)) := by
  refine renamed_of_quad fun d => ?_
  have h1 := plateFkGnum_quad E.S E.G P ha hb Fs hF c d s nx ny NL Nxx Nyy Nxy
  have h2 := plateFkGnum_quad E.S E.G P' (h.a ▸ hb) (h.b ▸ ha) (flipField Fs)
    (fun p q => flipLam_sym (hF q p)) (flipped P.m P.n s c) (flipped P.m P.n s d) s ny nx NL Nyy Nxx Nxy
  refine h2.trans (Eq.trans (gaussP_flip h fun p q x y => ?_) h1.symm)
  have he : ∀ j < 6, (if NL = 1 then vkWith 2 0 E.S P' s (flipped P.m P.n s c) j y x
      else lin 0 E.S P' s (flipped P.m P.n s c) j y x)
      = (fun j => if NL = 1 then vkWith 2 0 E.S P s c j x y else lin 0 E.S P s c j x y) (pair j) :=
    fun j hj => by
      beta_reduce
      split
      · exact vkWith_flip h 2 s c hj x y
      · exact lin_flip h s c hj x y
  have hd := fun {p q} => disp_at (S := E.S) h s d (α := 2) (by omega) p q x y
  have e := resultant_flip (Fs p q)
    (e := fun j => if NL = 1 then vkWith 2 0 E.S P s c j x y else lin 0 E.S P s c j x y)
    (e' := fun j => if NL = 1 then vkWith 2 0 E.S P' s (flipped P.m P.n s c) j y x
      else lin 0 E.S P' s (flipped P.m P.n s c) j y x) he
  simp only [flipField, e, pair, stressDens, hd, other]
  ring

/-- **C90, mass by quadrature**; thickness and density may vary from point to point. -/
theorem mass_num (h : Exchanged P P') (ha : P.a ≠ 0) (hb : P.b ≠ 0) (off : ℝ) (t rho : ℕ → ℕ → ℝ) (s : ℕ) :
    Renamed P.m P.n s (Coo.finalizeSym (fkMnumF E.S E.G P off t rho s s nx ny))
      (Coo.finalizeSym (fkMnumF E.S E.G P' off (fun p q => t q p) (fun p q => rho q p) s s ny nx)) := by
  refine renamed_of_quad fun d => ?_
  have h1 := fkMnum_quad E.S E.G P ha hb off t rho d s nx ny
  have h2 := fkMnum_quad E.S E.G P' (h.a ▸ hb) (h.b ▸ ha) off (fun p q => t q p) (fun p q => rho q p)
    (flipped P.m P.n s d) s ny nx
  refine h2.trans (Eq.trans (gaussP_flip h fun p q x y => ?_) h1.symm)
  have hd := fun {α p q} (hα : α < 3) => disp_at (S := E.S) h s d (α := α) hα p q x y
  simp only [hd (α := 0) (by omega), hd (α := 1) (by omega), hd (α := 2) (by omega), other]
  ring

/-- **C90, internal forces.**  In the same state they do the same work. -/
theorem internal (h : Exchanged P P') (ha : P.a ≠ 0) (hb : P.b ≠ 0) (hF : ∀ p q, ABDSym (Fs p q))
    (c d : ℕ → ℝ) (s : ℕ) :
    vdot (plateFintF E.S E.G P' (flipField Fs) (flipped P.m P.n s c) s ny nx) (flipped P.m P.n s d)
      = vdot (plateFintF E.S E.G P Fs c s nx ny) d := by
  rw [plateFint_work E.S E.G P ha hb Fs hF, plateFint_work E.S E.G P' (h.a ▸ hb) (h.b ▸ ha) (flipField Fs)
    fun p q => flipLam_sym (hF q p)]
  refine gaussP_flip h fun p q x y => ?_
  rw [← sum_pair fun j => resultant (Fs p q) (fun i => vkWith 2 0 E.S P s c i x y) j * vkVar 0 E.S P s c d j x y]
  refine Finset.sum_congr rfl fun j hj => ?_
  have e := resultant_flip (Fs p q) (e := fun i => vkWith 2 0 E.S P s c i x y)
    (fun i hi => vkWith_flip (S := E.S) h 2 s c hi x y) j
  have e2 := vkVar_flip (S := E.S) h s c d (mem_range.1 hj) x y
  rw [e2]
  exact congrArg (· * _) e

end

/-! ### Loads -/

section
variable {S : Shape ℝ} {G : GaussTab ℝ} {P P' : Panel ℝ}

theorem field_flip (h : Exchanged P P') (s : ℕ) (c : ℕ → ℝ) {α : ℕ} (hα : α < 3) (x y : ℝ) :
    Spec.field S P' s (flipped P.m P.n s c) α y x = Spec.field S P s c (other α) x y := by
  unfold Spec.field
  rw [h.a, h.b, disp_flip h s c hα]

theorem point_flip {U U' : ℕ → ℝ → ℝ → ℝ} (hU : ∀ α < 3, ∀ x y, U' α y x = U (other α) x y) (l : PLoad ℝ) :
    pointWork U' (flipPoint l) = pointWork U l := by
  simp only [pointWork, flipPoint, hU 0 (by omega), hU 1 (by omega), hU 2 (by omega), other]
  ring

theorem distr_flip (h : Exchanged P P') {U U' : ℕ → ℝ → ℝ → ℝ}
    (hU : ∀ α < 3, ∀ x y, U' α y x = U (other α) x y) (l : DLoad ℝ) :
    distrWork G P' U' (flipLine l) = distrWork G P U l := by
  obtain ⟨x, y, fx, fy, fz⟩ := l
  have e : ∀ a b c : ℝ, a + b + c = b + a + c := fun a b c => by ring
  cases x <;> cases y <;> simp only [distrWork, flipLine]
  · simp only [h.n, h.b, hU 0 (by omega), hU 1 (by omega), hU 2 (by omega), other]
    exact congrArg _ (funext fun t => e _ _ _)
  · simp only [h.m, h.a, hU 0 (by omega), hU 1 (by omega), hU 2 (by omega), other]
    exact congrArg _ (funext fun t => e _ _ _)

/-- **C90, loads.**  The same loads do the same work. -/
theorem load_work {E : Env ℝ} (h : Exchanged P P') (L : Loads ℝ) (inc : ℝ) (s : ℕ) (c : ℕ → ℝ) :
    C67.loadWork E P' (flipLoads L) inc s (flipped P.m P.n s c) = C67.loadWork E P L inc s c := by
  have hp := point_flip fun α hα x y => field_flip (S := E.S) h s c hα x y
  have hd := distr_flip (G := E.G) h fun α hα x y => field_flip (S := E.S) h s c hα x y
  unfold C67.loadWork constWork incWork flipLoads
  simp only [C89.sum_turn _ _ _ hp, C89.sum_turn _ _ _ hd]

theorem flipLoads_wf {L : Loads ℝ} (hL : WellFormed L) : WellFormed (flipLoads L) := by
  intro l hl
  simp only [flipLoads, ← List.map_append] at hl
  obtain ⟨l', hl', rfl⟩ := List.mem_map.1 hl
  exact (hL l' hl').symm

/-- **C90, vector of forces.** -/
theorem forces {E : Env ℝ} (h : Exchanged P P') {L : Loads ℝ} (hL : WellFormed L) (inc : ℝ) (size : SizeArg)
    (s : ℕ) (hs : s + 3 * P.m * P.n ≤ size.value (3 * P.m * P.n)) :
    ∃ f f', shellFext E.S E.G P L inc size s = .ok f ∧
      shellFext E.S E.G P' (flipLoads L) inc size s = .ok f' ∧
      ∀ k < size.value (3 * P.m * P.n), f' k = flipped P.m P.n s f k := by
  obtain ⟨f, hf, hw⟩ := C33.work E.S E.G P L hL inc size s hs
  have e0 : 3 * P'.m * P'.n = 3 * P.m * P.n := by rw [h.m, h.n]; ring
  obtain ⟨f', hf', hw'⟩ := C33.work E.S E.G P' _ (flipLoads_wf hL) inc size s (by rw [e0]; exact hs)
  refine ⟨f, f', hf, hf', fun k hk => ?_⟩
  rw [e0] at hw'
  have hlt : ∀ l, l < size.value (3 * P.m * P.n) → flipNo P.n P.m s l < size.value (3 * P.m * P.n) := by
    intro l hl
    by_cases hb : s ≤ l ∧ l < s + 3 * (P.n * P.m)
    · obtain ⟨i, hi, j, hj, α, hα, rfl⟩ := exists_number (Finset.mem_Ico.2 hb)
      have := number_lt (s := s) hj hi (other_lt hα)
      unfold Spec.number at this ⊢
      rw [flipNo_number hi hj hα]
      have e : 3 * (P.m * P.n) = 3 * P.m * P.n := (mul_assoc _ _ _).symm
      omega
    · rw [flipNo, if_neg hb]
      exact hl
  have e : ∀ c, ∑ l ∈ range (size.value (3 * P.m * P.n)), f' l * flipped P.m P.n s c l
      = ∑ l ∈ range (size.value (3 * P.m * P.n)), f l * c l := fun c => by
    rw [hw c, hw' (flipped P.m P.n s c)]
    exact load_work h L inc s c
  have := e (unit (flipNo P.n P.m s k))
  rw [flipped_unit] at this
  have e1 : ∀ (g : ℕ → ℝ) k, k < size.value (3 * P.m * P.n) →
      ∑ l ∈ range (size.value (3 * P.m * P.n)), g l * unit k l = g k := fun g k hk => by
    rw [Finset.sum_eq_single k (fun l _ hl => by rw [unit, if_neg hl, mul_zero])
      (fun h => absurd (mem_range.2 hk) h), unit, if_pos rfl, mul_one]
  rwa [e1 _ _ hk, e1 _ _ (hlt k hk)] at this

end

/-! ### Analyses of a plate -/

section
variable {E : Env ℝ} {P P' : Panel ℝ} {F : ℕ → ℕ → ℝ}

/-- The unknowns of the exchanged plate. -/
theorem mem_actives (h : Exchanged P P') (s l : ℕ) :
    l ∈ C76.actives P' s ↔ flipNo P.n P.m s l ∈ C76.actives P s := by
  rw [C76.mem_actives, C76.mem_actives]
  constructor
  · rintro ⟨α, hα, i, hi, j, hj, h1, h2, rfl⟩
    rw [h.m] at hi
    rw [h.n] at hj
    rw [h.xf] at h1
    rw [h.yf] at h2
    rw [h.m, flipNo_number hi hj hα]
    exact ⟨other α, other_lt hα, j, hj, i, hi, h2, h1, rfl⟩
  · rintro ⟨α, hα, i, hi, j, hj, h1, h2, e⟩
    have e' : l = s + 3 * (i * P.n + j) + other α := by
      rw [← flipNo_flipNo (m := P.n) (n := P.m) (s := s) l, e, flipNo_number hi hj hα]
    refine ⟨other α, other_lt hα, j, h.m ▸ hj, i, h.n ▸ hi, ?_, ?_, by rw [e', h.m]⟩
    · rw [h.xf, other_other]
      exact h2
    · rw [h.yf, other_other]
      exact h1

/-- **C90, frequencies of a plate.** -/
theorem plate_frequencies (hI : E.I.Exact E.S Mean.integral) (hS : E.S.C2) (h : Exchanged P P')
    (ha : P.a ≠ 0) (hb : P.b ≠ 0) (hF : ABDSym F) (off t rho : ℝ) (s : ℕ) (μ : ℂ) :
    Eigen (C76.actives P' s) (C87.closed E .plate P' (flipLam F) s) (C88.mass E .plate P' off t rho s) μ ↔
      Eigen (C76.actives P s) (C87.closed E .plate P F s) (C88.mass E .plate P off t rho s) μ :=
  eigen_iff (mem_actives h s) (stiffness hI hS h ha hb hF s) (mass hI hS h ha hb off t rho s) μ

/-- **C90, critical loads of a plate.** -/
theorem plate_buckling (hI : E.I.Exact E.S Mean.integral) (hS : E.S.C2) (h : Exchanged P P')
    (ha : P.a ≠ 0) (hb : P.b ≠ 0) (hF : ABDSym F) (Nxx Nyy Nxy : ℝ) (s : ℕ) (p : ℂ) :
    Critical (C76.actives P' s) (C87.closed E .plate P' (flipLam F) s)
        (C88.geometric E .plate P' Nyy Nxx Nxy s) p ↔
      Critical (C76.actives P s) (C87.closed E .plate P F s) (C88.geometric E .plate P Nxx Nyy Nxy s) p :=
  critical_iff (mem_actives h s) (stiffness hI hS h ha hb hF s) (geometric hI hS h ha hb Nxx Nyy Nxy s) p

/-- **C90, static analysis of a plate.**  The same displacements at every point. -/
theorem plate_static (hI : E.I.Exact E.S Mean.integral) (hS : E.S.C2) (h : Exchanged P P')
    (ha : P.a ≠ 0) (hb : P.b ≠ 0) (hF : ABDSym F) {L : Loads ℝ} (hL : WellFormed L) (inc : ℝ)
    (size : SizeArg) (s : ℕ) (hs : s + 3 * P.m * P.n ≤ size.value (3 * P.m * P.n)) :
    ∃ f f', shellFext E.S E.G P L inc size s = .ok f ∧
      shellFext E.S E.G P' (flipLoads L) inc size s = .ok f' ∧
      ∀ c, Balanced (C76.actives P s) (C87.closed E .plate P F s) f c →
        ∃ c', Balanced (C76.actives P' s) (C87.closed E .plate P' (flipLam F) s) f' c' ∧
          ∀ α < 3, ∀ x y, u E.S P' s c' α y x = u E.S P s c (other α) x y := by
  obtain ⟨f, f', hf, hf', e⟩ := forces (E := E) h hL inc size s hs
  refine ⟨f, f', hf, hf', fun c hc => ⟨flipped P.m P.n s c, balanced (mem_actives h s)
    (stiffness hI hS h ha hb hF s) (fun l hl => e l ?_) hc, fun α hα x y => displacements h s c hα x y⟩⟩
  obtain ⟨α, hα, i, hi, j, hj, -, -, rfl⟩ := (C76.mem_actives P' s l).1 hl
  have := number_lt (s := s) hi hj hα
  unfold Spec.number at this
  have e0 : 3 * (P'.m * P'.n) = 3 * P.m * P.n := by rw [h.m, h.n]; ring
  omega

end

/-! ### Examples -/

/-- The part of a panel of C89, described with the axes exchanged. -/
noncomputable def across : Panel ℝ where
  a := 1
  b := 3
  r := 2
  m := 7
  n := 5
  x1 := -1
  x2 := -1
  y1 := 1 / 2
  y2 := 2
  xu := ⟨0, 1, 1, 1⟩
  xv := ⟨1, 1, 1, 1⟩
  xw := ⟨0, 1, 0, 1⟩
  yu := ⟨0, 1, 0, 1⟩
  yv := ⟨0, 1, 1, 1⟩
  yw := ⟨0, 0, 0, 1⟩

theorem part_across : Exchanged C89.part across where
  m := rfl
  n := rfl
  a := rfl
  b := rfl
  xf α := by
    match α with
    | 0 => rfl
    | 1 => rfl
    | α + 2 => rfl
  yf α := by
    match α with
    | 0 => rfl
    | 1 => rfl
    | α + 2 => rfl
  xdom := by simp [xdom, ydom, across, C89.part, Witness.panel]
  ydom := by norm_num [xdom, ydom, across, C89.part, Witness.panel]

example (μ : ℂ) :
    Eigen (C76.actives across 12) (C87.closed C40.env .plate across (flipLam C13.lam) 12)
        (C88.mass C40.env .plate across (1 / 5) 2 3 12) μ ↔
      Eigen (C76.actives C89.part 12) (C87.closed C40.env .plate C89.part C13.lam 12)
        (C88.mass C40.env .plate C89.part (1 / 5) 2 3 12) μ :=
  plate_frequencies (Tab.of_exact _ _) bardellShape_C2 part_across (by norm_num [C89.part, Witness.panel])
    (by norm_num [C89.part, Witness.panel]) C13.lam_sym _ _ _ _ _

example (p : ℂ) :
    Critical (C76.actives across 12) (C87.closed C40.env .plate across (flipLam C13.lam) 12)
        (C88.geometric C40.env .plate across 2 (-1) 3 12) p ↔
      Critical (C76.actives C89.part 12) (C87.closed C40.env .plate C89.part C13.lam 12)
        (C88.geometric C40.env .plate C89.part (-1) 2 3 12) p :=
  plate_buckling (Tab.of_exact _ _) bardellShape_C2 part_across (by norm_num [C89.part, Witness.panel])
    (by norm_num [C89.part, Witness.panel]) C13.lam_sym _ _ _ _ _

example : ∃ f f',
    shellFext C89.env.S C89.env.G C89.part C89.loads (1 / 2) (.num 300) 12 = .ok f ∧
    shellFext C89.env.S C89.env.G across (flipLoads C89.loads) (1 / 2) (.num 300) 12 = .ok f' ∧
    ∀ c, Balanced (C76.actives C89.part 12) (C87.closed C89.env .plate C89.part C13.lam 12) f c →
      ∃ c', Balanced (C76.actives across 12) (C87.closed C89.env .plate across (flipLam C13.lam) 12) f' c' ∧
        ∀ α < 3, ∀ x y, u C89.env.S across 12 c' α y x = u C89.env.S C89.part 12 c (other α) x y :=
  plate_static (Tab.of_exact _ _) bardellShape_C2 part_across (by norm_num [C89.part, Witness.panel])
    (by norm_num [C89.part, Witness.panel]) C13.lam_sym C89.loads_wf (1 / 2) (.num 300) 12
    (by norm_num [C89.part, Witness.panel, SizeArg.value])

/-- A laminate of varying stiffness, a deflected state and different numbers of points. -/
example (c : ℕ → ℝ) :
    Renamed 5 7 12
      (Coo.finalizeSym (fkCnumF C89.env .plate C89.part (fun p q i j => (p + 2 * q + 1) * C13.lam i j) c
        12 12 6 9 1))
      (Coo.finalizeSym (fkCnumF C89.env .plate across
        (flipField fun p q i j => (p + 2 * q + 1) * C13.lam i j) (flipped 5 7 12 c) 12 12 9 6 1)) :=
  stiffness_num part_across (by norm_num [C89.part, Witness.panel]) (by norm_num [C89.part, Witness.panel])
    (fun p q =>
      ⟨fun i j => by rw [C13.lam_sym.symm i j], by simp only [C13.lam_sym.b12],
        by simp only [C13.lam_sym.b16], by simp only [C13.lam_sym.b26]⟩) c 12 1

end Verif.C90
