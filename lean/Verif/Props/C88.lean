import Mathlib.LinearAlgebra.FiniteDimensional.Lemmas
import Verif.Props.C87
import Verif.Props.C80Ready

/-!
# C88: no frequency and no buckling load falls when a structure is stiffened

All values of the ordered modes, not only the lowest: they are determined by the two matrices, and fall
(or stay) when terms are added, when edges are released, when the laminate gets softer, when mass is
added.  `Modes` and `Critical` are in `Spec/Modes.lean`.
-/

set_option linter.unusedSectionVars false

namespace Verif.C88

open Finset Spec Model Indep C80

/-! ## Two pairs of matrices -/

section
variable {t : Finset ℕ} {K M : Coo ℝ} {φ : Fin t.card → ℕ → ℝ} {lam : Fin t.card → ℝ}

theorem quad_sum (h : Modes t K M φ lam) (hM : Sym M) (q : Fin t.card → ℝ) :
    Coo.quad M (fun k => ∑ a, q a * φ a k) = ∑ a, q a ^ 2 ∧
      Coo.quad K (fun k => ∑ a, q a * φ a k) = ∑ a, lam a * q a ^ 2 := by
  have hv : ∀ k ∉ t, ∑ a, q a * φ a k = 0 := fun k hk =>
    Finset.sum_eq_zero fun a _ => by rw [h.off a k hk, mul_zero]
  have e : ∀ a, form t M (fun k => ∑ a, q a * φ a k) (φ a) = q a := fun a => by
    rw [form_comm hM, form_sum]
    have e : ∀ b, form t M (φ a) (φ b) = if a = b then 1 else 0 := h.orth a
    simp [e]
  constructor
  · rw [form_quad M hv, form_sum]
    exact Finset.sum_congr rfl fun a _ => by rw [e]; ring
  · rw [form_quad K hv, form_sum]
    exact Finset.sum_congr rfl fun a _ => by rw [form_eq h, e]; ring

variable {t' : Finset ℕ} {K' M' : Coo ℝ} {φ' : Fin t'.card → ℕ → ℝ} {lam' : Fin t'.card → ℝ}

/-- Every set of amplitudes of the first structure is, through `J`, one of the second, with no more
energy; then no value of the second lies above that of the first. -/
theorem compare (h : Modes t K M φ lam) (h' : Modes t' K' M' φ' lam') (hM : Sym M) (hM' : Sym M')
    (J : (ℕ → ℝ) →ₗ[ℝ] (ℕ → ℝ)) {a : ℕ} (ha : a < t.card) (ha' : a < t'.card)
    (hJ : ∀ v : ℕ → ℝ, (∀ k ∉ t, v k = 0) → ∀ k ∉ t', J v k = 0)
    (hK : ∀ v : ℕ → ℝ, (∀ k ∉ t, v k = 0) → Coo.quad K' (J v) ≤ Coo.quad K v)
    (hle : ∀ v : ℕ → ℝ, (∀ k ∉ t, v k = 0) →
      lam ⟨a, ha⟩ * Coo.quad M v ≤ lam ⟨a, ha⟩ * Coo.quad M' (J v))
    (hp : ∀ v : ℕ → ℝ, (∃ k ∈ t, v k ≠ 0) → (∀ k ∉ t, v k = 0) → 0 < Coo.quad M' (J v)) :
    lam' ⟨a, ha'⟩ ≤ lam ⟨a, ha⟩ := by
  classical
  -- the first `a + 1` modes of the first structure, without the first `a` of the second
  let f : (Fin (a + 1) → ℝ) →ₗ[ℝ] (Fin a → ℝ) := Matrix.mulVecLin
    (Matrix.of fun (b : Fin a) (i : Fin (a + 1)) =>
      form t' M' (φ' ⟨b, b.2.trans ha'⟩) (J (φ ⟨i, lt_of_lt_of_le i.2 ha⟩)))
  have hker : LinearMap.ker f ≠ ⊥ := LinearMap.ker_ne_bot_of_finrank_lt (by simp)
  obtain ⟨q, hq, hq0⟩ := (Submodule.ne_bot_iff _).1 hker
  have hf : ∀ b : Fin a, ∑ i : Fin (a + 1), form t' M' (φ' ⟨b, b.2.trans ha'⟩)
      (J (φ ⟨i, lt_of_lt_of_le i.2 ha⟩)) * q i = 0 := fun b => congrFun (LinearMap.mem_ker.1 hq) b
  let q' : Fin t.card → ℝ := fun b => if hb : b.1 < a + 1 then q ⟨b, hb⟩ else 0
  have hsum : ∀ g : Fin t.card → ℝ, ∑ b, q' b * g b
      = ∑ i : Fin (a + 1), q i * g ⟨i, lt_of_lt_of_le i.2 ha⟩ := by
    intro g
    let e : Fin (a + 1) → Fin t.card := fun i => ⟨i, lt_of_lt_of_le i.2 ha⟩
    have he : Function.Injective e := fun i j hij => Fin.ext (by simpa [e] using hij)
    rw [← Finset.sum_subset (Finset.subset_univ (Finset.univ.image e)) fun b _ hb => ?_,
      Finset.sum_image fun i _ j _ hij => he hij]
    · refine Finset.sum_congr rfl fun i _ => ?_
      have : q' (e i) = q i := dif_pos i.2
      rw [this]
    · have : ¬ b.1 < a + 1 := fun hlt => hb (Finset.mem_image.2 ⟨⟨b, hlt⟩, Finset.mem_univ _, rfl⟩)
      rw [show q' b = 0 from dif_neg this, zero_mul]
  set v : ℕ → ℝ := fun k => ∑ b, q' b * φ b k with hv
  have hoff : ∀ k ∉ t, v k = 0 := fun k hk =>
    Finset.sum_eq_zero fun b _ => by rw [h.off b k hk, mul_zero]
  obtain ⟨v1, v2⟩ := quad_sum h hM q'
  rw [← hv] at v1 v2
  -- not zero
  have hne : ∃ k ∈ t, v k ≠ 0 := by
    by_contra hz
    push Not at hz
    have hv0 : v = fun _ => 0 := funext fun k => by
      by_cases hk : k ∈ t
      · exact hz k hk
      · exact hoff k hk
    rw [hv0, form_quad M (t := t) fun _ _ => rfl] at v1
    simp only [form, zero_mul, Finset.sum_const_zero] at v1
    have hall := (Finset.sum_eq_zero_iff_of_nonneg fun b _ => sq_nonneg (q' b)).1 v1.symm
    refine hq0 (funext fun i => ?_)
    have := hall ⟨i, lt_of_lt_of_le i.2 ha⟩ (Finset.mem_univ _)
    have e : q' ⟨i, lt_of_lt_of_le i.2 ha⟩ = q i := dif_pos i.2
    rw [e] at this
    exact pow_eq_zero_iff (two_ne_zero) |>.1 this
  -- below `lam a`
  have h1 : Coo.quad K v ≤ lam ⟨a, ha⟩ * Coo.quad M v := by
    rw [v1, v2, Finset.mul_sum]
    refine Finset.sum_le_sum fun b _ => ?_
    by_cases hb : b.1 < a + 1
    · exact mul_le_mul_of_nonneg_right (h.order (Fin.le_def.2 (Nat.lt_succ_iff.1 hb))) (sq_nonneg _)
    · rw [show q' b = 0 from dif_neg hb]
      simp
  -- the second structure
  have hw := hJ v hoff
  have h2 : lam' ⟨a, ha'⟩ * Coo.quad M' (J v) ≤ Coo.quad K' (J v) := by
    have ec := coords h' hM' (J v) hw
    obtain ⟨w1, w2⟩ := quad_sum h' hM' fun b => form t' M' (J v) (φ' b)
    rw [← ec] at w1 w2
    rw [w1, w2, Finset.mul_sum]
    refine Finset.sum_le_sum fun b _ => ?_
    by_cases hb : b.1 < a
    · have e0 : form t' M' (J v) (φ' b) = 0 := by
        have hJv : J v = fun k => ∑ c, q' c * J (φ c) k := by
          have : v = ∑ c, q' c • φ c := funext fun k => by simp [hv]
          rw [this, map_sum]
          funext k
          simp
        rw [form_comm hM', hJv]
        have : form t' M' (φ' b) (fun k => ∑ c, q' c * J (φ c) k)
            = ∑ c, q' c * form t' M' (φ' b) (J (φ c)) := by
          unfold form
          simp only [Finset.mul_sum]
          conv_lhs => enter [2, l]; rw [Finset.sum_comm]
          rw [Finset.sum_comm]
          refine Finset.sum_congr rfl fun c _ => Finset.sum_congr rfl fun k _ =>
            Finset.sum_congr rfl fun l _ => by ring
        rw [this, hsum fun c => form t' M' (φ' b) (J (φ c)), ← hf ⟨b, hb⟩]
        exact Finset.sum_congr rfl fun i _ => mul_comm _ _
      rw [e0]
      simp
    · exact mul_le_mul_of_nonneg_right (h'.order (Fin.le_def.2 (not_lt.1 hb))) (sq_nonneg _)
  have h3 := hK v hoff
  have h4 := hle v hoff
  exact le_of_mul_le_mul_right (by linarith) (hp v hne hoff)

/-- **C88, the values are determined.**  Whatever the modes, the ordered values are the same. -/
theorem values {φ₂ : Fin t.card → ℕ → ℝ} {lam₂ : Fin t.card → ℝ} (h : Modes t K M φ lam)
    (h₂ : Modes t K M φ₂ lam₂) (hM : Sym M) (hp : Pos t M) : lam = lam₂ := by
  funext a
  have key : ∀ {φ φ₂ : Fin t.card → ℕ → ℝ} {lam lam₂ : Fin t.card → ℝ}, Modes t K M φ lam →
      Modes t K M φ₂ lam₂ → lam₂ a ≤ lam a := fun h h₂ =>
    compare h h₂ hM hM LinearMap.id a.2 a.2 (fun _ hv => hv) (fun _ _ => le_rfl) (fun _ _ => le_rfl)
      fun v hv h0 => hp v hv h0
  exact le_antisymm (key h₂ h) (key h h₂)

/-- **C88, stiffening.**  The second structure has more freedom, no more stiffness and no less mass. -/
theorem softer (h : Modes t K M φ lam) (h' : Modes t' K' M' φ' lam') (hM : Sym M) (hM' : Sym M')
    (hsub : t ⊆ t') (hpM : Pos t M) (h0 : ∀ v : ℕ → ℝ, (∀ k ∉ t, v k = 0) → 0 ≤ Coo.quad K v)
    (hK : ∀ v : ℕ → ℝ, (∀ k ∉ t, v k = 0) → Coo.quad K' v ≤ Coo.quad K v)
    (hm : ∀ v : ℕ → ℝ, (∀ k ∉ t, v k = 0) → Coo.quad M v ≤ Coo.quad M' v) {a : ℕ} (ha : a < t.card) :
    lam' ⟨a, ha.trans_le (Finset.card_le_card hsub)⟩ ≤ lam ⟨a, ha⟩ := by
  have hl : 0 ≤ lam ⟨a, ha⟩ := by
    rw [← (quad_mode h ⟨a, ha⟩).2]
    exact h0 _ (h.off _)
  exact compare h h' hM hM' LinearMap.id ha _ (fun v hv k hk => hv k fun e => hk (hsub e)) hK
    (fun v hv => mul_le_mul_of_nonneg_left (hm v hv) hl)
    fun v hv h0 => (hpM v hv h0).trans_le (hm v h0)

/-- **C88, buckling.**  If the softer structure is stable up to the multiplier `p` of the loads, so is
the stiffer one. -/
theorem buckling {G G' : Coo ℝ} (hK : Sym K) (hK' : Sym K') (hG : Sym G) (hG' : Sym G') (hsub : t ⊆ t')
    (hp : Pos t' K') (hKK : ∀ v : ℕ → ℝ, (∀ k ∉ t, v k = 0) → Coo.quad K' v ≤ Coo.quad K v)
    (hGG : ∀ v : ℕ → ℝ, (∀ k ∉ t, v k = 0) → Coo.quad G' v ≤ Coo.quad G v) {p : ℝ} (h0 : 0 ≤ p)
    (h : ∀ r : ℝ, 0 < r → Critical t' K' G' r → p < r) :
    ∀ r : ℝ, 0 < r → Critical t K G r → p < r := by
  have up : ∀ v : ℕ → ℝ, (∀ k ∉ t, v k = 0) → ∀ k ∉ t', v k = 0 := fun v hv k hk =>
    hv k fun e => hk (hsub e)
  have hpt : Pos t K := fun v ⟨k, hk, hne⟩ hv =>
    (hp v ⟨k, hsub hk, hne⟩ (up v hv)).trans_le (hKK v hv)
  refine (stable_iff hG hK hpt h0).1 fun v ⟨k, hk, hne⟩ hv => ?_
  have h1 := (stable_iff hG' hK' hp h0).2 h v ⟨k, hsub hk, hne⟩ (up v hv)
  have h2 := hKK v hv
  have h3 := mul_le_mul_of_nonneg_left (hGG v hv) h0
  linarith

end

/-! ## More terms -/

/-- Amplitudes of the smaller model in the larger one. -/
noncomputable def extendMap (m n s m' s' : ℕ) : (ℕ → ℝ) →ₗ[ℝ] (ℕ → ℝ) where
  toFun := extend m n s m' s'
  map_add' v w := by
    funext k
    simp only [extend, Pi.add_apply]
    split <;> simp
  map_smul' r v := by
    funext k
    simp only [extend, Pi.smul_apply, RingHom.id_apply]
    split <;> simp

/-- **C88, more terms.**  No frequency rises when terms are added (with the geometric stiffness and the
stiffness in the places of stiffness and mass: no buckling load). -/
theorem more_terms {P : Panel ℝ} {m' n' : ℕ} (hm : P.m ≤ m') (hn : P.n ≤ n') {s s' : ℕ}
    {A B A' B' : Coo ℝ} (hA : Nested P.m P.n s m' s' A A') (hB : Nested P.m P.n s m' s' B B') (hs : Sym B)
    (hs' : Sym B') (hp : Pos (C76.actives P s) B) {φ lam φ' lam'}
    (h : Modes (C76.actives P s) A B φ lam)
    (h' : Modes (C76.actives (C79.more P m' n') s') A' B' φ' lam') {a : ℕ}
    (ha : a < (C76.actives P s).card) :
    ∃ ha' : a < (C76.actives (C79.more P m' n') s').card, lam' ⟨a, ha'⟩ ≤ lam ⟨a, ha⟩ := by
  have hsub : C76.actives P s ⊆ numbers P.m P.n s := by
    intro k hk
    obtain ⟨α, hα, i, hi, j, hj, -, -, rfl⟩ := (C76.mem_actives P s k).1 hk
    exact Finset.mem_Ico.2 ⟨by omega, number_lt (s := s) hi hj hα⟩
  have hmem : ∀ k ∈ C76.actives P s, C79.place P.m s m' s' k ∈ C76.actives (C79.more P m' n') s' := by
    intro k hk
    obtain ⟨α, hα, i, hi, j, hj, h1, h2, rfl⟩ := (C76.mem_actives P s k).1 hk
    refine (C76.mem_actives _ _ _).2 ⟨α, hα, i, hi.trans_le hm, j, hj.trans_le hn, h1, h2, ?_⟩
    exact C79.place_number hi hα
  have hv : ∀ v : ℕ → ℝ, (∀ k ∉ C76.actives P s, v k = 0) → ∀ k ∉ numbers P.m P.n s, v k = 0 :=
    fun v hv k hk => hv k fun e => hk (hsub e)
  have hcard : (C76.actives P s).card ≤ (C76.actives (C79.more P m' n') s').card :=
    Finset.card_le_card_of_injOn (C79.place P.m s m' s') hmem fun k hk l hl =>
      C79.place_inj hm (hsub hk) (hsub hl)
  refine ⟨ha.trans_le hcard, compare h h' hs hs' (extendMap P.m P.n s m' s') ha _ (fun v h0 k hk => ?_)
    (fun v h0 => (C79.energy hm hA (hv v h0)).le) (fun v h0 => ?_) fun v hne h0 => ?_⟩
  · refine C79.extend_zero hm hsub h0 k fun e => ?_
    obtain ⟨l, hl, rfl⟩ := Finset.mem_image.1 e
    exact hk (hmem l hl)
  · exact (congrArg _ (C79.energy hm hB (hv v h0)).symm).le
  · exact (hp v hne h0).trans_eq (C79.energy hm hB (hv v h0)).symm

/-! ## Supports, laminate and mass of a panel -/

/-- `P'` has every edge flag of `P` that is not zero; others may be released. -/
structure Released (P P' : Panel ℝ) : Prop where
  m : P'.m = P.m
  n : P'.n = P.n
  a : P'.a = P.a
  b : P'.b = P.b
  r : P'.r = P.r
  x : ∀ α < 3, ∀ i, flag (P.xf α) i ≠ 0 → flag (P'.xf α) i = flag (P.xf α) i
  y : ∀ α < 3, ∀ i, flag (P.yf α) i ≠ 0 → flag (P'.yf α) i = flag (P.yf α) i

section
variable {P P' : Panel ℝ}

theorem Released.sub (h : Released P P') (s : ℕ) : C76.actives P s ⊆ C76.actives P' s := by
  intro k hk
  obtain ⟨α, hα, i, hi, j, hj, h1, h2, rfl⟩ := (C76.mem_actives P s k).1 hk
  refine (C76.mem_actives _ _ _).2 ⟨α, hα, i, h.m ▸ hi, j, h.n ▸ hj, ?_, ?_, by rw [h.m]⟩
  · rw [h.x α hα i h1]
    exact h1
  · rw [h.y α hα j h2]
    exact h2

/-- The displacements of amplitudes that `P` allows are the same with the flags of `P'`. -/
theorem Released.u_eq (h : Released P P') {S : Shape ℝ} {N : ℕ} (hS : Hier S N) (hm : P.m ≤ N)
    (hn : P.n ≤ N) {s : ℕ} {c : ℕ → ℝ} (hc : ∀ k ∉ C76.actives P s, c k = 0) {α : ℕ} (hα : α < 3) :
    u S P' s c α = u S P s c α := by
  obtain ⟨q, hq⟩ := hS
  have hf : ∀ i < N, ∀ x fl, S.f i x fl = flag fl i * (q 0 i).eval x := (hq 0 (by norm_num)).2
  funext x y
  unfold u
  rw [h.m, h.n, h.a, h.b]
  refine Finset.sum_congr rfl fun i hi => Finset.sum_congr rfl fun j hj => ?_
  have hi := mem_range.1 hi
  have hj := mem_range.1 hj
  by_cases hk : s + 3 * (j * P.m + i) + α ∈ C76.actives P s
  · obtain ⟨α', hα', i', hi', j', hj', h1, h2, e⟩ := (C76.mem_actives P s _).1 hk
    obtain ⟨rfl, rfl, rfl⟩ := number_inj (s := s) hi hi' hα hα' e
    rw [hf i (hi.trans_le hm), hf j (hj.trans_le hn), hf i (hi.trans_le hm), hf j (hj.trans_le hn),
      h.x α hα i h1, h.y α hα j h2]
  · rw [hc _ hk, zero_mul, zero_mul]

end

/-- The closed-form mass of a panel. -/
noncomputable def mass (E : Env ℝ) (k : Kind) (P : Panel ℝ) (off h rho : ℝ) (s : ℕ) : Coo ℝ :=
  Coo.finalizeSym (match k with
    | .plate => plateFkM E.I P off h rho s s
    | .cyl => cylFkM E.I P off h rho s s)

/-- The closed-form geometric stiffness of a panel. -/
noncomputable def geometric (E : Env ℝ) (k : Kind) (P : Panel ℝ) (Nxx Nyy Nxy : ℝ) (s : ℕ) : Coo ℝ :=
  Coo.finalizeSym (match k with
    | .plate => plateFkG0 E.I P Nxx Nyy Nxy s s
    | .cyl => cylFkG0 E.I P Nxx Nyy Nxy s s)

section
variable {E : Env ℝ} {P P' : Panel ℝ} {F F' : ℕ → ℕ → ℝ} {N : ℕ} {k : Kind} {s : ℕ} {c : ℕ → ℝ}

theorem mass_quad (hI : E.I.Exact E.S Mean.integral) (hS : E.S.C2) (k : Kind) (ha : P.a ≠ 0)
    (hb : P.b ≠ 0) (off h rho : ℝ) (s : ℕ) (c : ℕ → ℝ) : Coo.quad (mass E k P off h rho s) c
      = ∫ x in (0 : ℝ)..P.a, ∫ y in (0 : ℝ)..P.b,
        C20.kinetic rho h off (u E.S P s c 0) (u E.S P s c 1) (u E.S P s c 2) x y := by
  have := C20.fkM_kinetic hI hS P ha hb off h rho s c
  cases k with
  | plate => exact this.1
  | cyl => exact this.2

theorem geometric_quad (hI : E.I.Exact E.S Mean.integral) (hS : E.S.C2) (k : Kind) (ha : P.a ≠ 0)
    (hb : P.b ≠ 0) (Nxx Nyy Nxy : ℝ) (s : ℕ) (c : ℕ → ℝ) :
    Coo.quad (geometric E k P Nxx Nyy Nxy s) c
      = ∫ x in (0 : ℝ)..P.a, ∫ y in (0 : ℝ)..P.b, (Nxx * dx (u E.S P s c 2) x y ^ 2
          + 2 * Nxy * (dx (u E.S P s c 2) x y * dy (u E.S P s c 2) x y)
          + Nyy * dy (u E.S P s c 2) x y ^ 2) := by
  have := C18.fkG0_initial_stress hI hS P ha hb Nxx Nyy Nxy s c
  cases k with
  | plate => exact this.1
  | cyl => exact this.2

theorem mass_rho (hI : E.I.Exact E.S Mean.integral) (hS : E.S.C2) (k : Kind) (ha : P.a ≠ 0)
    (hb : P.b ≠ 0) (off h rho : ℝ) (s : ℕ) (c : ℕ → ℝ) :
    Coo.quad (mass E k P off h rho s) c = rho * Coo.quad (mass E k P off h 1 s) c := by
  rw [mass_quad hI hS k ha hb, mass_quad hI hS k ha hb, ← intervalIntegral.integral_const_mul]
  refine intervalIntegral.integral_congr fun x _ => ?_
  rw [← intervalIntegral.integral_const_mul]
  refine intervalIntegral.integral_congr fun y _ => ?_
  unfold C20.kinetic
  ring

theorem mass_nonneg (hI : E.I.Exact E.S Mean.integral) (hS : E.S.C2) (k : Kind) (ha : 0 < P.a)
    (hb : 0 < P.b) (off : ℝ) {h : ℝ} (hh : 0 ≤ h) (s : ℕ) (c : ℕ → ℝ) :
    0 ≤ Coo.quad (mass E k P off h 1 s) c := by
  rw [mass_quad hI hS k ha.ne' hb.ne']
  refine intervalIntegral.integral_nonneg ha.le fun x _ => intervalIntegral.integral_nonneg hb.le
    fun y _ => ?_
  unfold C20.kinetic
  positivity

theorem dens_continuous (hS : E.S.C2) (κ : ℝ) (P : Panel ℝ) (F : ℕ → ℕ → ℝ) (s : ℕ) (c : ℕ → ℝ) :
    Continuous fun p : ℝ × ℝ => dens 6 F fun j =>
      donnell κ (u E.S P s c 0) (u E.S P s c 1) (u E.S P s c 2) j p.1 p.2 := by
  have e : ∀ j x y, donnell κ (u E.S P s c 0) (u E.S P s c 1) (u E.S P s c 2) j x y
      = lin κ E.S P s c j x y := fun j x y => linStrain_lin hS κ P s c j x y
  simp only [e]
  exact C76.dens_continuous F fun j _ => C76.lin_continuous hS κ P s c j

/-- A softer laminate and released edges: no more strain energy. -/
theorem closed_le (hI : E.I.Exact E.S Mean.integral) (hS : E.S.C2) (hH : Hier E.S N) (hm : P.m ≤ N)
    (hn : P.n ≤ N) (ha : 0 < P.a) (hb : 0 < P.b) (hr : k = .cyl → P.r ≠ 0) (h : Released P P')
    (hF : ABDSym F) (hF' : ABDSym F') (hle : ∀ e : ℕ → ℝ, dens 6 F' e ≤ dens 6 F e)
    (hc : ∀ k ∉ C76.actives P s, c k = 0) :
    Coo.quad (C87.closed E k P' F' s) c ≤ Coo.quad (C87.closed E k P F s) c := by
  have h1 := C87.closed_quad hI hS k ha.ne' hb.ne' hr hF s c
  have h2 := C87.closed_quad (P := P') hI hS k (h.a ▸ ha.ne') (h.b ▸ hb.ne') (fun e => h.r ▸ hr e) hF' s c
  have h3 : C87.strainEnergy (C87.curv k P') E.S P' F' s c
      ≤ C87.strainEnergy (C87.curv k P) E.S P F s c := by
    unfold C87.strainEnergy
    rw [show C87.curv k P' = C87.curv k P by cases k <;> simp [C87.curv, h.r], h.a, h.b,
      h.u_eq hH hm hn hc (by norm_num : 0 < 3), h.u_eq hH hm hn hc (by norm_num : 1 < 3),
      h.u_eq hH hm hn hc (by norm_num : 2 < 3)]
    refine mul_le_mul_of_nonneg_left ?_ (by norm_num)
    have c1 := dens_continuous (E := E) hS (C87.curv k P) P F s c
    have c2 := dens_continuous (E := E) hS (C87.curv k P) P F' s c
    refine intervalIntegral.integral_mono_on ha.le ?_ ?_ fun x _ => ?_
    · exact (intervalIntegral.continuous_parametric_intervalIntegral_of_continuous' (f := fun x y =>
        dens 6 F' fun j => donnell (C87.curv k P) (u E.S P s c 0) (u E.S P s c 1) (u E.S P s c 2) j x y)
        c2 0 P.b).intervalIntegrable _ _
    · exact (intervalIntegral.continuous_parametric_intervalIntegral_of_continuous' (f := fun x y =>
        dens 6 F fun j => donnell (C87.curv k P) (u E.S P s c 0) (u E.S P s c 1) (u E.S P s c 2) j x y)
        c1 0 P.b).intervalIntegrable _ _
    · refine intervalIntegral.integral_mono_on hb.le ?_ ?_ fun y _ => hle _
      · exact (c2.comp (Continuous.prodMk_right x)).intervalIntegrable _ _
      · exact (c1.comp (Continuous.prodMk_right x)).intervalIntegrable _ _
  linarith

/-- **C88, frequencies of a panel.**  Release edges, soften the laminate, make it denser: no frequency
rises. -/
theorem panel_frequencies (hI : E.I.Exact (bardellShape ℝ) Mean.integral) (hE : E.S = bardellShape ℝ)
    (ha : 0 < P.a) (hb : 0 < P.b) (hr : k = .cyl → P.r ≠ 0) (h : Released P P') (hF : ABDSym F)
    (hF' : ABDSym F') (hpos : C13.ABDPos F) (hle : ∀ e : ℕ → ℝ, dens 6 F' e ≤ dens 6 F e)
    {off t rho rho' : ℝ} (ht : 0 < t) (hrho : 0 < rho) (hrr : rho ≤ rho') {φ lam φ' lam'}
    (hM : Modes (C76.actives P s) (C87.closed E k P F s) (mass E k P off t rho s) φ lam)
    (hM' : Modes (C76.actives P' s) (C87.closed E k P' F' s) (mass E k P' off t rho' s) φ' lam') {a : ℕ}
    (hn : a < (C76.actives P s).card) :
    ∃ hn' : a < (C76.actives P' s).card, lam' ⟨a, hn'⟩ ≤ lam ⟨a, hn⟩ := by
  have hI' : E.I.Exact E.S Mean.integral := hE ▸ hI
  have hS : E.S.C2 := hE ▸ bardellShape_C2
  have hH : Hier E.S (max P.m P.n) := hE ▸ exact_hier _
  have hmm := le_max_left P.m P.n
  have hnn := le_max_right P.m P.n
  refine ⟨_, softer hM hM' (sym_finalize _) (sym_finalize _) (h.sub s) ?_ (fun v _ => ?_)
    (fun v hv => closed_le hI' hS hH hmm hnn ha hb hr h hF hF' hle hv) (fun v hv => ?_) hn⟩
  · have := C76.mass_ana hI P ha hb off t rho ht hrho s
    cases k with
    | plate => exact pos_of this.1
    | cyl => exact pos_of this.2
  · have := C13.analytical_psd hI' hS P ha hb F hF hpos s v
    cases k with
    | plate => exact this.1
    | cyl => exact this.2 (hr rfl)
  · have e1 := mass_rho hI' hS k ha.ne' hb.ne' off t rho s v
    have e2 := mass_rho (P := P') hI' hS k (h.a ▸ ha.ne') (h.b ▸ hb.ne') off t rho' s v
    rw [e1, e2]
    have e : Coo.quad (mass E k P' off t 1 s) v = Coo.quad (mass E k P off t 1 s) v := by
      rw [mass_quad hI' hS k ha.ne' hb.ne', mass_quad hI' hS k (h.a ▸ ha.ne') (h.b ▸ hb.ne'), h.a, h.b,
        h.u_eq hH hmm hnn hv (by norm_num : 0 < 3), h.u_eq hH hmm hnn hv (by norm_num : 1 < 3),
        h.u_eq hH hmm hnn hv (by norm_num : 2 < 3)]
    rw [e]
    exact mul_le_mul_of_nonneg_right hrr (mass_nonneg hI' hS k ha hb off ht.le s v)

/-- **C88, more terms of a panel.**  No frequency of a panel rises when terms are added. -/
theorem panel_more_terms (hI : E.I.Exact (bardellShape ℝ) Mean.integral) (ha : 0 < P.a) (hb : 0 < P.b)
    {m' n' : ℕ} (hm : P.m ≤ m') (hn : P.n ≤ n') (F : ℕ → ℕ → ℝ) {off t rho : ℝ} (ht : 0 < t)
    (hrho : 0 < rho) (s s' : ℕ) {φ lam φ' lam'}
    (h : Modes (C76.actives P s) (C87.closed E k P F s) (mass E k P off t rho s) φ lam)
    (h' : Modes (C76.actives (C79.more P m' n') s') (C87.closed E k (C79.more P m' n') F s')
      (mass E k (C79.more P m' n') off t rho s') φ' lam') {a : ℕ} (hc : a < (C76.actives P s).card) :
    ∃ hc' : a < (C76.actives (C79.more P m' n') s').card, lam' ⟨a, hc'⟩ ≤ lam ⟨a, hc⟩ := by
  have h1 := C79.stiffness_ana E.I P hm hn s s' F
  have h2 := C79.mass_ana E.I P hm hn s s' off t rho
  have h3 := C76.mass_ana hI P ha hb off t rho ht hrho s
  cases k with
  | plate =>
    exact more_terms hm hn (h1.1.finalize hm) (h2.1.finalize hm) (sym_finalize _)
      (sym_finalize _) (pos_of h3.1) h h' hc
  | cyl =>
    exact more_terms hm hn (h1.2.finalize hm) (h2.2.finalize hm) (sym_finalize _)
      (sym_finalize _) (pos_of h3.2) h h' hc

/-- **C88, buckling of a panel.**  The supported, stiffer panel is stable under the same loads at least
as far. -/
theorem panel_buckling (hI : E.I.Exact (bardellShape ℝ) Mean.integral) (hE : E.S = bardellShape ℝ)
    (ha : 0 < P.a) (hb : 0 < P.b) (hr : k = .cyl → P.r ≠ 0) (h : Released P P') (hF : ABDSym F)
    (hF' : ABDSym F') (hp : Pos (C76.actives P' s) (C87.closed E k P' F' s))
    (hle : ∀ e : ℕ → ℝ, dens 6 F' e ≤ dens 6 F e) (Nxx Nyy Nxy : ℝ) {p : ℝ} (h0 : 0 ≤ p)
    (hs : ∀ r : ℝ, 0 < r → Critical (C76.actives P' s) (C87.closed E k P' F' s)
      (geometric E k P' Nxx Nyy Nxy s) r → p < r) :
    ∀ r : ℝ, 0 < r → Critical (C76.actives P s) (C87.closed E k P F s)
      (geometric E k P Nxx Nyy Nxy s) r → p < r := by
  have hI' : E.I.Exact E.S Mean.integral := hE ▸ hI
  have hS : E.S.C2 := hE ▸ bardellShape_C2
  have hH : Hier E.S (max P.m P.n) := hE ▸ exact_hier _
  have hmm := le_max_left P.m P.n
  have hnn := le_max_right P.m P.n
  refine buckling (sym_finalize _) (sym_finalize _) (sym_finalize _) (sym_finalize _) (h.sub s) hp
    (fun v hv => closed_le hI' hS hH hmm hnn ha hb hr h hF hF' hle hv) (fun v hv => ?_) h0 hs
  have e1 := geometric_quad hI' hS k ha.ne' hb.ne' Nxx Nyy Nxy s v
  have e2 := geometric_quad (P := P') hI' hS k (h.a ▸ ha.ne') (h.b ▸ hb.ne') Nxx Nyy Nxy s v
  rw [h.a, h.b, h.u_eq hH hmm hnn hv (by norm_num : 2 < 3)] at e2
  exact (e2.trans e1.symm).le

/-- **C88, tension.**  A panel under tension, or under nothing but shear that the tension outweighs, has
no lower frequencies than without loads. -/
theorem tension (hI : E.I.Exact (bardellShape ℝ) Mean.integral) (hE : E.S = bardellShape ℝ)
    (ha : 0 < P.a) (hb : 0 < P.b) (hr : k = .cyl → P.r ≠ 0) (hF : ABDSym F) (hpos : C13.ABDPos F)
    {Nxx Nyy Nxy : ℝ} (h1 : 0 ≤ Nxx) (h2 : 0 ≤ Nyy) (h3 : Nxy ^ 2 ≤ Nxx * Nyy)
    {off t rho : ℝ} (ht : 0 < t) (hrho : 0 < rho) {φ lam φ' lam'}
    (hM : Modes (C76.actives P s) (C87.closed E k P F s ++ geometric E k P Nxx Nyy Nxy s)
      (mass E k P off t rho s) φ lam)
    (hM' : Modes (C76.actives P s) (C87.closed E k P F s) (mass E k P off t rho s) φ' lam') (a) :
    lam' a ≤ lam a := by
  have hI' : E.I.Exact E.S Mean.integral := hE ▸ hI
  have hS : E.S.C2 := hE ▸ bardellShape_C2
  have h0 : ∀ v, 0 ≤ Coo.quad (C87.closed E k P F s) v := fun v => by
    have := C13.analytical_psd hI' hS P ha hb F hF hpos s v
    cases k with
    | plate => exact this.1
    | cyl => exact this.2 (hr rfl)
  have hg : ∀ v, 0 ≤ Coo.quad (geometric E k P Nxx Nyy Nxy s) v := fun v => by
    rw [geometric_quad hI' hS k ha.ne' hb.ne']
    refine intervalIntegral.integral_nonneg ha.le fun x _ => intervalIntegral.integral_nonneg hb.le
      fun y _ => ?_
    generalize dx (u E.S P s v 2) x y = p
    generalize dy (u E.S P s v 2) x y = q
    rcases h1.eq_or_lt with e | e
    · rw [← e, zero_mul] at h3
      have : Nxy = 0 := pow_eq_zero_iff two_ne_zero |>.1 (le_antisymm h3 (sq_nonneg _))
      rw [← e, this]
      nlinarith [mul_nonneg h2 (sq_nonneg q)]
    · refine le_of_mul_le_mul_left ?_ e
      nlinarith [sq_nonneg (Nxx * p + Nxy * q), mul_nonneg (sub_nonneg.2 h3) (sq_nonneg q)]
  have hsum : ∀ v, Coo.quad (C87.closed E k P F s ++ geometric E k P Nxx Nyy Nxy s) v
      = Coo.quad (C87.closed E k P F s) v + Coo.quad (geometric E k P Nxx Nyy Nxy s) v := fun v =>
    Coo.quad_append _ _ _
  refine softer hM hM' (sym_finalize _) (sym_finalize _) subset_rfl ?_ (fun v _ => ?_) (fun v _ => ?_)
    (fun v _ => le_rfl) a.2
  · have := C76.mass_ana hI P ha hb off t rho ht hrho s
    cases k with
    | plate => exact pos_of this.1
    | cyl => exact pos_of this.2
  · rw [hsum]
    exact add_nonneg (h0 v) (hg v)
  · rw [hsum]
    linarith [hg v]

end

/-! ## Joints of an assembly -/

section
variable {E : Env ℝ} {A : Assy ℝ} {T : ℕ → Shell ℝ}

/-- The energy of a connection is determined by its description. -/
theorem term_unique {d : ConnD ℝ} (hj : Joinable (List.range A.count) d)
    {e e' : (ℕ → ℝ) → ℝ} (ht : C40.Term E (A.after T) d e) (ht' : C40.Term E (A.after T) d e')
    (v : ℕ → ℝ) : e v = e' v := by
  obtain ⟨m1, m2, hne, hk⟩ := hj
  have hf : d.func ≠ "SB_TSL" := by
    rcases hk with ⟨h1 | h1, -⟩ | ⟨h1 | h1, -⟩ | h1 <;> rw [h1] <;> decide
  obtain ⟨p, q, d1, qA, qB, tA, tB, kt, kr, z1, z2, hA, hB, hor, hc, hkt, hC, hAt, he⟩ := ht
  obtain ⟨p', q', d2, qA', qB', tA', tB', kt', kr', z1', z2', hA', hB', hor', hc', hkt', hC', hAt', he'⟩ :=
    ht'
  have same : p' = p ∧ q' = q ∧ d2 = d1 := by
    rcases hor with ⟨rfl, rfl, rfl⟩ | ⟨rfl, rfl, rfl⟩ <;>
      rcases hor' with ⟨rfl, rfl, rfl⟩ | ⟨rfl, rfl, rfl⟩
    · exact ⟨rfl, rfl, rfl⟩
    · rw [hA] at hB'; rw [hB] at hA'
      cases hA'; cases hB'
      omega
    · rw [hA] at hB'; rw [hB] at hA'
      cases hA'; cases hB'
      omega
    · exact ⟨rfl, rfl, rfl⟩
  obtain ⟨rfl, rfl, rfl⟩ := same
  rw [hA] at hA'; rw [hB] at hB'
  cases hA'; cases hB'
  rw [C40.Constants, if_neg hf] at hC hC'
  obtain ⟨r1, r2, lA, lB, k1, l1, l2, hpen, hkr⟩ := hC
  obtain ⟨r1', r2', lA', lB', k1', l1', l2', hpen', hkr'⟩ := hC'
  cases r1.symm.trans r1'
  cases r2.symm.trans r2'
  cases l1.symm.trans l1'
  cases l2.symm.trans l2'
  cases hpen.symm.trans hpen'
  have hdf : d2.func = d.func := by
    rcases hor with ⟨-, -, rfl⟩ | ⟨-, -, rfl⟩
    · rfl
    · exact C40.swap_func d
  unfold C40.At at hAt hAt'
  rw [hdf] at hAt hAt'
  rw [he, he']
  have hrot : C40.penKind d.func = "xcte" ∨ C40.penKind d.func = "ycte" → kr = kr' := by
    intro hx
    have : ∃ k, k1 = some k := by
      rcases hx with hx | hx
      · obtain ⟨a, b, hab⟩ := pen_xcte (penOf tA lA) (penOf tB lB)
        rw [hx, hab] at hpen
        cases hpen
        exact ⟨b, rfl⟩
      · obtain ⟨a, b, hab⟩ := pen_ycte (penOf tA lA) (penOf tB lB)
        rw [hx, hab] at hpen
        cases hpen
        exact ⟨b, rfl⟩
    obtain ⟨k, rfl⟩ := this
    rw [← hkr k rfl, hkr' k rfl]
  rcases hk with ⟨hx, -⟩ | ⟨hx, -⟩ | hx
  · rw [if_pos hx] at hAt hAt'
    cases hAt.1.symm.trans hAt'.1
    cases hAt.2.symm.trans hAt'.2
    rw [hrot (.inl (if_pos hx))]
  · have hn : ¬ (d.func = "SSxcte" ∨ d.func = "BFxcte") := by
      rcases hx with h1 | h1 <;> rw [h1] <;> decide
    rw [if_neg hn, if_pos hx] at hAt hAt'
    cases hAt.1.symm.trans hAt'.1
    cases hAt.2.symm.trans hAt'.2
    rw [hrot (.inr (by rw [C40.penKind, if_neg hn, if_pos hx]))]
  · rw [hx] at hAt hAt' ⊢
    rw [if_neg (by decide), if_neg (by decide)] at hAt hAt'
    subst hAt
    subst hAt'
    simp [C40.springs]

theorem terms_unique {l : List (ConnD ℝ)} (hl : ∀ d ∈ l, Joinable (List.range A.count) d)
    {es es' : List ((ℕ → ℝ) → ℝ)} (ht : List.Forall₂ (C40.Term E (A.after T)) l es)
    (ht' : List.Forall₂ (C40.Term E (A.after T)) l es') (v : ℕ → ℝ) :
    (es.map fun e => e v).sum = (es'.map fun e => e v).sum := by
  induction ht generalizing es' with
  | nil =>
    cases ht'
    rfl
  | cons h1 _ ih =>
    cases ht' with
    | cons h2 h3 =>
      rw [List.map_cons, List.map_cons, List.sum_cons, List.sum_cons,
        term_unique (hl _ List.mem_cons_self) h1 h2,
        ih (fun d hd => hl d (List.mem_cons_of_mem _ hd)) h3]

theorem forall₂_split {α β : Type*} {R : α → β → Prop} {a b : List α} {c : List β}
    (h : List.Forall₂ R (a ++ b) c) : ∃ c1 c2, c = c1 ++ c2 ∧ List.Forall₂ R a c1 ∧ List.Forall₂ R b c2 := by
  induction a generalizing c with
  | nil => exact ⟨[], c, rfl, .nil, h⟩
  | cons x a ih =>
    cases h with
    | cons h1 h2 =>
      obtain ⟨c1, c2, rfl, h3, h4⟩ := ih h2
      exact ⟨_ :: c1, c2, rfl, .cons h1 h3, h4⟩

theorem forall₂_right {α β : Type*} {R : α → β → Prop} {a : List α} {c : List β} (h : List.Forall₂ R a c)
    {y : β} (hy : y ∈ c) : ∃ x ∈ a, R x y := by
  induction h with
  | nil => cases hy
  | cons h1 _ ih =>
    rcases List.mem_cons.1 hy with rfl | hy
    · exact ⟨_, List.mem_cons_self, h1⟩
    · obtain ⟨x, hx, hr⟩ := ih hy
      exact ⟨x, List.mem_cons_of_mem _ hx, hr⟩

/-- The same panels with further joints. -/
def joined (A : Assy ℝ) (extra : List (ConnD ℝ)) : Assy ℝ := { A with conns := A.conns ++ extra }

theorem joined_fit (h : Fit E A T) {extra : List (ConnD ℝ)}
    (hx : ∀ d ∈ extra, Joinable (List.range A.count) d) : Fit E (joined A extra) T where
  exact := h.exact
  smooth := h.smooth
  pos := h.pos
  terms := h.terms
  built := h.built
  stiff := h.stiff
  sides := h.sides
  conns := fun e => h.conns (List.append_eq_nil_iff.1 e).1
  joined := fun d hd => (List.mem_append.1 hd).elim (h.joined d) (hx d)

/-- **C88, joints.**  Further joints between the panels of an assembly never take energy away. -/
theorem joints_le (h : Fit E A T) {extra : List (ConnD ℝ)}
    (hx : ∀ d ∈ extra, Joinable (List.range A.count) d) {k0 k1 : Coo ℝ} {M M' : Multi ℝ}
    (hk : A.multi.calcKC E (some A.conns) none = .ok (k0, M))
    (hk' : A.multi.calcKC E (some (A.conns ++ extra)) none = .ok (k1, M')) (v : ℕ → ℝ) :
    Coo.quad k0 v ≤ Coo.quad k1 v := by
  have hf := joined_fit h hx
  obtain ⟨own, o1, k, M2, es, e1, e2, e3, -⟩ := h.kC
  obtain ⟨own', o1', k', M2', es', e1', e2', e3', -⟩ := hf.kC
  cases e1.symm.trans hk
  cases (show A.multi.calcKC E (some (A.conns ++ extra)) none = .ok (k', M2') from e1').symm.trans hk'
  have e2' : List.Forall₂ (C40.Term E (A.after T)) (A.conns ++ extra) es' := e2'
  obtain ⟨es1, es2, rfl, t1, t2⟩ := forall₂_split e2'
  rw [e3, e3', List.map_append, List.sum_append, terms_unique h.joined e2 t1 v]
  have e4 : ((List.range A.count).map fun k => Coo.quad (own k) fun i => v (A.start k + i))
      = (List.range (joined A extra).count).map fun k => Coo.quad (own' k) fun i =>
        v ((joined A extra).start k + i) := by
    refine List.map_congr_left fun k hk => ?_
    have hk := List.mem_range.1 hk
    have e := (o1 k hk).symm.trans (o1' k hk)
    rw [Except.ok.injEq, Prod.mk.injEq] at e
    rw [e.1]
    rfl
  rw [e4]
  have : 0 ≤ (es2.map fun e => e v).sum := by
    have hn : ∀ e ∈ es2, 0 ≤ e v := fun e he => by
      obtain ⟨d, hd, hde⟩ := forall₂_right t2 he
      exact (hf.conn_zero (List.mem_append_right _ hd) hde v).1
    exact List.sum_nonneg fun x hx => by
      obtain ⟨e, he, rfl⟩ := List.mem_map.1 hx
      exact hn e he
  linarith

/-- **C88, frequencies of an assembly.**  No frequency falls when joints are added. -/
theorem joints_frequencies (h : Fit E A T) {extra : List (ConnD ℝ)}
    (hx : ∀ d ∈ extra, Joinable (List.range A.count) d) {k0 k1 kM : Coo ℝ} {M M' : Multi ℝ}
    (hk : A.multi.calcKC E (some A.conns) none = .ok (k0, M))
    (hk' : A.multi.calcKC E (some (A.conns ++ extra)) none = .ok (k1, M')) {t : Finset ℕ} (hs : Sym kM)
    (hp : Pos t kM) {φ lam φ' lam'} (h0 : Modes t k0 kM φ lam) (h1 : Modes t k1 kM φ' lam') (a) :
    lam a ≤ lam' a :=
  compare h1 h0 hs hs LinearMap.id a.2 a.2 (fun _ hv => hv) (fun v _ => joints_le h hx hk hk' v)
    (fun _ _ => le_rfl) fun v hv h0 => hp v hv h0

/-- **C88, buckling of an assembly.**  With more joints it stays stable at least as far. -/
theorem joints_buckling (h : Fit E A T) {extra : List (ConnD ℝ)}
    (hx : ∀ d ∈ extra, Joinable (List.range A.count) d) {k0 k1 kG : Coo ℝ} {M M' : Multi ℝ}
    (hk : A.multi.calcKC E (some A.conns) none = .ok (k0, M))
    (hk' : A.multi.calcKC E (some (A.conns ++ extra)) none = .ok (k1, M')) {t : Finset ℕ} (hs : Sym kG)
    (hp : Pos t k0) {p : ℝ} (hp0 : 0 ≤ p) (hc : ∀ r : ℝ, 0 < r → Critical t k0 kG r → p < r) :
    ∀ r : ℝ, 0 < r → Critical t k1 kG r → p < r :=
  buckling (Assy.calcKC_sym hk') (Assy.calcKC_sym hk) hs hs subset_rfl hp
    (fun v _ => joints_le h hx hk hk' v) (fun _ _ => le_rfl) hp0 hc

end

/-! ## Concrete cases -/

/-- The panel without the support of its deflection at `x = 0`. -/
noncomputable def loose : Panel ℝ := { Witness.panel with xw := ⟨1, 1, 1, 1⟩ }

theorem loose_released : Released Witness.panel loose where
  m := rfl
  n := rfl
  a := rfl
  b := rfl
  r := rfl
  x α hα i h := by
    match α, hα with
    | 0, _ => rfl
    | 1, _ => rfl
    | 2, _ =>
      have : (Witness.panel : Panel ℝ).xf 2 = Witness.panel.xw := rfl
      rw [this] at h ⊢
      rcases i with _ | _ | _ | _ | i <;> simp_all [flag, loose, Panel.xf, Witness.panel]
  y _ _ _ _ := rfl

theorem lam_half (e : ℕ → ℝ) : dens 6 (fun i j => 1 / 2 * C13.lam i j) e ≤ dens 6 C13.lam e := by
  have h : dens 6 (fun i j => 1 / 2 * C13.lam i j) e = 1 / 2 * dens 6 C13.lam e := by
    simp [Spec.dens, Finset.sum_range_succ]
    ring
  rw [h]
  linarith [C76.lam_def.nonneg e]

theorem half_sym : ABDSym fun i j => 1 / 2 * C13.lam i j where
  symm s t := by rw [C13.lam_sym.symm s t]
  b12 := by rw [C13.lam_sym.b12]
  b16 := by rw [C13.lam_sym.b16]
  b26 := by rw [C13.lam_sym.b26]

/-- Half the stiffness, one support less and three times the density. -/
example (k : Kind) : ∃ φ lam φ' lam',
    Modes (C76.actives Witness.panel 12) (C87.closed C40.env k Witness.panel C13.lam 12)
      (mass C40.env k Witness.panel (1 / 5) 2 3 12) φ lam ∧
    Modes (C76.actives loose 12) (C87.closed C40.env k loose (fun i j => 1 / 2 * C13.lam i j) 12)
      (mass C40.env k loose (1 / 5) 2 9 12) φ' lam' ∧
    ∀ a, ∀ hn : a < (C76.actives Witness.panel 12).card, ∃ hn', lam' ⟨a, hn'⟩ ≤ lam ⟨a, hn⟩ := by
  have hm : ∀ P : Panel ℝ, 0 < P.a → 0 < P.b → ∀ r : ℝ, 0 < r →
      Pos (C76.actives P 12) (mass C40.env k P (1 / 5) 2 r 12) := fun P ha hb r hr => by
    have := C76.mass_ana (I := C40.env.I) (Tab.of_exact _ _) P ha hb (1 / 5) 2 r (by norm_num) hr 12
    cases k with
    | plate => exact pos_of this.1
    | cyl => exact pos_of this.2
  obtain ⟨φ, lam, h⟩ := C80.modes (K := C87.closed C40.env k Witness.panel C13.lam 12) (sym_finalize _)
    (sym_finalize _) (hm Witness.panel (by simp [Witness.panel]) (by simp [Witness.panel]) 3 (by norm_num))
  obtain ⟨φ', lam', h'⟩ := C80.modes
    (K := C87.closed C40.env k loose (fun i j => 1 / 2 * C13.lam i j) 12) (sym_finalize _) (sym_finalize _)
    (hm loose (by simp [loose, Witness.panel]) (by simp [loose, Witness.panel]) 9 (by norm_num))
  exact ⟨φ, lam, φ', lam', h, h', fun a hn => panel_frequencies (Tab.of_exact _ _) rfl
    (by simp [Witness.panel]) (by simp [Witness.panel]) (fun _ => by simp [Witness.panel]) loose_released
    C13.lam_sym half_sym (fun e => C76.lam_def.nonneg e) lam_half (by norm_num) (by norm_num)
    (by norm_num) h h' hn⟩

/-- The first joint of a stiffened panel made twice. -/
example : ∃ A : Assy ℝ, ∃ T k0 k1 M M' extra, Fit C40.env A T ∧ extra ≠ [] ∧
    (∀ d ∈ extra, Joinable (List.range A.count) d) ∧
    A.multi.calcKC C40.env (some A.conns) none = .ok (k0, M) ∧
    A.multi.calcKC C40.env (some (A.conns ++ extra)) none = .ok (k1, M') ∧
    ∀ v, Coo.quad k0 v ≤ Coo.quad k1 v := by
  obtain ⟨T, lam, h⟩ := C66.args_built 1 2
  have hf : Fit C40.env (C66.args.assy 1 2) T := h.fit
  obtain ⟨d, l, hd⟩ := List.exists_cons_of_ne_nil hf.conns
  have hx : ∀ e ∈ [d], Joinable (List.range (C66.args.assy 1 2).count) e := fun e he => by
    rw [List.mem_singleton.1 he]
    exact hf.joined d (by rw [hd]; exact List.mem_cons_self)
  obtain ⟨own, -, k0, M, es, h1, -⟩ := hf.kC
  obtain ⟨own', -, k1, M', es', h2, -⟩ := (joined_fit hf hx).kC
  exact ⟨_, T, k0, k1, M, M', [d], hf, by simp, hx, h1, h2, joints_le hf hx h1 h2⟩

/-- Tension in both directions with some shear. -/
example : ∃ Nxx Nyy Nxy : ℝ, 0 ≤ Nxx ∧ 0 ≤ Nyy ∧ Nxy ^ 2 ≤ Nxx * Nyy ∧ Nxy ≠ 0 :=
  ⟨4, 1, -1, by norm_num, by norm_num, by norm_num, by norm_num⟩

end Verif.C88
