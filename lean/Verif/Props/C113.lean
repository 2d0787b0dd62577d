import Verif.Props.C111Bay

/-!
# C113: the lowest frequency under pre-stress

The square of the lowest frequency is a concave function of the pre-stress.  So it lies above the straight line from
its value without pre-stress to zero at the first critical load.
-/

set_option linter.unusedSectionVars false

namespace Verif.C113

open Model Spec Indep C111

/-! ## Matrices -/

section
variable {K M G : Coo ℝ} {J : Finset ℕ}

/-- All eigenvalues are real and not below `x`. -/
def Floor (J : Finset ℕ) (K M : Coo ℝ) (x : ℝ) : Prop := ∀ μ : ℂ, Eigen J K M μ → ∃ q : ℝ, μ = q ∧ x ≤ q

theorem floor_iff (hK : C80.Sym K) (hM : C80.Sym M) (hm : C80.Pos J M) {x : ℝ} :
    Floor J K M x ↔ ∀ v : ℕ → ℝ, (∀ k ∉ J, v k = 0) → x * Coo.quad M v ≤ Coo.quad K v := by
  obtain ⟨φ, lam, h⟩ := C80.modes hK hM hm
  constructor
  · intro hf v hv
    obtain ⟨q, rfl, h1, h2⟩ := C80.energies h hM hv
    rw [h1, h2, Finset.mul_sum]
    refine Finset.sum_le_sum fun a _ => mul_le_mul_of_nonneg_right ?_ (sq_nonneg _)
    obtain ⟨y, e, hy⟩ := hf (lam a) ((C80.eigen_iff h hK hM _).2 ⟨a, rfl⟩)
    rwa [Complex.ofReal_inj.1 e]
  · intro hf μ he
    obtain ⟨a, rfl⟩ := (C80.eigen_iff h hK hM μ).1 he
    refine ⟨lam a, rfl, ?_⟩
    have e := hf (φ a) (h.off a)
    rwa [(C80.quad_mode h a).1, (C80.quad_mode h a).2, mul_one] at e

/-- The matrices of a structure under growing pre-stress. -/
structure Lowest (Kr : ℝ → Coo ℝ) (G : Coo ℝ) : Prop where
  concave : ∀ (J : Finset ℕ) (M : Coo ℝ), C80.Sym M → C80.Pos J M → ∀ r1 r2 θ x y : ℝ, 0 ≤ θ → θ ≤ 1 →
    Floor J (Kr r1) M x → Floor J (Kr r2) M y → Floor J (Kr (θ * r1 + (1 - θ) * r2)) M (θ * x + (1 - θ) * y)
  chord : ∀ (J : Finset ℕ) (M : Coo ℝ), C80.Sym M → C80.Pos J M → C80.Pos J (Kr 0) → ∀ r p x : ℝ, 0 ≤ r → r ≤ p → 0 < p →
    (∀ q : ℝ, 0 < q → Critical J (Kr 0) G q → p ≤ q) → Floor J (Kr 0) M x → Floor J (Kr r) M ((1 - r / p) * x)

theorem lowest {Kr : ℝ → Coo ℝ} (hK : C80.Sym (Kr 0)) (hG : C80.Sym G) (h : ∀ r, Shifted (Kr r) (Kr 0) G r) :
    Lowest Kr G := by
  have hs : ∀ r, C80.Sym (Kr r) := fun r i j => by rw [h r i j, h r j i, hK i j, hG i j]
  refine ⟨fun J M hM hm r1 r2 θ x y h0 h1 hx hy => ?_, fun J M hM hm hp r p x h0 h1 h2 hc hx => ?_⟩
  · refine (floor_iff (hs _) hM hm).2 fun v hv => ?_
    have e1 := (floor_iff (hs _) hM hm).1 hx v hv
    have e2 := (floor_iff (hs _) hM hm).1 hy v hv
    rw [quad_shifted (h _) v hv] at e1 e2 ⊢
    have a1 := mul_le_mul_of_nonneg_left e1 h0
    have a2 := mul_le_mul_of_nonneg_left e2 (sub_nonneg.2 h1)
    linarith
  · refine (floor_iff (hs _) hM hm).2 fun v hv => ?_
    have e := (floor_iff (hs _) hM hm).1 hx v hv
    have e0 : 0 ≤ Coo.quad (Kr 0) v + p * Coo.quad G v := by
      by_contra hneg
      push Not at hneg
      by_cases hv0 : ∃ k ∈ J, v k ≠ 0
      · have k0 := hp v hv0 hv
        have g0 : Coo.quad G v < 0 := by
          by_contra hg
          push Not at hg
          have := mul_nonneg h2.le hg
          linarith
        have hne := g0.ne
        have a0 : 0 ≤ Coo.quad (Kr 0) v / -Coo.quad G v := div_nonneg k0.le (by linarith)
        have a1 : Coo.quad (Kr 0) v / -Coo.quad G v < p := by
          rw [div_lt_iff₀ (by linarith)]
          linarith
        have := (C80.stable_iff hG hK hp a0).2 (fun q hq hcr => lt_of_lt_of_le a1 (hc q hq hcr)) v hv0 hv
        have z : Coo.quad (Kr 0) v / -Coo.quad G v * Coo.quad G v = -Coo.quad (Kr 0) v := by
          field_simp
        rw [z] at this
        linarith
      · push Not at hv0
        have hz : v = fun _ => 0 := funext fun k => by
          by_cases hk : k ∈ J
          · exact hv0 k hk
          · exact hv k hk
        have q0 : ∀ L : Coo ℝ, Coo.quad L (fun _ => 0) = 0 := fun L => by simp [Coo.quad, Coo.bilin]
        rw [hz, q0, q0] at hneg
        linarith
    rw [quad_shifted (h _) v hv]
    have w : Coo.quad (Kr 0) v + r * Coo.quad G v = (1 - r / p) * Coo.quad (Kr 0) v
        + r / p * (Coo.quad (Kr 0) v + p * Coo.quad G v) := by
      field_simp
      ring
    have b1 : 0 ≤ r / p := div_nonneg h0 h2.le
    have b2 : r / p ≤ 1 := (div_le_one h2).2 h1
    have c1 := mul_le_mul_of_nonneg_left e (sub_nonneg.2 b2)
    have c2 := mul_nonneg b1 e0
    rw [w]
    linarith

end

/-- **C113, one panel.** -/
theorem panel {E : Env ℝ} {s t : Shell ℝ} (ht : s.rebuild E = .ok t) {A : KArgs ℝ}
    (hd : C38.Documented t A (A.nx.getD t.nx) (A.ny.getD t.ny)) (hc : A.cCte = none) (hN : A.NLgeom = false)
    (hf : A.finalize = true) :
    ∃ (Kr : ℝ → Coo ℝ) (G : Coo ℝ) (w : ℝ → Shell ℝ) (g : Shell ℝ), (∀ r, (pre r s).calcKC E A = .ok (Kr r, w r)) ∧
      s.calcKG E { A with c := none, ABDnxny := none } = .ok (G, g) ∧ Lowest Kr G := by
  obtain ⟨K, G, h1, h2, h3, h4, h5⟩ := C111.panel ht hd hc hN hf
  choose Kr e1 e2 _ using h5
  obtain rfl : K = Kr 0 := (Prod.mk.inj (Except.ok.inj (h1.symm.trans (e1 0)))).1
  exact ⟨Kr, G, _, _, e1, h2, lowest h3 h4 e2⟩

/-- **C113, assemblies.** -/
theorem multi {E : Env ℝ} {shells T : ℕ → Shell ℝ} {place : ℕ → Option Place} {panels : List ℕ}
    {conn arg arg' : Option (List (ConnD ℝ))}
    (hn : panels.Nodup) (h0 : panels ≠ []) (hT : ∀ p ∈ panels, (shells p).rebuild E = .ok (T p))
    (c : Option (CArg ℝ)) (hc : ∀ x, c = some x → ∃ f, x = .vec (C40.total shells panels) f) {kConn : Coo ℝ} {M2 : Multi ℝ}
    (hconn : ({ Multi.init shells place panels conn with
        shells := fun p => if p ∈ panels then (T p).fixR else shells p } : Multi ℝ).getKCconn E arg = .ok (kConn, arg', M2)) :
    ∃ (Kr : ℝ → Coo ℝ) (G : Coo ℝ) (w : ℝ → Multi ℝ) (g : Multi ℝ),
      (∀ r, (Multi.init (fun p => pre r (shells p)) place panels conn).calcKC E arg c = .ok (Kr r, w r)) ∧
      (Multi.init shells place panels conn).calcKG E none = .ok (G, g) ∧ Lowest Kr G := by
  obtain ⟨K, G, w, g, h1, h2, h3, h4, h5⟩ := C111.multi hn h0 hT c hc hconn
  choose Kr w' e1 e2 _ using h5
  obtain rfl : K = Kr 0 := (Prod.mk.inj (Except.ok.inj (h1.symm.trans (e1 0)))).1
  exact ⟨Kr, G, _, _, e1, h2, lowest h3 h4 e2⟩

/-- **C113, bays.** -/
theorem bay {E : BayEnv ℝ} {B R : Bay ℝ} {N : ℕ} (hT : C52.Terms B) (hne : B.panels ≠ []) (hR : B.rebuild E = .ok R)
    (hN : R.getSize = .ok N) (hr : Ready E R) (hF : ∀ s ∈ R.blade1, s.Fx.getD 0 = 0) :
    ∃ (Kr : ℝ → Coo ℝ) (G : Coo ℝ) (w : ℝ → Bay ℝ) (g : Bay ℝ), (∀ r, (onBay (pre r) B).calcKC E = .ok (Kr r, w r)) ∧
      B.calcKG E none = .ok (G, g) ∧ Lowest Kr G := by
  obtain ⟨K, G, w, g, h1, h2, h3, h4, h5⟩ := C111.bay hT hne hR hN hr hF
  choose Kr w' e1 e2 _ using h5
  obtain rfl : K = Kr 0 := (Prod.mk.inj (Except.ok.inj (h1.symm.trans (e1 0)))).1
  exact ⟨Kr, G, _, _, e1, h2, lowest h3 h4 e2⟩

/-! ## Examples -/

/-- The hypotheses of `panel`. -/
example : ∃ (Kr : ℝ → Coo ℝ) (G : Coo ℝ) (w : ℝ → Shell ℝ) (g : Shell ℝ),
    (∀ r, (pre r pressed).calcKC C16.env {} = .ok (Kr r, w r)) ∧ pressed.calcKG C16.env {} = .ok (G, g) ∧ Lowest Kr G := by
  obtain ⟨t, ht⟩ := pressed_ok
  exact panel ht (A := {}) ⟨fun x hx => (by cases hx), fun x hx => (by cases hx), fun x hx => (by cases hx),
    by simp [C38.sizeOf], by simp [C38.sizeOf]⟩ rfl rfl rfl

/-- The hypotheses of `lowest` and of its two parts: a spring 2, pressed by `r`, with the mass 1.  The bound is
attained: half way to the critical load 2 the square of the frequency is half of 2. -/
example : Floor {0} [⟨0, 0, 2⟩, ⟨0, 0, 1 * -1⟩] [⟨0, 0, 1⟩] ((1 - 1 / 2) * 2) ∧
    ¬ Floor {0} [⟨0, 0, 2⟩, ⟨0, 0, 1 * -1⟩] [⟨0, 0, 1⟩] 2 := by
  have e : ∀ x : ℝ, C80.Sym [⟨0, 0, x⟩] := fun x k l => by
    simp only [Coo.entry_cons, Coo.entry_nil]
    split_ifs <;> first | rfl | omega
  have e2 : ∀ x y : ℝ, C80.Sym [⟨0, 0, x⟩, ⟨0, 0, y⟩] := fun x y k l => by
    simp only [Coo.entry_cons, Coo.entry_nil]
    split_ifs <;> first | rfl | omega
  have hp : ∀ x : ℝ, 0 < x → C80.Pos {0} [⟨0, 0, x⟩] := fun x hx v hv h0 => by
    obtain ⟨k, hk, hv⟩ := hv
    obtain rfl := Finset.mem_singleton.1 hk
    simp only [Coo.quad, Coo.bilin_cons, Coo.bilin_nil]
    have := mul_pos hx (mul_self_pos.2 hv)
    linarith
  have hp2 : C80.Pos {0} [⟨0, 0, 2⟩, ⟨0, 0, (0 : ℝ) * -1⟩] := fun v hv h0 => by
    have := hp 2 (by norm_num) v hv h0
    simp only [Coo.quad, Coo.bilin_cons, Coo.bilin_nil] at this ⊢
    linarith
  have h := lowest (Kr := fun r => [⟨0, 0, 2⟩, ⟨0, 0, r * -1⟩]) (G := [⟨0, 0, -1⟩]) (e2 _ _) (e _) fun r i j => by
    simp only [Coo.entry_cons, Coo.entry_nil]
    split_ifs <;> ring
  refine ⟨h.chord {0} _ (e 1) (hp 1 one_pos) hp2 1 2 2 (by norm_num) (by norm_num) (by norm_num) ?_ ?_, fun hf => ?_⟩
  · intro q hq hcr
    by_contra hlt
    push Not at hlt
    have hst := (C80.stable_iff (e (-1)) (e2 2 (0 * -1)) hp2 hq.le).1 (fun v hv h0 => by
      have := hp (2 - q) (by linarith) v hv h0
      simp only [Coo.quad, Coo.bilin_cons, Coo.bilin_nil] at this ⊢
      linarith) q hq hcr
    exact lt_irrefl _ hst
  · refine (floor_iff (e2 _ _) (e 1) (hp 1 one_pos)).2 fun v hv => ?_
    simp only [Coo.quad, Coo.bilin_cons, Coo.bilin_nil]
    linarith
  · have := (floor_iff (e2 _ _) (e 1) (hp 1 one_pos)).1 hf (fun k => if k = 0 then 1 else 0) (fun k hk => by simp_all)
    simp only [Coo.quad, Coo.bilin_cons, Coo.bilin_nil] at this
    norm_num at this

/-- The hypotheses of `multi`: two panels, joined along an edge, about a state. -/
example : ∃ (Kr : ℝ → Coo ℝ) (G : Coo ℝ) (w : ℝ → Multi ℝ) (g : Multi ℝ),
    (∀ r, (Multi.init (fun _ => pre r pressed) (fun _ => none) [4, 0] (some [C40.joint])).calcKC C16.env none
      (some (.vec (C40.total (fun _ => pressed) [4, 0]) C107.pushed)) = .ok (Kr r, w r)) ∧
    (Multi.init (fun _ => pressed) (fun _ => none) [4, 0] (some [C40.joint])).calcKG C16.env none = .ok (G, g) ∧
    Lowest Kr G := by
  obtain ⟨t, ht⟩ := pressed_ok
  have hl := laid_init (fun _ => pressed) (fun _ => none) [4, 0] (some [C40.joint]) (by decide)
  have hpan : t.fixR.pan = pressed.pan := (rebuild_kept _ ht).1
  have hst : ∀ k, C40.start (fun p => if p ∈ [4, 0] then t.fixR else pressed) [4, 0] k
      = C40.start (fun _ => pressed) [4, 0] k := fun k => by
    unfold C40.start
    refine congrArg List.sum (List.map_congr_left fun p hp => ?_)
    simp only [if_pos (List.mem_of_mem_take hp), hpan]
  obtain ⟨L, arg', M2, hc⟩ := getKCconn_exists C16.env
    { Multi.init (fun _ => pressed) (fun _ => none) [4, 0] (some [C40.joint]) with
      shells := fun p => if p ∈ [4, 0] then t.fixR else pressed }
    ⟨hl.1, fun k hk => by
      obtain ⟨q, q1, q2⟩ := hl.place k hk
      exact ⟨q, q1, q2.trans (hst k).symm⟩⟩
    (fun p hp => C39.others_kept (fun _ => pressed) (fun _ => none) [4, 0] (some [C40.joint]) hp) rfl
    (fun p hp => by
      have hp : p ∈ [4, 0] := hp
      simp only [if_pos hp, hpan]
      exact ⟨Nat.succ_pos _, Nat.succ_pos _⟩)
    (fun p hp => by
      have hp : p ∈ [4, 0] := hp
      simp only [if_pos hp]
      obtain ⟨-, lam, -, -, -, hlam, -⟩ := rebuild_built C16.env _ _ ht
      exact ⟨t.fixR, lam, C109.rebuild_again ht, hlam⟩)
    [C40.joint] (by simp) (fun d hd => by
      rw [List.mem_singleton.1 hd]
      exact ⟨show C40.joint.p1 ∈ [4, 0] by decide, show C40.joint.p2 ∈ [4, 0] by decide, by decide,
        .inl ⟨.inl rfl, 0, 3, rfl, rfl⟩⟩) none (.inr ⟨rfl, rfl⟩)
  exact multi (shells := fun _ => pressed) (T := fun _ => t) (by decide) (by simp) (fun _ _ => ht) _ (by simp) hc

/-- The hypotheses of `bay`. -/
example : ∃ B C, C106.inner = .ok B ∧ C = onBay (fun s => { s with Nxx := -2, Nyy := 0, Nxy := 1 }) B ∧
    ∃ (Kr : ℝ → Coo ℝ) (G : Coo ℝ) (w : ℝ → Bay ℝ) (g : Bay ℝ), (∀ r, (onBay (pre r) C).calcKC C106.envG = .ok (Kr r, w r)) ∧
      C.calcKG C106.envG none = .ok (G, g) ∧ Lowest Kr G := by
  obtain ⟨B, R, N, hB, hne, hR, hr, hN, hs, hk, h1, -⟩ := C106.pieces
  have hg := loads_load (-2) 0 1
  have h := C106.inner_solid hB hne hR hN hs hr hk h1
  exact ⟨B, _, hB, rfl, bay (terms_on hg h.terms) (by simpa [onBay] using hne) (rebuild_on hg hR) (size_on hg hN)
    (ready_on hg hr) fun s hs => by
      rw [show (onBay _ R).blade1 = R.blade1 from rfl, h1] at hs
      cases hs⟩

end Verif.C113
