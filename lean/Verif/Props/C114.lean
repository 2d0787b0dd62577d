import Verif.Props.C113
import Verif.Props.C80Ready
import Verif.Props.C88

/-!
# C114: tension

Forces that pull in every direction lower no frequency and never make the structure buckle.
-/

set_option linter.unusedSectionVars false

namespace Verif.C114

open Model Spec Indep C111 C113

/-- The membrane forces pull in every direction. -/
def Pulled (s : Shell ℝ) : Prop := ∀ x y : ℝ, 0 ≤ s.Nxx * x ^ 2 + 2 * s.Nxy * (x * y) + s.Nyy * y ^ 2

/-- In terms of the components. -/
theorem pulled_iff (s : Shell ℝ) : Pulled s ↔ 0 ≤ s.Nxx ∧ 0 ≤ s.Nyy ∧ s.Nxy ^ 2 ≤ s.Nxx * s.Nyy := by
  constructor
  · intro h
    have h1 : 0 ≤ s.Nxx := by simpa using h 1 0
    have h2 : 0 ≤ s.Nyy := by simpa using h 0 1
    refine ⟨h1, h2, ?_⟩
    rcases h1.eq_or_lt with h0 | h0
    · rw [← h0, zero_mul]
      by_contra hn
      push Not at hn
      have hne : s.Nxy ≠ 0 := fun e => by simp [e] at hn
      have := h (-(s.Nyy + 1) / (2 * s.Nxy)) 1
      rw [← h0] at this
      have e : 2 * s.Nxy * (-(s.Nyy + 1) / (2 * s.Nxy) * 1) = -(s.Nyy + 1) := by field_simp
      rw [e] at this
      linarith
    · have := h s.Nxy (-s.Nxx)
      have e : s.Nxx * s.Nxy ^ 2 + 2 * s.Nxy * (s.Nxy * -s.Nxx) + s.Nyy * (-s.Nxx) ^ 2
          = s.Nxx * (s.Nxx * s.Nyy - s.Nxy ^ 2) := by ring
      rw [e] at this
      exact sub_nonneg.1 (nonneg_of_mul_nonneg_right this h0)
  · rintro ⟨h1, h2, h3⟩ x y
    rcases h1.eq_or_lt with h0 | h0
    · rw [← h0, zero_mul] at h3
      have : s.Nxy = 0 := pow_eq_zero_iff (two_ne_zero) |>.1 (le_antisymm h3 (sq_nonneg _))
      rw [← h0, this]
      have := mul_nonneg h2 (sq_nonneg y)
      linarith
    · refine (mul_nonneg_iff_of_pos_left h0).1 ?_
      have e : s.Nxx * (s.Nxx * x ^ 2 + 2 * s.Nxy * (x * y) + s.Nyy * y ^ 2)
          = (s.Nxx * x + s.Nxy * y) ^ 2 + (s.Nxx * s.Nyy - s.Nxy ^ 2) * y ^ 2 := by ring
      rw [e]
      exact add_nonneg (sq_nonneg _) (mul_nonneg (sub_nonneg.2 h3) (sq_nonneg _))

theorem slopeWork_pulled (S : Shape ℝ) {P : Panel ℝ} (ha : 0 ≤ P.a) (hb : 0 ≤ P.b) {s : Shell ℝ} (h : Pulled s) (c : ℕ → ℝ) :
    0 ≤ slopeWork S P s.Nxx s.Nyy s.Nxy c :=
  intervalIntegral.integral_nonneg ha fun _ _ => intervalIntegral.integral_nonneg hb fun _ _ => h _ _

/-- What tension does to the matrices of a structure: more of it never lowers a floor of the eigenvalues nor any
of the ordered values of the modes, and no positive multiple of it is critical, whatever the stiffness. -/
structure Tension (Kr : ℝ → Coo ℝ) (G : Coo ℝ) : Prop where
  raises : ∀ (J : Finset ℕ) (M : Coo ℝ), C80.Sym M → C80.Pos J M → ∀ r r' x : ℝ, r ≤ r' →
    Floor J (Kr r) M x → Floor J (Kr r') M x
  every : ∀ (J : Finset ℕ) (M : Coo ℝ), C80.Sym M → C80.Pos J M → ∀ r r' : ℝ, r ≤ r' → ∀ φ lam φ' lam',
    Modes J (Kr r) M φ lam → Modes J (Kr r') M φ' lam' → ∀ a, lam a ≤ lam' a
  never : ∀ (J : Finset ℕ) (K : Coo ℝ), C80.Sym K → C80.Pos J K → ∀ p : ℂ, Critical J K G p → ∃ q : ℝ, p = q ∧ q < 0

theorem tension {Kr : ℝ → Coo ℝ} {K G : Coo ℝ} (hK : C80.Sym K) (hG : C80.Sym G) (h : ∀ r, Shifted (Kr r) K G r)
    (hp : ∀ v, 0 ≤ Coo.quad G v) : Tension Kr G := by
  have hs : ∀ r, C80.Sym (Kr r) := fun r i j => by rw [h r i j, h r j i, hK i j, hG i j]
  refine ⟨fun J M hM hm r r' x hr hf => (floor_iff (hs _) hM hm).2 fun v hv => ?_,
    fun J M hM hm r r' hr φ lam φ' lam' h1 h2 a => ?_, fun J K hK hk p hc => ?_⟩
  · have := (floor_iff (hs _) hM hm).1 hf v hv
    rw [quad_shifted (h _) v hv] at this ⊢
    have := mul_nonneg (sub_nonneg.2 hr) (hp v)
    linarith
  · refine C88.compare h2 h1 hM hM LinearMap.id a.2 a.2 (fun _ hv => hv) (fun v hv => ?_) (fun _ _ => le_rfl)
      fun v hv h0 => hm v hv h0
    rw [LinearMap.id_apply, quad_shifted (h _) v hv, quad_shifted (h _) v hv]
    have := mul_nonneg (sub_nonneg.2 hr) (hp v)
    linarith
  · obtain ⟨-, hi⟩ := C80.critical_real hG hK hk hc
    have e : p = (p.re : ℂ) := Complex.ext (by simp) (by simpa using hi)
    rw [e] at hc
    exact ⟨p.re, e, (C80.critical_sign hG hK hk hc).1 hp⟩

theorem quad_pulled {E : Env ℝ} (hI : E.I.Exact E.S Mean.integral) (hS : E.S.C2) {s t : Shell ℝ} (ht : s.rebuild E = .ok t)
    (ha : 0 < s.pan.a) (hb : 0 < s.pan.b) (hN : Pulled s) {L : Coo ℝ} {w : Shell ℝ} (h : s.calcKG E {} = .ok (L, w))
    (v : ℕ → ℝ) : 0 ≤ Coo.quad L v := by
  rw [shell_kG_slope hI hS ht ha.ne' hb.ne' h]
  exact slopeWork_pulled _ ha.le hb.le hN _

/-- **C114, one panel.** -/
theorem panel {E : Env ℝ} (hI : E.I.Exact E.S Mean.integral) (hS : E.S.C2) {s t : Shell ℝ} (ht : s.rebuild E = .ok t)
    (ha : 0 < s.pan.a) (hb : 0 < s.pan.b) (hN : Pulled s) :
    ∃ (Kr : ℝ → Coo ℝ) (G : Coo ℝ) (w : ℝ → Shell ℝ) (g : Shell ℝ), (∀ r, (pre r s).calcKC E {} = .ok (Kr r, w r)) ∧
      s.calcKG E {} = .ok (G, g) ∧ Tension Kr G := by
  obtain ⟨K, G, h1, h2, h3, h4, h5⟩ := C111.panel ht (A := {}) ⟨fun x hx => (by cases hx), fun x hx => (by cases hx),
    fun x hx => (by cases hx), by simp [C38.sizeOf], by simp [C38.sizeOf]⟩ rfl rfl rfl
  choose Kr e1 e2 _ using h5
  refine ⟨Kr, G, _, _, e1, h2, tension h3 h4 e2 (quad_pulled hI hS ht ha hb hN h2)⟩

theorem quad_multi {E : Env ℝ} (hI : E.I.Exact E.S Mean.integral) (hS : E.S.C2) {shells T : ℕ → Shell ℝ}
    {place : ℕ → Option Place} {panels : List ℕ} {conn : Option (List (ConnD ℝ))}
    (hn : panels.Nodup) (h0 : panels ≠ []) (hT : ∀ p ∈ panels, (shells p).rebuild E = .ok (T p))
    (hab : ∀ p ∈ panels, 0 < (shells p).pan.a ∧ 0 < (shells p).pan.b) (hN : ∀ p ∈ panels, Pulled (shells p))
    {G : Coo ℝ} {g : Multi ℝ} (h2 : (Multi.init shells place panels conn).calcKG E none = .ok (G, g)) (v : ℕ → ℝ) :
    0 ≤ Coo.quad G v := by
  obtain ⟨own, g1, L, M', g2, g3⟩ := C40.kG_energy E shells place panels conn hn h0 T hT none (by simp)
  obtain rfl : G = L := (Prod.mk.inj (Except.ok.inj (h2.symm.trans g2))).1
  rw [g3]
  refine List.sum_nonneg fun x hx => ?_
  obtain ⟨k, hk, rfl⟩ := List.mem_map.1 hx
  have hk := List.mem_range.1 hk
  have hm : panels[k] ∈ panels := List.getElem_mem hk
  exact quad_pulled hI hS (hT _ hm) (hab _ hm).1 (hab _ hm).2 (hN _ hm) (g1 k hk) _

/-- **C114, assemblies.** -/
theorem multi {E : Env ℝ} (hI : E.I.Exact E.S Mean.integral) (hS : E.S.C2) {shells T : ℕ → Shell ℝ}
    {place : ℕ → Option Place} {panels : List ℕ} {conn arg arg' : Option (List (ConnD ℝ))}
    (hn : panels.Nodup) (h0 : panels ≠ []) (hT : ∀ p ∈ panels, (shells p).rebuild E = .ok (T p))
    (hab : ∀ p ∈ panels, 0 < (shells p).pan.a ∧ 0 < (shells p).pan.b) (hN : ∀ p ∈ panels, Pulled (shells p))
    (c : Option (CArg ℝ)) (hc : ∀ x, c = some x → ∃ f, x = .vec (C40.total shells panels) f) {kConn : Coo ℝ} {M2 : Multi ℝ}
    (hconn : ({ Multi.init shells place panels conn with
        shells := fun p => if p ∈ panels then (T p).fixR else shells p } : Multi ℝ).getKCconn E arg = .ok (kConn, arg', M2)) :
    ∃ (Kr : ℝ → Coo ℝ) (G : Coo ℝ) (w : ℝ → Multi ℝ) (g : Multi ℝ),
      (∀ r, (Multi.init (fun p => pre r (shells p)) place panels conn).calcKC E arg c = .ok (Kr r, w r)) ∧
      (Multi.init shells place panels conn).calcKG E none = .ok (G, g) ∧ Tension Kr G := by
  obtain ⟨K, G, w, g, h1, h2, h3, h4, h5⟩ := C111.multi hn h0 hT c hc hconn
  choose Kr w' e1 e2 _ using h5
  exact ⟨Kr, G, _, _, e1, h2, tension h3 h4 e2 (quad_multi hI hS hn h0 hT hab hN h2)⟩

theorem given_pulled (E : Env ℝ) {f : Shell ℝ} (ha : 0 < f.pan.a) (hb : 0 < f.pan.b) (hN : Pulled f) (off : ℕ) (v : ℕ → ℝ) :
    0 ≤ C106.given E (some f) off v :=
  slopeWork_pulled E.S (P := f.panel) ha.le hb.le hN fun k => v (off + k)

theorem quad_bay {E : BayEnv ℝ} {B R : Bay ℝ} {N : ℕ} (h : SolidBay E B R N) (hF : ∀ s ∈ R.blade1, s.Fx.getD 0 = 0)
    (hp : ∀ p ∈ R.panels, Pulled p) (hf : ∀ s ∈ R.blade2, ∀ f, s.flange = some f → Pulled f) {G : Coo ℝ} {g : Bay ℝ}
    (h2 : B.calcKG E none = .ok (G, g)) (v : ℕ → ℝ) : 0 ≤ Coo.quad G v := by
  obtain ⟨k, B1, hk, Qp, Q1, q1, q2, q3⟩ := C106.loads h
  obtain rfl : G = k := (Prod.mk.inj (Except.ok.inj (h2.symm.trans hk))).1
  rw [q3]
  refine add_nonneg (add_nonneg ?_ ?_) ?_
  · refine List.sum_nonneg fun x hx => ?_
    obtain ⟨q, hq, rfl⟩ := List.mem_map.1 hx
    obtain ⟨p, hm, L, t, hL, e⟩ := C52.forall₂_mem_right q1 q hq
    have hL : p.calcKG E.toEnv {} = .ok (L, t) := hL
    obtain ⟨t', lam, hs⟩ := h.skin p hm
    obtain ⟨x1, x2, y1, y2, ep⟩ := hs.plan
    have ea : p.pan.a = R.skin.a := by
      have := congrArg Panel.a ep
      exact this
    have eb : p.pan.b = R.skin.b := by
      have := congrArg Panel.b ep
      exact this
    have pa : 0 < p.pan.a := ea ▸ h.sides.1
    have pb : 0 < p.pan.b := eb ▸ h.sides.2
    exact le_of_le_of_eq (quad_pulled h.exact h.smooth hs.built pa pb (hp p hm) hL _) (e v).symm
  · refine List.sum_nonneg fun x hx => ?_
    obtain ⟨q, hq, rfl⟩ := List.mem_map.1 hx
    obtain ⟨s, hm, e⟩ := C52.forall₂_mem_right q2 q hq
    exact (beam_zero (hF s hm) e v).ge
  · refine List.sum_nonneg fun x hx => ?_
    obtain ⟨i, hi, rfl⟩ := List.mem_map.1 hx
    have hi := List.mem_range.1 hi
    have hs : R.blade2[i]? = some R.blade2[i] := List.getElem?_eq_getElem hi
    obtain ⟨f, ef, -⟩ := h.has_flange hs
    obtain ⟨fa, fb, -⟩ := h.flange _ (List.getElem_mem hi) f ef
    have pa : 0 < f.pan.a := fa ▸ h.sides.1
    have hN := hf _ (List.getElem_mem hi) f ef
    simp only [hs, Option.bind_some, ef]
    exact given_pulled E.toEnv pa fb hN _ v

/-- **C114, bays.** -/
theorem bay {E : BayEnv ℝ} {B R : Bay ℝ} {N : ℕ} (h : SolidBay E B R N) (hF : ∀ s ∈ R.blade1, s.Fx.getD 0 = 0)
    (hp : ∀ p ∈ R.panels, Pulled p) (hf : ∀ s ∈ R.blade2, ∀ f, s.flange = some f → Pulled f) :
    ∃ (Kr : ℝ → Coo ℝ) (G : Coo ℝ) (w : ℝ → Bay ℝ) (g : Bay ℝ), (∀ r, (onBay (pre r) B).calcKC E = .ok (Kr r, w r)) ∧
      B.calcKG E none = .ok (G, g) ∧ Tension Kr G := by
  obtain ⟨K, G, w, g, h1, h2, h3, h4, h5⟩ := C111.bay h.terms h.panels h.rebuilt h.size h.ready hF
  choose Kr w' e1 e2 _ using h5
  exact ⟨Kr, G, _, _, e1, h2, tension h3 h4 e2 (quad_bay h hF hp hf h2)⟩

/-! ## Examples -/

/-- The cylindrical panel of `C16`, pulled along both sides and sheared. -/
noncomputable def stretched : Shell ℝ := { C16.shell with Nxx := 2, Nyy := 1, Nxy := 1 }

theorem stretched_ok : ∃ t, stretched.rebuild C16.env = .ok t := by
  obtain ⟨t, h, -⟩ := C16.shell_call fun _ => 0
  exact ⟨_, C106.load_rebuild 2 1 1 h.built⟩

theorem stretched_pulled : Pulled stretched := (pulled_iff _).2 (by norm_num [stretched])

/-- Shear alone does not pull in every direction. -/
example : ¬ Pulled { C16.shell with Nxx := 0, Nyy := 0, Nxy := 1 } := fun h => by
  have := ((pulled_iff _).1 h).2.2
  norm_num at this

theorem stretched_sides : 0 < stretched.pan.a ∧ 0 < stretched.pan.b := by
  norm_num [stretched, C16.shell, C40.shell, Witness.panel]

/-- The hypotheses of `panel`. -/
example : ∃ (Kr : ℝ → Coo ℝ) (G : Coo ℝ) (w : ℝ → Shell ℝ) (g : Shell ℝ),
    (∀ r, (pre r stretched).calcKC C16.env {} = .ok (Kr r, w r)) ∧ stretched.calcKG C16.env {} = .ok (G, g) ∧ Tension Kr G := by
  obtain ⟨t, ht⟩ := stretched_ok
  exact panel (Tab.of_exact _ _) bardellShape_C2 ht stretched_sides.1 stretched_sides.2 stretched_pulled

/-- The hypotheses of `multi`: two panels, joined along an edge, about a state. -/
example : ∃ (Kr : ℝ → Coo ℝ) (G : Coo ℝ) (w : ℝ → Multi ℝ) (g : Multi ℝ),
    (∀ r, (Multi.init (fun _ => pre r stretched) (fun _ => none) [4, 0] (some [C40.joint])).calcKC C16.env none
      (some (.vec (C40.total (fun _ => stretched) [4, 0]) C107.pushed)) = .ok (Kr r, w r)) ∧
    (Multi.init (fun _ => stretched) (fun _ => none) [4, 0] (some [C40.joint])).calcKG C16.env none = .ok (G, g) ∧
    Tension Kr G := by
  obtain ⟨t, ht⟩ := stretched_ok
  have hl := laid_init (fun _ => stretched) (fun _ => none) [4, 0] (some [C40.joint]) (by decide)
  have hpan : t.fixR.pan = stretched.pan := (rebuild_kept _ ht).1
  have hst : ∀ k, C40.start (fun p => if p ∈ [4, 0] then t.fixR else stretched) [4, 0] k
      = C40.start (fun _ => stretched) [4, 0] k := fun k => by
    unfold C40.start
    refine congrArg List.sum (List.map_congr_left fun p hp => ?_)
    simp only [if_pos (List.mem_of_mem_take hp), hpan]
  obtain ⟨L, arg', M2, hc⟩ := getKCconn_exists C16.env
    { Multi.init (fun _ => stretched) (fun _ => none) [4, 0] (some [C40.joint]) with
      shells := fun p => if p ∈ [4, 0] then t.fixR else stretched }
    ⟨hl.1, fun k hk => by
      obtain ⟨q, q1, q2⟩ := hl.place k hk
      exact ⟨q, q1, q2.trans (hst k).symm⟩⟩
    (fun p hp => C39.others_kept (fun _ => stretched) (fun _ => none) [4, 0] (some [C40.joint]) hp) rfl
    (fun p hp => by
      have hp : p ∈ [4, 0] := hp
      simp only [if_pos hp, hpan]
      exact ⟨Nat.succ_pos _, Nat.succ_pos _⟩)
    (fun p hp => by
      have hp : p ∈ [4, 0] := hp
      simp only [if_pos hp]
      obtain ⟨-, lam, -, -, -, hlam, -⟩ := rebuild_built C16.env _ _ ht
      exact ⟨t.fixR, lam, C109.rebuild_again ht, hlam⟩)
    [C40.joint] (by simp) (fun d hd => by
      rw [List.mem_singleton.1 hd]
      exact ⟨show C40.joint.p1 ∈ [4, 0] by decide, show C40.joint.p2 ∈ [4, 0] by decide, by decide,
        .inl ⟨.inl rfl, 0, 3, rfl, rfl⟩⟩) none (.inr ⟨rfl, rfl⟩)
  exact multi (Tab.of_exact _ _) bardellShape_C2 (shells := fun _ => stretched) (T := fun _ => t) (by decide) (by simp)
    (fun _ _ => ht) (fun _ _ => stretched_sides) (fun _ _ => stretched_pulled) _ (by simp) hc

/-- A solid bay under other loads is solid. -/
theorem solid_on {E : BayEnv ℝ} {B R : Bay ℝ} {N : ℕ} (x y z : ℝ) (h : SolidBay E B R N) :
    SolidBay E (onBay (fun s => { s with Nxx := x, Nyy := y, Nxy := z }) B)
      (onBay (fun s => { s with Nxx := x, Nyy := y, Nxy := z }) R) N := by
  have hg := loads_load x y z
  refine ⟨h.exact, h.smooth, terms_on hg h.terms, by simpa [onBay] using h.panels, rebuild_on hg h.rebuilt,
    size_on hg h.size, h.sides, ?_, h.base1, ?_, ?_, h.beam⟩
  · intro p hp
    obtain ⟨p, hp', rfl⟩ := List.mem_map.1 hp
    obtain ⟨t, lam, k⟩ := h.skin p hp'
    exact ⟨_, lam, k.plan, C106.load_rebuild x y z k.built, k.hlam, k.sym, k.laminate, k.kind, k.unloaded, k.pos⟩
  · intro s hs b hb
    obtain ⟨s, hs', rfl⟩ := List.mem_map.1 hs
    exact h.base2 s hs' b hb
  · intro s hs f hf
    obtain ⟨s, hs', rfl⟩ := List.mem_map.1 hs
    obtain ⟨f, hf', rfl⟩ := Option.map_eq_some_iff.1 hf
    obtain ⟨fa, fb, t, lam, k⟩ := h.flange s hs' f hf'
    exact ⟨fa, fb, _, lam, k.plan, C106.load_rebuild x y z k.built, k.hlam, k.sym, k.laminate, k.kind, k.unloaded, k.pos⟩

/-- The hypotheses of `bay`. -/
example : ∃ B C, C106.inner = .ok B ∧ C = onBay (fun s => { s with Nxx := 2, Nyy := 1, Nxy := 1 }) B ∧
    ∃ (Kr : ℝ → Coo ℝ) (G : Coo ℝ) (w : ℝ → Bay ℝ) (g : Bay ℝ), (∀ r, (onBay (pre r) C).calcKC C106.envG = .ok (Kr r, w r)) ∧
      C.calcKG C106.envG none = .ok (G, g) ∧ Tension Kr G := by
  obtain ⟨B, R, N, hB, hne, hR, hr, hN, hs, hk, h1, -⟩ := C106.pieces
  have h := solid_on 2 1 1 (C106.inner_solid hB hne hR hN hs hr hk h1)
  refine ⟨B, _, hB, rfl, bay h ?_ ?_ ?_⟩
  · intro s hs
    rw [show (onBay _ R).blade1 = R.blade1 from rfl, h1] at hs
    cases hs
  · intro p hp
    obtain ⟨p, -, rfl⟩ := List.mem_map.1 hp
    exact (pulled_iff _).2 (by norm_num)
  · intro s hs f hf
    obtain ⟨s, -, rfl⟩ := List.mem_map.1 hs
    obtain ⟨f, -, rfl⟩ := Option.map_eq_some_iff.1 hf
    exact (pulled_iff _).2 (by norm_num)

end Verif.C114
