import Verif.Props.C52

/-!
# When the matrices of a stiffened bay exist
-/

set_option linter.unusedSectionVars false

namespace Verif

open Model

variable {K : Type} [Field K] [LinearOrder K]

theorem forall₂_mem_left {α β : Type} {P : α → β → Prop} {l : List α} {l' : List β}
    (h : List.Forall₂ P l l') : ∀ a ∈ l, ∃ b ∈ l', P a b := by
  induction h with
  | nil => simp
  | cons hab _ ih =>
    intro a ha
    rcases List.mem_cons.1 ha with rfl | ha
    · exact ⟨_, List.mem_cons_self, hab⟩
    · obtain ⟨b, hb, h⟩ := ih a ha
      exact ⟨b, List.mem_cons_of_mem _ hb, h⟩

theorem sumLoop_total {α : Type} {f : α → Except Fail (Coo K × α)} {l : List α}
    (h : ∀ a ∈ l, ∃ x, f a = .ok x) : ∃ x, sumLoop f l = .ok x := by
  induction l with
  | nil => exact ⟨_, rfl⟩
  | cons a l ih =>
    obtain ⟨x, hx⟩ := h a List.mem_cons_self
    obtain ⟨y, hy⟩ := ih fun b hb => h b (List.mem_cons_of_mem _ hb)
    exact ⟨_, bind_ok.2 ⟨x, hx, bind_ok.2 ⟨y, hy, rfl⟩⟩⟩

theorem blade2Loop_total {R : Bay K} {N : ℕ}
    {f : Bay K → ℕ → Blade2 K → Except Fail (Coo K × Blade2 K × Bay K)}
    (hf : ∀ C off s, SameSkin R C → s ∈ R.blade2 → off + C52.width s ≤ N →
      ∃ L t C', f C off s = .ok (L, t, C') ∧ SameSkin R C' ∧ flangeSize t = .ok (C52.width s))
    {l : List (Blade2 K)} (hl : ∀ s ∈ l, s ∈ R.blade2) {off : ℕ}
    (hN : off + (l.map C52.width).sum ≤ N) {C : Bay K} (hC : SameSkin R C) :
    ∃ L l' C', blade2Loop f C off l = .ok (L, l', C') ∧ SameSkin R C' := by
  induction l generalizing off C with
  | nil => exact ⟨_, _, _, rfl, hC⟩
  | cons s l ih =>
    rw [List.map_cons, List.sum_cons] at hN
    obtain ⟨L, t, C1, h1, h2, h3⟩ := hf C off s hC (hl s List.mem_cons_self) (by omega)
    obtain ⟨L', l', C2, g1, g2⟩ := ih (fun b hb => hl b (List.mem_cons_of_mem _ hb))
      (off := off + C52.width s) (by omega) h2
    exact ⟨_, _, C2, bind_ok.2 ⟨(L, t, C1), h1, bind_ok.2 ⟨_, h3, bind_ok.2 ⟨(L', l', C2), g1, rfl⟩⟩⟩,
      g2⟩

/-- If all parts exist, so does the sum. -/
theorem assemble_total {E : BayEnv K} {B R : Bay K} {N : ℕ}
    {fp : ℕ → Shell K → Except Fail (Coo K × Shell K)}
    {f1 : Bay K → ℕ → Blade1 K → Except Fail (Coo K × Blade1 K)}
    {f2 : ℕ → Bay K → ℕ → Blade2 K → Except Fail (Coo K × Blade2 K × Bay K)}
    (hR : B.rebuild E = .ok R) (hN : R.getSize = .ok N) (hne : B.panels ≠ [])
    (hp : ∀ p ∈ R.panels, ∃ L, fp N p = .ok (L, p.fixR))
    (h1 : ∀ C s, SameSkin R C → s ∈ R.blade1 → ∃ x, f1 C N s = .ok x)
    (h2 : ∀ C off s, SameSkin R C → s ∈ R.blade2 → off + C52.width s ≤ N →
      ∃ L t C', f2 N C off s = .ok (L, t, C') ∧ SameSkin R C' ∧ flangeSize t = .ok (C52.width s)) :
    ∃ x, B.assemble E fp f1 f2 = .ok x := by
  obtain ⟨⟨Lp, ps⟩, gp⟩ := sumLoop_total (f := fp N) (l := R.panels) fun p hp' =>
    (hp p hp').elim fun L h => ⟨_, h⟩
  have hps : ps = R.panels.map Shell.fixR := by
    obtain ⟨X, hX, rfl, -⟩ := sumLoop_ok gp
    exact C52.forall₂_map_eq hX fun p x hp' hx => by
      obtain ⟨L, h⟩ := hp p hp'
      rw [h] at hx
      cases hx
      rfl
  have hs : SameSkin R { R with panels := ps } := ⟨rfl, rfl, hps⟩
  obtain ⟨⟨L1, b1⟩, g1⟩ := sumLoop_total (f := f1 { R with panels := ps } N) (l := R.blade1)
    fun s hs' => h1 _ s hs hs'
  obtain ⟨hk, -, hsz⟩ := (C52.size_iff R N).1 hN
  have hsk : Bay.skinSize { R with panels := ps, blade1 := b1 } = .ok (3 * R.skin.m * R.skin.n) := by
    unfold Bay.skinSize
    cases hk' : R.model.bind kindOf with
    | none => exact absurd hk' hk
    | some k => rfl
  obtain ⟨L2, b2, C', g2, hC'⟩ := blade2Loop_total h2 (fun s hs => hs)
    (off := 3 * R.skin.m * R.skin.n) (le_of_eq hsz.symm)
    (C := { R with panels := ps, blade1 := b1 }) ⟨rfl, rfl, hps⟩
  have hC : C'.panels ≠ [] := by
    rw [hC'.panels]
    obtain ⟨m, qs, hq, e, -⟩ := bay_rebuild_ok hR
    have := (rebuildPanels_ok hq).1.length_eq
    intro h0
    rw [List.map_eq_nil_iff, e] at h0
    rw [h0] at this
    exact hne (List.length_eq_zero_iff.1 this)
  have hfin : finSum C'.panels true (Lp ++ L1 ++ L2) = .ok (fin true (Lp ++ L1 ++ L2)) := by
    unfold finSum
    rw [if_neg]
    simpa using hC
  exact ⟨(fin true (Lp ++ L1 ++ L2), { C' with blade2 := b2 }), bind_ok.2 ⟨R, hR, bind_ok.2 ⟨N, hN,
    bind_ok.2 ⟨(Lp, ps), gp, bind_ok.2 ⟨(L1, b1), g1, bind_ok.2 ⟨_, hsk, bind_ok.2 ⟨(L2, b2, C'), g2,
    bind_ok.2 ⟨_, hfin, rfl⟩⟩⟩⟩⟩⟩⟩⟩

theorem optPart_total {f : Shell K → Except Fail (Coo K × Shell K)} {o : Option (Shell K)}
    (h : ∀ b, o = some b → ∃ x, f b = .ok x) : ∃ x, optPart f o = .ok x := by
  cases o with
  | none => exact ⟨_, rfl⟩
  | some b =>
    obtain ⟨x, hx⟩ := h b rfl
    exact ⟨_, bind_ok.2 ⟨x, hx, rfl⟩⟩

/-- The width of the flange of a rebuilt 1D stiffener is a number. -/
theorem blade1_bf {E : BayEnv K} {B : Bay K} {s t : Blade1 K} (h : s.rebuild E B = .ok t) :
    ∃ x, number t.bf = .ok x := by
  unfold Blade1.rebuild at h
  obtain ⟨pq, h1, h⟩ := bind_ok.1 h
  obtain ⟨pl, h2, h⟩ := bind_ok.1 h
  obtain ⟨ba, h3, h⟩ := bind_ok.1 h
  obtain ⟨bf, h4, h⟩ := bind_ok.1 h
  obtain ⟨se, h5, h⟩ := bind_ok.1 h
  cases h
  exact ⟨bf, h4⟩

theorem blade1_pair {E : BayEnv K} {B : Bay K} {s t : Blade1 K} (h : s.rebuild E B = .ok t) :
    ∃ pq, B.pair t.panel1 t.panel2 = .ok pq := by
  unfold Blade1.rebuild at h
  obtain ⟨pq, h1, h⟩ := bind_ok.1 h
  obtain ⟨pl, h2, h⟩ := bind_ok.1 h
  obtain ⟨ba, h3, h⟩ := bind_ok.1 h
  obtain ⟨bf, h4, h⟩ := bind_ok.1 h
  obtain ⟨se, h5, h⟩ := bind_ok.1 h
  cases h
  exact ⟨pq, h1⟩

theorem pos4 {d m n : ℕ} (h : 0 < d * m * n * m * n) : 0 < m * n := by
  rcases Nat.eq_zero_or_pos m with rfl | hm
  · simp at h
  rcases Nat.eq_zero_or_pos n with rfl | hn
  · simp at h
  exact Nat.mul_pos hm hn

/-- A bay after `_rebuild` whose bases and flanges can be rebuilt. -/
structure Ready (E : BayEnv K) (R : Bay K) : Prop where
  base1 : ∀ s ∈ R.blade1, ∀ b, s.base = some b → ∃ t, b.rebuild E.toEnv = .ok t
  base2 : ∀ s ∈ R.blade2, ∀ b, s.base = some b → ∃ t, b.rebuild E.toEnv = .ok t
  flange : ∀ s ∈ R.blade2, ∀ f, s.flange = some f → ∃ t, f.rebuild E.toEnv = .ok t

section
variable {E : BayEnv K} {R C : Bay K} {N : ℕ}

theorem blade1C_total (hb : C52.Built E R) (hr : Ready E R) (hC : SameSkin R C)
    (hN : 3 * R.skin.m * R.skin.n ≤ N) {s : Blade1 K} (hs : s ∈ R.blade1) :
    ∃ x, s.calcKC E C N 0 0 = .ok x := by
  have h1 := hb.blade1 s hs C hC
  obtain ⟨⟨Lb, ob⟩, h2⟩ := optPart_total (o := s.base) (f := fun sh => sh.calcKC E.toEnv
    { size := .num N, row0 := 0, col0 := 0, finalize := false }) fun b e => by
      obtain ⟨t, ht⟩ := hr.base1 s hs b e
      obtain ⟨L, L0, e1, -⟩ := kC_slice E.toEnv b t ht none N 0
        (by rw [(hb.terms.base1 s hs b e).1, (hb.terms.base1 s hs b e).2]; omega) (by simp)
      exact ⟨_, e1⟩
  obtain ⟨bf, hbf⟩ := blade1_bf h1
  have h3 : ∃ L, s.partC E C N 0 0 = .ok L := by
    unfold Blade1.partC
    cases s.sec with
    | none => exact ⟨_, rfl⟩
    | some c =>
      refine ⟨_, bind_ok.2 ⟨bf, hbf, toSparse_fits C.skin (C24.fkCf_fits ..) ?_ pos4⟩⟩
      rw [hC.skin]
      constructor <;> omega
  obtain ⟨Lf, h3⟩ := h3
  exact ⟨_, bind_ok.2 ⟨s, h1, bind_ok.2 ⟨_, h2, bind_ok.2 ⟨Lf, h3, rfl⟩⟩⟩⟩

theorem blade1G_total (hb : C52.Built E R) (hC : SameSkin R C)
    (hN : 3 * R.skin.m * R.skin.n ≤ N) {s : Blade1 K} (hs : s ∈ R.blade1) :
    ∃ x, s.calcKG E C N 0 0 none = .ok x := by
  have h1 := hb.blade1 s hs C hC
  have h3 : ∃ L, s.partG E C N 0 0 = .ok L := by
    unfold Blade1.partG
    cases s.sec with
    | none => exact ⟨_, rfl⟩
    | some c =>
      refine ⟨_, toSparse_fits C.skin (C24.fkGf_fits ..) ?_ pos4⟩
      rw [hC.skin]
      constructor <;> omega
  obtain ⟨Lf, h3⟩ := h3
  unfold Blade1.calcKG
  rw [if_neg (by simp)]
  exact ⟨_, bind_ok.2 ⟨s, h1, bind_ok.2 ⟨_, h3, rfl⟩⟩⟩

theorem blade1M_total (hb : C52.Built E R) (hC : SameSkin R C)
    (hN : 3 * R.skin.m * R.skin.n ≤ N) {s : Blade1 K} (hs : s ∈ R.blade1) (h0 : s.base = none) :
    ∃ x, s.calcKM E C N 0 0 = .ok x := by
  have h1 := hb.blade1 s hs C hC
  obtain ⟨⟨Lb, ob⟩, h2⟩ := optPart_total (o := s.base) (f := fun sh =>
    sh.calcKM E.toEnv (.num N) 0 0 none none none none false) fun b e => by rw [h0] at e; cases e
  obtain ⟨bf, hbf⟩ := blade1_bf h1
  obtain ⟨pq, hpq⟩ := blade1_pair h1
  have h3 : ∃ L, s.partM E C N 0 0 = .ok L := by
    unfold Blade1.partM
    cases s.sec with
    | none => exact ⟨_, rfl⟩
    | some c =>
      refine ⟨_, bind_ok.2 ⟨pq, hpq, bind_ok.2 ⟨bf, hbf,
        toSparse_fits C.skin (C24.fkMf_fits ..) ?_ pos4⟩⟩⟩
      rw [hC.skin]
      constructor <;> omega
  obtain ⟨Lf, h3⟩ := h3
  exact ⟨_, bind_ok.2 ⟨s, h1, bind_ok.2 ⟨_, h2, bind_ok.2 ⟨Lf, h3, rfl⟩⟩⟩⟩

/-- The model of a flange is known and does not change. -/
theorem flangeSize_ok {s t : Blade2 K} {f g : Shell K} (hf : s.flange = some f)
    (ht : t.flange = some g) (hm : g.model.bind kindOf ≠ none) (hp : g.pan = f.pan) :
    flangeSize t = .ok (C52.width s) := by
  unfold flangeSize C52.width
  rw [hf, ht]
  simp only
  unfold Shell.getSize
  cases hk : g.model.bind kindOf with
  | none => exact absurd hk hm
  | some k => rw [hp]

theorem rebuild_kind {E : Env K} {s t : Shell K} (h : s.rebuild E = .ok t) :
    t.model.bind kindOf ≠ none := by
  obtain ⟨⟨k, hk⟩, -, -, -, lam, -, rfl⟩ := (C54.rebuild_ok_iff E s t).1 h
  simp [hk]

theorem rebuild_lam_some {E : Env K} {s t : Shell K} (h : s.rebuild E = .ok t) :
    ∃ l, t.lam = some l := by
  obtain ⟨-, -, -, -, lam, -, rfl⟩ := (C54.rebuild_ok_iff E s t).1 h
  exact ⟨_, rfl⟩

theorem ktkrY_total {E : Env K} {p1 p2 t1 t2 : Shell K} (h1 : p1.rebuild E = .ok t1)
    (h2 : p2.rebuild E = .ok t2) : ∃ k, ktkrY E p1 p2 = .ok (k, t1, t2) := by
  obtain ⟨l1, e1⟩ := rebuild_lam_some h1
  obtain ⟨l2, e2⟩ := rebuild_lam_some h2
  have hk : ∃ kt kr, calcKtKr (penOf t1 l1) (penOf t2 l2) "ycte" = some (kt, some kr) :=
    ⟨_, _, rfl⟩
  obtain ⟨kt, kr, hk⟩ := hk
  refine ⟨(kt, kr), bind_ok.2 ⟨t1, h1, bind_ok.2 ⟨t2, h2, ?_⟩⟩⟩
  rw [e1, e2]
  simp only [hk]

theorem bladeConn_sparse (S : Shape K) (I : Tab K) (P Pf : Panel K) (kt kr ys : K) {off : ℕ}
    (h1 : 3 * P.m * P.n ≤ N) (h2 : off + 3 * Pf.m * Pf.n ≤ N) :
    toSparse N (bladeConn S I P Pf kt kr ys 0 off) = .ok (bladeConn S I P Pf kt kr ys 0 off) := by
  rw [mul_assoc] at h1 h2
  refine toSparse_of fun t ht => ?_
  unfold bladeConn at ht
  rw [List.mem_append, List.mem_append] at ht
  rcases ht with (ht | ht) | ht
  · exact (C24.fkCss_fits ..).inMatrix (by omega) (by omega) (fun h => by have := pos4 h; omega) t ht
  · refine (C24.fkCsf_fits ..).inMatrix (by omega) (by omega) (fun h => ?_) t ht
    have : 0 < P.m * P.n := by
      have h' := Nat.pos_of_mul_pos_right (Nat.pos_of_mul_pos_right h)
      rw [mul_assoc] at h'
      exact Nat.pos_of_mul_pos_left h'
    omega
  · exact (C24.fkCff_fits ..).inMatrix (by omega) (by omega) (fun h => by have := pos4 h; omega) t ht

end

end Verif
