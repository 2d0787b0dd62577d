import Verif.Props.C110
import Verif.Props.C82

/-!
# C111: buckling and vibration of pre-stressed panels

Constant forces `Nxx_cte`, `Nyy_cte`, `Nxy_cte` that are `r` times the forces `Nxx`, `Nyy`, `Nxy` add to `calc_kC` the
`r`-fold of the matrix of `calc_kG`.  So the pre-stressed panel buckles under what is left of the critical loads, it
has a motion without frequency exactly when the pre-stress is critical, and all its frequencies are real and positive
exactly as long as the pre-stress is below the first critical load.
-/

set_option linter.unusedSectionVars false

namespace Verif.C111

open Model Spec Indep

/-! ## Matrices -/

section
variable {K K' G M : Coo ℝ} {J : Finset ℕ} {r : ℝ}

/-- The matrix of the pre-stressed structure. -/
def Shifted (K' K G : Coo ℝ) (r : ℝ) : Prop := ∀ i j, Coo.entry K' i j = Coo.entry K i j + r * Coo.entry G i j

theorem product (h : Shifted K' K G r) (z : ℕ → ℂ) (k : ℕ) : ∑ l ∈ J, ((Coo.entry K' k l : ℝ) : ℂ) * z l
    = ∑ l ∈ J, ((Coo.entry K k l : ℝ) : ℂ) * z l + r * ∑ l ∈ J, ((Coo.entry G k l : ℝ) : ℂ) * z l := by
  rw [Finset.mul_sum, ← Finset.sum_add_distrib]
  refine Finset.sum_congr rfl fun l _ => ?_
  rw [h]
  push_cast
  ring

/-- What is left of the critical loads. -/
theorem critical_left (h : Shifted K' K G r) (p : ℂ) : Critical J K' G p ↔ Critical J K G (r + p) := by
  refine exists_congr fun z => and_congr_right fun _ => forall₂_congr fun k _ => ?_
  rw [product h]
  constructor <;> intro e <;> linear_combination e

/-- A motion without frequency. -/
theorem still (h : Shifted K' K G r) : Eigen J K' M 0 ↔ Critical J K G r := by
  refine exists_congr fun z => and_congr_right fun _ => forall₂_congr fun k _ => ?_
  rw [product h, zero_mul]

theorem quad_shifted (h : Shifted K' K G r) (v : ℕ → ℝ) (hv : ∀ k ∉ J, v k = 0) :
    Coo.quad K' v = Coo.quad K v + r * Coo.quad G v := by
  rw [form_quad K' hv, form_quad K hv, form_quad G hv]
  unfold form
  rw [Finset.mul_sum, ← Finset.sum_add_distrib]
  refine Finset.sum_congr rfl fun k _ => ?_
  rw [mul_left_comm, ← mul_add]
  refine congrArg _ ?_
  rw [Finset.mul_sum, ← Finset.sum_add_distrib]
  refine Finset.sum_congr rfl fun l _ => ?_
  rw [h]
  ring

/-- Frequencies below the first critical load. -/
theorem vibrates_iff (h : Shifted K' K G r) (hK : C80.Sym K) (hG : C80.Sym G) (hM : C80.Sym M) (hp : C80.Pos J K)
    (hm : C80.Pos J M) (h0 : 0 ≤ r) : Vibrates J K' M ↔ ∀ q : ℝ, 0 < q → Critical J K G q → r < q := by
  have hK' : C80.Sym K' := fun i j => by rw [h, h, hK i j, hG i j]
  have e : C80.Pos J K' ↔ ∀ q : ℝ, 0 < q → Critical J K G q → r < q := by
    rw [← C80.stable_iff hG hK hp h0]
    refine forall_congr' fun v => imp_congr_right fun _ => forall_congr' fun hv => ?_
    rw [quad_shifted h v hv]
  rw [← e]
  refine ⟨?_, fun h' => C80.vibrates hK' hM h' hm⟩
  rintro ⟨φ, ω, hω, -, hmod, -⟩
  exact (C80.positive_iff hmod hM).1 fun a => pow_pos (hω a) 2

end

/-! ## Panels -/

section
variable {E : Env ℝ} {s t : Shell ℝ}

/-- The panel with constant forces `x`, `y`, `z`. -/
def held (x y z : ℝ) (s : Shell ℝ) : Shell ℝ := { s with NxxCte := x, NyyCte := y, NxyCte := z }

/-- The panel pre-stressed by `r` times its forces. -/
def pre (r : ℝ) (s : Shell ℝ) : Shell ℝ := held (r * s.Nxx) (r * s.Nyy) (r * s.Nxy) s

theorem rebuild_held (x y z : ℝ) (ht : s.rebuild E = .ok t) : (held x y z s).rebuild E = .ok (held x y z t) := by
  obtain ⟨h1, h2, h3, h4, lam, h5, rfl⟩ := (C54.rebuild_ok_iff E s t).1 ht
  exact (C54.rebuild_ok_iff E _ _).2 ⟨h1, h2, h3, h4, lam, h5, rfl⟩

theorem fkG0_scaled (E : Env ℝ) (k : Kind) (P : Panel ℝ) (r N1 N2 N3 : ℝ) (row0 col0 : ℕ) :
    fkG0 E k P (r * N1) (r * N2) (r * N3) row0 col0 = scale r (fkG0 E k P N1 N2 N3 row0 col0) := by
  cases k
  · simp only [fkG0, plateFkG0]
    rw [scale_pad]
    refine congrArg _ (scale_symBuild (fun i k j l α β => ?_) ..)
    unfold Gen.PlateAna.fkG0
    split
    · unfold Gen.PlateAna.fkG0_22
      ring
    · ring
  · simp only [fkG0, cylFkG0]
    rw [scale_pad]
    refine congrArg _ (scale_symBuild (fun i k j l α β => ?_) ..)
    unfold Gen.CylAna.fkG0
    split
    · unfold Gen.CylAna.fkG0_22
      ring
    · ring

theorem quad_scale (r : ℝ) (L : Coo ℝ) (v : ℕ → ℝ) : Coo.quad (scale r L) v = r * Coo.quad L v := by
  unfold Coo.quad
  induction L with
  | nil => simp [scale, Coo.bilin]
  | cons t L ih =>
    rw [show scale r (t :: L) = [⟨t.row, t.col, r * t.val⟩] ++ scale r L from rfl,
      show (t :: L : Coo ℝ) = [t] ++ L from rfl, Coo.bilin_append, Coo.bilin_append, ih]
    simp only [Coo.bilin, List.map_cons, List.map_nil, List.sum_cons, List.sum_nil]
    ring

/-- The pre-stress part. -/
theorem wantG_pre (E : Env ℝ) (k : Kind) (t : Shell ℝ) (F : ℕ → ℕ → ℝ) (A : KArgs ℝ) (nx ny : ℕ) (hc : A.cCte = none)
    (hN : A.NLgeom = false) (r : ℝ) (v : ℕ → ℝ) : Coo.quad (Coo.finalizeSym (C38.wantG E k (pre r t).fixR F A nx ny)) v
      = r * Coo.quad (Coo.finalizeSym (fkG0 E k t.fixR.panel t.Nxx t.Nyy t.Nxy A.row0 A.col0)) v := by
  unfold C38.wantG
  by_cases hp : C38.PreStress (pre r t).fixR
  · rw [if_neg (by simp [hp]), if_pos ⟨hc, hN⟩]
    rw [show fkG0 E k (pre r t).fixR.panel (pre r t).fixR.NxxCte (pre r t).fixR.NyyCte (pre r t).fixR.NxyCte A.row0 A.col0
      = scale r (fkG0 E k t.fixR.panel t.Nxx t.Nyy t.Nxy A.row0 A.col0) from fkG0_scaled .., scale_finalizeSym,
      quad_scale]
  · rw [if_pos ⟨hc, hp⟩]
    have z : r * t.Nxx = 0 ∧ r * t.Nyy = 0 ∧ r * t.Nxy = 0 := by
      unfold C38.PreStress at hp
      push Not at hp
      exact hp
    have e := fkG0_scaled E k t.fixR.panel r t.Nxx t.Nyy t.Nxy A.row0 A.col0
    have e0 := fkG0_scaled E k t.fixR.panel 0 t.Nxx t.Nyy t.Nxy A.row0 A.col0
    rw [z.1, z.2.1, z.2.2] at e
    simp only [zero_mul] at e0
    have w : Coo.quad (Coo.finalizeSym (scale r (fkG0 E k t.fixR.panel t.Nxx t.Nyy t.Nxy A.row0 A.col0))) v
        = Coo.quad (Coo.finalizeSym (scale 0 (fkG0 E k t.fixR.panel t.Nxx t.Nyy t.Nxy A.row0 A.col0))) v := by
      rw [← e, ← e0]
    rw [scale_finalizeSym, scale_finalizeSym, quad_scale, quad_scale, zero_mul] at w
    rw [w]
    simp [Coo.finalizeSym, Coo.quad, Coo.bilin]

/-- **C111, one panel.**  With any state and laminate field of the documented shapes. -/
theorem panel (ht : s.rebuild E = .ok t) {A : KArgs ℝ} (hd : C38.Documented t A (A.nx.getD t.nx) (A.ny.getD t.ny))
    (hc : A.cCte = none) (hN : A.NLgeom = false) (hf : A.finalize = true) :
    ∃ K G, (pre 0 s).calcKC E A = .ok (K, (pre 0 t).fixR) ∧ s.calcKG E { A with c := none, ABDnxny := none } = .ok (G, t.fixR) ∧
      C80.Sym K ∧ C80.Sym G ∧ ∀ r, ∃ K', (pre r s).calcKC E A = .ok (K', (pre r t).fixR) ∧ Shifted K' K G r ∧
        ∀ v, Coo.quad K' v = Coo.quad K v + r * Coo.quad G v := by
  obtain ⟨k, lam, F, hb, hk, hl, hF⟩ := rebuild_built E s t ht
  have out : ∀ r, (pre r s).calcKC E A = .ok (Coo.finalizeSym
      (C38.wantC E k t.fixR.panel lam.ABD F A (A.nx.getD t.nx) (A.ny.getD t.ny)
        ++ C38.wantG E k (pre r t).fixR F A (A.nx.getD t.nx) (A.ny.getD t.ny)), (pre r t).fixR) := fun r => by
    have ht' : (pre r s).rebuild E = .ok (pre r t) := by
      obtain ⟨-, -, -, -, _, -, e⟩ := (C54.rebuild_ok_iff E s t).1 ht
      have e1 : t.Nxx = s.Nxx ∧ t.Nyy = s.Nyy ∧ t.Nxy = s.Nxy := by rw [e]; exact ⟨rfl, rfl, rfl⟩
      have := rebuild_held (r * s.Nxx) (r * s.Nyy) (r * s.Nxy) ht
      unfold pre
      rw [e1.1, e1.2.1, e1.2.2]
      exact this
    obtain ⟨k', lam', F', hk', hl', hF', e⟩ := C38.outcome_partial E (pre r s) (pre r t) A ht'
      ⟨hd.c, hd.cCte, hd.abd, hd.row, hd.col⟩ (by simp [hN]) (by simp [hN])
    cases hk.symm.trans hk'
    cases hl.symm.trans hl'
    cases hF.symm.trans hF'
    rw [hf] at e
    exact e
  have hG : s.calcKG E { A with c := none, ABDnxny := none }
      = .ok (Coo.finalizeSym (fkG0 E k t.fixR.panel t.Nxx t.Nyy t.Nxy A.row0 A.col0), t.fixR) := by
    unfold Shell.calcKG
    refine bind_ok.2 ⟨t, ht, bind_ok.2 ⟨(), rfl, bind_ok.2 ⟨(k, lam, F), hb, ?_⟩⟩⟩
    refine (if_pos (by simp [hN])).trans ?_
    refine bind_ok.2 ⟨_, fkG0_sparse E k t.fixR.panel _ _ _ (?_ : InSize t.fixR.panel A.row0 A.col0 _), ?_⟩
    · have e := C38.size_eq t A
      rw [e]
      exact ⟨hd.row, hd.col⟩
    · simp only [fin, hf, if_true]
      rfl
  have hq : ∀ r v, Coo.quad (Coo.finalizeSym (C38.wantC E k t.fixR.panel lam.ABD F A (A.nx.getD t.nx) (A.ny.getD t.ny)
        ++ C38.wantG E k (pre r t).fixR F A (A.nx.getD t.nx) (A.ny.getD t.ny))) v
      = Coo.quad (Coo.finalizeSym (C38.wantC E k t.fixR.panel lam.ABD F A (A.nx.getD t.nx) (A.ny.getD t.ny)
        ++ C38.wantG E k (pre 0 t).fixR F A (A.nx.getD t.nx) (A.ny.getD t.ny))) v
        + r * Coo.quad (Coo.finalizeSym (fkG0 E k t.fixR.panel t.Nxx t.Nyy t.Nxy A.row0 A.col0)) v := fun r v => by
    rw [Coo.finalizeSym_append_quad, Coo.finalizeSym_append_quad, wantG_pre E k t F A _ _ hc hN r,
      wantG_pre E k t F A _ _ hc hN 0]
    ring
  refine ⟨_, _, out 0, hG, sym_finalize _, sym_finalize _, fun r => ⟨_, out r, fun i j => ?_, hq r⟩⟩
  have h1 := fun v => (hq r v).trans (congrArg (· + _) (one_mul (Coo.quad _ v)).symm)
  refine (C110.entry_mix (sym_finalize _) (sym_finalize _) (sym_finalize _) (r := 1) (s := r) h1 i j).trans ?_
  rw [one_mul]

/-- What the matrices of a pre-stressed structure say: what is left of the critical loads, motions without frequency,
and frequencies. -/
structure Results (K' K G : Coo ℝ) (r : ℝ) : Prop where
  left : ∀ (J : Finset ℕ) (p : ℂ), Critical J K' G p ↔ Critical J K G (r + p)
  still : ∀ (J : Finset ℕ) (M : Coo ℝ), Eigen J K' M 0 ↔ Critical J K G r
  vibrates : 0 ≤ r → ∀ (J : Finset ℕ) (M : Coo ℝ), C80.Sym M → C80.Pos J M → C80.Pos J K →
    (Vibrates J K' M ↔ ∀ q : ℝ, 0 < q → Critical J K G q → r < q)

theorem results {K' K G : Coo ℝ} {r : ℝ} (h : Shifted K' K G r) (hK : C80.Sym K) (hG : C80.Sym G) : Results K' K G r :=
  ⟨fun _ p => critical_left h p, fun _ _ => still h, fun h0 _ _ hM hm hp => vibrates_iff h hK hG hM hp hm h0⟩

theorem panel_results (ht : s.rebuild E = .ok t) {A : KArgs ℝ}
    (hd : C38.Documented t A (A.nx.getD t.nx) (A.ny.getD t.ny)) (hc : A.cCte = none) (hN : A.NLgeom = false)
    (hf : A.finalize = true) :
    ∃ K G w g, (pre 0 s).calcKC E A = .ok (K, w) ∧ s.calcKG E { A with c := none, ABDnxny := none } = .ok (G, g) ∧
      ∀ r, ∃ K' w', (pre r s).calcKC E A = .ok (K', w') ∧ Results K' K G r := by
  obtain ⟨K, G, h1, h2, h3, h4, h5⟩ := panel ht hd hc hN hf
  refine ⟨K, G, _, _, h1, h2, fun r => ?_⟩
  obtain ⟨K', e, hs, -⟩ := h5 r
  exact ⟨K', _, e, results hs h3 h4⟩

end

/-! ## Assemblies -/

section
variable {E : Env ℝ}

/-- The assembly with constant forces `n` in its panels. -/
def hold (n : ℕ → ℝ × ℝ × ℝ) (M : Multi ℝ) : Multi ℝ :=
  { M with shells := fun p => held (n p).1 (n p).2.1 (n p).2.2 (M.shells p) }

theorem hold_set (n : ℕ → ℝ × ℝ × ℝ) (M : Multi ℝ) (p : ℕ) (s : Shell ℝ) :
    (hold n M).setShell p (held (n p).1 (n p).2.1 (n p).2.2 s) = hold n (M.setShell p s) := by
  unfold hold Multi.setShell
  congr 1
  funext q
  simp only
  split
  · next h => rw [h]
  · rfl

theorem ktkr_hold {n : ℕ → ℝ × ℝ × ℝ} {M M' : Multi ℝ} {A B : ℕ} {c : String} {k : ℝ × Option ℝ}
    (h : ktkr E M A B c = .ok (k, M')) : ktkr E (hold n M) A B c = .ok (k, hold n M') := by
  unfold ktkr at h ⊢
  obtain ⟨sA, hA, h⟩ := bind_ok.1 h
  obtain ⟨sB, hB, h⟩ := bind_ok.1 h
  refine bind_ok.2 ⟨_, rebuild_held _ _ _ hA, ?_⟩
  simp only [hold_set]
  refine bind_ok.2 ⟨_, rebuild_held _ _ _ hB, ?_⟩
  simp only [hold_set]
  have e : ∀ p, ((hold n ((M.setShell A sA).setShell B sB)).shells p).lam
      = (((M.setShell A sA).setShell B sB).shells p).lam := fun _ => rfl
  have e' : ∀ p l, penOf ((hold n ((M.setShell A sA).setShell B sB)).shells p) l
      = penOf (((M.setShell A sA).setShell B sB).shells p) l := fun _ _ => rfl
  simp only [e, e']
  simp only at h
  split at h
  · next lA lB hlA hlB =>
    split at h
    · next k' hk =>
      cases h
      simp only [hk]
    · cases h
  · cases h

theorem connOne_hold {n : ℕ → ℝ × ℝ × ℝ} {M M' : Multi ℝ} {size A B : ℕ} {d : ConnD ℝ} {L : Coo ℝ}
    (h : connOne E M size A B d = .ok (L, M')) : connOne E (hold n M) size A B d = .ok (L, hold n M') := by
  unfold connOne at h ⊢
  rw [show (hold n M).place = M.place from rfl]
  cases hA : M.place A with
  | none =>
    simp only [hA] at h
    cases h
  | some qA =>
  cases hB : M.place B with
  | none =>
    simp only [hA, hB] at h
    cases h
  | some qB =>
  simp only [hA, hB, bind, Except.bind, pure, Except.pure] at h
  simp only [bind, Except.bind, pure, Except.pure]
  have pn : ∀ (M : Multi ℝ) p, ((hold n M).shells p).panel = (M.shells p).panel := fun _ _ => rfl
  have pa : ∀ (M : Multi ℝ) p, ((hold n M).shells p).pan = (M.shells p).pan := fun _ _ => rfl
  have th : ∀ (M : Multi ℝ) p, Model.thick ((hold n M).shells p) = Model.thick (M.shells p) := fun _ _ => rfl
  by_cases f0 : d.func = "SSycte"
  · simp only [if_pos f0] at h ⊢
    split at h; · cases h
    rename_i v1 h1
    obtain ⟨⟨kt, kr⟩, N⟩ := v1
    simp only [ktkr_hold (n := n) h1]
    split at h; · cases h
    rename_i v2 h2
    simp only at h2
    split at h; · cases h
    rename_i v3 h3
    split at h; · cases h
    rename_i v4 h4
    split at h; · cases h
    rename_i v5 h5
    cases h
    simp only [h2, h3, h4, pn, h5]
  simp only [if_neg f0] at h ⊢
  by_cases f1 : d.func = "SSxcte"
  · simp only [if_pos f1] at h ⊢
    split at h; · cases h
    rename_i v1 h1
    obtain ⟨⟨kt, kr⟩, N⟩ := v1
    simp only [ktkr_hold (n := n) h1]
    split at h; · cases h
    rename_i v2 h2
    simp only at h2
    split at h; · cases h
    rename_i v3 h3
    split at h; · cases h
    rename_i v4 h4
    split at h; · cases h
    rename_i v5 h5
    cases h
    simp only [h2, h3, h4, pn, h5]
  simp only [if_neg f1] at h ⊢
  by_cases f2 : d.func = "SB"
  · simp only [if_pos f2] at h ⊢
    split at h; · cases h
    rename_i v1 h1
    obtain ⟨⟨kt, kr⟩, N⟩ := v1
    simp only [ktkr_hold (n := n) h1, th]
    split at h; · cases h
    rename_i v2 h2
    split at h; · cases h
    rename_i v3 h3
    split at h; · cases h
    rename_i v4 h4
    cases h
    simp only [h2, h3, pn, h4]
  simp only [if_neg f2] at h ⊢
  by_cases f3 : d.func = "BFycte"
  · simp only [if_pos f3] at h ⊢
    split at h; · cases h
    rename_i v1 h1
    obtain ⟨⟨kt, kr⟩, N⟩ := v1
    simp only [ktkr_hold (n := n) h1]
    split at h; · cases h
    rename_i v2 h2
    simp only at h2
    split at h; · cases h
    rename_i v3 h3
    split at h; · cases h
    rename_i v4 h4
    split at h; · cases h
    rename_i v5 h5
    cases h
    simp only [h2, h3, h4, pn, h5]
  simp only [if_neg f3] at h ⊢
  by_cases f4 : d.func = "BFxcte"
  · simp only [if_pos f4] at h ⊢
    split at h; · cases h
    rename_i v1 h1
    obtain ⟨⟨kt, kr⟩, N⟩ := v1
    simp only [ktkr_hold (n := n) h1]
    split at h; · cases h
    rename_i v2 h2
    simp only at h2
    split at h; · cases h
    rename_i v3 h3
    split at h; · cases h
    rename_i v4 h4
    split at h; · cases h
    rename_i v5 h5
    cases h
    simp only [h2, h3, h4, pn, h5]
  simp only [if_neg f4] at h ⊢
  by_cases f5 : d.func = "kCLTxycte"
  · simp only [if_pos f5] at h ⊢
    split at h <;> cases h
  simp only [if_neg f5] at h ⊢
  by_cases f6 : d.func = "SB_TSL"
  · simp only [if_pos f6] at h ⊢
    split at h; · cases h
    rename_i v1 h1
    simp only [h1, pa, th, pn]
    by_cases c1 : (M.shells A).pan.a ≠ (M.shells B).pan.a ∨ (M.shells A).pan.b ≠ (M.shells B).pan.b
    · simp only [if_pos c1] at h
      cases h
    by_cases c2 : v1 ≠ "linear"
    · simp only [if_neg c1, if_pos c2] at h
      cases h
    simp only [if_neg c1, if_neg c2] at h ⊢
    split at h; · cases h
    rename_i v2 h2
    split at h; · cases h
    rename_i v3 h3
    split at h; · cases h
    rename_i v4 h4
    cases h
    simp only [h2, h3, h4]
  simp only [if_neg f6] at h ⊢
  cases h

theorem connLoop_hold {n : ℕ → ℝ × ℝ × ℝ} (size : ℕ) (l : List (ConnD ℝ)) : ∀ {M M' : Multi ℝ}
    {prev : Option (ℕ × ℕ)} {L : Coo ℝ} {l' : List (ConnD ℝ)}, connLoop E size l M prev = .ok (L, l', M') →
      connLoop E size l (hold n M) prev = .ok (L, l', hold n M') := by
  induction l with
  | nil =>
    intro M M' prev L l' h
    cases h
    rfl
  | cons d ds ih =>
    intro M M' prev L l' h
    unfold connLoop at h ⊢
    obtain ⟨⟨p, d'⟩, h1, h⟩ := bind_ok.1 h
    obtain ⟨⟨L1, M1⟩, h2, h⟩ := bind_ok.1 h
    obtain ⟨⟨L2, ds', M2⟩, h3, h⟩ := bind_ok.1 h
    cases h
    exact bind_ok.2 ⟨(p, d'), h1, bind_ok.2 ⟨_, connOne_hold h2, bind_ok.2 ⟨_, ih h3, rfl⟩⟩⟩

/-- The joints do not depend on constant forces. -/
theorem conn_hold {n : ℕ → ℝ × ℝ × ℝ} {M M' : Multi ℝ} {conn arg : Option (List (ConnD ℝ))} {L : Coo ℝ}
    (h : M.getKCconn E conn = .ok (L, arg, M')) : (hold n M).getKCconn E conn = .ok (L, arg, hold n M') := by
  unfold Multi.getKCconn at h ⊢
  have e : (hold n M).conn = M.conn := rfl
  have e' : (hold n M).kCconn = M.kCconn := rfl
  rw [e, e']
  revert h
  split
  · intro h
    cases h
  · split
    · intro h
      cases h
      rfl
    · intro h
      obtain ⟨⟨L1, l', M1⟩, h1, h⟩ := bind_ok.1 h
      obtain ⟨L2, h2, h⟩ := bind_ok.1 h
      refine bind_ok.2 ⟨_, connLoop_hold _ _ h1, bind_ok.2 ⟨_, h2, ?_⟩⟩
      cases conn <;> cases h <;> rfl

theorem sym_init {M M' : Multi ℝ} (h0 : M.kCconn = none) {conn arg : Option (List (ConnD ℝ))} {L : Coo ℝ}
    (h : M.getKCconn E conn = .ok (L, arg, M')) : C80.Sym L := by
  unfold Multi.getKCconn at h
  simp only [h0] at h
  revert h
  split
  · intro h
    cases h
  · intro h
    obtain ⟨⟨L1, l', M1⟩, -, h⟩ := bind_ok.1 h
    obtain ⟨L2, h2, h⟩ := bind_ok.1 h
    cases conn <;> cases h <;> exact finSum_sym h2

theorem sym_calcKC {shells : ℕ → Shell ℝ} {place : ℕ → Option Place} {panels : List ℕ}
    {conn arg : Option (List (ConnD ℝ))} {c : Option (CArg ℝ)} {K : Coo ℝ} {M' : Multi ℝ}
    (h : (Multi.init shells place panels conn).calcKC E arg c = .ok (K, M')) : C80.Sym K := by
  unfold Multi.calcKC at h
  obtain ⟨-, -, h⟩ := bind_ok.1 h
  obtain ⟨⟨L, M1⟩, hL, h⟩ := bind_ok.1 h
  obtain ⟨k, hk, h⟩ := bind_ok.1 h
  obtain ⟨⟨kConn, arg', M2⟩, hc, h⟩ := bind_ok.1 h
  cases h
  exact sym_append (finSum_sym hk) (sym_init (by rw [panelLoop_kCconn _ hL]; rfl) hc)

/-- **C111, assemblies.**  With any joints that give a matrix, at any state. -/
theorem multi {shells T : ℕ → Shell ℝ} {place : ℕ → Option Place} {panels : List ℕ} {conn arg arg' : Option (List (ConnD ℝ))}
    (hn : panels.Nodup) (h0 : panels ≠ []) (hT : ∀ p ∈ panels, (shells p).rebuild E = .ok (T p))
    (c : Option (CArg ℝ)) (hc : ∀ x, c = some x → ∃ f, x = .vec (C40.total shells panels) f) {kConn : Coo ℝ} {M2 : Multi ℝ}
    (hconn : ({ Multi.init shells place panels conn with
        shells := fun p => if p ∈ panels then (T p).fixR else shells p } : Multi ℝ).getKCconn E arg = .ok (kConn, arg', M2)) :
    ∃ K G w g, (Multi.init (fun p => pre 0 (shells p)) place panels conn).calcKC E arg c = .ok (K, w) ∧
      (Multi.init shells place panels conn).calcKG E none = .ok (G, g) ∧ C80.Sym K ∧ C80.Sym G ∧
      ∀ r, ∃ K' w', (Multi.init (fun p => pre r (shells p)) place panels conn).calcKC E arg c = .ok (K', w') ∧
        Shifted K' K G r ∧ Results K' K G r := by
  have hN : ∀ p ∈ panels, (T p).Nxx = (shells p).Nxx ∧ (T p).Nyy = (shells p).Nyy ∧ (T p).Nxy = (shells p).Nxy :=
    fun p hp => by
      obtain ⟨-, -, -, -, _, -, e⟩ := (C54.rebuild_ok_iff E _ _).1 (hT p hp)
      rw [e]
      exact ⟨rfl, rfl, rfl⟩
  have hpre : ∀ r, ∀ p ∈ panels, (pre r (shells p)).rebuild E = .ok (pre r (T p)) := fun r p hp => by
    have := rebuild_held (r * (shells p).Nxx) (r * (shells p).Nyy) (r * (shells p).Nxy) (hT p hp)
    unfold pre
    rw [(hN p hp).1, (hN p hp).2.1, (hN p hp).2.2]
    exact this
  have key : ∀ r, ∃ own : ℕ → Coo ℝ, (∀ k (hk : k < panels.length), (pre r (shells panels[k])).calcKC E (C40.aloneArgs c
          (C40.start shells panels k) (3 * (shells panels[k]).pan.m * (shells panels[k]).pan.n))
        = .ok (own k, (pre r (T panels[k])).fixR)) ∧
      ∃ L w, (Multi.init (fun p => pre r (shells p)) place panels conn).calcKC E arg c = .ok (L, w) ∧
          ∀ v, Coo.quad L v = ((List.range panels.length).map fun k =>
            Coo.quad (own k) fun i => v (C40.start shells panels k + i)).sum + Coo.quad kConn v := fun r => by
    obtain ⟨own, h1, h2⟩ := C40.kC_energy E (fun p => pre r (shells p)) place panels conn arg hn h0
      (fun p => pre r (T p)) (hpre r) c hc
    have hh := conn_hold (n := fun p => (r * (shells p).Nxx, r * (shells p).Nyy, r * (shells p).Nxy)) hconn
    obtain ⟨L, e1, e2⟩ := h2 kConn arg' _ (by
      refine Eq.trans (congrArg (fun M : Multi ℝ => M.getKCconn E arg) ?_) hh
      unfold hold
      congr 1
      funext p
      by_cases hp : p ∈ panels
      · simp only [if_pos hp]
        unfold pre
        rw [(hN p hp).1, (hN p hp).2.1, (hN p hp).2.2]
        rfl
      · simp only [if_neg hp]
        rfl)
    exact ⟨own, h1, L, _, e1, e2⟩
  obtain ⟨ownG, g1, G, g, g2, g3⟩ := C40.kG_energy E shells place panels conn hn h0 T hT none (by simp)
  have hG : C80.Sym G := by
    unfold Multi.calcKG at g2
    obtain ⟨-, -, h⟩ := bind_ok.1 g2
    obtain ⟨⟨L, M1⟩, hL, h⟩ := bind_ok.1 h
    obtain ⟨k, hk, h⟩ := bind_ok.1 h
    cases h
    exact finSum_sym hk
  obtain ⟨own0, a1, K, w, a2, a3⟩ := key 0
  have hK := sym_calcKC a2
  refine ⟨K, G, w, g, a2, g2, hK, hG, fun r => ?_⟩
  obtain ⟨own, b1, K', w', b2, b3⟩ := key r
  have hs : Shifted K' K G r := fun i j => by
    have := C110.entry_mix (sym_calcKC b2) hK hG (r := 1) (s := r) (fun v => ?_) i j
    · rw [this, one_mul]
    rw [a3, b3, g3, one_mul, ← List.sum_map_mul_left]
    have e : ((List.range panels.length).map fun k => Coo.quad (own k) fun i => v (C40.start shells panels k + i)).sum
        = ((List.range panels.length).map fun k => Coo.quad (own0 k) fun i => v (C40.start shells panels k + i)).sum
          + ((List.range panels.length).map fun k => r * Coo.quad (ownG k) fun i => v (C40.start shells panels k + i)).sum := by
      rw [← List.sum_map_add]
      refine congrArg List.sum (List.map_congr_left fun k hk => ?_)
      have hk := List.mem_range.1 hk
      have hm : panels[k] ∈ panels := List.getElem_mem hk
      have hp : (T panels[k]).pan = (shells panels[k]).pan := (rebuild_kept E (hT _ hm)).1
      have hd : C38.Documented (T panels[k]) (C40.aloneArgs c (C40.start shells panels k)
          (3 * (shells panels[k]).pan.m * (shells panels[k]).pan.n)) (T panels[k]).nx (T panels[k]).ny := by
        refine ⟨fun x hx => ?_, fun x hx => (by cases hx), fun x hx => (by cases hx), by simp [C38.sizeOf, C40.aloneArgs],
          by simp [C38.sizeOf, C40.aloneArgs]⟩
        cases c with
        | none => cases hx
        | some y =>
          obtain ⟨f, rfl⟩ := hc y rfl
          cases hx
          exact ⟨fun j => f (C40.start shells panels k + j), by simp only [C38.sizeOf, C40.aloneArgs, hp, sliceC]⟩
      obtain ⟨K1, G1, c1, c2, -, -, c3⟩ := panel (hT _ hm) hd rfl rfl rfl
      obtain ⟨K2, c4, -, c5⟩ := c3 r
      cases c1.symm.trans (a1 k hk)
      cases c2.symm.trans (g1 k hk)
      cases c4.symm.trans (b1 k hk)
      exact c5 _
    rw [e]
    ring
  exact ⟨K', w', b2, hs, results hs hK hG⟩

end

/-! ## Concrete cases -/

/-- The cylindrical panel of `C16`, pressed along `x` and sheared. -/
noncomputable def pressed : Shell ℝ := { C16.shell with Nxx := -2, Nxy := 1 }

theorem pressed_ok : ∃ t, pressed.rebuild C16.env = .ok t := by
  obtain ⟨t, h, -⟩ := C16.shell_call fun _ => 0
  obtain ⟨h1, h2, h3, h4, lam, h5, rfl⟩ := (C54.rebuild_ok_iff _ _ _).1 h.built
  exact ⟨_, (C54.rebuild_ok_iff _ _ _).2 ⟨h1, h2, h3, h4, lam, h5, rfl⟩⟩

/-- The pre-stress of `panel` is present. -/
example : (pre 3 pressed).NxxCte = -6 ∧ (pre 3 pressed).NyyCte = 0 ∧ (pre 3 pressed).NxyCte = 3 := by
  norm_num [pre, held, pressed, C16.shell, C40.shell]

/-- The hypotheses of `panel` and `panel_results`. -/
example : ∃ K G w g, (pre 0 pressed).calcKC C16.env {} = .ok (K, w) ∧ pressed.calcKG C16.env {} = .ok (G, g) ∧
    ∀ r, ∃ K' w', (pre r pressed).calcKC C16.env {} = .ok (K', w') ∧ Results K' K G r := by
  obtain ⟨t, ht⟩ := pressed_ok
  exact panel_results ht (A := {}) ⟨fun x hx => (by cases hx), fun x hx => (by cases hx), fun x hx => (by cases hx),
    by simp [C38.sizeOf], by simp [C38.sizeOf]⟩ rfl rfl rfl

/-- The hypotheses of `multi`: two such panels, joined along an edge, about a state. -/
example : ∃ K G w g,
    (Multi.init (fun _ => pre 0 pressed) (fun _ => none) [4, 0] (some [C40.joint])).calcKC C16.env none
      (some (.vec (C40.total (fun _ => pressed) [4, 0]) C107.pushed)) = .ok (K, w) ∧
    (Multi.init (fun _ => pressed) (fun _ => none) [4, 0] (some [C40.joint])).calcKG C16.env none = .ok (G, g) ∧
    C80.Sym K ∧ C80.Sym G ∧
    ∀ r, ∃ K' w', (Multi.init (fun _ => pre r pressed) (fun _ => none) [4, 0] (some [C40.joint])).calcKC C16.env none
      (some (.vec (C40.total (fun _ => pressed) [4, 0]) C107.pushed)) = .ok (K', w') ∧
      Shifted K' K G r ∧ Results K' K G r := by
  obtain ⟨t, ht⟩ := pressed_ok
  have hl := laid_init (fun _ => pressed) (fun _ => none) [4, 0] (some [C40.joint]) (by decide)
  have hpan : t.fixR.pan = pressed.pan := (rebuild_kept _ ht).1
  have hst : ∀ k, C40.start (fun p => if p ∈ [4, 0] then t.fixR else pressed) [4, 0] k
      = C40.start (fun _ => pressed) [4, 0] k := fun k => by
    unfold C40.start
    refine congrArg List.sum (List.map_congr_left fun p hp => ?_)
    simp only [if_pos (List.mem_of_mem_take hp), hpan]
  obtain ⟨L, arg', M2, hc⟩ := getKCconn_exists C16.env
    { Multi.init (fun _ => pressed) (fun _ => none) [4, 0] (some [C40.joint]) with
      shells := fun p => if p ∈ [4, 0] then t.fixR else pressed }
    ⟨hl.1, fun k hk => by
      obtain ⟨q, q1, q2⟩ := hl.place k hk
      exact ⟨q, q1, q2.trans (hst k).symm⟩⟩
    (fun p hp => C39.others_kept (fun _ => pressed) (fun _ => none) [4, 0] (some [C40.joint]) hp) rfl
    (fun p hp => by
      have hp : p ∈ [4, 0] := hp
      simp only [if_pos hp, hpan]
      exact ⟨Nat.succ_pos _, Nat.succ_pos _⟩)
    (fun p hp => by
      have hp : p ∈ [4, 0] := hp
      simp only [if_pos hp]
      obtain ⟨-, lam, -, -, -, hlam, -⟩ := rebuild_built C16.env _ _ ht
      exact ⟨t.fixR, lam, C109.rebuild_again ht, hlam⟩)
    [C40.joint] (by simp) (fun d hd => by
      rw [List.mem_singleton.1 hd]
      exact ⟨show C40.joint.p1 ∈ [4, 0] by decide, show C40.joint.p2 ∈ [4, 0] by decide, by decide,
        .inl ⟨.inl rfl, 0, 3, rfl, rfl⟩⟩) none (.inr ⟨rfl, rfl⟩)
  exact multi (shells := fun _ => pressed) (T := fun _ => t) (by decide) (by simp) (fun _ _ => ht) _ (by simp) hc

end Verif.C111
