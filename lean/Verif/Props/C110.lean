import Verif.Props.C109
import Verif.Props.C106

/-!
# C110: the geometric stiffness about calculated states superposes

The stiffness of the stresses of a state, by `calc_kG` with a state and linear kinematics, of panels,
assemblies and bays: that of `r c + s d` is `r` times that of `c` plus `s` times that of `d`.  So `r` times a state has
critical multipliers that are `r` times smaller.  Loads given beside the state are not multiplied.
-/

set_option linter.unusedSectionVars false

namespace Verif.C110

open Model Spec Indep C16

/-- The state `r c + s d`. -/
def mix (r s : ℝ) (c d : ℕ → ℝ) (k : ℕ) : ℝ := r * c k + s * d k

theorem lin_mix {P : Panel ℝ} {s0 : ℕ} (κ : ℝ) (S : Shape ℝ) (r s : ℝ) (c d : ℕ → ℝ) (i : ℕ) (x y : ℝ) :
    lin κ S P s0 (mix r s c d) i x y = r * lin κ S P s0 c i x y + s * lin κ S P s0 d i x y := by
  unfold lin
  have e : ∀ α p q ξ η, disp S P s0 (mix r s c d) α p q ξ η
      = r * disp S P s0 c α p q ξ η + s * disp S P s0 d α p q ξ η := fun α p q ξ η => by
    show disp S P s0 (fun k => r * c k + s * d k) α p q ξ η = _
    rw [disp_add S P s0 (fun k => r * c k) d s, disp_smul]
  simp only [e]
  split <;> ring

theorem resultant_mix (F : ℕ → ℕ → ℝ) (r s : ℝ) (e f : ℕ → ℝ) (i : ℕ) :
    resultant F (fun k => r * e k + s * f k) i = r * resultant F e i + s * resultant F f i := by
  unfold resultant
  rw [Finset.mul_sum, Finset.mul_sum, ← Finset.sum_add_distrib]
  exact Finset.sum_congr rfl fun _ _ => by ring

theorem mix_kG {E : Env ℝ} {P : Panel ℝ} {s0 : ℕ} (ha : P.a ≠ 0) (hb : P.b ≠ 0) (k : Kind)
    (F : ℕ → ℕ → ℕ → ℕ → ℝ) (hF : ∀ p q, ABDSym (F p q)) (r s : ℝ) (c d v : ℕ → ℝ) (nx ny : ℕ) (N1 N2 N3 : ℝ) :
    Coo.quad (Coo.finalizeSym (fkGnumF E k P F (mix r s c d) s0 s0 nx ny 0 N1 N2 N3)) v
      = r * Coo.quad (Coo.finalizeSym (fkGnumF E k P F c s0 s0 nx ny 0 N1 N2 N3)) v
        + s * Coo.quad (Coo.finalizeSym (fkGnumF E k P F d s0 s0 nx ny 0 N1 N2 N3)) v
        + (1 - r - s) * gaussP E.G nx ny P fun _ _ x y => stressDens E.S P s0 v N1 N2 N3 x y := by
  cases k
  · simp only [fkGnumF]
    rw [plateFkGnum_quad E.S E.G P ha hb F hF, plateFkGnum_quad E.S E.G P ha hb F hF,
      plateFkGnum_quad E.S E.G P ha hb F hF, ← gaussP_smul, ← gaussP_smul, ← gaussP_smul, ← gaussP_add, ← gaussP_add]
    refine gaussP_congr fun p _ q _ x y => ?_
    simp only [zero_ne_one, if_false, lin_mix, resultant_mix, stressDens]
    ring
  · simp only [fkGnumF]
    rw [cylFkGnum_quad E.S E.G P ha hb F hF, cylFkGnum_quad E.S E.G P ha hb F hF,
      cylFkGnum_quad E.S E.G P ha hb F hF, ← gaussP_smul, ← gaussP_smul, ← gaussP_smul, ← gaussP_add, ← gaussP_add]
    refine gaussP_congr fun p _ q _ x y => ?_
    simp only [zero_ne_one, if_false, lin_mix, resultant_mix, stressDens]
    ring

/-- The share of the loads beside the state is the matrix about no displacement. -/
theorem mix_kG₀ {E : Env ℝ} {P : Panel ℝ} {s0 : ℕ} (ha : P.a ≠ 0) (hb : P.b ≠ 0) (k : Kind)
    (F : ℕ → ℕ → ℕ → ℕ → ℝ) (hF : ∀ p q, ABDSym (F p q)) (r s : ℝ) (c d v : ℕ → ℝ) (nx ny : ℕ) (N1 N2 N3 : ℝ) :
    Coo.quad (Coo.finalizeSym (fkGnumF E k P F (mix r s c d) s0 s0 nx ny 0 N1 N2 N3)) v
      = r * Coo.quad (Coo.finalizeSym (fkGnumF E k P F c s0 s0 nx ny 0 N1 N2 N3)) v
        + s * Coo.quad (Coo.finalizeSym (fkGnumF E k P F d s0 s0 nx ny 0 N1 N2 N3)) v
        + (1 - r - s) * Coo.quad (Coo.finalizeSym (fkGnumF E k P F (fun _ => 0) s0 s0 nx ny 0 N1 N2 N3)) v := by
  have z := mix_kG (E := E) (s0 := s0) ha hb k F hF 0 0 c d v nx ny N1 N2 N3
  rw [show mix 0 0 c d = fun _ => 0 from funext fun k => by simp [mix]] at z
  rw [mix_kG ha hb k F hF, z]
  ring

/-! ## Matrices -/

theorem entry_mix {T K G : Coo ℝ} (hT : C80.Sym T) (hK : C80.Sym K) (hG : C80.Sym G) {r s : ℝ}
    (h : ∀ v, Coo.quad T v = r * Coo.quad K v + s * Coo.quad G v) (i j : ℕ) :
    Coo.entry T i j = r * Coo.entry K i j + s * Coo.entry G i j := by
  have e := h fun k => unit i k + 1 * unit j k
  rw [C107.quad_pair hT, C107.quad_pair hK, C107.quad_pair hG, h (unit i), h (unit j)] at e
  linarith

theorem entry_mix₃ {T K G Z : Coo ℝ} (hT : C80.Sym T) (hK : C80.Sym K) (hG : C80.Sym G) (hZ : C80.Sym Z) {r s q : ℝ}
    (h : ∀ v, Coo.quad T v = r * Coo.quad K v + s * Coo.quad G v + q * Coo.quad Z v) (i j : ℕ) :
    Coo.entry T i j = r * Coo.entry K i j + s * Coo.entry G i j + q * Coo.entry Z i j := by
  have e := h fun k => unit i k + 1 * unit j k
  rw [C107.quad_pair hT, C107.quad_pair hK, C107.quad_pair hG, C107.quad_pair hZ, h (unit i), h (unit j)] at e
  linarith

theorem critical_scaled {K G G' : Coo ℝ} {J : Finset ℕ} {r : ℝ} (h : ∀ i j, Coo.entry G' i j = r * Coo.entry G i j)
    (p : ℂ) : Critical J K G' p ↔ Critical J K G (r * p) := by
  refine exists_congr fun z => and_congr_right fun _ => forall₂_congr fun k _ => ?_
  have e : ∑ l ∈ J, ((Coo.entry G' k l : ℝ) : ℂ) * z l = r * ∑ l ∈ J, ((Coo.entry G k l : ℝ) : ℂ) * z l := by
    rw [Finset.mul_sum]
    refine Finset.sum_congr rfl fun l _ => ?_
    rw [h]
    push_cast
    ring
  rw [e, show p * (r * ∑ l ∈ J, ((Coo.entry G k l : ℝ) : ℂ) * z l)
    = r * p * ∑ l ∈ J, ((Coo.entry G k l : ℝ) : ℂ) * z l by ring]

/-! ## One panel -/

section
variable {E : Env ℝ} {s t : Shell ℝ} {A : KArgs ℝ} {c₀ : ℕ → ℝ}

/-- The arguments of the linear analysis with the state `v`. -/
noncomputable def about (t : Shell ℝ) (A : KArgs ℝ) (v : ℕ → ℝ) : KArgs ℝ :=
  C107.linear { A with c := some (.vec (C38.sizeOf (3 * t.pan.m * t.pan.n) A.size) v) }

theorem call_about (h : Call E s t A c₀) (v : ℕ → ℝ) :
    Call E s t { A with c := some (.vec (C38.sizeOf (3 * t.pan.m * t.pan.n) A.size) v) } v :=
  ⟨h.built, h.smooth, h.sides, h.curved, h.free, h.place, rfl, h.whole, h.field, h.sym⟩

/-- **C110, one panel.** -/
theorem panel (h : Call E s t A c₀) : ∃ (G : (ℕ → ℝ) → Coo ℝ) (w : Shell ℝ),
    (∀ v, s.calcKG E (about t A v) = .ok (G v, w) ∧ C80.Sym (G v)) ∧
      ∀ r q c d x, Coo.quad (G (mix r q c d)) x
        = r * Coo.quad (G c) x + q * Coo.quad (G d) x + (1 - r - q) * C107.beside E t A x := by
  obtain ⟨k, lam, F, -, hk, -, hF⟩ := rebuild_built E s t h.built
  refine ⟨_, _, fun v => ⟨C107.linear_kG (call_about h v) hk hF, sym_finalize _⟩, fun r q c d x => ?_⟩
  refine (mix_kG (C107.sides h).1 (C107.sides h).2 k _ (h.sym F hF) r q c d x _ _ _ _ _).trans ?_
  refine congrArg (fun z => _ + (1 - r - q) * z) (gaussP_congr fun _ _ _ _ x y => ?_)
  simp only [stressDens, C19.initialStress, membrane, u_dx h.smooth, u_dy h.smooth]
  norm_num

/-- Without loads beside the state, entry by entry, and the critical multipliers with any stiffness. -/
theorem panel_critical (h : Call E s t A c₀) (hN : t.Nxx = 0 ∧ t.Nyy = 0 ∧ t.Nxy = 0) :
    ∃ (G : (ℕ → ℝ) → Coo ℝ) (w : Shell ℝ), (∀ v, s.calcKG E (about t A v) = .ok (G v, w)) ∧
      (∀ r q c d i j, Coo.entry (G (mix r q c d)) i j = r * Coo.entry (G c) i j + q * Coo.entry (G d) i j) ∧
      ∀ (J : Finset ℕ) (K : Coo ℝ) (r : ℝ) (c : ℕ → ℝ) (p : ℂ),
        Critical J K (G fun k => r * c k) p ↔ Critical J K (G c) (r * p) := by
  obtain ⟨G, w, h1, h2⟩ := panel h
  have z : ∀ d, C107.beside E t A d = 0 := fun d => by
    simp [C107.beside, C19.initialStress, membrane, hN, gaussP, gauss]
  have e : ∀ r q c d i j, Coo.entry (G (mix r q c d)) i j = r * Coo.entry (G c) i j + q * Coo.entry (G d) i j :=
    fun r q c d => entry_mix (h1 _).2 (h1 _).2 (h1 _).2 fun v => by rw [h2, z, mul_zero, add_zero]
  refine ⟨G, w, fun v => (h1 v).1, e, fun J K r c p => critical_scaled (fun i j => ?_) p⟩
  have := e r 0 c c i j
  rw [show mix r 0 c c = fun k => r * c k from funext fun k => by simp [mix]] at this
  rw [this]
  ring

end

/-! ## Assemblies -/

section
variable {E : Env ℝ} {shells T : ℕ → Shell ℝ} {place : ℕ → Option Place} {panels : List ℕ}
  {conn : Option (List (ConnD ℝ))}

theorem block {s t : Shell ℝ} (h : C109.Plain E s t) {k : Kind} {F : ℕ → ℕ → ℝ} (hk : t.model.bind kindOf = some k)
    (hF : t.ABD = some F) (s0 N : ℕ) (v : ℕ → ℝ) (hN : s0 + 3 * s.pan.m * s.pan.n ≤ N) :
    s.calcKG E (C40.blockArgs (some (.vec N v)) s0 s0 N)
      = .ok (fkGnumF E k t.panel (fun _ _ => F) v s0 s0 t.nx t.ny 0 t.Nxx t.Nyy t.Nxy, t.fixR) := by
  have hp : t.pan = s.pan := (rebuild_kept E h.built).1
  obtain ⟨k', F', hk', hF', e⟩ := calcKG_state E s t (C40.blockArgs (some (.vec N v)) s0 s0 N) h.built
    ⟨by simp [C40.blockArgs, C38.sizeOf], by simp, by simp [C40.blockArgs],
      by simpa [C40.blockArgs, C38.sizeOf, hp] using hN, by simpa [C40.blockArgs, C38.sizeOf, hp] using hN⟩
    (by simp [C40.blockArgs])
  cases hk.symm.trans hk'
  cases hF.symm.trans hF'
  exact e

/-- **C110, assemblies.**  Entry by entry, and the critical multipliers with any stiffness if the panels have no other
loads. -/
theorem multi (hn : panels.Nodup) (h0 : panels ≠ []) (hP : ∀ p ∈ panels, C109.Plain E (shells p) (T p)) :
    ∃ (G : (ℕ → ℝ) → Coo ℝ) (M' : Multi ℝ),
      (∀ v, (Multi.init shells place panels conn).calcKG E (some (.vec (C40.total shells panels) v)) = .ok (G v, M')) ∧
      (∀ r q c d i j, Coo.entry (G (mix r q c d)) i j
        = r * Coo.entry (G c) i j + q * Coo.entry (G d) i j + (1 - r - q) * Coo.entry (G fun _ => 0) i j) ∧
      ((∀ p ∈ panels, (T p).Nxx = 0 ∧ (T p).Nyy = 0 ∧ (T p).Nxy = 0) → ∀ (J : Finset ℕ) (K : Coo ℝ) (r : ℝ) (c : ℕ → ℝ) (p : ℂ),
        Critical J K (G fun k => r * c k) p ↔ Critical J K (G c) (r * p)) := by
  have : ∀ p, ∃ k F, p ∈ panels → C67.Ready (T p) k F := fun p => by
    by_cases hp : p ∈ panels
    · obtain ⟨k, F, h⟩ := C67.ready_of_rebuild (hP p hp).built
      exact ⟨k, F, fun _ => h⟩
    · exact ⟨.plate, fun _ _ => 0, fun h => absurd h hp⟩
  choose kind F hR using this
  -- the matrix of one panel at its place
  set g : ℕ → (ℕ → ℝ) → Coo ℝ := fun k v => fkGnumF E (kind (panels.getD k 0)) (T (panels.getD k 0)).panel
    (fun _ _ => F (panels.getD k 0)) v (C40.start shells panels k) (C40.start shells panels k)
    (T (panels.getD k 0)).nx (T (panels.getD k 0)).ny 0 (T (panels.getD k 0)).Nxx (T (panels.getD k 0)).Nyy
    (T (panels.getD k 0)).Nxy with hg
  have hd : ∀ k (hk : k < panels.length), panels.getD k 0 = panels[k] := fun k hk => by simp [hk]
  have hb : ∀ v k (hk : k < panels.length), (shells panels[k]).calcKG E (C40.blockArgs
      (some (.vec (C40.total shells panels) v)) (C40.start shells panels k) (C40.start shells panels k)
      (C40.total shells panels)) = .ok (g k v, (T panels[k]).fixR) := fun v k hk => by
    have hm : panels[k] ∈ panels := List.getElem_mem hk
    rw [hg]
    simp only [hd k hk]
    exact block (hP _ hm) (hR _ hm).1 (hR _ hm).2 _ _ v (C40.start_le shells panels hk)
  have key : ∀ v, ∃ L, (Multi.init shells place panels conn).calcKG E (some (.vec (C40.total shells panels) v))
      = .ok (Coo.finalizeSym L, { Multi.init shells place panels conn with
            shells := fun p => if p ∈ panels then (T p).fixR else shells p }) ∧
      ∀ x, Coo.quad (Coo.finalizeSym L) x
        = ((List.range panels.length).map fun k => Coo.quad (Coo.finalizeSym (g k v)) x).sum := fun v => by
    have hs : ∀ k, ∃ L0 : Coo ℝ, k < panels.length → ∀ x, Coo.quad (Coo.finalizeSym (g k v)) x
        = Coo.quad L0 fun i => x (C40.start shells panels k + i) := fun k => by
      by_cases hk : k < panels.length
      · obtain ⟨L, L0, e, -, hq⟩ := kG_slice E _ _ (hP _ (List.getElem_mem hk)).built
          (some (.vec (C40.total shells panels) v)) _ _ (C40.start_le shells panels hk) (by simp)
        cases e.symm.trans (hb v k hk)
        exact ⟨L0, fun _ => hq⟩
      · exact ⟨[], fun h => absurd h hk⟩
    choose own hown using hs
    obtain ⟨L, hL, hq⟩ := C40.superpose shells place panels conn hn
      (fun s q => s.calcKG E (C40.blockArgs (some (.vec (C40.total shells panels) v)) q.row0 q.col0
        (C40.total shells panels))) (fun p => (T p).fixR) (fun k _ => own k)
      (fun k hk => ⟨g k v, hb v k hk, hown k hk⟩)
    refine ⟨L, ?_, fun x => ?_⟩
    · unfold Multi.calcKG
      refine bind_ok.2 ⟨(), C38.check_doc (some (.vec (C40.total shells panels) v)) (by simp; rfl),
        bind_ok.2 ⟨_, hL, bind_ok.2 ⟨_, C25.finSum_true.2 ⟨h0, rfl⟩, rfl⟩⟩⟩
    · rw [hq x]
      exact congrArg List.sum (List.map_congr_left fun k hk => (hown k (List.mem_range.1 hk) x).symm)
  choose L hL hq using key
  have e : ∀ r q c d i j, Coo.entry (Coo.finalizeSym (L (mix r q c d))) i j
      = r * Coo.entry (Coo.finalizeSym (L c)) i j + q * Coo.entry (Coo.finalizeSym (L d)) i j
        + (1 - r - q) * Coo.entry (Coo.finalizeSym (L fun _ => 0)) i j :=
    fun r q c d => entry_mix₃ (sym_finalize _) (sym_finalize _) (sym_finalize _) (sym_finalize _) fun x => by
      rw [hq, hq, hq, hq, ← List.sum_map_mul_left, ← List.sum_map_mul_left, ← List.sum_map_mul_left,
        ← List.sum_map_add, ← List.sum_map_add]
      refine congrArg List.sum (List.map_congr_left fun k hk => ?_)
      have hk := List.mem_range.1 hk
      have hm : panels[k] ∈ panels := List.getElem_mem hk
      have hpn : (T panels[k]).panel = (shells panels[k]).panel := (rebuild_kept E (hP _ hm).built).2.2.1
      rw [hg]
      simp only [hd k hk]
      exact mix_kG₀ (by rw [hpn]; exact (hP _ hm).sides.1) (by rw [hpn]; exact (hP _ hm).sides.2) _ _
        (fun _ _ => (hP _ hm).sym _ (hR _ hm).2) r q c d x _ _ _ _ _
  refine ⟨fun v => Coo.finalizeSym (L v), _, hL, e, fun hN J K r c p => critical_scaled (fun i j => ?_) p⟩
  have z : ∀ x, Coo.quad (Coo.finalizeSym (L fun _ => 0)) x = 0 := fun x => by
    rw [hq]
    refine List.sum_eq_zero fun y hy => ?_
    obtain ⟨k, hk, rfl⟩ := List.mem_map.1 hy
    have hk := List.mem_range.1 hk
    have hm : panels[k] ∈ panels := List.getElem_mem hk
    have hpn : (T panels[k]).panel = (shells panels[k]).panel := (rebuild_kept E (hP _ hm).built).2.2.1
    have m := mix_kG (E := E) (P := (T panels[k]).panel) (s0 := C40.start shells panels k)
      (by rw [hpn]; exact (hP _ hm).sides.1) (by rw [hpn]; exact (hP _ hm).sides.2) (kind panels[k])
      (fun _ _ => F panels[k]) (fun _ _ => (hP _ hm).sym _ (hR _ hm).2) 0 0 c c x (T panels[k]).nx (T panels[k]).ny 0 0 0
    rw [show mix 0 0 c c = fun _ => 0 from funext fun k => by simp [mix]] at m
    rw [hg]
    simp only [hd k hk, (hN _ hm).1, (hN _ hm).2.1, (hN _ hm).2.2]
    rw [m]
    simp [stressDens, gaussP, gauss]
  have z := entry_mix (r := 0) (s := 0) (sym_finalize (L fun _ => 0)) (sym_finalize (L fun _ => 0))
    (sym_finalize (L fun _ => 0)) (fun x => by rw [z]; ring) i j
  have w := e r 0 c c i j
  rw [show mix r 0 c c = fun k => r * c k from funext fun k => by simp [mix], z] at w
  rw [w]
  ring

end

/-! ## Bays -/

section
variable {E : BayEnv ℝ} {B R : Bay ℝ} {N : ℕ}

theorem inState_mix {E : Env ℝ} (hS : E.S.C2) (p : Shell ℝ) (r q : ℝ) (c d v : ℕ → ℝ) :
    C106.inState E p (mix r q c d) v
      = r * C106.inState E p c v + q * C106.inState E p d v + (1 - r - q) * C106.inState E p (fun _ => 0) v := by
  have z : (fun _ => 0) = mix 0 0 c d := funext fun k => by simp [mix]
  unfold C106.inState
  cases p.lam with
  | none => simp
  | some l =>
    simp only [stateWork]
    rw [← gaussP_smul, ← gaussP_smul, ← gaussP_smul, ← gaussP_add, ← gaussP_add]
    refine gaussP_congr fun _ _ _ _ x y => ?_
    simp only [C19.initialStress, linStrain_lin hS, z, lin_mix, resultant_mix]
    ring

/-- **C110, bays.**  The matrix about no displacement is that of the given loads. -/
theorem bay (h : SolidBay E B R N) (h1 : R.blade1 = []) (ho : ∀ p ∈ R.panels, p.forceOrtho = false) :
    ∃ (G : (ℕ → ℝ) → Coo ℝ) (W : (ℕ → ℝ) → Bay ℝ), (∀ v, B.calcKG E (some (.vec N v)) = .ok (G v, W v)) ∧
      ∀ r q c d i j, Coo.entry (G (mix r q c d)) i j
        = r * Coo.entry (G c) i j + q * Coo.entry (G d) i j + (1 - r - q) * Coo.entry (G fun _ => 0) i j := by
  choose G W hG hq using C106.state_partial h h1 ho
  have hs : ∀ v, C80.Sym (G v) := fun v => C81.symmetric.2.1 _ (hG v)
  refine ⟨G, W, hG, fun r q c d => entry_mix₃ (hs _) (hs _) (hs _) (hs _) fun v => ?_⟩
  rw [hq, hq, hq, hq]
  simp only [inState_mix h.smooth, List.sum_map_add, List.sum_map_mul_left]
  ring

/-- Without given loads on the skin and the flanges. -/
theorem bay_critical (h : SolidBay E B R N) (h1 : R.blade1 = []) (ho : ∀ p ∈ R.panels, p.forceOrtho = false)
    (hp : ∀ p ∈ R.panels, p.Nxx = 0 ∧ p.Nyy = 0 ∧ p.Nxy = 0)
    (hf : ∀ s ∈ R.blade2, ∀ f, s.flange = some f → f.Nxx = 0 ∧ f.Nyy = 0 ∧ f.Nxy = 0) :
    ∃ (G : (ℕ → ℝ) → Coo ℝ) (W : (ℕ → ℝ) → Bay ℝ), (∀ v, B.calcKG E (some (.vec N v)) = .ok (G v, W v)) ∧
      ∀ (J : Finset ℕ) (K : Coo ℝ) (r : ℝ) (c : ℕ → ℝ) (p : ℂ),
        Critical J K (G fun k => r * c k) p ↔ Critical J K (G c) (r * p) := by
  choose G W hG hq using C106.state_partial h h1 ho
  have hs : ∀ v, C80.Sym (G v) := fun v => C81.symmetric.2.1 _ (hG v)
  refine ⟨G, W, hG, fun J K r c p => critical_scaled (fun i j => ?_) p⟩
  have e := entry_mix (hs fun k => r * c k) (hs c) (hs c) (r := r) (s := 0) (fun v => ?_) i j
  · rw [e]
    ring
  have z : ∀ p ∈ R.panels, C106.inState E.toEnv p (fun _ => 0) v = 0 := fun p hm => by
    have l : (fun _ => (0 : ℝ)) = mix 0 0 c c := funext fun k => by simp [mix]
    unfold C106.inState
    cases p.lam with
    | none => rfl
    | some x =>
      have m : membrane p = fun _ => 0 := funext fun i => by simp [membrane, hp p hm]
      simp only [stateWork, m, linStrain_lin h.smooth]
      simp [l, lin_mix, C19.initialStress, resultant, gaussP, gauss]
  have g : ∀ i ∈ List.range R.blade2.length,
      C106.given E.toEnv ((R.blade2[i]?).bind Blade2.flange) (C52.start R i) v = 0 := fun i hi => by
    have hi := List.mem_range.1 hi
    rw [List.getElem?_eq_getElem hi, Option.bind_some]
    cases hfl : (R.blade2[i]).flange with
    | none => rfl
    | some f =>
      obtain ⟨a, b, c'⟩ := hf _ (List.getElem_mem hi) f hfl
      simp [C106.given, slopeWork, a, b, c']
  rw [hq, hq, show (fun k => r * c k) = mix r 0 c c from funext fun k => by simp [mix],
    List.map_congr_left g, List.map_congr_left fun p hm => (inState_mix h.smooth p r 0 c c v).trans
      (by rw [z p hm, mul_zero, add_zero, zero_mul, add_zero])]
  simp [List.sum_map_mul_left]

end

/-! ## Concrete cases -/

/-- The cylindrical panel of `C16`, any states. -/
example : ∃ (t : Shell ℝ) (G : (ℕ → ℝ) → Coo ℝ) (w : Shell ℝ),
    (∀ v, C16.shell.calcKG C16.env (about t (args C107.pushed) v) = .ok (G v, w)) ∧
    ∀ (J : Finset ℕ) (K : Coo ℝ) (c : ℕ → ℝ) (p : ℂ),
      Critical J K (G fun k => 3 * c k) p ↔ Critical J K (G c) ((3 : ℝ) * p) := by
  obtain ⟨t, h, h1, h2, h3, -⟩ := shell_call C107.pushed
  obtain ⟨G, w, e1, -, e2⟩ := panel_critical h ⟨h1, h2, h3⟩
  exact ⟨t, G, w, e1, fun J K c p => e2 J K 3 c p⟩

/-- Two of them. -/
example : ∃ (G : (ℕ → ℝ) → Coo ℝ) (M' : Multi ℝ),
    (∀ v, C109.pair.calcKG C16.env (some (.vec (C40.total (fun _ => C16.shell) [4, 0]) v)) = .ok (G v, M')) ∧
    ∀ c d i j, Coo.entry (G (mix 2 (-1) c d)) i j = 2 * Coo.entry (G c) i j - Coo.entry (G d) i j := by
  obtain ⟨t, h, h1, h2, h3, -⟩ := shell_call C107.pushed
  obtain ⟨G, M', e1, e2, -⟩ := multi (E := C16.env) (shells := fun _ => C16.shell) (T := fun _ => t)
    (place := fun _ => none) (panels := [4, 0]) (conn := some [C40.joint]) (by decide) (by simp)
    (fun _ _ => ⟨h.built, h.sides, h.curved, h.free, fun F hF => h.sym F hF 0 0⟩)
  exact ⟨G, M', e1, fun c d i j => by rw [e2]; ring⟩

/-- A bay of two panels with a flange where they meet, about the double of the state where every amplitude is
its number. -/
example : ∃ (B R : Bay ℝ) (N : ℕ), C106.inner = .ok B ∧ R.blade2.length = 1 ∧ ∃ (G : (ℕ → ℝ) → Coo ℝ) (W : (ℕ → ℝ) → Bay ℝ),
    (∀ v, B.calcKG C106.envG (some (.vec N v)) = .ok (G v, W v)) ∧
    ∀ i j, Coo.entry (G (mix 2 0 (fun k => (k : ℝ)) fun _ => 0)) i j
      = 2 * Coo.entry (G fun k => (k : ℝ)) i j - Coo.entry (G fun _ => 0) i j := by
  obtain ⟨B, R, N, hB, hne, hR, hr, hN, hs, hk, h1, ho, s, f, h2, -⟩ := C106.pieces
  obtain ⟨G, W, e1, e2⟩ := bay (C106.inner_solid hB hne hR hN hs hr hk h1) h1 ho
  refine ⟨B, R, N, hB, by rw [h2]; rfl, G, W, e1, fun i j => ?_⟩
  rw [e2]
  ring

/-- Its critical multipliers about twice a state. -/
example : ∃ (B R : Bay ℝ) (N : ℕ), C106.inner = .ok B ∧ R.blade2.length = 1 ∧ ∃ (G : (ℕ → ℝ) → Coo ℝ)
    (W : (ℕ → ℝ) → Bay ℝ), (∀ v, B.calcKG C106.envG (some (.vec N v)) = .ok (G v, W v)) ∧
    ∀ (J : Finset ℕ) (K : Coo ℝ) (c : ℕ → ℝ) (p : ℂ),
      Critical J K (G fun k => 2 * c k) p ↔ Critical J K (G c) ((2 : ℝ) * p) := by
  obtain ⟨B, R, N, hB, hne, hR, hr, hN, hs, hk, h1, ho, s, f, h2, hf, -, -, -, -, -, hl, -, -, -, -, hp⟩ := C106.pieces
  obtain ⟨G, W, e1, e2⟩ := bay_critical (C106.inner_solid hB hne hR hN hs hr hk h1) h1 ho hp fun s' hs' f' hf' => by
    rw [h2] at hs'
    obtain rfl := List.mem_singleton.1 hs'
    cases hf.symm.trans hf'
    exact hl
  exact ⟨B, R, N, hB, by rw [h2]; rfl, G, W, e1, fun J K c p => e2 J K 2 c p⟩

end Verif.C110
