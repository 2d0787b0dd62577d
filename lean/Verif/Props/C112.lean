import Verif.Props.C111

/-!
# C112: combined loads

The matrix of `calc_kG` superposes the forces `Nxx`, `Nyy`, `Nxy`.  So the loads that a structure carries form a
convex region (Papkovich), and the first critical multiplier of two loads together is bounded by those of each load
alone (Dunkerley).
-/

set_option linter.unusedSectionVars false

namespace Verif.C112

open Model Spec Indep

/-! ## Matrices -/

section
variable {K G G' T : Coo ℝ} {J : Finset ℕ}

/-- No positive critical multiplier up to `a`. -/
def Safe (J : Finset ℕ) (K G : Coo ℝ) (a : ℝ) : Prop := ∀ q : ℝ, 0 < q → Critical J K G q → a < q

/-- Safe loads together. -/
theorem safe_mix (hK : C80.Sym K) (hp : C80.Pos J K) (hG : C80.Sym G) (hG' : C80.Sym G') (hT : C80.Sym T) {r q : ℝ}
    (h : ∀ v, Coo.quad T v = r * Coo.quad G v + q * Coo.quad G' v) (h1 : 0 ≤ r) (h2 : 0 ≤ q) {a b c : ℝ} (ha : 0 < a)
    (hb : 0 < b) (hc : 0 ≤ c) (hs : c * (r / a + q / b) ≤ 1) (s : Safe J K G a) (s' : Safe J K G' b) : Safe J K T c := by
  refine (C80.stable_iff hT hK hp hc).1 fun v hv h0 => ?_
  have e := (C80.stable_iff hG hK hp ha.le).2 s v hv h0
  have e' := (C80.stable_iff hG' hK hp hb.le).2 s' v hv h0
  have e0 := hp v hv h0
  have w : Coo.quad K v + c * Coo.quad T v = (1 - c * (r / a + q / b)) * Coo.quad K v
      + c * (r / a) * (Coo.quad K v + a * Coo.quad G v) + c * (q / b) * (Coo.quad K v + b * Coo.quad G' v) := by
    rw [h]
    field_simp
    ring
  have x1 : 0 ≤ c * (r / a) := by positivity
  have x2 : 0 ≤ c * (q / b) := by positivity
  rw [w]
  rcases hs.lt_or_eq with hs | hs
  · have := mul_pos (sub_pos.2 hs) e0
    have := mul_nonneg x1 e.le
    have := mul_nonneg x2 e'.le
    linarith
  · rw [hs, sub_self, zero_mul, zero_add]
    rcases x1.lt_or_eq with y | y
    · have := mul_pos y e
      have := mul_nonneg x2 e'.le
      linarith
    · have x3 : c * (q / b) = 1 := by linarith
      rw [← y, x3]
      linarith

end

/-! ## Kernels -/

section

/-- The weights of a list of entries. -/
noncomputable def W (v : ℕ → ℝ) (L : Coo ℝ) : ℝ := (L.map (Coo.symW v)).sum

theorem W_append (v : ℕ → ℝ) (A B : Coo ℝ) : W v (A ++ B) = W v A + W v B := by
  simp [W]

theorem W_pad (v : ℕ → ℝ) (n : ℕ) (L : Coo ℝ) : W v (Coo.pad n L) = W v L := by
  unfold Coo.pad
  rw [W_append]
  simp [W, Coo.symW]

theorem W_flat {α : Type} {v : ℕ → ℝ} {r q : ℝ} {f g h : α → Coo ℝ} (e : ∀ a, W v (f a) = r * W v (g a) + q * W v (h a)) :
    ∀ l : List α, W v (l.flatMap f) = r * W v (l.flatMap g) + q * W v (l.flatMap h)
  | [] => by simp [W]
  | a :: l => by
    rw [List.flatMap_cons, List.flatMap_cons, List.flatMap_cons, W_append, W_append, W_append, e, W_flat e l]
    ring

theorem W_build {v : ℕ → ℝ} {r q : ℝ} {f g h : ℕ → ℕ → ℕ → ℕ → ℕ → ℕ → ℝ}
    (e : ∀ i k j l α β, f i k j l α β = r * g i k j l α β + q * h i k j l α β) (r0 c0 m n : ℕ) (pat : List (ℕ × ℕ)) :
    W v (symBuild r0 c0 m n pat f) = r * W v (symBuild r0 c0 m n pat g) + q * W v (symBuild r0 c0 m n pat h) := by
  unfold symBuild
  refine W_flat (fun i => W_flat (fun k => W_flat (fun j => W_flat (fun l => ?_) _) _) _) _
  unfold symBlock
  split
  · simp [W]
  · unfold W
    induction pat with
    | nil => simp
    | cons ab pat ih =>
      simp only [List.map_cons, List.sum_cons]
      rw [ih]
      simp only [Coo.symW, e]
      split_ifs <;> ring

theorem quad_fkG0 (E : Env ℝ) (k : Kind) (P : Panel ℝ) (r q : ℝ) (n n' : ℝ × ℝ × ℝ) (row0 col0 : ℕ) (v : ℕ → ℝ) :
    Coo.quad (Coo.finalizeSym (fkG0 E k P (r • n + q • n').1 (r • n + q • n').2.1 (r • n + q • n').2.2 row0 col0)) v
      = r * Coo.quad (Coo.finalizeSym (fkG0 E k P n.1 n.2.1 n.2.2 row0 col0)) v
        + q * Coo.quad (Coo.finalizeSym (fkG0 E k P n'.1 n'.2.1 n'.2.2 row0 col0)) v := by
  rw [Coo.quad_finalizeSym, Coo.quad_finalizeSym, Coo.quad_finalizeSym]
  change W v _ = r * W v _ + q * W v _
  simp only [Prod.fst_add, Prod.snd_add, Prod.smul_fst, Prod.smul_snd, smul_eq_mul]
  cases k
  · simp only [fkG0, plateFkG0, W_pad]
    refine W_build (fun i k j l α β => ?_) ..
    unfold Gen.PlateAna.fkG0
    split
    · unfold Gen.PlateAna.fkG0_22
      ring
    · ring
  · simp only [fkG0, cylFkG0, W_pad]
    refine W_build (fun i k j l α β => ?_) ..
    unfold Gen.CylAna.fkG0
    split
    · unfold Gen.CylAna.fkG0_22
      ring
    · ring

end

/-! ## Panels -/

section
variable {E : Env ℝ} {s t : Shell ℝ}

/-- The panel with forces `n`. -/
def load (n : ℝ × ℝ × ℝ) (s : Shell ℝ) : Shell ℝ := { s with Nxx := n.1, Nyy := n.2.1, Nxy := n.2.2 }

theorem load_rebuild (n : ℝ × ℝ × ℝ) (ht : s.rebuild E = .ok t) : (load n s).rebuild E = .ok (load n t) := by
  obtain ⟨h1, h2, h3, h4, lam, h5, rfl⟩ := (C54.rebuild_ok_iff E s t).1 ht
  exact (C54.rebuild_ok_iff E _ _).2 ⟨h1, h2, h3, h4, lam, h5, rfl⟩

/-- The matrices of loads superpose, and safe loads together are safe: with `r = 1 - q` and `a = b = c = 1` the loads
that are carried form a convex region, and with `r = q = 1` two loads are carried together up to the multiplier `c`
with `1 / c = 1 / a + 1 / b`. -/
structure Combined {N : Type} [AddCommMonoid N] [Module ℝ N] (G : N → Coo ℝ) : Prop where
  symmetric : ∀ n, C80.Sym (G n)
  superposed : ∀ (r q : ℝ) (n n' : N) (i j : ℕ),
    Coo.entry (G (r • n + q • n')) i j = r * Coo.entry (G n) i j + q * Coo.entry (G n') i j
  safe : ∀ (J : Finset ℕ) (K : Coo ℝ), C80.Sym K → C80.Pos J K → ∀ (n n' : N) (r q a b c : ℝ), 0 ≤ r → 0 ≤ q → 0 < a →
    0 < b → 0 ≤ c → c * (r / a + q / b) ≤ 1 → Safe J K (G n) a → Safe J K (G n') b → Safe J K (G (r • n + q • n')) c

theorem combined {N : Type} [AddCommMonoid N] [Module ℝ N] {G : N → Coo ℝ} (hs : ∀ n, C80.Sym (G n))
    (h : ∀ (r q : ℝ) (n n' : N) (v : ℕ → ℝ),
      Coo.quad (G (r • n + q • n')) v = r * Coo.quad (G n) v + q * Coo.quad (G n') v) : Combined G :=
  ⟨hs, fun r q n n' => C110.entry_mix (hs _) (hs _) (hs _) (h r q n n'), fun J K hK hp n n' r q a b c h1 h2 ha hb hc h3 =>
    safe_mix hK hp (hs _) (hs _) (hs _) (h r q n n') h1 h2 ha hb hc h3⟩

/-- **C112, one panel.** -/
theorem panel (ht : s.rebuild E = .ok t) {A : KArgs ℝ} (hd : C38.Documented t A (A.nx.getD t.nx) (A.ny.getD t.ny))
    (hc : A.c = none) (hN : A.NLgeom = false) (hf : A.finalize = true) :
    ∃ G : ℝ × ℝ × ℝ → Coo ℝ, (∀ n, (load n s).calcKG E A = .ok (G n, (load n t).fixR)) ∧ Combined G ∧
      ∀ r q n n' v, Coo.quad (G (r • n + q • n')) v = r * Coo.quad (G n) v + q * Coo.quad (G n') v := by
  obtain ⟨k, lam, F, hb, hk, hl, hF⟩ := rebuild_built E s t ht
  have q := quad_fkG0 E k t.fixR.panel (row0 := A.row0) (col0 := A.col0)
  refine ⟨fun n => Coo.finalizeSym (fkG0 E k t.fixR.panel n.1 n.2.1 n.2.2 A.row0 A.col0), fun n => ?_,
    combined (fun _ => sym_finalize _) fun r s n n' v => q r s n n' v, fun r s n n' v => q r s n n' v⟩
  unfold Shell.calcKG
  refine bind_ok.2 ⟨_, load_rebuild n ht, bind_ok.2 ⟨(), by rw [hc]; rfl, bind_ok.2 ⟨(k, lam, F), hb, ?_⟩⟩⟩
  refine (if_pos (by simp [hN, hc])).trans ?_
  refine bind_ok.2 ⟨_, fkG0_sparse E k t.fixR.panel _ _ _ (?_ : InSize t.fixR.panel A.row0 A.col0 _), ?_⟩
  · have e := C38.size_eq t A
    rw [show (load n t).pan = t.pan from rfl, e]
    exact ⟨hd.row, hd.col⟩
  · simp only [fin, hf, if_true]
    rfl

end

/-! ## Assemblies -/

section
variable {E : Env ℝ}

/-- **C112, assemblies.**  Each panel has its own forces. -/
theorem multi {shells T : ℕ → Shell ℝ} {place : ℕ → Option Place} {panels : List ℕ} {conn : Option (List (ConnD ℝ))}
    (hn : panels.Nodup) (h0 : panels ≠ []) (hT : ∀ p ∈ panels, (shells p).rebuild E = .ok (T p)) :
    ∃ (G : (ℕ → ℝ × ℝ × ℝ) → Coo ℝ) (w : (ℕ → ℝ × ℝ × ℝ) → Multi ℝ),
      (∀ n, (Multi.init (fun p => load (n p) (shells p)) place panels conn).calcKG E none = .ok (G n, w n)) ∧ Combined G := by
  have key := fun n : ℕ → ℝ × ℝ × ℝ => C40.kG_energy E (fun p => load (n p) (shells p)) place panels conn hn h0
    (fun p => load (n p) (T p)) (fun p hp => load_rebuild (n p) (hT p hp)) none (by simp)
  choose own h1 G w h2 h3 using key
  refine ⟨G, w, h2, combined (fun n => ?_) fun r q n n' v => ?_⟩
  · have g2 := h2 n
    unfold Multi.calcKG at g2
    obtain ⟨-, -, h⟩ := bind_ok.1 g2
    obtain ⟨⟨L, M1⟩, hL, h⟩ := bind_ok.1 h
    obtain ⟨k, hk, h⟩ := bind_ok.1 h
    cases h
    exact finSum_sym hk
  · rw [h3, h3, h3, ← List.sum_map_mul_left, ← List.sum_map_mul_left, ← List.sum_map_add]
    refine congrArg List.sum (List.map_congr_left fun k hk => ?_)
    have hk := List.mem_range.1 hk
    have hm : panels[k] ∈ panels := List.getElem_mem hk
    have hp : (T panels[k]).pan = (shells panels[k]).pan := (rebuild_kept E (hT _ hm)).1
    have hd : C38.Documented (T panels[k]) (C40.aloneArgs none (C40.start shells panels k)
        (3 * (shells panels[k]).pan.m * (shells panels[k]).pan.n)) (T panels[k]).nx (T panels[k]).ny :=
      ⟨fun x hx => (by cases hx), fun x hx => (by cases hx), fun x hx => (by cases hx),
        by simp [C38.sizeOf, C40.aloneArgs], by simp [C38.sizeOf, C40.aloneArgs]⟩
    obtain ⟨G1, c1, -, c2⟩ := panel (hT _ hm) hd rfl rfl rfl
    have o : ∀ n, own n k = G1 (n panels[k]) := fun n => by
      have := (h1 n k hk).symm.trans (c1 (n panels[k]))
      exact (Prod.mk.inj (Except.ok.inj this)).1
    rw [o, o, o]
    exact c2 r q _ _ _

end

/-! ## Concrete cases -/

/-- The hypotheses of `panel`: the cylindrical panel of `C16`; compression and shear that are carried alone up to twice
and three times their values are carried together. -/
example : ∃ G : ℝ × ℝ × ℝ → Coo ℝ, (∀ n, ∃ w, (load n C16.shell).calcKG C16.env {} = .ok (G n, w)) ∧
    ∀ (J : Finset ℕ) (K : Coo ℝ), C80.Sym K → C80.Pos J K → Safe J K (G (-1, 0, 0)) 2 → Safe J K (G (0, 0, 1)) 3 →
      Safe J K (G (-1, 0, 1)) (6 / 5) := by
  obtain ⟨t, h, -⟩ := C16.shell_call fun _ => 0
  obtain ⟨G, h1, h2, -⟩ := panel h.built (A := {}) ⟨fun x hx => (by cases hx), fun x hx => (by cases hx),
    fun x hx => (by cases hx), by simp [C38.sizeOf], by simp [C38.sizeOf]⟩ rfl rfl rfl
  refine ⟨G, fun n => ⟨_, h1 n⟩, fun J K hK hp s s' => ?_⟩
  have := h2.safe J K hK hp (-1, 0, 0) (0, 0, 1) 1 1 2 3 (6 / 5) (by norm_num) (by norm_num) (by norm_num) (by norm_num)
    (by norm_num) (by norm_num) s s'
  simpa using this

/-- Positive definite matrices and safe loads exist: one spring, pressed. -/
example : C80.Sym [⟨0, 0, 1⟩] ∧ C80.Pos {0} [⟨0, 0, 1⟩] ∧ Safe {0} [⟨0, 0, 1⟩] [⟨0, 0, -(1 / 3)⟩] 2 := by
  have e : ∀ x : ℝ, C80.Sym [⟨0, 0, x⟩] := fun x k l => by
    simp only [Coo.entry_cons, Coo.entry_nil]
    split_ifs <;> first | rfl | omega
  have hp : C80.Pos {0} [⟨0, 0, 1⟩] := fun v hv h0 => by
    obtain ⟨k, hk, hv⟩ := hv
    obtain rfl := Finset.mem_singleton.1 hk
    simp only [Coo.quad, Coo.bilin_cons, Coo.bilin_nil]
    have := mul_self_pos.2 hv
    linarith
  refine ⟨e 1, hp, (C80.stable_iff (e _) (e 1) hp (by norm_num)).1 fun v hv h0 => ?_⟩
  have := hp v hv h0
  simp only [Coo.quad, Coo.bilin_cons, Coo.bilin_nil] at this ⊢
  linarith

/-- The hypotheses of `multi`: two such panels. -/
example : ∃ (G : (ℕ → ℝ × ℝ × ℝ) → Coo ℝ) (w : (ℕ → ℝ × ℝ × ℝ) → Multi ℝ), (∀ n, (Multi.init (fun p => load (n p) C16.shell)
    (fun _ => none) [4, 0] (some [C40.joint])).calcKG C16.env none = .ok (G n, w n)) ∧ Combined G := by
  obtain ⟨t, h, -⟩ := C16.shell_call fun _ => 0
  exact multi (shells := fun _ => C16.shell) (T := fun _ => t) (by decide) (by simp) fun _ _ => h.built

end Verif.C112
