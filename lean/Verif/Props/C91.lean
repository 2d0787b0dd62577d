import Verif.Proofs.Rotate
import Verif.Props.C80Ready
import Verif.Props.C88

/-!
# C91: rotating a closed cylinder by whole panels

A cylinder of equal panels has no first panel: with the loads, and the blades, handed on round the ring by
any number of panels the matrices are the same with the unknowns handed on alike, and the buckling loads
are the same.
-/

set_option linter.unusedSectionVars false

namespace Verif.C91

open Finset Spec Model Indep C80

/-! ## What follows for the analyses from numbers that are only permuted -/

section
variable {e : ℕ ≃ ℕ} {A A' B B' : Coo ℝ} {t t' : Finset ℕ}

/-- Entry by entry the same matrix, with permuted numbers. -/
def Perm (e : ℕ ≃ ℕ) (A A' : Coo ℝ) : Prop := ∀ k l, Coo.entry A' k l = Coo.entry A (e k) (e l)

theorem two_entry (hA : Sym A) (k l : ℕ) : 2 * Coo.entry A k l
    = Coo.quad A (fun i => unit k i + 1 * unit l i) - Coo.quad A (unit k) - Coo.quad A (unit l) := by
  unfold Coo.quad
  rw [Coo.bilin_add_left, Coo.bilin_add_right, Coo.bilin_add_right, ← Coo.entry_bilin,
    ← Coo.entry_bilin, ← Coo.entry_bilin, ← Coo.entry_bilin, hA l k]
  ring

theorem unit_perm (e : ℕ ≃ ℕ) (k : ℕ) : (fun i => unit (e k) (e i)) = (unit k : ℕ → ℝ) := by
  funext i
  simp only [unit, EmbeddingLike.apply_eq_iff_eq]

/-- Equal energies: the same matrix. -/
theorem perm_of_quad (hA : Sym A) (hA' : Sym A')
    (h : ∀ c : ℕ → ℝ, Coo.quad A' (fun k => c (e k)) = Coo.quad A c) : Perm e A A' := fun k l => by
  apply mul_left_cancel₀ (two_ne_zero (α := ℝ))
  rw [two_entry hA, two_entry hA', ← h, ← h, ← h]
  simp only [unit_perm]
  rw [← unit_perm e k, ← unit_perm e l]

theorem Perm.symm (hA : Perm e A A') : Perm e.symm A' A := fun k l => by
  rw [hA, e.apply_symm_apply, e.apply_symm_apply]

theorem back_mem (ht : ∀ k, k ∈ t' ↔ e k ∈ t) (k : ℕ) : k ∈ t ↔ e.symm k ∈ t' := by
  rw [ht, e.apply_symm_apply]

theorem sum_over {M : Type*} [AddCommMonoid M] (ht : ∀ k, k ∈ t' ↔ e k ∈ t) (g : ℕ → M) :
    ∑ l ∈ t', g (e l) = ∑ l ∈ t, g l :=
  Finset.sum_nbij' e e.symm (fun l hl => (ht l).1 hl) (fun l hl => (back_mem ht l).1 hl)
    (fun l _ => e.symm_apply_apply l) (fun l _ => e.apply_symm_apply l) fun _ _ => rfl

theorem mul_over {R : Type*} [Semiring R] (f : ℝ → R) (ht : ∀ k, k ∈ t' ↔ e k ∈ t) (hA : Perm e A A')
    (z : ℕ → R) (k : ℕ) :
    ∑ l ∈ t', f (Coo.entry A' k l) * z (e l) = ∑ l ∈ t, f (Coo.entry A (e k) l) * z l := by
  rw [← sum_over ht]
  exact Finset.sum_congr rfl fun l _ => by rw [hA]

theorem critical_to (ht : ∀ k, k ∈ t' ↔ e k ∈ t) (hA : Perm e A A') (hB : Perm e B B') {p : ℂ}
    (h : Critical t A B p) : Critical t' A' B' p := by
  obtain ⟨z, ⟨k, hk, hz⟩, h⟩ := h
  refine ⟨fun l => z (e l), ⟨e.symm k, (back_mem ht k).1 hk, by simpa using hz⟩, fun l hl => ?_⟩
  have e1 := mul_over (fun x : ℝ => (x : ℂ)) ht hA z l
  have e2 := mul_over (fun x : ℝ => (x : ℂ)) ht hB z l
  rw [e1, e2]
  exact h _ ((ht l).1 hl)

theorem critical_iff (ht : ∀ k, k ∈ t' ↔ e k ∈ t) (hA : Perm e A A') (hB : Perm e B B') (p : ℂ) :
    Critical t' A' B' p ↔ Critical t A B p :=
  ⟨critical_to (back_mem ht) hA.symm hB.symm, critical_to ht hA hB⟩

theorem quad_perm (ht : ∀ k, k ∈ t' ↔ e k ∈ t) (hA : Perm e A A') {v : ℕ → ℝ}
    (hv : ∀ k ∉ t, v k = 0) : Coo.quad A' (fun k => v (e k)) = Coo.quad A v := by
  have hv' : ∀ k ∉ t', v (e k) = 0 := fun k hk => hv _ fun h => hk ((ht k).2 h)
  rw [form_quad A hv, form_quad A' hv']
  unfold form
  rw [← sum_over ht]
  exact Finset.sum_congr rfl fun k _ => congrArg _ (mul_over id ht hA v k)

/-- Permuting is linear. -/
def permMap (e : ℕ ≃ ℕ) : (ℕ → ℝ) →ₗ[ℝ] (ℕ → ℝ) where
  toFun v k := v (e k)
  map_add' _ _ := rfl
  map_smul' _ _ := rfl

theorem values_le (ht : ∀ k, k ∈ t' ↔ e k ∈ t) (hA : Perm e A A') (hB : Perm e B B') (hs : Sym B)
    (hs' : Sym B') (hp : Pos t B) {φ lam φ' lam'} (h : Modes t A B φ lam) (h' : Modes t' A' B' φ' lam')
    {a : ℕ} (ha : a < t.card) (ha' : a < t'.card) : lam' ⟨a, ha'⟩ ≤ lam ⟨a, ha⟩ :=
  C88.compare h h' hs hs' (permMap e) ha ha'
    (fun v hv k hk => hv _ fun h => hk ((ht k).2 h))
    (fun v hv => (quad_perm ht hA hv).le)
    (fun v hv => (congrArg _ (quad_perm ht hB hv).symm).le)
    fun v hne hv => (hp v hne hv).trans_eq (quad_perm ht hB hv).symm

/-- The whole list of eigenvalues is the same, with multiplicities. -/
theorem values (ht : ∀ k, k ∈ t' ↔ e k ∈ t) (hA : Perm e A A') (hB : Perm e B B') (hs : Sym B)
    (hs' : Sym B') (hp : Pos t B) {φ lam φ' lam'} (h : Modes t A B φ lam) (h' : Modes t' A' B' φ' lam') :
    t'.card = t.card ∧ ∀ a, ∀ (ha : a < t.card) (ha' : a < t'.card), lam' ⟨a, ha'⟩ = lam ⟨a, ha⟩ := by
  have hb := back_mem ht
  have hp' : Pos t' B' := fun v ⟨k, hk, hne⟩ hv => by
    rw [← quad_perm hb hB.symm hv]
    refine hp _ ⟨e k, (ht k).1 hk, by simpa using hne⟩ fun k hk => hv _ fun h => hk ((hb k).2 h)
  refine ⟨?_, fun a ha ha' => le_antisymm (values_le ht hA hB hs hs' hp h h' ha ha')
    (values_le hb hA.symm hB.symm hs' hs hp' h' h ha' ha)⟩
  exact Finset.card_nbij' e e.symm (fun l hl => (ht l).1 hl) (fun l hl => (hb l).1 hl)
    (fun l _ => e.symm_apply_apply l) fun l _ => e.apply_symm_apply l

end

/-! ## The two buckling analyses -/

/-- Matrices of a buckling analysis and of the same analysis rotated by `j` panels. -/
structure Turned (q : CylArgs ℝ) (j : ℕ) (A A' : Assy ℝ) (k0 kG k0' kG' : Coo ℝ) : Prop where
  stiff : Rotated q.npanels (3 * q.m * q.n) j k0 k0'
  load : Rotated q.npanels (3 * q.m * q.n) j kG kG'
  active : ∀ k, k ∈ C78.actives A'.count A'.panel A'.start ↔
    rotNo q.npanels (3 * q.m * q.n) j k ∈ C78.actives A.count A.panel A.start

section
variable {q : CylArgs ℝ} {j : ℕ} {A A' : Assy ℝ} {k0 kG k0' kG' : Coo ℝ}

/-- **C91, buckling.**  The critical multipliers of the loads are the same. -/
theorem Turned.critical (h : Turned q j A A' k0 kG k0' kG') (hn : 0 < q.npanels) (hm : 0 < q.m ∧ 0 < q.n)
    (p : ℂ) : Critical (C78.actives A'.count A'.panel A'.start) k0' kG' p ↔
      Critical (C78.actives A.count A.panel A.start) k0 kG p :=
  critical_iff (e := rotEquiv hn (Nat.mul_pos (Nat.mul_pos (by omega) hm.1) hm.2) j) h.active h.stiff
    h.load p

/-- **C91, the list of buckling loads.**  Also with their multiplicities: the eigenvalues of the pair
`kG`, `k0` are minus one over the multipliers. -/
theorem Turned.values (h : Turned q j A A' k0 kG k0' kG') (hn : 0 < q.npanels) (hm : 0 < q.m ∧ 0 < q.n)
    (hs : Sym k0) (hs' : Sym k0') (hp : Pos (C78.actives A.count A.panel A.start) k0) {φ lam φ' lam'}
    (h1 : Modes (C78.actives A.count A.panel A.start) kG k0 φ lam)
    (h2 : Modes (C78.actives A'.count A'.panel A'.start) kG' k0' φ' lam') :
    (C78.actives A'.count A'.panel A'.start).card = (C78.actives A.count A.panel A.start).card ∧
      ∀ a, ∀ ha ha', lam' ⟨a, ha'⟩ = lam ⟨a, ha⟩ :=
  C91.values (e := rotEquiv hn (Nat.mul_pos (Nat.mul_pos (by omega) hm.1) hm.2) j) h.active h.load h.stiff
    hs hs' hp h1 h2

end

/-- Which amplitudes are switched on. -/
theorem actives_rot {n N g : ℕ} (hn : 0 < n) {P P' : ℕ → Panel ℝ} {start start' : ℕ → ℕ} {j : ℕ}
    (h0 : ∀ p < g * n, start p = p * N) (h0' : ∀ p < g * n, start' p = p * N)
    (hN : ∀ p < g * n, 3 * (P p).m * (P p).n = N)
    (hP : ∀ r < g, ∀ i < n, P' (r * n + i) = P (r * n + (i + j) % n)) (k : ℕ) :
    k ∈ C78.actives (g * n) P' start' ↔ rotNo n N j k ∈ C78.actives (g * n) P start := by
  have lt : ∀ {r i}, r < g → i < n → r * n + i < g * n := fun {r i} hr hi => by
    calc r * n + i < r * n + n := by omega
      _ = (r + 1) * n := by ring
      _ ≤ g * n := Nat.mul_le_mul_right _ hr
  have sub : ∀ {Q : Panel ℝ} {α i l}, i < Q.m → l < Q.n → α < 3 → 3 * Q.m * Q.n = N →
      3 * (l * Q.m + i) + α < N := fun {Q α i l} hi hl hα hQ => by
    have : (l + 1) * Q.m ≤ Q.n * Q.m := Nat.mul_le_mul_right _ hl
    nlinarith
  simp only [C78.actives, mem_biUnion, mem_range, C76.mem_actives]
  constructor
  · rintro ⟨p, hp, α, hα, i, hi, l, hl, f1, f2, rfl⟩
    obtain ⟨r, s, hs, rfl⟩ : ∃ r s, s < n ∧ p = r * n + s :=
      ⟨p / n, p % n, Nat.mod_lt _ hn, (Nat.div_add_mod' p n).symm⟩
    have hr : r < g := by
      by_contra hc
      have : g * n ≤ r * n := Nat.mul_le_mul_right _ (by omega)
      omega
    have hlt := lt hr (Nat.mod_lt (s + j) hn)
    rw [hP r hr s hs] at hi hl f1 f2 ⊢
    refine ⟨_, hlt, α, hα, i, hi, l, hl, f1, f2, ?_⟩
    rw [h0' _ hp, h0 _ hlt, Nat.add_assoc, rotNo_block hs (sub hi hl hα (hN _ hlt)), Nat.add_assoc]
  · rintro ⟨p, hp, α, hα, i, hi, l, hl, f1, f2, e⟩
    obtain ⟨r, s, hs, rfl⟩ : ∃ r s, s < n ∧ p = r * n + s :=
      ⟨p / n, p % n, Nat.mod_lt _ hn, (Nat.div_add_mod' p n).symm⟩
    have hr : r < g := by
      by_contra hc
      have : g * n ≤ r * n := Nat.mul_le_mul_right _ (by omega)
      omega
    have hk := sub hi hl hα (hN _ hp)
    have hN0 : 0 < N := by omega
    have hj := Nat.mod_lt j hn
    have hs' := Nat.mod_lt (s + (n - j % n)) hn
    have back : ((s + (n - j % n)) % n + j) % n = s := by
      rw [Nat.mod_add_mod, Nat.add_assoc, Nat.add_mod, ← Nat.add_mod_mod _ j, Nat.sub_add_cancel hj.le,
        Nat.mod_self, Nat.add_zero, Nat.mod_mod, Nat.mod_eq_of_lt hs]
    have e' : k = (r * n + (s + (n - j % n)) % n) * N + (3 * (l * (P (r * n + s)).m + i) + α) := by
      apply (rotEquiv hn hN0 j).injective
      show rotNo n N j k = rotNo n N j _
      rw [rotNo_block hs' hk, back, e, h0 _ hp, Nat.add_assoc]
    have hPs := hP r hr _ hs'
    rw [back] at hPs
    refine ⟨_, lt hr hs', α, hα, i, by rwa [hPs], l, by rwa [hPs], by rwa [hPs], by rwa [hPs], ?_⟩
    rw [h0' _ (lt hr hs'), hPs, e', Nat.add_assoc]

/-! ## Cylinders -/

section
variable {E : Env ℝ} (hI : E.I.Exact E.S Mean.integral) (hS : E.S.C2) (q : CylArgs ℝ)
  (hn : 2 ≤ q.npanels) (hm : 0 < q.m ∧ 0 < q.n) (hh : 0 < q.height) (hr : 0 < q.r) {t : Shell ℝ}
  (ht : (skinPart Real.pi q 0).shell.rebuild E = .ok t) {lam : LamObj ℝ} (hl : t.lam = some lam)
  (hF : ABDSym lam.ABD) (hpos : C44.Pos (penOf t lam))

/-- Unknowns of one panel. -/
abbrev size (q : CylArgs ℝ) : ℕ := 3 * q.m * q.n

/-- Energy of a ring. -/
theorem ring_quad (hn : 0 < q.npanels) {S : Shape ℝ} {P : Panel ℝ} (hPm : P.m = q.m) (hPn : P.n = q.n)
    (F : ℕ → ℕ → ℝ) (kt kr : ℝ) (j : ℕ) (c : ℕ → ℝ) :
    ((List.range q.npanels).map fun i =>
        strainWork S P F fun k => c (rotNo q.npanels (size q) j (i * size q + k))).sum
      = ((List.range q.npanels).map fun i => strainWork S P F fun k => c (i * size q + k)).sum ∧
    ((List.range q.npanels).map fun i => edgeEnergy S P kt kr (i * size q)
        ((i + 1) % q.npanels * size q) fun k => c (rotNo q.npanels (size q) j k)).sum
      = ((List.range q.npanels).map fun i =>
        edgeEnergy S P kt kr (i * size q) ((i + 1) % q.npanels * size q) c).sum := by
  have hN : 3 * P.m * P.n = size q := by rw [hPm, hPn]
  have hb : ∀ i < q.npanels, ∀ k < 3 * P.m * P.n, rotNo q.npanels (size q) j (i * size q + k)
      = (i + j) % q.npanels * size q + k := fun i hi k hk => by
    have := rotNo_block (j := j) hi (hN ▸ hk) 0
    simpa using this
  constructor
  · rw [← sum_ring j fun i => strainWork S P F fun k => c (i * size q + k)]
    refine congrArg _ (List.map_congr_left fun i hi => strainWork_block F fun k hk => ?_)
    rw [hb i (List.mem_range.1 hi) k hk]
  · rw [← sum_ring j fun i => edgeEnergy S P kt kr (i * size q) ((i + 1) % q.npanels * size q) c]
    refine congrArg _ (List.map_congr_left fun i hi => edgeEnergy_block kt kr (fun k hk => ?_) fun k hk => ?_)
    · beta_reduce
      rw [hb i (List.mem_range.1 hi) k hk]
    · beta_reduce
      rw [hb _ (Nat.mod_lt _ hn) k hk, next_rot]

/-- Work of the loads of a ring. -/
theorem ring_work (hn : 0 < q.npanels) {S : Shape ℝ} {P : Panel ℝ} (hPm : P.m = q.m) (hPn : P.n = q.n)
    {Nxxs : List ℝ} (hNx : Nxxs.length = q.npanels) (j : ℕ) (c : ℕ → ℝ) :
    ((List.range q.npanels).map fun i => slopeWork S P ((Nxxs.rotate j).getD i 0) 0 0
        fun k => c (rotNo q.npanels (size q) j (i * size q + k))).sum
      = ((List.range q.npanels).map fun i =>
        slopeWork S P (Nxxs.getD i 0) 0 0 fun k => c (i * size q + k)).sum := by
  have hN : 3 * P.m * P.n = size q := by rw [hPm, hPn]
  rw [← sum_ring j fun i => slopeWork S P (Nxxs.getD i 0) 0 0 fun k => c (i * size q + k)]
  refine congrArg _ (List.map_congr_left fun i hi => ?_)
  have hi := List.mem_range.1 hi
  rw [getD_rotate Nxxs 0 j (hNx ▸ hi), hNx]
  refine slopeWork_block _ _ _ fun k hk => ?_
  have := rotNo_block (j := j) hi (hN ▸ hk) 0
  simp only [Nat.zero_mul, Nat.zero_add] at this
  rw [this]

include hI hS hn hm hh hr ht hl hF hpos

/-- **C91, stiffness.**  The stiffness of the cylinder is the same seen from any panel. -/
theorem stiffness (j : ℕ) : ∃ A k0 M, createCylinder Real.pi q = .ok A ∧
    A.multi.calcKC E (some A.conns) none = .ok (k0, M) ∧ Rotated q.npanels (size q) j k0 k0 := by
  obtain ⟨A, k0, M, kt, kr, h1, h2, -, -, h3⟩ := C64.stiffness hI hS q hn hm hh hr ht hl hF hpos
  refine ⟨A, k0, M, h1, h2, ?_⟩
  have hs : Sym k0 := Assy.calcKC_sym h2
  exact perm_of_quad (e := rotEquiv (by omega) (Nat.mul_pos (Nat.mul_pos (by omega) hm.1) hm.2) j) hs hs
    fun c => by
      rw [h3, h3]
      obtain ⟨e1, e2⟩ := ring_quad q (by omega) (S := E.S) (P := (skinPart Real.pi q 0).shell.panel) rfl rfl
        lam.ABD kt kr j c
      exact congrArg₂ (· + ·) e1 e2

/-- **C91, cylinder.**  Axial loads handed on round the cylinder: panel `i` gets what panel `i + j` had. -/
theorem cylinder (Nxxs : List ℝ) (hN : Nxxs.length = q.npanels) (j : ℕ) : ∃ A k0 kG A' k0' kG',
    cylinderNxxCte E Real.pi q Nxxs = .ok (A, k0, kG) ∧
    cylinderNxxCte E Real.pi q (Nxxs.rotate j) = .ok (A', k0', kG') ∧ Sym k0 ∧ Sym k0' ∧
    Turned q j A A' k0 kG k0' kG' := by
  have hA : createCylinder Real.pi q = .ok ⟨skinPart Real.pi q, q.npanels, skinConns Real.pi q⟩ := by
    rw [createCylinder, if_neg (by omega)]
  have hs : ∀ L : List ℝ, Skin q (skinPart Real.pi q 0).freeX2u.shell.pan (fun i => L.getD i 0)
      ⟨fun i => ((skinPart Real.pi q i).setNxx (L.getD i 0)).freeX2u, q.npanels, skinConns Real.pi q⟩ :=
    fun _ => ⟨rfl, rfl, fun _ _ => rfl, rfl, rfl, rfl, rfl⟩
  obtain ⟨k0, M, kG, M', kt, kr, h1, g1, -, -, h4, h5, h6⟩ :=
    (hs Nxxs).energy hI hS hn hm hh hr ht hl hF hpos
  obtain ⟨k0', M2, kG', M2', kt', kr', h1', g1', -, -, h4', h5', h6'⟩ :=
    (hs (Nxxs.rotate j)).energy hI hS hn hm hh hr ht hl hF hpos
  have := h6.symm.trans h6'
  simp only [Option.some.injEq, Prod.mk.injEq] at this
  obtain ⟨rfl, rfl⟩ := this
  have hN' : (Nxxs.rotate j).length = q.npanels := by rw [List.length_rotate, hN]
  have s1 := Assy.calcKC_sym h1
  have s1' := Assy.calcKC_sym h1'
  have h0 : 0 < 3 * q.m * q.n := Nat.mul_pos (Nat.mul_pos (by omega) hm.1) hm.2
  refine ⟨⟨fun i => ((skinPart Real.pi q i).setNxx (Nxxs.getD i 0)).freeX2u, q.npanels,
      skinConns Real.pi q⟩, k0, kG,
    ⟨fun i => ((skinPart Real.pi q i).setNxx ((Nxxs.rotate j).getD i 0)).freeX2u, q.npanels,
      skinConns Real.pi q⟩, k0', kG', ?_, ?_, s1, s1',
    perm_of_quad (e := rotEquiv (by omega) h0 j) s1 s1' fun c => ?_,
    perm_of_quad (e := rotEquiv (by omega) h0 j) (Multi.calcKG_sym g1) (Multi.calcKG_sym g1') fun c => ?_,
    fun k => ?_⟩
  · unfold cylinderNxxCte
    simp only [hA, bind, Except.bind, hN, ne_eq, not_true_eq_false, if_false, h1, g1]
    rfl
  · unfold cylinderNxxCte
    simp only [hA, bind, Except.bind, hN', ne_eq, not_true_eq_false, if_false, h1', g1']
    rfl
  · rw [h4, h4']
    obtain ⟨e1, e2⟩ := ring_quad q (by omega) (S := E.S)
      (P := { (skinPart Real.pi q 0).freeX2u.shell.pan with r := q.r }) rfl rfl lam.ABD kt kr j c
    exact congrArg₂ (· + ·) e1 e2
  · rw [h5, h5']
    exact ring_work q (by omega) (S := E.S)
      (P := { (skinPart Real.pi q 0).freeX2u.shell.pan with r := q.r }) rfl rfl hN j c
  · have := actives_rot (n := q.npanels) (N := 3 * q.m * q.n) (g := 1) (by omega)
      (P := fun _ => (skinPart Real.pi q 0).freeX2u.shell.panel)
      (P' := fun _ => (skinPart Real.pi q 0).freeX2u.shell.panel) (j := j)
      (fun p hp => (hs Nxxs).start (by omega)) (fun p hp => (hs (Nxxs.rotate j)).start (by omega))
      (fun _ _ => rfl) (fun _ _ _ _ => rfl) k
    rw [Nat.one_mul] at this
    exact this

end

/-! ## Cylinders with blades -/

section
variable {E : Env ℝ} {q : CylArgs ℝ} {sts : List (List ℝ)} {widths : List ℝ} {t : Shell ℝ}
  {lam : LamObj ℝ} {tb : ℕ → Shell ℝ} {lamb : ℕ → LamObj ℝ}

theorem blade_rotate (h1 : sts.length = q.npanels) (h2 : widths.length = q.npanels) (j : ℕ) {i : ℕ}
    (hi : i < q.npanels) : (bladePart Real.pi q (sts.rotate j) (widths.rotate j) i).shell
      = (bladePart Real.pi q sts widths ((i + j) % q.npanels)).shell := by
  simp only [bladePart]
  rw [getD_rotate sts [] j (h1 ▸ hi), getD_rotate widths 0 j (h2 ▸ hi), h1, h2]

theorem fit_rotate (h : BladesFit E q sts widths t lam tb lamb) (j : ℕ) :
    BladesFit E q (sts.rotate j) (widths.rotate j) t lam (fun i => tb ((i + j) % q.npanels))
      fun i => lamb ((i + j) % q.npanels) := by
  have lt : ∀ i, (i + j) % q.npanels < q.npanels := fun i => Nat.mod_lt _ (by have := h.num; omega)
  refine { h with
    nstacks := by rw [List.length_rotate, h.nstacks]
    nwidths := by rw [List.length_rotate, h.nwidths]
    width := fun i hi => ?_
    builtb := fun i hi => ?_
    hlamb := fun i _ => h.hlamb _ (lt i)
    symb := fun i _ => h.symb _ (lt i)
    posb := fun i _ => h.posb _ (lt i) }
  · rw [getD_rotate widths 0 j (h.nwidths ▸ hi), h.nwidths]
    exact h.width _ (lt i)
  · rw [blade_rotate h.nstacks h.nwidths j hi]
    exact h.builtb _ (lt i)

/-- The assembly of `bladesNxxCte` and its energies. -/
theorem blades_core (h : BladesFit E q sts widths t lam tb lamb) (Ns Nb : List ℝ)
    (hN : Ns.length = q.npanels) (hNb : Nb.length = q.npanels) :
    let P := (skinPart Real.pi q 0).freeX2u.shell.panel
    let B := fun i => (bladePart Real.pi q sts widths i).freeX2u.shell.panel
    let n := q.npanels
    let N := 3 * q.m * q.n
    ∃ A k0 kG kt kr, ∃ ktb krb : ℕ → ℝ, bladesNxxCte E Real.pi q sts widths Ns Nb = .ok (A, k0, kG) ∧
      Sym k0 ∧ Sym kG ∧ A.count = n + n ∧ (∀ p < n, A.panel p = P) ∧ (∀ i < n, A.panel (n + i) = B i) ∧
      (∀ p < n + n, A.start p = p * N) ∧
      (∀ v, Coo.quad k0 v
          = ((List.range n).map fun i => strainWork E.S P lam.ABD fun k => v (i * N + k)).sum
          + ((List.range n).map fun i => strainWork E.S (B i) (lamb i).ABD fun k => v ((n + i) * N + k)).sum
          + ((List.range n).map fun i => edgeEnergy E.S P kt kr (i * N) ((i + 1) % n * N) v).sum
          + ((List.range n).map fun i =>
              standEnergy E.S P (B i) (ktb i) (krb i) (i * N) ((n + i) * N) v).sum) ∧
      (∀ v, Coo.quad kG v = ((List.range n).map fun i =>
          slopeWork E.S P (Ns.getD i 0) 0 0 fun k => v (i * N + k)).sum
        + ((List.range n).map fun i =>
          slopeWork E.S (B i) (Nb.getD i 0) 0 0 fun k => v ((n + i) * N + k)).sum) ∧
      calcKtKr (penOf { t with pan := (skinPart Real.pi q 0).freeX2u.shell.pan } lam)
        (penOf { t with pan := (skinPart Real.pi q 0).freeX2u.shell.pan } lam) "ycte" = some (kt, some kr) ∧
      ∀ i < n, calcKtKr (penOf { t with pan := (skinPart Real.pi q 0).freeX2u.shell.pan } lam)
        (penOf { tb i with pan := (bladePart Real.pi q sts widths i).freeX2u.shell.pan } (lamb i)) "ycte"
          = some (ktb i, some (krb i)) := by
  obtain ⟨A, hA⟩ := (C64.blades_accepted Real.pi q sts widths).2 ⟨h.num, h.nstacks, h.nwidths⟩
  obtain ⟨hg, hp, hpb, hc⟩ := C65.made h hA
  have hs : Stiffened q sts widths (skinPart Real.pi q 0).freeX2u.shell.pan
      (fun i => (bladePart Real.pi q sts widths i).freeX2u.shell.pan) (fun i => Ns.getD i 0)
      (fun i => Nb.getD i 0) (constLoads Ns Nb A q.npanels (q.npanels + q.npanels)) := by
    refine ⟨hg.count, hc, fun p hlt => ?_, fun i hlt => ?_, rfl, rfl, rfl, rfl, fun _ => rfl,
      fun _ => rfl, fun _ => rfl, fun _ => rfl⟩
    · simp only [constLoads, show ¬ q.npanels + q.npanels ≤ p by omega, if_false, hlt, if_true, hp p hlt]
      rfl
    · simp only [constLoads, show ¬ q.npanels + q.npanels ≤ q.npanels + i by omega, if_false,
        show ¬ q.npanels + i < q.npanels by omega, hpb i hlt, Nat.add_sub_cancel_left]
      rfl
  obtain ⟨k0, M, kG, M', kt, kr, kt', kr', h1, h2, -, -, -, h3, h4, h5, h6⟩ := hs.energy h
  refine ⟨constLoads Ns Nb A q.npanels (q.npanels + q.npanels), k0, kG, kt, kr, kt', kr', ?_,
    Assy.calcKC_sym h1, Multi.calcKG_sym h2, hg.count, fun p hlt => ?_, fun i hlt => ?_,
    fun p hlt => hs.start hlt.le, h3, h4, h5, h6⟩
  · unfold bladesNxxCte
    simp only [hA, bind, Except.bind, hN, hNb, ne_eq, not_true_eq_false, if_false,
      bladeNxxLoop_eq hg, h1, h2]
    rfl
  · rw [Assy.panel, hs.part p hlt]
    rfl
  · rw [Assy.panel, hs.partb i hlt]
    rfl

/-- **C91, stiffened cylinder.**  Blades, loads of the skin and loads of the blades handed on alike. -/
theorem blades (h : BladesFit E q sts widths t lam tb lamb) (Ns Nb : List ℝ)
    (hN : Ns.length = q.npanels) (hNb : Nb.length = q.npanels) (j : ℕ) : ∃ A k0 kG A' k0' kG',
    bladesNxxCte E Real.pi q sts widths Ns Nb = .ok (A, k0, kG) ∧
    bladesNxxCte E Real.pi q (sts.rotate j) (widths.rotate j) (Ns.rotate j) (Nb.rotate j)
      = .ok (A', k0', kG') ∧ Sym k0 ∧ Sym k0' ∧ Turned q j A A' k0 kG k0' kG' := by
  obtain ⟨A, k0, kG, kt, kr, ktb, krb, c1, s0, sG, cnt, p1, p2, st, e0, eG, pen, penb⟩ :=
    blades_core h Ns Nb hN hNb
  obtain ⟨A', k0', kG', kt', kr', ktb', krb', c1', s0', sG', cnt', p1', p2', st', e0', eG', pen', penb'⟩ :=
    blades_core (fit_rotate h j) (Ns.rotate j) (Nb.rotate j) (by rw [List.length_rotate, hN])
      (by rw [List.length_rotate, hNb])
  have hn : 0 < q.npanels := by have := h.num; omega
  have h0 : 0 < 3 * q.m * q.n := Nat.mul_pos (Nat.mul_pos (by omega) h.terms.1) h.terms.2
  have lt : ∀ i, (i + j) % q.npanels < q.npanels := fun i => Nat.mod_lt _ hn
  have := pen.symm.trans pen'
  simp only [Option.some.injEq, Prod.mk.injEq] at this
  obtain ⟨rfl, rfl⟩ := this
  have hB : ∀ i < q.npanels, (bladePart Real.pi q (sts.rotate j) (widths.rotate j) i).freeX2u.shell
      = (bladePart Real.pi q sts widths ((i + j) % q.npanels)).freeX2u.shell := fun i hi => by
    unfold Part.freeX2u
    rw [blade_rotate h.nstacks h.nwidths j hi]
  have hk : ∀ i < q.npanels, ktb' i = ktb ((i + j) % q.npanels) ∧ krb' i = krb ((i + j) % q.npanels) :=
    fun i hi => by
      have e := penb' i hi
      rw [hB i hi, penb _ (lt i)] at e
      simp only [Option.some.injEq, Prod.mk.injEq] at e
      exact ⟨e.1.symm, e.2.symm⟩
  have b1 : ∀ i < q.npanels, ∀ k < 3 * q.m * q.n, rotNo q.npanels (3 * q.m * q.n) j (i * (3 * q.m * q.n) + k)
      = (i + j) % q.npanels * (3 * q.m * q.n) + k := fun i hi k hk => by
    have := rotNo_block (j := j) hi hk 0
    simpa using this
  have b2 : ∀ i < q.npanels, ∀ k < 3 * q.m * q.n,
      rotNo q.npanels (3 * q.m * q.n) j ((q.npanels + i) * (3 * q.m * q.n) + k)
      = (q.npanels + (i + j) % q.npanels) * (3 * q.m * q.n) + k := fun i hi k hk => by
    have := rotNo_block (j := j) hi hk 1
    simpa using this
  refine ⟨A, k0, kG, A', k0', kG', c1, c1', s0, s0', perm_of_quad (e := rotEquiv hn h0 j) s0 s0' fun c => ?_,
    perm_of_quad (e := rotEquiv hn h0 j) sG sG' fun c => ?_, fun k => ?_⟩
  · rw [e0, e0']
    obtain ⟨r1, r2⟩ := ring_quad q hn (S := E.S) (P := (skinPart Real.pi q 0).freeX2u.shell.panel) rfl rfl
      lam.ABD kt kr j c
    refine congrArg₂ (· + ·) (congrArg₂ (· + ·) (congrArg₂ (· + ·) r1 ?_) r2) ?_
    · rw [← sum_ring j fun i => strainWork E.S (bladePart Real.pi q sts widths i).freeX2u.shell.panel
        (lamb i).ABD fun k => c ((q.npanels + i) * (3 * q.m * q.n) + k)]
      refine congrArg _ (List.map_congr_left fun i hi => ?_)
      have hi := List.mem_range.1 hi
      beta_reduce
      rw [hB i hi]
      exact strainWork_block _ fun k hk => congrArg c (b2 i hi k hk)
    · rw [← sum_ring j fun i => standEnergy E.S (skinPart Real.pi q 0).freeX2u.shell.panel
        (bladePart Real.pi q sts widths i).freeX2u.shell.panel (ktb i) (krb i) (i * (3 * q.m * q.n))
        ((q.npanels + i) * (3 * q.m * q.n)) c]
      refine congrArg _ (List.map_congr_left fun i hi => ?_)
      have hi := List.mem_range.1 hi
      beta_reduce
      rw [hB i hi, (hk i hi).1, (hk i hi).2]
      exact standEnergy_block _ _ (fun k hk => congrArg c (b1 i hi k hk)) fun k hk =>
        congrArg c (b2 i hi k hk)
  · rw [eG, eG']
    refine congrArg₂ (· + ·) (ring_work q hn (S := E.S)
      (P := (skinPart Real.pi q 0).freeX2u.shell.panel) rfl rfl hN j c) ?_
    rw [← sum_ring j fun i => slopeWork E.S (bladePart Real.pi q sts widths i).freeX2u.shell.panel
      (Nb.getD i 0) 0 0 fun k => c ((q.npanels + i) * (3 * q.m * q.n) + k)]
    refine congrArg _ (List.map_congr_left fun i hi => ?_)
    have hi := List.mem_range.1 hi
    beta_reduce
    rw [hB i hi, getD_rotate Nb 0 j (hNb ▸ hi), hNb]
    exact slopeWork_block _ _ _ fun k hk => congrArg c (b2 i hi k hk)
  · have e : q.npanels + q.npanels = 2 * q.npanels := by omega
    rw [cnt, cnt', e]
    refine actives_rot hn (fun p hp => st p (e ▸ hp)) (fun p hp => st' p (e ▸ hp)) (fun p hp => ?_)
      (fun r hr i hi => ?_) k
    · rcases split_index (e ▸ hp) with hp | ⟨i, hi, rfl⟩
      · rw [p1 p hp]
        rfl
      · rw [p2 i hi]
        rfl
    · have hr : r = 0 ∨ r = 1 := by omega
      rcases hr with rfl | rfl
      · rw [Nat.zero_mul, Nat.zero_add, Nat.zero_add, p1' i hi, p1 _ (lt i)]
      · rw [Nat.one_mul, p2' i hi, p2 _ (lt i)]
        beta_reduce
        rw [hB i hi]

end

/-! ## Examples -/

/-- Three panels with different loads, handed on by one. -/
example : ∃ A k0 kG A' k0' kG', cylinderNxxCte C40.env Real.pi C64.args [-1, -2, -3] = .ok (A, k0, kG) ∧
    cylinderNxxCte C40.env Real.pi C64.args [-2, -3, -1] = .ok (A', k0', kG') ∧
    ∀ p, Critical (C78.actives A'.count A'.panel A'.start) k0' kG' p ↔
      Critical (C78.actives A.count A.panel A.start) k0 kG p := by
  obtain ⟨t, lam, h1, h2, h3, h4⟩ := C64.args_built
  obtain ⟨A, k0, kG, A', k0', kG', g1, g2, -, -, g3⟩ := cylinder (Tab.of_exact _ _) bardellShape_C2 C64.args
    (by decide) ⟨by decide, by decide⟩ (by simp [C64.args]) (by simp [C64.args]) h1 h2 h3 h4 [-1, -2, -3] rfl 1
  exact ⟨A, k0, kG, A', k0', kG', g1, g2, g3.critical (by decide) ⟨by decide, by decide⟩⟩

/-- Three different blades handed on by two, also the list of eigenvalues. -/
example : ∃ A k0 kG A' k0' kG', bladesNxxCte C40.env Real.pi C64.args [[0], [45, 0], [0, 0, 90]] [1, 2, 3]
      [1, 1, 4] [0, 2, 0] = .ok (A, k0, kG) ∧
    bladesNxxCte C40.env Real.pi C64.args [[0, 0, 90], [0], [45, 0]] [3, 1, 2] [4, 1, 1] [0, 0, 2]
      = .ok (A', k0', kG') ∧
    ∃ φ lam φ' lam', Modes (C78.actives A.count A.panel A.start) kG k0 φ lam ∧
      Modes (C78.actives A'.count A'.panel A'.start) kG' k0' φ' lam' ∧
      ∀ a, ∀ ha ha', lam' ⟨a, ha'⟩ = lam ⟨a, ha⟩ := by
  obtain ⟨t, lam, tb, lamb, h⟩ := C64.blades_built
  have hDb := fun i hi => C78.env_def (h.builtb i hi) (h.hlamb i hi) rfl (h.posb i hi)
  obtain ⟨A, k0, kG, A', k0', kG', g1, g2, s1, s2, g3⟩ := blades h [1, 1, 4] [0, 2, 0] rfl rfl 2
  obtain ⟨A2, k02, kG2, d1, d2⟩ := C78.blades_nxx h (exact_hier 7) (by norm_num) ⟨by decide, by decide⟩
    (C78.env_def h.built h.hlam rfl h.pos) hDb [1, 1, 4] [0, 2, 0] rfl rfl
  obtain ⟨A3, k03, kG3, f1, f2⟩ := C78.blades_nxx (fit_rotate h 2) (exact_hier 7) (by norm_num)
    ⟨by decide, by decide⟩ (C78.env_def h.built h.hlam rfl h.pos)
    (fun i _ => hDb _ (Nat.mod_lt _ (by decide))) [4, 1, 1] [0, 0, 2] rfl rfl
  have := g1.symm.trans d1
  cases this
  have := g2.symm.trans f1
  cases this
  have hG : Sym kG ∧ Sym kG' := by
    obtain ⟨_, _, _, _, _, _, _, x1, -, x2, -⟩ := blades_core h [1, 1, 4] [0, 2, 0] rfl rfl
    obtain ⟨_, _, _, _, _, _, _, y1, -, y2, -⟩ := blades_core (fit_rotate h 2) [4, 1, 1] [0, 0, 2] rfl rfl
    have := x1.symm.trans d1
    cases this
    have := y1.symm.trans f1
    cases this
    exact ⟨x2, y2⟩
  obtain ⟨φ, la, m1⟩ := modes hG.1 s1 (pos_of_assy d2)
  obtain ⟨φ', la', m2⟩ := modes hG.2 s2 (pos_of_assy f2)
  exact ⟨A, k0, kG, A', k0', kG', g1, g2, φ, la, φ', la', m1, m2,
    (g3.values (by decide) ⟨by decide, by decide⟩ s1 s2 (pos_of_assy d2) m1 m2).2⟩

end Verif.C91
