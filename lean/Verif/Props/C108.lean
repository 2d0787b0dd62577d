import Verif.Spec.BayForce
import Verif.Props.C81Ready
import Verif.Props.C87

/-!
# C108: linear static analysis of a stiffened bay

Reciprocity, the energy theorem and the minimum of the potential energy for the stiffness matrix of a bay
and forces on its skin and flanges (`Spec/BayForce.lean`).
-/

namespace Verif.C108

open Spec Model Finset Indep C81

variable {E : BayEnv ℝ} {B B' R : Bay ℝ} {N : ℕ} {k : Coo ℝ} {S : Shape ℝ} {t : Finset ℕ}
  {ls ls' : List PartForce} {c d : ℕ → ℝ}

theorem field_sum (S : Shape ℝ) (P : Panel ℝ) (s0 α : ℕ) (x y : ℝ) (hd : ∀ k ∉ t, d k = 0) :
    ∑ k ∈ t, Spec.field S P s0 (fun i => if i = k then 1 else 0) α x y * d k = Spec.field S P s0 d α x y := by
  simp only [Spec.field, Spec.disp, mul_assoc, sum_mul]
  rw [← mul_sum, ← mul_sum, sum_comm]
  refine congrArg _ (congrArg _ (sum_congr rfl fun i _ => ?_))
  rw [sum_comm]
  refine sum_congr rfl fun j _ => ?_
  simp only [ite_mul, one_mul, zero_mul, sum_ite_eq]
  split
  · ring
  · rename_i h
    rw [hd _ h, zero_mul]

/-- The force vector does the work of the forces. -/
theorem work (S : Shape ℝ) (R : Bay ℝ) (ls : List PartForce) (hd : ∀ k ∉ t, d k = 0) :
    ∑ k ∈ t, forceVector S R ls k * d k = forceWork S R ls d := by
  induction ls with
  | nil => simp [forceVector, forceWork]
  | cons l ls ih =>
    simp only [forceVector, forceWork, List.map_cons, List.sum_cons, add_mul, sum_add_distrib] at ih ⊢
    rw [ih]
    refine congrArg (· + _) ?_
    simp only [mul_assoc]
    rw [← mul_sum]
    exact congrArg _ (field_sum S _ _ _ _ _ hd)

/-- **C108, reciprocity.**  The work of one set of forces on the displacements under another is the work of
the other on the displacements under the first. -/
theorem reciprocal (hk : B.calcKC E = .ok (k, B')) (hc : Balanced t k (forceVector S R ls) c)
    (hd : Balanced t k (forceVector S R ls') d) : forceWork S R ls d = forceWork S R ls' c := by
  rw [← work S R ls hd.off, ← work S R ls' hc.off]
  exact C87.reciprocal (symmetric.1 hk) hc hd

/-- **C108, exchange.**  The displacement of one part under a force on another is the same when the two are
exchanged. -/
theorem exchange (hk : B.calcKC E = .ok (k, B')) {l l' : PartForce} (hs : l.size = l'.size) (h0 : l.size ≠ 0)
    (hc : Balanced t k (forceVector S R [l]) c) (hd : Balanced t k (forceVector S R [l']) d) :
    l.shift S R d = l'.shift S R c := by
  have h := reciprocal hk hc hd
  simp only [forceWork, List.map_cons, List.map_nil, List.sum_cons, List.sum_nil, add_zero, ← hs] at h
  exact mul_left_cancel₀ h0 h

/-- **C108, energy.**  In equilibrium twice the strain energy is the work of the forces. -/
theorem energy (hc : Balanced t k (forceVector S R ls) c) : Coo.quad k c = forceWork S R ls c := by
  rw [← work S R ls hc.off]
  exact C87.bilin_balanced hc hc.off

/-- **C108, superposition.** -/
theorem superposed (hc : Balanced t k (forceVector S R ls) c) (hd : Balanced t k (forceVector S R ls') d) :
    Balanced t k (forceVector S R (ls ++ ls')) fun i => c i + d i := by
  refine ⟨fun i hi => by rw [hc.off i hi, hd.off i hi, add_zero], fun i hi => ?_⟩
  simp only [mul_add, sum_add_distrib]
  rw [hc.eq i hi, hd.eq i hi]
  simp [forceVector, forceWork]

section
variable (h : SolidBay E B R N) {n : ℕ} (hS : Hier E.S n) (hn : 4 ≤ n)
include h hS hn

/-- **C108, minimum.**  The amplitudes are in equilibrium exactly if they make the strain energy minus the
work of the forces smallest. -/
theorem minimum (hmn : R.skin.m ≤ n ∧ R.skin.n ≤ n) (hk : B.calcKC E = .ok (k, B')) :
    Balanced t k (forceVector E.S R ls) c ↔
      Smallest t (fun c => 1 / 2 * Coo.quad k c - forceWork E.S R ls c) c := by
  have e : ∀ d : ℕ → ℝ, (∀ k ∉ t, d k = 0) → C87.potential t k (forceVector E.S R ls) d
      = 1 / 2 * Coo.quad k d - forceWork E.S R ls d := fun d hd => by
    rw [C87.potential, work E.S R ls hd]
  obtain ⟨k0, B0, h1, h2⟩ := h.kernel hS hn hmn
  cases h1.symm.trans hk
  rw [C87.balanced_iff (symmetric.1 hk) fun v _ => (h2 v).1]
  constructor <;> intro h <;> refine ⟨h.off, fun d hd => ?_⟩ <;> have := h.least d hd
  · rwa [e _ h.off, e _ hd] at this
  · rw [e _ h.off, e _ hd]
    exact this

/-- **C108, direction.**  A force never moves its own point against its direction. -/
theorem along (hmn : R.skin.m ≤ n ∧ R.skin.n ≤ n) (hk : B.calcKC E = .ok (k, B')) {l : PartForce}
    (hc : Balanced t k (forceVector S R [l]) c) : 0 ≤ l.size * l.shift S R c := by
  obtain ⟨k0, B0, h1, h2⟩ := h.kernel hS hn hmn
  cases h1.symm.trans hk
  have e := energy hc
  simp only [forceWork, List.map_cons, List.map_nil, List.sum_cons, List.sum_nil, add_zero] at e
  rw [← e]
  exact (h2 c).1

/-- **C108, the bay at rest.**  If supports and joints hold the bay, every set of forces on skin and flanges
has exactly one equilibrium, and it is the minimum. -/
theorem solved (hmn : ∀ k < R.blade2.length + 1, (bayPanel R k).m ≤ n ∧ (bayPanel R k).n ≤ n)
    (hR : BayRestrained R) (ls : List PartForce) :
    ∃ k B', B.calcKC E = .ok (k, B') ∧ ∃! c, Balanced (actives R) k (forceVector E.S R ls) c ∧
      Smallest (actives R) (fun c => 1 / 2 * Coo.quad k c - forceWork E.S R ls c) c := by
  obtain ⟨k, B', hk, hd, -⟩ := definite_iff h hS hn hmn
  have hm : ∀ i, i ∈ actives R ↔ ∃ k < R.blade2.length + 1, Active (bayPanel R k) (bayStart R k) i :=
    fun i => by simp [actives, C78.actives, C76.mem_actives]
  obtain ⟨c, ⟨h1, h2⟩, h3⟩ := solvable (hd hR) (forceVector E.S R ls)
  have hc : Balanced (actives R) k (forceVector E.S R ls) c :=
    ⟨fun i hi => h1 i fun e => hi ((hm i).2 e), fun i hi => h2 i ((hm i).1 hi)⟩
  exact ⟨k, B', hk, c, ⟨hc, (minimum h hS hn (hmn 0 (Nat.succ_pos _)) hk).1 hc⟩, fun d hd => h3 d
    ⟨fun i hi => hd.1.off i fun e => hi ((hm i).1 e), fun i hi => hd.1.eq i ((hm i).2 hi)⟩⟩

/-- **C108, response.**  Under a force that does work on some motion of the bay, its point moves. -/
theorem moves (hmn : ∀ k < R.blade2.length + 1, (bayPanel R k).m ≤ n ∧ (bayPanel R k).n ≤ n)
    (hR : BayRestrained R) (hk : B.calcKC E = .ok (k, B')) {l : PartForce}
    (hc : Balanced (actives R) k (forceVector S R [l]) c) {v : ℕ → ℝ} (hv : ∀ i ∉ actives R, v i = 0)
    (hw : l.size * l.shift S R v ≠ 0) : 0 < l.size * l.shift S R c := by
  refine lt_of_le_of_ne (along h hS hn (hmn 0 (Nat.succ_pos _)) hk hc) fun h0 => hw ?_
  obtain ⟨k0, B0, h1, h2, -⟩ := definite_iff h hS hn hmn
  cases h1.symm.trans hk
  have e := energy hc
  simp only [forceWork, List.map_cons, List.map_nil, List.sum_cons, List.sum_nil, add_zero] at e
  have hz : ∀ i, c i = 0 := fun i => by
    by_contra hi
    have hp := C80.pos_of_assy (h2 hR)
    have hm : i ∈ actives R := by
      by_contra hm
      exact hi (hc.off i hm)
    have := hp c ⟨i, hm, hi⟩ hc.off
    rw [e, ← h0] at this
    exact lt_irrefl _ this
  have hb := C87.bilin_balanced hc hv
  rw [work S R [l] hv] at hb
  simp only [forceWork, List.map_cons, List.map_nil, List.sum_cons, List.sum_nil, add_zero] at hb
  rw [← hb, C87.bilin_on k (actives R) hv hc.off]
  simp [hz]

end

/-- In the middle of a part the fifth terms do not vanish. -/
theorem middle {P : Panel ℝ} (s0 : ℕ) (ha : P.a ≠ 0) (hb : P.b ≠ 0) (hm : 5 ≤ P.m) (hn : 5 ≤ P.n) {α : ℕ} :
    Spec.field (bardellShape ℝ) P s0 (fun i => if i = s0 + 3 * (4 * P.m + 4) + α then 1 else 0) α
      (P.a / 2) (P.b / 2) = 1 / 64 := by
  have e1 : 2 * (P.a / 2) / P.a - 1 = 0 := by field_simp; ring
  have e2 : 2 * (P.b / 2) / P.b - 1 = 0 := by field_simp; ring
  have e4 : bardell 4 = [1/8, 0, -1/4, 0, 1/8] := by decide +kernel
  have e5 : ∀ fl : Flags ℝ, (bardellShape ℝ).D 0 4 0 fl = 1 / 8 := fun fl => by
    simp [Shape.D, bardellShape, e4, pev, flag]
  have e6 : ∀ i < P.m, ∀ j < P.n, (s0 + 3 * (j * P.m + i) + α = s0 + 3 * (4 * P.m + 4) + α ↔ j = 4 ∧ i = 4) :=
    fun i hi j hj => by
      refine ⟨fun h => ?_, fun ⟨h1, h2⟩ => by rw [h1, h2]⟩
      have h : j * P.m + i = 4 * P.m + 4 := by omega
      have hj : j = 4 := by
        rcases lt_trichotomy j 4 with h4 | h4 | h4
        · have := Nat.mul_le_mul_right P.m (show j + 1 ≤ 4 by omega)
          rw [Nat.add_mul] at this
          omega
        · exact h4
        · have := Nat.mul_le_mul_right P.m (show 4 + 1 ≤ j by omega)
          rw [Nat.add_mul] at this
          omega
      subst hj
      exact ⟨rfl, by omega⟩
  rw [Spec.field, Spec.disp, e1, e2, pow_zero, pow_zero, one_mul, one_mul,
    sum_eq_single_of_mem 4 (mem_range.2 (by omega)), sum_eq_single_of_mem 4 (mem_range.2 (by omega)),
    if_pos rfl, e5, e5]
  · norm_num
  · intro j hj hne
    rw [if_neg fun h => hne ((e6 4 (by omega) j (mem_range.1 hj)).1 h).1, zero_mul]
  · intro i hi hne
    refine sum_eq_zero fun j hj => ?_
    rw [if_neg fun h => hne ((e6 i (mem_range.1 hi) j (mem_range.1 hj)).1 h).2, zero_mul]

/-- **C108, response in the middle.**  A force in the middle of skin or flange moves its point along itself,
whatever holds the bay (five terms or more). -/
theorem moves_middle (h : SolidBay E B R N) (hE : E.S = bardellShape ℝ) {n : ℕ} (hS : Hier E.S n) (hn : 4 ≤ n)
    (hmn : ∀ k < R.blade2.length + 1, (bayPanel R k).m ≤ n ∧ (bayPanel R k).n ≤ n)
    (hR : BayRestrained R) (hk : B.calcKC E = .ok (k, B')) {p α : ℕ} (hp : p < R.blade2.length + 1) (hα : α < 3)
    (h5 : 5 ≤ (bayPanel R p).m ∧ 5 ≤ (bayPanel R p).n) {F : ℝ} (hF : F ≠ 0)
    (hc : Balanced (actives R) k (forceVector E.S R [⟨p, α, (bayPanel R p).a / 2, (bayPanel R p).b / 2, F⟩]) c) :
    0 < F * PartForce.shift E.S R ⟨p, α, (bayPanel R p).a / 2, (bayPanel R p).b / 2, F⟩ c := by
  refine moves h hS hn hmn hR hk hc (v := fun i =>
    if i = bayStart R p + 3 * (4 * (bayPanel R p).m + 4) + α then 1 else 0) (fun i hi => if_neg ?_) ?_
  · rintro rfl
    refine hi ?_
    simp only [actives, C78.actives, mem_biUnion, mem_range, C76.mem_actives]
    exact ⟨p, hp, α, hα, 4, by omega, 4, by omega, by simp [flag], by simp [flag], rfl⟩
  · obtain ⟨ha, hb⟩ := h.part_sides p hp
    refine mul_ne_zero hF ?_
    rw [PartForce.shift, hE, middle (bayStart R p) ha.ne' hb.ne' h5.1 h5.2]
    norm_num

/-! ## Concrete cases -/

/-- A bay with a 1D and a 2D stiffener: forces on the skin and on the flange and what they move. -/
example : ∃ B, full = .ok B ∧ ∃ R, ∃ k B', B.calcKC env = .ok (k, B') ∧ ∃ c d,
    Balanced (actives R) k (forceVector env.S R [⟨0, 2, 1 / 2, 1 / 3, 5⟩]) c ∧
    Balanced (actives R) k (forceVector env.S R [⟨1, 1, 1 / 4, 1 / 8, 5⟩]) d ∧
    PartForce.shift env.S R ⟨0, 2, 1 / 2, 1 / 3, 5⟩ d = PartForce.shift env.S R ⟨1, 1, 1 / 4, 1 / 8, 5⟩ c ∧
    0 ≤ 5 * PartForce.shift env.S R ⟨0, 2, 1 / 2, 1 / 3, 5⟩ c ∧
    Coo.quad k c = forceWork env.S R [⟨0, 2, 1 / 2, 1 / 3, 5⟩] c ∧
    Balanced (actives R) k (forceVector env.S R [⟨0, 2, 1 / 2, 1 / 3, 5⟩, ⟨1, 1, 1 / 4, 1 / 8, 5⟩])
      fun i => c i + d i := by
  obtain ⟨B, hB, R, N, h, hre, hmn⟩ := full_solid
  obtain ⟨k, B', hk, c, ⟨hc, -⟩, -⟩ := solved h (exact_hier 7) (by norm_num) hmn hre
    [⟨0, 2, 1 / 2, 1 / 3, 5⟩]
  obtain ⟨k', B'', hk', d, ⟨hd, -⟩, -⟩ := solved h (exact_hier 7) (by norm_num) hmn hre
    [⟨1, 1, 1 / 4, 1 / 8, 5⟩]
  cases hk.symm.trans hk'
  exact ⟨B, hB, R, k, B', hk, c, d, hc, hd, exchange hk rfl (by norm_num) hc hd,
    along h (exact_hier 7) (by norm_num) (hmn 0 (Nat.succ_pos _)) hk hc, energy hc, superposed hc hd⟩

/-- The skin of the bay of C81. -/
theorem full_skin (h : full = .ok B) : B.skin = loose Witness.panel := by
  have h1 : ∀ {B B' : Bay ℝ} {ys rho bb bf b f}, B.addBlade1 env ys rho bb bf b f = .ok B' → B'.skin = B.skin := by
    intro B B' ys rho bb bf b f h
    unfold Bay.addBlade1 at h
    split at h
    · cases h
    · obtain ⟨x, -, h⟩ := bind_ok.1 h
      obtain ⟨y, -, h⟩ := bind_ok.1 h
      obtain ⟨z, -, h⟩ := bind_ok.1 h
      obtain ⟨s, -, h⟩ := bind_ok.1 h
      cases h
      rfl
  have h2 : ∀ {B B' : Bay ℝ} {ys rho bb bf b f mf nf}, B.addBlade2 env ys rho bb bf b f mf nf = .ok B' →
      B'.skin = B.skin := by
    intro B B' ys rho bb bf b f mf nf h
    unfold Bay.addBlade2 at h
    split at h
    · cases h
    · obtain ⟨x, -, h⟩ := bind_ok.1 h
      obtain ⟨y, -, h⟩ := bind_ok.1 h
      obtain ⟨z, -, h⟩ := bind_ok.1 h
      obtain ⟨u, -, h⟩ := bind_ok.1 h
      obtain ⟨v, -, h⟩ := bind_ok.1 h
      obtain ⟨s, -, h⟩ := bind_ok.1 h
      cases h
      rfl
  unfold full at h
  obtain ⟨B1, e1, h⟩ := bind_ok.1 h
  obtain ⟨B2, e2, h⟩ := bind_ok.1 h
  rw [h2 h, h2 e2, h1 e1]
  rfl

/-- A force of `-2` in the middle of its skin pushes the skin in. -/
example : ∃ B, full = .ok B ∧ ∃ R, ∃ k B', B.calcKC env = .ok (k, B') ∧ ∃ c,
    Balanced (actives R) k (forceVector env.S R [⟨0, 2, 3 / 2, 1 / 2, -2⟩]) c ∧
    PartForce.shift env.S R ⟨0, 2, 3 / 2, 1 / 2, -2⟩ c < 0 := by
  obtain ⟨B, hB, R, N, h, hre, hmn⟩ := full_solid
  obtain ⟨k, B', hk, c, ⟨hc, -⟩, -⟩ := solved h (exact_hier 7) (by norm_num) hmn hre
    [⟨0, 2, 3 / 2, 1 / 2, -2⟩]
  obtain ⟨-, -, -, -, -, e, -⟩ := bay_rebuild_ok h.rebuilt
  rw [full_skin hB] at e
  have hp : bayPanel R 0 = { loose Witness.panel with r := R.r.getD 0 } := by rw [← e]; rfl
  have := moves_middle (p := 0) (α := 2) (F := -2) (c := c) h rfl (exact_hier 7) (by norm_num) hmn hre hk
    (Nat.succ_pos _) (by norm_num) (by rw [hp]; simp [loose, Witness.panel]) (by norm_num)
    (by rw [hp]; exact hc)
  rw [hp] at this
  refine ⟨B, hB, R, k, B', hk, c, hc, ?_⟩
  have e' : PartForce.shift env.S R ⟨0, 2, (3 : ℝ) / 2, (1 : ℝ) / 2, -2⟩ c * (-2) > 0 := by
    rw [mul_comm]
    exact this
  linarith

end Verif.C108
