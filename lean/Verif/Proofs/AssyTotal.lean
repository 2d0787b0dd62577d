import Verif.Basic.Exc
import Verif.Proofs.ConnTotal
import Verif.Props.C40

/-!
# When the matrix of the connections exists
-/

set_option linter.unusedSectionVars false

namespace Verif

open Model

variable {K : Type} [Field K] [LinearOrder K]

/-- The panels are distinct and own consecutive blocks, in the order of the list. -/
structure Laid (M : Multi K) : Prop where
  nodup : M.panels.Nodup
  place : ∀ k (hk : k < M.panels.length), ∃ q, M.place M.panels[k] = some q ∧
    q.col0 = C40.start M.shells M.panels k

theorem laid_init (shells : ℕ → Shell K) (place : ℕ → Option Place) (panels : List ℕ)
    (conn : Option (List (ConnD K))) (hn : panels.Nodup) : Laid (Multi.init shells place panels conn) :=
  ⟨hn, fun k hk => ⟨_, C39.blocks_partial shells place panels conn hn k hk, rfl⟩⟩

/-- Positions in the list of the panels. -/
theorem Laid.index {M : Multi K} (h : Laid M) : ∃ idx : ℕ → ℕ, ∀ p ∈ M.panels, ∃ q,
    M.place p = some q ∧ q.col0 = C40.start M.shells M.panels (idx p) ∧ M.panels[idx p]? = some p ∧
    q.col0 + 3 * (M.shells p).pan.m * (M.shells p).pan.n ≤ M.getSize := by
  obtain ⟨idx, hi⟩ := C40.exists_index (panels := M.panels)
    (fun k p => ∃ q, M.place p = some q ∧ q.col0 = C40.start M.shells M.panels k ∧
      q.col0 + 3 * (M.shells p).pan.m * (M.shells p).pan.n ≤ M.getSize)
    (fun k hk => by
      obtain ⟨q, h1, h2⟩ := h.place k hk
      refine ⟨q, h1, h2, ?_⟩
      rw [h2]
      exact C40.start_le M.shells M.panels hk)
  refine ⟨idx, fun p hp => ?_⟩
  obtain ⟨-, ⟨q, h1, h2, h3⟩, h4⟩ := hi p hp
  exact ⟨q, h1, h2, h4, h3⟩

/-- The blocks of different panels start at different positions. -/
theorem Laid.ne {M : Multi K} (h : Laid M)
    (hmn : ∀ p ∈ M.panels, 0 < (M.shells p).pan.m ∧ 0 < (M.shells p).pan.n) {A B : ℕ} {qA qB : Place}
    (hA : A ∈ M.panels) (hB : B ∈ M.panels) (hAB : A ≠ B) (eA : M.place A = some qA)
    (eB : M.place B = some qB) : qA.col0 ≠ qB.col0 := by
  have key : ∀ i j, i < j → ∀ hi : i < M.panels.length, j < M.panels.length →
      C40.start M.shells M.panels i < C40.start M.shells M.panels j := by
    intro i j hij hi hj
    have h1 := C39.take_sum_le (fun p => 3 * (M.shells p).pan.m * (M.shells p).pan.n) M.panels
      (show i + 1 ≤ j from hij)
    rw [List.take_succ_eq_append_getElem hi, List.map_append, List.sum_append] at h1
    simp only [List.map_cons, List.map_nil, List.sum_cons, List.sum_nil] at h1
    obtain ⟨h2, h3⟩ := hmn _ (List.getElem_mem hi)
    have h4 : 0 < 3 * (M.shells M.panels[i]).pan.m * (M.shells M.panels[i]).pan.n := by positivity
    unfold C40.start
    omega
  obtain ⟨i, hi, rfl⟩ := List.getElem_of_mem hA
  obtain ⟨j, hj, rfl⟩ := List.getElem_of_mem hB
  obtain ⟨q1, e1, s1⟩ := h.place i hi
  obtain ⟨q2, e2, s2⟩ := h.place j hj
  rw [e1] at eA; rw [e2] at eB
  cases eA; cases eB
  rw [s1, s2]
  have hij : i ≠ j := fun e => hAB (by subst e; rfl)
  rcases lt_or_gt_of_ne hij with h | h
  · exact (key i j h hi hj).ne
  · exact (key j i h hj hi).ne'

/-- A connection between two different panels of the list, with the positions its kind needs. -/
def Joinable (panels : List ℕ) (d : ConnD K) : Prop :=
  d.p1 ∈ panels ∧ d.p2 ∈ panels ∧ d.p1 ≠ d.p2 ∧
    (((d.func = "SSxcte" ∨ d.func = "BFxcte") ∧ ∃ x y, d.xcte1 = some x ∧ d.xcte2 = some y) ∨
     ((d.func = "SSycte" ∨ d.func = "BFycte") ∧ ∃ x y, d.ycte1 = some x ∧ d.ycte2 = some y) ∨
     d.func = "SB")

theorem pen_xcte (p q : PenLam K) : ∃ kt kr, calcKtKr p q "xcte" = some (kt, some kr) :=
  ⟨_, _, by rw [calcKtKr, if_pos (by decide)]⟩

theorem pen_ycte (p q : PenLam K) : ∃ kt kr, calcKtKr p q "ycte" = some (kt, some kr) :=
  ⟨_, _, by rw [calcKtKr, if_neg (by decide), if_pos (by decide)]⟩

theorem pen_bot (p q : PenLam K) : ∃ kt kr, calcKtKr p q "bot-top" = some (kt, kr) :=
  ⟨_, _, by rw [calcKtKr, if_neg (by decide), if_neg (by decide), if_pos (by decide)]⟩

theorem swap_keys (d : ConnD K) :
    (∀ x y, d.xcte1 = some x → d.xcte2 = some y → ∃ x y, d.swap.xcte1 = some x ∧ d.swap.xcte2 = some y) ∧
    (∀ x y, d.ycte1 = some x → d.ycte2 = some y → ∃ x y, d.swap.ycte1 = some x ∧ d.swap.ycte2 = some y) ∧
    d.swap.func = d.func := by
  by_cases h : d.func = "SB"
  · have : d.swap = d := by unfold ConnD.swap; rw [if_pos h]
    rw [this]
    exact ⟨fun x y h1 h2 => ⟨x, y, h1, h2⟩, fun x y h1 h2 => ⟨x, y, h1, h2⟩, rfl⟩
  · unfold ConnD.swap
    rw [if_neg h]
    obtain ⟨p1, p2, f, x1, x2, y1, y2, t⟩ := d
    cases x1 <;> cases x2 <;> cases y1 <;> cases y2 <;> simp

/-- One connection between built panels. -/
theorem joint_exists (E : Env K) {sA sB tA tB : Shell K} {lA lB : LamObj K}
    (hA : sA.rebuild E = .ok tA) (hB : sB.rebuild E = .ok tB) (hlA : tA.lam = some lA)
    (hlB : tB.lam = some lB) (a b : ℕ) (d : ConnD K)
    (hd : ((d.func = "SSxcte" ∨ d.func = "BFxcte") ∧ ∃ x y, d.xcte1 = some x ∧ d.xcte2 = some y) ∨
     ((d.func = "SSycte" ∨ d.func = "BFycte") ∧ ∃ x y, d.ycte1 = some x ∧ d.ycte2 = some y) ∨
     d.func = "SB") : ∃ L, JointOf E sA sB a b d L := by
  rcases hd with ⟨hf, x, y, h1, h2⟩ | ⟨hf, x, y, h1, h2⟩ | hf
  · obtain ⟨kt, kr, hk⟩ := pen_xcte (penOf tA lA) (penOf tB lB)
    rcases hf with hf | hf
    · exact ⟨_, .SSx hf hA hB hlA hlB hk h1 h2⟩
    · exact ⟨_, .BFx hf hA hB hlA hlB hk h1 h2⟩
  · obtain ⟨kt, kr, hk⟩ := pen_ycte (penOf tA lA) (penOf tB lB)
    rcases hf with hf | hf
    · exact ⟨_, .SSy hf hA hB hlA hlB hk h1 h2⟩
    · exact ⟨_, .BFy hf hA hB hlA hlB hk h1 h2⟩
  · obtain ⟨kt, kr, hk⟩ := pen_bot (penOf tA lA) (penOf tB lB)
    exact ⟨_, .SB hf hA hB hlA hlB hk⟩

/-- The loop over the connections, when every panel can be built. -/
theorem loop_exists (E : Env K) (M : Multi K) (hM : Laid M)
    (hmn : ∀ p ∈ M.panels, 0 < (M.shells p).pan.m ∧ 0 < (M.shells p).pan.n)
    (hT : ∀ p ∈ M.panels, ∃ t lam, (M.shells p).rebuild E = .ok t ∧ t.lam = some lam)
    (l : List (ConnD K)) (hl : ∀ d ∈ l, Joinable M.panels d) (prev : Option (ℕ × ℕ)) :
    ∃ l' Ls, LoopOf E M prev l l' Ls ∧ ∀ d ∈ l', d.func ≠ "SB_TSL" := by
  induction l generalizing prev with
  | nil => exact ⟨[], [], .nil, by simp⟩
  | cons d ds ih =>
    obtain ⟨m1, m2, hne, hf⟩ := hl d List.mem_cons_self
    obtain ⟨idx, hi⟩ := hM.index
    obtain ⟨q1, e1, -⟩ := hi _ m1
    obtain ⟨q2, e2, -⟩ := hi _ m2
    obtain ⟨t1, l1, r1, g1⟩ := hT _ m1
    obtain ⟨t2, l2, r2, g2⟩ := hT _ m2
    have hc := hM.ne hmn m1 m2 hne e1 e2
    have tsl : d.func ≠ "SB_TSL" := by
      rcases hf with ⟨hf | hf, -⟩ | ⟨hf | hf, -⟩ | hf <;> rw [hf] <;> decide
    rcases lt_or_gt_of_ne hc with h | h
    · obtain ⟨l', Ls, hL, hn⟩ := ih (fun d h => hl d (List.mem_cons_of_mem _ h)) (some (d.p1, d.p2))
      obtain ⟨L, hJ⟩ := joint_exists E r1 r2 g1 g2 q1.col0 q2.col0 d hf
      refine ⟨d :: l', L :: Ls, .cons (p := (d.p1, d.p2)) ?_ e1 e2 hJ hL, ?_⟩
      · unfold pairOf
        rw [e1, e2]
        simp only [h, if_true]
      · intro d' hd'
        rcases List.mem_cons.1 hd' with rfl | hd'
        · exact tsl
        · exact hn _ hd'
    · obtain ⟨l', Ls, hL, hn⟩ := ih (fun d h => hl d (List.mem_cons_of_mem _ h)) (some (d.p2, d.p1))
      obtain ⟨kx, ky, kf⟩ := swap_keys d
      have hf' : ((d.swap.func = "SSxcte" ∨ d.swap.func = "BFxcte") ∧
            ∃ x y, d.swap.xcte1 = some x ∧ d.swap.xcte2 = some y) ∨
          ((d.swap.func = "SSycte" ∨ d.swap.func = "BFycte") ∧
            ∃ x y, d.swap.ycte1 = some x ∧ d.swap.ycte2 = some y) ∨ d.swap.func = "SB" := by
        rw [kf]
        rcases hf with ⟨hf, x, y, h1, h2⟩ | ⟨hf, x, y, h1, h2⟩ | hf
        · exact .inl ⟨hf, kx x y h1 h2⟩
        · exact .inr (.inl ⟨hf, ky x y h1 h2⟩)
        · exact .inr (.inr hf)
      obtain ⟨L, hJ⟩ := joint_exists E r2 r1 g2 g1 q2.col0 q1.col0 d.swap hf'
      refine ⟨d.swap :: l', L :: Ls, .cons (p := (d.p2, d.p1)) ?_ e2 e1 hJ hL, ?_⟩
      · unfold pairOf
        rw [e1, e2]
        simp only [not_lt.2 (le_of_lt h), if_false, gt_iff_lt, h, if_true]
      · intro d' hd'
        rcases List.mem_cons.1 hd' with rfl | hd'
        · rw [kf]; exact tsl
        · exact hn _ hd'

/-- The matrix of a non-empty list of connections between panels that can be built exists, and is that
of a symmetric matrix. -/
theorem getKCconn_exists (E : Env K) (M : Multi K) (hM : Laid M)
    (hout : ∀ p, p ∉ M.panels → M.place p = none) (hk : M.kCconn = none)
    (hmn : ∀ p ∈ M.panels, 0 < (M.shells p).pan.m ∧ 0 < (M.shells p).pan.n)
    (hT : ∀ p ∈ M.panels, ∃ t lam, (M.shells p).rebuild E = .ok t ∧ t.lam = some lam)
    (l : List (ConnD K)) (h0 : l ≠ []) (hl : ∀ d ∈ l, Joinable M.panels d)
    (arg : Option (List (ConnD K))) (ha : arg = some l ∨ arg = none ∧ M.conn = some l) :
    ∃ L arg' M', M.getKCconn E arg = .ok (Coo.finalizeSym L, arg', M') := by
  obtain ⟨l', Ls, hL, hn⟩ := loop_exists E M hM hmn hT l hl none
  obtain ⟨idx, hi⟩ := hM.index
  obtain ⟨M2, h⟩ := connLoop_total hL M.getSize (fun p q hq => by
      have hp : p ∈ M.panels := by
        by_contra hp
        rw [hout p hp] at hq
        cases hq
      obtain ⟨q', e, -, -, h⟩ := hi p hp
      rw [hq] at e
      cases e
      obtain ⟨h1, h2⟩ := hmn p hp
      exact ⟨by rw [← mul_assoc]; exact h, by positivity⟩)
    (fun d hd hf => absurd hf (hn d hd)) M (Later.refl _ _)
  have hfs : finSum l true Ls.flatten = .ok (Coo.finalizeSym Ls.flatten) := by
    simp [finSum, fin, h0]
  refine ⟨Ls.flatten, ?_⟩
  rcases ha with rfl | ⟨rfl, hc⟩
  · refine ⟨some l', { M2 with kCconn := some (Coo.finalizeSym Ls.flatten) }, ?_⟩
    simp only [Multi.getKCconn, hk, bind, Except.bind, h, hfs]
    rfl
  · refine ⟨none, { M2 with kCconn := some (Coo.finalizeSym Ls.flatten), conn := some l' }, ?_⟩
    simp only [Multi.getKCconn, hc, hk, bind, Except.bind, h, hfs]
    rfl

end Verif
