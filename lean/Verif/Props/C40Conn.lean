import Verif.Proofs.ConnTotal
import Verif.Props.C40
import Verif.Props.C41
import Verif.Props.C42
import Verif.Props.C43
import Verif.Props.C44

/-!
# C40: the connection part of an assembly's stiffness
-/

set_option linter.unusedSectionVars false

namespace Verif.C40

open Spec Model

section
variable {K : Type} [Field K] [LinearOrder K]

/-- Evaluated for the first time, the connection matrix is the sum of one matrix per connection. -/
theorem conn_sum (E : Env K) (M M' : Multi K) (l : List (ConnD K)) (arg' : Option (List (ConnD K)))
    (kConn : Coo K) (hM : M.kCconn = none) (h : M.getKCconn E (some l) = .ok (kConn, arg', M')) :
    ∃ l' Ls, arg' = some l' ∧ LoopOf E M none l l' Ls ∧ l ≠ [] ∧ kConn = Coo.finalizeSym Ls.flatten ∧
      ∀ v, Coo.quad kConn v = (Ls.map fun L => Coo.quad (Coo.finalizeSym L) v).sum := by
  simp only [Multi.getKCconn, hM, bind, Except.bind, pure, Except.pure] at h
  split at h; · cases h
  rename_i x hx
  obtain ⟨L, l', M1⟩ := x
  simp only at h
  split at h; · cases h
  rename_i L1 h1
  cases h
  obtain ⟨-, Ls, rfl, hl⟩ := connLoop_ok E _ _ _ _ _ _ _ hx
  cases l with
  | nil => simp [finSum] at h1
  | cons d ds =>
    have : kConn = Coo.finalizeSym Ls.flatten := by
      simp only [finSum, List.isEmpty_cons, Bool.and_false, fin] at h1
      cases h1
      rfl
    exact ⟨l', Ls, rfl, hl, by simp, this, fun v => by rw [this, quad_flatten]⟩

end

/-- Which displacements a joint ties: twice the energy of its springs, from the positions `z1`, `z2` of
the joint on the two panels (`z1` is the distance between the mid-surfaces for `SB`, `SB_TSL`). -/
noncomputable def springs (S : Shape ℝ) (P1 P2 : Panel ℝ) (a b : ℕ) (v : ℕ → ℝ) (func : String)
    (kt kr z1 z2 : ℝ) : ℝ :=
  if func = "SSxcte" then jointEnergy P1.b kt kr
      (fun y => u S P1 a v 0 z1 y - u S P2 b v 0 z2 (P2.b / P1.b * y))
      (fun y => u S P1 a v 1 z1 y - u S P2 b v 1 z2 (P2.b / P1.b * y))
      (fun y => u S P1 a v 2 z1 y - u S P2 b v 2 z2 (P2.b / P1.b * y))
      (fun y => dx (u S P1 a v 2) z1 y - dx (u S P2 b v 2) z2 (P2.b / P1.b * y))
  else if func = "SSycte" then jointEnergy P1.a kt kr
      (fun x => u S P1 a v 0 x z1 - u S P2 b v 0 (P2.a / P1.a * x) z2)
      (fun x => u S P1 a v 1 x z1 - u S P2 b v 1 (P2.a / P1.a * x) z2)
      (fun x => u S P1 a v 2 x z1 - u S P2 b v 2 (P2.a / P1.a * x) z2)
      (fun x => dy (u S P1 a v 2) x z1 - dy (u S P2 b v 2) (P2.a / P1.a * x) z2)
  else if func = "BFxcte" then jointEnergy P1.b kt kr
      (fun y => u S P1 a v 0 z1 y - u S P2 b v 2 z2 (P2.b / P1.b * y))
      (fun y => u S P1 a v 1 z1 y - u S P2 b v 1 z2 (P2.b / P1.b * y))
      (fun y => u S P1 a v 2 z1 y + u S P2 b v 0 z2 (P2.b / P1.b * y))
      (fun y => dx (u S P1 a v 2) z1 y - dx (u S P2 b v 2) z2 (P2.b / P1.b * y))
  else if func = "BFycte" then jointEnergy P1.a kt kr
      (fun x => u S P1 a v 0 x z1 - u S P2 b v 0 (P2.a / P1.a * x) z2)
      (fun x => u S P1 a v 1 x z1 - u S P2 b v 2 (P2.a / P1.a * x) z2)
      (fun x => u S P1 a v 2 x z1 + u S P2 b v 1 (P2.a / P1.a * x) z2)
      (fun x => dy (u S P1 a v 2) x z1 - dy (u S P2 b v 2) (P2.a / P1.a * x) z2)
  else areaEnergy P1.a P1.b kt
      (fun x y => u S P1 a v 0 x y + z1 * dx (u S P1 a v 2) x y
        - u S P2 b v 0 (P2.a / P1.a * x) (P2.b / P1.b * y))
      (fun x y => u S P1 a v 1 x y + z1 * dy (u S P1 a v 2) x y
        - u S P2 b v 1 (P2.a / P1.a * x) (P2.b / P1.b * y))
      (fun x y => u S P1 a v 2 x y - u S P2 b v 2 (P2.a / P1.a * x) (P2.b / P1.b * y))

/-- Kind of penalty constants of each joint. -/
def penKind (func : String) : String :=
  if func = "SSxcte" ∨ func = "BFxcte" then "xcte"
  else if func = "SSycte" ∨ func = "BFycte" then "ycte" else "bot-top"

/-- Where the joint is. -/
def At (d : ConnD ℝ) (tA tB : Shell ℝ) (z1 z2 : ℝ) : Prop :=
  if d.func = "SSxcte" ∨ d.func = "BFxcte" then d.xcte1 = some z1 ∧ d.xcte2 = some z2
  else if d.func = "SSycte" ∨ d.func = "BFycte" then d.ycte1 = some z1 ∧ d.ycte2 = some z2
  else z1 = tA.plyts.sum / 2 + tB.plyts.sum / 2

/-- The constants of the joint. -/
def Constants (E : Env ℝ) (sA sB tA tB : Shell ℝ) (func : String) (kt kr : ℝ) : Prop :=
  if func = "SB_TSL" then kt = 10000 / (sA.pan.a * sA.pan.b)
  else sA.rebuild E = .ok tA ∧ sB.rebuild E = .ok tB ∧ ∃ lA lB kr', tA.lam = some lA ∧
    tB.lam = some lB ∧ calcKtKr (penOf tA lA) (penOf tB lB) (penKind func) = some (kt, kr') ∧
    ∀ k, kr' = some k → k = kr

/-- A panel whose stiffnesses, thickness and sides are positive once it is built. -/
def Sound (E : Env ℝ) (s : Shell ℝ) : Prop :=
  0 < s.pan.a ∧ 0 < s.pan.b ∧
    ∀ t lam, s.rebuild E = .ok t → t.lam = some lam → C44.Pos (penOf t lam)

/-- The matrix of one connection stores the energy of its springs. -/
theorem joint_energy (E : Env ℝ) (hI : E.I.Exact E.S Mean.integral) (hS : E.S.C2)
    {sA sB : Shell ℝ} (hsA : Sound E sA) (hsB : Sound E sB) {a b : ℕ} {d : ConnD ℝ} {L : Coo ℝ}
    (hs : a + 3 * (sA.pan.m * sA.pan.n) ≤ b) (h : JointOf E sA sB a b d L) :
    ∃ tA tB kt kr z1 z2, Reb E sA tA ∧ Reb E sB tB ∧ 0 < kt ∧
      Constants E sA sB tA tB d.func kt kr ∧ At d tA tB z1 z2 ∧
      ∀ v, Coo.quad (Coo.finalizeSym L) v
        = springs E.S sA.panel sB.panel a b v d.func kt kr z1 z2 := by
  obtain ⟨a1, b1, p1⟩ := hsA
  obtain ⟨a2, b2, p2⟩ := hsB
  have x1 : sA.panel.a ≠ 0 := a1.ne'
  have y1 : sA.panel.b ≠ 0 := b1.ne'
  have x2 : sB.panel.a ≠ 0 := a2.ne'
  have y2 : sB.panel.b ≠ 0 := b2.ne'
  have pos : ∀ {tA tB lA lB t kt kr}, sA.rebuild E = .ok tA → sB.rebuild E = .ok tB →
      tA.lam = some lA → tB.lam = some lB → t ∈ C44.types →
      calcKtKr (penOf tA lA) (penOf tB lB) t = some (kt, kr) → 0 < kt := by
    intro tA tB lA lB t kt kr hA hB hlA hlB ht hk
    obtain ⟨kt', kr', e, h, -⟩ := C44.positive (p1 _ _ hA hlA) (p2 _ _ hB hlB) ht
    rw [hk] at e
    cases e
    exact h
  cases h with
  | @SSx tA tB lA lB kt kr z1 z2 hf hA hB hlA hlB hk h1 h2 =>
    have hkt := pos hA hB hlA hlB (by decide) hk
    refine ⟨tA, tB, kt, kr, z1, z2, .inr hA, .inr hB, hkt, ?_, ?_, fun v => ?_⟩
    · simp only [Constants, hf, penKind]
      exact ⟨hA, hB, lA, lB, some kr, hlA, hlB, hk, fun k h => (Option.some.inj h).symm⟩
    · simpa [At, hf] using ⟨h1, h2⟩
    · rw [C41.SSxcte_joint hI hS _ _ x1 y1 x2 y2 kt kr z1 z2 hkt.ne' a b hs v]
      simp [springs, hf]
  | @SSy tA tB lA lB kt kr z1 z2 hf hA hB hlA hlB hk h1 h2 =>
    have hkt := pos hA hB hlA hlB (by decide) hk
    refine ⟨tA, tB, kt, kr, z1, z2, .inr hA, .inr hB, hkt, ?_, ?_, fun v => ?_⟩
    · simp only [Constants, hf, penKind]
      exact ⟨hA, hB, lA, lB, some kr, hlA, hlB, hk, fun k h => (Option.some.inj h).symm⟩
    · simpa [At, hf] using ⟨h1, h2⟩
    · rw [C41.SSycte_joint hI hS _ _ x1 y1 x2 y2 kt kr z1 z2 hkt.ne' a b hs v]
      simp [springs, hf]
  | @BFx tA tB lA lB kt kr z1 z2 hf hA hB hlA hlB hk h1 h2 =>
    have hkt := pos hA hB hlA hlB (by decide) hk
    refine ⟨tA, tB, kt, kr, z1, z2, .inr hA, .inr hB, hkt, ?_, ?_, fun v => ?_⟩
    · simp only [Constants, hf, penKind]
      exact ⟨hA, hB, lA, lB, some kr, hlA, hlB, hk, fun k h => (Option.some.inj h).symm⟩
    · simpa [At, hf] using ⟨h1, h2⟩
    · rw [C42.BFxcte_joint hI hS _ _ x1 y1 x2 y2 kt kr z1 z2 hkt.ne' a b hs v]
      simp [springs, hf]
  | @BFy tA tB lA lB kt kr z1 z2 hf hA hB hlA hlB hk h1 h2 =>
    have hkt := pos hA hB hlA hlB (by decide) hk
    refine ⟨tA, tB, kt, kr, z1, z2, .inr hA, .inr hB, hkt, ?_, ?_, fun v => ?_⟩
    · simp only [Constants, hf, penKind]
      exact ⟨hA, hB, lA, lB, some kr, hlA, hlB, hk, fun k h => (Option.some.inj h).symm⟩
    · simpa [At, hf] using ⟨h1, h2⟩
    · rw [C42.BFycte_joint hI hS _ _ x1 y1 x2 y2 kt kr z1 z2 hkt.ne' a b hs v]
      simp [springs, hf]
  | @SB tA tB lA lB kt kr hf hA hB hlA hlB hk =>
    have hkt := pos hA hB hlA hlB (by decide) hk
    refine ⟨tA, tB, kt, kr.getD 0, tA.plyts.sum / 2 + tB.plyts.sum / 2, 0, .inr hA, .inr hB, hkt,
      ?_, ?_, fun v => ?_⟩
    · simp only [Constants, hf, penKind]
      exact ⟨hA, hB, lA, lB, kr, hlA, hlB, hk, fun k h => by rw [h]; rfl⟩
    · simp [At, hf]
    · rw [C43.SB_joint hI hS _ _ x1 y1 x2 y2 kt _ a b hs v]
      simp [springs, hf]
  | @TSL tA tB hf hA hB hpA hpB ht ha hb =>
    refine ⟨tA, tB, 10000 / (sA.pan.a * sA.pan.b), 0, tA.plyts.sum / 2 + tB.plyts.sum / 2, 0, hA, hB,
      by positivity, ?_, ?_, fun v => ?_⟩
    · simp [Constants, hf]
    · simp [At, hf]
    · rw [C43.SB_joint hI hS _ _ x1 y1 x2 y2 _ _ a b hs v]
      simp [springs, hf]

/-- Energy of one connection of the list: the dictionary `d` as given, joining the panels `A`, `B` in
the order of their blocks. -/
def Term (E : Env ℝ) (M : Multi ℝ) (d : ConnD ℝ) (e : (ℕ → ℝ) → ℝ) : Prop :=
  ∃ A B d' qA qB tA tB kt kr z1 z2, M.place A = some qA ∧ M.place B = some qB ∧
    ((A = d.p1 ∧ B = d.p2 ∧ d' = d) ∨ (A = d.p2 ∧ B = d.p1 ∧ d' = d.swap)) ∧
    qA.col0 < qB.col0 ∧ 0 < kt ∧
    Constants E (M.shells A) (M.shells B) tA tB d.func kt kr ∧ At d' tA tB z1 z2 ∧
    ∀ v, e v = springs E.S (M.shells A).panel (M.shells B).panel qA.col0 qB.col0 v d.func kt kr z1 z2

theorem swap_func {K : Type} [Field K] [LinearOrder K] (d : ConnD K) : d.swap.func = d.func := by
  unfold ConnD.swap
  split
  · rfl
  · dsimp only
    split <;> split <;> rfl

theorem loop_terms (E : Env ℝ) (hI : E.I.Exact E.S Mean.integral) (hS : E.S.C2) (M : Multi ℝ)
    (prev : Option (ℕ × ℕ)) (l l' : List (ConnD ℝ)) (Ls : List (Coo ℝ))
    (hs : ∀ d ∈ l, Sound E (M.shells d.p1) ∧ Sound E (M.shells d.p2))
    (hne : ∀ d ∈ l, M.place d.p1 ≠ M.place d.p2)
    (hsep : ∀ d ∈ l, ∀ A B qA qB, (A = d.p1 ∧ B = d.p2 ∨ A = d.p2 ∧ B = d.p1) →
      M.place A = some qA → M.place B = some qB → qA ≠ qB → qA.col0 ≠ qB.col0 ∧ (qA.col0 < qB.col0 →
        qA.col0 + 3 * ((M.shells A).pan.m * (M.shells A).pan.n) ≤ qB.col0))
    (h : LoopOf E M prev l l' Ls) :
    ∃ es : List ((ℕ → ℝ) → ℝ), List.Forall₂ (Term E M) l es ∧
      ∀ v, (Ls.map fun L => Coo.quad (Coo.finalizeSym L) v).sum = (es.map fun e => e v).sum := by
  induction h with
  | nil => exact ⟨[], .nil, fun _ => rfl⟩
  | @cons prev d d' p qA qB L ds ds' Ls hp hA hB hJ hr ih =>
    obtain ⟨es, h1, h2⟩ := ih (fun d hd => hs d (List.mem_cons_of_mem _ hd))
      (fun d hd => hne d (List.mem_cons_of_mem _ hd)) (fun d hd => hsep d (List.mem_cons_of_mem _ hd))
    have hmem : d ∈ d :: ds := List.mem_cons_self
    have hn := hne d hmem
    obtain ⟨s1, s2⟩ := hs d hmem
    have key : ((p.1 = d.p1 ∧ p.2 = d.p2 ∧ d' = d) ∨ (p.1 = d.p2 ∧ p.2 = d.p1 ∧ d' = d.swap)) ∧
        qA.col0 < qB.col0 := by
      unfold pairOf at hp
      split at hp
      · rename_i q1 q2 e1 e2
        have hc : q1.col0 ≠ q2.col0 := (hsep d hmem _ _ q1 q2 (.inl ⟨rfl, rfl⟩) e1 e2
          (fun e => hn (by rw [e1, e2, e]))).1
        split at hp
        · rename_i hlt
          cases hp
          rw [e1] at hA; rw [e2] at hB
          cases hA; cases hB
          exact ⟨.inl ⟨rfl, rfl, rfl⟩, hlt⟩
        split at hp
        · rename_i hgt
          cases hp
          rw [e2] at hA; rw [e1] at hB
          cases hA; cases hB
          exact ⟨.inr ⟨rfl, rfl, rfl⟩, hgt⟩
        · rename_i n1 n2
          exact absurd (le_antisymm (not_lt.1 n2) (not_lt.1 n1)) hc
      · cases hp
    obtain ⟨hor, hlt⟩ := key
    have hf : d'.func = d.func := by
      rcases hor with ⟨-, -, rfl⟩ | ⟨-, -, rfl⟩
      · rfl
      · exact swap_func d
    have hsd : Sound E (M.shells p.1) ∧ Sound E (M.shells p.2) := by
      rcases hor with ⟨e1, e2, -⟩ | ⟨e1, e2, -⟩ <;> rw [e1, e2]
      · exact ⟨s1, s2⟩
      · exact ⟨s2, s1⟩
    have hgap := (hsep d hmem p.1 p.2 qA qB
      (by rcases hor with ⟨e1, e2, -⟩ | ⟨e1, e2, -⟩ <;> simp [e1, e2]) hA hB
      (fun e => hlt.ne (by rw [e]))).2 hlt
    obtain ⟨tA, tB, kt, kr, z1, z2, -, -, g1, g2, g3, g4⟩ := joint_energy E hI hS hsd.1 hsd.2 hgap hJ
    rw [hf] at g2 g4
    refine ⟨(fun v => Coo.quad (Coo.finalizeSym L) v) :: es, .cons ?_ h1, fun v => ?_⟩
    · exact ⟨p.1, p.2, d', qA, qB, tA, tB, kt, kr, z1, z2, hA, hB, hor, hlt, g1, g2, g3, g4⟩
    · simp [h2 v]

/-- **C40, connections.**  In an assembly of distinct panels the quadratic form of a freshly evaluated
connection matrix is the sum of the spring energies of the connections given. -/
theorem conn_energy (E : Env ℝ) (hI : E.I.Exact E.S Mean.integral) (hS : E.S.C2)
    (shells shells' : ℕ → Shell ℝ) (place : ℕ → Option Place) (panels : List ℕ)
    (conn : Option (List (ConnD ℝ))) (hn : panels.Nodup) (hpan : ∀ p, (shells' p).pan = (shells p).pan)
    (hmn : ∀ p ∈ panels, 0 < (shells p).pan.m ∧ 0 < (shells p).pan.n)
    (hs : ∀ p ∈ panels, Sound E (shells' p))
    (l : List (ConnD ℝ)) (hl : ∀ d ∈ l, d.p1 ∈ panels ∧ d.p2 ∈ panels ∧ d.p1 ≠ d.p2)
    (kConn : Coo ℝ) (arg' : Option (List (ConnD ℝ))) (M' : Multi ℝ) :
    let M := { Multi.init shells place panels conn with shells := shells' }
    M.getKCconn E (some l) = .ok (kConn, arg', M') →
    ∃ es : List ((ℕ → ℝ) → ℝ), List.Forall₂ (Term E M) l es ∧
      ∀ v, Coo.quad kConn v = (es.map fun e => e v).sum := by
  intro M h
  obtain ⟨l', Ls, -, hL, -, -, hq⟩ := conn_sum E M M' l arg' kConn rfl h
  have hb := C39.blocks_partial shells place panels conn hn
  have sep : ∀ A ∈ panels, ∀ B ∈ panels, A ≠ B → ∀ qA qB, M.place A = some qA → M.place B = some qB →
      qA.col0 ≠ qB.col0 ∧ (qA.col0 < qB.col0 →
        qA.col0 + 3 * ((M.shells A).pan.m * (M.shells A).pan.n) ≤ qB.col0) := by
    intro A hA B hB hAB qA qB eA eB
    obtain ⟨i, hi, rfl⟩ := List.getElem_of_mem hA
    obtain ⟨j, hj, rfl⟩ := List.getElem_of_mem hB
    have e1 : M.place panels[i] = _ := hb i hi
    have e2 : M.place panels[j] = _ := hb j hj
    rw [e1] at eA; rw [e2] at eB
    cases eA; cases eB
    have hij : i ≠ j := fun e => hAB (by subst e; rfl)
    have step : ∀ i j (hi : i < panels.length), i < j → j ≤ panels.length →
        ((panels.take i).map fun p => 3 * (shells p).pan.m * (shells p).pan.n).sum
          + 3 * ((shells panels[i]).pan.m * (shells panels[i]).pan.n)
        ≤ ((panels.take j).map fun p => 3 * (shells p).pan.m * (shells p).pan.n).sum := by
      intro i j hi hij hj
      have h1 := C39.take_sum_le (fun p => 3 * (shells p).pan.m * (shells p).pan.n) (panels.take j)
        (show i + 1 ≤ (panels.take j).length by simp; omega)
      rw [List.take_length, List.take_take, Nat.min_eq_left hij,
        List.take_succ_eq_append_getElem hi, List.map_append, List.sum_append] at h1
      simp only [List.map_cons, List.map_nil, List.sum_cons, List.sum_nil] at h1
      rw [← mul_assoc]
      omega
    have pos : ∀ i (hi : i < panels.length),
        0 < 3 * ((shells panels[i]).pan.m * (shells panels[i]).pan.n) := fun i hi => by
      obtain ⟨h1, h2⟩ := hmn _ (List.getElem_mem hi)
      positivity
    show _ ≠ _ ∧ (_ → _ + 3 * ((shells' panels[i]).pan.m * (shells' panels[i]).pan.n) ≤ _)
    rw [hpan]
    dsimp only
    rcases lt_or_gt_of_ne hij with hlt | hlt
    · have h1 := step i j hi hlt hj.le
      have h2 := pos i hi
      exact ⟨by omega, fun _ => h1⟩
    · have h1 := step j i hj hlt hi.le
      have h2 := pos j hj
      exact ⟨by omega, fun _ => by omega⟩
  obtain ⟨es, h1, h2⟩ := loop_terms E hI hS M none l l' Ls
    (fun d hd => ⟨hs _ (hl d hd).1, hs _ (hl d hd).2.1⟩)
    (fun d hd e => by
      obtain ⟨m1, m2, ne⟩ := hl d hd
      obtain ⟨i, hi, e1⟩ := List.getElem_of_mem m1
      have g1 : M.place panels[i] = _ := hb i hi
      rw [e1] at g1
      exact (sep _ m1 _ m2 ne _ _ g1 (e ▸ g1)).1 rfl)
    (fun d hd A B qA qB hor eA eB _ => by
      obtain ⟨m1, m2, ne⟩ := hl d hd
      rcases hor with ⟨rfl, rfl⟩ | ⟨rfl, rfl⟩
      · exact sep _ m1 _ m2 ne _ _ eA eB
      · exact sep _ m2 _ m1 ne.symm _ _ eA eB) hL
  exact ⟨es, h1, fun v => by rw [hq v, h2 v]⟩

/-! ## Concrete case -/

/-- Bardell functions with exact tables; the laminate is as stiff as it is thick. -/
noncomputable def env : Env ℝ where
  S := bardellShape ℝ
  I := Tab.of (bardellShape ℝ) Mean.integral
  G := ⟨fun _ _ => 0, fun _ _ => 0⟩
  mkLam := fun _ plyts _ rhos _ =>
    .ok ⟨fun i j => if i = j then plyts.sum else 0, plyts.sum, (List.zipWith (· * ·) plyts rhos).sum⟩
  shared := true

/-- A flat panel of two plies. -/
noncomputable def shell : Shell ℝ where
  pan := Witness.panel
  r := none
  model := none
  nx := 3
  ny := 20
  stack := [0, 45]
  plyt := some 1
  plyts := []
  laminaprop := [142]
  laminaprops := []
  rho := 3
  rhos := []
  offset := 0
  lam := none
  ABD := none
  forceOrtho := false
  size := none
  Nxx := 0
  Nyy := 0
  Nxy := 0
  NxxCte := 0
  NyyCte := 0
  NxyCte := 0
  flow := "x"
  beta := none
  gamma := none
  rhoAir := none
  Mach := none
  V := none

/-- The end of panel 4 joined to the start of panel 0. -/
noncomputable def joint : ConnD ℝ where
  p1 := 0
  p2 := 4
  func := "SSxcte"
  xcte1 := some 0
  xcte2 := some 3
  ycte1 := none
  ycte2 := none
  tsl := none

theorem shell_ok : ∃ t lam, shell.rebuild env = .ok t ∧ t.lam = some lam ∧ C44.Pos (penOf t lam) := by
  refine ⟨_, _, rfl, rfl, ?_⟩
  constructor <;> simp [penOf, shell, env, orFill, Witness.panel, lamABD]

theorem shell_sound : Sound env shell := by
  obtain ⟨t, lam, h1, h2, h3⟩ := shell_ok
  refine ⟨by simp [shell, Witness.panel], by simp [shell, Witness.panel], fun t' lam' g1 g2 => ?_⟩
  rw [h1] at g1
  cases g1
  rw [h2] at g2
  cases g2
  exact h3

/-- The hypotheses of `conn_energy` are met by two panels with one joint, named in reverse order. -/
example : env.I.Exact env.S Mean.integral ∧ env.S.C2 ∧ Sound env shell ∧ joint.p1 ≠ joint.p2 ∧
    ∃ L l M', (Multi.init (fun _ => shell) (fun _ => none) [4, 0] none).getKCconn env (some [joint])
      = .ok (L, some l, M') := by
  refine ⟨Tab.of_exact _ _, bardellShape_C2, shell_sound, by decide, ?_⟩
  obtain ⟨t, lam, h1, h2, h3⟩ := shell_ok
  obtain ⟨kt, kr, hk, -, -⟩ := C44.positive h3 h3 (t := "xcte") (by decide)
  have hkr : ∃ kr', kr = some kr' := by
    simp only [calcKtKr, show lower "xcte" = "xcte" by decide, if_true] at hk
    cases hk
    exact ⟨_, rfl⟩
  obtain ⟨kr, rfl⟩ := hkr
  let M := Multi.init (fun _ => shell) (fun _ => none) [4, 0] none
  have e1 : M.place 4 = some ⟨0, 0, 105, 105⟩ := by rfl
  have e2 : M.place 0 = some ⟨105, 105, 210, 210⟩ := by rfl
  have hp : pairOf M none joint = .ok ((4, 0), joint.swap) := by
    simp only [pairOf, joint, e1, e2]
    rfl
  have hL : LoopOf env M none [joint] [joint.swap] [_] := .cons (p := (4, 0)) hp e1 e2
    (.SSx (by rfl) h1 h1 h2 h2 hk (by simp [ConnD.swap, joint]; rfl)
      (by simp [ConnD.swap, joint]; rfl)) .nil
  obtain ⟨M2, h⟩ := connLoop_total hL M.getSize (fun p q hq => by
      have hsz : M.getSize = 210 := rfl
      have hmn : (M.shells p).pan.m * (M.shells p).pan.n = 35 := rfl
      rw [hsz, hmn]
      have : q.col0 ≤ 105 := by
        by_cases h4 : p = 4
        · subst h4; rw [e1] at hq; cases hq; decide
        by_cases h0 : p = 0
        · subst h0; rw [e2] at hq; cases hq; decide
        · have := C39.others_kept (fun _ => shell) (fun _ => none) [4, 0] none
            (p := p) (by simp [h4, h0])
          rw [show M.place p = none from this] at hq
          cases hq
      omega)
    (fun d hd hf => by
      simp only [List.mem_singleton] at hd
      subst hd
      exact absurd hf (by simp [ConnD.swap, joint])) M (Later.refl _ _)
  let L := [connSSxcte env.S env.I shell.panel shell.panel kt kr 3 0 0 105].flatten
  have h' : connLoop env M.getSize [joint] M none = .ok (L, [joint.swap], M2) := h
  refine ⟨Coo.finalizeSym L, [joint.swap], { M2 with kCconn := some (Coo.finalizeSym L) }, ?_⟩
  show M.getKCconn env (some [joint]) = _
  simp only [Multi.getKCconn, show M.kCconn = none from rfl, bind, Except.bind, h', pure, Except.pure]
  rfl

end Verif.C40
