import Verif.Proofs.Meet
import Verif.Proofs.Ring
import Verif.Props.C77

/-!
# Assemblies without strain
-/

set_option linter.unusedSectionVars false

namespace Verif

open Spec Model Indep

/-- Panels and joints from which a stiffness matrix can be made, with definite laminates and without
initial loads. -/
structure Solid (E : Env ℝ) (A : Assy ℝ) (T : ℕ → Shell ℝ) (lam : ℕ → LamObj ℝ) : Prop where
  fit : Fit E A T
  hlam : ∀ p < A.count, (T p).lam = some (lam p)
  sym : ∀ p < A.count, ABDSym (lam p).ABD
  laminate : ∀ p < A.count, C76.ABDDef (lam p).ABD
  kind : ∀ p < A.count, (A.part p).shell.r.getD 0 = 0 ∧ (T p).model.bind kindOf = some .plate ∨
    (A.part p).shell.r.getD 0 ≠ 0 ∧ (T p).model.bind kindOf = some .cyl
  unloaded : ∀ p < A.count, ¬ C38.PreStress (A.part p).shell

/-- The panels of an assembly. -/
noncomputable def _root_.Verif.Model.Assy.panel (A : Assy ℝ) (k : ℕ) : Panel ℝ := (A.part k).shell.panel

/-- Thicknesses of the panels as built. -/
def thick (T : ℕ → Shell ℝ) (k : ℕ) : ℝ := (T k).plyts.sum

theorem u_shift (S : Shape ℝ) (P : Panel ℝ) (s : ℕ) (v : ℕ → ℝ) :
    u S P 0 (fun i => v (s + i)) = u S P s v := by
  funext α x y
  unfold u
  simp only [zero_add, add_assoc]

theorem swap_pos {l : List ℕ} {d : ConnD ℝ} (h : Joinable l d) (hf : d.func ≠ "SB") :
    jointPos d.func d.swap.xcte1 d.swap.ycte1 = jointPos d.func d.xcte2 d.ycte2 ∧
    jointPos d.func d.swap.xcte2 d.swap.ycte2 = jointPos d.func d.xcte1 d.ycte1 := by
  obtain ⟨-, -, -, ⟨h1, x, y, hx, hy⟩ | ⟨h1, x, y, hx, hy⟩ | h1⟩ := h
  · unfold jointPos ConnD.swap
    rw [if_neg hf]
    simp only [hx, hy, if_pos h1]
    split <;> simp
  · have h0 : ¬ (d.func = "SSxcte" ∨ d.func = "BFxcte") := by
      rcases h1 with e | e <;> rw [e] <;> decide
    unfold jointPos ConnD.swap
    rw [if_neg hf]
    simp only [if_neg h0]
    cases d.xcte1 <;> cases d.xcte2 <;> simp [hx, hy]
  · exact absurd h1 hf

theorem at_pos {l : List ℕ} {d : ConnD ℝ} (h : Joinable l d) {d' : ConnD ℝ} (hd : d'.func = d.func)
    {tA tB : Shell ℝ} {z1 z2 : ℝ} (hAt : C40.At d' tA tB z1 z2) :
    (d.func = "SB" → z1 = (tA.plyts.sum + tB.plyts.sum) / 2) ∧
    (d.func ≠ "SB" → z1 = jointPos d.func d'.xcte1 d'.ycte1 ∧ z2 = jointPos d.func d'.xcte2 d'.ycte2) := by
  unfold C40.At at hAt
  rw [hd] at hAt
  unfold jointPos
  constructor
  · intro hf
    rw [hf, if_neg (by decide), if_neg (by decide)] at hAt
    rw [hAt]
    ring
  · intro hf
    obtain ⟨-, -, -, ⟨h1, -⟩ | ⟨h1, -⟩ | h1⟩ := h
    · rw [if_pos h1] at hAt
      simp [if_pos h1, hAt]
    · have h0 : ¬ (d.func = "SSxcte" ∨ d.func = "BFxcte") := by
        rcases h1 with e | e <;> rw [e] <;> decide
      rw [if_neg h0, if_pos h1] at hAt
      simp [if_neg h0, hAt]
    · exact absurd h1 hf

theorem meets_SB (P1 P2 : Panel ℝ) (z1 z2 z2' : ℝ) (f1 f2 : ℕ → ℝ → ℝ → ℝ) :
    Meets "SB" P1 P2 z1 z2 f1 f2 ↔ Meets "SB" P1 P2 z1 z2' f1 f2 := by
  unfold Meets
  simp

section
variable {E : Env ℝ} {A : Assy ℝ} {T : ℕ → Shell ℝ} {lam : ℕ → LamObj ℝ}

theorem Fit.start_lt_iff (h : Fit E A T) {i j : ℕ} (hi : i < A.count) (hj : j < A.count) :
    A.start i < A.start j ↔ i < j := by
  constructor
  · intro hs
    by_contra hn
    rcases Nat.lt_or_eq_of_le (not_lt.1 hn) with h1 | h1
    · have := h.start_lt h1 hi.le
      omega
    · subst h1
      omega
  · exact fun hij => h.start_lt hij hj.le

/-- One connection: its energy is never negative, and zero exactly when the panels fit together. -/
theorem Fit.conn_zero (h : Fit E A T) {d : ConnD ℝ} (hd : d ∈ A.conns) {e : (ℕ → ℝ) → ℝ}
    (ht : C40.Term E (A.after T) d e) (v : ℕ → ℝ) :
    0 ≤ e v ∧ (e v = 0 ↔ Shut A.panel (thick T) (fun k => u E.S (A.panel k) (A.start k) v) d) := by
  have hj := h.joined d hd
  obtain ⟨m1, m2, hne, hk⟩ := hj
  have m1 := List.mem_range.1 m1
  have m2 := List.mem_range.1 m2
  have hf : d.func ≠ "SB_TSL" := by
    rcases hk with ⟨h1 | h1, -⟩ | ⟨h1 | h1, -⟩ | h1 <;> rw [h1] <;> decide
  obtain ⟨p, q, d', qA, qB, tA, tB, kt, kr, z1, z2, hA, hB, hor, hc, hkt, hC, hAt, he⟩ := ht
  have hp : p < A.count ∧ q < A.count := by
    rcases hor with ⟨rfl, rfl, -⟩ | ⟨rfl, rfl, -⟩
    · exact ⟨m1, m2⟩
    · exact ⟨m2, m1⟩
  obtain ⟨hp, hq⟩ := hp
  have hdf : d'.func = d.func := by
    rcases hor with ⟨-, -, rfl⟩ | ⟨-, -, rfl⟩
    · rfl
    · exact C40.swap_func d
  rw [place_start hp hA, place_start hq hB] at hc he
  rw [h.start_lt_iff hp hq] at hc
  rw [C40.Constants, if_neg hf] at hC
  obtain ⟨r1, r2, lA, lB, kr', l1, l2, hpen, hkr⟩ := hC
  rw [after_shell hp, h.fixed hp] at r1
  rw [after_shell hq, h.fixed hq] at r2
  obtain rfl := Except.ok.inj r1
  obtain rfl := Except.ok.inj r2
  have e1 : ((A.after T).shells p).panel = A.panel p := by
    rw [after_shell hp]
    exact (rebuild_kept E (h.built _ hp)).2.2.1
  have e2 : ((A.after T).shells q).panel = A.panel q := by
    rw [after_shell hq]
    exact (rebuild_kept E (h.built _ hq)).2.2.1
  rw [e1, e2] at he
  obtain ⟨lA', hlA, pA⟩ := h.stiff p hp
  obtain ⟨lB', hlB, pB⟩ := h.stiff q hq
  obtain rfl : lA' = lA := Option.some.inj (hlA.symm.trans l1)
  obtain rfl : lB' = lB := Option.some.inj (hlB.symm.trans l2)
  obtain ⟨kt', kr'', hp', -, hpos⟩ := C44.positive pA pB (t := C40.penKind d.func) (by
    rcases hk with ⟨h1 | h1, -⟩ | ⟨h1 | h1, -⟩ | h1 <;> rw [h1] <;> decide)
  have hpen' : calcKtKr (penOf (T p) lA') (penOf (T q) lB') (C40.penKind d.func) = some (kt, kr') := hpen
  rw [hpen'] at hp'
  simp only [Option.some.injEq, Prod.mk.injEq] at hp'
  obtain ⟨-, rfl⟩ := hp'
  have hkrpos : d.func = "SSxcte" ∨ d.func = "SSycte" ∨ d.func = "BFxcte" ∨ d.func = "BFycte" → 0 < kr := by
    intro hfn
    have : ∃ k, kr' = some k := by
      have hx : C40.penKind d.func = "xcte" ∨ C40.penKind d.func = "ycte" := by
        rcases hfn with h1 | h1 | h1 | h1 <;> rw [h1] <;> decide
      rcases hx with hx | hx
      · obtain ⟨a, b, hab⟩ := pen_xcte (penOf (T p) lA') (penOf (T q) lB')
        rw [hx, hab] at hpen'
        simp only [Option.some.injEq, Prod.mk.injEq] at hpen'
        exact ⟨b, hpen'.2.symm⟩
      · obtain ⟨a, b, hab⟩ := pen_ycte (penOf (T p) lA') (penOf (T q) lB')
        rw [hx, hab] at hpen'
        simp only [Option.some.injEq, Prod.mk.injEq] at hpen'
        exact ⟨b, hpen'.2.symm⟩
    obtain ⟨k, rfl⟩ := this
    rw [← hkr k rfl]
    exact hpos k rfl
  obtain ⟨s1, s2⟩ := h.sides p hp
  obtain ⟨g1, g2⟩ := springs_zero h.smooth (P1 := A.panel p) (P2 := A.panel q) s1 s2 (A.start p)
    (A.start q) v d.func z1 z2 hkt hkrpos
  rw [he v]
  refine ⟨g1, g2.trans ?_⟩
  obtain ⟨w1, w2⟩ := at_pos (h.joined d hd) hdf hAt
  have ht1 : (T p).fixR.plyts.sum = thick T p := rfl
  have ht2 : (T q).fixR.plyts.sum = thick T q := rfl
  unfold Shut
  rcases hor with ⟨rfl, rfl, rfl⟩ | ⟨rfl, rfl, rfl⟩
  · simp only [if_pos hc]
    by_cases hsb : d'.func = "SB"
    · simp only [if_pos hsb]
      rw [w1 hsb, ht1, ht2, hsb]
      exact meets_SB _ _ _ _ _ _ _
    · obtain ⟨rfl, rfl⟩ := w2 hsb
      simp only [if_neg hsb]
  · simp only [if_neg (not_lt.2 hc.le)]
    by_cases hsb : d.func = "SB"
    · simp only [if_pos hsb]
      rw [w1 hsb, ht1, ht2, hsb, add_comm]
      exact meets_SB _ _ _ _ _ _ _
    · obtain ⟨rfl, rfl⟩ := w2 hsb
      obtain ⟨y1, y2⟩ := swap_pos (h.joined d hd) hsb
      simp only [if_neg hsb, y1, y2]

theorem sum_zero_iff {α : Type} (l : List α) (g : α → ℝ) (h : ∀ a ∈ l, 0 ≤ g a) :
    0 ≤ (l.map g).sum ∧ ((l.map g).sum = 0 ↔ ∀ a ∈ l, g a = 0) := by
  induction l with
  | nil => simp
  | cons a l ih =>
    obtain ⟨h1, h2⟩ := ih fun b hb => h b (List.mem_cons_of_mem _ hb)
    have h0 := h a List.mem_cons_self
    simp only [List.map_cons, List.sum_cons, List.forall_mem_cons]
    refine ⟨by positivity, ?_⟩
    rw [add_eq_zero_iff_of_nonneg h0 h1, h2]

theorem terms_zero {R : ConnD ℝ → ((ℕ → ℝ) → ℝ) → Prop} {l : List (ConnD ℝ)}
    {es : List ((ℕ → ℝ) → ℝ)} (h : List.Forall₂ R l es) (v : ℕ → ℝ) {Q : ConnD ℝ → Prop}
    (hg : ∀ d ∈ l, ∀ e, R d e → 0 ≤ e v ∧ (e v = 0 ↔ Q d)) :
    0 ≤ (es.map fun e => e v).sum ∧ ((es.map fun e => e v).sum = 0 ↔ ∀ d ∈ l, Q d) := by
  induction h with
  | nil => simp
  | cons hR _ ih =>
    obtain ⟨h1, h2⟩ := ih fun d hd => hg d (List.mem_cons_of_mem _ hd)
    obtain ⟨h3, h4⟩ := hg _ List.mem_cons_self _ hR
    simp only [List.map_cons, List.sum_cons, List.forall_mem_cons]
    refine ⟨by positivity, ?_⟩
    rw [add_eq_zero_iff_of_nonneg h3 h1, h2, h4]

/-- The stiffness matrix of an assembly is never negative, and zero exactly when no panel is strained and
every joint is shut. -/
theorem Solid.kernel (h : Solid E A T lam) :
    ∃ k0 M, A.multi.calcKC E (some A.conns) none = .ok (k0, M) ∧ ∀ v, 0 ≤ Coo.quad k0 v ∧
      (Coo.quad k0 v = 0 ↔
        (∀ k < A.count, ∀ x ∈ Set.Icc 0 (A.panel k).a, ∀ y ∈ Set.Icc 0 (A.panel k).b, ∀ s < 6,
          linStrain (1 / (A.panel k).r) E.S (A.panel k) (A.start k) v s x y = 0) ∧
        ∀ d ∈ A.conns, Shut A.panel (thick T) (fun k => u E.S (A.panel k) (A.start k) v) d) := by
  obtain ⟨own, h1, k0, M, es, h2, h3, h4, -⟩ := h.fit.kC
  refine ⟨k0, M, h2, fun v => ?_⟩
  obtain ⟨c1, c2⟩ := terms_zero h3 v fun d hd e he => h.fit.conn_zero hd he v
  have ho : ∀ k ∈ List.range A.count, 0 ≤ Coo.quad (own k) (fun i => v (A.start k + i)) ∧
      (Coo.quad (own k) (fun i => v (A.start k + i)) = 0 ↔
        ∀ x ∈ Set.Icc 0 (A.panel k).a, ∀ y ∈ Set.Icc 0 (A.panel k).b, ∀ s < 6,
          linStrain (1 / (A.panel k).r) E.S (A.panel k) (A.start k) v s x y = 0) := by
    intro k hk
    have hk := List.mem_range.1 hk
    obtain ⟨s1, s2⟩ := h.fit.sides k hk
    have hL := h.laminate k hk
    rw [shell_kC_strain h.fit.exact h.fit.smooth (h.fit.built k hk) s1.ne' s2.ne' (h.kind k hk)
      (h.unloaded k hk) (h.hlam k hk) (h.sym k hk) (h1 k hk)]
    unfold strainWork
    constructor
    · exact intervalIntegral.integral_nonneg s1.le fun x _ =>
        intervalIntegral.integral_nonneg s2.le fun y _ => hL.nonneg _
    · simp only [linStrain_lin h.fit.smooth]
      refine (C77.integral_iff h.fit.smooth (P := A.panel k) s1 s2 (1 / (A.panel k).r) hL _ 0).trans ?_
      simp only [← linStrain_lin h.fit.smooth, linStrain, u_shift]
  obtain ⟨p1, p2⟩ := sum_zero_iff (List.range A.count)
    (fun k => Coo.quad (own k) fun i => v (A.start k + i)) fun k hk => (ho k hk).1
  rw [h4 v]
  refine ⟨by positivity, ?_⟩
  rw [add_eq_zero_iff_of_nonneg p1 c1, p2, c2]
  refine and_congr_left fun _ => ⟨fun g k hk => ?_, fun g k hk => ?_⟩
  · exact (ho k (List.mem_range.2 hk)).2.1 (g k (List.mem_range.2 hk))
  · exact (ho k hk).2.2 (g k (List.mem_range.1 hk))

/-- Amplitudes put together from those of the panels. -/
theorem Fit.glue (h : Fit E A T) (d : ℕ → ℕ → ℝ) : ∃ v : ℕ → ℝ, ∀ k < A.count,
    ∀ i < 3 * ((A.panel k).m * (A.panel k).n), v (A.start k + i) = d k (A.start k + i) := by
  classical
  refine ⟨fun j => if hj : ∃ k < A.count, A.start k ≤ j ∧ j < A.start (k + 1) then d hj.choose j else 0,
    fun k hk i hi => ?_⟩
  have hin : A.start k ≤ A.start k + i ∧ A.start k + i < A.start (k + 1) := by
    rw [Assy_start_succ hk, mul_assoc]
    exact ⟨by omega, Nat.add_lt_add_left hi _⟩
  have hj : ∃ k' < A.count, A.start k' ≤ A.start k + i ∧ A.start k + i < A.start (k' + 1) := ⟨k, hk, hin⟩
  show (if hj : _ then _ else _) = _
  rw [dif_pos hj]
  have e : hj.choose = k := by
    obtain ⟨c1, c2, c3⟩ := hj.choose_spec
    generalize hj.choose = k' at c1 c2 c3
    rcases lt_trichotomy k' k with hlt | rfl | hlt
    · have : A.start (k' + 1) ≤ A.start k := by
        rcases Nat.lt_or_eq_of_le (show k' + 1 ≤ k from hlt) with h1 | h1
        · exact (h.start_lt h1 hk.le).le
        · rw [h1]
      omega
    · rfl
    · have : A.start (k + 1) ≤ A.start k' := by
        rcases Nat.lt_or_eq_of_le (show k + 1 ≤ k' from hlt) with h1 | h1
        · exact (h.start_lt h1 c1.le).le
        · rw [h1]
      omega
  rw [e]

end

end Verif
