import Verif.Proofs.AssyEnergy

/-!
# Panels joined in a ring
-/

set_option linter.unusedSectionVars false

namespace Verif

open Model Spec

theorem forall₂_range {α β : Type} [Nonempty β] {R : α → β → Prop} (n : ℕ) (f : ℕ → α) (es : List β)
    (h : List.Forall₂ R ((List.range n).map f) es) :
    ∃ e : ℕ → β, es = (List.range n).map e ∧ ∀ i < n, R (f i) (e i) := by
  have hl : es.length = n := by simpa using h.length_eq.symm
  refine ⟨fun i => es.getD i (Classical.arbitrary β), ?_, fun i hi => ?_⟩
  · refine List.ext_getElem (by simp [hl]) fun i h1 h2 => ?_
    simp [h1]
  · have := h.get (i := i) (by simpa using hi) (by omega)
    simpa [hl, hi] using this

section
variable {E : Env ℝ} {A : Assy ℝ} {T : ℕ → Shell ℝ}

theorem Assy_start_succ {k : ℕ} (hk : k < A.count) :
    A.start (k + 1) = A.start k + 3 * (A.part k).shell.pan.m * (A.part k).shell.pan.n := by
  unfold Assy.start C40.start
  rw [List.take_succ_eq_append_getElem (by simpa using hk), List.map_append, List.sum_append]
  simp

theorem Fit.start_lt (h : Fit E A T) {i j : ℕ} (hij : i < j) (hj : j ≤ A.count) :
    A.start i < A.start j := by
  induction j with
  | zero => omega
  | succ j ih =>
    obtain ⟨h1, h2⟩ := h.terms j (by omega)
    have : 0 < 3 * (A.part j).shell.pan.m * (A.part j).shell.pan.n := by positivity
    rw [Assy_start_succ (by omega)]
    rcases Nat.lt_succ_iff_lt_or_eq.1 hij with h3 | rfl
    · have := ih h3 (by omega)
      omega
    · omega

theorem place_start {p : ℕ} (hp : p < A.count) {q : Place}
    (hq : (A.after T).place p = some q) : q.col0 = A.start p := by
  have := C39.blocks_partial (fun p => (A.part p).shell) (fun _ => none) (List.range A.count) none
    List.nodup_range p (by simpa using hp)
  rw [List.getElem_range] at this
  have e : (A.after T).place p = _ := this
  rw [hq] at e
  cases e
  rfl

/-- A joint written in the order of the panels. -/
theorem Fit.term (h : Fit E A T) {d : ConnD ℝ} {e : (ℕ → ℝ) → ℝ} (ht : C40.Term E (A.after T) d e)
    (hlt : d.p1 < d.p2) (h2 : d.p2 < A.count) (hf : d.func ≠ "SB_TSL") :
    ∃ lA lB kt kr kr' z1 z2, (T d.p1).lam = some lA ∧ (T d.p2).lam = some lB ∧ 0 < kt ∧
      calcKtKr (penOf (T d.p1) lA) (penOf (T d.p2) lB) (C40.penKind d.func) = some (kt, kr') ∧
      (∀ k, kr' = some k → k = kr) ∧ C40.At d (T d.p1) (T d.p2) z1 z2 ∧
      ∀ v, e v = C40.springs E.S (A.part d.p1).shell.panel (A.part d.p2).shell.panel
        (A.start d.p1) (A.start d.p2) v d.func kt kr z1 z2 := by
  obtain ⟨p, q, d', qA, qB, tA, tB, kt, kr, z1, z2, hA, hB, hor, hc, hk, hC, hAt, he⟩ := ht
  have h1 : d.p1 < A.count := hlt.trans h2
  rcases hor with ⟨rfl, rfl, rfl⟩ | ⟨rfl, rfl, -⟩
  · rw [place_start h1 hA, place_start h2 hB] at he
    rw [C40.Constants, if_neg hf] at hC
    obtain ⟨r1, r2, lA, lB, kr', l1, l2, hpen, hkr⟩ := hC
    rw [after_shell h1, h.fixed h1] at r1
    rw [after_shell h2, h.fixed h2] at r2
    obtain rfl := Except.ok.inj r1
    obtain rfl := Except.ok.inj r2
    have e1 : ((A.after T).shells d'.p1).panel = (A.part d'.p1).shell.panel := by
      rw [after_shell h1]
      exact (rebuild_kept E (h.built _ h1)).2.2.1
    have e2 : ((A.after T).shells d'.p2).panel = (A.part d'.p2).shell.panel := by
      rw [after_shell h2]
      exact (rebuild_kept E (h.built _ h2)).2.2.1
    rw [e1, e2] at he
    exact ⟨lA, lB, kt, kr, kr', z1, z2, l1, l2, hk, hpen, hkr, hAt, he⟩
  · rw [place_start h1 hB, place_start h2 hA] at hc
    exact absurd (h.start_lt hlt h2.le) (by omega)

/-- A joint along an edge `y = const` between equal panels. -/
theorem Fit.edge (h : Fit E A T) {d : ConnD ℝ} {e : (ℕ → ℝ) → ℝ} (ht : C40.Term E (A.after T) d e)
    (hlt : d.p1 < d.p2) (h2 : d.p2 < A.count) (hf : d.func = "SSycte") {z1 z2 : ℝ}
    (hz : d.ycte1 = some z1 ∧ d.ycte2 = some z2) {P : Panel ℝ} {pan : Panel ℝ} {lam : LamObj ℝ}
    {kt kr : ℝ} (hk : ∀ p ∈ [d.p1, d.p2], (A.part p).shell.panel = P ∧ (T p).lam = some lam ∧
      (T p).pan = pan)
    (hpen : ∀ s : Shell ℝ, s.pan = pan → calcKtKr (penOf s lam) (penOf s lam) "ycte" = some (kt, some kr))
    (ha : P.a ≠ 0) (v : ℕ → ℝ) :
    e v = jointEnergy P.a kt kr
      (fun x => u E.S P (A.start d.p1) v 0 x z1 - u E.S P (A.start d.p2) v 0 x z2)
      (fun x => u E.S P (A.start d.p1) v 1 x z1 - u E.S P (A.start d.p2) v 1 x z2)
      (fun x => u E.S P (A.start d.p1) v 2 x z1 - u E.S P (A.start d.p2) v 2 x z2)
      (fun x => dy (u E.S P (A.start d.p1) v 2) x z1 - dy (u E.S P (A.start d.p2) v 2) x z2) := by
  obtain ⟨lA, lB, kt', kr', kr'', y1, y2, l1, l2, -, hC, hkr, hAt, he⟩ :=
    h.term ht hlt h2 (by rw [hf]; decide)
  obtain ⟨p1, m1, n1⟩ := hk d.p1 (by simp)
  obtain ⟨p2, m2, n2⟩ := hk d.p2 (by simp)
  rw [l1] at m1; cases m1
  rw [l2] at m2; cases m2
  have hpp : penOf (T d.p2) lam = penOf (T d.p1) lam := by
    unfold penOf
    rw [n1, n2]
  rw [hpp, hf, show C40.penKind "SSycte" = "ycte" by decide, hpen _ n1] at hC
  simp only [Option.some.injEq, Prod.mk.injEq] at hC
  obtain ⟨rfl, rfl⟩ := hC
  obtain rfl := hkr _ rfl
  simp only [C40.At, hf, String.reduceEq, or_self, if_false, true_or, if_true, hz,
    Option.some.injEq] at hAt
  obtain ⟨rfl, rfl⟩ := hAt
  rw [he v, p1, p2]
  simp [C40.springs, hf, div_self ha]

/-- The joints of a closed ring of equal panels. -/
theorem Fit.ring (h : Fit E A T) {pi : ℝ} {q : CylArgs ℝ} (hn : 2 ≤ q.npanels) (hA : q.npanels ≤ A.count)
    {P pan : Panel ℝ} {lam : LamObj ℝ} {kt kr : ℝ} (hb : P.b = bSkin pi q)
    (hk : ∀ p < q.npanels, (A.part p).shell.panel = P ∧ (T p).lam = some lam ∧ (T p).pan = pan)
    (hpen : ∀ s : Shell ℝ, s.pan = pan → calcKtKr (penOf s lam) (penOf s lam) "ycte" = some (kt, some kr))
    (ha : P.a ≠ 0) {es : List ((ℕ → ℝ) → ℝ)}
    (ht : List.Forall₂ (C40.Term E (A.after T)) (skinConns pi q) es) (v : ℕ → ℝ) :
    (es.map fun e => e v).sum = ((List.range q.npanels).map fun i =>
      edgeEnergy E.S P kt kr (A.start i) (A.start ((i + 1) % q.npanels)) v).sum := by
  obtain ⟨e, rfl, he⟩ := forall₂_range q.npanels _ es ht
  rw [List.map_map]
  congr 1
  refine List.map_congr_left fun i hi => ?_
  have hi' := List.mem_range.1 hi
  have := he i hi'
  simp only at this
  have g1 : ∀ j < q.npanels, (skinLoop q.npanels).getD j 0 = j := fun j hj => by
    simp [skinLoop, List.getD, List.getElem?_append_left, hj]
  have g2 : (skinLoop q.npanels).getD q.npanels 0 = 0 := by
    simp [skinLoop, List.getD]
  have gb : ∀ j, (skinPart pi q j).shell.pan.b = P.b := fun j => hb.symm
  show e i v = _
  by_cases hl : i = q.npanels - 1
  · have hi1 : i + 1 = q.npanels := by omega
    rw [if_neg (by simp [hl]), hi1, g2, g1 i hi'] at this
    rw [h.edge this (by show 0 < i; omega) (by show i < _; omega) rfl ⟨rfl, rfl⟩ (P := P) (pan := pan)
      (lam := lam) (fun p hp => hk p (by simp at hp; omega)) hpen ha v, gb]
    rw [hi1, Nat.mod_self]
    unfold jointEnergy edgeEnergy edgeJump slopeJump
    congr 1
    funext x
    ring
  · rw [if_pos hl, g1 (i + 1) (by omega), g1 i hi'] at this
    rw [h.edge this (by show i < i + 1; omega) (by show i + 1 < _; omega) rfl ⟨rfl, rfl⟩ (P := P)
      (pan := pan) (lam := lam) (fun p hp => hk p (by simp at hp; omega)) hpen ha v, gb]
    rw [Nat.mod_eq_of_lt (by omega)]
    rfl

/-- Flags, sides and loads do not enter `_rebuild`. -/
theorem rebuild_with {s t : Shell ℝ} (h : s.rebuild E = .ok t) (pan : Panel ℝ) (hm : pan.m = s.pan.m)
    (hn : pan.n = s.pan.n) (N : ℝ) :
    ({ s with pan := pan, Nxx := N } : Shell ℝ).rebuild E = .ok { t with pan := pan, Nxx := N } := by
  obtain ⟨h1, h2, h3, h4, lam, hl, rfl⟩ := (C54.rebuild_ok_iff E s t).1 h
  rw [C54.rebuild_ok_iff]
  refine ⟨h1, h2, h3, h4, lam, hl, ?_⟩
  simp only [hm, hn]

/-- The skin of a cylinder, with any flags at the ends and any loads. -/
structure Skin (q : CylArgs ℝ) (pan : Panel ℝ) (N : ℕ → ℝ) (A : Assy ℝ) : Prop where
  count : A.count = q.npanels
  conns : A.conns = skinConns Real.pi q
  part : ∀ p < q.npanels,
    (A.part p).shell = { (skinPart Real.pi q 0).shell with pan := pan, Nxx := N p }
  a : pan.a = q.height
  b : pan.b = bSkin Real.pi q
  m : pan.m = q.m
  n : pan.n = q.n

theorem bSkin_pos {q : CylArgs ℝ} (hn : 2 ≤ q.npanels) (hr : 0 < q.r) : 0 < bSkin Real.pi q := by
  have hn' : (0 : ℝ) < q.npanels := by exact_mod_cast (by omega : 0 < q.npanels)
  unfold bSkin
  have := Real.pi_pos
  positivity

theorem skinConns_joinable {q : CylArgs ℝ} (hn : 2 ≤ q.npanels) {n : ℕ} (h : q.npanels ≤ n) (d : ConnD ℝ)
    (hd : d ∈ skinConns Real.pi q) : Joinable (List.range n) d := by
  obtain ⟨i, hi, rfl⟩ := List.mem_map.1 hd
  have hi' := List.mem_range.1 hi
  have g1 : ∀ j < q.npanels, (skinLoop q.npanels).getD j 0 = j := fun j hj => by
    simp [skinLoop, List.getD, List.getElem?_append_left, hj]
  have g2 : (skinLoop q.npanels).getD q.npanels 0 = 0 := by
    simp [skinLoop, List.getD]
  simp only
  by_cases hl : i = q.npanels - 1
  · have hi1 : i + 1 = q.npanels := by omega
    rw [if_neg (by simp [hl]), hi1, g2, g1 i hi']
    refine ⟨?_, ?_, ?_, .inr (.inl ⟨.inl rfl, _, _, rfl, rfl⟩)⟩
    · show 0 ∈ _
      simp; omega
    · show i ∈ _
      simp; omega
    · show 0 ≠ i
      omega
  · rw [if_pos hl, g1 (i + 1) (by omega), g1 i hi']
    refine ⟨?_, ?_, ?_, .inr (.inl ⟨.inl rfl, _, _, rfl, rfl⟩)⟩
    · show i ∈ _
      simp; omega
    · show i + 1 ∈ _
      simp; omega
    · show i ≠ i + 1
      omega

theorem skinConns_ne {q : CylArgs ℝ} (hn : 2 ≤ q.npanels) : skinConns Real.pi q ≠ [] := fun e => by
  have := congrArg List.length e
  simp [skinConns] at this
  omega

variable {q : CylArgs ℝ} {pan : Panel ℝ} {N : ℕ → ℝ}

theorem Skin.fit (hA : Skin q pan N A) (hI : E.I.Exact E.S Mean.integral) (hS : E.S.C2)
    (hn : 2 ≤ q.npanels) (hm : 0 < q.m ∧ 0 < q.n) (hh : 0 < q.height) (hr : 0 < q.r)
    {t : Shell ℝ} (ht : (skinPart Real.pi q 0).shell.rebuild E = .ok t) {lam : LamObj ℝ}
    (hl : t.lam = some lam) (hpos : C44.Pos (penOf t lam)) :
    Fit E A fun p => { t with pan := pan, Nxx := N p } where
  exact := hI
  smooth := hS
  pos := by rw [hA.count]; omega
  terms p hp := by
    rw [hA.count] at hp
    rw [hA.part p hp]
    simpa [hA.m, hA.n] using hm
  built p hp := by
    rw [hA.count] at hp
    rw [hA.part p hp]
    exact rebuild_with ht pan hA.m hA.n (N p)
  stiff p hp := by
    refine ⟨lam, hl, hpos.1, hpos.2, hpos.3, hpos.4, hpos.5, ?_, ?_⟩
    · show 0 < pan.a
      rw [hA.a]; exact hh
    · show 0 < pan.b
      rw [hA.b]; exact bSkin_pos hn hr
  sides p hp := by
    rw [hA.count] at hp
    rw [hA.part p hp]
    exact ⟨by simpa [hA.a] using hh, by simpa [hA.b] using bSkin_pos hn hr⟩
  conns := by rw [hA.conns]; exact skinConns_ne hn
  joined d hd := by
    rw [hA.conns] at hd
    exact skinConns_joinable hn hA.count.ge d hd

theorem Skin.start (hA : Skin q pan N A) {k : ℕ} (hk : k ≤ q.npanels) :
    A.start k = k * (3 * q.m * q.n) := by
  induction k with
  | zero => simp [Assy.start, C40.start]
  | succ k ih =>
    rw [Assy_start_succ (by rw [hA.count]; omega), ih (by omega), hA.part k (by omega)]
    simp only [hA.m, hA.n]
    ring

/-- Stiffness and geometric stiffness of the cylinder. -/
theorem Skin.energy (hA : Skin q pan N A) (hI : E.I.Exact E.S Mean.integral) (hS : E.S.C2)
    (hn : 2 ≤ q.npanels) (hm : 0 < q.m ∧ 0 < q.n) (hh : 0 < q.height) (hr : 0 < q.r)
    {t : Shell ℝ} (ht : (skinPart Real.pi q 0).shell.rebuild E = .ok t) {lam : LamObj ℝ}
    (hl : t.lam = some lam) (hF : ABDSym lam.ABD) (hpos : C44.Pos (penOf t lam)) :
    ∃ k0 M kG M' kt kr, A.multi.calcKC E (some A.conns) none = .ok (k0, M) ∧
      M.calcKG E none = .ok (kG, M') ∧ 0 < kt ∧ 0 < kr ∧
      (∀ v, Coo.quad k0 v = ((List.range q.npanels).map fun i =>
            strainWork E.S { pan with r := q.r } lam.ABD fun k => v (i * (3 * q.m * q.n) + k)).sum
          + ((List.range q.npanels).map fun i => edgeEnergy E.S { pan with r := q.r } kt kr
              (i * (3 * q.m * q.n)) ((i + 1) % q.npanels * (3 * q.m * q.n)) v).sum) ∧
      (∀ v, Coo.quad kG v = ((List.range q.npanels).map fun i =>
            slopeWork E.S { pan with r := q.r } (N i) 0 0 fun k => v (i * (3 * q.m * q.n) + k)).sum) ∧
      calcKtKr (penOf { t with pan := pan } lam) (penOf { t with pan := pan } lam) "ycte"
        = some (kt, some kr) := by
  have hfit := hA.fit hI hS hn hm hh hr ht hl hpos
  obtain ⟨own, h1, k0, M, es, h2, h3, h4, h5, h6, h7⟩ := hfit.kC
  obtain ⟨ownG, g1, kG, M', g2, g3⟩ := hfit.kG h5 h6 h7
  have hP : ∀ p < q.npanels, (A.part p).shell.panel = { pan with r := q.r } := fun p hp => by
    rw [hA.part p hp]
    rfl
  have ha : pan.a ≠ 0 := by rw [hA.a]; exact hh.ne'
  have hb : pan.b ≠ 0 := by rw [hA.b]; exact (bSkin_pos hn hr).ne'
  obtain ⟨lam', hl', hp'⟩ := hfit.stiff 0 hfit.pos
  have : lam' = lam := by
    have e : t.lam = some lam' := hl'
    rw [hl] at e
    cases e
    rfl
  subst this
  obtain ⟨kt, kr, hk⟩ := pen_ycte (penOf { t with pan := pan, Nxx := N 0 } lam')
    (penOf { t with pan := pan, Nxx := N 0 } lam')
  obtain ⟨kt', kr', hk', p1, p2⟩ := C44.positive hp' hp' (t := "ycte") (by decide)
  rw [hk] at hk'
  cases hk'
  have hpen : ∀ s : Shell ℝ, s.pan = pan →
      calcKtKr (penOf s lam') (penOf s lam') "ycte" = some (kt, some kr) := fun s hs => by
    have : penOf s lam' = penOf { t with pan := pan, Nxx := N 0 } lam' := by
      unfold penOf
      rw [hs]
    rw [this, hk]
  refine ⟨k0, M, kG, M', kt, kr, h2, g2, p1, p2 _ rfl, fun v => ?_, fun v => ?_, hpen _ rfl⟩
  · rw [hA.conns] at h3
    rw [h4 v, hA.count, hfit.ring hn hA.count.ge (P := { pan with r := q.r }) (pan := pan) (lam := lam')
      hA.b (fun p hp => ⟨hP p hp, hl, rfl⟩) hpen ha h3 v]
    congr 1
    · congr 1
      refine List.map_congr_left fun i hi => ?_
      have hi' := List.mem_range.1 hi
      rw [hA.start hi'.le]
      have hc := h1 i (by rw [hA.count]; exact hi')
      rw [hA.part i hi'] at hc
      have hmod : t.model.bind kindOf = some .cyl := by
        obtain ⟨-, -, -, -, -, -, rfl⟩ := (C54.rebuild_ok_iff E _ t).1 ht
        rfl
      exact shell_kC_strain hI hS (rebuild_with ht pan hA.m hA.n (N i)) ha hb
        (.inr ⟨hr.ne', hmod⟩) (by simp [C38.PreStress, skinPart, cylShell, Shell.new]) hl hF hc _
    · congr 1
      refine List.map_congr_left fun i hi => ?_
      have hi' := List.mem_range.1 hi
      rw [hA.start hi'.le, hA.start (Nat.mod_lt _ (by omega)).le]
  · rw [g3 v, hA.count]
    congr 1
    refine List.map_congr_left fun i hi => ?_
    have hi' := List.mem_range.1 hi
    rw [hA.start hi'.le]
    have hc := g1 i (by rw [hA.count]; exact hi')
    rw [hA.part i hi'] at hc
    exact shell_kG_slope hI hS (rebuild_with ht pan hA.m hA.n (N i)) ha hb hc _
end

end Verif
