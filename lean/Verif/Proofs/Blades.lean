import Verif.Proofs.Ring

/-!
# A ring of panels with a blade on each
-/

set_option linter.unusedSectionVars false

namespace Verif

open Model Spec

/-- What the function for stiffened cylinders needs to have been built. -/
structure BladesFit (E : Env ℝ) (q : CylArgs ℝ) (sts : List (List ℝ)) (widths : List ℝ)
    (t : Shell ℝ) (lam : LamObj ℝ) (tb : ℕ → Shell ℝ) (lamb : ℕ → LamObj ℝ) : Prop where
  exact : E.I.Exact E.S Mean.integral
  smooth : E.S.C2
  num : 2 ≤ q.npanels
  nstacks : sts.length = q.npanels
  nwidths : widths.length = q.npanels
  terms : 0 < q.m ∧ 0 < q.n
  height : 0 < q.height
  r : 0 < q.r
  width : ∀ i < q.npanels, 0 < widths.getD i 0
  built : (skinPart Real.pi q 0).shell.rebuild E = .ok t
  hlam : t.lam = some lam
  sym : ABDSym lam.ABD
  pos : C44.Pos (penOf t lam)
  builtb : ∀ i < q.npanels, (bladePart Real.pi q sts widths i).shell.rebuild E = .ok (tb i)
  hlamb : ∀ i < q.npanels, (tb i).lam = some (lamb i)
  symb : ∀ i < q.npanels, ABDSym (lamb i).ABD
  posb : ∀ i < q.npanels, C44.Pos (penOf (tb i) (lamb i))

/-- The joint between a panel and its blade. -/
def bladeConn (n i : ℕ) : ConnD ℝ :=
  { p1 := i, p2 := n + i, func := "BFycte", ycte1 := some 0, ycte2 := some 0 }

/-- A stiffened cylinder with any flags at the ends and any loads. -/
structure Stiffened (q : CylArgs ℝ) (sts : List (List ℝ)) (widths : List ℝ) (pan : Panel ℝ)
    (panb : ℕ → Panel ℝ) (N Nb : ℕ → ℝ) (A : Assy ℝ) : Prop where
  count : A.count = q.npanels + q.npanels
  conns : A.conns = skinConns Real.pi q ++ (List.range q.npanels).map (bladeConn q.npanels)
  part : ∀ p < q.npanels,
    (A.part p).shell = { (skinPart Real.pi q 0).shell with pan := pan, Nxx := N p }
  partb : ∀ i < q.npanels, (A.part (q.npanels + i)).shell
    = { (bladePart Real.pi q sts widths i).shell with pan := panb i, Nxx := Nb i }
  a : pan.a = q.height
  b : pan.b = bSkin Real.pi q
  m : pan.m = q.m
  n : pan.n = q.n
  ab : ∀ i, (panb i).a = q.height
  bb : ∀ i, (panb i).b = widths.getD i 0
  mb : ∀ i, (panb i).m = q.m
  nb : ∀ i, (panb i).n = q.n

variable {E : Env ℝ} {q : CylArgs ℝ} {sts : List (List ℝ)} {widths : List ℝ} {pan : Panel ℝ}
  {panb : ℕ → Panel ℝ} {N Nb : ℕ → ℝ} {A : Assy ℝ} {t : Shell ℝ} {lam : LamObj ℝ}
  {tb : ℕ → Shell ℝ} {lamb : ℕ → LamObj ℝ}

/-- The panels as built. -/
noncomputable def bladeT (q : CylArgs ℝ) (pan : Panel ℝ) (panb : ℕ → Panel ℝ) (N Nb : ℕ → ℝ)
    (t : Shell ℝ) (tb : ℕ → Shell ℝ) (p : ℕ) : Shell ℝ :=
  if p < q.npanels then { t with pan := pan, Nxx := N p }
  else { tb (p - q.npanels) with pan := panb (p - q.npanels), Nxx := Nb (p - q.npanels) }

theorem bladeT_skin {p : ℕ} (hp : p < q.npanels) :
    bladeT q pan panb N Nb t tb p = { t with pan := pan, Nxx := N p } := if_pos hp

theorem bladeT_blade (i : ℕ) : bladeT q pan panb N Nb t tb (q.npanels + i)
    = { tb i with pan := panb i, Nxx := Nb i } := by
  rw [bladeT, if_neg (by omega), Nat.add_sub_cancel_left]

theorem split_index {n p : ℕ} (h : p < n + n) : p < n ∨ ∃ i < n, p = n + i := by
  rcases Nat.lt_or_ge p n with h1 | h1
  · exact .inl h1
  · exact .inr ⟨p - n, by omega, by omega⟩

theorem Stiffened.fit (hA : Stiffened q sts widths pan panb N Nb A)
    (h : BladesFit E q sts widths t lam tb lamb) : Fit E A (bladeT q pan panb N Nb t tb) where
  exact := h.exact
  smooth := h.smooth
  pos := by have := h.num; rw [hA.count]; omega
  terms p hp := by
    rw [hA.count] at hp
    rcases split_index hp with hp | ⟨i, hi, rfl⟩
    · rw [hA.part p hp]
      simpa [hA.m, hA.n] using h.terms
    · rw [hA.partb i hi]
      simpa [hA.mb, hA.nb] using h.terms
  built p hp := by
    rw [hA.count] at hp
    rcases split_index hp with hp | ⟨i, hi, rfl⟩
    · rw [hA.part p hp, bladeT_skin hp]
      exact rebuild_with h.built pan hA.m hA.n (N p)
    · rw [hA.partb i hi, bladeT_blade]
      exact rebuild_with (h.builtb i hi) (panb i) (hA.mb i) (hA.nb i) (Nb i)
  stiff p hp := by
    rw [hA.count] at hp
    rcases split_index hp with hp | ⟨i, hi, rfl⟩
    · rw [bladeT_skin hp]
      have hpos := h.pos
      refine ⟨lam, h.hlam, hpos.1, hpos.2, hpos.3, hpos.4, hpos.5, ?_, ?_⟩
      · show 0 < pan.a
        rw [hA.a]; exact h.height
      · show 0 < pan.b
        rw [hA.b]; exact bSkin_pos h.num h.r
    · rw [bladeT_blade]
      have hpos := h.posb i hi
      refine ⟨lamb i, h.hlamb i hi, hpos.1, hpos.2, hpos.3, hpos.4, hpos.5, ?_, ?_⟩
      · show 0 < (panb i).a
        rw [hA.ab]; exact h.height
      · show 0 < (panb i).b
        rw [hA.bb]; exact h.width i hi
  sides p hp := by
    rw [hA.count] at hp
    rcases split_index hp with hp | ⟨i, hi, rfl⟩
    · rw [hA.part p hp]
      exact ⟨by simpa [hA.a] using h.height, by simpa [hA.b] using bSkin_pos h.num h.r⟩
    · rw [hA.partb i hi]
      exact ⟨by simpa [hA.ab] using h.height, by simpa [hA.bb] using h.width i hi⟩
  conns := by
    rw [hA.conns]
    exact fun e => skinConns_ne h.num (List.append_eq_nil_iff.1 e).1
  joined d hd := by
    rw [hA.conns] at hd
    rcases List.mem_append.1 hd with hd | hd
    · exact skinConns_joinable h.num (by rw [hA.count]; omega) d hd
    · obtain ⟨i, hi, rfl⟩ := List.mem_map.1 hd
      have hi' := List.mem_range.1 hi
      have := h.num
      refine ⟨?_, ?_, ?_, .inr (.inl ⟨.inr rfl, _, _, rfl, rfl⟩)⟩
      · show i ∈ _
        rw [List.mem_range, hA.count]; omega
      · show q.npanels + i ∈ _
        rw [List.mem_range, hA.count]; omega
      · show i ≠ q.npanels + i
        omega

theorem Stiffened.start (hA : Stiffened q sts widths pan panb N Nb A) {k : ℕ}
    (hk : k ≤ q.npanels + q.npanels) : A.start k = k * (3 * q.m * q.n) := by
  induction k with
  | zero => simp [Assy.start, C40.start]
  | succ k ih =>
    rw [Assy_start_succ (by rw [hA.count]; omega), ih (by omega)]
    rcases split_index (show k < q.npanels + q.npanels by omega) with hp | ⟨i, hi, rfl⟩
    · rw [hA.part k hp]
      simp only [hA.m, hA.n]
      ring
    · rw [hA.partb i hi]
      simp only [hA.mb, hA.nb]
      ring

/-- The joint of a blade. -/
theorem Stiffened.stand (hA : Stiffened q sts widths pan panb N Nb A)
    (h : BladesFit E q sts widths t lam tb lamb) {i : ℕ} (hi : i < q.npanels) {e : (ℕ → ℝ) → ℝ}
    (ht : C40.Term E (A.after (bladeT q pan panb N Nb t tb)) (bladeConn q.npanels i) e) :
    ∃ kt kr, 0 < kt ∧ 0 < kr ∧ (∀ v, e v = standEnergy E.S { pan with r := q.r } { panb i with r := 0 }
      kt kr (i * (3 * q.m * q.n)) ((q.npanels + i) * (3 * q.m * q.n)) v) ∧
      calcKtKr (penOf { t with pan := pan } lam) (penOf { tb i with pan := panb i } (lamb i)) "ycte"
        = some (kt, some kr) := by
  have hfit := hA.fit h
  obtain ⟨lA, lB, kt, kr, kr', z1, z2, l1, l2, hkt, hC, hkr, hAt, he⟩ := hfit.term ht
    (show i < q.npanels + i by omega) (show q.npanels + i < _ by rw [hA.count]; omega)
    (by show "BFycte" ≠ "SB_TSL"; decide)
  have hc1 : i < A.count := by rw [hA.count]; omega
  have hc2 : q.npanels + i < A.count := by rw [hA.count]; omega
  obtain ⟨lA', e1, pA⟩ := hfit.stiff i hc1
  obtain ⟨lB', e2, pB⟩ := hfit.stiff _ hc2
  have := l1.symm.trans e1
  cases this
  have := l2.symm.trans e2
  cases this
  obtain ⟨kt0, kr0, hk, -, p2⟩ := C44.positive pA pB (t := "ycte") (by decide)
  obtain ⟨kt1, kr1, hk1⟩ := pen_ycte (penOf (bladeT q pan panb N Nb t tb i) lA)
    (penOf (bladeT q pan panb N Nb t tb (q.npanels + i)) lB)
  have hC' := hk1.symm.trans hC
  have hC'' := hk1.symm.trans hk
  simp only [Option.some.injEq, Prod.mk.injEq] at hC' hC''
  obtain ⟨rfl, rfl⟩ := hC'
  obtain ⟨rfl, rfl⟩ := hC''
  obtain rfl := hkr _ rfl
  have hz : z1 = 0 ∧ z2 = 0 := by
    simp only [C40.At, bladeConn, String.reduceEq, or_self, if_false, or_true, if_true,
      Option.some.injEq] at hAt
    exact ⟨hAt.1.symm, hAt.2.symm⟩
  obtain ⟨rfl, rfl⟩ := hz
  have hpen : calcKtKr (penOf { t with pan := pan } lam) (penOf { tb i with pan := panb i } (lamb i))
      "ycte" = some (kt1, some kr1) := by
    have e1 : (bladeT q pan panb N Nb t tb i).lam = some lA := l1
    have e2 : (bladeT q pan panb N Nb t tb (q.npanels + i)).lam = some lB := l2
    rw [bladeT_skin hi] at e1 hk1
    rw [bladeT_blade] at e2 hk1
    have := h.hlam.symm.trans e1
    cases this
    have := (h.hlamb i hi).symm.trans e2
    cases this
    exact hk1
  refine ⟨kt1, kr1, hkt, p2 _ rfl, fun v => ?_, hpen⟩
  have he' := he v
  simp only [bladeConn] at he'
  rw [he', hA.start (by omega), hA.start (by omega), hA.part i hi, hA.partb i hi]
  have hq : q.height / q.height = 1 := div_self h.height.ne'
  simp only [C40.springs, String.reduceEq, if_false, if_true]
  unfold jointEnergy standEnergy
  have ep : (({ (skinPart Real.pi q 0).shell with pan := pan, Nxx := N i } : Shell ℝ)).panel
      = { pan with r := q.r } := rfl
  have eb : (({ (bladePart Real.pi q sts widths i).shell with pan := panb i, Nxx := Nb i } : Shell ℝ)).panel
      = { panb i with r := 0 } := rfl
  rw [ep, eb]
  simp only [hA.a, hA.ab, hq, one_mul]

/-- Stiffness and geometric stiffness of the stiffened cylinder. -/
theorem Stiffened.energy (hA : Stiffened q sts widths pan panb N Nb A)
    (h : BladesFit E q sts widths t lam tb lamb) :
    ∃ k0 M kG M' kt kr, ∃ kt' kr' : ℕ → ℝ, A.multi.calcKC E (some A.conns) none = .ok (k0, M) ∧
      M.calcKG E none = .ok (kG, M') ∧ 0 < kt ∧ 0 < kr ∧ (∀ i < q.npanels, 0 < kt' i ∧ 0 < kr' i) ∧
      (∀ v, Coo.quad k0 v = ((List.range q.npanels).map fun i =>
            strainWork E.S { pan with r := q.r } lam.ABD fun k => v (i * (3 * q.m * q.n) + k)).sum
          + ((List.range q.npanels).map fun i => strainWork E.S { panb i with r := 0 } (lamb i).ABD
              fun k => v ((q.npanels + i) * (3 * q.m * q.n) + k)).sum
          + ((List.range q.npanels).map fun i => edgeEnergy E.S { pan with r := q.r } kt kr
              (i * (3 * q.m * q.n)) ((i + 1) % q.npanels * (3 * q.m * q.n)) v).sum
          + ((List.range q.npanels).map fun i => standEnergy E.S { pan with r := q.r }
              { panb i with r := 0 } (kt' i) (kr' i) (i * (3 * q.m * q.n))
              ((q.npanels + i) * (3 * q.m * q.n)) v).sum) ∧
      (∀ v, Coo.quad kG v = ((List.range q.npanels).map fun i => slopeWork E.S { pan with r := q.r }
            (N i) 0 0 fun k => v (i * (3 * q.m * q.n) + k)).sum
          + ((List.range q.npanels).map fun i => slopeWork E.S { panb i with r := 0 } (Nb i) 0 0
              fun k => v ((q.npanels + i) * (3 * q.m * q.n) + k)).sum) ∧
      calcKtKr (penOf { t with pan := pan } lam) (penOf { t with pan := pan } lam) "ycte"
        = some (kt, some kr) ∧
      ∀ i < q.npanels, calcKtKr (penOf { t with pan := pan } lam)
        (penOf { tb i with pan := panb i } (lamb i)) "ycte" = some (kt' i, some (kr' i)) := by
  have hfit := hA.fit h
  obtain ⟨own, h1, k0, M, es, h2, h3, h4, h5, h6, h7⟩ := hfit.kC
  obtain ⟨ownG, g1, kG, M', g2, g3⟩ := hfit.kG h5 h6 h7
  have hn := h.num
  have ha : pan.a ≠ 0 := by rw [hA.a]; exact h.height.ne'
  have hb : pan.b ≠ 0 := by rw [hA.b]; exact (bSkin_pos h.num h.r).ne'
  have hab : ∀ i, (panb i).a ≠ 0 := fun i => by rw [hA.ab]; exact h.height.ne'
  have hbb : ∀ i < q.npanels, (panb i).b ≠ 0 := fun i hi => by rw [hA.bb]; exact (h.width i hi).ne'
  obtain ⟨lam', hl', hp'⟩ := hfit.stiff 0 hfit.pos
  rw [bladeT_skin (show 0 < q.npanels by omega)] at hl' hp'
  have := h.hlam.symm.trans hl'
  cases this
  obtain ⟨kt, kr, hk⟩ := pen_ycte (penOf { t with pan := pan, Nxx := N 0 } lam)
    (penOf { t with pan := pan, Nxx := N 0 } lam)
  obtain ⟨kt', kr', hk', p1, p2⟩ := C44.positive hp' hp' (t := "ycte") (by decide)
  rw [hk] at hk'
  cases hk'
  have hpen : ∀ s : Shell ℝ, s.pan = pan →
      calcKtKr (penOf s lam) (penOf s lam) "ycte" = some (kt, some kr) := fun s hs => by
    have : penOf s lam = penOf { t with pan := pan, Nxx := N 0 } lam := by
      unfold penOf
      rw [hs]
    rw [this, hk]
  rw [hA.conns] at h3
  have hlen := h3.length_eq
  obtain ⟨es1, es2, rfl, t1, t2⟩ : ∃ es1 es2, es = es1 ++ es2 ∧
      List.Forall₂ (C40.Term E (A.after (bladeT q pan panb N Nb t tb))) (skinConns Real.pi q) es1 ∧
      List.Forall₂ (C40.Term E (A.after (bladeT q pan panb N Nb t tb)))
        ((List.range q.npanels).map (bladeConn q.npanels)) es2 := by
    have f := h3.flip
    refine ⟨es.take (skinConns Real.pi q).length, es.drop (skinConns Real.pi q).length,
      (List.take_append_drop _ _).symm, ?_, ?_⟩
    · exact (List.forall₂_take_append _ _ _ f).flip
    · exact (List.forall₂_drop_append _ _ _ f).flip
  obtain ⟨e, rfl, he⟩ := forall₂_range q.npanels _ es2 t2
  have hst : ∀ i, ∃ kt kr, i < q.npanels → 0 < kt ∧ 0 < kr ∧ (∀ v, e i v = standEnergy E.S
      { pan with r := q.r } { panb i with r := 0 } kt kr (i * (3 * q.m * q.n))
      ((q.npanels + i) * (3 * q.m * q.n)) v) ∧
      calcKtKr (penOf { t with pan := pan } lam) (penOf { tb i with pan := panb i } (lamb i)) "ycte"
        = some (kt, some kr) := fun i => by
    by_cases hi : i < q.npanels
    · obtain ⟨kt, kr, h⟩ := hA.stand h hi (he i hi)
      exact ⟨kt, kr, fun _ => h⟩
    · exact ⟨0, 0, fun h => absurd h hi⟩
  choose ktb krb hkb using hst
  refine ⟨k0, M, kG, M', kt, kr, ktb, krb, h2, g2, p1, p2 _ rfl,
    fun i hi => ⟨(hkb i hi).1, (hkb i hi).2.1⟩, fun v => ?_, fun v => ?_, hpen _ rfl,
    fun i hi => (hkb i hi).2.2.2⟩
  · have hring := hfit.ring hn (by rw [hA.count]; omega) (P := { pan with r := q.r }) (pan := pan)
      (lam := lam) hA.b (fun p hp => ⟨by rw [hA.part p hp]; rfl, by rw [bladeT_skin hp]; exact h.hlam,
        by rw [bladeT_skin hp]⟩) hpen ha t1 v
    rw [h4 v, hA.count, List.map_append, List.sum_append, hring, List.range_add, List.map_append,
      List.sum_append, List.map_map, List.map_map, ← add_assoc]
    congr 1
    · congr 1
      · congr 1
        · congr 1
          refine List.map_congr_left fun i hi => ?_
          have hi' := List.mem_range.1 hi
          rw [hA.start (by omega)]
          have hc := h1 i (by rw [hA.count]; omega)
          rw [hA.part i hi'] at hc
          have hmod : t.model.bind kindOf = some .cyl := by
            obtain ⟨-, -, -, -, -, -, rfl⟩ := (C54.rebuild_ok_iff E _ t).1 h.built
            rfl
          exact shell_kC_strain h.exact h.smooth (rebuild_with h.built pan hA.m hA.n (N i)) ha hb
            (.inr ⟨h.r.ne', hmod⟩) (by simp [C38.PreStress, skinPart, cylShell, Shell.new]) h.hlam h.sym
            hc _
        · congr 1
          refine List.map_congr_left fun i hi => ?_
          have hi' := List.mem_range.1 hi
          show Coo.quad (own (q.npanels + i)) _ = _
          beta_reduce
          rw [hA.start (by omega)]
          have hc := h1 (q.npanels + i) (by rw [hA.count]; omega)
          rw [hA.partb i hi'] at hc
          have hmod : (tb i).model.bind kindOf = some .plate := by
            obtain ⟨-, -, -, -, lam1, -, e1⟩ := (C54.rebuild_ok_iff E _ _).1 (h.builtb i hi')
            rw [e1]
            rfl
          exact shell_kC_strain h.exact h.smooth
            (rebuild_with (h.builtb i hi') (panb i) (hA.mb i) (hA.nb i) (Nb i)) (hab i) (hbb i hi')
            (.inl ⟨rfl, hmod⟩) (by simp [C38.PreStress, bladePart, cylShell, Shell.new])
            (h.hlamb i hi') (h.symb i hi') hc _
      · congr 1
        refine List.map_congr_left fun i hi => ?_
        have hi' := List.mem_range.1 hi
        have := Nat.mod_lt (i + 1) (show 0 < q.npanels by omega)
        rw [hA.start (by omega), hA.start (by omega)]
    · congr 1
      refine List.map_congr_left fun i hi => ?_
      exact (hkb i (List.mem_range.1 hi)).2.2.1 v
  · rw [g3 v, hA.count, List.range_add, List.map_append, List.sum_append, List.map_map]
    congr 1
    · congr 1
      refine List.map_congr_left fun i hi => ?_
      have hi' := List.mem_range.1 hi
      rw [hA.start (by omega)]
      have hc := g1 i (by rw [hA.count]; omega)
      rw [hA.part i hi'] at hc
      exact shell_kG_slope h.exact h.smooth (rebuild_with h.built pan hA.m hA.n (N i)) ha hb hc _
    · congr 1
      refine List.map_congr_left fun i hi => ?_
      have hi' := List.mem_range.1 hi
      show Coo.quad (ownG (q.npanels + i)) _ = _
      beta_reduce
      rw [hA.start (by omega)]
      have hc := g1 (q.npanels + i) (by rw [hA.count]; omega)
      rw [hA.partb i hi'] at hc
      exact shell_kG_slope h.exact h.smooth
        (rebuild_with (h.builtb i hi') (panb i) (hA.mb i) (hA.nb i) (Nb i)) (hab i) (hbb i hi') hc _

end Verif
