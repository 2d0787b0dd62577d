import Verif.Proofs.ConnLoop
import Verif.Proofs.ShellBase

/-!
# Connections that can be evaluated are evaluated
-/

set_option linter.unusedSectionVars false

namespace Verif

open Model

variable {K : Type} [Field K] [LinearOrder K]

theorem toSparse_of {size : ℕ} {L : Coo K} (h : ∀ t ∈ L, t.row < size ∧ t.col < size) :
    toSparse size L = .ok L := by
  unfold toSparse
  rw [if_pos]
  rw [List.all_eq_true]
  intro t ht
  simp [h t ht]

/-- Three blocks of two panels inside the matrix. -/
theorem blocks_inside {A B C : Coo K} {P1 P2 : Panel K} {f1 f2 f3 s1 s2 size : ℕ}
    (hA : Fits A f1 s1 (3 * (P1.m * P1.n)) s1 (3 * (P1.m * P1.n)))
    (hB : Fits B f2 s1 (3 * (P1.m * P1.n)) s2 (3 * (P2.m * P2.n)))
    (hC : Fits C f3 s2 (3 * (P2.m * P2.n)) s2 (3 * (P2.m * P2.n)))
    (h1 : s1 + 3 * (P1.m * P1.n) ≤ size) (h2 : s2 + 3 * (P2.m * P2.n) ≤ size)
    (p1 : 0 < P1.m * P1.n) (p2 : 0 < P2.m * P2.n) :
    toSparse size (A ++ (B ++ C)) = .ok (A ++ (B ++ C)) := by
  refine toSparse_of fun t ht => ?_
  rw [List.mem_append, List.mem_append] at ht
  rcases ht with ht | ht | ht
  · exact hA.inMatrix h1 h1 (fun _ => by omega) t ht
  · exact hB.inMatrix h1 h2 (fun _ => by omega) t ht
  · exact hC.inMatrix h2 h2 (fun _ => by omega) t ht

theorem ktkr_total {E : Env K} {M : Multi K} {A B : ℕ} {ct : String} {tA tB : Shell K}
    {lA lB : LamObj K} {k : K × Option K} (hA : (M.shells A).rebuild E = .ok tA)
    (hB : (M.shells B).rebuild E = .ok tB) (hlA : tA.lam = some lA) (hlB : tB.lam = some lB)
    (hk : calcKtKr (penOf tA lA) (penOf tB lB) ct = some k) :
    ∃ M', ktkr E M A B ct = .ok (k, M') ∧ M'.shells A = tA ∧ M'.shells B = tB := by
  have hB' : ((M.setShell A tA).shells B).rebuild E = .ok tB := by
    by_cases hAB : B = A
    · subst hAB
      rw [show (M.setShell B tA).shells B = tA from if_pos rfl]
      rw [hA] at hB
      cases hB
      exact C54.idempotent E _ _ hA
    · rwa [show (M.setShell A tA).shells B = M.shells B from if_neg hAB]
  have e1 : ((M.setShell A tA).setShell B tB).shells B = tB := if_pos rfl
  have e2 : ((M.setShell A tA).setShell B tB).shells A = tA := by
    by_cases hAB : A = B
    · subst hAB
      rw [hA] at hB
      cases hB
      exact e1
    · rw [show ((M.setShell A tA).setShell B tB).shells A = (M.setShell A tA).shells A from
        if_neg hAB]
      exact if_pos rfl
  refine ⟨(M.setShell A tA).setShell B tB, ?_, e2, e1⟩
  unfold ktkr
  simp only [bind, Except.bind, hA, hB', e1, e2, hlA, hlB, hk]

/-- A connection of two panels inside the matrix is evaluated. -/
theorem connOne_total {E : Env K} {M : Multi K} {size A B : ℕ} {d : ConnD K} {L : Coo K}
    {qA qB : Place} (hpA : M.place A = some qA) (hpB : M.place B = some qB)
    (h1 : qA.col0 + 3 * ((M.shells A).pan.m * (M.shells A).pan.n) ≤ size)
    (h2 : qB.col0 + 3 * ((M.shells B).pan.m * (M.shells B).pan.n) ≤ size)
    (p1 : 0 < (M.shells A).pan.m * (M.shells A).pan.n)
    (p2 : 0 < (M.shells B).pan.m * (M.shells B).pan.n)
    (ht : d.func = "SB_TSL" → (M.shells A).plyts ≠ [] ∧ (M.shells B).plyts ≠ [])
    (h : JointOf E (M.shells A) (M.shells B) qA.col0 qB.col0 d L) :
    ∃ M', connOne E M size A B d = .ok (L, M') := by
  have pn : ∀ {p t}, (M.shells p).rebuild E = .ok t → t.panel = (M.shells p).panel :=
    fun h => (rebuild_kept E h).2.2.1
  cases h with
  | SSx hf hA hB hlA hlB hk g1 g2 =>
    obtain ⟨M', e, eA, eB⟩ := ktkr_total hA hB hlA hlB hk
    refine ⟨M', ?_⟩
    unfold connOne
    simp only [hpA, hpB, hf, e, number, key, g1, g2, eA, eB, pn hA, pn hB, bind, Except.bind, pure,
      Except.pure, if_true, reduceCtorEq, String.reduceEq, if_false]
    unfold connSSxcte
    rw [blocks_inside (P1 := (M.shells A).panel) (P2 := (M.shells B).panel) (C24.fkCSSxcte11_fits ..) (C24.fkCSSxcte12_fits ..) (C24.fkCSSxcte22_fits ..)
      h1 h2 p1 p2]
  | SSy hf hA hB hlA hlB hk g1 g2 =>
    obtain ⟨M', e, eA, eB⟩ := ktkr_total hA hB hlA hlB hk
    refine ⟨M', ?_⟩
    unfold connOne
    simp only [hpA, hpB, hf, e, number, key, g1, g2, eA, eB, pn hA, pn hB, bind, Except.bind, pure,
      Except.pure, if_true, reduceCtorEq, String.reduceEq, if_false]
    unfold connSSycte
    rw [blocks_inside (P1 := (M.shells A).panel) (P2 := (M.shells B).panel) (C24.fkCSSycte11_fits ..) (C24.fkCSSycte12_fits ..) (C24.fkCSSycte22_fits ..)
      h1 h2 p1 p2]
  | BFx hf hA hB hlA hlB hk g1 g2 =>
    obtain ⟨M', e, eA, eB⟩ := ktkr_total hA hB hlA hlB hk
    refine ⟨M', ?_⟩
    unfold connOne
    simp only [hpA, hpB, hf, e, number, key, g1, g2, eA, eB, pn hA, pn hB, bind, Except.bind, pure,
      Except.pure, if_true, reduceCtorEq, String.reduceEq, if_false]
    unfold connBFxcte
    rw [blocks_inside (P1 := (M.shells A).panel) (P2 := (M.shells B).panel) (C24.fkCBFxcte11_fits ..) (C24.fkCBFxcte12_fits ..) (C24.fkCBFxcte22_fits ..)
      h1 h2 p1 p2]
  | BFy hf hA hB hlA hlB hk g1 g2 =>
    obtain ⟨M', e, eA, eB⟩ := ktkr_total hA hB hlA hlB hk
    refine ⟨M', ?_⟩
    unfold connOne
    simp only [hpA, hpB, hf, e, number, key, g1, g2, eA, eB, pn hA, pn hB, bind, Except.bind, pure,
      Except.pure, if_true, reduceCtorEq, String.reduceEq, if_false]
    unfold connBFycte
    rw [blocks_inside (P1 := (M.shells A).panel) (P2 := (M.shells B).panel) (C24.fkCBFycte11_fits ..) (C24.fkCBFycte12_fits ..) (C24.fkCBFycte22_fits ..)
      h1 h2 p1 p2]
  | SB hf hA hB hlA hlB hk =>
    obtain ⟨M', e, eA, eB⟩ := ktkr_total hA hB hlA hlB hk
    refine ⟨M', ?_⟩
    have tkA := (rebuild_kept E hA).2.2.2.2
    have tkB := (rebuild_kept E hB).2.2.2.2
    unfold connOne
    simp only [hpA, hpB, hf, e, thick, List.isEmpty_iff, tkA, tkB, eA, eB, pn hA, pn hB, bind,
      Except.bind, pure, Except.pure, if_true, reduceCtorEq, String.reduceEq, if_false]
    unfold connSB
    rw [blocks_inside (P1 := (M.shells A).panel) (P2 := (M.shells B).panel) (C24.fkCSB11_fits ..) (C24.fkCSB12_fits ..) (C24.fkCSB22_fits ..) h1 h2 p1 p2]
  | TSL hf hA hB hqA hqB hl ha hb =>
    obtain ⟨tkA, tkB⟩ := ht hf
    refine ⟨M, ?_⟩
    rw [hA.plyts tkA, hB.plyts tkB]
    unfold connOne
    simp only [hpA, hpB, hf, thick, key, hl, ha, hb, List.isEmpty_iff, tkA, tkB, bind,
      Except.bind, pure, Except.pure, if_true, reduceCtorEq, String.reduceEq, if_false, ne_eq,
      not_true_eq_false, or_self]
    unfold connSB
    rw [blocks_inside (P1 := (M.shells A).panel) (P2 := (M.shells B).panel) (C24.fkCSB11_fits ..) (C24.fkCSB12_fits ..) (C24.fkCSB22_fits ..) h1 h2 p1 p2]

/-- A connection of panels is a connection of the panels after a rebuild. -/
theorem JointOf.after {E : Env K} {sA sB uA uB : Shell K} {a b : ℕ} {d : ConnD K} {L : Coo K}
    (hA : Reb E sA uA) (hB : Reb E sB uB)
    (ht : d.func = "SB_TSL" → sA.plyts ≠ [] ∧ sB.plyts ≠ []) (h : JointOf E sA sB a b d L) :
    JointOf E uA uB a b d L := by
  have pA := hA.panel
  have pB := hB.panel
  cases h with
  | SSx hf h1 h2 h3 h4 h5 h6 h7 =>
    rw [← pA, ← pB]; exact .SSx hf (hA.rebuild' h1) (hB.rebuild' h2) h3 h4 h5 h6 h7
  | SSy hf h1 h2 h3 h4 h5 h6 h7 =>
    rw [← pA, ← pB]; exact .SSy hf (hA.rebuild' h1) (hB.rebuild' h2) h3 h4 h5 h6 h7
  | BFx hf h1 h2 h3 h4 h5 h6 h7 =>
    rw [← pA, ← pB]; exact .BFx hf (hA.rebuild' h1) (hB.rebuild' h2) h3 h4 h5 h6 h7
  | BFy hf h1 h2 h3 h4 h5 h6 h7 =>
    rw [← pA, ← pB]; exact .BFy hf (hA.rebuild' h1) (hB.rebuild' h2) h3 h4 h5 h6 h7
  | SB hf h1 h2 h3 h4 h5 =>
    rw [← pA, ← pB]; exact .SB hf (hA.rebuild' h1) (hB.rebuild' h2) h3 h4 h5
  | TSL hf h1 h2 h3 h4 h5 h6 h7 =>
    obtain ⟨n1, n2⟩ := ht hf
    rw [← pA, ← pB, ← hA.pan, h1.plyts n1, h2.plyts n2, ← hA.plyts n1, ← hB.plyts n2]
    exact .TSL hf (.inl rfl) (.inl rfl) (by rw [hA.plyts n1]; exact n1)
      (by rw [hB.plyts n2]; exact n2) h5 (by rw [hA.pan, hB.pan]; exact h6)
      (by rw [hA.pan, hB.pan]; exact h7)

/-- A list of connections with known matrices is evaluated. -/
theorem connLoop_total {E : Env K} {M0 : Multi K} {prev : Option (ℕ × ℕ)} {l l' : List (ConnD K)}
    {Ls : List (Coo K)} (h : LoopOf E M0 prev l l' Ls) (size : ℕ)
    (hs : ∀ p q, M0.place p = some q →
      q.col0 + 3 * ((M0.shells p).pan.m * (M0.shells p).pan.n) ≤ size ∧
      0 < (M0.shells p).pan.m * (M0.shells p).pan.n)
    (ht : ∀ d ∈ l', d.func = "SB_TSL" → ∀ p q, M0.place p = some q → (M0.shells p).plyts ≠ [])
    (M : Multi K) (hM : Later E M0 M) :
    ∃ M', connLoop E size l M prev = .ok (Ls.flatten, l', M') := by
  induction h generalizing M with
  | nil => exact ⟨M, rfl⟩
  | @cons prev d d' p qA qB L ds ds' Ls hp hA hB hJ hr ih =>
    have ep : ∀ p, (M.shells p).pan = (M0.shells p).pan := fun p => (hM.shells p).pan
    have hp' : pairOf M prev d = .ok (p, d') := (pairOf_later hM prev d).trans hp
    have gA : M.place p.1 = some qA := by rw [hM.place]; exact hA
    have gB : M.place p.2 = some qB := by rw [hM.place]; exact hB
    have hpl : d'.func = "SB_TSL" → (M0.shells p.1).plyts ≠ [] ∧ (M0.shells p.2).plyts ≠ [] :=
      fun hf => ⟨ht _ List.mem_cons_self hf _ _ hA, ht _ List.mem_cons_self hf _ _ hB⟩
    obtain ⟨M1, e1⟩ := connOne_total (size := size) gA gB
      (by rw [ep]; exact (hs _ _ hA).1) (by rw [ep]; exact (hs _ _ hB).1)
      (by rw [ep]; exact (hs _ _ hA).2) (by rw [ep]; exact (hs _ _ hB).2)
      (fun hf => by
        obtain ⟨n1, n2⟩ := hpl hf
        rw [(hM.shells _).plyts n1, (hM.shells _).plyts n2]
        exact ⟨n1, n2⟩) (hJ.after (hM.shells _) (hM.shells _) hpl)
    have k1 := (connOne_ok E M M1 size _ _ _ _ e1).1
    obtain ⟨M2, e2⟩ := ih (fun d hd => ht d (List.mem_cons_of_mem _ hd)) M1 (hM.trans k1)
    refine ⟨M2, ?_⟩
    simp only [connLoop, bind, Except.bind, hp', e1, e2, pure, Except.pure, List.flatten_cons]

end Verif
