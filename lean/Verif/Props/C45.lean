import Verif.Proofs.ConnTotal
import Verif.Props.C40Conn

/-!
# C45: connection matrices and the connection list given

The claim has three parts.  (a) Another list gives the matrix of the other list: violated, the first
result is kept for ever (`cached`, `other_list_violated`).  (b) The same list twice gives the same
matrix: true for one assembly (`same_assembly`); for two assemblies true if every connection names
its panels in the order of their blocks (`two_assemblies_partial`) and violated otherwise, since the
caller's dictionaries are changed (`two_assemblies_violated`).  (c) The order in which a joint names
its two panels does not matter for a first evaluation (`reversed_partial`, all joints that are
evaluated on two different blocks and give both or neither of each pair of positions).
-/

set_option linter.unusedSectionVars false

namespace Verif.C45

open Model

variable {K : Type} [Field K] [LinearOrder K]

/-- Once there is a stored matrix it is returned, whatever the list. -/
theorem cached (E : Env K) (M : Multi K) (L : Coo K) (hM : M.kCconn = some L) (l : List (ConnD K))
    (fin : Bool) : M.getKCconn E (some l) fin = .ok (L, some l, M) := by
  simp only [Multi.getKCconn, hM]

/-- A second call on the same assembly, with the same list or any other, gives the first matrix. -/
theorem same_assembly (E : Env K) (M M' : Multi K) (arg arg' : Option (List (ConnD K))) (L : Coo K)
    (fin fin' : Bool) (h : M.getKCconn E arg fin = .ok (L, arg', M')) (l : List (ConnD K)) :
    M'.getKCconn E (some l) fin' = .ok (L, some l, M') := by
  refine cached E M' L ?_ l fin'
  unfold Multi.getKCconn at h
  split at h
  · cases h
  · split at h
    · rename_i e
      cases h
      exact e
    · simp only [bind, Except.bind, pure, Except.pure] at h
      split at h; · cases h
      split at h; · cases h
      split at h <;> · cases h; rfl

/-! ## Two assemblies -/

/-- Every connection names the panel with the earlier block first. -/
def Ordered (M : Multi K) (l : List (ConnD K)) : Prop :=
  ∀ d ∈ l, ∃ q1 q2, M.place d.p1 = some q1 ∧ M.place d.p2 = some q2 ∧ q1.col0 < q2.col0

theorem ordered_kept {E : Env K} {M : Multi K} {prev : Option (ℕ × ℕ)} {l l' : List (ConnD K)}
    {Ls : List (Coo K)} (h : LoopOf E M prev l l' Ls) (ho : Ordered M l) : l' = l := by
  induction h with
  | nil => rfl
  | cons hp hA hB hJ hr ih =>
    obtain ⟨q1, q2, e1, e2, hlt⟩ := ho _ List.mem_cons_self
    simp only [pairOf, e1, e2, if_pos hlt] at hp
    cases hp
    rw [ih fun d hd => ho d (List.mem_cons_of_mem _ hd)]

/-- What a first evaluation returns. -/
theorem fresh (E : Env K) (M M' : Multi K) (l : List (ConnD K)) (arg' : Option (List (ConnD K)))
    (L : Coo K) (hM : M.kCconn = none) (h : M.getKCconn E (some l) = .ok (L, arg', M')) :
    ∃ l' Ls, arg' = some l' ∧ LoopOf E M none l l' Ls ∧ L = Coo.finalizeSym Ls.flatten := by
  obtain ⟨l', Ls, h1, h2, -, h3, -⟩ := C40.conn_sum E M M' l arg' L hM h
  exact ⟨l', Ls, h1, h2, h3⟩

/-- A list of connections in block order is left as it was, and a second assembly of the same panels
(rebuilt or not) that is handed the list afterwards gets the same matrix.
Missing from the claim: lists that name a panel with a later block first, see
`two_assemblies_violated`. -/
theorem two_assemblies_partial (E : Env K) (M1 M2 M1' M2' : Multi K) (l l' l'' : List (ConnD K))
    (K1 K2 : Coo K) (h1 : M1.kCconn = none) (h2 : M2.kCconn = none) (hp : M2.place = M1.place)
    (hs : ∀ p, Reb E (M1.shells p) (M2.shells p)) (ho : Ordered M1 l)
    (e1 : M1.getKCconn E (some l) = .ok (K1, some l', M1'))
    (e2 : M2.getKCconn E (some l') = .ok (K2, some l'', M2')) : l' = l ∧ K2 = K1 := by
  obtain ⟨_, Ls1, f1, g1, rfl⟩ := fresh E M1 M1' l _ _ h1 e1
  cases f1
  obtain ⟨_, Ls2, f2, g2, rfl⟩ := fresh E M2 M2' l' _ _ h2 e2
  have := ordered_kept g1 ho
  subst this
  obtain ⟨-, rfl⟩ := LoopOf.unique hp hs g1 g2
  exact ⟨rfl, rfl⟩

/-! ## Order of the two panels of a joint -/

/-- The same joint with its two panels named in the other order. -/
def rev (d : ConnD K) : ConnD K where
  p1 := d.p2
  p2 := d.p1
  func := d.func
  xcte1 := d.xcte2
  xcte2 := d.xcte1
  ycte1 := d.ycte2
  ycte2 := d.ycte1
  tsl := d.tsl

/-- Positions are given for both panels or for none. -/
def Paired (d : ConnD K) : Prop :=
  d.xcte1.isSome = d.xcte2.isSome ∧ d.ycte1.isSome = d.ycte2.isSome

/-- What one joint reads of its dictionary. -/
def SameJoint (d e : ConnD K) : Prop :=
  d.func = e.func ∧ d.tsl = e.tsl ∧ (d.func ≠ "SB" →
    d.xcte1 = e.xcte1 ∧ d.xcte2 = e.xcte2 ∧ d.ycte1 = e.ycte1 ∧ d.ycte2 = e.ycte2)

theorem SameJoint.joint {E : Env K} {sA sB : Shell K} {a b : ℕ} {d e : ConnD K} {L : Coo K}
    (h : SameJoint d e) (hJ : JointOf E sA sB a b d L) : JointOf E sA sB a b e L := by
  obtain ⟨hf, ht, hx⟩ := h
  cases hJ with
  | SSx h1 h2 h3 h4 h5 h6 h7 h8 =>
    obtain ⟨x1, x2, -, -⟩ := hx (by rw [h1]; decide)
    exact .SSx (hf ▸ h1) h2 h3 h4 h5 h6 (x1 ▸ h7) (x2 ▸ h8)
  | SSy h1 h2 h3 h4 h5 h6 h7 h8 =>
    obtain ⟨-, -, x1, x2⟩ := hx (by rw [h1]; decide)
    exact .SSy (hf ▸ h1) h2 h3 h4 h5 h6 (x1 ▸ h7) (x2 ▸ h8)
  | BFx h1 h2 h3 h4 h5 h6 h7 h8 =>
    obtain ⟨x1, x2, -, -⟩ := hx (by rw [h1]; decide)
    exact .BFx (hf ▸ h1) h2 h3 h4 h5 h6 (x1 ▸ h7) (x2 ▸ h8)
  | BFy h1 h2 h3 h4 h5 h6 h7 h8 =>
    obtain ⟨-, -, x1, x2⟩ := hx (by rw [h1]; decide)
    exact .BFy (hf ▸ h1) h2 h3 h4 h5 h6 (x1 ▸ h7) (x2 ▸ h8)
  | SB h1 h2 h3 h4 h5 h6 => exact .SB (hf ▸ h1) h2 h3 h4 h5 h6
  | TSL h1 h2 h3 h4 h5 h6 h7 h8 => exact .TSL (hf ▸ h1) h2 h3 h4 h5 (ht ▸ h6) h7 h8

theorem swap_same (d : ConnD K) (hd : Paired d) : SameJoint d.swap (rev d) ∧
    SameJoint (rev d).swap d := by
  obtain ⟨p1, p2, func, x1, x2, y1, y2, tsl⟩ := d
  obtain ⟨h1, h2⟩ := hd
  simp only at h1 h2
  by_cases hf : func = "SB"
  · simp [SameJoint, ConnD.swap, rev, hf]
  · cases x1 <;> cases x2 <;> simp at h1 <;> cases y1 <;> cases y2 <;> simp at h2 <;>
      simp [SameJoint, ConnD.swap, rev, hf]

/-- The two panels have blocks that start at different positions. -/
def Apart (M : Multi K) (d : ConnD K) : Prop :=
  ∀ q1 q2, M.place d.p1 = some q1 → M.place d.p2 = some q2 → q1.col0 ≠ q2.col0

theorem pair_rev {M : Multi K} {prev prev' : Option (ℕ × ℕ)} {d d1 : ConnD K} {p : ℕ × ℕ}
    (hd : Paired d) (ha : Apart M d) (h : pairOf M prev d = .ok (p, d1)) :
    ∃ d2, pairOf M prev' (rev d) = .ok (p, d2) ∧ SameJoint d1 d2 := by
  unfold pairOf at h
  split at h
  · rename_i q1 q2 e1 e2
    have hne := ha q1 q2 e1 e2
    have r1 : M.place (rev d).p1 = some q2 := e2
    have r2 : M.place (rev d).p2 = some q1 := e1
    split at h
    · rename_i hlt
      cases h
      refine ⟨(rev d).swap, ?_, ?_⟩
      · simp only [pairOf, r1, r2, if_neg hlt.not_gt, if_pos hlt, gt_iff_lt]
        rfl
      · obtain ⟨a1, a2, a3⟩ := (swap_same d hd).2
        exact ⟨a1.symm, a2.symm, fun hf => by
          obtain ⟨b1, b2, b3, b4⟩ := a3 (by rw [a1]; exact hf)
          exact ⟨b1.symm, b2.symm, b3.symm, b4.symm⟩⟩
    split at h
    · rename_i hgt
      cases h
      refine ⟨rev d, ?_, (swap_same d hd).1⟩
      simp only [pairOf, r1, r2, if_pos hgt]
      rfl
    · rename_i n1 n2
      exact absurd (le_antisymm (not_lt.1 n2) (not_lt.1 n1)) hne
  · cases h

theorem pair_same {M : Multi K} {prev prev' : Option (ℕ × ℕ)} {d d1 : ConnD K} {p : ℕ × ℕ}
    (ha : Apart M d) (h : pairOf M prev d = .ok (p, d1)) : pairOf M prev' d = .ok (p, d1) := by
  unfold pairOf at h ⊢
  split at h
  · rename_i q1 q2 e1 e2
    have hne := ha q1 q2 e1 e2
    split at h
    · rename_i hlt
      rw [if_pos hlt]; exact h
    split at h
    · rename_i n1 hgt
      rw [if_neg n1, if_pos hgt]; exact h
    · rename_i n1 n2
      exact absurd (le_antisymm (not_lt.1 n2) (not_lt.1 n1)) hne
  · cases h

theorem loop_rev {E : Env K} {M : Multi K} {prev : Option (ℕ × ℕ)} {l l' : List (ConnD K)}
    {Ls : List (Coo K)} (h : LoopOf E M prev l l' Ls) (l2 : List (ConnD K))
    (h2 : List.Forall₂ (fun d e => e = d ∨ e = rev d) l l2)
    (hd : ∀ d ∈ l, Paired d ∧ Apart M d) (prev2 : Option (ℕ × ℕ)) :
    ∃ l2', LoopOf E M prev2 l2 l2' Ls ∧ List.Forall₂ SameJoint l' l2' := by
  induction h generalizing l2 prev2 with
  | nil => cases h2; exact ⟨[], .nil, .nil⟩
  | @cons prev d d' p qA qB L ds ds' Ls hp hA hB hJ hr ih =>
    cases h2 with
    | @cons _ e _ l2 hor ht =>
      obtain ⟨l2', g1, g2⟩ := ih l2 ht (fun d hd' => hd d (List.mem_cons_of_mem _ hd')) (some p)
      obtain ⟨k1, k2⟩ := hd d List.mem_cons_self
      rcases hor with rfl | rfl
      · exact ⟨d' :: l2', .cons (pair_same k2 hp) hA hB hJ g1,
          .cons ⟨rfl, rfl, fun _ => ⟨rfl, rfl, rfl, rfl⟩⟩ g2⟩
      · obtain ⟨d2, e1, e2⟩ := pair_rev (prev' := prev2) k1 k2 hp
        exact ⟨d2 :: l2', .cons e1 hA hB (e2.joint hJ) g1, .cons e2 g2⟩

/-- Naming the panels of any of the joints in the other order changes nothing: the reversed list is
evaluated too, to the same matrix.  Restricted to joints whose panels have different blocks and whose
positions are given for both panels. -/
theorem reversed_partial (E : Env K) (M M' : Multi K) (l l2 l' : List (ConnD K)) (L : Coo K)
    (hM : M.kCconn = none)
    (h : M.getKCconn E (some l) = .ok (L, some l', M'))
    (h2 : List.Forall₂ (fun d e => e = d ∨ e = rev d) l l2)
    (hd : ∀ d ∈ l, Paired d ∧ Apart M d)
    (hs : ∀ p q, M.place p = some q →
      q.col0 + 3 * ((M.shells p).pan.m * (M.shells p).pan.n) ≤ M.getSize ∧
      0 < (M.shells p).pan.m * (M.shells p).pan.n)
    (ht : ∀ d ∈ l, d.func = "SB_TSL" → ∀ p q, M.place p = some q → (M.shells p).plyts ≠ []) :
    ∃ l2' M2, M.getKCconn E (some l2) = .ok (L, some l2', M2) := by
  obtain ⟨l1, Ls, hl', g1, hne, rfl, -⟩ := C40.conn_sum E M M' l _ _ hM h
  cases hl'
  obtain ⟨l2', g2, g3⟩ := loop_rev g1 l2 h2 hd none
  have funcs : ∀ {prev l l' Ls}, LoopOf E M prev l l' Ls → ∀ d' ∈ l', ∃ d ∈ l, d'.func = d.func := by
    intro prev l l' Ls h
    induction h with
    | nil => intro d hd; cases hd
    | @cons prev d d' p qA qB L ds ds' Ls hp hA hB hJ hr ih =>
      intro x hx
      rcases List.mem_cons.1 hx with rfl | hx
      · refine ⟨d, List.mem_cons_self, ?_⟩
        unfold pairOf at hp
        split at hp
        · split at hp
          · cases hp; rfl
          split at hp
          · cases hp; exact C40.swap_func d
          · split at hp <;> cases hp
            rfl
        · cases hp
      · obtain ⟨y, hy, e⟩ := ih x hx
        exact ⟨y, List.mem_cons_of_mem _ hy, e⟩
  have ht' : ∀ d ∈ l2', d.func = "SB_TSL" → ∀ p q, M.place p = some q → (M.shells p).plyts ≠ [] := by
    intro d hdm hf
    obtain ⟨e, he, e1⟩ := funcs g2 d hdm
    have key : ∃ x ∈ l, e.func = x.func := by
      clear g1 g2 g3 h hd ht hne
      induction h2 with
      | nil => cases he
      | @cons a b la lb hor _ ih =>
        rcases List.mem_cons.1 he with rfl | he
        · exact ⟨a, List.mem_cons_self, by rcases hor with rfl | rfl <;> rfl⟩
        · obtain ⟨x, hx, e⟩ := ih he
          exact ⟨x, List.mem_cons_of_mem _ hx, e⟩
    obtain ⟨x, hx, e2⟩ := key
    exact ht x hx (by rw [← e2, ← e1]; exact hf)
  obtain ⟨M2, e2⟩ := connLoop_total g2 M.getSize hs ht' M (Later.refl E M)
  have hne2 : l2 ≠ [] := by
    rintro rfl
    cases h2
    exact hne rfl
  refine ⟨l2', { M2 with kCconn := some (Coo.finalizeSym Ls.flatten) }, ?_⟩
  simp only [Multi.getKCconn, hM, bind, Except.bind, e2, pure, Except.pure]
  cases l2 with
  | nil => exact absurd rfl hne2
  | cons a b => simp [finSum, fin]

/-! ## Concrete cases -/

/-- One shape function, `ξ + 2`, and tables of ones; the laminate is as stiff as it is thick. -/
def env : Env ℚ where
  S := ⟨fun _ x _ => x + 2, fun _ _ _ => 1, fun _ _ _ => 0⟩
  I := ⟨fun _ _ _ _ => 1, fun _ _ _ _ => 1, fun _ _ _ _ => 1, fun _ _ _ _ => 1, fun _ _ _ _ => 1,
    fun _ _ _ _ => 1⟩
  G := ⟨fun _ _ => 0, fun _ _ => 0⟩
  mkLam := fun _ plyts _ rhos _ =>
    .ok ⟨fun i j => if i = j then plyts.sum else 0, plyts.sum, (List.zipWith (· * ·) plyts rhos).sum⟩
  shared := true

/-- Panels with one term. -/
def shells : ℕ → Shell ℚ := fun _ =>
  { C54.shell with pan := { (Witness.panel : Panel ℚ) with m := 1, n := 1 } }

/-- The panels 0 and 1. -/
def two : Multi ℚ := Multi.init shells (fun _ => none) [0, 1] none

/-- The end `x = 3` of panel 0 joined to the end `x = 0` of panel 1. -/
def joint : ConnD ℚ where
  p1 := 0
  p2 := 1
  func := "SSxcte"
  xcte1 := some 3
  xcte2 := some 0
  ycte1 := none
  ycte2 := none
  tsl := none

/-- The other ends. -/
def other : ConnD ℚ := { joint with xcte1 := some 0, xcte2 := some 3 }

/-- The numbers stored by an evaluation, `none` if it fails. -/
def values (r : Except Fail (Coo ℚ × Option (List (ConnD ℚ)) × Multi ℚ)) : Option (List ℚ) :=
  match r with
  | .ok (L, _, _) => some (L.map fun t => t.val)
  | .error _ => none

/-- The list left behind by an evaluation. -/
def leftover (r : Except Fail (Coo ℚ × Option (List (ConnD ℚ)) × Multi ℚ)) : List (ConnD ℚ) :=
  match r with
  | .ok (_, some l, _) => l
  | _ => []

/-- The assembly left behind by an evaluation. -/
def after (r : Except Fail (Coo ℚ × Option (List (ConnD ℚ)) × Multi ℚ)) : Multi ℚ :=
  match r with
  | .ok (_, _, M) => M
  | .error _ => two

/-- Part (a) fails: the matrix of `[other]`, asked for after that of `[joint]`, is not the matrix of
`[other]`. -/
theorem other_list_violated :
    (values (two.getKCconn env (some [joint]))).isSome = true ∧
    (values (two.getKCconn env (some [other]))).isSome = true ∧
    values ((after (two.getKCconn env (some [joint]))).getKCconn env (some [other]))
      ≠ values (two.getKCconn env (some [other])) := by
  refine ⟨?_, ?_, ?_⟩ <;> decide +kernel

/-- Part (b) fails for two assemblies: the second, given the list that the first has used, finds
another matrix. -/
theorem two_assemblies_violated :
    (values (two.getKCconn env (some [rev joint]))).isSome = true ∧
    (values (two.getKCconn env (some (leftover (two.getKCconn env (some [rev joint])))))).isSome = true ∧
    values (two.getKCconn env (some (leftover (two.getKCconn env (some [rev joint])))))
      ≠ values (two.getKCconn env (some [rev joint])) := by
  refine ⟨?_, ?_, ?_⟩ <;> decide +kernel

example : Ordered two [joint] ∧ Paired joint ∧ Apart two joint ∧
    values (two.getKCconn env (some [joint])) = values (two.getKCconn env (some [rev joint])) ∧
    (values (two.getKCconn env (some [joint]))).isSome = true := by
  refine ⟨?_, ⟨rfl, rfl⟩, ?_, by decide +kernel, by decide +kernel⟩
  · intro d hd
    simp only [List.mem_singleton] at hd
    subst hd
    exact ⟨⟨0, 0, 3, 3⟩, ⟨3, 3, 6, 6⟩, by decide, by decide, by decide⟩
  · intro q1 q2 h1 h2
    have e1 : two.place joint.p1 = some ⟨0, 0, 3, 3⟩ := by decide
    have e2 : two.place joint.p2 = some ⟨3, 3, 6, 6⟩ := by decide
    rw [e1] at h1; rw [e2] at h2
    cases h1; cases h2
    decide

end Verif.C45
