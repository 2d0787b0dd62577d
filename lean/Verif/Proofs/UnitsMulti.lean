import Verif.Spec.UnitsMulti
import Verif.Model.MultiPlot
import Verif.Proofs.UnitsConn
import Verif.Proofs.UnitsField

/-!
# The methods of `MultiDomain` in other units
-/

namespace Verif.Model

open Spec

variable {K : Type} [Field K] [LinearOrder K] {U : UnitSys K} {E : Env K}

theorem setShell_units (M : Multi K) (p : ℕ) (s : Shell K) :
    (U.multi M).setShell p (U.shell s) = U.multi (M.setShell p s) := by
  unfold Multi.setShell UnitSys.multi
  congr 1
  funext q
  by_cases h : q = p
  · simp [h]
  · simp [h]

theorem multi_shells (M : Multi K) (p : ℕ) : (U.multi M).shells p = U.shell (M.shells p) := rfl

theorem getSize_units (M : Multi K) : (U.multi M).getSize = M.getSize := rfl

theorem swap_units (d : ConnD K) : (U.connD d).swap = U.connD d.swap := by
  obtain ⟨p1, p2, func, x1, x2, y1, y2, tsl⟩ := d
  unfold ConnD.swap UnitSys.connD
  by_cases h : func = "SB"
  · simp [h]
  · simp only [h, if_false]
    cases x1 <;> cases x2 <;> cases y1 <;> cases y2 <;> rfl

theorem pairOf_units (M : Multi K) (prev : Option (ℕ × ℕ)) (d : ConnD K) :
    pairOf (U.multi M) prev (U.connD d) = (pairOf M prev d).map fun t => (t.1, U.connD t.2) := by
  unfold pairOf
  rw [show (U.multi M).place = M.place from rfl, show (U.connD d).p1 = d.p1 from rfl,
    show (U.connD d).p2 = d.p2 from rfl]
  cases M.place d.p1 with
  | none => rfl
  | some q1 =>
    cases M.place d.p2 with
    | none => rfl
    | some q2 =>
      refine ite_units Iff.rfl rfl (ite_units Iff.rfl ?_ ?_)
      · rw [swap_units]; rfl
      · cases prev <;> rfl

theorem pair_func {M : Multi K} {prev : Option (ℕ × ℕ)} {d : ConnD K} {t : (ℕ × ℕ) × ConnD K}
    (h : pairOf M prev d = .ok t) : t.2.func = d.func := by
  have hs : d.swap.func = d.func := by
    unfold ConnD.swap
    split
    · rfl
    · dsimp only
      split <;> split <;> rfl
  unfold pairOf at h
  split at h
  · split at h
    · cases h; rfl
    · split at h
      · cases h; exact hs
      · split at h <;> cases h; rfl
  · cases h

/-! ## Penalties -/

/-- Factor of the penalty of displacements. -/
def ktUnit (U : UnitSys K) (ct : String) : K := if lower ct = "bot-top" then U.vol else U.area

theorem div_units {A B c k a : K} (hk : k = c * c / (c * a)) (hc : c ≠ 0) (x y : K) :
    4 * (c * A) * (c * B) / ((c * A + c * B) * (a * x + a * y)) = k * (4 * A * B / ((A + B) * (x + y))) := by
  rw [hk, ← mul_add, ← mul_add, show c * (A + B) * (a * (x + y)) = (c * a) * ((A + B) * (x + y)) by ring,
    show 4 * (c * A) * (c * B) = (c * c) * (4 * A * B) by ring, mul_div_mul_comm]

variable [IsStrictOrderedRing K]

theorem calcKtKr_units (hU : 0 < U.len) (s1 s2 : Shell K) (l1 l2 : LamObj K) (ct : String) :
    calcKtKr (penOf (U.shell s1) (U.lamObj l1)) (penOf (U.shell s2) (U.lamObj l2)) ct
      = (calcKtKr (penOf s1 l1) (penOf s2 l2) ct).map fun t => (ktUnit U ct * t.1, t.2.map (U.force * ·)) := by
  have hl := U.len_ne
  have hf := U.force_ne
  have hline : U.line ≠ 0 := div_ne_zero hf hl
  have hA : U.area = U.line * U.line / (U.line * U.len) := by
    unfold UnitSys.area UnitSys.line; field_simp
  have hD : U.force = U.force * U.len * (U.force * U.len) / (U.force * U.len * U.len) := by
    field_simp
  have hfl : U.force * U.len ≠ 0 := mul_ne_zero hf hl
  have hm : ∀ a b : K, min (U.len * a) (U.len * b) = U.len * min a b := fun a b =>
    (mul_min_of_nonneg a b hU.le).symm
  have hv : ∀ x y : K, U.area * x / (U.len * y) = U.vol * (x / y) := by
    intro x y
    rw [mul_div_mul_comm, UnitSys.area, UnitSys.vol, div_div, ← pow_succ]
  have h0 : U.abd l1.ABD 0 0 = U.line * l1.ABD 0 0 := by simp [UnitSys.abd]
  have h1 : U.abd l1.ABD 1 1 = U.line * l1.ABD 1 1 := by simp [UnitSys.abd]
  have h3 : U.abd l1.ABD 3 3 = U.force * U.len * l1.ABD 3 3 := by simp [UnitSys.abd]
  have h4 : U.abd l1.ABD 4 4 = U.force * U.len * l1.ABD 4 4 := by simp [UnitSys.abd]
  have k0 : U.abd l2.ABD 0 0 = U.line * l2.ABD 0 0 := by simp [UnitSys.abd]
  have k1 : U.abd l2.ABD 1 1 = U.line * l2.ABD 1 1 := by simp [UnitSys.abd]
  have k3 : U.abd l2.ABD 3 3 = U.force * U.len * l2.ABD 3 3 := by simp [UnitSys.abd]
  have k4 : U.abd l2.ABD 4 4 = U.force * U.len * l2.ABD 4 4 := by simp [UnitSys.abd]
  simp only [calcKtKr, penOf, UnitSys.lamObj, h0, h1, h3, h4, k0, k1, k3, k4, div_units hA hline,
    div_units hD hfl, show (U.shell s1).pan.a = U.len * s1.pan.a from rfl,
    show (U.shell s1).pan.b = U.len * s1.pan.b from rfl, hm, hv, ktUnit]
  by_cases c1 : lower ct = "xcte"
  · simp [c1]
  · by_cases c2 : lower ct = "ycte"
    · simp [c2]
    · by_cases c3 : lower ct = "bot-top"
      · simp [c3]
      · by_cases c4 : lower ct = "xcte-ycte"
        · simp [c4]
        · by_cases c5 : lower ct = "ycte-xcte"
          · simp [c5]
          · simp [c1, c2, c3, c4, c5]

/-- Penalties and assembly in other units. -/
def penOut (U : UnitSys K) (ct : String) (t : (K × Option K) × Multi K) : (K × Option K) × Multi K :=
  ((ktUnit U ct * t.1.1, t.1.2.map (U.force * ·)), U.multi t.2)

theorem ktkr_units (hE : U.Homog E) (hU : 0 < U.len) (M : Multi K) (A B : ℕ) (ct : String) :
    ktkr E (U.multi M) A B ct = (ktkr E M A B ct).map (penOut U ct) := by
  unfold ktkr
  refine bind_units (rebuild_units hE (M.shells A)) fun sA => ?_
  simp only [setShell_units, multi_shells]
  refine bind_units (rebuild_units hE _) fun sB => ?_
  simp only [setShell_units, multi_shells]
  generalize (M.setShell A sA).setShell B sB = N
  rw [show (U.shell (N.shells A)).lam = (N.shells A).lam.map U.lamObj from rfl,
    show (U.shell (N.shells B)).lam = (N.shells B).lam.map U.lamObj from rfl]
  cases (N.shells A).lam with
  | none => rfl
  | some lA =>
    cases (N.shells B).lam with
    | none => rfl
    | some lB =>
      simp only [Option.map_some, calcKtKr_units hU]
      cases calcKtKr (penOf (N.shells A) lA) (penOf (N.shells B) lB) ct <;> rfl

/-! ## Connections -/

/-- Matrix and assembly in other units. -/
def multiOut (U : UnitSys K) (k : K) (t : Coo K × Multi K) : Coo K × Multi K :=
  (scale k t.1, U.multi t.2)

omit [IsStrictOrderedRing K] in
theorem key_units {α β : Type} (g : α → β) (o : Option α) : key (o.map g) = (key o).map g := by
  cases o <;> rfl

omit [IsStrictOrderedRing K] in
theorem thick_units (s : Shell K) : thick (U.shell s) = (thick s).map (U.len * ·) := by
  unfold thick
  rw [show (U.shell s).plyts = s.plyts.map (U.len * ·) from rfl, sum_units]
  exact ite_units (by simp) rfl rfl

theorem connOne_units (hE : U.Homog E) (hU : 0 < U.len) (M : Multi K) (size A B : ℕ) (d : ConnD K)
    (hd : d.func ≠ "SB_TSL") :
    connOne E (U.multi M) size A B (U.connD d) = (connOne E M size A B d).map (multiOut U U.line) := by
  have hp : ∀ (N : Multi K) (p : ℕ), ((U.multi N).shells p).panel = U.panel (N.shells p).panel := fun N p =>
    panel_units _
  have hx : ktUnit U "xcte" = U.area := by simp [ktUnit, lower]
  have hy : ktUnit U "ycte" = U.area := by simp [ktUnit, lower]
  have hb : ktUnit U "bot-top" = U.vol := by simp [ktUnit, lower]
  unfold connOne
  rw [show (U.multi M).place = M.place from rfl]
  cases M.place A with
  | none => rfl
  | some qA =>
  cases M.place B with
  | none => rfl
  | some qB =>
  refine bind_same (x := Except.ok (qA, qB)) fun q => ?_
  refine ite_units Iff.rfl ?_ (ite_units Iff.rfl ?_ (ite_units Iff.rfl ?_ (ite_units Iff.rfl ?_
    (ite_units Iff.rfl ?_ (ite_units Iff.rfl ?_ ?_)))))
  · refine bind_units (ktkr_units hE hU M A B "ycte") fun t => ?_
    refine bind_units (number_units U.force) fun kr => bind_units (key_units _ _) fun y1 =>
      bind_units (key_units _ _) fun y2 => ?_
    simp only [penOut, hy, hp, connSSycte_units]
    exact bind_units (toSparse_units ..) fun L => rfl
  · refine bind_units (ktkr_units hE hU M A B "xcte") fun t => ?_
    refine bind_units (number_units U.force) fun kr => bind_units (key_units _ _) fun y1 =>
      bind_units (key_units _ _) fun y2 => ?_
    simp only [penOut, hx, hp, connSSxcte_units]
    exact bind_units (toSparse_units ..) fun L => rfl
  · refine bind_units (ktkr_units hE hU M A B "bot-top") fun t => ?_
    refine bind_units (thick_units _) fun tA => bind_units (thick_units _) fun tB => ?_
    simp only [penOut, hb, hp, mul_div_assoc, ← mul_add, connSB_units]
    exact bind_units (toSparse_units ..) fun L => rfl
  · refine bind_units (ktkr_units hE hU M A B "ycte") fun t => ?_
    refine bind_units (number_units U.force) fun kr => bind_units (key_units _ _) fun y1 =>
      bind_units (key_units _ _) fun y2 => ?_
    simp only [penOut, hy, hp, connBFycte_units]
    exact bind_units (toSparse_units ..) fun L => rfl
  · refine bind_units (ktkr_units hE hU M A B "xcte") fun t => ?_
    refine bind_units (number_units U.force) fun kr => bind_units (key_units _ _) fun y1 =>
      bind_units (key_units _ _) fun y2 => ?_
    simp only [penOut, hx, hp, connBFxcte_units]
    exact bind_units (toSparse_units ..) fun L => rfl
  · exact bind_units (ktkr_units hE hU M A B "xcte-ycte") fun t => rfl
  · rw [if_neg hd, if_neg (show ¬(U.connD d).func = "SB_TSL" from hd)]
    rfl

/-- Result of the loop in other units. -/
def loopOut (U : UnitSys K) (t : Coo K × List (ConnD K) × Multi K) : Coo K × List (ConnD K) × Multi K :=
  (scale U.line t.1, t.2.1.map U.connD, U.multi t.2.2)

theorem connLoop_units (hE : U.Homog E) (hU : 0 < U.len) (size : ℕ) (l : List (ConnD K))
    (hl : ∀ d ∈ l, d.func ≠ "SB_TSL") (M : Multi K) (prev : Option (ℕ × ℕ)) :
    connLoop E size (l.map U.connD) (U.multi M) prev
      = (connLoop E size l M prev).map (loopOut U) := by
  induction l generalizing M prev with
  | nil => rfl
  | cons d ds ih =>
    rw [List.map_cons]
    unfold connLoop
    refine bind_units' (pairOf_units M prev d) fun t ht => ?_
    have hd : t.2.func ≠ "SB_TSL" := by rw [pair_func ht]; exact hl d (by simp)
    refine bind_units (connOne_units hE hU M size t.1.1 t.1.2 t.2 hd) fun u => ?_
    refine bind_units (ih (fun d h => hl d (by simp [h])) u.2 (some t.1)) fun w => ?_
    simp only [loopOut, multiOut, ← scale_append]
    rfl

omit [IsStrictOrderedRing K] in
theorem finSum_units {α β : Type} {items : List α} {items' : List β} (h : items'.isEmpty = items.isEmpty)
    (b : Bool) (k : K) (L : Coo K) :
    finSum items' b (scale k L) = (finSum items b L).map (scale k) := by
  unfold finSum
  rw [h, fin_units]
  exact ite_units Iff.rfl rfl rfl

/-- The list of connections that is used. -/
def used (M : Multi K) (conn : Option (List (ConnD K))) : List (ConnD K) := (conn.orElse fun _ => M.conn).getD []

/-- Matrix, list and assembly in other units. -/
def connOut (U : UnitSys K) (t : Coo K × Option (List (ConnD K)) × Multi K) :
    Coo K × Option (List (ConnD K)) × Multi K :=
  (scale U.line t.1, t.2.1.map (List.map U.connD), U.multi t.2.2)

theorem getKCconn_units (hE : U.Homog E) (hU : 0 < U.len) (M : Multi K) (conn : Option (List (ConnD K)))
    (hl : ∀ d ∈ used M conn, d.func ≠ "SB_TSL") (finalize : Bool) :
    (U.multi M).getKCconn E (conn.map (List.map U.connD)) finalize
      = (M.getKCconn E conn finalize).map (connOut U) := by
  unfold Multi.getKCconn
  rw [show (U.multi M).conn = M.conn.map (List.map U.connD) from rfl,
    show (U.multi M).kCconn = M.kCconn.map (scale U.line) from rfl, getSize_units]
  cases conn with
  | some l =>
    cases M.kCconn with
    | some L => rfl
    | none =>
      refine bind_units (connLoop_units hE hU _ l hl M none) fun t => ?_
      exact bind_units (finSum_units (by simp) finalize _ _) fun L => rfl
  | none =>
    have hl' : ∀ d ∈ M.conn.getD [], d.func ≠ "SB_TSL" := hl
    cases hc : M.conn with
    | none => rfl
    | some l =>
      rw [hc] at hl'
      cases M.kCconn with
      | some L => rfl
      | none =>
        refine bind_units (connLoop_units hE hU _ l hl' M none) fun t => ?_
        exact bind_units (finSum_units (by simp) finalize _ _) fun L => rfl

/-! ## Panels -/

omit [IsStrictOrderedRing K] in
theorem panelLoop_units {f f' : Shell K → Place → Except Fail (Coo K × Shell K)} {k : K}
    (hf : ∀ s q, U.Clear s.pan → f' (U.shell s) q = (f s q).map (outUnits U k))
    (hp : ∀ s q t, f s q = .ok t → t.2.pan = s.pan) (l : List ℕ) (M : Multi K)
    (hM : ∀ p, U.Clear (M.shells p).pan) :
    panelLoop f' l (U.multi M) = (panelLoop f l M).map (multiOut U k) := by
  induction l generalizing M with
  | nil => rfl
  | cons p ps ih =>
    unfold panelLoop
    rw [show (U.multi M).place = M.place from rfl]
    cases M.place p with
    | none => rfl
    | some q =>
      refine bind_units' (hf (M.shells p) q (hM p)) fun t ht => ?_
      have hN : ∀ p', U.Clear ((M.setShell p t.2).shells p').pan := by
        intro p'
        unfold Multi.setShell
        by_cases h : p' = p
        · simp only [h, if_true]; rw [hp _ _ _ ht]; exact hM p
        · simp only [h, if_false]; exact hM p'
      simp only [outUnits, setShell_units]
      refine bind_units (ih _ hN) fun u => ?_
      simp only [multiOut, ← scale_append]
      rfl

omit [IsStrictOrderedRing K] in
theorem calcKG_pan {s : Shell K} {A : KArgs K} {t : Coo K × Shell K} (h : s.calcKG E A = .ok t) :
    t.2.pan = s.pan := by
  unfold Shell.calcKG at h
  obtain ⟨s', hs, h⟩ := bind_ok.1 h
  obtain ⟨_, _, h⟩ := bind_ok.1 h
  obtain ⟨_, _, h⟩ := bind_ok.1 h
  dsimp only at h
  split at h
  · obtain ⟨_, _, h⟩ := bind_ok.1 h
    cases h
    exact rebuild_pan (s' := s') hs
  · obtain ⟨_, _, h⟩ := bind_ok.1 h
    obtain ⟨_, _, h⟩ := bind_ok.1 h
    obtain ⟨_, _, h⟩ := bind_ok.1 h
    cases h
    exact rebuild_pan (s' := s') hs

omit [IsStrictOrderedRing K] in
theorem calcKM_pan {s : Shell K} {size : SizeArg} {row0 col0 : ℕ} {h rho : Option (Field2 K)}
    {nx ny : Option ℕ} {b : Bool} {t : Coo K × Shell K}
    (ht : s.calcKM E size row0 col0 h rho nx ny b = .ok t) : t.2.pan = s.pan := by
  unfold Shell.calcKM at ht
  dsimp only at ht
  split at ht
  · obtain ⟨_, h, _⟩ := bind_ok.1 ht
    cases h
  obtain ⟨_, _, ht⟩ := bind_ok.1 ht
  split at ht
  · obtain ⟨_, h, _⟩ := bind_ok.1 ht
    cases h
  obtain ⟨_, _, ht⟩ := bind_ok.1 ht
  split at ht
  · obtain ⟨_, _, ht⟩ := bind_ok.1 ht
    cases ht
    rfl
  · split at ht
    · cases ht
    · obtain ⟨_, _, ht⟩ := bind_ok.1 ht
      obtain ⟨_, _, ht⟩ := bind_ok.1 ht
      cases ht
      rfl

omit [IsStrictOrderedRing K] in
theorem panelLoop_conn {f : Shell K → Place → Except Fail (Coo K × Shell K)} (l : List ℕ) (M : Multi K)
    {t : Coo K × Multi K} (h : panelLoop f l M = .ok t) : t.2.conn = M.conn := by
  induction l generalizing M t with
  | nil => cases h; rfl
  | cons p ps ih =>
    unfold panelLoop at h
    split at h
    · cases h
    · obtain ⟨u, _, h⟩ := bind_ok.1 h
      obtain ⟨w, hw, h⟩ := bind_ok.1 h
      cases h
      exact (ih _ hw).trans rfl

omit [IsStrictOrderedRing K] in
theorem panelLoop_panels {f : Shell K → Place → Except Fail (Coo K × Shell K)} (l : List ℕ) (M : Multi K)
    {t : Coo K × Multi K} (h : panelLoop f l M = .ok t) : t.2.panels = M.panels := by
  induction l generalizing M t with
  | nil => cases h; rfl
  | cons p ps ih =>
    unfold panelLoop at h
    split at h
    · cases h
    · obtain ⟨u, _, h⟩ := bind_ok.1 h
      obtain ⟨w, hw, h⟩ := bind_ok.1 h
      cases h
      exact (ih _ hw).trans rfl

omit [IsStrictOrderedRing K] in
theorem used_congr {M N : Multi K} (h : N.conn = M.conn) (conn : Option (List (ConnD K))) :
    used N conn = used M conn := by
  unfold used; rw [h]

theorem multi_calcKC_units (hE : U.Homog E) (hU : 0 < U.len) (M : Multi K)
    (hM : ∀ p, U.Clear (M.shells p).pan) (conn : Option (List (ConnD K)))
    (hl : ∀ d ∈ used M conn, d.func ≠ "SB_TSL") (c : Option (CArg K)) (finalize : Bool) :
    (U.multi M).calcKC E (conn.map (List.map U.connD)) (c.map U.amps) finalize
      = (M.calcKC E conn c finalize).map (multiOut U U.line) := by
  unfold Multi.calcKC
  simp only [checkOpt_units, getSize_units]
  refine bind_same fun _ => ?_
  refine bind_units' (panelLoop_units (fun s q hP => calcKC_units hE hP
    { c := c, row0 := q.row0, col0 := q.col0, size := .num M.getSize, finalize := false }) (fun s q t h => calcKC_pan h)
    M.panels M hM) fun t ht => ?_
  have hc : used t.2 conn = used M conn := used_congr (panelLoop_conn _ _ ht) _
  refine bind_units (finSum_units rfl finalize _ _) fun L => ?_
  refine bind_units (getKCconn_units hE hU t.2 conn (by rw [hc]; exact hl) true) fun u => ?_
  simp only [connOut, ← scale_append]
  rfl

omit [IsStrictOrderedRing K] in
theorem multi_calcKG_units (hE : U.Homog E) (M : Multi K) (hM : ∀ p, U.Clear (M.shells p).pan)
    (c : Option (CArg K)) (finalize : Bool) :
    (U.multi M).calcKG E (c.map U.amps) finalize
      = (M.calcKG E c finalize).map (multiOut U U.line) := by
  unfold Multi.calcKG
  simp only [checkOpt_units, getSize_units]
  refine bind_same fun _ => ?_
  refine bind_units (panelLoop_units (fun s q hP => calcKG_units hE hP
    { c := c, row0 := q.row0, col0 := q.col0, size := .num M.getSize, finalize := false }) (fun s q t h => calcKG_pan h)
    M.panels M hM) fun t => ?_
  exact bind_units (finSum_units rfl finalize _ _) fun L => rfl

omit [IsStrictOrderedRing K] in
theorem multi_calcKM_units (M : Multi K) (hM : ∀ p, U.Clear (M.shells p).pan) (finalize : Bool) :
    (U.multi M).calcKM E finalize = (M.calcKM E finalize).map (multiOut U U.mass) := by
  unfold Multi.calcKM
  simp only [getSize_units]
  refine bind_units (panelLoop_units (fun s q hP => calcKM_units hP _ _ _ none none none none false)
    (fun s q t h => calcKM_pan h) M.panels M hM) fun t => ?_
  exact bind_units (finSum_units rfl finalize _ _) fun L => rfl

theorem multi_calcKT_units (hE : U.Homog E) (hU : 0 < U.len) (M : Multi K)
    (hM : ∀ p, U.Clear (M.shells p).pan) (hl : ∀ d ∈ used M none, d.func ≠ "SB_TSL")
    (c : Option (CArg K)) (finalize : Bool) :
    (U.multi M).calcKT E (c.map U.amps) finalize
      = (M.calcKT E c finalize).map (multiOut U U.line) := by
  unfold Multi.calcKT
  simp only [getSize_units]
  refine bind_units' (panelLoop_units (k := U.line) (fun s q hP => ?_) (fun s q t h => ?_) M.panels M hM) fun t ht => ?_
  · refine bind_same fun _ => ?_
    let A : KArgs K :=
      { c := c, row0 := q.row0, col0 := q.col0, size := .num M.getSize, finalize := false, NLgeom := true }
    refine bind_units' (calcKC_units hE hP A) fun t ht => ?_
    refine bind_units (calcKG_units hE (s := t.2) (by rw [calcKC_pan ht]; exact hP) A) fun u => ?_
    simp only [outUnits, ← scale_append]
    rfl
  · obtain ⟨_, _, h⟩ := bind_ok.1 h
    obtain ⟨u, hu, h⟩ := bind_ok.1 h
    obtain ⟨w, hw, h⟩ := bind_ok.1 h
    cases h
    exact (calcKG_pan hw).trans (calcKC_pan hu)
  · have hc : used t.2 none = used M none := used_congr (panelLoop_conn _ _ ht) _
    refine bind_units (finSum_units rfl finalize _ _) fun L => ?_
    refine bind_units (getKCconn_units hE hU t.2 none (by rw [hc]; exact hl) true) fun u => ?_
    simp only [connOut, ← scale_append]
    rfl

/-! ## Forces -/

omit [IsStrictOrderedRing K] in
theorem fextLoop_units (hE : U.Homog E) (loads : ℕ → Loads K) (inc : K) (size : ℕ) (l : List ℕ)
    (f : ℕ → K) (M : Multi K) :
    fextLoop E (fun p => U.loads (loads p)) inc size l (fun k => U.force * f k) (U.multi M)
      = (fextLoop E loads inc size l f M).map fun t => (fun k => U.force * t.1 k, U.multi t.2) := by
  induction l generalizing f M with
  | nil => rfl
  | cons p ps ih =>
    unfold fextLoop
    rw [show (U.multi M).place = M.place from rfl]
    cases M.place p with
    | none => rfl
    | some q =>
      refine bind_units (rebuild_units hE (M.shells p)) fun s => ?_
      rw [panel_units, shellFext_units, lift_map]
      refine bind_units rfl fun g => ?_
      rw [setShell_units, ← ih]
      simp only [mul_add]

omit [IsStrictOrderedRing K] in
theorem calcFint_pan {s : Shell K} {c : CArg K} {size : SizeArg} {col0 : ℕ} {nx ny : Option ℕ}
    {abd : Option (LamInput K)} {t : VecW K × Shell K}
    (h : s.calcFint E c size col0 nx ny abd = .ok t) : t.2.pan = s.pan := by
  unfold Shell.calcFint at h
  dsimp only at h
  split at h
  · obtain ⟨_, h', _⟩ := bind_ok.1 h
    cases h'
  obtain ⟨_, _, h⟩ := bind_ok.1 h
  obtain ⟨_, _, h⟩ := bind_ok.1 h
  obtain ⟨_, _, h⟩ := bind_ok.1 h
  split at h
  · cases h; rfl
  · cases h

omit [IsStrictOrderedRing K] in
theorem fintLoop_units (c : CArg K) (size : ℕ) (l : List ℕ) (M : Multi K)
    (hM : ∀ p, U.Clear (M.shells p).pan) :
    fintLoop E (U.amps c) size l (U.multi M)
      = (fintLoop E c size l M).map fun t => (U.forces t.1, U.multi t.2) := by
  induction l generalizing M with
  | nil => rfl
  | cons p ps ih =>
    unfold fintLoop
    rw [show (U.multi M).place = M.place from rfl]
    cases M.place p with
    | none => rfl
    | some q =>
      refine bind_units' (calcFint_units (hM p) c _ _ none none none) fun t ht => ?_
      have hN : ∀ p', U.Clear ((M.setShell p t.2).shells p').pan := by
        intro p'
        unfold Multi.setShell
        by_cases h : p' = p
        · simp only [h, if_true]; rw [calcFint_pan ht]; exact hM p
        · simp only [h, if_false]; exact hM p'
      simp only [fintOut, setShell_units]
      refine bind_units (ih _ hN) fun u => ?_
      simp only [UnitSys.forces, ← List.map_append]
      rfl

omit [IsStrictOrderedRing K] in
theorem fintLoop_conn (c : CArg K) (size : ℕ) (l : List ℕ) (M : Multi K) {t : VecW K × Multi K}
    (h : fintLoop E c size l M = .ok t) : t.2.conn = M.conn := by
  induction l generalizing M t with
  | nil => cases h; rfl
  | cons p ps ih =>
    unfold fintLoop at h
    split at h
    · cases h
    · obtain ⟨u, _, h⟩ := bind_ok.1 h
      obtain ⟨w, hw, h⟩ := bind_ok.1 h
      cases h
      exact (ih _ hw).trans rfl

omit [IsStrictOrderedRing K] in
theorem mulVec_units (L : Coo K) (size : ℕ) (c : CArg K) :
    Coo.mulVec (scale U.line L) size (U.amps c) = (Coo.mulVec L size c).map U.forces := by
  cases c with
  | vec n f =>
    refine ite_units Iff.rfl rfl (congrArg Except.ok ?_)
    simp only [scale, UnitSys.forces, List.map_map]
    refine List.map_congr_left fun t _ => Prod.ext rfl ?_
    have := U.len_ne
    simp only [Function.comp, UnitSys.line]
    field_simp
  | otherDim => rfl
  | notArray => rfl

theorem multi_calcFint_units (hE : U.Homog E) (hU : 0 < U.len) (M : Multi K)
    (hM : ∀ p, U.Clear (M.shells p).pan) (hl : ∀ d ∈ used M none, d.func ≠ "SB_TSL") (c : CArg K) :
    (U.multi M).calcFint E (U.amps c)
      = (M.calcFint E c).map fun t => (U.forces t.1, U.multi t.2) := by
  unfold Multi.calcFint
  simp only [getSize_units]
  refine bind_units' (fintLoop_units c _ M.panels M hM) fun t ht => ?_
  have hc : used t.2 none = used M none := used_congr (fintLoop_conn _ _ _ _ ht) _
  refine bind_units (getKCconn_units hE hU t.2 none (by rw [hc]; exact hl) true) fun u => ?_
  refine bind_units (mulVec_units _ _ c) fun g => ?_
  simp only [UnitSys.forces, ← List.map_append]
  rfl

/-! ## Fields -/

omit [IsStrictOrderedRing K] in
theorem slice_units (M : Multi K) (p : ℕ) (c : ℕ → K) :
    (U.multi M).slice p (fun i => U.len * c i) = fun i => U.len * M.slice p c i := by
  unfold Multi.slice
  rw [show (U.multi M).place = M.place from rfl]
  cases M.place p <;> rfl

omit [IsStrictOrderedRing K] in
theorem meshX_units (x y : List K) :
    meshX (x.map (U.len * ·)) (y.map (U.len * ·)) = (meshX x y).map (U.len * ·) := by
  simp only [meshX, List.flatMap_map, List.map_flatMap]

omit [IsStrictOrderedRing K] in
theorem meshY_units (x y : List K) :
    meshY (x.map (U.len * ·)) (y.map (U.len * ·)) = (meshY x y).map (U.len * ·) := by
  simp only [meshY, List.flatMap_map, List.map_flatMap, List.map_map]
  rfl

omit [IsStrictOrderedRing K] in
theorem getD_map_units {α β : Type} (g : α → β) (o : Option α) (d : α) :
    (o.map g).getD (g d) = g (o.getD d) := by cases o <;> rfl

omit [IsStrictOrderedRing K] in
theorem gaussLoop_units {α β : Type} (M : Multi K) (groupOf : ℕ → String) (group : String)
    {f : ℕ → List K → List K → Except Fail α} {f' : ℕ → List K → List K → Except Fail β} {g : α → β}
    (hf : ∀ p x y, f' p (x.map (U.len * ·)) (y.map (U.len * ·)) = (f p x y).map g)
    (l : List ℕ) (xg yg : Option (List K)) :
    gaussLoop (U.multi M) groupOf group f' l (xg.map (List.map (U.len * ·)))
        (yg.map (List.map (U.len * ·)))
      = (gaussLoop M groupOf group f l xg yg).map (List.map (U.sampled g)) := by
  induction l generalizing xg yg with
  | nil => rfl
  | cons p ps ih =>
    unfold gaussLoop
    refine ite_units Iff.rfl (ih _ _) ?_
    rw [show ((U.multi M).shells p).model = (M.shells p).model from rfl]
    cases (M.shells p).model.bind kindOf with
    | none => rfl
    | some k =>
      dsimp only
      simp only [isNone_map]
      refine ite_units Iff.rfl rfl ?_
      rw [show ((U.multi M).shells p).pan.a = U.len * (M.shells p).pan.a from rfl,
        show ((U.multi M).shells p).pan.b = U.len * (M.shells p).pan.b from rfl]
      simp only [linspace_units, getD_map_units, meshX_units, meshY_units]
      refine bind_units (hf _ _ _) fun v => ?_
      exact bind_units (ih (some _) (some _)) fun rest => rfl

omit [IsStrictOrderedRing K] in
theorem strainOf_units (S : Shape K) (M : Multi K) (c : ℕ → K) (cores NL p : ℕ) (x y : List K) :
    strainOf S (U.multi M) (fun i => U.len * c i) cores NL p (x.map (U.len * ·)) (y.map (U.len * ·))
      = (strainOf S M c cores NL p x y).map (List.map U.strain) := by
  unfold strainOf
  rw [show ((U.multi M).shells p).r = (M.shells p).r.map (U.len * ·) from rfl]
  cases (M.shells p).r with
  | none => rfl
  | some r =>
    refine congrArg Except.ok ?_
    rw [multi_shells, panel_units, slice_units, fstrain_units]

omit [IsStrictOrderedRing K] in
theorem stressOf_units (S : Shape K) (M : Multi K) (c : ℕ → K) (cores NL p : ℕ) (x y : List K) :
    stressOf S (U.multi M) (fun i => U.len * c i) cores NL p (x.map (U.len * ·)) (y.map (U.len * ·))
      = (stressOf S M c cores NL p x y).map (List.map U.stress) := by
  unfold stressOf
  refine bind_units (strainOf_units ..) fun e => ?_
  rw [show ((U.multi M).shells p).ABD = (M.shells p).ABD.map U.abd from rfl]
  cases (M.shells p).ABD with
  | none => rfl
  | some F =>
    refine congrArg Except.ok ?_
    simp only [List.map_map]
    exact List.map_congr_left fun e _ => funext fun s => stressRow_units F e s

omit [IsStrictOrderedRing K] in
theorem uvwGauss_units (S : Shape K) (M : Multi K) (groupOf : ℕ → String) (c : ℕ → K) (group : String)
    (xg yg : Option (List K)) (cores : ℕ) :
    (U.multi M).uvwGauss S groupOf (fun i => U.len * c i) group (xg.map (List.map (U.len * ·)))
        (yg.map (List.map (U.len * ·))) cores
      = (M.uvwGauss S groupOf c group xg yg cores).map (List.map (U.sampled (List.map U.uvw))) := by
  refine gaussLoop_units M groupOf group (fun p x y => ?_) _ _ _
  refine congrArg Except.ok ?_
  rw [multi_shells, panel_units, slice_units, fuvw_units]

omit [IsStrictOrderedRing K] in
theorem strainGauss_units (S : Shape K) (M : Multi K) (groupOf : ℕ → String) (c : ℕ → K) (group : String)
    (xg yg : Option (List K)) (cores : ℕ) (NL : Bool) :
    (U.multi M).strainGauss S groupOf (fun i => U.len * c i) group (xg.map (List.map (U.len * ·)))
        (yg.map (List.map (U.len * ·))) cores NL
      = (M.strainGauss S groupOf c group xg yg cores NL).map
          (List.map (U.sampled (List.map U.strain))) :=
  gaussLoop_units M groupOf group (fun _ _ _ => strainOf_units ..) _ _ _

omit [IsStrictOrderedRing K] in
theorem stressGauss_units (S : Shape K) (M : Multi K) (groupOf : ℕ → String) (c : ℕ → K) (group : String)
    (xg yg : Option (List K)) (cores : ℕ) (NL : Bool) :
    (U.multi M).stressGauss S groupOf (fun i => U.len * c i) group (xg.map (List.map (U.len * ·)))
        (yg.map (List.map (U.len * ·))) cores NL
      = (M.stressGauss S groupOf c group xg yg cores NL).map
          (List.map (U.sampled (List.map U.stress))) :=
  gaussLoop_units M groupOf group (fun _ _ _ => stressOf_units ..) _ _ _

omit [IsStrictOrderedRing K] in
theorem gridLoop_units {α β : Type} (M : Multi K) (groupOf : ℕ → String) (group : String)
    {f : ℕ → List K → List K → Except Fail α} {f' : ℕ → List K → List K → Except Fail β} {g : α → β}
    (hf : ∀ p x y, f' p (x.map (U.len * ·)) (y.map (U.len * ·)) = (f p x y).map g)
    (gridx gridy : ℕ) (l : List ℕ) :
    gridLoop (U.multi M) groupOf group f' gridx gridy l
      = (gridLoop M groupOf group f gridx gridy l).map (List.map (U.sampled g)) := by
  induction l with
  | nil => rfl
  | cons p ps ih =>
    unfold gridLoop
    refine ite_units Iff.rfl ih ?_
    rw [show ((U.multi M).shells p).model = (M.shells p).model from rfl]
    cases (M.shells p).model.bind kindOf with
    | none => rfl
    | some k =>
      dsimp only
      rw [show ((U.multi M).shells p).pan.a = U.len * (M.shells p).pan.a from rfl,
        show ((U.multi M).shells p).pan.b = U.len * (M.shells p).pan.b from rfl]
      simp only [linspace_units, meshX_units, meshY_units]
      refine bind_units (hf _ _ _) fun v => ?_
      exact bind_units ih fun rest => rfl

omit [IsStrictOrderedRing K] in
theorem multi_uvw_units (S : Shape K) (M : Multi K) (groupOf : ℕ → String) (c : ℕ → K) (group : String)
    (gridx gridy cores : ℕ) :
    (U.multi M).uvw S groupOf (fun i => U.len * c i) group gridx gridy cores
      = (M.uvw S groupOf c group gridx gridy cores).map (List.map (U.sampled (List.map U.uvw))) := by
  refine gridLoop_units M groupOf group (fun p x y => ?_) _ _ _
  refine congrArg Except.ok ?_
  rw [multi_shells, panel_units, slice_units, fuvw_units]

omit [IsStrictOrderedRing K] in
theorem multi_strain_units (S : Shape K) (M : Multi K) (groupOf : ℕ → String) (c : ℕ → K)
    (group : String) (gridx gridy cores : ℕ) (NL : Bool) :
    (U.multi M).strain S groupOf (fun i => U.len * c i) group gridx gridy cores NL
      = (M.strain S groupOf c group gridx gridy cores NL).map
          (List.map (U.sampled (List.map U.strain))) :=
  gridLoop_units M groupOf group (fun _ _ _ => strainOf_units ..) _ _ _

omit [IsStrictOrderedRing K] in
theorem multi_stress_units (S : Shape K) (M : Multi K) (groupOf : ℕ → String) (c : ℕ → K)
    (group : String) (gridx gridy cores : ℕ) (NL : Bool) :
    (U.multi M).stress S groupOf (fun i => U.len * c i) group gridx gridy cores NL
      = (M.stress S groupOf c group gridx gridy cores NL).map
          (List.map (U.sampled (List.map U.stress))) :=
  gridLoop_units M groupOf group (fun _ _ _ => stressOf_units ..) _ _ _

end Verif.Model
