import Verif.Proofs.UnitsBuild
import Verif.Spec.UnitsShell
import Verif.Model.Aero
import Verif.Basic.Exc

/-!
# The methods of `Shell` in other units
-/

namespace Verif

theorem bind_units {ε α β γ δ : Type} {x : Except ε α} {x' : Except ε γ} {f : α → Except ε β}
    {f' : γ → Except ε δ} {g : α → γ} {h : β → δ} (hx : x' = x.map g)
    (hf : ∀ a, f' (g a) = (f a).map h) : (x' >>= f') = (x >>= f).map h := by
  subst hx
  cases x with
  | error e => rfl
  | ok a => exact hf a

theorem bind_same {ε α β δ : Type} {x : Except ε α} {f : α → Except ε β}
    {f' : α → Except ε δ} {h : β → δ} (hf : ∀ a, f' a = (f a).map h) :
    (x >>= f') = (x >>= f).map h := by
  cases x with
  | error e => rfl
  | ok a => exact hf a

theorem ite_units {ε α β : Type} {p p' : Prop} [Decidable p] [Decidable p'] {x y : Except ε α}
    {x' y' : Except ε β} {g : α → β} (h : p' ↔ p) (hx : x' = x.map g) (hy : y' = y.map g) :
    (if p' then x' else y') = (if p then x else y).map g := by
  by_cases hp : p
  · rw [if_pos hp, if_pos (h.2 hp), hx]
  · rw [if_neg hp, if_neg fun h' => hp (h.1 h'), hy]

namespace Model

open Spec

variable {K : Type} [Field K]

section
variable [DecidableEq K] {U : UnitSys K} {E : Env K} {s : Shell K}

theorem line_ne : U.line ≠ 0 := div_ne_zero U.force_ne U.len_ne

theorem line_mul_ne (x : K) : U.line * x ≠ 0 ↔ x ≠ 0 := by
  simp [line_ne]

theorem toSparse_units (c : K) (size : ℕ) (L : Coo K) :
    toSparse size (scale c L) = (toSparse size L).map (scale c) := by
  unfold toSparse scale
  rw [List.all_map]
  change (if (L.all fun t => decide (t.row < size) && decide (t.col < size)) = true then _ else _) = _
  split <;> rfl

theorem fin_units (c : K) (b : Bool) (L : Coo K) : fin b (scale c L) = scale c (fin b L) := by
  unfold fin
  split
  · exact scale_finalizeSym c L
  · rfl

theorem putZero_units (F : ℕ → ℕ → K) (p : ℕ × ℕ) : putZero (U.abd F) p = U.abd (putZero F p) := by
  funext i j
  unfold putZero UnitSys.abd
  by_cases h : (i, j) = p
  · simp [h]
  · simp [h]

theorem lamABD_units (b : Bool) (F : ℕ → ℕ → K) : lamABD b (U.abd F) = U.abd (lamABD b F) := by
  unfold lamABD
  split
  · generalize orthoWrites = ws
    induction ws generalizing F with
    | nil => rfl
    | cons p ws ih => rw [List.foldl_cons, List.foldl_cons, putZero_units, ih]
  · rfl

theorem orFill_units {α β : Type} (g : α → β) (l : List α) (x : α) (stack : List K) :
    orFill (l.map g) (g x) stack = (orFill l x stack).map g := by
  unfold orFill
  rw [List.isEmpty_map]
  split
  · rw [List.map_map]; rfl
  · rfl

theorem lamina_isEmpty (l : List K) : (U.lamina l).isEmpty = l.isEmpty := by
  cases l <;> simp [UnitSys.lamina]

theorem rebuild_units (hE : U.Homog E) (s : Shell K) :
    (U.shell s).rebuild E = (s.rebuild E).map U.shell := by
  have h1 : defaultModel (U.shell s).r = defaultModel s.r := by
    show defaultModel (s.r.map (U.len * ·)) = _
    cases s.r <;> rfl
  have h2 : (U.shell s).laminaprops.isEmpty = s.laminaprops.isEmpty := List.isEmpty_map
  have h3 : (U.shell s).laminaprop.isEmpty = s.laminaprop.isEmpty := lamina_isEmpty _
  have h4 : (U.shell s).plyts.isEmpty = s.plyts.isEmpty := List.isEmpty_map
  have h5 : (U.shell s).plyt.isNone = s.plyt.isNone := by
    show (s.plyt.map _).isNone = _
    cases s.plyt <;> rfl
  have h6 : orFill (U.shell s).laminaprops (U.shell s).laminaprop (U.shell s).stack
      = (orFill s.laminaprops s.laminaprop s.stack).map U.lamina := orFill_units ..
  have h7 : orFill (U.shell s).rhos (U.shell s).rho (U.shell s).stack
      = (orFill s.rhos s.rho s.stack).map (U.rho * ·) := orFill_units (U.rho * ·) ..
  have h8 : orFill (U.shell s).plyts ((U.shell s).plyt.getD 0) (U.shell s).stack
      = (orFill s.plyts (s.plyt.getD 0) s.stack).map (U.len * ·) := by
    have : (U.shell s).plyt.getD 0 = U.len * s.plyt.getD 0 := by
      show (s.plyt.map _).getD 0 = _
      cases s.plyt <;> simp
    rw [this]
    exact orFill_units (U.len * ·) ..
  unfold Shell.rebuild
  simp only [h1, h2, h3, h4, h5, h6, h7, h8]
  rw [show (U.shell s).model = s.model from rfl, show (U.shell s).stack = s.stack from rfl,
    show (U.shell s).offset = U.len * s.offset from rfl, hE]
  split
  · rfl
  split
  · rfl
  split
  · rfl
  split
  · rfl
  cases E.mkLam s.stack (orFill s.plyts (s.plyt.getD 0) s.stack) (orFill s.laminaprops s.laminaprop s.stack)
    (orFill s.rhos s.rho s.stack) s.offset with
  | error e => rfl
  | ok lam =>
    simp only [Except.map]
    refine congrArg _ ?_
    simp only [UnitSys.shell, UnitSys.lamObj, Option.map_some, lamABD_units]
    rfl

theorem panel_units (s : Shell K) : (U.shell s).panel = U.panel s.panel := by
  unfold Shell.panel UnitSys.shell UnitSys.panel
  cases s.r <;> simp

theorem fixR_units (s : Shell K) : (U.shell s).fixR = U.shell s.fixR := by
  unfold Shell.fixR UnitSys.shell
  cases s.r <;> simp

theorem fixR_panel (s : Shell K) : s.fixR.panel = s.panel := rfl

theorem checkOpt_units (c : Option (CArg K)) (size : ℕ) :
    checkOpt (c.map U.amps) size = checkOpt c size := by
  cases c with
  | none => rfl
  | some c => cases c <;> rfl

theorem readable_units (c : CArg K) (col0 : ℕ) (P : Panel K) :
    readable (U.amps c) col0 (U.panel P) = (readable c col0 P).map fun f i => U.len * f i := by
  cases c with
  | vec n f =>
    simp only [readable, UnitSys.amps]
    rw [show (U.panel P).m = P.m from rfl, show (U.panel P).n = P.n from rfl]
    split <;> rfl
  | otherDim => rfl
  | notArray => rfl

theorem built_units (s : Shell K) :
    (U.shell s).built = s.built.map fun t => (t.1, U.lamObj t.2.1, U.abd t.2.2) := by
  unfold Shell.built
  rw [show (U.shell s).model = s.model from rfl, show (U.shell s).lam = s.lam.map U.lamObj from rfl,
    show (U.shell s).ABD = s.ABD.map U.abd from rfl]
  cases s.model.bind kindOf <;> cases s.lam <;> cases s.ABD <;> rfl

theorem lamAt_units (nx ny : ℕ) (inp : LamInput K) :
    lamAt nx ny (U.lamIn inp) = (lamAt nx ny inp).map fun F p q => U.abd (F p q) := by
  cases inp with
  | one F => rfl
  | field sx sy F =>
    simp only [lamAt, UnitSys.lamIn]
    split <;> rfl
  | other => rfl

theorem lift_map {α β : Type} (x : Except Err α) (g : α → β) : lift (x.map g) = (lift x).map g := by
  cases x <;> rfl

theorem map_map {ε α β γ : Type} (x : Except ε α) (g : α → β) (h : β → γ) :
    (x.map g).map h = x.map fun a => h (g a) := by cases x <;> rfl

theorem fk0_units (k : Kind) (P : Panel K) (F : ℕ → ℕ → K) (row0 col0 : ℕ) :
    fk0 E k (U.panel P) (U.abd F) row0 col0 = scale U.line (fk0 E k P F row0 col0) := by
  cases k with
  | plate => exact plateFk0_units ..
  | cyl => exact cylFk0_units ..

theorem fkG0_units (k : Kind) (P : Panel K) (Nxx Nyy Nxy : K) (row0 col0 : ℕ) :
    fkG0 E k (U.panel P) (U.line * Nxx) (U.line * Nyy) (U.line * Nxy) row0 col0
      = scale U.line (fkG0 E k P Nxx Nyy Nxy row0 col0) := by
  cases k with
  | plate => exact plateFkG0_units ..
  | cyl => exact cylFkG0_units ..

theorem fkCnum_units {P : Panel K} (hP : U.Clear P) (k : Kind) (F : LamInput K) (cs : ℕ → K)
    (row0 col0 nx ny NL : ℕ) :
    fkCnum E k (U.panel P) (U.lamIn F) (fun i => U.len * cs i) row0 col0 nx ny NL
      = (fkCnum E k P F cs row0 col0 nx ny NL).map (scale U.line) := by
  cases k with
  | plate =>
    simp only [fkCnum, plateFkCnum, lamAt_units, map_map, plateFkCnumF_units E.S E.G hP]
  | cyl =>
    simp only [fkCnum, cylFkCnum, lamAt_units, map_map, cylFkCnumF_units E.S E.G hP]

theorem fkGnum_units {P : Panel K} (hP : U.Clear P) (k : Kind) (F : LamInput K) (cs : ℕ → K)
    (row0 col0 nx ny NL : ℕ) (Nxx Nyy Nxy : K) :
    fkGnum E k (U.panel P) (U.lamIn F) (fun i => U.len * cs i) row0 col0 nx ny NL
      (U.line * Nxx) (U.line * Nyy) (U.line * Nxy)
      = (fkGnum E k P F cs row0 col0 nx ny NL Nxx Nyy Nxy).map (scale U.line) := by
  cases k with
  | plate =>
    simp only [fkGnum, plateFkGnum, lamAt_units, map_map, plateFkGnumF_units E.S E.G hP]
  | cyl =>
    simp only [fkGnum, cylFkGnum, lamAt_units, map_map, cylFkGnumF_units E.S E.G hP]

theorem getD_units (abd : Option (LamInput K)) (F : ℕ → ℕ → K) :
    (abd.map U.lamIn).getD (.one (U.abd F)) = U.lamIn (abd.getD (.one F)) := by
  cases abd <;> rfl

theorem vecC_units (c : Option (CArg K)) (abd : Option (LamInput K)) (size : ℕ) :
    vecC (c.map U.amps) (abd.map U.lamIn) size = U.amps (vecC c abd size) := by
  cases c <;> cases abd <;> simp [vecC, UnitSys.amps]

theorem isSome_map {α β : Type} (o : Option α) (f : α → β) : (o.map f).isSome = o.isSome := by
  cases o <;> rfl

theorem isNone_map {α β : Type} (o : Option α) (f : α → β) : (o.map f).isNone = o.isNone := by
  cases o <;> rfl

theorem clear_panel (hP : U.Clear s.pan) : U.Clear s.panel := hP

theorem kCpart_units (hP : U.Clear s.pan) (size : ℕ) (A : KArgs K) :
    (U.shell s).kCpart E size (U.kargs A) = (s.kCpart E size A).map (scale U.line) := by
  obtain ⟨sz, row0, col0, finalize, c, cCte, nx, ny, abd, NL⟩ := A
  unfold Shell.kCpart
  refine bind_units (built_units s) fun t => ?_
  simp only [UnitSys.kargs, isSome_map, panel_units]
  have h2 : ∀ (cs : ℕ → K) (NL : ℕ), (do
      let L ← lift (fkCnum E t.1 (U.panel s.panel) ((abd.map U.lamIn).getD (.one (U.abd t.2.2)))
        (fun i => U.len * cs i) row0 col0 (nx.getD (U.shell s).nx) (ny.getD (U.shell s).ny) NL)
      toSparse size L) = Except.map (scale U.line) (do
      let L ← lift (fkCnum E t.1 s.panel (abd.getD (.one t.2.2)) cs row0 col0 (nx.getD s.nx)
        (ny.getD s.ny) NL)
      toSparse size L) := fun cs NL => by
    refine bind_units (g := scale U.line) ?_ fun L => toSparse_units _ size L
    rw [getD_units, fkCnum_units (clear_panel hP), lift_map]
    rfl
  cases NL with
  | false =>
    by_cases hb : (c.isSome || abd.isSome || false) = true
    · rw [if_pos hb, if_pos hb]
      have h0 : (fun _ : ℕ => (0 : K)) = fun i => U.len * (fun _ : ℕ => (0 : K)) i := by simp
      have := h2 (fun _ => 0) 0
      rw [← h0] at this
      exact this
    · rw [if_neg hb, if_neg hb, show (U.lamObj t.2.1).ABD = U.abd t.2.1.ABD from rfl, fk0_units]
      exact toSparse_units ..
  | true =>
    have hb : (c.isSome || abd.isSome || true) = true := by simp
    rw [if_pos hb, if_pos hb]
    have h3 : readable (vecC (c.map U.amps) (abd.map U.lamIn) size) col0 (U.panel s.panel)
        = (readable (vecC c abd size) col0 s.panel).map fun f i => U.len * f i := by
      rw [vecC_units, readable_units]
    exact bind_units h3 fun cs => h2 cs 1

theorem anyCte_units : (U.shell s).anyCte = s.anyCte := by
  unfold Shell.anyCte
  simp only [UnitSys.shell, line_mul_ne]

theorem kGcte_units (hP : U.Clear s.pan) (size : ℕ) (A : KArgs K) :
    (U.shell s).kGcte E size (U.kargs A) = (s.kGcte E size A).map (scale U.line) := by
  unfold Shell.kGcte
  simp only [UnitSys.kargs, isSome_map, isNone_map, panel_units, anyCte_units, checkOpt_units]
  split
  · refine bind_same fun _ => bind_units (built_units s) fun t => ?_
    simp only [UnitSys.shell]
    split
    · rw [fkG0_units]
      exact toSparse_units ..
    · refine bind_units (g := fun (f : ℕ → K) i => U.len * f i) ?_ fun cs => ?_
      · rw [show (A.cCte.map U.amps).getD .notArray = U.amps (A.cCte.getD .notArray) by
          cases A.cCte <;> rfl, readable_units]
      · refine bind_units (g := scale U.line) ?_ fun L => toSparse_units _ size L
        rw [getD_units, fkGnum_units (clear_panel hP), lift_map]
        rfl
  · rfl

theorem rebuild_pan {s' : Shell K} (h : s.rebuild E = .ok s') : s'.pan = s.pan := by
  unfold Shell.rebuild at h
  simp only at h
  split at h
  · cases h
  split at h
  · cases h
  split at h
  · cases h
  split at h
  · cases h
  split at h
  · cases h
  · cases h; rfl

/-- As `bind_units`, with what is known about a result of the first step. -/
theorem bind_units' {ε α β γ δ : Type} {x : Except ε α} {x' : Except ε γ} {f : α → Except ε β}
    {f' : γ → Except ε δ} {g : α → γ} {h : β → δ} (hx : x' = x.map g)
    (hf : ∀ a, x = .ok a → f' (g a) = (f a).map h) : (x' >>= f') = (x >>= f).map h := by
  subst hx
  cases x with
  | error e => rfl
  | ok a => exact hf a rfl

/-- A matrix and the panel afterwards, in other units. -/
def outUnits (U : UnitSys K) (k : K) (t : Coo K × Shell K) : Coo K × Shell K := (scale k t.1, U.shell t.2)

theorem calcKC_units (hE : U.Homog E) (hP : U.Clear s.pan) (A : KArgs K) :
    (U.shell s).calcKC E (U.kargs A) = (s.calcKC E A).map (outUnits U U.line) := by
  unfold Shell.calcKC
  refine bind_units' (rebuild_units hE s) fun s' hs => ?_
  have hP' : U.Clear s'.fixR.pan := by rw [show s'.fixR.pan = s'.pan from rfl, rebuild_pan hs]; exact hP
  rw [show (U.kargs A).c = A.c.map U.amps from rfl, show (U.kargs A).size = A.size from rfl,
    show (U.shell s').pan.m = s'.pan.m from rfl, show (U.shell s').pan.n = s'.pan.n from rfl]
  simp only [checkOpt_units, fixR_units]
  refine bind_same fun _ => bind_units (kCpart_units hP' _ A) fun kC =>
    bind_units (kGcte_units hP' _ A) fun kG => ?_
  rw [← scale_append, show (U.kargs A).finalize = A.finalize from rfl, fin_units]
  rfl

theorem calcKG_units (hE : U.Homog E) (hP : U.Clear s.pan) (A : KArgs K) :
    (U.shell s).calcKG E (U.kargs A) = (s.calcKG E A).map (outUnits U U.line) := by
  obtain ⟨sz, row0, col0, finalize, c, cCte, nx, ny, abd, NL⟩ := A
  unfold Shell.calcKG
  refine bind_units' (rebuild_units hE s) fun s' hs => ?_
  have hP' : U.Clear s'.fixR.pan := by rw [show s'.fixR.pan = s'.pan from rfl, rebuild_pan hs]; exact hP
  rw [show (U.shell s').pan.m = s'.pan.m from rfl, show (U.shell s').pan.n = s'.pan.n from rfl]
  simp only [UnitSys.kargs, checkOpt_units, fixR_units, isNone_map, panel_units]
  refine bind_same fun _ => bind_units (built_units s'.fixR) fun t => ?_
  by_cases hb : (c.isNone && !NL) = true
  · rw [if_pos hb, if_pos hb]
    refine bind_units (g := scale U.line) ?_ fun L => ?_
    · simp only [UnitSys.shell]
      rw [fkG0_units]
      exact toSparse_units ..
    · rw [fin_units]; rfl
  · rw [if_neg hb, if_neg hb]
    refine bind_units (g := fun (f : ℕ → K) i => U.len * f i) ?_ fun cs => ?_
    · rw [show (c.map U.amps).getD (.vec (sz.value (3 * s'.pan.m * s'.pan.n)) fun _ => 0)
          = U.amps (c.getD (.vec (sz.value (3 * s'.pan.m * s'.pan.n)) fun _ => 0)) by
        cases c <;> simp [UnitSys.amps], readable_units]
    · refine bind_units (g := scale U.line) ?_ fun L =>
        bind_units (toSparse_units _ _ L) fun kG => ?_
      · rw [show (U.lamObj t.2.1).ABD = U.abd t.2.1.ABD from rfl,
          show (U.shell s'.fixR).forceOrtho = s'.fixR.forceOrtho from rfl, lamABD_units, getD_units]
        simp only [UnitSys.shell]
        rw [fkGnum_units (clear_panel hP'), lift_map]
        rfl
      · rw [fin_units]; rfl

theorem kargs_KT (A : KArgs K) : U.kargs { A with cCte := none, NLgeom := true }
    = { U.kargs A with cCte := none, NLgeom := true } := rfl

theorem calcKC_pan {A : KArgs K} {t : Coo K × Shell K} (h : s.calcKC E A = .ok t) : t.2.pan = s.pan := by
  unfold Shell.calcKC at h
  obtain ⟨s', hs, h⟩ := bind_ok.1 h
  obtain ⟨_, _, h⟩ := bind_ok.1 h
  obtain ⟨_, _, h⟩ := bind_ok.1 h
  obtain ⟨_, _, h⟩ := bind_ok.1 h
  cases h
  exact rebuild_pan (s' := s') hs

theorem calcKT_units (hE : U.Homog E) (hP : U.Clear s.pan) (A : KArgs K) :
    (U.shell s).calcKT E (U.kargs A) = (s.calcKT E A).map (outUnits U U.line) := by
  unfold Shell.calcKT
  refine bind_units' (g := outUnits U U.line) ?_ fun t ht => ?_
  · rw [← kargs_KT, calcKC_units hE hP]
  · have hP' : U.Clear t.2.pan := by rw [calcKC_pan ht]; exact hP
    refine bind_units (g := outUnits U U.line) ?_ fun t' => ?_
    · rw [← kargs_KT]; exact calcKG_units hE hP' _
    · show Except.ok _ = Except.ok _
      simp only [outUnits, scale_append]

omit [DecidableEq K] in
theorem sum_units (k : K) (l : List K) : (l.map (k * ·)).sum = k * l.sum := by
  induction l with
  | nil => simp
  | cons x l ih => simp only [List.map_cons, List.sum_cons, ih, mul_add]

theorem calcKM_units (hP : U.Clear s.pan) (size : SizeArg) (row0 col0 : ℕ) (h rho : Option (Field2 K))
    (nx ny : Option ℕ) (finalize : Bool) :
    (U.shell s).calcKM E size row0 col0 (h.map (UnitSys.field2 U.len)) (rho.map (UnitSys.field2 U.rho))
      nx ny finalize
      = (s.calcKM E size row0 col0 h rho nx ny finalize).map (outUnits U U.mass) := by
  unfold Shell.calcKM
  simp only [isNone_map]
  rw [show (U.shell s).model = s.model from rfl]
  cases s.model.bind kindOf with
  | none => rfl
  | some k =>
  refine bind_same (x := Except.ok k) fun k => ?_
  simp only [fixR_units, panel_units]
  rw [show (U.shell s.fixR).lam = s.lam.map U.lamObj from rfl, show s.fixR.lam = s.lam from rfl]
  cases s.lam with
  | none => rfl
  | some l =>
  refine bind_units (x := Except.ok l) (x' := Except.ok (U.lamObj l)) (g := U.lamObj) rfl fun l => ?_
  by_cases hb : (h.isNone && rho.isNone) = true
  · rw [if_pos hb, if_pos hb]
    refine bind_units (g := scale U.mass) ?_ fun L => ?_
    · rw [show (U.shell s.fixR).plyts = s.plyts.map (U.len * ·) from rfl, sum_units]
      cases k with
      | plate => simp only [UnitSys.shell]; rw [plateFkM_units]; exact toSparse_units ..
      | cyl => simp only [UnitSys.shell]; rw [cylFkM_units]; exact toSparse_units ..
    · rw [fin_units]; rfl
  · rw [if_neg hb, if_neg hb]
    have e1 : (h.map (UnitSys.field2 U.len)).getD
        ⟨nx.getD (U.shell s).nx, ny.getD (U.shell s).ny, fun _ _ => (U.lamObj l).h⟩
        = UnitSys.field2 U.len (h.getD ⟨nx.getD s.nx, ny.getD s.ny, fun _ _ => l.h⟩) := by
      cases h <;> rfl
    have e2 : (rho.map (UnitSys.field2 U.rho)).getD
        ⟨nx.getD (U.shell s).nx, ny.getD (U.shell s).ny, fun _ _ => (U.lamObj l).intrho / (U.lamObj l).h⟩
        = UnitSys.field2 U.rho (rho.getD ⟨nx.getD s.nx, ny.getD s.ny, fun _ _ => l.intrho / l.h⟩) := by
      cases rho with
      | none =>
        have : U.rho * U.len * l.intrho / (U.len * l.h) = U.rho * (l.intrho / l.h) := by
          rw [mul_comm U.rho, mul_assoc, mul_div_mul_left _ _ U.len_ne, mul_div_assoc]
        simp only [Option.map_none, Option.getD_none, UnitSys.lamObj, UnitSys.field2, this]
        rfl
      | some r => rfl
    simp only [e1, e2]
    refine ite_units Iff.rfl rfl ?_
    refine bind_units (g := scale U.mass) ?_ fun L => bind_units (toSparse_units _ _ L) fun kM => ?_
    · rw [show (U.shell s.fixR).offset = U.len * s.offset from rfl, ← lift_map]
      refine congrArg _ ?_
      unfold fkMnum
      exact ite_units Iff.rfl (congrArg Except.ok (fkMnumF_units E.S E.G (clear_panel (s := s.fixR) hP) ..)) rfl
    · rw [fin_units]; rfl

/-- The force vector and the panel afterwards, in other units. -/
def fintOut (U : UnitSys K) (t : VecW K × Shell K) : VecW K × Shell K :=
  (t.1.map fun w => (w.1, U.force * w.2), U.shell t.2)

theorem calcFint_units (hP : U.Clear s.pan) (c : CArg K) (size : SizeArg) (col0 : ℕ) (nx ny : Option ℕ)
    (abd : Option (LamInput K)) :
    (U.shell s).calcFint E (U.amps c) size col0 nx ny (abd.map U.lamIn)
      = (s.calcFint E c size col0 nx ny abd).map (fintOut U) := by
  unfold Shell.calcFint
  rw [show (U.shell s).model = s.model from rfl]
  cases s.model.bind kindOf with
  | none => rfl
  | some k =>
  refine bind_same (x := Except.ok k) fun k => ?_
  simp only [fixR_units, panel_units]
  generalize hi : abd.getD _ = i
  generalize hi' : (abd.map U.lamIn).getD _ = i'
  have e : i' = U.lamIn i := by
    rw [← hi, ← hi', show (U.shell s.fixR).ABD = s.ABD.map U.abd from rfl, show s.fixR.ABD = s.ABD from rfl]
    cases abd <;> cases s.ABD <;> rfl
  subst e
  refine bind_units (readable_units c col0 s.fixR.panel) fun cs => ?_
  refine bind_units (g := List.map fun w : ℕ × K => (w.1, U.force * w.2)) ?_ fun f => ?_
  · rw [← lift_map]
    refine congrArg _ ?_
    cases k with
    | plate =>
      simp only [plateFint, lamAt_units, map_map, plateFintF_units E.S E.G (clear_panel (s := s.fixR) hP)]
      rfl
    | cyl =>
      simp only [cylFint, lamAt_units, map_map, cylFintF_units E.S E.G (clear_panel (s := s.fixR) hP)]
      rfl
  · exact ite_units Iff.rfl rfl rfl

end

section aero

variable [LinearOrder K] {U : UnitSys K} {E : Env K} {s : Shell K}

omit [LinearOrder K] in
theorem vol_area : U.vol = U.area / U.len := by
  have := U.len_ne
  unfold UnitSys.vol UnitSys.area
  field_simp

omit [LinearOrder K] in
theorem area_flow : U.rho * U.speed ^ 2 = U.area := by
  have h1 := U.len_ne
  have h2 := U.time_ne
  unfold UnitSys.rho UnitSys.speed UnitSys.area UnitSys.mass
  field_simp

omit [LinearOrder K] in
theorem number_units {o : Option K} (k : K) :
    number (o.map (k * ·)) = (number o).map (k * ·) := by cases o <;> rfl

theorem piston_units (root : K → K) (s : Shell K) :
    (U.shell s).piston root
      = (s.piston root).map fun t => (U.area * t.1, U.vol * t.2.1, t.2.2) := by
  unfold Shell.piston
  rw [show (U.shell s).beta = s.beta.map (U.area * ·) from rfl,
    show (U.shell s).gamma = s.gamma.map (U.vol * ·) from rfl, show (U.shell s).Mach = s.Mach from rfl,
    show (U.shell s).V = s.V.map (U.speed * ·) from rfl,
    show (U.shell s).rhoAir = s.rhoAir.map (U.rho * ·) from rfl,
    show (U.shell s).r = s.r.map (U.len * ·) from rfl]
  cases s.beta with
  | some b => cases s.gamma <;> simp [Except.map]
  | none =>
    refine bind_same fun M => bind_units (number_units U.speed) fun V =>
      bind_units (number_units U.rho) fun rho => ?_
    have er : (s.r.map (U.len * ·)).getD 0 = U.len * s.r.getD 0 := by cases s.r <;> simp
    have eb : U.rho * rho * (U.speed * V) ^ 2 / root (M ^ 2 - 1)
        = U.area * (rho * V ^ 2 / root (M ^ 2 - 1)) := by
      rw [← area_flow]; ring
    have hl := U.len_ne
    simp only [er, eb]
    by_cases hr : s.r.getD 0 = 0
    · simp [hr, pure, Except.pure, Except.map]
    · have hr' : U.len * s.r.getD 0 ≠ 0 := mul_ne_zero hl hr
      simp only [if_pos hr, if_pos hr', pure, Except.pure, Except.map, vol_area]
      refine congrArg _ ?_
      refine Prod.ext rfl (Prod.ext ?_ rfl)
      simp only [mul_inv, div_eq_mul_inv]
      ring

theorem scale_finalizeSkew (c : K) (L : Coo K) :
    Coo.finalizeSkew (scale c L) = scale c (Coo.finalizeSkew L) := by
  unfold Coo.finalizeSkew
  rw [scale_append, ← scale_filter c L (fun r c => decide (r ≤ c))]
  congr 1
  rw [scale_filter c L (fun r c => decide (r < c))]
  simp [scale]

theorem fkA_units (hP : U.Clear s.pan) (k : Kind) (beta gamma : K) (row0 col0 : ℕ) :
    (U.shell s).fkA E k (U.area * beta) (U.vol * gamma) row0 col0
      = (s.fkA E k beta gamma row0 col0).map (scale U.line) := by
  unfold Shell.fkA
  rw [show (U.shell s).flow = s.flow from rfl, panel_units,
    show (U.shell s).nx = s.nx from rfl, show (U.shell s).ny = s.ny from rfl]
  split
  · cases k with
    | plate => simp only [plateFkAxNum_units E.S E.G (clear_panel hP)]; rfl
    | cyl => simp only [cylFkAxNum_units E.S E.G (clear_panel hP)]; rfl
  split
  · rw [fkAyNum_units E.S E.G (clear_panel hP)]; rfl
  · rfl

theorem calcKA_units (hP : U.Clear s.pan) (root : K → K) (size : SizeArg) (row0 col0 : ℕ) (finalize : Bool) :
    (U.shell s).calcKA root E size row0 col0 finalize
      = (s.calcKA root E size row0 col0 finalize).map (outUnits U U.line) := by
  unfold Shell.calcKA
  rw [show (U.shell s).model = s.model from rfl]
  refine bind_same fun k => ?_
  simp only [fixR_units]
  refine bind_units (piston_units root s.fixR) fun t => ?_
  have e : ({ U.shell s.fixR with beta := some (U.area * t.1), gamma := some (U.vol * t.2.1), Mach := t.2.2 }
      : Shell K) = U.shell { s.fixR with beta := some t.1, gamma := some t.2.1, Mach := t.2.2 } := rfl
  simp only [e]
  refine bind_units (fkA_units (s := { s.fixR with beta := some t.1, gamma := some t.2.1, Mach := t.2.2 })
    hP k t.1 t.2.1 row0 col0) fun L => bind_units (toSparse_units _ _ L) fun kA => ?_
  unfold finSkew
  split
  · rw [scale_finalizeSkew]; rfl
  · rfl

end aero

end Model
end Verif
