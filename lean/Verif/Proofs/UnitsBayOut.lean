import Verif.Proofs.UnitsBay
import Verif.Spec.Near

/-!
# Building a bay, its flow and its displacements, in other units
-/

namespace Verif.Model

open Spec

variable {K : Type} [Field K] [LinearOrder K] {U : UnitSys K} {E : BayEnv K} {B : Bay K}

theorem bind_eq {ε α β δ : Type} {x x' : Except ε α} {f : α → Except ε β} {f' : α → Except ε δ} {h : β → δ}
    (hx : x' = x) (hf : ∀ a, f' a = (f a).map h) : (x' >>= f') = (x >>= f).map h := by
  subst hx
  exact bind_same hf

theorem getD_map {α β : Type} (g : α → β) (o : Option α) (d : α) : (o.map g).getD (g d) = g (o.getD d) := by
  cases o <;> rfl

theorem addPanel_units {y1 y2 : K} (h1 : U.Off y1) (h2 : U.Off y2) (stack : Option (List K))
    (plyts : Option (List K)) (plyt : Option K) (laminaprops : Option (List (List K)))
    (laminaprop : Option (List K)) (model : Option String) (rho : Option K) :
    (U.bay B).addPanel (U.len * y1) (U.len * y2) stack (plyts.map (List.map (U.len * ·)))
      (plyt.map (U.len * ·)) (laminaprops.map (List.map U.lamina)) (laminaprop.map U.lamina) model
      (rho.map (U.rho * ·))
      = U.bay (B.addPanel y1 y2 stack plyts plyt laminaprops laminaprop model rho) := by
  have e : ∀ p, { U.bay B with panels := (U.bay B).panels ++ [U.shell p] } =
      U.bay { B with panels := B.panels ++ [p] } := fun p => by simp [UnitSys.bay]
  have key : Shell.new { (U.bay B).skin with x1 := -1, x2 := 1, y1 := U.len * y1, y2 := U.len * y2 }
      (U.bay B).r
      (match model with
        | some m => some m
        | none => (U.bay B).model)
      (stack.getD (U.bay B).stack)
      (match plyt.map (U.len * ·) with
        | some t => some t
        | none => (U.bay B).plyt)
      ((plyts.map (List.map (U.len * ·))).getD (U.bay B).plyts)
      ((laminaprop.map U.lamina).getD (U.bay B).laminaprop)
      ((laminaprops.map (List.map U.lamina)).getD (U.bay B).laminaprops)
      ((rho.map (U.rho * ·)).getD (U.bay B).rho) 0
      = U.shell (Shell.new { B.skin with x1 := -1, x2 := 1, y1 := y1, y2 := y2 } B.r
      (match model with
        | some m => some m
        | none => B.model)
      (stack.getD B.stack)
      (match plyt with
        | some t => some t
        | none => B.plyt)
      (plyts.getD B.plyts) (laminaprop.getD B.laminaprop) (laminaprops.getD B.laminaprops)
      (rho.getD B.rho) 0) := by
    rw [newShell_units, mul_zero]
    congr 1
    · simp only [UnitSys.panel, UnitSys.bay, coord_mark, coord_mark', off_coord h1 h2, off_coord h2 h1]
    · cases plyt <;> rfl
    · cases plyts <;> rfl
    · cases laminaprop <;> rfl
    · cases laminaprops <;> rfl
    · cases rho <;> rfl
  exact (congrArg (fun p => ({ U.bay B with panels := (U.bay B).panels ++ [p] } : Bay K)) key).trans (e _)

/-- Stack, thicknesses and properties. -/
def lamOut (U : UnitSys K) (t : Option (List K) × List K × List (List K)) :
    Option (List K) × List K × List (List K) :=
  (t.1, t.2.1.map (U.len * ·), t.2.2.map U.lamina)

theorem resolve_units (A : LamArgs K) : (U.lamArgs A).resolve = A.resolve.map (lamOut U) := by
  obtain ⟨stack, plyts, plyt, props, prop⟩ := A
  unfold LamArgs.resolve UnitSys.lamArgs
  cases stack with
  | none => cases plyts <;> cases props <;> rfl
  | some st =>
    cases plyts <;> cases plyt <;> cases props <;> cases prop <;>
      simp [lamOut, Except.map, Function.comp_def]

/-- The tolerances of `isclose` give the same answer in both systems, wherever the search asks. -/
def SameClose (U : UnitSys K) (B : Bay K) (ys : K) : Prop :=
  (∀ y, (y = 0 ∨ y = B.skin.b) → (Near (U.len * ys) (U.len * y) ↔ Near ys y)) ∧
    ∀ p ∈ B.panels, ∀ y, (y = p.pan.y1 ∨ y = p.pan.y2) → (Near (U.len * y) (U.len * ys) ↔ Near y ys)

theorem isclose_units {x y x' y' : K} (h : Near x' y' ↔ Near x y) : isclose x' y' = isclose x y :=
  decide_eq_decide.2 h

theorem findLoop_units {ys b : K} (h : ∀ y, (y = 0 ∨ y = b) → isclose (U.len * ys) (U.len * y) = isclose ys y)
    (i : ℕ) (l : List (Shell K))
    (hl : ∀ p ∈ l, p.pan.y1 ≠ -1 ∧ p.pan.y2 ≠ -1 ∧
      ∀ y, (y = p.pan.y1 ∨ y = p.pan.y2) → isclose (U.len * y) (U.len * ys) = isclose y ys)
    (st : Option ℕ × Option ℕ) :
    findLoop (U.len * ys) (U.len * b) i (l.map U.shell) st = findLoop ys b i l st := by
  induction l generalizing i st with
  | nil => rfl
  | cons p l ih =>
    obtain ⟨h1, h2, h3⟩ := hl p (List.mem_cons_self ..)
    have e1 : (U.shell p).pan.y1 = U.len * p.pan.y1 := coord_of_ne h1 h2
    have e2 : (U.shell p).pan.y2 = U.len * p.pan.y2 := coord_of_ne h2 h1
    have h0 := h 0 (.inl rfl)
    rw [mul_zero] at h0
    have e : findStep (U.len * ys) (U.len * b) st i (U.shell p) = findStep ys b st i p := by
      unfold findStep
      rw [e1, e2, h0, h b (.inr rfl), h3 _ (.inl rfl), h3 _ (.inr rfl)]
      simp only [mul_right_inj' U.len_ne]
    rw [List.map_cons, findLoop, findLoop, e]
    exact ih _ (fun q hq => hl q (List.mem_cons_of_mem _ hq)) _

theorem findPanels_units {ys : K} (h : SameClose U B ys)
    (hl : ∀ p ∈ B.panels, p.pan.y1 ≠ -1 ∧ p.pan.y2 ≠ -1) :
    (U.bay B).findPanels (U.len * ys) = B.findPanels ys := by
  unfold Bay.findPanels
  rw [show (U.bay B).panels = B.panels.map U.shell from rfl, List.isEmpty_map,
    show (U.bay B).skin.b = U.len * B.skin.b from rfl,
    findLoop_units (fun y hy => isclose_units (h.1 y hy)) _ _ fun p hp =>
      ⟨(hl p hp).1, (hl p hp).2, fun y hy => isclose_units (h.2 p hp y hy)⟩]

theorem addBlade1_units (hE : U.HomogBay E) {ys : K} (hys : SameClose U B ys)
    (hl : ∀ p ∈ B.panels, p.pan.y1 ≠ -1 ∧ p.pan.y2 ≠ -1) (rho bb bf : Option K)
    (hbb : ∀ x, bb = some x → U.Off (ys - x / 2) ∧ U.Off (ys + x / 2)) (base flange : LamArgs K) :
    (U.bay B).addBlade1 E (U.len * ys) (rho.map (U.rho * ·)) (bb.map (U.len * ·)) (bf.map (U.len * ·))
      (U.lamArgs base) (U.lamArgs flange)
      = (B.addBlade1 E ys rho bb bf base flange).map U.bay := by
  unfold Bay.addBlade1
  refine ite_units Iff.rfl rfl ?_
  refine bind_units (resolve_units base) fun b => bind_units (resolve_units flange) fun f => ?_
  rw [findPanels_units hys hl]
  refine bind_same fun ij => ?_
  refine bind_units (g := U.blade1) ?_ fun s => ?_
  · rw [← rebuild1_units hE ⟨hbb, fun b hb => by cases hb⟩]
    refine congrArg _ ?_
    rw [show (U.bay B).rho = U.rho * B.rho from rfl, getD_map (U.rho * ·)]
    simp [UnitSys.blade1, lamOut]
  · show Except.ok _ = Except.ok _
    simp [UnitSys.bay]

theorem baseOf_units (ij : ℕ × ℕ) {ys : K} {bb : Option K}
    (hbb : ∀ x, bb = some x → U.Off (ys - x / 2) ∧ U.Off (ys + x / 2)) (rho : K)
    (b : Option (List K) × List K × List (List K)) :
    (U.bay B).baseOf ij (U.len * ys) (bb.map (U.len * ·)) (U.rho * rho) (lamOut U b)
      = (B.baseOf ij ys bb rho b).map (Option.map U.shell) := by
  unfold Bay.baseOf
  rw [show (lamOut U b).1 = b.1 from rfl]
  cases b.1 with
  | none => rfl
  | some st =>
    cases bb with
    | none => rfl
    | some x =>
      obtain ⟨h1, h2⟩ := hbb x rfl
      show (match (U.bay B).panels[ij.1]?, (U.bay B).panels[ij.2]? with
        | some p, some q => _
        | _, _ => _) = Except.map _ (match B.panels[ij.1]?, B.panels[ij.2]? with
        | some p, some q => _
        | _, _ => _)
      rw [show (U.bay B).panels = B.panels.map U.shell from rfl, List.getElem?_map, List.getElem?_map]
      rcases B.panels[ij.1]? with _ | p
      · rfl
      rcases B.panels[ij.2]? with _ | q
      · rfl
      show Except.ok _ = Except.ok _
      rw [skinThick_units]
      exact congrArg (fun s => Except.ok (some s)) (newBase_units h1 h2 ..)

theorem flangeOf_units (mf nf : ℕ) (bf : Option K) (rho : K)
    (f : Option (List K) × List K × List (List K)) :
    (U.bay B).flangeOf mf nf (bf.map (U.len * ·)) (U.rho * rho) (lamOut U f)
      = (B.flangeOf mf nf bf rho f).map (Option.map U.shell) := by
  unfold Bay.flangeOf
  rw [show (lamOut U f).1 = f.1 from rfl]
  cases f.1 with
  | none => rfl
  | some st =>
    refine bind_units (g := (U.len * ·)) (number_units _) fun bf => ?_
    exact congrArg (fun s => Except.ok (some s)) (newFlange_units ..)

theorem addBlade2_units (hE : U.HomogBay E) {ys : K} (hys : SameClose U B ys)
    (hl : ∀ p ∈ B.panels, p.pan.y1 ≠ -1 ∧ p.pan.y2 ≠ -1) (rho bb bf : Option K)
    (hbb : ∀ x, bb = some x → U.Off (ys - x / 2) ∧ U.Off (ys + x / 2)) (base flange : LamArgs K)
    (mf nf : ℕ) :
    (U.bay B).addBlade2 E (U.len * ys) (rho.map (U.rho * ·)) (bb.map (U.len * ·)) (bf.map (U.len * ·))
      (U.lamArgs base) (U.lamArgs flange) mf nf
      = (B.addBlade2 E ys rho bb bf base flange mf nf).map U.bay := by
  unfold Bay.addBlade2
  refine ite_units Iff.rfl rfl ?_
  refine bind_units (resolve_units base) fun b => bind_units (resolve_units flange) fun f => ?_
  rw [findPanels_units hys hl, show (U.bay B).rho = U.rho * B.rho from rfl, getD_map (U.rho * ·)]
  refine bind_same fun ij => ?_
  refine bind_units (baseOf_units ij hbb _ b) fun bs => ?_
  refine bind_units (flangeOf_units mf nf bf _ f) fun fl => ?_
  refine bind_units (g := U.blade2) ?_ fun s => ?_
  · rw [← rebuild2_units hE]
    rfl
  · show Except.ok _ = Except.ok _
    simp [UnitSys.bay]

/-! ## Flow -/

theorem flight_units (B : AeroBay K) : (U.aeroBay B).flight = B.flight := by
  unfold AeroBay.flight
  rw [show (U.aeroBay B).beta = B.beta.map (U.area * ·) from rfl,
    show (U.aeroBay B).rhoAir = B.rhoAir.map (U.rho * ·) from rfl,
    show (U.aeroBay B).V = B.V.map (U.speed * ·) from rfl,
    show (U.aeroBay B).speedSound = B.speedSound.map (U.speed * ·) from rfl,
    show (U.aeroBay B).Mach = B.Mach from rfl]
  cases B.beta <;> cases B.rhoAir <;> cases B.V <;> cases B.speedSound <;> rfl

/-- Matrix, number of rows and bay. -/
def aeroBayOut (U : UnitSys K) (t : Coo K × ℕ × AeroBay K) : Coo K × ℕ × AeroBay K :=
  (scale U.line t.1, t.2.1, U.aeroBay t.2.2)

theorem calcKABay_units {B : AeroBay K} (hE : U.HomogBay E) (hB : U.ClearBay B.toBay) (root : K → K) :
    (U.aeroBay B).calcKA root E = (B.calcKA root E).map (aeroBayOut U) := by
  unfold AeroBay.calcKA
  refine bind_units' (rebuildBay_units hE hB) fun B' hr => ?_
  obtain ⟨hB', -⟩ := rebuildBay_clear hB hr
  refine bind_eq (flight_units { B with toBay := B' }) fun M => ?_
  have hp := hB'.panels
  dsimp only
  rw [show (U.bay B').panels = B'.panels.map U.shell from rfl]
  cases hps : B'.panels with
  | nil => rfl
  | cons p ps =>
    show (match B.size with | none => _ | some n => _) = Except.map _ (match B.size with | none => _ | some n => _)
    cases hn : B.size with
    | none => rfl
    | some n =>
      refine bind_units (calcKA_units (s := { p with
        flow := B.flow, Mach := M, rhoAir := B'.rhoAir, size := some n, V := B'.V, r := B'.r })
        (hp p (hps ▸ List.mem_cons_self ..)) root .none 0 0 false) fun t => ?_
      show Except.ok _ = Except.ok _
      simp only [aeroBayOut, outUnits]
      rw [scale_finalizeSkew]
      simp only [UnitSys.aeroBay, UnitSys.bay, hn, List.map_cons]
      rfl

/-! ## Displacements -/

omit [LinearOrder K] in
theorem bayPoints_units (a b : K) (xs ys : Option (Arr K)) (gridx gridy : ℕ) :
    bayPoints (U.len * a) (U.len * b) (xs.map U.arr) (ys.map U.arr) gridx gridy
      = (bayPoints a b xs ys gridx gridy).map fun d =>
        (d.1.map (U.len * ·), d.2.1.map (U.len * ·), d.2.2) := by
  have hg : ∀ lx ly : List K, (ly.map (U.len * ·)).flatMap (fun _ => lx.map (U.len * ·))
      = (ly.flatMap fun _ => lx).map (U.len * ·) := fun lx ly => by
    simp [List.map_flatMap, List.flatMap_map]
  have hg' : ∀ lx ly : List K, ((ly.map (U.len * ·)).flatMap fun y => (lx.map (U.len * ·)).map fun _ => y)
      = (ly.flatMap fun y => lx.map fun _ => y).map (U.len * ·) := fun lx ly => by
    simp [List.map_flatMap, List.flatMap_map, Function.comp_def]
  have none_case : bayPoints (U.len * a) (U.len * b) none none gridx gridy
      = (bayPoints a b none none gridx gridy).map fun d =>
        (d.1.map (U.len * ·), d.2.1.map (U.len * ·), d.2.2) := by
    simp only [bayPoints, linspace_units, hg, hg']
    rfl
  cases xs with
  | none => exact none_case
  | some xs =>
    cases ys with
    | none => exact none_case
    | some ys => exact ite_units Iff.rfl rfl (ite_units Iff.rfl rfl rfl)

/-- Shape and values. -/
def uvwOut (U : UnitSys K) (t : List ℕ × List (UVW K)) : List ℕ × List (UVW K) := (t.1, t.2.map U.uvw)

theorem uvwSkin_units (S : Shape K) (B : OutBay K) (len : ℕ) (c : ℕ → K) (xs ys : Option (Arr K))
    (gridx gridy cores : ℕ) :
    (U.outBay B).uvwSkin S len (fun i => U.len * c i) (xs.map U.arr) (ys.map U.arr) gridx gridy cores
      = (B.uvwSkin S len c xs ys gridx gridy cores).map (uvwOut U) := by
  unfold OutBay.uvwSkin
  rw [show (U.outBay B).toBay = U.bay B.toBay from rfl, sizeBay_units]
  refine bind_same fun n => ite_units Iff.rfl rfl ?_
  refine bind_units (bayPoints_units B.skin.a B.skin.b xs ys gridx gridy) fun d => ?_
  show Except.ok _ = Except.ok _
  simp only [uvwOut]
  rw [show (U.bay B.toBay).skin = U.panel B.skin from rfl, fuvw_units]

theorem flangeAt_units (B : Bay K) (i : ℕ) : flangeAt (U.bay B) i = (flangeAt B i).map U.shell := by
  unfold flangeAt
  rw [show (U.bay B).blade2 = B.blade2.map U.blade2 from rfl, List.getElem?_map]
  rcases B.blade2[i]? with _ | s
  · rfl
  show (match (U.blade2 s).flange with | none => _ | some f => _) = Except.map _ (match s.flange with | none => _ | some f => _)
  rw [show (U.blade2 s).flange = s.flange.map U.shell from rfl]
  cases s.flange <;> rfl

theorem uvwStiffener_units (S : Shape K) (B : OutBay K) (len : ℕ) (c : ℕ → K) (si : ℕ) (region : String)
    (xs ys : Option (Arr K)) (gridx gridy cores : ℕ) :
    (U.outBay B).uvwStiffener S len (fun i => U.len * c i) si region (xs.map U.arr) (ys.map U.arr) gridx
      gridy cores
      = (B.uvwStiffener S len c si region xs ys gridx gridy cores).map (uvwOut U) := by
  unfold OutBay.uvwStiffener
  rw [show (U.outBay B).toBay = U.bay B.toBay from rfl,
    show (U.outBay B).stiffeners = B.stiffeners from rfl, sizeBay_units]
  rcases B.stiffeners[si]? with _ | i | i
  · rfl
  · rfl
  refine ite_units Iff.rfl rfl ?_
  refine bind_same (x := B.skinSize) fun d => bind_same fun row => ite_units Iff.rfl rfl ?_
  refine bind_units (flangeAt_units B.toBay i) fun f => bind_same (x := f.getSize) fun _ =>
    bind_same fun n => ite_units Iff.rfl rfl ?_
  refine bind_units (bayPoints_units B.skin.a f.pan.b xs ys gridx gridy) fun p => ?_
  show Except.ok _ = Except.ok _
  simp only [uvwOut]
  rw [panel_units, fuvw_units S f.panel (fun k => c (row + k))]

end Verif.Model
