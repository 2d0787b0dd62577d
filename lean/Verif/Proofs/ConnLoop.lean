import Verif.Model.Multi
import Verif.Props.C54

/-!
# The loop of `get_kC_conn`
-/

set_option linter.unusedSectionVars false

namespace Verif

open Model

variable {K : Type} [Field K] [LinearOrder K]

/-- `t` is the panel `s`, possibly rebuilt. -/
def Reb (E : Env K) (s t : Shell K) : Prop := t = s ∨ s.rebuild E = .ok t

theorem rebuild_kept (E : Env K) {s t : Shell K} (h : s.rebuild E = .ok t) :
    t.pan = s.pan ∧ t.r = s.r ∧ t.panel = s.panel ∧ (s.plyts ≠ [] → t.plyts = s.plyts) ∧
      t.plyts ≠ [] := by
  obtain ⟨-, h2, -, -, lam, -, rfl⟩ := (C54.rebuild_ok_iff E s t).1 h
  exact ⟨rfl, rfl, rfl, fun h => C54.orFill_of_ne h _ _, C54.orFill_ne_nil _ _ h2⟩

theorem Reb.pan {E : Env K} {s t : Shell K} (h : Reb E s t) : t.pan = s.pan := by
  rcases h with rfl | h
  · rfl
  · exact (rebuild_kept E h).1

theorem Reb.panel {E : Env K} {s t : Shell K} (h : Reb E s t) : t.panel = s.panel := by
  rcases h with rfl | h
  · rfl
  · exact (rebuild_kept E h).2.2.1

theorem Reb.rebuild {E : Env K} {s t u : Shell K} (h : Reb E s t) (hu : t.rebuild E = .ok u) :
    s.rebuild E = .ok u := by
  rcases h with rfl | h
  · exact hu
  · rw [C54.idempotent E s t h] at hu
    cases hu
    exact h

theorem Reb.rebuild' {E : Env K} {s t u : Shell K} (h : Reb E s t) (hu : s.rebuild E = .ok u) :
    t.rebuild E = .ok u := by
  rcases h with rfl | h
  · exact hu
  · have e := C54.idempotent E s t h
    rw [hu] at h
    cases h
    exact e

theorem Reb.trans {E : Env K} {s t u : Shell K} (h : Reb E s t) (h' : Reb E t u) : Reb E s u := by
  rcases h' with rfl | h'
  · exact h
  · exact Or.inr (h.rebuild h')

theorem Reb.plyts {E : Env K} {s t : Shell K} (h : Reb E s t) (hs : s.plyts ≠ []) :
    t.plyts = s.plyts := by
  rcases h with rfl | h
  · rfl
  · exact (rebuild_kept E h).2.2.2.1 hs

/-- Two possibly rebuilt versions of a panel have the same ply thicknesses, if both have any. -/
theorem Reb.plyts_eq {E : Env K} {s t u : Shell K} (h : Reb E s t) (h' : Reb E s u)
    (ht : t.plyts ≠ []) (hu : u.plyts ≠ []) : t.plyts = u.plyts := by
  rcases h with rfl | h
  · exact (h'.plyts ht).symm
  · rcases h' with rfl | h'
    · exact (Reb.plyts (Or.inr h) hu)
    · rw [h] at h'
      cases h'
      rfl

/-- What a successful `calc_kt_kr` did. -/
theorem ktkr_ok (E : Env K) (M M' : Multi K) (A B : ℕ) (ct : String) (k : K × Option K)
    (h : ktkr E M A B ct = .ok (k, M')) :
    ∃ tA tB lA lB, (M.shells A).rebuild E = .ok tA ∧ (M.shells B).rebuild E = .ok tB ∧
      tA.lam = some lA ∧ tB.lam = some lB ∧ calcKtKr (penOf tA lA) (penOf tB lB) ct = some k ∧
      M' = (M.setShell A tA).setShell B tB ∧ M'.shells A = tA ∧ M'.shells B = tB := by
  unfold ktkr at h
  simp only [bind, Except.bind] at h
  split at h
  · cases h
  rename_i tA hA
  split at h
  · cases h
  rename_i tB hB
  have hB' : (M.shells B).rebuild E = .ok tB := by
    by_cases hAB : B = A
    · subst hAB
      have : (M.setShell B tA).shells B = tA := if_pos rfl
      rw [this, C54.idempotent E _ _ hA] at hB
      cases hB
      exact hA
    · have : (M.setShell A tA).shells B = M.shells B := if_neg hAB
      rwa [this] at hB
  have e1 : ((M.setShell A tA).setShell B tB).shells B = tB := if_pos rfl
  have e2 : ((M.setShell A tA).setShell B tB).shells A = tA := by
    by_cases hAB : A = B
    · subst hAB
      rw [hA] at hB'
      cases hB'
      exact e1
    · have : ((M.setShell A tA).setShell B tB).shells A = (M.setShell A tA).shells A := if_neg hAB
      rw [this]
      exact if_pos rfl
  rw [e1, e2] at h
  split at h
  · rename_i lA lB hlA hlB
    split at h
    · rename_i k' hk
      cases h
      exact ⟨tA, tB, lA, lB, hA, hB', hlA, hlB, hk, rfl, e2, e1⟩
    · cases h
  · cases h

/-- The three blocks of one connection between the panels `sA` (first unknown `a`) and `sB` (first
unknown `b`). -/
inductive JointOf (E : Env K) (sA sB : Shell K) (a b : ℕ) (d : ConnD K) : Coo K → Prop
  | SSx {tA tB lA lB kt kr x1 x2} (hf : d.func = "SSxcte") (hA : sA.rebuild E = .ok tA)
      (hB : sB.rebuild E = .ok tB) (hlA : tA.lam = some lA) (hlB : tB.lam = some lB)
      (hk : calcKtKr (penOf tA lA) (penOf tB lB) "xcte" = some (kt, some kr))
      (h1 : d.xcte1 = some x1) (h2 : d.xcte2 = some x2) :
      JointOf E sA sB a b d (connSSxcte E.S E.I sA.panel sB.panel kt kr x1 x2 a b)
  | SSy {tA tB lA lB kt kr x1 x2} (hf : d.func = "SSycte") (hA : sA.rebuild E = .ok tA)
      (hB : sB.rebuild E = .ok tB) (hlA : tA.lam = some lA) (hlB : tB.lam = some lB)
      (hk : calcKtKr (penOf tA lA) (penOf tB lB) "ycte" = some (kt, some kr))
      (h1 : d.ycte1 = some x1) (h2 : d.ycte2 = some x2) :
      JointOf E sA sB a b d (connSSycte E.S E.I sA.panel sB.panel kt kr x1 x2 a b)
  | BFx {tA tB lA lB kt kr x1 x2} (hf : d.func = "BFxcte") (hA : sA.rebuild E = .ok tA)
      (hB : sB.rebuild E = .ok tB) (hlA : tA.lam = some lA) (hlB : tB.lam = some lB)
      (hk : calcKtKr (penOf tA lA) (penOf tB lB) "xcte" = some (kt, some kr))
      (h1 : d.xcte1 = some x1) (h2 : d.xcte2 = some x2) :
      JointOf E sA sB a b d (connBFxcte E.S E.I sA.panel sB.panel kt kr x1 x2 a b)
  | BFy {tA tB lA lB kt kr x1 x2} (hf : d.func = "BFycte") (hA : sA.rebuild E = .ok tA)
      (hB : sB.rebuild E = .ok tB) (hlA : tA.lam = some lA) (hlB : tB.lam = some lB)
      (hk : calcKtKr (penOf tA lA) (penOf tB lB) "ycte" = some (kt, some kr))
      (h1 : d.ycte1 = some x1) (h2 : d.ycte2 = some x2) :
      JointOf E sA sB a b d (connBFycte E.S E.I sA.panel sB.panel kt kr x1 x2 a b)
  | SB {tA tB lA lB kt kr} (hf : d.func = "SB") (hA : sA.rebuild E = .ok tA)
      (hB : sB.rebuild E = .ok tB) (hlA : tA.lam = some lA) (hlB : tB.lam = some lB)
      (hk : calcKtKr (penOf tA lA) (penOf tB lB) "bot-top" = some (kt, kr)) :
      JointOf E sA sB a b d
        (connSB E.I sA.panel sB.panel kt (tA.plyts.sum / 2 + tB.plyts.sum / 2) a b)
  | TSL {tA tB} (hf : d.func = "SB_TSL") (hA : Reb E sA tA) (hB : Reb E sB tB)
      (hpA : tA.plyts ≠ []) (hpB : tB.plyts ≠ []) (ht : d.tsl = some "linear")
      (ha : sA.pan.a = sB.pan.a) (hb : sA.pan.b = sB.pan.b) :
      JointOf E sA sB a b d (connSB E.I sA.panel sB.panel (10000 / (sA.pan.a * sA.pan.b))
        (tA.plyts.sum / 2 + tB.plyts.sum / 2) a b)

theorem toSparse_ok {size : ℕ} {L L' : Coo K} (h : toSparse size L = .ok L') : L' = L := by
  unfold toSparse at h
  split at h
  · cases h; rfl
  · cases h

theorem key_ok {α : Type} {o : Option α} {x : α} (h : key o = .ok x) : o = some x := by
  cases o
  · cases h
  · cases h; rfl

theorem number_ok {o : Option K} {x : K} (h : number o = .ok x) : o = some x := by
  cases o
  · cases h
  · cases h; rfl

theorem thick_ok {s : Shell K} {x : K} (h : thick s = .ok x) : s.plyts ≠ [] ∧ x = s.plyts.sum := by
  unfold thick at h
  split at h
  · cases h
  · rename_i hn
    cases h
    exact ⟨by simpa using hn, rfl⟩

/-- The assembly after a step differs only in rebuilt panels. -/
structure Later (E : Env K) (M M' : Multi K) : Prop where
  place : M'.place = M.place
  panels : M'.panels = M.panels
  conn : M'.conn = M.conn
  kCconn : M'.kCconn = M.kCconn
  shells : ∀ p, Reb E (M.shells p) (M'.shells p)

theorem Later.refl (E : Env K) (M : Multi K) : Later E M M := ⟨rfl, rfl, rfl, rfl, fun _ => .inl rfl⟩

theorem Later.trans {E : Env K} {M M' M'' : Multi K} (h : Later E M M') (h' : Later E M' M'') :
    Later E M M'' :=
  ⟨h'.place.trans h.place, h'.panels.trans h.panels, h'.conn.trans h.conn, h'.kCconn.trans h.kCconn,
    fun p => (h.shells p).trans (h'.shells p)⟩

theorem Later.set {E : Env K} {M : Multi K} {p : ℕ} {t : Shell K} (h : Reb E (M.shells p) t) :
    Later E M (M.setShell p t) := by
  refine ⟨rfl, rfl, rfl, rfl, fun q => ?_⟩
  by_cases hq : q = p
  · subst hq
    simpa [Multi.setShell] using h
  · left
    simp [Multi.setShell, hq]

theorem ktkr_later {E : Env K} {M M' : Multi K} {A B : ℕ} {ct : String} {k : K × Option K}
    (h : ktkr E M A B ct = .ok (k, M')) : Later E M M' := by
  obtain ⟨tA, tB, lA, lB, hA, hB, -, -, -, rfl, e1, e2⟩ := ktkr_ok E M M' A B ct k h
  refine (Later.set (Or.inr hA)).trans (Later.set ?_)
  by_cases hAB : B = A
  · subst hAB
    rw [hA] at hB
    cases hB
    left
    exact (if_pos rfl : (M.setShell B tA).shells B = tA).symm
  · right
    rw [show (M.setShell A tA).shells B = M.shells B from if_neg hAB]
    exact hB

/-- What a successful evaluation of one connection did. -/
theorem connOne_ok (E : Env K) (M M' : Multi K) (size A B : ℕ) (d : ConnD K) (L : Coo K)
    (h : connOne E M size A B d = .ok (L, M')) :
    Later E M M' ∧ ∃ qA qB, M.place A = some qA ∧ M.place B = some qB ∧
      JointOf E (M.shells A) (M.shells B) qA.col0 qB.col0 d L := by
  unfold connOne at h
  cases hpA : M.place A with
  | none => simp [hpA, bind, Except.bind] at h
  | some qA =>
  cases hpB : M.place B with
  | none => simp [hpA, hpB, bind, Except.bind] at h
  | some qB =>
  simp only [hpA, hpB, bind, Except.bind, pure, Except.pure] at h
  suffices Later E M M' ∧ JointOf E (M.shells A) (M.shells B) qA.col0 qB.col0 d L from
    ⟨this.1, qA, qB, rfl, rfl, this.2⟩
  have pn : ∀ {p t}, (M.shells p).rebuild E = .ok t → t.panel = (M.shells p).panel :=
    fun h => (rebuild_kept E h).2.2.1
  split at h
  · rename_i hf
    split at h; · cases h
    rename_i v1 h1
    obtain ⟨⟨kt, kr⟩, M1⟩ := v1
    split at h; · cases h
    rename_i kr' h2
    split at h; · cases h
    rename_i y1 h3
    split at h; · cases h
    rename_i y2 h4
    split at h; · cases h
    rename_i L' h5
    cases h
    refine ⟨ktkr_later h1, ?_⟩
    obtain ⟨tA, tB, lA, lB, hA, hB, hlA, hlB, hk, -, e1, e2⟩ := ktkr_ok E M _ A B _ _ h1
    have h2' := number_ok h2
    simp only at h2'
    rw [h2'] at hk
    have := toSparse_ok h5
    simp only [e1, e2, pn hA, pn hB] at this
    rw [this]
    exact .SSy hf hA hB hlA hlB hk (key_ok h3) (key_ok h4)
  split at h
  · rename_i hf
    split at h; · cases h
    rename_i v1 h1
    obtain ⟨⟨kt, kr⟩, M1⟩ := v1
    split at h; · cases h
    rename_i kr' h2
    split at h; · cases h
    rename_i y1 h3
    split at h; · cases h
    rename_i y2 h4
    split at h; · cases h
    rename_i L' h5
    cases h
    refine ⟨ktkr_later h1, ?_⟩
    obtain ⟨tA, tB, lA, lB, hA, hB, hlA, hlB, hk, -, e1, e2⟩ := ktkr_ok E M _ A B _ _ h1
    have h2' := number_ok h2
    simp only at h2'
    rw [h2'] at hk
    have := toSparse_ok h5
    simp only [e1, e2, pn hA, pn hB] at this
    rw [this]
    exact .SSx hf hA hB hlA hlB hk (key_ok h3) (key_ok h4)
  split at h
  · rename_i hf
    split at h; · cases h
    rename_i v1 h1
    obtain ⟨⟨kt, kr⟩, M1⟩ := v1
    split at h; · cases h
    rename_i a1 h3
    split at h; · cases h
    rename_i a2 h4
    split at h; · cases h
    rename_i L' h5
    cases h
    refine ⟨ktkr_later h1, ?_⟩
    obtain ⟨tA, tB, lA, lB, hA, hB, hlA, hlB, hk, -, e1, e2⟩ := ktkr_ok E M _ A B _ _ h1
    have h3' := (thick_ok h3).2
    have h4' := (thick_ok h4).2
    have := toSparse_ok h5
    simp only [e1, e2] at h3' h4'
    simp only [e1, e2, pn hA, pn hB, h3', h4'] at this
    rw [this]
    exact .SB hf hA hB hlA hlB hk
  split at h
  · rename_i hf
    split at h; · cases h
    rename_i v1 h1
    obtain ⟨⟨kt, kr⟩, M1⟩ := v1
    split at h; · cases h
    rename_i kr' h2
    split at h; · cases h
    rename_i y1 h3
    split at h; · cases h
    rename_i y2 h4
    split at h; · cases h
    rename_i L' h5
    cases h
    refine ⟨ktkr_later h1, ?_⟩
    obtain ⟨tA, tB, lA, lB, hA, hB, hlA, hlB, hk, -, e1, e2⟩ := ktkr_ok E M _ A B _ _ h1
    have h2' := number_ok h2
    simp only at h2'
    rw [h2'] at hk
    have := toSparse_ok h5
    simp only [e1, e2, pn hA, pn hB] at this
    rw [this]
    exact .BFy hf hA hB hlA hlB hk (key_ok h3) (key_ok h4)
  split at h
  · rename_i hf
    split at h; · cases h
    rename_i v1 h1
    obtain ⟨⟨kt, kr⟩, M1⟩ := v1
    split at h; · cases h
    rename_i kr' h2
    split at h; · cases h
    rename_i y1 h3
    split at h; · cases h
    rename_i y2 h4
    split at h; · cases h
    rename_i L' h5
    cases h
    refine ⟨ktkr_later h1, ?_⟩
    obtain ⟨tA, tB, lA, lB, hA, hB, hlA, hlB, hk, -, e1, e2⟩ := ktkr_ok E M _ A B _ _ h1
    have h2' := number_ok h2
    simp only at h2'
    rw [h2'] at hk
    have := toSparse_ok h5
    simp only [e1, e2, pn hA, pn hB] at this
    rw [this]
    exact .BFx hf hA hB hlA hlB hk (key_ok h3) (key_ok h4)
  split at h
  · split at h <;> cases h
  split at h
  · rename_i hf
    split at h; · cases h
    rename_i tsl h1
    split at h; · cases h
    rename_i hab
    split at h; · cases h
    rename_i hlin
    split at h; · cases h
    rename_i a1 h3
    split at h; · cases h
    rename_i a2 h4
    split at h; · cases h
    rename_i L' h5
    cases h
    refine ⟨Later.refl E _, ?_⟩
    have h3' := thick_ok h3
    have h4' := thick_ok h4
    have := toSparse_ok h5
    rw [h3'.2, h4'.2] at this
    rw [this]
    push_neg at hab
    have h1' := key_ok h1
    rw [not_not.1 hlin] at h1'
    exact .TSL hf (.inl rfl) (.inl rfl) h3'.1 h4'.1 h1' hab.1 hab.2
  · cases h

/-- One connection has one matrix, whether or not the panels were rebuilt before. -/
theorem JointOf.unique {E : Env K} {sA sB uA uB : Shell K} {a b : ℕ} {d : ConnD K} {L L' : Coo K}
    (hA : Reb E sA uA) (hB : Reb E sB uB) (h : JointOf E sA sB a b d L)
    (h' : JointOf E uA uB a b d L') : L' = L := by
  have pA := hA.panel
  have pB := hB.panel
  cases h with
  | SSx hf h1 h2 h3 h4 h5 h6 h7 =>
    cases h' with
    | SSx gf g1 g2 g3 g4 g5 g6 g7 =>
      have e1 := hA.rebuild' h1
      have e2 := hB.rebuild' h2
      simp_all
    | _ gf => rw [hf] at gf; exact absurd gf (by decide)
  | SSy hf h1 h2 h3 h4 h5 h6 h7 =>
    cases h' with
    | SSy gf g1 g2 g3 g4 g5 g6 g7 =>
      have e1 := hA.rebuild' h1
      have e2 := hB.rebuild' h2
      simp_all
    | _ gf => rw [hf] at gf; exact absurd gf (by decide)
  | BFx hf h1 h2 h3 h4 h5 h6 h7 =>
    cases h' with
    | BFx gf g1 g2 g3 g4 g5 g6 g7 =>
      have e1 := hA.rebuild' h1
      have e2 := hB.rebuild' h2
      simp_all
    | _ gf => rw [hf] at gf; exact absurd gf (by decide)
  | BFy hf h1 h2 h3 h4 h5 h6 h7 =>
    cases h' with
    | BFy gf g1 g2 g3 g4 g5 g6 g7 =>
      have e1 := hA.rebuild' h1
      have e2 := hB.rebuild' h2
      simp_all
    | _ gf => rw [hf] at gf; exact absurd gf (by decide)
  | SB hf h1 h2 h3 h4 h5 =>
    cases h' with
    | SB gf g1 g2 g3 g4 g5 =>
      have e1 := hA.rebuild' h1
      have e2 := hB.rebuild' h2
      simp_all
    | _ gf => rw [hf] at gf; exact absurd gf (by decide)
  | TSL hf h1 h2 h3 h4 h5 h6 h7 =>
    cases h' with
    | TSL gf g1 g2 g3 g4 g5 g6 g7 =>
      have e1 := Reb.plyts_eq h1 (hA.trans g1) h3 g3
      have e2 := Reb.plyts_eq h2 (hB.trans g2) h4 g4
      rw [pA, pB, hA.pan, e1, e2]
    | _ gf => rw [hf] at gf; exact absurd gf (by decide)

/-- A connection of rebuilt panels is a connection of the panels before. -/
theorem JointOf.before {E : Env K} {sA sB uA uB : Shell K} {a b : ℕ} {d : ConnD K} {L : Coo K}
    (hA : Reb E sA uA) (hB : Reb E sB uB) (h : JointOf E uA uB a b d L) : JointOf E sA sB a b d L := by
  have pA := hA.panel
  have pB := hB.panel
  cases h with
  | SSx hf h1 h2 h3 h4 h5 h6 h7 =>
    rw [pA, pB]; exact .SSx hf (hA.rebuild h1) (hB.rebuild h2) h3 h4 h5 h6 h7
  | SSy hf h1 h2 h3 h4 h5 h6 h7 =>
    rw [pA, pB]; exact .SSy hf (hA.rebuild h1) (hB.rebuild h2) h3 h4 h5 h6 h7
  | BFx hf h1 h2 h3 h4 h5 h6 h7 =>
    rw [pA, pB]; exact .BFx hf (hA.rebuild h1) (hB.rebuild h2) h3 h4 h5 h6 h7
  | BFy hf h1 h2 h3 h4 h5 h6 h7 =>
    rw [pA, pB]; exact .BFy hf (hA.rebuild h1) (hB.rebuild h2) h3 h4 h5 h6 h7
  | SB hf h1 h2 h3 h4 h5 =>
    rw [pA, pB]; exact .SB hf (hA.rebuild h1) (hB.rebuild h2) h3 h4 h5
  | TSL hf h1 h2 h3 h4 h5 h6 h7 =>
    rw [pA, pB, hA.pan]
    exact .TSL hf (hA.trans h1) (hB.trans h2) h3 h4 h5 (by rw [← hA.pan, ← hB.pan]; exact h6)
      (by rw [← hA.pan, ← hB.pan]; exact h7)

theorem pairOf_later {E : Env K} {M M' : Multi K} (h : Later E M M') (prev : Option (ℕ × ℕ))
    (d : ConnD K) : pairOf M' prev d = pairOf M prev d := by
  unfold pairOf
  rw [h.place]

/-- What the loop did: the pairs it used, the dictionaries it left and one matrix per connection. -/
inductive LoopOf (E : Env K) (M : Multi K) : Option (ℕ × ℕ) → List (ConnD K) → List (ConnD K) →
    List (Coo K) → Prop
  | nil {prev} : LoopOf E M prev [] [] []
  | cons {prev d d' p qA qB L ds ds' Ls} (hp : pairOf M prev d = .ok (p, d'))
      (hA : M.place p.1 = some qA) (hB : M.place p.2 = some qB)
      (hJ : JointOf E (M.shells p.1) (M.shells p.2) qA.col0 qB.col0 d' L)
      (hr : LoopOf E M (some p) ds ds' Ls) : LoopOf E M prev (d :: ds) (d' :: ds') (L :: Ls)

theorem LoopOf.before {E : Env K} {M M' : Multi K} (h : Later E M M') {prev : Option (ℕ × ℕ)}
    {l l' : List (ConnD K)} {Ls : List (Coo K)} (hl : LoopOf E M' prev l l' Ls) :
    LoopOf E M prev l l' Ls := by
  induction hl with
  | nil => exact .nil
  | cons hp hA hB hJ hr ih =>
    exact .cons (by rw [← pairOf_later h]; exact hp) (by rw [← h.place]; exact hA)
      (by rw [← h.place]; exact hB) (hJ.before (h.shells _) (h.shells _)) ih

/-- What a successful loop did. -/
theorem connLoop_ok (E : Env K) (size : ℕ) (l : List (ConnD K)) (M M' : Multi K)
    (prev : Option (ℕ × ℕ)) (L : Coo K) (l' : List (ConnD K))
    (h : connLoop E size l M prev = .ok (L, l', M')) :
    Later E M M' ∧ ∃ Ls, L = Ls.flatten ∧ LoopOf E M prev l l' Ls := by
  induction l generalizing M prev L l' with
  | nil =>
    cases h
    exact ⟨Later.refl E _, [], rfl, .nil⟩
  | cons d ds ih =>
    simp only [connLoop, bind, Except.bind, pure, Except.pure] at h
    split at h; · cases h
    rename_i v hv
    obtain ⟨p, d'⟩ := v
    split at h; · cases h
    rename_i v1 h1
    obtain ⟨L1, M1⟩ := v1
    split at h; · cases h
    rename_i v2 h2
    obtain ⟨R, ds', M2⟩ := v2
    cases h
    obtain ⟨k1, qA, qB, hA, hB, hJ⟩ := connOne_ok E M M1 size _ _ _ _ h1
    obtain ⟨k2, Ls, rfl, hl⟩ := ih _ _ _ _ h2
    exact ⟨k1.trans k2, L1 :: Ls, rfl, .cons hv hA hB hJ (hl.before k1)⟩

/-- Two evaluations of one list, on panels rebuilt in between or not, give the same matrices. -/
theorem LoopOf.unique {E : Env K} {M M' : Multi K} (hp : M'.place = M.place)
    (hs : ∀ p, Reb E (M.shells p) (M'.shells p)) {prev : Option (ℕ × ℕ)}
    {l l' l'' : List (ConnD K)} {Ls Ls' : List (Coo K)} (h : LoopOf E M prev l l' Ls)
    (h' : LoopOf E M' prev l l'' Ls') : l'' = l' ∧ Ls' = Ls := by
  induction h generalizing l'' Ls' with
  | nil => cases h'; exact ⟨rfl, rfl⟩
  | cons hv hA hB hJ hr ih =>
    cases h' with
    | cons gv gA gB gJ gr =>
      have e : ∀ pr d, pairOf M' pr d = pairOf M pr d := by intro pr d; unfold pairOf; rw [hp]
      rw [e, hv] at gv
      cases gv
      rw [hp, hA] at gA
      rw [hp, hB] at gB
      cases gA
      cases gB
      obtain ⟨rfl, rfl⟩ := ih gr
      rw [JointOf.unique (hs _) (hs _) hJ gJ]
      exact ⟨rfl, rfl⟩

/-- The quadratic form of a sum of half-stored matrices. -/
theorem quad_flatten (Ls : List (Coo K)) (v : ℕ → K) :
    Coo.quad (Coo.finalizeSym Ls.flatten) v
      = (Ls.map fun L => Coo.quad (Coo.finalizeSym L) v).sum := by
  induction Ls with
  | nil => rfl
  | cons a l ih => rw [List.flatten_cons, Coo.finalizeSym_append_quad, ih]; rfl

end Verif
