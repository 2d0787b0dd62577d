import Verif.Basic.Entries
import Verif.Basic.Exc
import Verif.Props.C45

/-!
# C25: finalising the matrices of an assembly

`finalize=False` gives the upper triangle only, to be finalised later: that gives the same matrix.  Of
an assembly without panels nothing can be finalised.
-/

set_option linter.unusedSectionVars false

namespace Verif.C25

open Model

variable {K : Type} [Field K] [LinearOrder K]

theorem panelLoop_keeps {f : Shell K → Place → Except Fail (Coo K × Shell K)} (l : List ℕ)
    {M N : Multi K} {L : Coo K} (h : panelLoop f l M = .ok (L, N)) :
    N.panels = M.panels ∧ N.conn = M.conn ∧ N.kCconn = M.kCconn ∧ N.place = M.place := by
  induction l generalizing M N L with
  | nil => cases h; exact ⟨rfl, rfl, rfl, rfl⟩
  | cons p l ih =>
    unfold panelLoop at h
    split at h
    · cases h
    obtain ⟨⟨A, s⟩, -, h⟩ := bind_ok.1 h
    obtain ⟨⟨R, M1⟩, h1, h⟩ := bind_ok.1 h
    cases h
    exact ih (M := M.setShell p s) h1

theorem finSum_true {l : List ℕ} {L R : Coo K} :
    finSum l true L = .ok R ↔ l ≠ [] ∧ R = Coo.finalizeSym L := by
  cases l <;> simp [finSum, fin, eq_comm]

theorem finSum_false (l : List ℕ) (L : Coo K) : finSum l false L = .ok L := by
  simp [finSum, fin]

variable {E : Env K} {M M' : Multi K}

/-- The mass matrix. -/
theorem later_kM {R : Coo K} : M.calcKM E true = .ok (R, M') ↔
    M.panels ≠ [] ∧ ∃ L, M.calcKM E false = .ok (L, M') ∧ R = Coo.finalizeSym L := by
  unfold Multi.calcKM
  simp only [bind_ok, finSum_true, finSum_false]
  constructor
  · rintro ⟨⟨L, N⟩, hL, R', ⟨h1, rfl⟩, h⟩
    cases h
    exact ⟨by rwa [(panelLoop_keeps _ hL).1] at h1, L, ⟨(L, N), hL, L, rfl, rfl⟩, rfl⟩
  · rintro ⟨h0, L, ⟨⟨L', N⟩, hL, A, hA, h⟩, rfl⟩
    cases hA
    cases h
    exact ⟨(L', N), hL, _, ⟨by rwa [(panelLoop_keeps _ hL).1], rfl⟩, rfl⟩

/-- The geometric stiffness matrix. -/
theorem later_kG {c : Option (CArg K)} {R : Coo K} : M.calcKG E c true = .ok (R, M') ↔
    M.panels ≠ [] ∧ ∃ L, M.calcKG E c false = .ok (L, M') ∧ R = Coo.finalizeSym L := by
  unfold Multi.calcKG
  simp only [bind_ok, finSum_true, finSum_false]
  constructor
  · rintro ⟨u, hu, ⟨L, N⟩, hL, R', ⟨h1, rfl⟩, h⟩
    cases h
    exact ⟨by rwa [(panelLoop_keeps _ hL).1] at h1, L, ⟨u, hu, (L, N), hL, L, rfl, rfl⟩, rfl⟩
  · rintro ⟨h0, L, ⟨u, hu, ⟨L', N⟩, hL, A, hA, h⟩, rfl⟩
    cases hA
    cases h
    exact ⟨u, hu, (L', N), hL, _, ⟨by rwa [(panelLoop_keeps _ hL).1], rfl⟩, rfl⟩

/-- The connection matrix, new or stored before, is symmetric. -/
theorem conn_symmetric {conn conn' : Option (List (ConnD K))} {L : Coo K}
    (hM : ∀ A, M.kCconn = some A → ∀ r c, A.entry r c = A.entry c r)
    (h : M.getKCconn E conn = .ok (L, conn', M')) (r c : ℕ) : L.entry r c = L.entry c r := by
  unfold Multi.getKCconn at h
  split at h
  · cases h
  split at h
  · rename_i A hA
    cases h
    exact hM _ hA r c
  · obtain ⟨⟨B, l', N⟩, -, h⟩ := bind_ok.1 h
    obtain ⟨A, hA, h⟩ := bind_ok.1 h
    have e : A = Coo.finalizeSym B := by
      unfold finSum fin at hA
      split at hA
      · cases hA
      · cases hA; rfl
    split at h <;> cases h <;> rw [e] <;> exact Coo.entry_finalizeSym_comm _ _ _

/-- The stiffness matrix: the connection matrix, which is complete already, is added in both cases. -/
theorem later_kC {conn : Option (List (ConnD K))} {c : Option (CArg K)} {R : Coo K}
    (hM : ∀ A, M.kCconn = some A → ∀ r c, A.entry r c = A.entry c r)
    (h : M.calcKC E conn c true = .ok (R, M')) :
    ∃ L, M.calcKC E conn c false = .ok (L, M') ∧
      ∀ r s, R.entry r s = (Coo.finalizeSym L).entry r s := by
  unfold Multi.calcKC at h ⊢
  obtain ⟨u, hu, h⟩ := bind_ok.1 h
  obtain ⟨⟨L, N⟩, hL, h⟩ := bind_ok.1 h
  obtain ⟨A, hA, h⟩ := bind_ok.1 h
  obtain ⟨⟨B, conn', N'⟩, hB, h⟩ := bind_ok.1 h
  cases h
  obtain ⟨-, rfl⟩ := finSum_true.1 hA
  refine ⟨L ++ B, bind_ok.2 ⟨u, hu, bind_ok.2 ⟨(L, N), hL, bind_ok.2 ⟨L, finSum_false _ _,
    bind_ok.2 ⟨(B, conn', M'), hB, rfl⟩⟩⟩⟩, fun r s => ?_⟩
  have hs := conn_symmetric (by rw [(panelLoop_keeps _ hL).2.2.1]; exact hM) hB
  rw [Coo.entry_append, Coo.entry_finalizeSym, Coo.entry_finalizeSym]
  split
  · rw [Coo.entry_append]
  · rw [Coo.entry_append, hs]

/-- An assembly without panels has an empty matrix, which cannot be finalised. -/
theorem no_panels (h : M.panels = []) : M.calcKM E false = .ok ([], M) ∧
    M.calcKM E true = .error (.raised .attributeError) ∧ M.calcKG E none false = .ok ([], M) ∧
    M.calcKG E none true = .error (.raised .attributeError) := by
  simp only [Multi.calcKM, Multi.calcKG, h]
  exact ⟨by simp only [panelLoop, bind, Except.bind, finSum, h]; rfl,
    by simp only [panelLoop, bind, Except.bind, finSum, h]; rfl,
    by simp only [panelLoop, bind, Except.bind, finSum, h]; rfl,
    by simp only [panelLoop, bind, Except.bind, finSum, h]; rfl⟩

example : ∃ x, C45.two.calcKC C45.env (some [C45.joint]) none true = .ok x :=
  exists_ok (by decide +kernel)

/-- The mass matrix needs panels that have been rebuilt. -/
example : ∃ x, (do
    let t ← (C45.shells 0).rebuild C45.env
    (Multi.init (fun _ => t) (fun _ => none) [0, 1] none).calcKM C45.env true) = .ok x :=
  exists_ok (by decide +kernel)

example : ∃ x, C45.two.calcKG C45.env none true = .ok x := exists_ok (by decide +kernel)

example : ∀ A, C45.two.kCconn = some A → ∀ r c, A.entry r c = A.entry c r := fun _ h => nomatch h

example : (Multi.init C45.shells (fun _ => none) [] none).panels = [] := rfl

end Verif.C25
