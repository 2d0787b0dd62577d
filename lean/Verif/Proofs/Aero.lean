import Verif.Model.Aero
import Verif.Basic.Exc
import Verif.Proofs.BayParts
import Verif.Proofs.ShellBase

/-!
# `calc_kA`: what a call amounts to
-/

namespace Verif

open Model

variable {K : Type} [Field K] [LinearOrder K]

theorem key_iff {α : Type} {o : Option α} {x : α} : key o = .ok x ↔ o = some x := by
  cases o with
  | none => constructor <;> (intro h; cases h)
  | some y => constructor <;> (intro h; cases h; rfl)

omit [Field K] [LinearOrder K] in
theorem number_iff {o : Option K} {x : K} : number o = .ok x ↔ o = some x := by
  cases o with
  | none => constructor <;> (intro h; cases h)
  | some y => constructor <;> (intro h; cases h; rfl)

theorem machOf_ok {o : Option K} {M : K} :
    machOf o = .ok M ↔ ∃ M0, o = some M0 ∧ 1 ≤ M0 ∧ M = if M0 = 1 then 10001 / 10000 else M0 := by
  cases o with
  | none =>
    constructor
    · intro h; cases h
    · rintro ⟨_, h, _⟩; cases h
  | some M0 =>
    unfold machOf
    constructor
    · intro h
      refine ⟨M0, rfl, ?_⟩
      dsimp only at h
      split at h
      · cases h
      · next h1 =>
        refine ⟨not_lt.1 h1, ?_⟩
        split at h
        · next h2 => cases h; rw [if_pos h2]
        · next h2 => cases h; rw [if_neg h2]
    · rintro ⟨M1, h, h1, rfl⟩
      cases h
      dsimp only
      rw [if_neg (not_lt.2 h1)]
      split <;> rfl

/-- The shell after a call. -/
def afterKA (s : Shell K) (beta gamma : K) (M : Option K) : Shell K :=
  { s.fixR with beta := some beta, gamma := some gamma, Mach := M }

theorem calcKA_ok {root : K → K} {E : Env K} {s s' : Shell K} {size : SizeArg} {row0 col0 : ℕ}
    {fi : Bool} {L : Coo K} :
    s.calcKA root E size row0 col0 fi = .ok (L, s') ↔
      ∃ k beta gamma M L0, s.model.bind kindOf = some k ∧
        s.fixR.piston root = .ok (beta, gamma, M) ∧
        (afterKA s beta gamma M).fkA E k beta gamma row0 col0 = .ok L0 ∧
        toSparse (size.value (3 * s.pan.m * s.pan.n)) L0 = .ok L0 ∧
        L = finSkew fi L0 ∧ s' = afterKA s beta gamma M := by
  constructor
  · intro h
    unfold Shell.calcKA at h
    obtain ⟨k, hk, h⟩ := bind_ok.1 h
    obtain ⟨⟨beta, gamma, M⟩, hp, h⟩ := bind_ok.1 h
    obtain ⟨L0, hL, h⟩ := bind_ok.1 h
    obtain ⟨L1, hT, h⟩ := bind_ok.1 h
    have e := toSparse_inv hT
    cases h
    subst e
    exact ⟨k, beta, gamma, M, L1, key_iff.1 hk, hp, hL, hT, rfl, rfl⟩
  · rintro ⟨k, beta, gamma, M, L0, hk, hp, hL, hT, rfl, rfl⟩
    unfold Shell.calcKA
    refine bind_ok.2 ⟨k, key_iff.2 hk, bind_ok.2 ⟨(beta, gamma, M), hp, bind_ok.2 ⟨L0, hL,
      bind_ok.2 ⟨L0, hT, rfl⟩⟩⟩⟩

/-- The parameters of a panel without stored ones. -/
theorem piston_ok {root : K → K} {s : Shell K} {beta gamma : K} {M : Option K} (hb : s.beta = none) :
    s.piston root = .ok (beta, gamma, M) ↔
      ∃ M0 V rho, s.Mach = some M0 ∧ 1 ≤ M0 ∧ s.V = some V ∧ s.rhoAir = some rho ∧
        M = some (if M0 = 1 then 10001 / 10000 else M0) ∧
        beta = rho * V ^ 2 / root ((if M0 = 1 then 10001 / 10000 else M0) ^ 2 - 1) ∧
        gamma = if s.r.getD 0 ≠ 0
          then beta * 1 / (2 * s.r.getD 0 * root ((if M0 = 1 then 10001 / 10000 else M0) ^ 2 - 1))
          else 0 := by
  unfold Shell.piston
  rw [hb]
  constructor
  · intro h
    obtain ⟨M1, hM, h⟩ := bind_ok.1 h
    obtain ⟨V, hV, h⟩ := bind_ok.1 h
    obtain ⟨rho, hr, h⟩ := bind_ok.1 h
    obtain ⟨M0, hM0, h1, rfl⟩ := machOf_ok.1 hM
    cases h
    exact ⟨M0, V, rho, hM0, h1, number_iff.1 hV, number_iff.1 hr, rfl, rfl, rfl⟩
  · rintro ⟨M0, V, rho, hM0, h1, hV, hr, rfl, rfl, rfl⟩
    exact bind_ok.2 ⟨_, machOf_ok.2 ⟨M0, hM0, h1, rfl⟩, bind_ok.2 ⟨V, number_iff.2 hV,
      bind_ok.2 ⟨rho, number_iff.2 hr, rfl⟩⟩⟩

/-- The builders stay inside the matrix. -/
theorem fkA_total (E : Env K) (k : Kind) (s : Shell K) (beta gamma : K) {row0 col0 size : ℕ}
    (hf : lower s.flow = "x" ∨ lower s.flow = "y") (h : InSize s.pan row0 col0 size) :
    ∃ L, s.fkA E k beta gamma row0 col0 = .ok L ∧ toSparse size L = .ok L := by
  have h' : InSize s.panel row0 col0 size := h
  unfold Shell.fkA
  by_cases hx : lower s.flow = "x"
  · rw [if_pos hx]
    refine ⟨_, rfl, ?_⟩
    cases k
    · exact toSparse_fits s.panel (C24.plateFkAxNum_fits ..) h' pos_fdim
    · exact toSparse_fits s.panel (C24.cylFkAxNum_fits ..) h' pos_fdim
  · rw [if_neg hx, if_pos (hf.resolve_left hx)]
    exact ⟨_, rfl, toSparse_fits s.panel (C24.fkAyNum_fits ..) h' pos_fdim⟩

/-- The stored parameters. -/
theorem piston_stored {root : K → K} {s : Shell K} {b : K} (hb : s.beta = some b) :
    s.piston root = .ok (b, s.gamma.getD 0, s.Mach) := by
  unfold Shell.piston
  rw [hb]

theorem toLower_of {c d e : Char} (he : e.val + 32 = d.val) (h : c.toLower = d) : c = d ∨ c = e := by
  unfold Char.toLower at h
  split at h
  · right
    have h2 : c.val + 32 = e.val + 32 := (congrArg Char.val h).trans he.symm
    exact Char.ext (UInt32.add_left_inj _ |>.1 h2)
  · left; exact h

theorem lower_single {s : String} {d e : Char} (he : e.val + 32 = d.val) 
    (h : lower s = String.ofList [d]) : s = String.ofList [d] ∨ s = String.ofList [e] := by
  unfold lower at h
  have h1 : s.toList.map Char.toLower = [d] := by
    have := congrArg String.toList h
    simpa using this
  obtain ⟨c, hc, hl⟩ := List.map_eq_singleton_iff.1 h1
  have hs : s = String.ofList [c] := by rw [← hc]; simp
  rcases toLower_of he hl with rfl | rfl
  · left; exact hs
  · right; exact hs

theorem lower_x {s : String} : lower s = "x" ↔ s = "x" ∨ s = "X" := by
  constructor
  · exact lower_single (d := 'x') (e := 'X') (by decide)
  · rintro (rfl | rfl) <;> decide

theorem lower_y {s : String} : lower s = "y" ↔ s = "y" ∨ s = "Y" := by
  constructor
  · exact lower_single (d := 'y') (e := 'Y') (by decide)
  · rintro (rfl | rfl) <;> decide

end Verif
