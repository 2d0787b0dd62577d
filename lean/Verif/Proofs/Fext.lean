import Verif.Proofs.FieldOut
import Verif.Spec.Work

/-!
# Lemmas on the external force vector
-/

namespace Verif

open Finset Model Spec

variable {K : Type*} [Field K]

/-- `s'` is `s` plus forces inside the block whose work is `W`. -/
structure Adds (P : Panel K) (size col0 : ℕ) (s s' : FState K) (W : (ℕ → K) → K) : Prop where
  clean : CleanG P s'.g
  work : ∀ c, ∑ k ∈ range size, s'.f k * c k = ∑ k ∈ range size, s.f k * c k + W c
  outside : ∀ k, ¬ (col0 ≤ k ∧ k < col0 + 3 * P.m * P.n) → s'.f k = s.f k

theorem sum_block (size col0 N : ℕ) (h : col0 + N ≤ size) (w : ℕ → K) :
    ∑ k ∈ range size, (if col0 ≤ k ∧ k < col0 + N then w (k - col0) * 1 else 0)
      = ∑ k ∈ range N, w k := by
  obtain ⟨r, rfl⟩ := Nat.exists_eq_add_of_le h
  rw [Nat.add_assoc, sum_range_add, sum_range_add]
  have h1 : ∑ k ∈ range col0, (if col0 ≤ k ∧ k < col0 + N then w (k - col0) * 1 else 0) = 0 :=
    sum_eq_zero fun k hk => if_neg fun h => by have := mem_range.1 hk; omega
  have h2 : ∑ k ∈ range r, (if col0 ≤ col0 + (N + k) ∧ col0 + (N + k) < col0 + N
      then w (col0 + (N + k) - col0) * 1 else 0) = 0 :=
    sum_eq_zero fun k hk => if_neg fun h => by omega
  rw [h1, h2, zero_add, add_zero]
  refine sum_congr rfl fun k hk => ?_
  have := mem_range.1 hk
  rw [if_pos ⟨by omega, by omega⟩, mul_one, Nat.add_sub_cancel_left]

theorem addAt_adds (S : Shape K) (P : Panel K) (size col0 : ℕ) (h : col0 + 3 * P.m * P.n ≤ size)
    (s : FState K) (hs : CleanG P s.g) (x y w fx fy fz : K) :
    ∃ s', addAt S P size col0 s x y w fx fy fz = .ok s' ∧ Adds P size col0 s s' fun c =>
      w * (fx * field S P col0 c 0 x y + fy * field S P col0 c 1 x y
        + fz * field S P col0 c 2 x y) := by
  have hn : ¬ size < col0 + getSize P := by unfold getSize; omega
  refine ⟨_, by rw [addAt, if_neg hn], hs.fg x y, fun c => ?_, fun k hk => if_neg hk⟩
  have hr := fun r (hr : r < 5) => fg_dot_field S P s.g hs x y r hr col0 c
  have e0 := hr 0 (by omega)
  have e1 := hr 1 (by omega)
  have e2 := hr 2 (by omega)
  simp only [rowField] at e0 e1 e2
  have hb := sum_block size col0 (getSize P) (by unfold getSize; exact h) fun k =>
    w * (fx * (fg S P s.g x y 0 k * c (col0 + k)) + fy * (fg S P s.g x y 1 k * c (col0 + k))
      + fz * (fg S P s.g x y 2 k * c (col0 + k)))
  have hsum : ∑ k ∈ range (getSize P), w * (fx * (fg S P s.g x y 0 k * c (col0 + k))
      + fy * (fg S P s.g x y 1 k * c (col0 + k)) + fz * (fg S P s.g x y 2 k * c (col0 + k)))
      = w * (fx * field S P col0 c 0 x y + fy * field S P col0 c 1 x y
        + fz * field S P col0 c 2 x y) := by
    simp only [field, ← e0, ← e1, ← e2, mul_sum, ← sum_add_distrib]
  rw [← hsum, ← hb, ← sum_add_distrib]
  refine sum_congr rfl fun k _ => ?_
  by_cases hk : col0 ≤ k ∧ k < col0 + getSize P
  · simp only [if_pos hk, Nat.add_sub_cancel' hk.1]
    ring
  · simp only [if_neg hk, add_zero]

theorem Adds.refl {P : Panel K} {size col0 : ℕ} {s : FState K} (h : CleanG P s.g) :
    Adds P size col0 s s fun _ => 0 :=
  ⟨h, fun _ => (add_zero _).symm, fun _ _ => rfl⟩

theorem Adds.trans {P : Panel K} {size col0 : ℕ} {s t r : FState K} {V W : (ℕ → K) → K}
    (h : Adds P size col0 s t V) (h' : Adds P size col0 t r W) :
    Adds P size col0 s r fun c => V c + W c :=
  ⟨h'.clean, fun c => by rw [h'.work, h.work, add_assoc],
    fun k hk => (h'.outside k hk).trans (h.outside k hk)⟩

theorem Adds.congr {P : Panel K} {size col0 : ℕ} {s t : FState K} {V W : (ℕ → K) → K}
    (h : Adds P size col0 s t V) (e : ∀ c, V c = W c) : Adds P size col0 s t W :=
  ⟨h.clean, fun c => by rw [h.work, e], h.outside⟩

theorem foldlM_adds {ι : Type*} {P : Panel K} {size col0 : ℕ}
    (step : FState K → ι → Except Err (FState K)) (W : ι → (ℕ → K) → K) (l : List ι)
    (h : ∀ e ∈ l, ∀ s, CleanG P s.g → ∃ s', step s e = .ok s' ∧ Adds P size col0 s s' (W e))
    (s : FState K) (hs : CleanG P s.g) :
    ∃ s', l.foldlM step s = .ok s' ∧ Adds P size col0 s s' fun c => (l.map fun e => W e c).sum := by
  induction l generalizing s with
  | nil => exact ⟨s, rfl, (Adds.refl hs).congr fun c => by simp⟩
  | cons e l ih =>
    obtain ⟨t, ht, ha⟩ := h e List.mem_cons_self s hs
    obtain ⟨r, hr, hb⟩ := ih (fun e he => h e (List.mem_cons_of_mem _ he)) t ha.clean
    refine ⟨r, ?_, (ha.trans hb).congr fun c => by simp⟩
    rw [List.foldlM_cons, ht]
    exact hr

theorem orZero_eq (f : Option (K → K)) : orZero f = comp f := by
  cases f <;> rfl

theorem addPoints_adds (S : Shape K) (P : Panel K) (size col0 : ℕ)
    (h : col0 + 3 * P.m * P.n ≤ size) (l : List (PLoad K × K)) (s : FState K)
    (hs : CleanG P s.g) :
    ∃ s', addPoints S P size col0 s l = .ok s' ∧ Adds P size col0 s s' fun c =>
      (l.map fun e => e.2 * pointWork (field S P col0 c) e.1).sum := by
  refine foldlM_adds _ (fun e c => e.2 * pointWork (field S P col0 c) e.1) l
    (fun e _ s hs => ?_) s hs
  obtain ⟨t, ht, ha⟩ := addAt_adds S P size col0 h s hs e.1.x e.1.y 1 (e.1.fx * e.2)
    (e.1.fy * e.2) (e.1.fz * e.2)
  exact ⟨t, ht, ha.congr fun c => by unfold pointWork; ring⟩

theorem addDistr_adds (S : Shape K) (G : GaussTab K) (P : Panel K) (size col0 : ℕ)
    (h : col0 + 3 * P.m * P.n ≤ size) (e : DLoad K × K) (he : OnLine e.1) (s : FState K)
    (hs : CleanG P s.g) :
    ∃ s', addDistr S G P size col0 s e = .ok s' ∧ Adds P size col0 s s' fun c =>
      e.2 * distrWork G P (field S P col0 c) e.1 := by
  obtain ⟨⟨x, y, fx, fy, fz⟩, w⟩ := e
  match x, y with
  | none, none => exact absurd rfl he
  | some _, some _ => exact absurd rfl he
  | none, some y =>
    obtain ⟨t, ht, ha⟩ := foldlM_adds (P := P) (size := size) (col0 := col0)
      (fun s p => addAt S P size col0 s ((G.pt P.m p + 1) * P.a / 2) y (G.wt P.m p * (P.a / 2))
        (orZero fx ((G.pt P.m p + 1) * P.a / 2) * w) (orZero fy ((G.pt P.m p + 1) * P.a / 2) * w)
        (orZero fz ((G.pt P.m p + 1) * P.a / 2) * w)) _ (List.range P.m)
      (fun p _ s hs => addAt_adds S P size col0 h s hs _ _ _ _ _ _) s hs
    refine ⟨t, ht, ha.congr fun c => ?_⟩
    rw [list_sum_range]
    simp only [distrWork, lineQuad, mul_sum]
    refine sum_congr rfl fun p _ => ?_
    simp only [orZero_eq]
    ring
  | some x, none =>
    obtain ⟨t, ht, ha⟩ := foldlM_adds (P := P) (size := size) (col0 := col0)
      (fun s p => addAt S P size col0 s x ((G.pt P.n p + 1) * P.b / 2) (G.wt P.n p * (P.b / 2))
        (orZero fx ((G.pt P.n p + 1) * P.b / 2) * w) (orZero fy ((G.pt P.n p + 1) * P.b / 2) * w)
        (orZero fz ((G.pt P.n p + 1) * P.b / 2) * w)) _ (List.range P.n)
      (fun p _ s hs => addAt_adds S P size col0 h s hs _ _ _ _ _ _) s hs
    refine ⟨t, ht, ha.congr fun c => ?_⟩
    rw [list_sum_range]
    simp only [distrWork, lineQuad, mul_sum]
    refine sum_congr rfl fun p _ => ?_
    simp only [orZero_eq]
    ring

theorem sum_map_inc {ι : Type*} (A B : List ι) (inc : K) (W : ι → K) :
    ((A.map (fun l => (l, (1 : K))) ++ B.map (fun l => (l, inc))).map
      fun e => e.2 * W e.1).sum = (A.map W).sum + inc * (B.map W).sum := by
  simp [List.map_append, List.map_map, Function.comp_def, List.sum_map_mul_left]

/-- The whole of `shell_fext`. -/
theorem shellFext_adds (S : Shape K) (G : GaussTab K) (P : Panel K) (L : Loads K)
    (hL : WellFormed L) (inc : K) (size : SizeArg) (col0 : ℕ)
    (h : col0 + 3 * P.m * P.n ≤ size.value (getSize P)) :
    ∃ f, shellFext S G P L inc size col0 = .ok f ∧
      (∀ c, ∑ k ∈ range (size.value (getSize P)), f k * c k
        = constWork G P L (field S P col0 c) + inc * incWork G P L (field S P col0 c)) ∧
      ∀ k, ¬ (col0 ≤ k ∧ k < col0 + 3 * P.m * P.n) → f k = 0 := by
  have hD : ∀ A B : List (DLoad K), (∀ l ∈ A, OnLine l) → (∀ l ∈ B, OnLine l) → ∀ s : FState K,
      CleanG P s.g → ∃ s', (A.map (fun l => (l, (1 : K))) ++ B.map (fun l => (l, inc))).foldlM
        (addDistr S G P (size.value (getSize P)) col0) s = .ok s' ∧
        Adds P (size.value (getSize P)) col0 s s' fun c =>
          ((A.map (fun l => (l, (1 : K))) ++ B.map (fun l => (l, inc))).map fun e =>
            e.2 * distrWork G P (field S P col0 c) e.1).sum := by
    intro A B hA hB s hs
    refine foldlM_adds _ (fun e c => e.2 * distrWork G P (field S P col0 c) e.1) _
      (fun e he s hs => addDistr_adds S G P _ col0 h e ?_ s hs) s hs
    rcases List.mem_append.1 he with he | he
    · obtain ⟨l, hl, rfl⟩ := List.mem_map.1 he
      exact hA l hl
    · obtain ⟨l, hl, rfl⟩ := List.mem_map.1 he
      exact hB l hl
  have hL' : ∀ l, (l ∈ L.distrLoads ∨ l ∈ L.distrLoadsInc ∨ l ∈ L.distrPds ∨ l ∈ L.distrPdsInc) →
      OnLine l := fun l hl => hL l (by simp only [List.mem_append]; tauto)
  obtain ⟨s1, e1, a1⟩ := addPoints_adds S P (size.value (getSize P)) col0 h
    (L.pointLoads.map (fun l => (l, 1)) ++ L.pointLoadsInc.map (fun l => (l, inc)))
    ⟨fun _ _ => 0, fun _ => 0⟩ (cleanG_zero P)
  obtain ⟨s2, e2, a2⟩ := hD L.distrLoads L.distrLoadsInc (fun l hl => hL' l (by tauto))
    (fun l hl => hL' l (by tauto)) s1 a1.clean
  obtain ⟨s3, e3, a3⟩ := addPoints_adds S P (size.value (getSize P)) col0 h
    (L.pointPds.map (fun l => (l, 1)) ++ L.pointPdsInc.map (fun l => (l, inc))) s2 a2.clean
  obtain ⟨s4, e4, a4⟩ := hD L.distrPds L.distrPdsInc (fun l hl => hL' l (by tauto))
    (fun l hl => hL' l (by tauto)) s3 a3.clean
  have a := ((a1.trans a2).trans a3).trans a4
  refine ⟨s4.f, ?_, fun c => ?_, fun k hk => ?_⟩
  · unfold shellFext
    simp only [e1, e2, e3, e4, bind, Except.bind, pure, Except.pure]
  · rw [a.work]
    simp only [sum_map_inc, zero_mul, sum_const_zero, constWork, incWork]
    ring
  · rw [a.outside k hk]

end Verif
