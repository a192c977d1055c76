import Verif.Lemmas.Field
import Verif.Props.RefUpdate
import Verif.Spec.RefRun

/-!
# C54: frames written by the reference code
-/

set_option linter.unusedSectionVars false
set_option linter.unusedSimpArgs false

namespace Gals.Props

open Gals Gals.Ref

/-! ## Text of one frame -/

section text
variable {K : Type}

theorem mapM_ok {α β : Type} {f : α → M β} {g : α → β} {l : List α} (h : ∀ a ∈ l, f a = .ok (g a)) :
    l.mapM f = .ok (l.map g) := by
  induction l with
  | nil => rfl
  | cons a l ih =>
    rw [List.mapM_cons, h a List.mem_cons_self, M.ok_bind, ih fun b hb => h b (List.mem_cons_of_mem _ hb), M.ok_bind]
    rfl

theorem intersperse_cons {α : Type} (s a : α) (l : List α) : (a :: l).intersperse s = a :: l.flatMap fun b => [s, b] := by
  induction l generalizing a with
  | nil => rfl
  | cons b l ih => rw [List.intersperse_cons_cons, ih b]; rfl

theorem printRow_eq {g : ℕ → M K} {f : ℕ → K} {nx : ℕ} (h0 : 0 < nx) (h : ∀ j < nx, g j = .ok (f j)) :
    printRow g nx = .ok (Spec.rowText f nx) := by
  have e : List.range nx = 0 :: List.range' 1 (nx - 1) := by
    rw [List.range_eq_range', show nx = (nx - 1) + 1 by omega, List.range'_succ]
    simp
  rw [printRow, h 0 h0, M.ok_bind, mapM_ok (g := fun j => [Tok.comma, Tok.num (f j)]), M.ok_bind, Spec.rowText, e,
    List.map_cons, intersperse_cons, List.flatMap_map, List.flatMap_def]
  · rfl
  · intro j hj
    rw [List.mem_range'_1] at hj
    rw [h j (by omega)]
    rfl

theorem printGrid_eq {g : ℕ → ℕ → M K} {f : ℕ → ℕ → K} {nx ny : ℕ} (h0 : 0 < nx)
    (h : ∀ i < ny, ∀ j < nx, g i j = .ok (f i j)) : printGrid g nx ny = .ok (Spec.frame nx ny f) := by
  rw [printGrid, mapM_ok (g := fun i => Spec.rowText (f i) nx), M.ok_bind, Spec.frame, List.flatMap_def]
  · rfl
  · intro i hi
    exact printRow_eq h0 (h i (List.mem_range.1 hi))

theorem look_eq {m : Mem (Val K)} {a : DVar} {i j : ℕ} {v : K} (h : m (.d a i j) = .val v) : look m a i j = .ok v := by
  rw [look, h]

/-- Arrays that `fileprint` reads. -/
structure Printable (m : Mem (Val K)) (nx ny : ℕ) (xs ys : ℕ → K) (F : Spec.Fields K) : Prop where
  x : ∀ j < nx, m (.d .x 0 j) = .val (xs j)
  y : ∀ i < ny, m (.d .y 0 i) = .val (ys i)
  phi : Grid2 m .mphi nx ny F.phi
  psix : Grid2 m .mpsix nx ny F.psix
  psiy : Grid2 m .mpsiy nx ny F.psiy
  psixy : Grid2 m .mpsixy nx ny F.psixy

theorem velocityArray_eq {m : Mem (Val K)} {nx ny : ℕ} {xs ys : ℕ → K} (hx : ∀ j < nx, m (.d .x 0 j) = .val (xs j))
    (hy : ∀ i < ny, m (.d .y 0 i) = .val (ys i)) (f : K → K → K → K) (time : K) :
    ∃ g, velocityArray f nx ny time m = .ok g ∧ ∀ i < ny, ∀ j < nx, g i j = .ok (f (xs j) (ys i) time) := by
  rw [velocityArray, mapM_ok (g := fun i => (List.range nx).map fun j => f (xs j) (ys i) time), M.ok_bind]
  · refine ⟨_, rfl, fun i hi j hj => ?_⟩
    simp [hi, hj]
  · intro i hi
    refine mapM_ok fun j hj => ?_
    rw [look_eq (hx j (List.mem_range.1 hj)), M.ok_bind, look_eq (hy i (List.mem_range.1 hi)), M.ok_bind]
    rfl

/-- One call of `fileprint` appends one frame to each file. -/
theorem fileprint_eq {m : Mem (Val K)} {nx ny : ℕ} {xs ys : ℕ → K} {F : Spec.Fields K} (h : Printable m nx ny xs ys F)
    (h0 : 0 < nx) (v : Vel K) (time : K) (o : Out K) :
    ∃ o', fileprint v nx ny time m o = .ok o' ∧ Spec.Appended nx ny o o' [Spec.snapshot v.velx v.vely xs ys F time] := by
  obtain ⟨u, eu, hu⟩ := velocityArray_eq h.x h.y v.velx time
  obtain ⟨w, ew, hw⟩ := velocityArray_eq h.x h.y v.vely time
  rw [fileprint, eu, M.ok_bind, ew, M.ok_bind, printGrid_eq h0 fun i hi j hj => look_eq (h.phi i hi j hj), M.ok_bind,
    printGrid_eq h0 fun i hi j hj => look_eq (h.psix i hi j hj), M.ok_bind,
    printGrid_eq h0 fun i hi j hj => look_eq (h.psiy i hi j hj), M.ok_bind,
    printGrid_eq h0 fun i hi j hj => look_eq (h.psixy i hi j hj), M.ok_bind, printGrid_eq h0 hu, M.ok_bind,
    printGrid_eq h0 hw, M.ok_bind]
  refine ⟨_, rfl, ?_⟩
  constructor <;> simp [Spec.snapshot]

theorem appended_nil {nx ny : ℕ} (o : Out K) : Spec.Appended nx ny o o [] := by constructor <;> simp

theorem appended_append {nx ny : ℕ} {o o' o'' : Out K} {ss ts : List (Spec.Snapshot K)} (h : Spec.Appended nx ny o o' ss)
    (h' : Spec.Appended nx ny o' o'' ts) : Spec.Appended nx ny o o'' (ss ++ ts) := by
  constructor
  · rw [h'.phi, h.phi, List.flatMap_append, List.append_assoc]
  · rw [h'.psix, h.psix, List.flatMap_append, List.append_assoc]
  · rw [h'.psiy, h.psiy, List.flatMap_append, List.append_assoc]
  · rw [h'.psixy, h.psixy, List.flatMap_append, List.append_assoc]
  · rw [h'.velx, h.velx, List.flatMap_append, List.append_assoc]
  · rw [h'.vely, h.vely, List.flatMap_append, List.append_assoc]
  · rw [h'.details, h.details]

end text

/-! ## Time loop -/

section loop
variable {K : Type} [Field K]

theorem div_succ {t p : ℕ} : (t + 1) / p = t / p + if (t + 1) % p = 0 then 1 else 0 := by
  rw [Nat.succ_div]
  congr 1
  exact if_congr (Nat.dvd_iff_mod_eq_zero ..) rfl rfl

/-- The time loop on a given trajectory of memories. -/
theorem timeLoop_frames {step : ℕ → Mem (Val K) → M (Mem (Val K))} {c : Setting K} {v : Vel K} {p : ℕ} (hp : 1 ≤ p) {n : ℕ}
    (hn : n < uMod) (h0 : 0 < c.nx) {T : ℕ → Mem (Val K)} {F : ℕ → Spec.Fields K} {xs ys : ℕ → K}
    (hs : ∀ t < n, step t (T t) = .ok (T (t + 1)))
    (hT : ∀ t ≤ n, Printable (T t) c.nx c.ny xs ys (F t)) (r t : ℕ) (ht : t + r = n) (o : Out K) :
    ∃ o', timeLoop step c v p r t (T t, o) = .ok (T n, o') ∧
      Spec.Appended c.nx c.ny o o' ((List.range' (t / p + 1) (n / p - t / p)).map fun k =>
        Spec.snapshot v.velx v.vely xs ys (F (k * p)) ((k * p : ℕ) * c.dt)) := by
  induction r generalizing t o with
  | zero =>
    obtain rfl : t = n := by omega
    refine ⟨o, rfl, ?_⟩
    simpa using appended_nil o
  | succ r ih =>
    have hu : uadd t 1 = t + 1 := uadd_eq (by omega)
    rw [timeLoop]
    simp only [hs t (by omega), M.ok_bind, hu, if_neg (show ¬ p = 0 by omega)]
    have hd := div_succ (t := t) (p := p)
    have hle : (t + 1) / p ≤ n / p := Nat.div_le_div_right (by omega)
    by_cases hm : (t + 1) % p = 0
    · rw [if_pos hm] at hd
      obtain ⟨o1, e1, a1⟩ := fileprint_eq (hT (t + 1) (by omega)) h0 v (tm (t + 1) c.dt) o
      simp only [hm, if_true, e1, M.ok_bind]
      obtain ⟨o', e', a'⟩ := ih (t + 1) (by omega) o1
      refine ⟨o', e', ?_⟩
      have := appended_append a1 a'
      rw [hd] at this
      rw [show n / p - t / p = (n / p - (t / p + 1)) + 1 by omega, List.range'_succ, List.map_cons]
      have hk : (t / p + 1) * p = t + 1 := by rw [← hd]; exact Nat.div_mul_cancel (Nat.dvd_of_mod_eq_zero hm)
      simpa only [hk, tm, List.singleton_append] using this
    · rw [if_neg hm, Nat.add_zero] at hd
      simp only [hm, if_false, M.ok_bind]
      obtain ⟨o', e', a'⟩ := ih (t + 1) (by omega) o
      rw [hd] at a'
      exact ⟨o', e', a'⟩

end loop

end Gals.Props
