import Verif.Lemmas.Apx
import Verif.Lemmas.SplineNear

/-!
# Rounding errors of the Hermite kernels
-/

namespace Gals

open Gals.Spec

theorem apx_three : Apx (3 : F64) 3 3 0 1 := by
  have h : Apx ((3 : ℕ) : F64) ((3 : ℕ) : ℚ) ((3 : ℕ) : ℚ) 0 1 := apx_nat
  exact h

theorem apx_two : Apx (2 : F64) 2 2 0 1 := by
  have h : Apx ((2 : ℕ) : F64) ((2 : ℕ) : ℚ) ((2 : ℕ) : ℚ) 0 1 := apx_nat
  exact h

theorem Apx.scale {x : F64} {v a k s t : ℚ} (h : Apx x v a k s) (e : s = t) : Apx x v a k t := e ▸ h

/-! ## Basis functions -/

theorem apx_mul1 {x y : F64} {v w a b k l : ℚ} (h1 : Apx x v a k 1) (h2 : Apx y w b l 1) (ha : a ≤ 2 ^ 10 := by norm_num)
    (hb : b ≤ 2 ^ 10 := by norm_num) (hk : k ≤ 2 ^ 20 := by norm_num) (hl : l ≤ 2 ^ 20 := by norm_num) :
    Apx (x * y) (v * w) (a * b) (a * l + b * k + a * b / 2 + 2) 1 :=
  (h1.mul h2 one_pos one_pos (by rw [mul_one]; exact scaled_one) ha hb hk hl).scale (mul_one 1)

/-- Lists of approximations with the same bounds. -/
def ApxL (xs : List F64) (vs : List ℚ) (a k s : ℚ) : Prop := List.Forall₂ (fun x v => Apx x v a k s) xs vs

section
variable {x : F64} {η : ℚ} (hx : HasValue x η) (h : NearCell η)
include hx h

theorem apx_eta : Apx x η (17 / 16) 0 1 := Apx.exact hx (by rw [abs_le]; constructor <;> linarith [h.lo, h.hi])

theorem apx_coeta : Apx (1 - x) (1 - η) (17 / 16) 3 1 :=
  (((apx_one.sub (apx_eta hx h) scaled_one)).bound (b := 17 / 16) (by rw [abs_le]; constructor <;> linarith [h.lo, h.hi])).mono
    (by norm_num) le_rfl (by norm_num)

omit hx in
theorem poly_bounds : |(1 - η) * (1 - η) * (1 - η)| ≤ 5 / 4 * 1 ∧ |3 * η * ((1 - η) * (1 - η))| ≤ 5 / 4 * 1 ∧
    |3 * (η * η) * (1 - η)| ≤ 5 / 4 * 1 ∧ |η * η * η| ≤ 5 / 4 * 1 := by
  obtain ⟨h0, h1⟩ := h
  have p0 : 0 ≤ η + 1 / 16 := by linarith
  have p1 : 0 ≤ 17 / 16 - η := by linarith
  have q1 := mul_nonneg p0 p1
  have q2 := mul_nonneg (mul_nonneg p0 p0) p1
  have q3 := mul_nonneg (mul_nonneg p0 p1) p1
  have q4 := mul_nonneg (mul_nonneg p0 p0) p0
  have q5 := mul_nonneg (mul_nonneg p1 p1) p1
  refine ⟨?_, ?_, ?_, ?_⟩ <;> rw [abs_le] <;> constructor <;> nlinarith

theorem apx_B0 : Apx (B0 x) (B0 η) (5 / 4) 32 1 := by
  have c := apx_coeta hx h
  exact ((apx_mul1 (apx_mul1 c c) c).bound (poly_bounds h).1).mono (by norm_num) le_rfl (by norm_num)

theorem apx_B1 : Apx (B1 x) (B1 η) (5 / 4) 40 1 := by
  have c := apx_coeta hx h
  exact ((apx_mul1 (apx_mul1 apx_three (apx_eta hx h)) (apx_mul1 c c)).bound (poly_bounds h).2.1).mono (by norm_num) le_rfl
    (by norm_num)

theorem apx_B2 : Apx (B2 x) (B2 η) (5 / 4) 40 1 := by
  have c := apx_coeta hx h
  have e := apx_eta hx h
  exact ((apx_mul1 (apx_mul1 apx_three (apx_mul1 e e)) c).bound (poly_bounds h).2.2.1).mono (by norm_num) le_rfl (by norm_num)

theorem apx_B3 : Apx (B3 x) (B3 η) (5 / 4) 40 1 := by
  have e := apx_eta hx h
  exact ((apx_mul1 (apx_mul1 e e) e).bound (poly_bounds h).2.2.2).mono (by norm_num) le_rfl (by norm_num)

theorem apx_basis : ApxL (basis x) (basis η) (5 / 4) 40 1 :=
  .cons ((apx_B0 hx h).mono (by norm_num) le_rfl (by norm_num)) (.cons (apx_B1 hx h) (.cons (apx_B2 hx h)
    (.cons (apx_B3 hx h) .nil)))

omit hx in
theorem poly_bounds' : |-3 * ((1 - η) * (1 - η))| ≤ 4 * 1 ∧ |3 * (1 - η) * (1 - 3 * η)| ≤ 4 * 1 ∧
    |3 * η * (2 - 3 * η)| ≤ 4 * 1 ∧ |3 * (η * η)| ≤ 4 * 1 := by
  obtain ⟨h0, h1⟩ := h
  have p0 : 0 ≤ η + 1 / 16 := by linarith
  have p1 : 0 ≤ 17 / 16 - η := by linarith
  have q1 := mul_nonneg p0 p1
  have q2 := mul_nonneg p0 p0
  have q3 := mul_nonneg p1 p1
  have r1 := sq_nonneg (η - 2 / 3)
  have r2 := sq_nonneg (η - 1 / 3)
  refine ⟨?_, ?_, ?_, ?_⟩ <;> rw [abs_le] <;> constructor <;> linarith

theorem apx_B0' : Apx (B0' x) (B0' η) 4 64 1 := by
  have c := apx_coeta hx h
  exact ((apx_mul1 apx_three.neg (apx_mul1 c c)).bound (poly_bounds' h).1).mono (by norm_num) le_rfl (by norm_num)

theorem apx_B1' : Apx (B1' x) (B1' η) 4 64 1 := by
  have c := apx_coeta hx h
  have e := (apx_one.sub (apx_mul1 apx_three (apx_eta hx h)) scaled_one).bound (b := 35 / 16) (by
    rw [abs_le]; constructor <;> linarith [h.lo, h.hi])
  exact ((apx_mul1 (apx_mul1 apx_three c) e).bound (poly_bounds' h).2.1).mono (by norm_num) le_rfl (by norm_num)

theorem apx_B2' : Apx (B2' x) (B2' η) 4 64 1 := by
  have c := apx_eta hx h
  have e := (apx_two.sub (apx_mul1 apx_three c) scaled_one).bound (b := 35 / 16) (by
    rw [abs_le]; constructor <;> linarith [h.lo, h.hi])
  exact ((apx_mul1 (apx_mul1 apx_three c) e).bound (poly_bounds' h).2.2.1).mono (by norm_num) le_rfl (by norm_num)

theorem apx_B3' : Apx (B3' x) (B3' η) 4 64 1 := by
  have c := apx_eta hx h
  exact ((apx_mul1 apx_three (apx_mul1 c c)).bound (poly_bounds' h).2.2.2).mono (by norm_num) le_rfl (by norm_num)

theorem apx_basis' : ApxL (basis' x) (basis' η) 4 64 1 :=
  .cons (apx_B0' hx h) (.cons (apx_B1' hx h) (.cons (apx_B2' hx h) (.cons (apx_B3' hx h) .nil)))

end

/-! ## Sums of products -/

theorem apxL_map {a b k l : ℚ} {x : F64} {v : ℚ} (hx : Apx x v a k 1) {ys : List F64} {ws : List ℚ} (h : ApxL ys ws b l 1)
    (ha : a ≤ 2 ^ 10 := by norm_num) (hb : b ≤ 2 ^ 10 := by norm_num) (hk : k ≤ 2 ^ 20 := by norm_num)
    (hl : l ≤ 2 ^ 20 := by norm_num) :
    ApxL (ys.map fun y => x * y) (ws.map fun w => v * w) (a * b) (a * l + b * k + a * b / 2 + 2) 1 := by
  induction h with
  | nil => exact .nil
  | cons h1 _ ih => exact .cons (apx_mul1 hx h1 ha hb hk hl) ih

theorem apxL_append {xs ys : List F64} {vs ws : List ℚ} {a k s : ℚ} (h : ApxL xs vs a k s) (h' : ApxL ys ws a k s) :
    ApxL (xs ++ ys) (vs ++ ws) a k s := by
  induction h with
  | nil => exact h'
  | cons h1 _ ih => exact .cons h1 ih

theorem apxL_mono {xs : List F64} {vs : List ℚ} {a k b l s : ℚ} (h : ApxL xs vs a k s) (hs : 0 < s) (ha : a ≤ b) (hk : k ≤ l) :
    ApxL xs vs b l s := List.Forall₂.imp (fun _ _ h => Apx.mono h hs ha hk) h

theorem apx_weights2 {xs ys : List F64} {vs ws : List ℚ} {a b k l : ℚ} (h : ApxL xs vs a k 1) (h' : ApxL ys ws b l 1)
    (ha : a ≤ 2 ^ 10 := by norm_num) (hb : b ≤ 2 ^ 10 := by norm_num) (hk : k ≤ 2 ^ 20 := by norm_num)
    (hl : l ≤ 2 ^ 20 := by norm_num) :
    ApxL (weights2 xs ys) (weights2 vs ws) (a * b) (a * l + b * k + a * b / 2 + 2) 1 := by
  induction h with
  | nil => exact .nil
  | cons h1 _ ih => exact apxL_append (apxL_map h1 h' ha hb hk hl) ih

theorem weights3_flat {K : Type} [Mul K] (bx by' bz : List K) :
    weights3 bx by' bz = (weights2 bx by').flatMap fun p => bz.map fun c => p * c := by
  simp only [weights3, weights2, List.flatMap_assoc, List.flatMap_map]

theorem apx_weights3 {xs ys zs : List F64} {vs ws us : List ℚ} {a b c k l m : ℚ} (h : ApxL xs vs a k 1) (h' : ApxL ys ws b l 1)
    (h'' : ApxL zs us c m 1) (ha : a ≤ 2 ^ 10 := by norm_num) (hb : b ≤ 2 ^ 10 := by norm_num) (hk : k ≤ 2 ^ 20 := by norm_num)
    (hl : l ≤ 2 ^ 20 := by norm_num) (hab : a * b ≤ 2 ^ 10 := by norm_num) (hc : c ≤ 2 ^ 10 := by norm_num)
    (hkl : a * l + b * k + a * b / 2 + 2 ≤ 2 ^ 20 := by norm_num) (hm : m ≤ 2 ^ 20 := by norm_num) :
    ApxL (weights3 xs ys zs) (weights3 vs ws us) (a * b * c)
      (a * b * m + c * (a * l + b * k + a * b / 2 + 2) + a * b * c / 2 + 2) 1 := by
  rw [weights3_flat, weights3_flat]
  exact apx_weights2 (apx_weights2 h h' ha hb hk hl) h'' hab hc hkl hm

theorem apx_foldl {s M e : ℚ} (hs : Scaled s) (N : ℕ) (hM : N * M ≤ 2 ^ 20) (he : N * (e + N * M / 2 + 1) ≤ 2 ^ 20)
    {ps : List F64} {qs : List ℚ} (h : ApxL ps qs M e s) : ∀ {acc : F64} {av : ℚ} (j : ℕ), j + ps.length ≤ N →
    Apx acc av (j * M) (j * (e + N * M / 2 + 1)) s →
    Apx (ps.foldl (fun acc p => acc + p) acc) (qs.foldl (fun acc p => acc + p) av) ((j + ps.length : ℕ) * M)
      ((j + ps.length : ℕ) * (e + N * M / 2 + 1)) s := by
  have s0 := hs.pos
  induction h with
  | nil => intro acc av j _ ha; simpa using ha
  | @cons x v xs vs hx hr ih =>
    intro acc av j hj ha
    have M0 := hx.a_nonneg s0
    have e0 := hx.k_nonneg s0
    rw [List.length_cons] at hj ⊢
    have jN : ((j + 1 : ℕ) : ℚ) ≤ N := by exact_mod_cast (by omega : j + 1 ≤ N)
    push_cast at jN
    have j0 : (0 : ℚ) ≤ j := j.cast_nonneg
    have b0 : 0 ≤ e + N * M / 2 + 1 := by positivity
    have jM : (j + 1 : ℚ) * M ≤ N * M := mul_le_mul_of_nonneg_right jN M0
    have jB : (j + 1 : ℚ) * (e + N * M / 2 + 1) ≤ N * (e + N * M / 2 + 1) := mul_le_mul_of_nonneg_right jN b0
    have step := (ha.add hx hs (by linarith) (by nlinarith) (by nlinarith)).mono (b := ((j + 1 : ℕ) : ℚ) * M)
      (l := ((j + 1 : ℕ) : ℚ) * (e + N * M / 2 + 1)) s0 (by push_cast; linarith) (by push_cast; linarith)
    have := ih (j + 1) (by omega) step
    rw [show j + 1 + xs.length = j + (xs.length + 1) by omega] at this
    exact this

theorem foldl_zip {K : Type} [Zero K] [Add K] [Mul K] (ws cs : List K) :
    accum ws cs = ((ws.zip cs).map fun p => p.1 * p.2).foldl (fun acc p => acc + p) 0 := by
  rw [List.foldl_map]
  rfl

theorem apxL_zip {s a b k l : ℚ} (hs : Scaled s) {ws cs : List F64} {wv cv : List ℚ} (h : ApxL ws wv a k 1)
    (ha : a ≤ 2 ^ 10) (hb : b ≤ 2 ^ 10) (hk : k ≤ 2 ^ 20) (hl : l ≤ 2 ^ 20) : ApxL cs cv b l s →
    ApxL ((ws.zip cs).map fun p => p.1 * p.2) ((wv.zip cv).map fun p => p.1 * p.2) (a * b) (a * l + b * k + a * b / 2 + 2) s := by
  induction h generalizing cs cv with
  | nil => intro _; exact .nil
  | cons h1 _ ih =>
    intro hc
    cases hc with
    | nil => exact .nil
    | cons h2 hc =>
      refine .cons ?_ (ih hc)
      exact (h1.mul h2 one_pos hs.pos (by rw [one_mul]; exact hs) ha hb hk hl).scale (one_mul s)

theorem length_le_of_zip {α β γ : Type} (f : α × β → γ) (l : List α) (l' : List β) {N : ℕ} (h : l.length ≤ N) :
    ((l.zip l').map f).length ≤ N := by
  rw [List.length_map, List.length_zip]
  omega

/-- Sum of at most `N` products. -/
theorem apx_accum {s a b k l : ℚ} (hs : Scaled s) (N : ℕ) {ws cs : List F64} {wv cv : List ℚ} (hw : ApxL ws wv a k 1)
    (hc : ApxL cs cv b l s) (hN : ws.length ≤ N) (ha : a ≤ 2 ^ 10 := by norm_num) (hb : b ≤ 2 ^ 10 := by norm_num)
    (hk : k ≤ 2 ^ 20 := by norm_num) (hl : l ≤ 2 ^ 20 := by norm_num) (hM : N * (a * b) ≤ 2 ^ 20 := by norm_num)
    (he : N * (a * l + b * k + a * b / 2 + 2 + N * (a * b) / 2 + 1) ≤ 2 ^ 20 := by norm_num)
    (h0 : 0 ≤ a * b := by norm_num) (h1 : 0 ≤ a * l + b * k + a * b / 2 + 2 := by norm_num) :
    Apx (accum ws cs) (accum wv cv) (N * (a * b)) (N * (a * l + b * k + a * b / 2 + 2 + N * (a * b) / 2 + 1)) s := by
  rw [foldl_zip, foldl_zip]
  have hz := apxL_zip hs hw ha hb hk hl hc
  have len := length_le_of_zip (fun p : F64 × F64 => p.1 * p.2) ws cs hN
  have := apx_foldl hs N hM he hz 0 (by omega) (by simpa using apx_zero s)
  rw [zero_add] at this
  refine this.mono hs.pos ?_ ?_
  · exact mul_le_mul_of_nonneg_right (by exact_mod_cast len) h0
  · exact mul_le_mul_of_nonneg_right (by exact_mod_cast len) (by positivity)

/-! ## Control points -/

section
variable {dx : F64} {h : ℚ} (hd : Apx dx h 1 3 h) (h0 : 0 < h)
include hd h0

/-- `dx * one_third`. -/
theorem apx_dx_third (hh : Scaled h) : Apx (dx * oneThird) (h * (1 / 3)) (1 / 3) 6 h :=
  ((hd.mul apx_third h0 one_pos (by rw [mul_one]; exact hh)).scale (mul_one h)).mono h0 (by norm_num) (by norm_num)

/-- `dx * one_third * c`. -/
theorem apx_third_mul {c : F64} {v a k S S' : ℚ} (hh : Scaled h) (hS : Scaled S) (e : h * S' = S) (hc : Apx c v a k S')
    (ha : a ≤ 2 ^ 10 := by norm_num) (hk : k ≤ 2 ^ 20 := by norm_num) :
    Apx (dx * oneThird * c) (h * (1 / 3) * v) (1 / 3 * a) (1 / 3 * k + a * 6 + 1 / 3 * a / 2 + 2) S := by
  have hS' : 0 < S' := by
    have : 0 < h * S' := by rw [e]; exact hS.pos
    exact pos_of_mul_pos_right this h0.le
  exact ((apx_dx_third hd h0 hh).mul hc h0 hS' (by rw [e]; exact hS) (by norm_num) ha (by norm_num) hk).scale e

end

/-- Approximate control points of an edge. -/
structure ApxC (p : ControlPoints F64) (q : ControlPoints ℚ) (s : ℚ) : Prop where
  c30 : Apx p.c30 q.c30 (4 / 3) 12 s
  c21 : Apx p.c21 q.c21 (4 / 3) 12 s
  c12 : Apx p.c12 q.c12 (4 / 3) 12 s
  c03 : Apx p.c03 q.c03 (4 / 3) 12 s

theorem apx_controlPoints {dx : F64} {h S S' : ℚ} (hd : Apx dx h 1 3 h) (h0 : 0 < h) (hS : Scaled S) (e : S' * h = S)
    {f0 g0 f1 g1 : F64} {F0 G0 F1 G1 : ℚ} (a0 : Apx f0 F0 1 0 S) (b0 : Apx g0 G0 1 0 S') (a1 : Apx f1 F1 1 0 S)
    (b1 : Apx g1 G1 1 0 S') :
    ApxC (getControlPoints f0 g0 f1 g1 dx false) (getControlPoints F0 G0 F1 G1 h false) S := by
  have s0 := hS.pos
  have hS' : 0 < S' := by
    have : 0 < S' * h := by rw [e]; exact s0
    exact pos_of_mul_pos_left this h0.le
  have slope : ∀ {g : F64} {G : ℚ}, Apx g G 1 0 S' → Apx (g * dx * oneThird) (G * h * (1 / 3)) (1 / 3) 7 S := by
    intro g G b
    have m1 := (b.mul hd hS' h0 (by rw [e]; exact hS)).scale e
    exact ((m1.mul apx_third s0 one_pos (by rw [mul_one]; exact hS)).scale (mul_one S)).mono s0 (by norm_num) (by norm_num)
  have e3 : (oneThird : ℚ) = 1 / 3 := rfl
  simp only [getControlPoints, Bool.false_eq_true, if_false, e3]
  exact ⟨a0.mono s0 (by norm_num) (by norm_num), (a0.add (slope b0) hS).mono s0 (by norm_num) (by norm_num),
    (a1.sub (slope b1) hS).mono s0 (by norm_num) (by norm_num), a1.mono s0 (by norm_num) (by norm_num)⟩

/-! ## The kernels -/

/-- The data of a node in 1D: at most `P` for the value, and for the slope times the width. -/
structure Node1Is (n : Node1 F64) (N : Node1 ℚ) (P h : ℚ) : Prop where
  phi : Apx n.phi N.phi 1 0 P
  x : Apx n.psi.x N.psi.x 1 0 (P / h)

theorem apx_kernel1 {dx inv x : F64} {h J η P : ℚ} (hd : Apx dx h 1 3 h) (h0 : 0 < h) (hP : Scaled P) (hx : HasValue x η)
    (hη : NearCell η) {n0 n1 : Node1 F64} {N0 N1 : Node1 ℚ} (k0 : Node1Is n0 N0 P h) (k1 : Node1Is n1 N1 P h) :
    Apx (kernel1 dx inv x n0 n1 false).phi (kernel1 h J η N0 N1 false).phi 8 320 P := by
  have s0 := hP.pos
  have C := apx_controlPoints hd h0 hP (div_mul_cancel₀ P h0.ne') k0.phi k0.x k1.phi k1.x
  have pr : ∀ {c b : F64} {u v : ℚ}, Apx c u (4 / 3) 12 P → Apx b v (5 / 4) 40 1 → Apx (c * b) (u * v) (5 / 3) 72 P := by
    intro c b u v hc hb
    exact ((hc.mul hb s0 one_pos (by rw [mul_one]; exact hP)).scale (mul_one P)).mono s0 (by norm_num) (by norm_num)
  have t0 := pr C.c30 ((apx_B0 hx hη).mono (by norm_num) le_rfl (by norm_num : _ ≤ (40 : ℚ)))
  have t1 := pr C.c21 (apx_B1 hx hη)
  have t2 := pr C.c12 (apx_B2 hx hη)
  have t3 := pr C.c03 (apx_B3 hx hη)
  exact (((t0.add t1 hP).add t2 hP).add t3 hP).mono s0 (by norm_num) (by norm_num)

/-- Product of a derivative in the local coordinate with `one_over_dx`. -/
theorem apx_mul_inv {x inv : F64} {v a k h P : ℚ} (hx : Apx x v a k P) (hP : 0 < P) (hi : Apx inv (1 / h) 1 4 (1 / h)) (h0 : 0 < h)
    (hS : Scaled (P / h)) (ha : a ≤ 2 ^ 10 := by norm_num) (hk : k ≤ 2 ^ 20 := by norm_num) :
    Apx (x * inv) (v * (1 / h)) (a * 1) (a * 4 + 1 * k + a * 1 / 2 + 2) (P / h) := by
  have e : P * (1 / h) = P / h := by ring
  exact (hx.mul hi hP (by positivity) (by rw [e]; exact hS) ha (by norm_num) hk (by norm_num)).scale e

theorem apx_kernel1_x {dx inv x : F64} {h η P : ℚ} (hd : Apx dx h 1 3 h) (hi : Apx inv (1 / h) 1 4 (1 / h)) (h0 : 0 < h)
    (hP : Scaled P) (hS : Scaled (P / h)) (hx : HasValue x η)
    (hη : NearCell η) {n0 n1 : Node1 F64} {N0 N1 : Node1 ℚ} (k0 : Node1Is n0 N0 P h) (k1 : Node1Is n1 N1 P h) :
    Apx (kernel1 dx inv x n0 n1 false).psi.x (kernel1 h (1 / h) η N0 N1 false).psi.x 22 750 (P / h) := by
  have s0 := hP.pos
  have C := apx_controlPoints hd h0 hP (div_mul_cancel₀ P h0.ne') k0.phi k0.x k1.phi k1.x
  have pr : ∀ {c b : F64} {u v : ℚ}, Apx c u (4 / 3) 12 P → Apx b v 4 64 1 → Apx (c * b) (u * v) (16 / 3) 138 P := by
    intro c b u v hc hb
    exact ((hc.mul hb s0 one_pos (by rw [mul_one]; exact hP)).scale (mul_one P)).mono s0 (by norm_num) (by norm_num)
  have t0 := pr C.c30 (apx_B0' hx hη)
  have t1 := pr C.c21 (apx_B1' hx hη)
  have t2 := pr C.c12 (apx_B2' hx hη)
  have t3 := pr C.c03 (apx_B3' hx hη)
  have t := (((t0.add t1 hP).add t2 hP).add t3 hP).mono s0 (by norm_num : _ ≤ (22 : ℚ)) (by norm_num : _ ≤ (620 : ℚ))
  exact (apx_mul_inv t s0 hi h0 hS).mono hS.pos (by norm_num) (by norm_num)

/-- The data of a node in 2D. -/
structure Node2Is (n : Node2 F64) (N : Node2 ℚ) (P hx hy : ℚ) : Prop where
  phi : Apx n.phi N.phi 1 0 P
  x : Apx n.psi.x N.psi.x 1 0 (P / hx)
  y : Apx n.psi.y N.psi.y 1 0 (P / hy)
  xy : Apx n.xy N.xy 1 0 (P / (hx * hy))

theorem apx_controls2 {dx : Vec3 F64} {h : Vec3 ℚ} {P : ℚ} (dX : Apx dx.x h.x 1 3 h.x) (dY : Apx dx.y h.y 1 3 h.y)
    (hX : Scaled h.x) (hY : Scaled h.y) (hP : Scaled P) (hPX : Scaled (P / h.x)) (hPY : Scaled (P / h.y))
    {n00 n10 n01 n11 : Node2 F64} {N00 N10 N01 N11 : Node2 ℚ} (k00 : Node2Is n00 N00 P h.x h.y) (k10 : Node2Is n10 N10 P h.x h.y)
    (k01 : Node2Is n01 N01 P h.x h.y) (k11 : Node2Is n11 N11 P h.x h.y) :
    ApxL (controls2 dx n00 n10 n01 n11 false) (controls2 h N00 N10 N01 N11 false) 2 32 P := by
  have x0 := hX.pos
  have y0 := hY.pos
  have s0 := hP.pos
  have ex : P / h.x * h.x = P := div_mul_cancel₀ P x0.ne'
  have ey : P / h.y * h.y = P := div_mul_cancel₀ P y0.ne'
  have exy : h.x * (P / (h.x * h.y)) = P / h.y := by field_simp
  have eyx : h.y * (P / (h.x * h.y)) = P / h.x := by field_simp
  have bottom := apx_controlPoints dX x0 hP ex k00.phi k00.x k10.phi k10.x
  have top := apx_controlPoints dX x0 hP ex k01.phi k01.x k11.phi k11.x
  have left := apx_controlPoints dY y0 hP ey k00.phi k00.y k01.phi k01.y
  have right := apx_controlPoints dY y0 hP ey k10.phi k10.y k11.phi k11.y
  have c1 := (k00.y.add (apx_third_mul dX x0 hX hPY exy k00.xy) hPY).mono hPY.pos (by norm_num : _ ≤ (4 / 3 : ℚ))
    (by norm_num : _ ≤ (12 : ℚ))
  have c2 := (k10.x.add (apx_third_mul dY y0 hY hPX eyx k10.xy) hPX).mono hPX.pos (by norm_num : _ ≤ (4 / 3 : ℚ))
    (by norm_num : _ ≤ (12 : ℚ))
  have c2' := (k11.x.sub (apx_third_mul dY y0 hY hPX eyx k11.xy) hPX).mono hPX.pos (by norm_num : _ ≤ (4 / 3 : ℚ))
    (by norm_num : _ ≤ (12 : ℚ))
  have c3 := (k01.y.add (apx_third_mul dX x0 hX hPY exy k01.xy) hPY).mono hPY.pos (by norm_num : _ ≤ (4 / 3 : ℚ))
    (by norm_num : _ ≤ (12 : ℚ))
  have w : ∀ {x : F64} {v : ℚ}, Apx x v (4 / 3) 12 P → Apx x v 2 32 P := fun h => h.mono s0 (by norm_num) (by norm_num)
  have ex' : h.x * (P / h.x) = P := by rw [mul_comm]; exact ex
  have ey' : h.y * (P / h.y) = P := by rw [mul_comm]; exact ey
  have tx : ∀ {c : F64} {v : ℚ}, Apx c v (4 / 3) 12 (P / h.x) → Apx (dx.x * oneThird * c) (h.x * (1 / 3) * v) (4 / 9) 15 P :=
    fun hc => (apx_third_mul dX x0 hX hP ex' hc).mono s0 (by norm_num) (by norm_num)
  have ty : ∀ {c : F64} {v : ℚ}, Apx c v (4 / 3) 12 (P / h.y) → Apx (dx.y * oneThird * c) (h.y * (1 / 3) * v) (4 / 9) 15 P :=
    fun hc => (apx_third_mul dY y0 hY hP ey' hc).mono s0 (by norm_num) (by norm_num)
  have p : ∀ {x y : F64} {v u : ℚ}, Apx x v (4 / 3) 12 P → Apx y u (4 / 9) 15 P → Apx (x + y) (v + u) 2 32 P :=
    fun h1 h2 => (h1.add h2 hP).mono s0 (by norm_num) (by norm_num)
  have m : ∀ {x y : F64} {v u : ℚ}, Apx x v (4 / 3) 12 P → Apx y u (4 / 9) 15 P → Apx (x - y) (v - u) 2 32 P :=
    fun h1 h2 => (h1.sub h2 hP).mono s0 (by norm_num) (by norm_num)
  exact .cons (w left.c30) <| .cons (w left.c21) <| .cons (w left.c12) <| .cons (w left.c03) <|
    .cons (w bottom.c21) <| .cons (p bottom.c21 (ty c1)) <| .cons (m top.c21 (ty c3)) <| .cons (w top.c21) <|
    .cons (w bottom.c12) <| .cons (m right.c21 (tx c2)) <| .cons (m right.c12 (tx c2')) <| .cons (w top.c12) <|
    .cons (w right.c30) <| .cons (w right.c21) <| .cons (w right.c12) <| .cons (w right.c03) .nil

theorem apx_kernel2 {dx inv x : Vec3 F64} {h J η : Vec3 ℚ} {P : ℚ} (dX : Apx dx.x h.x 1 3 h.x) (dY : Apx dx.y h.y 1 3 h.y)
    (hX : Scaled h.x) (hY : Scaled h.y) (hP : Scaled P) (hPX : Scaled (P / h.x)) (hPY : Scaled (P / h.y))
    (vx : HasValue x.x η.x) (vy : HasValue x.y η.y) (hx : NearCell η.x) (hy : NearCell η.y)
    {n00 n10 n01 n11 : Node2 F64} {N00 N10 N01 N11 : Node2 ℚ} (k00 : Node2Is n00 N00 P h.x h.y) (k10 : Node2Is n10 N10 P h.x h.y)
    (k01 : Node2Is n01 N01 P h.x h.y) (k11 : Node2Is n11 N11 P h.x h.y) :
    Apx (kernel2 dx inv x n00 n10 n01 n11 false).phi (kernel2 h J η N00 N10 N01 N11 false).phi 64 5000 P := by
  have C := apx_controls2 dX dY hX hY hP hPX hPY k00 k10 k01 k11
  have W := apx_weights2 (apx_basis vx hx) (apx_basis vy hy)
  exact (apx_accum hP 16 W C (by rfl)).mono hP.pos (by norm_num) (by norm_num)

theorem apx_kernel2_x {dx inv x : Vec3 F64} {h η : Vec3 ℚ} {P : ℚ} (dX : Apx dx.x h.x 1 3 h.x) (dY : Apx dx.y h.y 1 3 h.y)
    (hi : Apx inv.x (1 / h.x) 1 4 (1 / h.x))
    (hX : Scaled h.x) (hY : Scaled h.y) (hP : Scaled P) (hPX : Scaled (P / h.x)) (hPY : Scaled (P / h.y))
    (vx : HasValue x.x η.x) (vy : HasValue x.y η.y) (hx : NearCell η.x) (hy : NearCell η.y)
    {n00 n10 n01 n11 : Node2 F64} {N00 N10 N01 N11 : Node2 ℚ} (k00 : Node2Is n00 N00 P h.x h.y) (k10 : Node2Is n10 N10 P h.x h.y)
    (k01 : Node2Is n01 N01 P h.x h.y) (k11 : Node2Is n11 N11 P h.x h.y) {J : Vec3 ℚ} (hJ : J.x = 1 / h.x) :
    Apx (kernel2 dx inv x n00 n10 n01 n11 false).psi.x (kernel2 h J η N00 N10 N01 N11 false).psi.x 200 14000 (P / h.x) := by
  have C := apx_controls2 dX dY hX hY hP hPX hPY k00 k10 k01 k11
  have W := apx_weights2 (apx_basis' vx hx) (apx_basis vy hy)
  have t := (apx_accum hP 16 W C (by rfl)).mono hP.pos (by norm_num : _ ≤ (200 : ℚ)) (by norm_num : _ ≤ (13000 : ℚ))
  rw [show (kernel2 h J η N00 N10 N01 N11 false).psi.x =
    accum (weights2 (basis' η.x) (basis η.y)) (controls2 h N00 N10 N01 N11 false) * (1 / h.x) by rw [← hJ]; rfl]
  exact (apx_mul_inv t hP.pos hi hX.pos hPX).mono hPX.pos (by norm_num) (by norm_num)

theorem apx_kernel2_y {dx inv x : Vec3 F64} {h η : Vec3 ℚ} {P : ℚ} (dX : Apx dx.x h.x 1 3 h.x) (dY : Apx dx.y h.y 1 3 h.y)
    (hi : Apx inv.y (1 / h.y) 1 4 (1 / h.y))
    (hX : Scaled h.x) (hY : Scaled h.y) (hP : Scaled P) (hPX : Scaled (P / h.x)) (hPY : Scaled (P / h.y))
    (vx : HasValue x.x η.x) (vy : HasValue x.y η.y) (hx : NearCell η.x) (hy : NearCell η.y)
    {n00 n10 n01 n11 : Node2 F64} {N00 N10 N01 N11 : Node2 ℚ} (k00 : Node2Is n00 N00 P h.x h.y) (k10 : Node2Is n10 N10 P h.x h.y)
    (k01 : Node2Is n01 N01 P h.x h.y) (k11 : Node2Is n11 N11 P h.x h.y) {J : Vec3 ℚ} (hJ : J.y = 1 / h.y) :
    Apx (kernel2 dx inv x n00 n10 n01 n11 false).psi.y (kernel2 h J η N00 N10 N01 N11 false).psi.y 200 14000 (P / h.y) := by
  have C := apx_controls2 dX dY hX hY hP hPX hPY k00 k10 k01 k11
  have W := apx_weights2 (apx_basis vx hx) (apx_basis' vy hy)
  have t := (apx_accum hP 16 W C (by rfl)).mono hP.pos (by norm_num : _ ≤ (200 : ℚ)) (by norm_num : _ ≤ (13000 : ℚ))
  rw [show (kernel2 h J η N00 N10 N01 N11 false).psi.y =
    accum (weights2 (basis η.x) (basis' η.y)) (controls2 h N00 N10 N01 N11 false) * (1 / h.y) by rw [← hJ]; rfl]
  exact (apx_mul_inv t hP.pos hi hY.pos hPY).mono hPY.pos (by norm_num) (by norm_num)

/-- The data of a node in 3D. -/
structure Node3Is (n : Node3 F64) (N : Node3 ℚ) (P hx hy hz : ℚ) : Prop where
  phi : Apx n.phi N.phi 1 0 P
  x : Apx n.psi.x N.psi.x 1 0 (P / hx)
  y : Apx n.psi.y N.psi.y 1 0 (P / hy)
  z : Apx n.psi.z N.psi.z 1 0 (P / hz)
  xy : Apx n.xy N.xy 1 0 (P / (hx * hy))
  yz : Apx n.yz N.yz 1 0 (P / (hy * hz))
  zx : Apx n.zx N.zx 1 0 (P / (hz * hx))
  xyz : Apx n.xyz N.xyz 1 0 (P / (hx * hy * hz))

theorem apx_controls3 {dx : Vec3 F64} {h : Vec3 ℚ} {P : ℚ} (dX : Apx dx.x h.x 1 3 h.x) (dY : Apx dx.y h.y 1 3 h.y)
    (dZ : Apx dx.z h.z 1 3 h.z) (hX : Scaled h.x) (hY : Scaled h.y) (hZ : Scaled h.z) (hXY : Scaled (h.x * h.y)) (hP : Scaled P)
    (hPX : Scaled (P / h.x)) (hPY : Scaled (P / h.y)) (hPZ : Scaled (P / h.z)) (hPXY : Scaled (P / (h.x * h.y)))
    {n000 n100 n010 n001 n110 n011 n101 n111 : Node3 F64} {N000 N100 N010 N001 N110 N011 N101 N111 : Node3 ℚ}
    (k000 : Node3Is n000 N000 P h.x h.y h.z) (k100 : Node3Is n100 N100 P h.x h.y h.z) (k010 : Node3Is n010 N010 P h.x h.y h.z)
    (k001 : Node3Is n001 N001 P h.x h.y h.z) (k110 : Node3Is n110 N110 P h.x h.y h.z) (k011 : Node3Is n011 N011 P h.x h.y h.z)
    (k101 : Node3Is n101 N101 P h.x h.y h.z) (k111 : Node3Is n111 N111 P h.x h.y h.z) :
    ApxL (controls3 dx n000 n100 n010 n001 n110 n011 n101 n111 false) (controls3 h N000 N100 N010 N001 N110 N011 N101 N111 false)
      (5 / 2) 68 P := by
  have x0 := hX.pos
  have y0 := hY.pos
  have z0 := hZ.pos
  have s0 := hP.pos
  have ex : P / h.x * h.x = P := div_mul_cancel₀ P x0.ne'
  have ey : P / h.y * h.y = P := div_mul_cancel₀ P y0.ne'
  have ez : P / h.z * h.z = P := div_mul_cancel₀ P z0.ne'
  have ezy : P / (h.y * h.z) * h.y = P / h.z := by field_simp
  have eyz : P / (h.y * h.z) * h.z = P / h.y := by field_simp
  have exz : P / (h.z * h.x) * h.z = P / h.x := by field_simp
  have ezx : P / (h.z * h.x) * h.x = P / h.z := by field_simp
  have eyx : P / (h.x * h.y) * h.x = P / h.y := by field_simp
  have exyz : P / (h.x * h.y * h.z) * h.z = P / (h.x * h.y) := by field_simp
  have p_x := apx_controlPoints dX x0 hP ex k000.phi k000.x k100.phi k100.x
  have p_y := apx_controlPoints dY y0 hP ey k000.phi k000.y k010.phi k010.y
  have p_z := apx_controlPoints dZ z0 hP ez k000.phi k000.z k001.phi k001.z
  have p_xy := apx_controlPoints dY y0 hP ey k100.phi k100.y k110.phi k110.y
  have p_yx := apx_controlPoints dX x0 hP ex k010.phi k010.x k110.phi k110.x
  have p_xz := apx_controlPoints dZ z0 hP ez k100.phi k100.z k101.phi k101.z
  have p_zxy := apx_controlPoints dY y0 hP ey k101.phi k101.y k111.phi k111.y
  have p_xyz := apx_controlPoints dZ z0 hP ez k110.phi k110.z k111.phi k111.z
  have p_zx := apx_controlPoints dX x0 hP ex k001.phi k001.x k101.phi k101.x
  have p_zy := apx_controlPoints dY y0 hP ey k001.phi k001.y k011.phi k011.y
  have p_yzx := apx_controlPoints dX x0 hP ex k011.phi k011.x k111.phi k111.x
  have p_yz := apx_controlPoints dZ z0 hP ez k010.phi k010.z k011.phi k011.z
  have p_y_z := apx_controlPoints dY y0 hPZ ezy k000.z k000.yz k010.z k010.yz
  have p_zy_z := apx_controlPoints dY y0 hPZ ezy k001.z k001.yz k011.z k011.yz
  have p_z_x := apx_controlPoints dZ z0 hPX exz k000.x k000.zx k001.x k001.zx
  have p_x_y := apx_controlPoints dX x0 hPY eyx k000.y k000.xy k100.y k100.xy
  have p_z_xy := apx_controlPoints dZ z0 hPXY exyz k000.xy k000.xyz k001.xy k001.xyz
  have p_z_y := apx_controlPoints dZ z0 hPY eyz k000.y k000.yz k001.y k001.yz
  have p_x_z := apx_controlPoints dX x0 hPZ ezx k000.z k000.zx k100.z k100.zx
  have p_zx_z := apx_controlPoints dX x0 hPZ ezx k001.z k001.zx k101.z k101.zx
  have p_zx_y := apx_controlPoints dX x0 hPY eyx k001.y k001.xy k101.y k101.xy
  have p_yx_y := apx_controlPoints dX x0 hPY eyx k010.y k010.xy k110.y k110.xy
  have p_yz_xy := apx_controlPoints dZ z0 hPXY exyz k010.xy k010.xyz k011.xy k011.xyz
  have p_yz_y := apx_controlPoints dZ z0 hPY eyz k010.y k010.yz k011.y k011.yz
  have p_yx_z := apx_controlPoints dX x0 hPZ ezx k010.z k010.zx k110.z k110.zx
  have p_yzx_y := apx_controlPoints dX x0 hPY eyx k011.y k011.xy k111.y k111.xy
  have p_yzx_z := apx_controlPoints dX x0 hPZ ezx k011.z k011.zx k111.z k111.zx
  have p_xz_xy := apx_controlPoints dZ z0 hPXY exyz k100.xy k100.xyz k101.xy k101.xyz
  have p_xz_y := apx_controlPoints dZ z0 hPY eyz k100.y k100.yz k101.y k101.yz
  have p_xyz_xy := apx_controlPoints dZ z0 hPXY exyz k110.xy k110.xyz k111.xy k111.xyz
  have p_xyz_y := apx_controlPoints dZ z0 hPY eyz k110.y k110.yz k111.y k111.yz
  have p_xy_z := apx_controlPoints dY y0 hPZ ezy k100.z k100.yz k110.z k110.yz
  have p_zxy_z := apx_controlPoints dY y0 hPZ ezy k101.z k101.yz k111.z k111.yz
  have w : ∀ {x : F64} {v : ℚ}, Apx x v (4 / 3) 12 P → Apx x v (5 / 2) 68 P := fun h => h.mono s0 (by norm_num) (by norm_num)
  have ex' : h.x * (P / h.x) = P := by rw [mul_comm]; exact ex
  have ey' : h.y * (P / h.y) = P := by rw [mul_comm]; exact ey
  have ez' : h.z * (P / h.z) = P := by rw [mul_comm]; exact ez
  have exy' : h.x * h.y * (P / (h.x * h.y)) = P := by field_simp
  have tx : ∀ {c : F64} {v : ℚ}, Apx c v (4 / 3) 12 (P / h.x) → Apx (dx.x * oneThird * c) (h.x * (1 / 3) * v) (4 / 9) 15 P :=
    fun hc => (apx_third_mul dX x0 hX hP ex' hc).mono s0 (by norm_num) (by norm_num)
  have ty : ∀ {c : F64} {v : ℚ}, Apx c v (4 / 3) 12 (P / h.y) → Apx (dx.y * oneThird * c) (h.y * (1 / 3) * v) (4 / 9) 15 P :=
    fun hc => (apx_third_mul dY y0 hY hP ey' hc).mono s0 (by norm_num) (by norm_num)
  have tz : ∀ {c : F64} {v : ℚ}, Apx c v (4 / 3) 12 (P / h.z) → Apx (dx.z * oneThird * c) (h.z * (1 / 3) * v) (4 / 9) 15 P :=
    fun hc => (apx_third_mul dZ z0 hZ hP ez' hc).mono s0 (by norm_num) (by norm_num)
  have hxy := ((apx_dx_third dX x0 hX).mul (apx_dx_third dY y0 hY) x0 y0 hXY).mono hXY.pos (by norm_num : _ ≤ (1 / 9 : ℚ))
    (by norm_num : _ ≤ (7 : ℚ))
  have txy : ∀ {c : F64} {v : ℚ}, Apx c v (4 / 3) 12 (P / (h.x * h.y)) →
      Apx (dx.x * oneThird * (dx.y * oneThird) * c) (h.x * (1 / 3) * (h.y * (1 / 3)) * v) (4 / 27) 14 P :=
    fun hc => ((hxy.mul hc hXY.pos hPXY.pos (by rw [exy']; exact hP)).scale exy').mono s0 (by norm_num) (by norm_num)
  have p : ∀ {x y : F64} {v u : ℚ}, Apx x v (4 / 3) 12 P → Apx y u (4 / 9) 15 P → Apx (x + y) (v + u) (5 / 2) 68 P :=
    fun h1 h2 => (h1.add h2 hP).mono s0 (by norm_num) (by norm_num)
  have m : ∀ {x y : F64} {v u : ℚ}, Apx x v (4 / 3) 12 P → Apx y u (4 / 9) 15 P → Apx (x - y) (v - u) (5 / 2) 68 P :=
    fun h1 h2 => (h1.sub h2 hP).mono s0 (by norm_num) (by norm_num)
  have p1 : ∀ {x y : F64} {v u : ℚ}, Apx x v (4 / 3) 12 P → Apx y u (4 / 27) 14 P → Apx (x + y) (v + u) (40 / 27) 28 P :=
    fun h1 h2 => (h1.add h2 hP).mono s0 (by norm_num) (by norm_num)
  have m1 : ∀ {x y : F64} {v u : ℚ}, Apx x v (4 / 3) 12 P → Apx y u (4 / 27) 14 P → Apx (x - y) (v - u) (40 / 27) 28 P :=
    fun h1 h2 => (h1.sub h2 hP).mono s0 (by norm_num) (by norm_num)
  have p2 : ∀ {x y : F64} {v u : ℚ}, Apx x v (40 / 27) 28 P → Apx y u (4 / 9) 15 P → Apx (x + y) (v + u) (52 / 27) 46 P :=
    fun h1 h2 => (h1.add h2 hP).mono s0 (by norm_num) (by norm_num)
  have m2 : ∀ {x y : F64} {v u : ℚ}, Apx x v (40 / 27) 28 P → Apx y u (4 / 9) 15 P → Apx (x - y) (v - u) (52 / 27) 46 P :=
    fun h1 h2 => (h1.sub h2 hP).mono s0 (by norm_num) (by norm_num)
  have p3 : ∀ {x y : F64} {v u : ℚ}, Apx x v (52 / 27) 46 P → Apx y u (4 / 9) 15 P → Apx (x + y) (v + u) (5 / 2) 68 P :=
    fun h1 h2 => (h1.add h2 hP).mono s0 (by norm_num) (by norm_num)
  have m3 : ∀ {x y : F64} {v u : ℚ}, Apx x v (52 / 27) 46 P → Apx y u (4 / 9) 15 P → Apx (x - y) (v - u) (5 / 2) 68 P :=
    fun h1 h2 => (h1.sub h2 hP).mono s0 (by norm_num) (by norm_num)
  exact
    .cons (w p_z.c30) <| .cons (w p_z.c21) <|
    .cons (w p_z.c12) <| .cons (w p_z.c03) <|
    .cons (w p_y.c21) <| .cons (p p_y.c21 (tz p_y_z.c21)) <|
    .cons (m p_zy.c21 (tz p_zy_z.c21)) <| .cons (w p_zy.c21) <|
    .cons (w p_y.c12) <| .cons (p p_y.c12 (tz p_y_z.c12)) <|
    .cons (m p_zy.c12 (tz p_zy_z.c12)) <| .cons (w p_zy.c12) <|
    .cons (w p_yz.c30) <| .cons (w p_yz.c21) <|
    .cons (w p_yz.c12) <| .cons (w p_yz.c03) <|
    .cons (w p_x.c21) <| .cons (p p_z.c21 (tx p_z_x.c21)) <|
    .cons (p p_z.c12 (tx p_z_x.c12)) <| .cons (w p_zx.c21) <|
    .cons (p p_x.c21 (ty p_x_y.c21)) <| .cons (p3 (p2 (p1 p_x.c21 (txy p_z_xy.c21)) (ty p_z_y.c21)) (tz p_x_z.c21)) <|
    .cons (m3 (p2 (p1 p_zx.c21 (txy p_z_xy.c12)) (ty p_z_y.c12)) (tz p_zx_z.c21)) <| .cons (p p_zx.c21 (ty p_zx_y.c21)) <|
    .cons (m p_yx.c21 (ty p_yx_y.c21)) <| .cons (p3 (m2 (m1 p_yx.c21 (txy p_yz_xy.c21)) (ty p_yz_y.c21)) (tz p_yx_z.c21)) <|
    .cons (m3 (m2 (m1 p_yzx.c21 (txy p_yz_xy.c12)) (ty p_yz_y.c12)) (tz p_yzx_z.c21)) <| .cons (m p_yzx.c21 (ty p_yzx_y.c21)) <|
    .cons (w p_yx.c21) <| .cons (p p_yx.c21 (tz p_yx_z.c21)) <|
    .cons (m p_yzx.c21 (tz p_yzx_z.c21)) <| .cons (w p_yzx.c21) <|
    .cons (w p_x.c12) <| .cons (p p_x.c12 (tz p_x_z.c12)) <|
    .cons (m p_zx.c12 (tz p_zx_z.c12)) <| .cons (w p_zx.c12) <|
    .cons (p p_x.c12 (ty p_x_y.c12)) <| .cons (p3 (p2 (m1 p_x.c12 (txy p_xz_xy.c21)) (ty p_xz_y.c21)) (tz p_x_z.c12)) <|
    .cons (m3 (p2 (m1 p_zx.c12 (txy p_xz_xy.c12)) (ty p_xz_y.c12)) (tz p_zx_z.c12)) <| .cons (p p_zx.c12 (ty p_zx_y.c12)) <|
    .cons (m p_yx.c12 (ty p_yx_y.c12)) <| .cons (p3 (m2 (p1 p_yx.c12 (txy p_xyz_xy.c21)) (ty p_xyz_y.c21)) (tz p_yx_z.c12)) <|
    .cons (m3 (m2 (p1 p_yzx.c12 (txy p_xyz_xy.c12)) (ty p_xyz_y.c12)) (tz p_yzx_z.c12)) <| .cons (m p_yzx.c12 (ty p_yzx_y.c12)) <|
    .cons (w p_yx.c12) <| .cons (p p_yx.c12 (tz p_yx_z.c12)) <|
    .cons (m p_yzx.c12 (tz p_yzx_z.c12)) <| .cons (w p_yzx.c12) <|
    .cons (w p_xz.c30) <| .cons (w p_xz.c21) <|
    .cons (w p_xz.c12) <| .cons (w p_xz.c03) <|
    .cons (w p_xy.c21) <| .cons (p p_xy.c21 (tz p_xy_z.c21)) <|
    .cons (m p_zxy.c21 (tz p_zxy_z.c21)) <| .cons (w p_zxy.c21) <|
    .cons (w p_xy.c12) <| .cons (p p_xy.c12 (tz p_xy_z.c12)) <|
    .cons (m p_zxy.c12 (tz p_zxy_z.c12)) <| .cons (w p_zxy.c12) <|
    .cons (w p_xyz.c30) <| .cons (w p_xyz.c21) <|
    .cons (w p_xyz.c12) <| .cons (w p_xyz.c03) .nil

theorem apx_kernel3 {dx inv x : Vec3 F64} {h J η : Vec3 ℚ} {P : ℚ} (dX : Apx dx.x h.x 1 3 h.x) (dY : Apx dx.y h.y 1 3 h.y)
    (dZ : Apx dx.z h.z 1 3 h.z) (hX : Scaled h.x) (hY : Scaled h.y) (hZ : Scaled h.z) (hXY : Scaled (h.x * h.y)) (hP : Scaled P)
    (hPX : Scaled (P / h.x)) (hPY : Scaled (P / h.y)) (hPZ : Scaled (P / h.z)) (hPXY : Scaled (P / (h.x * h.y)))
    (vx : HasValue x.x η.x) (vy : HasValue x.y η.y) (vz : HasValue x.z η.z) (hx : NearCell η.x) (hy : NearCell η.y)
    (hz : NearCell η.z)
    {n000 n100 n010 n001 n110 n011 n101 n111 : Node3 F64} {N000 N100 N010 N001 N110 N011 N101 N111 : Node3 ℚ}
    (k000 : Node3Is n000 N000 P h.x h.y h.z) (k100 : Node3Is n100 N100 P h.x h.y h.z) (k010 : Node3Is n010 N010 P h.x h.y h.z)
    (k001 : Node3Is n001 N001 P h.x h.y h.z) (k110 : Node3Is n110 N110 P h.x h.y h.z) (k011 : Node3Is n011 N011 P h.x h.y h.z)
    (k101 : Node3Is n101 N101 P h.x h.y h.z) (k111 : Node3Is n111 N111 P h.x h.y h.z) :
    Apx (kernel3 dx inv x n000 n100 n010 n001 n110 n011 n101 n111 false).phi
      (kernel3 h J η N000 N100 N010 N001 N110 N011 N101 N111 false).phi 512 50500 P := by
  have C := apx_controls3 dX dY dZ hX hY hZ hXY hP hPX hPY hPZ hPXY k000 k100 k010 k001 k110 k011 k101 k111
  have W := apx_weights3 (apx_basis vx hx) (apx_basis vy hy) (apx_basis vz hz)
  exact (apx_accum hP 64 W C (by rfl)).mono hP.pos (by norm_num) (by norm_num)

theorem apx_kernel3_x {dx inv x : Vec3 F64} {h η : Vec3 ℚ} {P : ℚ} (dX : Apx dx.x h.x 1 3 h.x) (dY : Apx dx.y h.y 1 3 h.y)
    (dZ : Apx dx.z h.z 1 3 h.z) (hi : Apx inv.x (1 / h.x) 1 4 (1 / h.x)) (hX : Scaled h.x) (hY : Scaled h.y) (hZ : Scaled h.z) (hXY : Scaled (h.x * h.y)) (hP : Scaled P)
    (hPX : Scaled (P / h.x)) (hPY : Scaled (P / h.y)) (hPZ : Scaled (P / h.z)) (hPXY : Scaled (P / (h.x * h.y)))
    (vx : HasValue x.x η.x) (vy : HasValue x.y η.y) (vz : HasValue x.z η.z) (hx : NearCell η.x) (hy : NearCell η.y)
    (hz : NearCell η.z)
    {n000 n100 n010 n001 n110 n011 n101 n111 : Node3 F64} {N000 N100 N010 N001 N110 N011 N101 N111 : Node3 ℚ}
    (k000 : Node3Is n000 N000 P h.x h.y h.z) (k100 : Node3Is n100 N100 P h.x h.y h.z) (k010 : Node3Is n010 N010 P h.x h.y h.z)
    (k001 : Node3Is n001 N001 P h.x h.y h.z) (k110 : Node3Is n110 N110 P h.x h.y h.z) (k011 : Node3Is n011 N011 P h.x h.y h.z)
    (k101 : Node3Is n101 N101 P h.x h.y h.z) (k111 : Node3Is n111 N111 P h.x h.y h.z)
    {J : Vec3 ℚ} (hJ : J.x = 1 / h.x) :
    Apx (kernel3 dx inv x n000 n100 n010 n001 n110 n011 n101 n111 false).psi.x
      (kernel3 h J η N000 N100 N010 N001 N110 N011 N101 N111 false).psi.x 1000 165000 (P / h.x) := by
  have C := apx_controls3 dX dY dZ hX hY hZ hXY hP hPX hPY hPZ hPXY k000 k100 k010 k001 k110 k011 k101 k111
  have W := apx_weights3 (apx_basis' vx hx) (apx_basis vy hy) (apx_basis vz hz)
  have t := (apx_accum hP 64 W C (by rfl)).mono hP.pos (by norm_num : _ ≤ (1000 : ℚ)) (by norm_num : _ ≤ (160000 : ℚ))
  rw [show (kernel3 h J η N000 N100 N010 N001 N110 N011 N101 N111 false).psi.x =
    accum (weights3 (basis' η.x) (basis η.y) (basis η.z)) (controls3 h N000 N100 N010 N001 N110 N011 N101 N111 false)
      * (1 / h.x) by rw [← hJ]; rfl]
  exact (apx_mul_inv t hP.pos hi hX.pos hPX).mono hPX.pos (by norm_num) (by norm_num)

theorem apx_kernel3_y {dx inv x : Vec3 F64} {h η : Vec3 ℚ} {P : ℚ} (dX : Apx dx.x h.x 1 3 h.x) (dY : Apx dx.y h.y 1 3 h.y)
    (dZ : Apx dx.z h.z 1 3 h.z) (hi : Apx inv.y (1 / h.y) 1 4 (1 / h.y)) (hX : Scaled h.x) (hY : Scaled h.y) (hZ : Scaled h.z) (hXY : Scaled (h.x * h.y)) (hP : Scaled P)
    (hPX : Scaled (P / h.x)) (hPY : Scaled (P / h.y)) (hPZ : Scaled (P / h.z)) (hPXY : Scaled (P / (h.x * h.y)))
    (vx : HasValue x.x η.x) (vy : HasValue x.y η.y) (vz : HasValue x.z η.z) (hx : NearCell η.x) (hy : NearCell η.y)
    (hz : NearCell η.z)
    {n000 n100 n010 n001 n110 n011 n101 n111 : Node3 F64} {N000 N100 N010 N001 N110 N011 N101 N111 : Node3 ℚ}
    (k000 : Node3Is n000 N000 P h.x h.y h.z) (k100 : Node3Is n100 N100 P h.x h.y h.z) (k010 : Node3Is n010 N010 P h.x h.y h.z)
    (k001 : Node3Is n001 N001 P h.x h.y h.z) (k110 : Node3Is n110 N110 P h.x h.y h.z) (k011 : Node3Is n011 N011 P h.x h.y h.z)
    (k101 : Node3Is n101 N101 P h.x h.y h.z) (k111 : Node3Is n111 N111 P h.x h.y h.z)
    {J : Vec3 ℚ} (hJ : J.y = 1 / h.y) :
    Apx (kernel3 dx inv x n000 n100 n010 n001 n110 n011 n101 n111 false).psi.y
      (kernel3 h J η N000 N100 N010 N001 N110 N011 N101 N111 false).psi.y 1000 165000 (P / h.y) := by
  have C := apx_controls3 dX dY dZ hX hY hZ hXY hP hPX hPY hPZ hPXY k000 k100 k010 k001 k110 k011 k101 k111
  have W := apx_weights3 (apx_basis vx hx) (apx_basis' vy hy) (apx_basis vz hz)
  have t := (apx_accum hP 64 W C (by rfl)).mono hP.pos (by norm_num : _ ≤ (1000 : ℚ)) (by norm_num : _ ≤ (160000 : ℚ))
  rw [show (kernel3 h J η N000 N100 N010 N001 N110 N011 N101 N111 false).psi.y =
    accum (weights3 (basis η.x) (basis' η.y) (basis η.z)) (controls3 h N000 N100 N010 N001 N110 N011 N101 N111 false)
      * (1 / h.y) by rw [← hJ]; rfl]
  exact (apx_mul_inv t hP.pos hi hY.pos hPY).mono hPY.pos (by norm_num) (by norm_num)

theorem apx_kernel3_z {dx inv x : Vec3 F64} {h η : Vec3 ℚ} {P : ℚ} (dX : Apx dx.x h.x 1 3 h.x) (dY : Apx dx.y h.y 1 3 h.y)
    (dZ : Apx dx.z h.z 1 3 h.z) (hi : Apx inv.z (1 / h.z) 1 4 (1 / h.z)) (hX : Scaled h.x) (hY : Scaled h.y) (hZ : Scaled h.z) (hXY : Scaled (h.x * h.y)) (hP : Scaled P)
    (hPX : Scaled (P / h.x)) (hPY : Scaled (P / h.y)) (hPZ : Scaled (P / h.z)) (hPXY : Scaled (P / (h.x * h.y)))
    (vx : HasValue x.x η.x) (vy : HasValue x.y η.y) (vz : HasValue x.z η.z) (hx : NearCell η.x) (hy : NearCell η.y)
    (hz : NearCell η.z)
    {n000 n100 n010 n001 n110 n011 n101 n111 : Node3 F64} {N000 N100 N010 N001 N110 N011 N101 N111 : Node3 ℚ}
    (k000 : Node3Is n000 N000 P h.x h.y h.z) (k100 : Node3Is n100 N100 P h.x h.y h.z) (k010 : Node3Is n010 N010 P h.x h.y h.z)
    (k001 : Node3Is n001 N001 P h.x h.y h.z) (k110 : Node3Is n110 N110 P h.x h.y h.z) (k011 : Node3Is n011 N011 P h.x h.y h.z)
    (k101 : Node3Is n101 N101 P h.x h.y h.z) (k111 : Node3Is n111 N111 P h.x h.y h.z)
    {J : Vec3 ℚ} (hJ : J.z = 1 / h.z) :
    Apx (kernel3 dx inv x n000 n100 n010 n001 n110 n011 n101 n111 false).psi.z
      (kernel3 h J η N000 N100 N010 N001 N110 N011 N101 N111 false).psi.z 1000 165000 (P / h.z) := by
  have C := apx_controls3 dX dY dZ hX hY hZ hXY hP hPX hPY hPZ hPXY k000 k100 k010 k001 k110 k011 k101 k111
  have W := apx_weights3 (apx_basis vx hx) (apx_basis vy hy) (apx_basis' vz hz)
  have t := (apx_accum hP 64 W C (by rfl)).mono hP.pos (by norm_num : _ ≤ (1000 : ℚ)) (by norm_num : _ ≤ (160000 : ℚ))
  rw [show (kernel3 h J η N000 N100 N010 N001 N110 N011 N101 N111 false).psi.z =
    accum (weights3 (basis η.x) (basis η.y) (basis' η.z)) (controls3 h N000 N100 N010 N001 N110 N011 N101 N111 false)
      * (1 / h.z) by rw [← hJ]; rfl]
  exact (apx_mul_inv t hP.pos hi hZ.pos hPZ).mono hPZ.pos (by norm_num) (by norm_num)

end Gals
