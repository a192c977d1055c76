import Verif.Spec.Level
import Verif.Lemmas.Zoom

/-!
# Lemmas on level sets times a number plus a constant
-/

set_option linter.unusedSectionVars false

namespace Gals

open Spec Props

variable {K : Type} [Field K] [LinearOrder K] [IsStrictOrderedRing K] [FloorRing K] {d : ℕ}

/-- All four control points times `k` plus `a`. -/
def ControlPoints.level (k a : K) (c : ControlPoints K) : ControlPoints K := ⟨k * c.c30 + a, k * c.c21 + a, k * c.c12 + a, k * c.c03 + a⟩

theorem controls_level {k : K} (hk : k ≠ 0) (a p u q v dx : K) (lim : Bool) :
    getControlPoints (k * p + a) (k * u) (k * q + a) (k * v) dx lim = (getControlPoints p u q v dx lim).level k a := by
  unfold getControlPoints ControlPoints.level
  simp only [oneThird, twoThirds]
  have f1 : k * p + a + k * u * dx * (1 / 3) = k * (p + u * dx * (1 / 3)) + a := by ring
  have f2 : k * q + a - k * v * dx * (1 / 3) = k * (q - v * dx * (1 / 3)) + a := by ring
  simp only [f1, f2]
  obtain ⟨u, hu⟩ : ∃ w, p + u * dx * (1 / 3) = w := ⟨_, rfl⟩
  obtain ⟨v, hv⟩ : ∃ w, q - v * dx * (1 / 3) = w := ⟨_, rfl⟩
  simp only [hu, hv]
  clear f1 f2 hu hv
  cases lim
  · rfl
  · simp only [if_true, add_sub_add_right_eq_sub]
    have kk : 0 < k * k := mul_self_pos.2 hk
    have e1 : (3 * (k * u - k * p) - 3 / 2 * (k * v - k * p)) * (3 * (k * u - k * p) - (k * q - k * p)) =
      k * k * ((3 * (u - p) - 3 / 2 * (v - p)) * (3 * (u - p) - (q - p))) := by ring
    have e2 : (3 * (k * q - k * v) - 3 / 2 * (k * q - k * u)) * (3 * (k * q - k * v) - (k * q - k * p)) =
      k * k * ((3 * (q - v) - 3 / 2 * (q - u)) * (3 * (q - v) - (q - p))) := by ring
    have e3 : (3 * (k * u - k * p) - (k * q - k * p)) * (3 * (k * q - k * v) - (k * q - k * p)) =
      k * k * ((3 * (u - p) - (q - p)) * (3 * (q - v) - (q - p))) := by ring
    have n1 : ∀ t : K, k * k * t < 0 ↔ t < 0 := fun t => by rw [← mul_zero (k * k), mul_lt_mul_iff_right₀ kk]; simp
    have n2 : ∀ t : K, k * k * t ≤ 0 ↔ t ≤ 0 := fun t => by rw [← mul_zero (k * k), mul_le_mul_iff_right₀ kk]; simp
    simp only [e1, e2, e3, n1, n2]
    split_ifs <;> congr 1 <;> (try dsimp only) <;> ring

theorem controls_scale {k : K} (hk : k ≠ 0) (p u q v dx : K) (lim : Bool) :
    getControlPoints (k * p) (k * u) (k * q) (k * v) dx lim = (getControlPoints p u q v dx lim).times k :=
  controls_times hk rfl rfl (by ring) (by ring) lim

/-- A vector times a number. -/
def lvV (k : K) (v : Vec3 K) : Vec3 K := ⟨k * v.x, k * v.y, k * v.z⟩

theorem lvV_get (k : K) (v : Vec3 K) (i : Fin 3) : (lvV k v).get i = k * v.get i := by
  match i with
  | 0 | 1 | 2 => rfl

/-- The result times a number plus a constant. -/
def lvO (k a : K) (o : Interp K) : Interp K := ⟨k * o.phi + a, lvV k o.psi⟩

/-- The data of a node times a number plus a constant. -/
def lv2 (k a : K) (n : Node2 K) : Node2 K := ⟨k * n.phi + a, lvV k n.psi, k * n.xy⟩

@[inherit_doc lv2] def lv3 (k a : K) (n : Node3 K) : Node3 K := ⟨k * n.phi + a, lvV k n.psi, k * n.xy, k * n.yz, k * n.zx, k * n.xyz⟩

theorem foldl_level (k a : K) (ws cs : List K) (h : ws.length = cs.length) (x y : K) (t : K) (e : y = k * x + a * t) :
    (ws.zip (cs.map fun c => k * c + a)).foldl (fun acc p => acc + p.1 * p.2) y =
      k * (ws.zip cs).foldl (fun acc p => acc + p.1 * p.2) x + a * (t + ws.sum) := by
  induction ws generalizing cs x y t with
  | nil => simp [e]
  | cons w ws ih =>
    cases cs with
    | nil => simp at h
    | cons c cs =>
      simp only [List.map_cons, List.zip_cons_cons, List.foldl_cons, List.sum_cons]
      rw [ih cs (by simpa using h) (x + w * c) _ (t + w) (by rw [e]; ring)]
      ring

theorem accum_level (k a : K) (ws cs : List K) (h : ws.length = cs.length) :
    accum ws (cs.map fun c => k * c + a) = k * accum ws cs + a * ws.sum := by
  unfold accum
  rw [foldl_level k a ws cs h 0 0 0 (by ring), zero_add]

theorem basis'_sum (t : K) : (basis' t).sum = 0 := by
  simp only [basis', List.sum_cons, List.sum_nil, B0', B1', B2', B3', _root_.Gals.sqr]
  ring

theorem kernel1_level {k : K} (hk : k ≠ 0) (a dx inv t : K) (p q : Node1 K) (lim : Bool) :
    kernel1 dx inv t ⟨k * p.phi + a, lvV k p.psi⟩ ⟨k * q.phi + a, lvV k q.psi⟩ lim = lvO k a (kernel1 dx inv t p q lim) := by
  unfold kernel1 lvO lvV
  simp only [controls_level hk, ControlPoints.level, B0, B1, B2, B3, B0', B1', B2', B3', _root_.Gals.sqr, _root_.Gals.cube, mul_zero]
  congr 1
  · ring
  · congr 1
    ring

theorem kernel2_level {k : K} (hk : k ≠ 0) (a : K) (dx inv eta : Vec3 K) (n00 n10 n01 n11 : Node2 K) (lim : Bool) :
    kernel2 dx inv eta (lv2 k a n00) (lv2 k a n10) (lv2 k a n01) (lv2 k a n11) lim = lvO k a (kernel2 dx inv eta n00 n10 n01 n11 lim) := by
  have c : controls2 dx (lv2 k a n00) (lv2 k a n10) (lv2 k a n01) (lv2 k a n11) lim = (controls2 dx n00 n10 n01 n11 lim).map fun c => k * c + a := by
    unfold controls2
    simp only [lv2, lvV, controls_level hk, ControlPoints.level, List.map_cons, List.map_nil]
    repeat (first | rfl | refine congrArg₂ List.cons (by first | rfl | ring) ?_)
  have len : ∀ p q : K → List K, (∀ t, (p t).length = 4) → (∀ t, (q t).length = 4) → (weights2 (p eta.x) (q eta.y)).length =
      (controls2 dx n00 n10 n01 n11 lim).length := fun p q hp hq => by
    unfold weights2
    rw [List.length_flatMap]
    simp [hp, hq, controls2]
  have b : ∀ t : K, (basis t).length = 4 := fun _ => rfl
  have b' : ∀ t : K, (basis' t).length = 4 := fun _ => rfl
  unfold kernel2 lvO lvV
  simp only [c]
  rw [accum_level k a _ _ (len basis basis b b), accum_level k a _ _ (len basis' basis b' b), accum_level k a _ _ (len basis basis' b b'),
    weights2_sum, weights2_sum, weights2_sum]
  simp only [basis_sum, basis'_sum, mul_one, mul_zero, add_zero, mul_assoc]

theorem kernel3_level {k : K} (hk : k ≠ 0) (a : K) (dx inv eta : Vec3 K) (n000 n100 n010 n001 n110 n011 n101 n111 : Node3 K) (lim : Bool) :
    kernel3 dx inv eta (lv3 k a n000) (lv3 k a n100) (lv3 k a n010) (lv3 k a n001) (lv3 k a n110) (lv3 k a n011) (lv3 k a n101) (lv3 k a n111) lim =
      lvO k a (kernel3 dx inv eta n000 n100 n010 n001 n110 n011 n101 n111 lim) := by
  have c : controls3 dx (lv3 k a n000) (lv3 k a n100) (lv3 k a n010) (lv3 k a n001) (lv3 k a n110) (lv3 k a n011) (lv3 k a n101) (lv3 k a n111) lim =
      (controls3 dx n000 n100 n010 n001 n110 n011 n101 n111 lim).map fun c => k * c + a := by
    unfold controls3
    simp only [lv3, lvV, controls_level hk, controls_scale hk, ControlPoints.level, ControlPoints.times, List.map_cons, List.map_nil]
    repeat (first | rfl | refine congrArg₂ List.cons (by first | rfl | ring) ?_)
  have len : ∀ p q r : K → List K, (∀ t, (p t).length = 4) → (∀ t, (q t).length = 4) → (∀ t, (r t).length = 4) →
      (weights3 (p eta.x) (q eta.y) (r eta.z)).length = (controls3 dx n000 n100 n010 n001 n110 n011 n101 n111 lim).length := fun p q r hp hq hr => by
    unfold weights3
    simp [hp, hq, hr, controls3, List.length_flatMap]
  have b : ∀ t : K, (basis t).length = 4 := fun _ => rfl
  have b' : ∀ t : K, (basis' t).length = 4 := fun _ => rfl
  unfold kernel3 lvO lvV
  simp only [c]
  rw [accum_level k a _ _ (len basis basis basis b b b), accum_level k a _ _ (len basis' basis basis b' b b),
    accum_level k a _ _ (len basis basis' basis b b' b), accum_level k a _ _ (len basis basis basis' b b b'),
    weights3_sum, weights3_sum, weights3_sum, weights3_sum]
  simp only [basis_sum, basis'_sum, mul_one, mul_zero, add_zero, mul_assoc]

theorem Spec.Levels.psi' {k a : K} {r : Req K} {F F' : Cell → K} {V V' : Cell → Vec3 K} {X X' : Cell → List K} (T : Levels k a d r F F' V V' X X')
    {c : Cell} (hc : r.Padded d c) : V' c = lvV k (V c) := vec_ext fun i => by rw [T.psi c hc i, lvV_get]

/-- Interpolation. -/
theorem interp_level {s : IntSem} (hs : d < 3 → s = .wrap) {k : K} (hk : k ≠ 0) {a : K} {r : Req K} (h : r.Valid d) (hpos : r.Pos d)
    {g : Grid K d} (G : g.Made s r) {ls ls' : Levelset K} {F F' : Cell → K} {V V' : Cell → Vec3 K} {X X' : Cell → List K}
    (hX : ∀ c, (X c).length = numMixed d) (hX' : ∀ c, (X' c).length = numMixed d) (P : PrevIs s r g ls F V X) (P' : PrevIs s r g ls' F' V' X')
    (T : Levels k a d r F F' V V' X X') {x : Vec3 K} (hx : InStorage r d x) {lim : Bool} {y : Interp K}
    (e : interpolate s g ls x lim = .ok y) : interpolate s g ls' x lim = .ok (lvO k a y) := by
  rcases h.dim with rfl | rfl | rfl
  · obtain rfl := hs (by decide)
    obtain ⟨b, H, i⟩ := interp1_eval G h hpos P hx lim
    obtain ⟨b', H', i'⟩ := interp1_eval G h hpos P' hx lim
    obtain rfl := H'.unique h hpos H
    have s0 := H.stencil h 0 0 0 (by simp) (by simp) (by simp)
    have s1 := H.stencil h 1 0 0 (by simp) (by simp) (by simp)
    simp only [add_zero] at s0 s1
    rw [i] at e
    obtain rfl := Except.ok.inj e
    rw [i', T.phi _ s0, T.phi _ s1, T.psi' s0, T.psi' s1]
    exact congrArg Except.ok (kernel1_level hk a _ _ _ ⟨F b', V b'⟩ ⟨F (b'.1 + 1, b'.2.1, b'.2.2), V (b'.1 + 1, b'.2.1, b'.2.2)⟩ lim)
  · obtain rfl := hs (by decide)
    have X1 : X = fun c => [el (X c) 0] := funext fun c => one_el (hX c)
    have X1' : X' = fun c => [el (X' c) 0] := funext fun c => one_el (hX' c)
    obtain ⟨b, H, i⟩ := interp2_eval G h hpos (xy := fun c => el (X c) 0) (by rw [← X1]; exact P) hx lim
    obtain ⟨b', H', i'⟩ := interp2_eval G h hpos (xy := fun c => el (X' c) 0) (by rw [← X1']; exact P') hx lim
    obtain rfl := H'.unique h hpos H
    have s00 := H.stencil h 0 0 0 (by simp) (by simp) (by simp)
    have s10 := H.stencil h 1 0 0 (by simp) (by simp) (by simp)
    have s01 := H.stencil h 0 1 0 (by simp) (by simp) (by simp)
    have s11 := H.stencil h 1 1 0 (by simp) (by simp) (by simp)
    simp only [add_zero] at s00 s10 s01 s11
    have nd : ∀ c, r.Padded 2 c → node2 F' V' (fun c => el (X' c) 0) c = lv2 k a (node2 F V (fun c => el (X c) 0) c) := fun c hc => by
      unfold node2 lv2
      have : el (X' c) 0 = k * el (X c) 0 := by rw [T.mix c hc, one_el (hX c)]; rfl
      simp only [T.phi c hc, T.psi' hc, this]
    rw [i] at e
    obtain rfl := Except.ok.inj e
    rw [i', nd _ s00, nd _ s10, nd _ s01, nd _ s11]
    exact congrArg Except.ok (kernel2_level hk a _ _ _ _ _ _ _ lim)
  · have X1 : X = fun c => [el (X c) 0, el (X c) 1, el (X c) 2, el (X c) 3] := funext fun c => four_el (hX c)
    have X1' : X' = fun c => [el (X' c) 0, el (X' c) 1, el (X' c) 2, el (X' c) 3] := funext fun c => four_el (hX' c)
    obtain ⟨b, H, i⟩ := interp3_eval G h hpos (xy := fun c => el (X c) 0) (yz := fun c => el (X c) 1) (zx := fun c => el (X c) 2)
      (xyz := fun c => el (X c) 3) (by rw [← X1]; exact P) hx lim
    obtain ⟨b', H', i'⟩ := interp3_eval G h hpos (xy := fun c => el (X' c) 0) (yz := fun c => el (X' c) 1) (zx := fun c => el (X' c) 2)
      (xyz := fun c => el (X' c) 3) (by rw [← X1']; exact P') hx lim
    obtain rfl := H'.unique h hpos H
    have s000 := H.stencil h 0 0 0 (by simp) (by simp) (by simp)
    have s100 := H.stencil h 1 0 0 (by simp) (by simp) (by simp)
    have s010 := H.stencil h 0 1 0 (by simp) (by simp) (by simp)
    have s001 := H.stencil h 0 0 1 (by simp) (by simp) (by simp)
    have s110 := H.stencil h 1 1 0 (by simp) (by simp) (by simp)
    have s011 := H.stencil h 0 1 1 (by simp) (by simp) (by simp)
    have s101 := H.stencil h 1 0 1 (by simp) (by simp) (by simp)
    have s111 := H.stencil h 1 1 1 (by simp) (by simp) (by simp)
    simp only [add_zero] at s000 s100 s010 s001 s110 s011 s101 s111
    have nd : ∀ c, r.Padded 3 c → node3 F' V' (fun c => el (X' c) 0) (fun c => el (X' c) 1) (fun c => el (X' c) 2) (fun c => el (X' c) 3) c =
        lv3 k a (node3 F V (fun c => el (X c) 0) (fun c => el (X c) 1) (fun c => el (X c) 2) (fun c => el (X c) 3) c) := fun c hc => by
      unfold node3 lv3
      have m : X' c = [el (X c) 0, el (X c) 1, el (X c) 2, el (X c) 3].map (k * ·) := by rw [← four_el (hX c)]; exact T.mix c hc
      simp only [T.phi c hc, T.psi' hc, m]
      rfl
    rw [i] at e
    obtain rfl := Except.ok.inj e
    rw [i', nd _ s000, nd _ s100, nd _ s010, nd _ s001, nd _ s110, nd _ s011, nd _ s101, nd _ s111]
    exact congrArg Except.ok (kernel3_level hk a _ _ _ _ _ _ _ _ _ _ _ lim)

theorem dot_level (k : K) (m : Mat3 K) (v : Vec3 K) (i : Fin 3) : (m.dot (lvV k v)).get i = k * (m.dot v).get i := by
  rw [dot_get, dot_get, Finset.mul_sum]
  refine Finset.sum_congr rfl fun j _ => ?_
  rw [lvV_get]
  ring

/-- Differences. -/
theorem level_diff {s : IntSem} {sch : GradScheme} {k a : K} {r : Req K} {g : Grid K d} (M : g.Made s r) (hp : reach sch ≤ r.pad) {c : Cell}
    (ic : r.Interior c) {F F' : Cell → K} (T : ∀ c, r.Padded d c → F' c = k * F c + a) {v v' w w' : Vec3 K} {i : Fin 3} (hw : w'.get i = k * w.get i)
    (e' : v'.get i = if i.val < d then rawDiff sch F' c i (r.h i) else w'.get i)
    (e : v.get i = if i.val < d then rawDiff sch F c i (r.h i) else w.get i) : v'.get i = k * v.get i := by
  rw [e', e, hw]
  split_ifs with ha
  · have sh : ∀ n : ℤ, -reach sch ≤ n → n ≤ reach sch → F' (shift c i n) = k * F (shift c i n) + a := fun n n1 n2 =>
      T _ (shift_padded M ic ha (m := n) (by omega) (by omega))
    cases sch with
    | central =>
      simp only [rawDiff, centralRaw, sh 1 (by decide) (by decide), sh (-1) (by decide) (by decide)]
      ring
    | third =>
      simp only [rawDiff, thirdRaw, T c (interior_padded M ic), sh 1 (by decide) (by decide), sh (-1) (by decide) (by decide),
        sh (-2) (by decide) (by decide)]
      ring
  · rfl

section steps

variable {s : IntSem} (hs : d < 3 → s = .wrap) {k : K} (hk : k ≠ 0) {a : K} {r : Req K} (h : r.Valid d) (hpos : r.Pos d) (hp : 1 ≤ r.pad)
  {g gv : Grid K d} (M : g.Made s r) {dt : K} {vel : LsVelocity K} {u : Cell → Vec3 K} {m : Cell → Mat3 K}
  (hu : ∀ c, r.Interior c → vel.velocity.get s gv c.1 c.2.1 c.2.2 = .ok (u c))
  (hm : ∀ c, r.Interior c → vel.grad.get s gv c.1 c.2.1 c.2.2 = .ok (m c))
  (hcfl : ∀ c, r.Interior c → ∀ a : Fin 3, a.val < d → |(u c).get a * dt| < r.h a)
include hs hk h hpos hp M hu hm hcfl

/-- A step with the gradient carried along. -/
theorem carry_level {ls ls' : Levelset K} {F F' : Cell → K} {G G' : Cell → Vec3 K} {X X' : Cell → List K}
    (hX : ∀ c, (X c).length = numMixed d) (hX' : ∀ c, (X' c).length = numMixed d) (S : Stored s r g ls F G X)
    (S' : Stored s r g ls' F' G' X') (T : Levels k a d r F F' G G' X X') :
    ∃ l l' A A' B B', carryStep s g gv dt vel ls = .ok l ∧ carryStep s g gv dt vel ls' = .ok l' ∧ Stored s r g l A B X ∧
      Stored s r g l' A' B' X' ∧ Levels k a d r A A' B B' X X' := by
  have stored : ∀ c, r.Interior c → InStorage r d ((nodePos r d c).sub ((u c).smul dt)) := fun c hc a ha =>
    have := near_node h hpos hp hc (near_step (hcfl c hc)) a ha
    ⟨this.1.le, this.2⟩
  obtain ⟨l1, l, y, P, hy, e, R⟩ := carry_result (dt := dt) M hu hm (fun c hc => M.atC (interior_padded M hc)) S
    fun l1 P c hc => interp_ok hs M h hpos hX P (stored c hc) false
  obtain ⟨l1', l', y', P', hy', e', R'⟩ := carry_result (dt := dt) M hu hm (fun c hc => M.atC (interior_padded M hc)) S'
    fun l1 P c hc => interp_ok hs M h hpos hX' P (stored c hc) false
  refine ⟨l, l', _, _, _, _, e, e', R, R', ?_⟩
  have res : ∀ c, r.Interior c → y' c = lvO k a (y c) := fun c hc => by
    have k1 := interp_level hs hk h hpos M hX hX' P P' T (stored c hc) (hy c hc)
    have k2 := hy' c hc
    rw [k1] at k2
    exact (Except.ok.inj k2).symm
  refine ⟨fun c hc => ?_, fun c hc j => ?_, T.mix⟩
  · split_ifs with i
    · rw [res c i]; rfl
    · exact T.phi c hc
  · split_ifs with i
    · rw [res c i]
      exact dot_level ..
    · exact T.psi c hc j

/-- As `carry_level`, with the gradient recomputed. -/
theorem recompute_level (hp2 : 2 ≤ r.pad) {ls ls' : Levelset K} {F F' : Cell → K} {G G' : Cell → Vec3 K} {X X' : Cell → List K}
    (hX : ∀ c, (X c).length = numMixed d) (hX' : ∀ c, (X' c).length = numMixed d) (S : Stored s r g ls F G X)
    (S' : Stored s r g ls' F' G' X') (T : Levels k a d r F F' G G' X X') :
    ∃ l l' A A' B B', recomputeStep s g gv dt vel ls = .ok l ∧ recomputeStep s g gv dt vel ls' = .ok l' ∧ Stored s r g l A B X ∧
      Stored s r g l' A' B' X' ∧ Levels k a d r A A' B B' X X' := by
  obtain ⟨y, q, e, f, ou, i⟩ := gradScalar_ok (sch := .third) M M rfl hp2 S.phi S.psi
  obtain ⟨y', q', e', f', ou', i'⟩ := gradScalar_ok (sch := .third) M M rfl hp2 S'.phi S'.psi
  have TT : ∀ c, r.Padded d c → ∀ j, (q' c).get j = k * (q c).get j := fun c hc j => by
    by_cases ic : r.Interior c
    · exact level_diff (sch := .third) M hp2 ic T.phi (T.psi c hc j) (i' c ic j) (i c ic j)
    · rw [ou c ic, ou' c ic]
      exact T.psi c hc j
  obtain ⟨l, l', A, A', B, B', w, w', R, R', T'⟩ := carry_level hs hk h hpos hp M hu hm hcfl hX hX'
    (show Stored s r g { ls with psi := y } F q X from ⟨S.phi, f, S.phiPrev, S.psiPrev, S.phiInterpPrev, S.psiInterpPrev, S.mixed⟩)
    (show Stored s r g { ls' with psi := y' } F' q' X' from
      ⟨S'.phi, f', S'.phiPrev, S'.psiPrev, S'.phiInterpPrev, S'.psiInterpPrev, S'.mixed⟩) ⟨T.phi, TT, T.mix⟩
  refine ⟨l, l', A, A', B, B', ?_, ?_, R, R', T'⟩
  · unfold recomputeStep; rw [e, _root_.Gals.M.ok_bind]; exact w
  · unfold recomputeStep; rw [e', _root_.Gals.M.ok_bind]; exact w'

end steps

end Gals
