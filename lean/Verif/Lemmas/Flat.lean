import Verif.Spec.Flat
import Verif.Lemmas.Zoom

/-!
# Lemmas on data that do not depend on the last axis
-/

set_option linter.unusedSectionVars false

namespace Gals

open Spec Props

variable {K : Type} [Field K] [LinearOrder K] [IsStrictOrderedRing K] [FloorRing K] {d : ℕ}

theorem low_n {r : Req K} (hd : d ≤ 2) {a : Fin 3} (ha : a.val < d) : (r.low d).n.get a = r.n.get a := by
  match a with
  | 0 => rfl
  | 1 => exact if_pos ha
  | 2 => exact absurd (show 2 < d from ha) (by omega)

theorem low_comp (hd : d ≤ 2) {a : Fin 3} (ha : a.val < d) (c : Cell) : comp (lowC d c) a = comp c a := by
  match a with
  | 0 => rfl
  | 1 => exact if_pos ha
  | 2 => exact absurd (show 2 < d from ha) (by omega)

theorem low_h {r : Req K} (hd : d ≤ 2) {a : Fin 3} (ha : a.val < d) : (r.low d).h a = r.h a := by
  unfold Req.h
  rw [low_n hd ha]; rfl

theorem low_centre {r : Req K} (hd : d ≤ 2) {a : Fin 3} (ha : a.val < d) (i : ℤ) : (r.low d).centre a i = r.centre a i := by
  unfold Req.centre
  rw [low_h hd ha]; rfl

theorem low_valid {r : Req K} (hd : d = 1 ∨ d = 2) (h : r.Valid (d + 1)) : (r.low d).Valid d := by
  have h1 := h.nx_pos
  have h2 := h.ny_pos
  have h3 := h.nz_pos
  have h4 := h.pad_nonneg
  have h5 := h.fits
  have y : (r.low d).n.y ≤ r.n.y := by
    change (if 1 < d then r.n.y else 1) ≤ r.n.y
    split_ifs <;> omega
  have y0 : 0 < (r.low d).n.y := by
    change 0 < (if 1 < d then r.n.y else 1)
    split_ifs <;> omega
  refine ⟨by omega, h1, y0, one_pos, fun q => if_neg (by omega), fun _ => rfl, h4, le_trans ?_ h5⟩
  change (r.n.x + 2 * r.pad) * ((r.low d).n.y + 2 * r.pad) * (1 + 2 * r.pad) ≤ _
  exact mul_le_mul (mul_le_mul_of_nonneg_left (by omega) (by omega)) (by omega) (by omega) (mul_nonneg (by omega) (by omega))

theorem low_pos {r : Req K} (h : r.Pos (d + 1)) : (r.low d).Pos d := fun a ha => h a (by omega)

theorem low_interior {r : Req K} {c : Cell} (ic : r.Interior c) : (r.low d).Interior (lowC d c) := by
  obtain ⟨h1, h2, h3⟩ := ic
  refine ⟨h1, ?_, le_refl 0, one_pos⟩
  change 0 ≤ (if 1 < d then c.2.1 else 0) ∧ (if 1 < d then c.2.1 else 0) < if 1 < d then r.n.y else 1
  split_ifs
  · exact h2
  · exact ⟨le_refl _, one_pos⟩

/-- The points agree along the first `d` axes. -/
def Over (d : ℕ) (x x' : Vec3 K) : Prop := ∀ a : Fin 3, a.val < d → x'.get a = x.get a

theorem low_storage {r : Req K} (hd : d ≤ 2) {x x' : Vec3 K} (o : Over d x x') (h : InStorage r (d + 1) x') : InStorage (r.low d) d x := fun a ha => by
  have := h a (by omega)
  rw [low_centre hd ha, low_centre hd ha, low_n hd ha, ← o a ha]
  exact this

theorem low_base {r : Req K} (h0 : 0 < d) (hd : d ≤ 2) {x x' : Vec3 K} (o : Over d x x') {b : Cell} (H : BaseCell r (d + 1) x' b) : BaseCell (r.low d) d x (lowC d b) := by
  refine ⟨fun a ha => ?_, fun a ha => ?_, fun a ha => ?_, fun a ha => ?_⟩
  · rw [low_centre hd ha, low_comp hd ha, ← o a ha]
    exact H.lo a (by omega)
  · rw [low_centre hd ha, low_comp hd ha, ← o a ha]
    exact H.hi a (by omega)
  · rw [low_n hd ha, low_comp hd ha]
    exact H.stored a (by omega)
  · match a with
    | 0 => exact absurd h0 ha
    | 1 => exact if_neg ha
    | 2 => rfl

theorem low_node {r : Req K} (hd : d ≤ 2) (c : Cell) : Over d (nodePos (r.low d) d (lowC d c)) (nodePos r (d + 1) c) := fun a ha => by
  rw [nodePos_get, nodePos_get, if_pos ha, if_pos (by omega), low_centre hd ha]
  exact congrArg (fun i => r.centre a (i + (r.pad - 1))) (low_comp hd ha c).symm

theorem T1_flat (t h p : K) : T1 (basis t) h p 0 p 0 = p := by
  simp only [basis, T1_four, B0, B1, B2, B3, _root_.Gals.sqr, _root_.Gals.cube]
  ring

theorem T1_flat' (t h p : K) : T1 (basis' t) h p 0 p 0 = 0 := by
  simp only [basis', T1_four, B0', B1', B2', B3', _root_.Gals.sqr]
  ring

theorem T1_null (b : List K) (h : K) : T1 b h 0 0 0 0 = 0 := by
  unfold T1
  split <;> ring

theorem kernel2_flat {dx inv eta : Vec3 K} {n00 n10 n01 n11 : Node2 K} (p q : Node1 K) (e00 : n00.phi = p.phi ∧ n00.psi.x = p.psi.x ∧ n00.psi.y = 0 ∧ n00.xy = 0)
    (e01 : n01.phi = p.phi ∧ n01.psi.x = p.psi.x ∧ n01.psi.y = 0 ∧ n01.xy = 0) (e10 : n10.phi = q.phi ∧ n10.psi.x = q.psi.x ∧ n10.psi.y = 0 ∧ n10.xy = 0)
    (e11 : n11.phi = q.phi ∧ n11.psi.x = q.psi.x ∧ n11.psi.y = 0 ∧ n11.xy = 0) :
    kernel2 dx inv eta n00 n10 n01 n11 false = kernel1 dx.x inv.x eta.x p q false := by
  simp only [kernel2_eq, kernel1_eq, e00, e01, e10, e11, T1_flat, T1_flat', T1_null, zero_mul]

/-- The data of a node of space above a node of the plane. -/
def Above (n : Node2 K) (m : Node3 K) : Prop :=
  m.phi = n.phi ∧ m.psi.x = n.psi.x ∧ m.psi.y = n.psi.y ∧ m.psi.z = 0 ∧ m.xy = n.xy ∧ m.yz = 0 ∧ m.zx = 0 ∧ m.xyz = 0

theorem kernel3_flat {dx inv eta dx' inv' eta' : Vec3 K} {n000 n100 n010 n001 n110 n011 n101 n111 : Node3 K} {n00 n10 n01 n11 : Node2 K}
    (d1 : dx'.x = dx.x) (d2 : dx'.y = dx.y) (i1 : inv'.x = inv.x) (i2 : inv'.y = inv.y) (t1 : eta'.x = eta.x) (t2 : eta'.y = eta.y)
    (e000 : Above n00 n000) (e100 : Above n10 n100) (e010 : Above n01 n010) (e001 : Above n00 n001) (e110 : Above n11 n110) (e011 : Above n01 n011)
    (e101 : Above n10 n101) (e111 : Above n11 n111) :
    kernel3 dx inv eta n000 n100 n010 n001 n110 n011 n101 n111 false = kernel2 dx' inv' eta' n00 n10 n01 n11 false := by
  obtain ⟨a1, a2, a3, a4, a5, a6, a7, a8⟩ := e000
  obtain ⟨b1, b2, b3, b4, b5, b6, b7, b8⟩ := e100
  obtain ⟨c1, c2, c3, c4, c5, c6, c7, c8⟩ := e010
  obtain ⟨f1, f2, f3, f4, f5, f6, f7, f8⟩ := e001
  obtain ⟨g1, g2, g3, g4, g5, g6, g7, g8⟩ := e110
  obtain ⟨h1, h2, h3, h4, h5, h6, h7, h8⟩ := e011
  obtain ⟨j1, j2, j3, j4, j5, j6, j7, j8⟩ := e101
  obtain ⟨k1, k2, k3, k4, k5, k6, k7, k8⟩ := e111
  simp only [kernel3_eq, kernel2_eq, d1, d2, i1, i2, t1, t2, a1, a2, a3, a4, a5, a6, a7, a8, b1, b2, b3, b4, b5, b6, b7, b8, c1, c2, c3, c4, c5, c6,
    c7, c8, f1, f2, f3, f4, f5, f6, f7, f8, g1, g2, g3, g4, g5, g6, g7, g8, h1, h2, h3, h4, h5, h6, h7, h8, j1, j2, j3, j4, j5, j6, j7, j8, k1, k2, k3,
    k4, k5, k6, k7, k8, T1_flat, T1_flat', T1_null, zero_mul]

/-- Interpolation of data that do not depend on the last axis. -/
theorem interp_flat (hd : d = 1 ∨ d = 2) {r : Req K} (h : r.Valid (d + 1)) (hpos : r.Pos (d + 1)) {g : Grid K d} {g' : Grid K (d + 1)}
    (M : g.Made .wrap (r.low d)) (M' : g'.Made .wrap r) {ls ls' : Levelset K} {F F' : Cell → K} {V V' : Cell → Vec3 K} {X X' : Cell → List K}
    (hX : ∀ c, (X c).length = numMixed d) (hX' : ∀ c, (X' c).length = numMixed (d + 1)) (P : PrevIs .wrap (r.low d) g ls F V X)
    (P' : PrevIs .wrap r g' ls' F' V' X') (T : Flat d r F F' V V' X X') {x x' : Vec3 K} (o : Over d x x') (hx : InStorage r (d + 1) x') :
    interpolate .wrap g' ls' x' false = interpolate .wrap g ls x false := by
  have h' := low_valid hd h
  have hpos' : (r.low d).Pos d := low_pos hpos
  have hd2 : d ≤ 2 := by omega
  have hx0 := low_storage hd2 o hx
  have sm : ∀ (u v w : Vec3 K) (a : Fin 3), ((u.sub v).mul w).get a = (u.get a - v.get a) * w.get a := fun u v w a => by
    match a with
    | 0 | 1 | 2 => rfl
  have hdx : ∀ a : Fin 3, a.val < d → g.dx.get a = g'.dx.get a := fun a ha => by rw [M'.dx, M.dx, low_h hd2 ha]
  have hinv : ∀ a : Fin 3, a.val < d → g.oneOverDx.get a = g'.oneOverDx.get a := fun a ha => by
    rw [M'.oneOverDx a (by omega), M.oneOverDx _ ha, low_h hd2 ha]
  have eta : ∀ (b : Cell) (a : Fin 3), a.val < d → ((x.sub (nodePos (r.low d) d (lowC d b))).mul g.oneOverDx).get a =
      ((x'.sub (nodePos r (d + 1) b)).mul g'.oneOverDx).get a := fun b a ha => by
    rw [sm, sm, hinv a ha, o a ha, low_node hd2 b a ha]
  rcases hd with rfl | rfl
  · have X1 : X' = fun c => [el (X' c) 0] := funext fun c => one_el (hX' c)
    obtain ⟨b', H', i'⟩ := interp2_eval M' h hpos (xy := fun c => el (X' c) 0) (by rw [← X1]; exact P') hx false
    obtain ⟨b, H, i⟩ := interp1_eval M h' hpos' P hx0 false
    obtain rfl := H.unique h' hpos' (low_base (by decide) hd2 o H')
    have s00 := H'.stencil h 0 0 0 (by simp) (by simp) (by simp)
    have s10 := H'.stencil h 1 0 0 (by simp) (by simp) (by simp)
    have s01 := H'.stencil h 0 1 0 (by simp) (by simp) (by simp)
    have s11 := H'.stencil h 1 1 0 (by simp) (by simp) (by simp)
    simp only [add_zero] at s00 s10 s01 s11
    have nd : ∀ c, r.Padded 2 c → (node2 F' V' (fun c => el (X' c) 0) c).phi = F (lowC 1 c) ∧
        (node2 F' V' (fun c => el (X' c) 0) c).psi.x = (V (lowC 1 c)).x ∧ (node2 F' V' (fun c => el (X' c) 0) c).psi.y = 0 ∧
        (node2 F' V' (fun c => el (X' c) 0) c).xy = 0 := fun c hc =>
      ⟨T.phi c hc, T.psi c hc 0 (by decide), T.psi c hc 1 (by decide), by
        change el (X' c) 0 = 0
        rw [T.mix c hc]; rfl⟩
    have et := eta b' 0 (by decide)
    rw [sm, M.oneOverDx 0 (by decide)] at et
    change (x.x - (nodePos (r.low 1) 1 (lowC 1 b')).x) * (1 / (r.low 1).h 0) = _ at et
    rw [i', i, et, ← M.oneOverDx 0 (by decide), ← M.dx, hdx 0 (by decide), hinv 0 (by decide)]
    exact congrArg Except.ok (kernel2_flat ⟨F (lowC 1 b'), V (lowC 1 b')⟩ ⟨F (lowC 1 (b'.1 + 1, b'.2.1, b'.2.2)), V (lowC 1 (b'.1 + 1, b'.2.1, b'.2.2))⟩
      (nd _ s00) (nd _ s01) (nd _ s10) (nd _ s11))
  · have X0 : X = fun c => [el (X c) 0] := funext fun c => one_el (hX c)
    have X1 : X' = fun c => [el (X' c) 0, el (X' c) 1, el (X' c) 2, el (X' c) 3] := funext fun c => four_el (hX' c)
    obtain ⟨b', H', i'⟩ := interp3_eval M' h hpos (xy := fun c => el (X' c) 0) (yz := fun c => el (X' c) 1) (zx := fun c => el (X' c) 2)
      (xyz := fun c => el (X' c) 3) (by rw [← X1]; exact P') hx false
    obtain ⟨b, H, i⟩ := interp2_eval M h' hpos' (xy := fun c => el (X c) 0) (by rw [← X0]; exact P) hx0 false
    obtain rfl := H.unique h' hpos' (low_base (by decide) hd2 o H')
    have s000 := H'.stencil h 0 0 0 (by simp) (by simp) (by simp)
    have s100 := H'.stencil h 1 0 0 (by simp) (by simp) (by simp)
    have s010 := H'.stencil h 0 1 0 (by simp) (by simp) (by simp)
    have s001 := H'.stencil h 0 0 1 (by simp) (by simp) (by simp)
    have s110 := H'.stencil h 1 1 0 (by simp) (by simp) (by simp)
    have s011 := H'.stencil h 0 1 1 (by simp) (by simp) (by simp)
    have s101 := H'.stencil h 1 0 1 (by simp) (by simp) (by simp)
    have s111 := H'.stencil h 1 1 1 (by simp) (by simp) (by simp)
    simp only [add_zero] at s000 s100 s010 s001 s110 s011 s101 s111
    have nd : ∀ c, r.Padded 3 c → Above (node2 F V (fun c => el (X c) 0) (lowC 2 c))
        (node3 F' V' (fun c => el (X' c) 0) (fun c => el (X' c) 1) (fun c => el (X' c) 2) (fun c => el (X' c) 3) c) := fun c hc => by
      have m : X' c = [el (X (lowC 2 c)) 0, 0, 0, 0] := by
        rw [T.mix c hc, one_el (hX (lowC 2 c))]; rfl
      refine ⟨T.phi c hc, T.psi c hc 0 (by decide), T.psi c hc 1 (by decide), T.psi c hc 2 (by decide), ?_, ?_, ?_, ?_⟩
      · change el (X' c) 0 = _
        rw [m]; rfl
      · change el (X' c) 1 = _
        rw [m]; rfl
      · change el (X' c) 2 = _
        rw [m]; rfl
      · change el (X' c) 3 = _
        rw [m]; rfl
    rw [i', i]
    exact congrArg Except.ok (kernel3_flat (hdx 0 (by decide)) (hdx 1 (by decide)) (hinv 0 (by decide)) (hinv 1 (by decide)) (eta b' 0 (by decide))
      (eta b' 1 (by decide)) (nd _ s000) (nd _ s100) (nd _ s010) (nd _ s001) (nd _ s110) (nd _ s011) (nd _ s101) (nd _ s111))

/-- In one and two dimensions the gradient returned is zero along the unused axes. -/
theorem interp_unused (hd : d = 1 ∨ d = 2) {r : Req K} (h : r.Valid d) (hpos : r.Pos d) {g : Grid K d} (M : g.Made .wrap r) {ls : Levelset K}
    {F : Cell → K} {V : Cell → Vec3 K} {X : Cell → List K} (hX : ∀ c, (X c).length = numMixed d) (P : PrevIs .wrap r g ls F V X) {x : Vec3 K}
    (hx : InStorage r d x) {y : Interp K} (e : interpolate .wrap g ls x false = .ok y) (a : Fin 3) (ha : ¬ a.val < d) : y.psi.get a = 0 := by
  rcases hd with rfl | rfl
  · obtain ⟨b, -, i⟩ := interp1_eval M h hpos P hx false
    rw [i] at e
    obtain rfl := Except.ok.inj e
    match a with
    | 0 => exact absurd (by decide) ha
    | 1 | 2 => rfl
  · have X0 : X = fun c => [el (X c) 0] := funext fun c => one_el (hX c)
    obtain ⟨b, -, i⟩ := interp2_eval M h hpos (xy := fun c => el (X c) 0) (by rw [← X0]; exact P) hx false
    rw [i] at e
    obtain rfl := Except.ok.inj e
    match a with
    | 0 | 1 => exact absurd (by decide) ha
    | 2 => rfl

/-- The chain rule. -/
theorem pull_flat {m m' : Mat3 K} {dt : K} {q : Vec3 K} (hq : ∀ a : Fin 3, ¬ a.val < d → q.get a = 0) (hm : FlatM d m m') :
    FlatV d ((Mat3.identity.sub (m.smul dt)).dot q) ((Mat3.identity.sub (m'.smul dt)).dot q) := by
  have e : ∀ (m : Mat3 K) (a b : Fin 3), (Mat3.identity.sub (m.smul dt)).entry a b = (if a = b then 1 else 0) - m.entry a b * dt := by
    intro m a b
    rw [← identity_entry]; rfl
  intro i hi
  rw [dot_get, dot_get]
  split_ifs with k
  · refine Finset.sum_congr rfl fun j _ => ?_
    by_cases hj : j.val < d
    · rw [e, e, hm j i hj hi, if_pos k]
    · rw [hq j hj, mul_zero, mul_zero]
  · refine Finset.sum_eq_zero fun j _ => ?_
    by_cases hj : j.val < d
    · rw [e, hm j i hj hi, if_neg k, if_neg (by rintro rfl; exact k hj)]
      ring
    · rw [hq j hj, mul_zero]

theorem low_shift (hd : d ≤ 2) {a : Fin 3} (ha : a.val < d) (c : Cell) (n : ℤ) : lowC d (shift c a n) = shift (lowC d c) a n := by
  match a with
  | 0 => rfl
  | 1 =>
    have : 1 < d := ha
    simp only [lowC, shift, if_pos this]
  | 2 => exact absurd (show 2 < d from ha) (by omega)

theorem low_shift_last {a : Fin 3} (h0 : 0 < d) (ha : ¬ a.val < d) (c : Cell) (n : ℤ) : lowC d (shift c a n) = lowC d c := by
  match a with
  | 0 => exact absurd h0 ha
  | 1 =>
    have : ¬ 1 < d := ha
    simp only [lowC, shift, if_neg this]
  | 2 => rfl

/-- Differences. -/
theorem flat_diff {s : IntSem} {sch : GradScheme} (h0 : 0 < d) (hd : d ≤ 2) {r : Req K} {g' : Grid K (d + 1)} (M : g'.Made s r)
    (hp : reach sch ≤ r.pad) {c : Cell} (ic : r.Interior c) {F F' : Cell → K} (T : ∀ c, r.Padded (d + 1) c → F' c = F (lowC d c)) {a : Fin 3}
    (ha : a.val < d + 1) : rawDiff sch F' c a (r.h a) = if a.val < d then rawDiff sch F (lowC d c) a ((r.low d).h a) else 0 := by
  have sh : ∀ n : ℤ, -reach sch ≤ n → n ≤ reach sch → F' (shift c a n) = F (lowC d (shift c a n)) := fun n n1 n2 =>
    T _ (shift_padded M ic ha (m := n) (by omega) (by omega))
  split_ifs with k
  · cases sch with
    | central =>
      simp only [rawDiff, centralRaw, sh 1 (by decide) (by decide), sh (-1) (by decide) (by decide), low_h hd k, low_shift hd k]
    | third =>
      simp only [rawDiff, thirdRaw, T c (interior_padded M ic), sh 1 (by decide) (by decide), sh (-1) (by decide) (by decide),
        sh (-2) (by decide) (by decide), low_h hd k, low_shift hd k]
  · cases sch with
    | central =>
      simp only [rawDiff, centralRaw, sh 1 (by decide) (by decide), sh (-1) (by decide) (by decide), low_shift_last h0 k]
      ring
    | third =>
      simp only [rawDiff, thirdRaw, T c (interior_padded M ic), sh 1 (by decide) (by decide), sh (-1) (by decide) (by decide),
        sh (-2) (by decide) (by decide), low_shift_last h0 k]
      ring

/-- A step with the gradient carried along. -/
theorem carry_flat (hd : d = 1 ∨ d = 2) {r : Req K} (h : r.Valid (d + 1)) (hpos : r.Pos (d + 1)) (hp : 1 ≤ r.pad) {g gv : Grid K d}
    {g' gv' : Grid K (d + 1)} (M : g.Made .wrap (r.low d)) (M' : g'.Made .wrap r) {dt : K} {vel vel' : LsVelocity K} {u u' : Cell → Vec3 K}
    {m m' : Cell → Mat3 K} (hu : ∀ c, (r.low d).Interior c → vel.velocity.get .wrap gv c.1 c.2.1 c.2.2 = .ok (u c))
    (hm : ∀ c, (r.low d).Interior c → vel.grad.get .wrap gv c.1 c.2.1 c.2.2 = .ok (m c))
    (hu' : ∀ c, r.Interior c → vel'.velocity.get .wrap gv' c.1 c.2.1 c.2.2 = .ok (u' c))
    (hm' : ∀ c, r.Interior c → vel'.grad.get .wrap gv' c.1 c.2.1 c.2.2 = .ok (m' c))
    (tu : ∀ c, r.Interior c → ∀ a : Fin 3, a.val < d → (u' c).get a = (u (lowC d c)).get a)
    (tm : ∀ c, r.Interior c → FlatM d (m (lowC d c)) (m' c))
    (hcfl : ∀ c, r.Interior c → ∀ a : Fin 3, a.val < d + 1 → |(u' c).get a * dt| < r.h a)
    {ls ls' : Levelset K} {F F' : Cell → K} {G G' : Cell → Vec3 K} {X X' : Cell → List K}
    (hX : ∀ c, (X c).length = numMixed d) (hX' : ∀ c, (X' c).length = numMixed (d + 1)) (S : Stored .wrap (r.low d) g ls F G X)
    (S' : Stored .wrap r g' ls' F' G' X') (T : Flat d r F F' G G' X X') :
    ∃ l l', carryStep .wrap g gv dt vel ls = .ok l ∧ carryStep .wrap g' gv' dt vel' ls' = .ok l' ∧ SameFlat d r g g' l l' := by
  have hd2 : d ≤ 2 := by omega
  have h0 := low_valid hd h
  have hpos0 : (r.low d).Pos d := low_pos hpos
  have stored : ∀ c, r.Interior c → InStorage r (d + 1) ((nodePos r (d + 1) c).sub ((u' c).smul dt)) := fun c hc a ha =>
    have := near_node h hpos hp hc (near_step (hcfl c hc)) a ha
    ⟨this.1.le, this.2⟩
  have over : ∀ c, r.Interior c → Over d ((nodePos (r.low d) d (lowC d c)).sub ((u (lowC d c)).smul dt)) ((nodePos r (d + 1) c).sub ((u' c).smul dt)) :=
    fun c hc a ha => by rw [get_step, get_step, low_node hd2 c a ha, tu c hc a ha]
  -- every interior cell of the smaller grid is below one of the larger grid
  have up : ∀ c, (r.low d).Interior c → r.Interior c ∧ lowC d c = c := fun c hc => by
    obtain ⟨k1, k2, k3⟩ := hc
    have ny := h.ny_pos
    have nz := h.nz_pos
    obtain ⟨i, j, k⟩ := c
    change 0 ≤ i ∧ i < r.n.x at k1
    change 0 ≤ j ∧ j < (if 1 < d then r.n.y else 1) at k2
    change 0 ≤ k ∧ k < 1 at k3
    obtain rfl : k = 0 := by omega
    by_cases q : 1 < d
    · rw [if_pos q] at k2
      exact ⟨⟨k1, k2, le_refl 0, nz⟩, by simp only [lowC, if_pos q]⟩
    · rw [if_neg q] at k2
      obtain rfl : j = 0 := by omega
      exact ⟨⟨k1, ⟨le_refl 0, ny⟩, le_refl 0, nz⟩, by simp only [lowC, if_neg q]⟩
  have stored0 : ∀ c, (r.low d).Interior c → InStorage (r.low d) d ((nodePos (r.low d) d c).sub ((u c).smul dt)) := fun c hc => by
    obtain ⟨ic, e⟩ := up c hc
    have := low_storage hd2 (over c ic) (stored c ic)
    rw [e] at this
    exact this
  obtain ⟨l1, l, y, P, hy, e, R⟩ := carry_result (dt := dt) M hu hm (fun c hc => M.atC (interior_padded M hc)) S
    fun l1 P c hc => interp_ok (fun _ => rfl) M h0 hpos0 hX P (stored0 c hc) false
  obtain ⟨l1', l', y', P', hy', e', R'⟩ := carry_result (dt := dt) M' hu' hm' (fun c hc => M'.atC (interior_padded M' hc)) S'
    fun l1 P c hc => interp_ok (fun _ => rfl) M' h hpos hX' P (stored c hc) false
  refine ⟨l, l', e, e', fun c ic => ?_⟩
  have il : (r.low d).Interior (lowC d c) := low_interior ic
  have v1 := R.phi.val _ (interior_padded M il)
  have v2 := R.psi.val _ (interior_padded M il)
  have w1 := R'.phi.val _ (interior_padded M' ic)
  have w2 := R'.psi.val _ (interior_padded M' ic)
  rw [if_pos il] at v1 v2
  rw [if_pos ic] at w1 w2
  have res : y' c = y (lowC d c) := by
    have k1 := interp_flat hd h hpos M M' hX hX' P P' T (over c ic) (stored c ic)
    rw [hy' c ic, hy _ il] at k1
    exact Except.ok.inj k1
  refine ⟨_, _, _, v1, v2, by rw [w1, res], w2, ?_⟩
  rw [res]
  exact pull_flat (fun a ha => interp_unused hd h0 hpos0 M hX P (stored0 _ il) (hy _ il) a ha) (tm c ic)

end Gals
