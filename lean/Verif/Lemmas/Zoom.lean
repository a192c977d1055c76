import Verif.Spec.Zoom
import Verif.Lemmas.Axes

/-!
# Lemmas on other coordinates
-/

set_option linter.unusedSectionVars false

namespace Gals

open Spec Props

variable {K : Type} [Field K] [LinearOrder K] [IsStrictOrderedRing K] [FloorRing K] {d : ℕ}

theorem zoom_valid {z o : Vec3 K} {r : Req K} (h : r.Valid d) : (r.zoom z o).Valid d :=
  ⟨h.dim, h.nx_pos, h.ny_pos, h.nz_pos, h.ny_one, h.nz_one, h.pad_nonneg, h.fits⟩

theorem zoom_get (z o x : Vec3 K) (a : Fin 3) : (zoomP z o x).get a = z.get a * x.get a + o.get a := by
  match a with
  | 0 | 1 | 2 => rfl

theorem zoom_h (z o : Vec3 K) (r : Req K) (a : Fin 3) : (r.zoom z o).h a = z.get a * r.h a := by
  unfold Req.h Req.zoom
  simp only [zoom_get]
  ring

theorem zoom_centre (z o : Vec3 K) (r : Req K) (a : Fin 3) (i : ℤ) : (r.zoom z o).centre a i = z.get a * r.centre a i + o.get a := by
  unfold Req.centre
  rw [zoom_h]
  simp only [Req.zoom, zoom_get]
  ring

theorem zoom_pos {z o : Vec3 K} (hz : ∀ a, 0 < z.get a) {r : Req K} (h : r.Pos d) : (r.zoom z o).Pos d := fun a ha => by
  have := mul_lt_mul_of_pos_left (h a ha) (hz a)
  simp only [Req.zoom, zoom_get]
  linarith

/-- The second point is the first in the other coordinates, as far as the axes are used. -/
def Seen (d : ℕ) (z o x x' : Vec3 K) : Prop := ∀ a : Fin 3, a.val < d → x'.get a = z.get a * x.get a + o.get a

theorem seen_le {z o x x' : Vec3 K} (hz : ∀ a, 0 < z.get a) (h : Seen d z o x x') {r : Req K} {a : Fin 3} (ha : a.val < d) (i : ℤ) :
    (r.zoom z o).centre a i ≤ x'.get a ↔ r.centre a i ≤ x.get a := by
  rw [zoom_centre, h a ha, add_le_add_iff_right, mul_le_mul_iff_right₀ (hz a)]

theorem seen_lt {z o x x' : Vec3 K} (hz : ∀ a, 0 < z.get a) (h : Seen d z o x x') {r : Req K} {a : Fin 3} (ha : a.val < d) (i : ℤ) :
    x'.get a < (r.zoom z o).centre a i ↔ x.get a < r.centre a i := by
  rw [zoom_centre, h a ha, add_lt_add_iff_right, mul_lt_mul_iff_right₀ (hz a)]

theorem seen_inStorage {z o x x' : Vec3 K} (hz : ∀ a, 0 < z.get a) (h : Seen d z o x x') {r : Req K} (hx : InStorage r d x) :
    InStorage (r.zoom z o) d x' := fun a ha => ⟨(seen_le hz h ha _).2 (hx a ha).1, (seen_lt hz h ha _).2 (hx a ha).2⟩

theorem seen_baseCell {z o x x' : Vec3 K} (hz : ∀ a, 0 < z.get a) (h : Seen d z o x x') {r : Req K} {b : Cell} (H : BaseCell r d x b) :
    BaseCell (r.zoom z o) d x' b :=
  ⟨fun a ha => (seen_le hz h ha _).2 (H.lo a ha), fun a ha => (seen_lt hz h ha _).2 (H.hi a ha), H.stored, H.unused⟩

theorem seen_node (z o : Vec3 K) (r : Req K) (c : Cell) : Seen d z o (nodePos r d c) (nodePos (r.zoom z o) d c) := fun a ha => by
  rw [nodePos_get, nodePos_get, if_pos ha, if_pos ha, zoom_centre]; rfl

/-! ## Control points -/

/-- All four control points times `k`. -/
def ControlPoints.times (k : K) (c : ControlPoints K) : ControlPoints K := ⟨k * c.c30, k * c.c21, k * c.c12, k * c.c03⟩

theorem controls_times {p a q b dx p' a' q' b' dx' k : K} (hk : k ≠ 0) (hp : p' = k * p) (hq : q' = k * q) (ha : a' * dx' = k * (a * dx))
    (hb : b' * dx' = k * (b * dx)) (lim : Bool) : getControlPoints p' a' q' b' dx' lim = (getControlPoints p a q b dx lim).times k := by
  unfold getControlPoints ControlPoints.times
  simp only [oneThird, twoThirds, hp, hq, ha, hb]
  have f1 : k * p + k * (a * dx) * (1 / 3) = k * (p + a * dx * (1 / 3)) := by ring
  have f2 : k * q - k * (b * dx) * (1 / 3) = k * (q - b * dx * (1 / 3)) := by ring
  simp only [f1, f2]
  obtain ⟨u, hu⟩ : ∃ u, p + a * dx * (1 / 3) = u := ⟨_, rfl⟩
  obtain ⟨v, hv⟩ : ∃ v, q - b * dx * (1 / 3) = v := ⟨_, rfl⟩
  simp only [hu, hv]
  clear f1 f2 hu hv
  cases lim
  · rfl
  · simp only [if_true]
    have kk : 0 < k * k := mul_self_pos.2 hk
    have e1 : (3 * (k * u - k * p) - 3 / 2 * (k * v - k * p)) * (3 * (k * u - k * p) - (k * q - k * p)) =
      k * k * ((3 * (u - p) - 3 / 2 * (v - p)) * (3 * (u - p) - (q - p))) := by ring
    have e2 : (3 * (k * q - k * v) - 3 / 2 * (k * q - k * u)) * (3 * (k * q - k * v) - (k * q - k * p)) =
      k * k * ((3 * (q - v) - 3 / 2 * (q - u)) * (3 * (q - v) - (q - p))) := by ring
    have e3 : (3 * (k * u - k * p) - (k * q - k * p)) * (3 * (k * q - k * v) - (k * q - k * p)) =
      k * k * ((3 * (u - p) - (q - p)) * (3 * (q - v) - (q - p))) := by ring
    have n1 : ∀ t : K, k * k * t < 0 ↔ t < 0 := fun t => by rw [← mul_zero (k * k), mul_lt_mul_iff_right₀ kk]; simp
    have n2 : ∀ t : K, k * k * t ≤ 0 ↔ t ≤ 0 := fun t => by rw [← mul_zero (k * k), mul_le_mul_iff_right₀ kk]; simp
    simp only [e1, e2, e3, n1, n2]
    split_ifs <;> congr 1 <;> (try dsimp only) <;> ring

/-- The data of a node in the other units. -/
def zm2 (z : Vec3 K) (n : Node2 K) : Node2 K := ⟨n.phi, zoomG z n.psi, n.xy / (z.x * z.y)⟩

/-- The data of a node in the other units. -/
def zm3 (z : Vec3 K) (n : Node3 K) : Node3 K :=
  ⟨n.phi, zoomG z n.psi, n.xy / (z.x * z.y), n.yz / (z.y * z.z), n.zx / (z.z * z.x), n.xyz / (z.x * z.y * z.z)⟩

/-- The result in the other units. -/
def zmO (z : Vec3 K) (o : Interp K) : Interp K := ⟨o.phi, zoomG z o.psi⟩

theorem times_one (c : ControlPoints K) : c.times 1 = c := by
  unfold ControlPoints.times
  simp only [one_mul]

theorem controls_unit {w : K} (hw : w ≠ 0) (p a q b dx : K) (lim : Bool) :
    getControlPoints p (a / w) q (b / w) (w * dx) lim = getControlPoints p a q b dx lim := by
  rw [controls_times (k := 1) one_ne_zero (one_mul p).symm (one_mul q).symm (a := a) (b := b) (dx := dx), times_one]
  · field_simp
  · field_simp

theorem kernel1_zoom (z : Vec3 K) (hz : z.x ≠ 0) (dx inv t : K) (p q : Node1 K) (lim : Bool) :
    kernel1 (z.x * dx) (inv / z.x) t ⟨p.phi, zoomG z p.psi⟩ ⟨q.phi, zoomG z q.psi⟩ lim = zmO z (kernel1 dx inv t p q lim) := by
  unfold kernel1 zmO
  simp only [zoomG, controls_unit hz, zero_div, mul_div_assoc]

theorem kernel2_zoom {z : Vec3 K} (hx : z.x ≠ 0) (hy : z.y ≠ 0) {dx inv eta dx' inv' eta' : Vec3 K} (n00 n10 n01 n11 : Node2 K)
    (d1 : dx'.x = z.x * dx.x) (d2 : dx'.y = z.y * dx.y) (i1 : inv'.x = inv.x / z.x) (i2 : inv'.y = inv.y / z.y) (e1 : eta'.x = eta.x)
    (e2 : eta'.y = eta.y) (lim : Bool) :
    kernel2 dx' inv' eta' (zm2 z n00) (zm2 z n10) (zm2 z n01) (zm2 z n11) lim = zmO z (kernel2 dx inv eta n00 n10 n01 n11 lim) := by
  have c : controls2 dx' (zm2 z n00) (zm2 z n10) (zm2 z n01) (zm2 z n11) lim = controls2 dx n00 n10 n01 n11 lim := by
    unfold controls2
    simp only [zm2, zoomG, d1, d2, controls_unit hx, controls_unit hy]
    have u : ∀ t a b : K, z.y * dx.y * t * (a / z.y + z.x * dx.x * t * (b / (z.x * z.y))) = dx.y * t * (a + dx.x * t * b) := fun t a b => by
      field_simp
    have v : ∀ t a b : K, z.x * dx.x * t * (a / z.x + z.y * dx.y * t * (b / (z.x * z.y))) = dx.x * t * (a + dx.y * t * b) := fun t a b => by
      field_simp
    have w : ∀ t a b : K, z.x * dx.x * t * (a / z.x - z.y * dx.y * t * (b / (z.x * z.y))) = dx.x * t * (a - dx.y * t * b) := fun t a b => by
      field_simp
    simp only [u, v, w]
  unfold kernel2 zmO
  simp only [c, i1, i2, e1, e2, zoomG, zero_div, mul_div_assoc]

theorem kernel3_zoom {z : Vec3 K} (hx : z.x ≠ 0) (hy : z.y ≠ 0) (hz : z.z ≠ 0) {dx inv eta dx' inv' : Vec3 K}
    (n000 n100 n010 n001 n110 n011 n101 n111 : Node3 K) (hd : dx' = zoomU z dx) (hi : inv' = zoomG z inv) (lim : Bool) :
    kernel3 dx' inv' eta (zm3 z n000) (zm3 z n100) (zm3 z n010) (zm3 z n001) (zm3 z n110) (zm3 z n011) (zm3 z n101) (zm3 z n111) lim =
      zmO z (kernel3 dx inv eta n000 n100 n010 n001 n110 n011 n101 n111 lim) := by
  subst hd hi
  have c : controls3 (zoomU z dx) (zm3 z n000) (zm3 z n100) (zm3 z n010) (zm3 z n001) (zm3 z n110) (zm3 z n011) (zm3 z n101) (zm3 z n111) lim =
      controls3 dx n000 n100 n010 n001 n110 n011 n101 n111 lim := by
    have yz : ∀ p a q b, getControlPoints (p / z.z) (a / (z.y * z.z)) (q / z.z) (b / (z.y * z.z)) (z.y * dx.y) lim =
        (getControlPoints p a q b dx.y lim).times (1 / z.z) := fun p a q b =>
      controls_times (one_div_ne_zero hz) (by ring) (by ring) (by field_simp) (by field_simp) lim
    have zx : ∀ p a q b, getControlPoints (p / z.x) (a / (z.z * z.x)) (q / z.x) (b / (z.z * z.x)) (z.z * dx.z) lim =
        (getControlPoints p a q b dx.z lim).times (1 / z.x) := fun p a q b =>
      controls_times (one_div_ne_zero hx) (by ring) (by ring) (by field_simp) (by field_simp) lim
    have xy : ∀ p a q b, getControlPoints (p / z.y) (a / (z.x * z.y)) (q / z.y) (b / (z.x * z.y)) (z.x * dx.x) lim =
        (getControlPoints p a q b dx.x lim).times (1 / z.y) := fun p a q b =>
      controls_times (one_div_ne_zero hy) (by ring) (by ring) (by field_simp) (by field_simp) lim
    have zy : ∀ p a q b, getControlPoints (p / z.y) (a / (z.y * z.z)) (q / z.y) (b / (z.y * z.z)) (z.z * dx.z) lim =
        (getControlPoints p a q b dx.z lim).times (1 / z.y) := fun p a q b =>
      controls_times (one_div_ne_zero hy) (by ring) (by ring) (by field_simp) (by field_simp) lim
    have xz : ∀ p a q b, getControlPoints (p / z.z) (a / (z.z * z.x)) (q / z.z) (b / (z.z * z.x)) (z.x * dx.x) lim =
        (getControlPoints p a q b dx.x lim).times (1 / z.z) := fun p a q b =>
      controls_times (one_div_ne_zero hz) (by ring) (by ring) (by field_simp) (by field_simp) lim
    have xyz : ∀ p a q b, getControlPoints (p / (z.x * z.y)) (a / (z.x * z.y * z.z)) (q / (z.x * z.y)) (b / (z.x * z.y * z.z)) (z.z * dx.z) lim =
        (getControlPoints p a q b dx.z lim).times (1 / (z.x * z.y)) := fun p a q b =>
      controls_times (one_div_ne_zero (mul_ne_zero hx hy)) (by ring) (by ring) (by field_simp) (by field_simp) lim
    unfold controls3
    simp only [zm3, zoomG, zoomU, yz, zx, xy, zy, xz, xyz, controls_unit hx, controls_unit hy, controls_unit hz]
    simp only [ControlPoints.times]
    have ux : ∀ e t a : K, z.x * e * t * (1 / z.x * a) = e * t * a := fun e t a => by field_simp
    have uy : ∀ e t a : K, z.y * e * t * (1 / z.y * a) = e * t * a := fun e t a => by field_simp
    have uz : ∀ e t a : K, z.z * e * t * (1 / z.z * a) = e * t * a := fun e t a => by field_simp
    have uxy : ∀ e f t a : K, z.x * e * t * (z.y * f * t) * (1 / (z.x * z.y) * a) = e * t * (f * t) * a := fun e f t a => by field_simp
    simp only [ux, uy, uz, uxy]
  unfold kernel3 zmO
  simp only [c, zoomG, mul_div_assoc]

/-- Interpolation in the other coordinates. -/
theorem interp_zoom {s : IntSem} (hs : d < 3 → s = .wrap) {z o : Vec3 K} (hz : ∀ a, 0 < z.get a) {r : Req K} (h : r.Valid d) (hpos : r.Pos d)
    {g g' : Grid K d} (G : g.Made s r) (G' : g'.Made s (r.zoom z o)) {ls ls' : Levelset K} {F F' : Cell → K} {V V' : Cell → Vec3 K}
    {X X' : Cell → List K} (hX : ∀ c, (X c).length = numMixed d) (hX' : ∀ c, (X' c).length = numMixed d) (P : PrevIs s r g ls F V X)
    (P' : PrevIs s (r.zoom z o) g' ls' F' V' X') (T : Zoomed z d r F F' V V' X X') {x x' : Vec3 K} (hx : InStorage r d x)
    (hx' : Seen d z o x x') {lim : Bool} {y : Interp K}
    (e : interpolate s g ls x lim = .ok y) : interpolate s g' ls' x' lim = .ok (zmO z y) := by
  have h' : (r.zoom z o).Valid d := zoom_valid h
  have hpos' : (r.zoom z o).Pos d := zoom_pos hz hpos
  have hz0 : z.x ≠ 0 := (hz 0).ne'
  have hz1 : z.y ≠ 0 := (hz 1).ne'
  have hz2 : z.z ≠ 0 := (hz 2).ne'
  have hst := seen_inStorage hz hx' hx
  have hdx : ∀ a, g'.dx.get a = z.get a * g.dx.get a := fun a => by rw [G'.dx, G.dx, zoom_h]
  have hinv : ∀ a : Fin 3, a.val < d → g'.oneOverDx.get a = g.oneOverDx.get a / z.get a := fun a ha => by
    rw [G'.oneOverDx a ha, G.oneOverDx _ ha, zoom_h, div_div, mul_comm]
  have sm : ∀ (u v w : Vec3 K) (a : Fin 3), ((u.sub v).mul w).get a = (u.get a - v.get a) * w.get a := fun u v w a => by
    match a with
    | 0 | 1 | 2 => rfl
  have eta : ∀ (b : Cell) (a : Fin 3), a.val < d → ((x'.sub (nodePos (r.zoom z o) d b)).mul g'.oneOverDx).get a =
      ((x.sub (nodePos r d b)).mul g.oneOverDx).get a := fun b a ha => by
    have hza := (hz a).ne'
    rw [sm, sm, hinv a ha, hx' a ha, seen_node z o r b a ha]
    field_simp
    ring
  rcases h.dim with rfl | rfl | rfl
  · obtain rfl := hs (by decide)
    obtain ⟨b, H, i⟩ := interp1_eval G h hpos P hx lim
    obtain ⟨b', H', i'⟩ := interp1_eval G' h' hpos' P' hst lim
    obtain rfl := H'.unique h' hpos' (seen_baseCell hz hx' H)
    have s0 := H.stencil h 0 0 0 (by simp) (by simp) (by simp)
    have s1 := H.stencil h 1 0 0 (by simp) (by simp) (by simp)
    simp only [add_zero] at s0 s1
    rw [i] at e
    obtain rfl := Except.ok.inj e
    have et := eta b' 0 (by decide)
    rw [sm, sm, G'.oneOverDx 0 (by decide), G.oneOverDx 0 (by decide)] at et
    change (x'.x - (nodePos (r.zoom z o) 1 b').x) * (1 / (r.zoom z o).h 0) = (x.x - (nodePos r 1 b').x) * (1 / r.h 0) at et
    have i2 : 1 / (r.zoom z o).h 0 = 1 / r.h 0 / z.x := by rw [zoom_h, div_div, mul_comm]; rfl
    rw [i', et, i2, zoom_h, T.phi _ s0, T.phi _ s1, T.psi _ s0, T.psi _ s1]
    exact congrArg Except.ok (kernel1_zoom z hz0 _ _ _ ⟨F b', V b'⟩ ⟨F (b'.1 + 1, b'.2.1, b'.2.2), V (b'.1 + 1, b'.2.1, b'.2.2)⟩ lim)
  · obtain rfl := hs (by decide)
    have X1 : X = fun c => [el (X c) 0] := funext fun c => one_el (hX c)
    have X1' : X' = fun c => [el (X' c) 0] := funext fun c => one_el (hX' c)
    obtain ⟨b, H, i⟩ := interp2_eval G h hpos (xy := fun c => el (X c) 0) (by rw [← X1]; exact P) hx lim
    obtain ⟨b', H', i'⟩ := interp2_eval G' h' hpos' (xy := fun c => el (X' c) 0) (by rw [← X1']; exact P') hst lim
    obtain rfl := H'.unique h' hpos' (seen_baseCell hz hx' H)
    have s00 := H.stencil h 0 0 0 (by simp) (by simp) (by simp)
    have s10 := H.stencil h 1 0 0 (by simp) (by simp) (by simp)
    have s01 := H.stencil h 0 1 0 (by simp) (by simp) (by simp)
    have s11 := H.stencil h 1 1 0 (by simp) (by simp) (by simp)
    simp only [add_zero] at s00 s10 s01 s11
    have nd : ∀ c, r.Padded 2 c → node2 F' V' (fun c => el (X' c) 0) c = zm2 z (node2 F V (fun c => el (X c) 0) c) := fun c hc => by
      unfold node2 zm2
      have : el (X' c) 0 = el (X c) 0 / (z.x * z.y) := by rw [T.mix c hc, one_el (hX c)]; rfl
      simp only [T.phi c hc, T.psi c hc, this]
    rw [i] at e
    obtain rfl := Except.ok.inj e
    rw [i', nd _ s00, nd _ s10, nd _ s01, nd _ s11]
    exact congrArg Except.ok (kernel2_zoom hz0 hz1 _ _ _ _ (hdx 0) (hdx 1) (hinv 0 (by decide)) (hinv 1 (by decide)) (eta b' 0 (by decide))
      (eta b' 1 (by decide)) lim)
  · have X1 : X = fun c => [el (X c) 0, el (X c) 1, el (X c) 2, el (X c) 3] := funext fun c => four_el (hX c)
    have X1' : X' = fun c => [el (X' c) 0, el (X' c) 1, el (X' c) 2, el (X' c) 3] := funext fun c => four_el (hX' c)
    obtain ⟨b, H, i⟩ := interp3_eval G h hpos (xy := fun c => el (X c) 0) (yz := fun c => el (X c) 1) (zx := fun c => el (X c) 2)
      (xyz := fun c => el (X c) 3) (by rw [← X1]; exact P) hx lim
    obtain ⟨b', H', i'⟩ := interp3_eval G' h' hpos' (xy := fun c => el (X' c) 0) (yz := fun c => el (X' c) 1) (zx := fun c => el (X' c) 2)
      (xyz := fun c => el (X' c) 3) (by rw [← X1']; exact P') hst lim
    obtain rfl := H'.unique h' hpos' (seen_baseCell hz hx' H)
    have s000 := H.stencil h 0 0 0 (by simp) (by simp) (by simp)
    have s100 := H.stencil h 1 0 0 (by simp) (by simp) (by simp)
    have s010 := H.stencil h 0 1 0 (by simp) (by simp) (by simp)
    have s001 := H.stencil h 0 0 1 (by simp) (by simp) (by simp)
    have s110 := H.stencil h 1 1 0 (by simp) (by simp) (by simp)
    have s011 := H.stencil h 0 1 1 (by simp) (by simp) (by simp)
    have s101 := H.stencil h 1 0 1 (by simp) (by simp) (by simp)
    have s111 := H.stencil h 1 1 1 (by simp) (by simp) (by simp)
    simp only [add_zero] at s000 s100 s010 s001 s110 s011 s101 s111
    have nd : ∀ c, r.Padded 3 c → node3 F' V' (fun c => el (X' c) 0) (fun c => el (X' c) 1) (fun c => el (X' c) 2) (fun c => el (X' c) 3) c =
        zm3 z (node3 F V (fun c => el (X c) 0) (fun c => el (X c) 1) (fun c => el (X c) 2) (fun c => el (X c) 3) c) := fun c hc => by
      unfold node3 zm3
      have m : X' c = zoomX z [el (X c) 0, el (X c) 1, el (X c) 2, el (X c) 3] := by rw [← four_el (hX c)]; exact T.mix c hc
      simp only [T.phi c hc, T.psi c hc, m]
      rfl
    rw [i] at e
    obtain rfl := Except.ok.inj e
    have et : (x'.sub (nodePos (r.zoom z o) 3 b')).mul g'.oneOverDx = (x.sub (nodePos r 3 b')).mul g.oneOverDx := vec_ext fun a => eta b' a a.isLt
    have d1 : g'.dx = zoomU z g.dx := vec_ext fun a => by
      rw [hdx]
      match a with
      | 0 | 1 | 2 => rfl
    have d2 : g'.oneOverDx = zoomG z g.oneOverDx := vec_ext fun a => by
      rw [hinv a a.isLt]
      match a with
      | 0 | 1 | 2 => rfl
    rw [i', nd _ s000, nd _ s100, nd _ s010, nd _ s001, nd _ s110, nd _ s011, nd _ s101, nd _ s111, et]
    exact congrArg Except.ok (kernel3_zoom hz0 hz1 hz2 _ _ _ _ _ _ _ _ d1 d2 lim)

/-- The chain rule in the other units. -/
theorem pull_zoom {z : Vec3 K} (hz : ∀ a, 0 < z.get a) (m : Mat3 K) (dt : K) (v : Vec3 K) :
    (Mat3.identity.sub ((zoomM z m).smul dt)).dot (zoomG z v) = zoomG z ((Mat3.identity.sub (m.smul dt)).dot v) := by
  have e : ∀ (m : Mat3 K) (a b : Fin 3), (Mat3.identity.sub (m.smul dt)).entry a b = (if a = b then 1 else 0) - m.entry a b * dt := by
    intro m a b
    rw [← identity_entry]; rfl
  have f : ∀ a b : Fin 3, (zoomM z m).entry a b = m.entry a b * z.get a / z.get b := by
    intro a b
    have h0 : z.x ≠ 0 := (hz 0).ne'
    have h1 : z.y ≠ 0 := (hz 1).ne'
    have h2 : z.z ≠ 0 := (hz 2).ne'
    fin_cases a <;> fin_cases b <;> simp [zoomM, Mat3.entry, Mat3.mk9, Mat3.pos, Vec3.get, mul_div_assoc, h0, h1, h2]
  have g : ∀ (v : Vec3 K) (a : Fin 3), (zoomG z v).get a = v.get a / z.get a := by
    intro v a
    match a with
    | 0 | 1 | 2 => rfl
  refine vec_ext fun i => ?_
  rw [g, dot_get, dot_get, div_eq_mul_inv, Finset.sum_mul]
  refine Finset.sum_congr rfl fun j _ => ?_
  have hi := (hz i).ne'
  have hj := (hz j).ne'
  rw [e, e, f, g]
  split_ifs with q
  · subst q; field_simp
  · field_simp
    ring

theorem zoomG_get (z v : Vec3 K) (a : Fin 3) : (zoomG z v).get a = v.get a / z.get a := by
  match a with
  | 0 | 1 | 2 => rfl

/-- Differences in the other units. -/
theorem zoom_diff {s : IntSem} {sch : GradScheme} {z o : Vec3 K} {r : Req K} {g : Grid K d} (M : g.Made s r) (hp : reach sch ≤ r.pad) {c : Cell}
    (ic : r.Interior c) {F F' : Cell → K} (T : ∀ c, r.Padded d c → F' c = F c) {v v' w w' : Vec3 K} (hw : w' = zoomG z w) {a : Fin 3}
    (i' : v'.get a = if a.val < d then rawDiff sch F' c a ((r.zoom z o).h a) else w'.get a)
    (i : v.get a = if a.val < d then rawDiff sch F c a (r.h a) else w.get a) : v'.get a = (zoomG z v).get a := by
  rw [zoomG_get, i', i, hw, zoomG_get]
  split_ifs with ha
  · have sh : ∀ n : ℤ, -reach sch ≤ n → n ≤ reach sch → F' (shift c a n) = F (shift c a n) := fun n n1 n2 =>
      T _ (shift_padded M ic ha (m := n) (by omega) (by omega))
    cases sch with
    | central =>
      simp only [rawDiff, centralRaw, sh 1 (by decide) (by decide), sh (-1) (by decide) (by decide), zoom_h]
      rw [div_mul_eq_div_div_swap]
      ring
    | third =>
      simp only [rawDiff, thirdRaw, T c (interior_padded M ic), sh 1 (by decide) (by decide), sh (-1) (by decide) (by decide),
        sh (-2) (by decide) (by decide), zoom_h]
      ring
  · rfl

section steps

variable {s : IntSem} (hs : d < 3 → s = .wrap) {z o : Vec3 K} (hz : ∀ a, 0 < z.get a) {r : Req K} (h : r.Valid d) (hpos : r.Pos d) (hp : 1 ≤ r.pad)
  {g g' gv gv' : Grid K d} (M : g.Made s r) (M' : g'.Made s (r.zoom z o)) {dt : K} {vel vel' : LsVelocity K} {u : Cell → Vec3 K}
  {m : Cell → Mat3 K}
  (hu : ∀ c, r.Interior c → vel.velocity.get s gv c.1 c.2.1 c.2.2 = .ok (u c))
  (hm : ∀ c, r.Interior c → vel.grad.get s gv c.1 c.2.1 c.2.2 = .ok (m c))
  (hu' : ∀ c, r.Interior c → vel'.velocity.get s gv' c.1 c.2.1 c.2.2 = .ok (zoomU z (u c)))
  (hm' : ∀ c, r.Interior c → vel'.grad.get s gv' c.1 c.2.1 c.2.2 = .ok (zoomM z (m c)))
  (hcfl : ∀ c, r.Interior c → ∀ a : Fin 3, a.val < d → |(u c).get a * dt| < r.h a)
include hs hz h hpos hp M M' hu hm hu' hm' hcfl

/-- Two level sets, the second in the other coordinates, before and after a step. -/
theorem carry_zoom {ls ls' : Levelset K} {F F' : Cell → K} {G G' : Cell → Vec3 K} {X X' : Cell → List K}
    (hX : ∀ c, (X c).length = numMixed d) (hX' : ∀ c, (X' c).length = numMixed d) (S : Stored s r g ls F G X)
    (S' : Stored s (r.zoom z o) g' ls' F' G' X') (T : Zoomed z d r F F' G G' X X') :
    ∃ l l' A A' B B', carryStep s g gv dt vel ls = .ok l ∧ carryStep s g' gv' dt vel' ls' = .ok l' ∧ Stored s r g l A B X ∧
      Stored s (r.zoom z o) g' l' A' B' X' ∧ Zoomed z d r A A' B B' X X' := by
  have stored : ∀ c, r.Interior c → InStorage r d ((nodePos r d c).sub ((u c).smul dt)) := fun c hc a ha =>
    have := near_node h hpos hp hc (near_step (hcfl c hc)) a ha
    ⟨this.1.le, this.2⟩
  have seen : ∀ c, Seen d z o ((nodePos r d c).sub ((u c).smul dt)) ((nodePos (r.zoom z o) d c).sub ((zoomU z (u c)).smul dt)) := fun c a ha => by
    have zu : (zoomU z (u c)).get a = z.get a * (u c).get a := by
      match a with
      | 0 | 1 | 2 => rfl
    rw [get_step, get_step, seen_node z o r c a ha, zu]
    ring
  obtain ⟨l1, l, y, P, hy, e, R⟩ := carry_result (dt := dt) M hu hm (fun c hc => M.atC (interior_padded M hc)) S
    fun l1 P c hc => interp_ok hs M h hpos hX P (stored c hc) false
  obtain ⟨l1', l', y', P', hy', e', R'⟩ := carry_result (r := r.zoom z o) (dt := dt) M' hu' hm' (fun c hc => M'.atC (interior_padded M' hc)) S'
    fun l1 P c hc => interp_ok hs M' (zoom_valid h) (zoom_pos hz hpos) hX' P (seen_inStorage hz (seen c) (stored c hc)) false
  refine ⟨l, l', _, _, _, _, e, e', R, R', ?_⟩
  have res : ∀ c, r.Interior c → y' c = zmO z (y c) := fun c hc => by
    have k1 := interp_zoom hs hz h hpos M M' hX hX' P P' T (stored c hc) (seen c) (hy c hc)
    have k2 := hy' c hc
    rw [k1] at k2
    exact (Except.ok.inj k2).symm
  have same : ∀ c, (r.zoom z o).Interior c ↔ r.Interior c := fun c => Iff.rfl
  refine ⟨fun c hc => ?_, fun c hc => ?_, T.mix⟩
  · simp only [same]
    split_ifs with i
    · rw [res c i]; rfl
    · exact T.phi c hc
  · simp only [same]
    split_ifs with i
    · rw [res c i]
      exact pull_zoom hz ..
    · exact T.psi c hc

/-- As `carry_zoom`, with the gradient recomputed. -/
theorem recompute_zoom (hp2 : 2 ≤ r.pad) {ls ls' : Levelset K} {F F' : Cell → K} {G G' : Cell → Vec3 K} {X X' : Cell → List K}
    (hX : ∀ c, (X c).length = numMixed d) (hX' : ∀ c, (X' c).length = numMixed d) (S : Stored s r g ls F G X)
    (S' : Stored s (r.zoom z o) g' ls' F' G' X') (T : Zoomed z d r F F' G G' X X') :
    ∃ l l' A A' B B', recomputeStep s g gv dt vel ls = .ok l ∧ recomputeStep s g' gv' dt vel' ls' = .ok l' ∧ Stored s r g l A B X ∧
      Stored s (r.zoom z o) g' l' A' B' X' ∧ Zoomed z d r A A' B B' X X' := by
  obtain ⟨y, q, e, f, ou, i⟩ := gradScalar_ok (sch := .third) M M rfl hp2 S.phi S.psi
  obtain ⟨y', q', e', f', ou', i'⟩ := gradScalar_ok (sch := .third) M' M' rfl hp2 S'.phi S'.psi
  have TT : ∀ c, r.Padded d c → q' c = zoomG z (q c) := fun c hc => by
    by_cases ic : r.Interior c
    · exact vec_ext fun a => zoom_diff (sch := .third) M hp2 ic T.phi (T.psi c hc) (i' c ic a) (i c ic a)
    · rw [ou c ic, ou' c ic]
      exact T.psi c hc
  obtain ⟨l, l', A, A', B, B', k, k', R, R', T'⟩ := carry_zoom hs hz h hpos hp M M' hu hm hu' hm' hcfl hX hX'
    (show Stored s r g { ls with psi := y } F q X from ⟨S.phi, f, S.phiPrev, S.psiPrev, S.phiInterpPrev, S.psiInterpPrev, S.mixed⟩)
    (show Stored s (r.zoom z o) g' { ls' with psi := y' } F' q' X' from
      ⟨S'.phi, f', S'.phiPrev, S'.psiPrev, S'.phiInterpPrev, S'.psiInterpPrev, S'.mixed⟩) ⟨T.phi, TT, T.mix⟩
  refine ⟨l, l', A, A', B, B', ?_, ?_, R, R', T'⟩
  · unfold recomputeStep; rw [e, _root_.Gals.M.ok_bind]; exact k
  · unfold recomputeStep; rw [e', _root_.Gals.M.ok_bind]; exact k'

end steps

end Gals
