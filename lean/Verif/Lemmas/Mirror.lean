import Verif.Spec.Mirror
import Verif.Lemmas.Axes

/-!
# Lemmas on the mirror
-/

set_option linter.unusedSectionVars false

namespace Gals

open Spec Props

variable {K : Type} [Field K] [LinearOrder K] [IsStrictOrderedRing K] [FloorRing K] {d : ℕ}

theorem flipC_flipC (n : ℤ) (c : Cell) : flipC n (flipC n c) = c := by
  unfold flipC
  exact Prod.ext (by change n - 1 - (n - 1 - c.1) = c.1; ring) rfl

theorem flip_interior {r : Req K} {c : Cell} : r.flip.Interior (flipC r.n.x c) ↔ r.Interior c := by
  unfold Req.Interior InteriorCell Req.flip flipC
  constructor <;> rintro ⟨h0, h1, h2⟩ <;> exact ⟨by simp only at h0 ⊢; omega, h1, h2⟩

theorem flip_padded {r : Req K} {c : Cell} : r.flip.Padded d (flipC r.n.x c) ↔ r.Padded d c := by
  unfold Req.Padded PaddedCell Req.flip flipC
  constructor <;> rintro ⟨h0, h1, h2⟩ <;> exact ⟨by simp only at h0 ⊢; omega, h1, h2⟩

theorem flip_valid {r : Req K} (h : r.Valid d) : r.flip.Valid d :=
  ⟨h.dim, h.nx_pos, h.ny_pos, h.nz_pos, h.ny_one, h.nz_one, h.pad_nonneg, h.fits⟩

theorem flip_h (r : Req K) (a : Fin 3) : r.flip.h a = r.h a := by
  unfold Req.h Req.flip
  match a with
  | 0 => simp only [Vec3.get]; congr 1; ring
  | 1 | 2 => rfl

theorem flip_centre {r : Req K} (h : r.Valid d) (i : ℤ) : r.flip.centre 0 i = -r.centre 0 (r.n.x - 1 - i) := by
  have hn : ((r.n.x : ℤ) : K) ≠ 0 := by have := h.nx_pos; exact_mod_cast this.ne'
  have e : r.h 0 * r.n.x = r.hi.x - r.lo.x := by
    unfold Req.h
    simp only [Vec3.get]
    field_simp
  unfold Req.centre
  rw [flip_h]
  simp only [Req.flip, Vec3.get]
  push_cast
  linear_combination e

theorem flip_centre_other (r : Req K) {a : Fin 3} (ha : a ≠ 0) (i : ℤ) : r.flip.centre a i = r.centre a i := by
  unfold Req.centre
  rw [flip_h]
  match a with
  | 0 => exact absurd rfl ha
  | 1 | 2 => rfl

theorem flip_pos {r : Req K} (h : r.Pos d) : r.flip.Pos d := fun a ha => by
  have := h a ha
  match a with
  | 0 => exact neg_lt_neg this
  | 1 | 2 => exact this

theorem flip_nodePos {r : Req K} (h : r.Valid d) (hp : r.pad = 1) (c : Cell) : nodePos r.flip d (flipC r.n.x c) = flipV (nodePos r d c) :=
  vec_ext fun a => by
    have hd := h.dim
    match a with
    | 0 =>
      change (nodePos r.flip d (flipC r.n.x c)).get 0 = -(nodePos r d c).get 0
      rw [nodePos_get, nodePos_get, if_pos (by change 0 < d; omega), if_pos (by change 0 < d; omega), flip_centre h]
      congr 2
      change r.n.x - 1 - (r.n.x - 1 - c.1 + (r.pad - 1)) = c.1 + (r.pad - 1)
      omega
    | 1 =>
      change (nodePos r.flip d (flipC r.n.x c)).get 1 = (nodePos r d c).get 1
      rw [nodePos_get, nodePos_get, flip_centre_other r (by decide)]; rfl
    | 2 =>
      change (nodePos r.flip d (flipC r.n.x c)).get 2 = (nodePos r d c).get 2
      rw [nodePos_get, nodePos_get, flip_centre_other r (by decide)]; rfl

/-- Strictly inside storage along `x`. -/
def After (r : Req K) (x : Vec3 K) : Prop := r.centre 0 (-r.pad) < x.x

theorem flip_inStorage {r : Req K} (h : r.Valid d) {x : Vec3 K} (hx : InStorage r d x) (ha : After r x) : InStorage r.flip d (flipV x) := fun a hd => by
  match a with
  | 0 =>
    have := hx 0 hd
    have e1 := flip_centre h (-r.pad)
    have e2 := flip_centre h (r.n.x + r.pad - 1)
    rw [show r.n.x - 1 - -r.pad = r.n.x + r.pad - 1 by ring] at e1
    rw [show r.n.x - 1 - (r.n.x + r.pad - 1) = -r.pad by ring] at e2
    change r.flip.centre 0 (-r.pad) ≤ -x.x ∧ -x.x < r.flip.centre 0 (r.n.x + r.pad - 1)
    rw [e1, e2]
    exact ⟨neg_le_neg this.2.le, neg_lt_neg ha⟩
  | 1 =>
    have := hx 1 hd
    change r.flip.centre 1 (-r.pad) ≤ x.y ∧ x.y < r.flip.centre 1 (r.n.y + r.pad - 1)
    rwa [flip_centre_other r (by decide), flip_centre_other r (by decide)]
  | 2 =>
    have := hx 2 hd
    change r.flip.centre 2 (-r.pad) ≤ x.z ∧ x.z < r.flip.centre 2 (r.n.z + r.pad - 1)
    rwa [flip_centre_other r (by decide), flip_centre_other r (by decide)]

/-- The cell of the mirrored point: between nodes the mirrored cell, on a node the cell after the mirrored node. -/
theorem flip_baseCell {r : Req K} (h : r.Valid d) (hpos : r.Pos d) {x : Vec3 K} (ha : After r x) {b : Cell} (H : BaseCell r d x b) :
    (r.centre 0 b.1 < x.x → BaseCell r.flip d (flipV x) (flipC r.n.x (b.1 + 1, b.2.1, b.2.2))) ∧
    (r.centre 0 b.1 = x.x → BaseCell r.flip d (flipV x) (flipC r.n.x b)) := by
  have hd := h.dim
  have d0 : (0 : Fin 3).val < d := by change 0 < d; omega
  have u := H.hi 0 d0
  have st := H.stored 0 d0
  change x.x < r.centre 0 (b.1 + 1) at u
  change -r.pad ≤ b.1 ∧ b.1 + 1 < r.n.x + r.pad at st
  constructor
  · intro l
    refine ⟨fun a hd => ?_, fun a hd => ?_, fun a hd => ?_, fun a hd => ?_⟩
    · match a with
      | 0 =>
        change r.flip.centre 0 (r.n.x - 1 - (b.1 + 1)) ≤ -x.x
        rw [flip_centre h, show r.n.x - 1 - (r.n.x - 1 - (b.1 + 1)) = b.1 + 1 by ring]
        exact neg_le_neg u.le
      | 1 => rw [flip_centre_other r (by decide)]; exact H.lo 1 hd
      | 2 => rw [flip_centre_other r (by decide)]; exact H.lo 2 hd
    · match a with
      | 0 =>
        change -x.x < r.flip.centre 0 (r.n.x - 1 - (b.1 + 1) + 1)
        rw [flip_centre h, show r.n.x - 1 - (r.n.x - 1 - (b.1 + 1) + 1) = b.1 by ring]
        exact neg_lt_neg l
      | 1 => rw [flip_centre_other r (by decide)]; exact H.hi 1 hd
      | 2 => rw [flip_centre_other r (by decide)]; exact H.hi 2 hd
    · match a with
      | 0 =>
        change -r.pad ≤ r.n.x - 1 - (b.1 + 1) ∧ r.n.x - 1 - (b.1 + 1) + 1 < r.n.x + r.pad
        omega
      | 1 => exact H.stored 1 hd
      | 2 => exact H.stored 2 hd
    · match a with
      | 0 => exact absurd d0 hd
      | 1 => exact H.unused 1 hd
      | 2 => exact H.unused 2 hd
  · intro l
    have b0 : -r.pad < b.1 := by
      refine (centre_lt_iff h hpos 0 d0).1 ?_
      rw [l]; exact ha
    refine ⟨fun a hd => ?_, fun a hd => ?_, fun a hd => ?_, fun a hd => ?_⟩
    · match a with
      | 0 =>
        change r.flip.centre 0 (r.n.x - 1 - b.1) ≤ -x.x
        rw [flip_centre h, show r.n.x - 1 - (r.n.x - 1 - b.1) = b.1 by ring, l]
      | 1 => rw [flip_centre_other r (by decide)]; exact H.lo 1 hd
      | 2 => rw [flip_centre_other r (by decide)]; exact H.lo 2 hd
    · match a with
      | 0 =>
        change -x.x < r.flip.centre 0 (r.n.x - 1 - b.1 + 1)
        rw [flip_centre h, show r.n.x - 1 - (r.n.x - 1 - b.1 + 1) = b.1 - 1 by ring, ← l]
        exact neg_lt_neg ((centre_lt_iff h hpos 0 d0).2 (by omega))
      | 1 => rw [flip_centre_other r (by decide)]; exact H.hi 1 hd
      | 2 => rw [flip_centre_other r (by decide)]; exact H.hi 2 hd
    · match a with
      | 0 =>
        change -r.pad ≤ r.n.x - 1 - b.1 ∧ r.n.x - 1 - b.1 + 1 < r.n.x + r.pad
        omega
      | 1 => exact H.stored 1 hd
      | 2 => exact H.stored 2 hd
    · match a with
      | 0 => exact absurd d0 hd
      | 1 => exact H.unused 1 hd
      | 2 => exact H.unused 2 hd

/-! ## The sums -/

theorem T1_neg (b : List K) (h p q r s : K) : T1 b h (-p) (-q) (-r) (-s) = -T1 b h p q r s := by
  unfold T1
  split <;> ring

theorem T1_mirror (t h p q r s : K) : T1 (basis (1 - t)) h r (-s) p (-q) = T1 (basis t) h p q r s := by
  simp only [basis, T1_four, B0, B1, B2, B3, _root_.Gals.sqr, _root_.Gals.cube]
  ring

theorem T1_mirror' (t h p q r s : K) : T1 (basis' (1 - t)) h r (-s) p (-q) = -T1 (basis' t) h p q r s := by
  simp only [basis', T1_four, B0', B1', B2', B3', _root_.Gals.sqr]
  ring

theorem T1_zero (h p q r s : K) : T1 (basis 0) h p q r s = p := by
  simp only [basis, T1_four, B0, B1, B2, B3, _root_.Gals.sqr, _root_.Gals.cube]
  ring

theorem T1_zero' (h p q r s : K) : T1 (basis' 0) h p q r s = q * h := by
  simp only [basis', T1_four, B0', B1', B2', B3', _root_.Gals.sqr]
  ring

/-- A node of the plane in the mirror. -/
def fl2 (n : Node2 K) : Node2 K := ⟨n.phi, flipV n.psi, -n.xy⟩

/-- A node of space in the mirror. -/
def fl3 (n : Node3 K) : Node3 K := ⟨n.phi, flipV n.psi, -n.xy, n.yz, -n.zx, -n.xyz⟩

/-- The result of the interpolation in the mirror. -/
def flO (o : Interp K) : Interp K := ⟨o.phi, flipV o.psi⟩

theorem kernel1_flip (dx inv t : K) (p q : Node1 K) :
    kernel1 dx inv (1 - t) ⟨q.phi, flipV q.psi⟩ ⟨p.phi, flipV p.psi⟩ false = flO (kernel1 dx inv t p q false) := by
  simp only [kernel1_eq, flipV, flO, T1_mirror, T1_mirror', neg_mul]

theorem kernel1_flip0 (dx inv : K) (p q q' : Node1 K) :
    kernel1 dx inv 0 ⟨p.phi, flipV p.psi⟩ q' false = flO (kernel1 dx inv 0 p q false) := by
  simp only [kernel1_eq, flipV, flO, T1_zero, T1_zero', neg_mul]

theorem kernel2_flip (dx inv e : Vec3 K) (n00 n10 n01 n11 : Node2 K) :
    kernel2 dx inv ⟨1 - e.x, e.y, e.z⟩ (fl2 n10) (fl2 n00) (fl2 n11) (fl2 n01) false = flO (kernel2 dx inv e n00 n10 n01 n11 false) := by
  simp only [kernel2_eq, flipV, flO, fl2, T1_neg, T1_mirror, T1_mirror', neg_mul]

theorem kernel2_flip0 (dx inv e : Vec3 K) (he : e.x = 0) (n00 n10 n01 n11 m10 m11 : Node2 K) :
    kernel2 dx inv e (fl2 n00) m10 (fl2 n01) m11 false = flO (kernel2 dx inv e n00 n10 n01 n11 false) := by
  simp only [kernel2_eq, he, flipV, flO, fl2, T1_neg, T1_zero, T1_zero', neg_mul]

theorem kernel3_flip (dx inv e : Vec3 K) (n000 n100 n010 n001 n110 n011 n101 n111 : Node3 K) :
    kernel3 dx inv ⟨1 - e.x, e.y, e.z⟩ (fl3 n100) (fl3 n000) (fl3 n110) (fl3 n101) (fl3 n010) (fl3 n111) (fl3 n001) (fl3 n011) false =
      flO (kernel3 dx inv e n000 n100 n010 n001 n110 n011 n101 n111 false) := by
  simp only [kernel3_eq, flipV, flO, fl3, T1_neg, T1_mirror, T1_mirror', neg_mul]

theorem kernel3_flip0 (dx inv e : Vec3 K) (he : e.x = 0) (n000 n100 n010 n001 n110 n011 n101 n111 m100 m110 m101 m111 : Node3 K) :
    kernel3 dx inv e (fl3 n000) m100 (fl3 n010) (fl3 n001) m110 (fl3 n011) m101 m111 false =
      flO (kernel3 dx inv e n000 n100 n010 n001 n110 n011 n101 n111 false) := by
  simp only [kernel3_eq, he, flipV, flO, fl3, T1_neg, T1_zero, T1_zero', neg_mul]

theorem kernel2_cong {dx inv eta dx' inv' eta' : Vec3 K} (n00 n10 n01 n11 : Node2 K) (q1 : dx.x = dx'.x) (q2 : dx.y = dx'.y)
    (q3 : inv.x = inv'.x) (q4 : inv.y = inv'.y) (q5 : eta.x = eta'.x) (q6 : eta.y = eta'.y) :
    kernel2 dx inv eta n00 n10 n01 n11 false = kernel2 dx' inv' eta' n00 n10 n01 n11 false := by
  simp only [kernel2_eq, q1, q2, q3, q4, q5, q6]

/-- Interpolation in the mirror. -/
theorem interp_flip {s : IntSem} (hs : d < 3 → s = .wrap) {r : Req K} (h : r.Valid d) (hpos : r.Pos d) (hp : r.pad = 1)
    {g g' : Grid K d} (G : g.Made s r) (G' : g'.Made s r.flip) {ls ls' : Levelset K} {F F' : Cell → K} {V V' : Cell → Vec3 K}
    {X X' : Cell → List K} (hX : ∀ c, (X c).length = numMixed d) (hX' : ∀ c, (X' c).length = numMixed d) (P : PrevIs s r g ls F V X)
    (P' : PrevIs s r.flip g' ls' F' V' X') (T : Flipped d r F F' V V' X X') {x : Vec3 K} (hx : InStorage r d x) (ha : After r x) {o : Interp K}
    (e : interpolate s g ls x false = .ok o) : interpolate s g' ls' (flipV x) false = .ok (flO o) := by
  have h' := flip_valid h
  have hpos' := flip_pos hpos
  have hx' := flip_inStorage h hx ha
  have d0 : (0 : Fin 3).val < d := by have := h.dim; change 0 < d; omega
  have hh := h.h_pos hpos 0 d0
  have hdx : g'.dx = g.dx := vec_ext fun a => by rw [G'.dx, G.dx, flip_h]
  have hinv : ∀ a : Fin 3, a.val < d → g'.oneOverDx.get a = g.oneOverDx.get a := fun a ha => by
    rw [G'.oneOverDx a ha, G.oneOverDx _ ha, flip_h]
  have sm : ∀ (u v w : Vec3 K) (a : Fin 3), ((u.sub v).mul w).get a = (u.get a - v.get a) * w.get a := fun u v w a => by
    match a with
    | 0 | 1 | 2 => rfl
  have node0 : ∀ b : Cell, (nodePos r d b).x = r.centre 0 b.1 := fun b => by
    change (nodePos r d b).get 0 = _
    rw [nodePos_get, if_pos d0]
    congr 1
    change b.1 + (r.pad - 1) = b.1
    omega
  have up : ∀ i : ℤ, r.centre 0 (i + 1) = r.centre 0 i + r.h 0 := fun i => by unfold Req.centre; push_cast; ring
  have one : (1 : K) / r.h 0 * r.h 0 = 1 := by field_simp
  have eta1 : ∀ b : Cell, (-x.x - (flipV (nodePos r d (b.1 + 1, b.2.1, b.2.2))).x) * (1 / r.h 0) = 1 - (x.x - (nodePos r d b).x) * (1 / r.h 0) := fun b => by
    change (-x.x - -(nodePos r d (b.1 + 1, b.2.1, b.2.2)).x) * (1 / r.h 0) = _
    rw [node0, node0]
    change (-x.x - -r.centre 0 (b.1 + 1)) * (1 / r.h 0) = _
    rw [up]
    linear_combination one
  have nyz : ∀ (b : Cell) (i : ℤ) (a : Fin 3), a ≠ 0 → (flipV (nodePos r d (i, b.2.1, b.2.2))).get a = (nodePos r d b).get a := fun b i a ha => by
    match a with
    | 0 => exact absurd rfl ha
    | 1 =>
      change (nodePos r d (i, b.2.1, b.2.2)).get 1 = _
      rw [nodePos_get, nodePos_get]; rfl
    | 2 =>
      change (nodePos r d (i, b.2.1, b.2.2)).get 2 = _
      rw [nodePos_get, nodePos_get]; rfl
  have back : ∀ b : Cell, (flipC r.n.x (b.1 + 1, b.2.1, b.2.2)).1 + 1 = (flipC r.n.x b).1 := fun b => by
    change r.n.x - 1 - (b.1 + 1) + 1 = r.n.x - 1 - b.1
    ring
  rcases h.dim with rfl | rfl | rfl
  · obtain rfl := hs (by decide)
    obtain ⟨b, H, i⟩ := interp1_eval G h hpos P hx false
    obtain ⟨b', H', i'⟩ := interp1_eval G' h' hpos' P' hx' false
    have s0 := H.stencil h 0 0 0 (by simp) (by simp) (by simp)
    have s1 := H.stencil h 1 0 0 (by simp) (by simp) (by simp)
    simp only [add_zero] at s0 s1
    rw [i] at e
    obtain rfl := Except.ok.inj e
    rw [i', flip_h]
    refine congrArg Except.ok ?_
    rcases (H.lo 0 d0).lt_or_eq with l | l
    · obtain rfl := H'.unique h' hpos' ((flip_baseCell h hpos ha H).1 l)
      rw [back b, flip_nodePos h hp]
      change kernel1 _ _ ((-x.x - (flipV (nodePos r 1 (b.1 + 1, b.2.1, b.2.2))).x) * _) ⟨F' _, V' _⟩ ⟨F' (flipC r.n.x b), V' (flipC r.n.x b)⟩ false = _
      rw [eta1, T.phi _ s0, T.phi _ s1, T.psi _ s0, T.psi _ s1]
      exact kernel1_flip _ _ _ ⟨F b, V b⟩ ⟨F (b.1 + 1, b.2.1, b.2.2), V (b.1 + 1, b.2.1, b.2.2)⟩
    · obtain rfl := H'.unique h' hpos' ((flip_baseCell h hpos ha H).2 l)
      rw [flip_nodePos h hp]
      have z : x.x - (nodePos r 1 b).x = 0 := by rw [node0]; exact sub_eq_zero.2 l.symm
      have z' : (flipV x).x - (flipV (nodePos r 1 b)).x = 0 := by change -x.x - -(nodePos r 1 b).x = 0; linear_combination -z
      rw [z, z', zero_mul, T.phi _ s0, T.psi _ s0]
      exact kernel1_flip0 _ _ ⟨F b, V b⟩ _ _
  · obtain rfl := hs (by decide)
    have X1 : X = fun c => [el (X c) 0] := funext fun c => one_el (hX c)
    have X1' : X' = fun c => [el (X' c) 0] := funext fun c => one_el (hX' c)
    obtain ⟨b, H, i⟩ := interp2_eval G h hpos (xy := fun c => el (X c) 0) (by rw [← X1]; exact P) hx false
    obtain ⟨b', H', i'⟩ := interp2_eval G' h' hpos' (xy := fun c => el (X' c) 0) (by rw [← X1']; exact P') hx' false
    have s00 := H.stencil h 0 0 0 (by simp) (by simp) (by simp)
    have s10 := H.stencil h 1 0 0 (by simp) (by simp) (by simp)
    have s01 := H.stencil h 0 1 0 (by simp) (by simp) (by simp)
    have s11 := H.stencil h 1 1 0 (by simp) (by simp) (by simp)
    simp only [add_zero] at s00 s10 s01 s11
    have nd : ∀ c, r.Padded 2 c → node2 F' V' (fun c => el (X' c) 0) (flipC r.n.x c) = fl2 (node2 F V (fun c => el (X c) 0) c) := fun c hc => by
      unfold node2 fl2
      have : el (X' (flipC r.n.x c)) 0 = -el (X c) 0 := by rw [T.mix c hc, one_el (hX c)]; rfl
      simp only [T.phi c hc, T.psi c hc, this]
    have n00 := nd _ s00
    have n10 := nd _ s10
    have n01 := nd _ s01
    have n11 := nd _ s11
    rw [i] at e
    obtain rfl := Except.ok.inj e
    rw [i', hdx]
    refine congrArg Except.ok ?_
    have v1 := hinv 0 (by decide)
    have v2 := hinv 1 (by decide)
    have g0 : g.oneOverDx.x = 1 / r.h 0 := G.oneOverDx 0 (by decide)
    rcases (H.lo 0 d0).lt_or_eq with l | l
    · obtain rfl := H'.unique h' hpos' ((flip_baseCell h hpos ha H).1 l)
      rw [back b, flip_nodePos h hp]
      change kernel2 _ _ _ (node2 F' V' _ (flipC r.n.x (b.1 + 1, b.2.1, b.2.2))) (node2 F' V' _ (flipC r.n.x (b.1, b.2.1, b.2.2)))
        (node2 F' V' _ (flipC r.n.x (b.1 + 1, b.2.1 + 1, b.2.2))) (node2 F' V' _ (flipC r.n.x (b.1, b.2.1 + 1, b.2.2))) false = _
      rw [n00, n10, n01, n11]
      refine (kernel2_cong _ _ _ _ rfl rfl v1 v2 ?_ ?_).trans (kernel2_flip _ _ _ _ _ _ _)
      · have := eta1 b
        change (-x.x - (flipV (nodePos r 2 (b.1 + 1, b.2.1, b.2.2))).x) * g'.oneOverDx.x = 1 - (x.x - (nodePos r 2 b).x) * g.oneOverDx.x
        have v1' : g'.oneOverDx.x = g.oneOverDx.x := v1
        rw [v1', g0, this]
      · have := nyz b (b.1 + 1) 1 (by decide)
        change (x.get 1 - (flipV (nodePos r 2 (b.1 + 1, b.2.1, b.2.2))).get 1) * g'.oneOverDx.get 1 = (x.get 1 - (nodePos r 2 b).get 1) * g.oneOverDx.get 1
        rw [v2, this]
    · obtain rfl := H'.unique h' hpos' ((flip_baseCell h hpos ha H).2 l)
      rw [flip_nodePos h hp]
      have z : x.x - (nodePos r 2 b).x = 0 := by rw [node0]; exact sub_eq_zero.2 l.symm
      change kernel2 _ _ _ (node2 F' V' _ (flipC r.n.x (b.1, b.2.1, b.2.2))) _ (node2 F' V' _ (flipC r.n.x (b.1, b.2.1 + 1, b.2.2))) _ false = _
      rw [n00, n01]
      refine (kernel2_cong _ _ _ _ rfl rfl v1 v2 ?_ ?_).trans (kernel2_flip0 _ _ _ ?_ _ _ _ _ _ _)
      · change (-x.x - -(nodePos r 2 b).x) * g'.oneOverDx.x = (x.x - (nodePos r 2 b).x) * g.oneOverDx.x
        rw [z, show -x.x - -(nodePos r 2 b).x = -(x.x - (nodePos r 2 b).x) by ring, z]; ring
      · have := nyz b b.1 1 (by decide)
        change (x.get 1 - (nodePos r 2 b).get 1) * g'.oneOverDx.get 1 = (x.get 1 - (nodePos r 2 b).get 1) * g.oneOverDx.get 1
        rw [v2]
      · change (x.x - (nodePos r 2 b).x) * g.oneOverDx.x = 0
        rw [z, zero_mul]
  · have X1 : X = fun c => [el (X c) 0, el (X c) 1, el (X c) 2, el (X c) 3] := funext fun c => four_el (hX c)
    have X1' : X' = fun c => [el (X' c) 0, el (X' c) 1, el (X' c) 2, el (X' c) 3] := funext fun c => four_el (hX' c)
    obtain ⟨b, H, i⟩ := interp3_eval G h hpos (xy := fun c => el (X c) 0) (yz := fun c => el (X c) 1) (zx := fun c => el (X c) 2)
      (xyz := fun c => el (X c) 3) (by rw [← X1]; exact P) hx false
    obtain ⟨b', H', i'⟩ := interp3_eval G' h' hpos' (xy := fun c => el (X' c) 0) (yz := fun c => el (X' c) 1) (zx := fun c => el (X' c) 2)
      (xyz := fun c => el (X' c) 3) (by rw [← X1']; exact P') hx' false
    have nd : ∀ i j k : ℤ, (i = 0 ∨ i = 1) → (j = 0 ∨ j = 1) → (k = 0 ∨ k = 1) →
        node3 F' V' (fun c => el (X' c) 0) (fun c => el (X' c) 1) (fun c => el (X' c) 2) (fun c => el (X' c) 3)
          (flipC r.n.x (b.1 + i, b.2.1 + j, b.2.2 + k)) =
        fl3 (node3 F V (fun c => el (X c) 0) (fun c => el (X c) 1) (fun c => el (X c) 2) (fun c => el (X c) 3) (b.1 + i, b.2.1 + j, b.2.2 + k)) :=
      fun i j k hi hj hk => by
        have hc := H.stencil h i j k hi (hj.imp id fun h => ⟨h, by decide⟩) (hk.imp id fun h => ⟨h, by decide⟩)
        generalize (b.1 + i, b.2.1 + j, b.2.2 + k) = c at hc
        unfold node3 fl3
        have m := T.mix c hc
        rw [four_el (hX c)] at m
        simp only [T.phi c hc, T.psi c hc, m]
        rfl
    have n000 := nd 0 0 0 (.inl rfl) (.inl rfl) (.inl rfl)
    have n100 := nd 1 0 0 (.inr rfl) (.inl rfl) (.inl rfl)
    have n010 := nd 0 1 0 (.inl rfl) (.inr rfl) (.inl rfl)
    have n001 := nd 0 0 1 (.inl rfl) (.inl rfl) (.inr rfl)
    have n110 := nd 1 1 0 (.inr rfl) (.inr rfl) (.inl rfl)
    have n011 := nd 0 1 1 (.inl rfl) (.inr rfl) (.inr rfl)
    have n101 := nd 1 0 1 (.inr rfl) (.inl rfl) (.inr rfl)
    have n111 := nd 1 1 1 (.inr rfl) (.inr rfl) (.inr rfl)
    simp only [add_zero] at n000 n100 n010 n001 n110 n011 n101 n111
    have inv : g'.oneOverDx = g.oneOverDx := vec_ext fun a => hinv a a.isLt
    rw [i] at e
    obtain rfl := Except.ok.inj e
    rw [i', hdx, inv]
    refine congrArg Except.ok ?_
    have g0 : g.oneOverDx.x = 1 / r.h 0 := G.oneOverDx 0 (by decide)
    generalize hN' : node3 F' V' (fun c => el (X' c) 0) (fun c => el (X' c) 1) (fun c => el (X' c) 2) (fun c => el (X' c) 3) = N' at *
    generalize hN : node3 F V (fun c => el (X c) 0) (fun c => el (X c) 1) (fun c => el (X c) 2) (fun c => el (X c) 3) = N at *
    rcases (H.lo 0 d0).lt_or_eq with l | l
    · obtain rfl := H'.unique h' hpos' ((flip_baseCell h hpos ha H).1 l)
      rw [back b, flip_nodePos h hp]
      have eta : ((flipV x).sub (flipV (nodePos r 3 (b.1 + 1, b.2.1, b.2.2)))).mul g.oneOverDx =
          ⟨1 - ((x.sub (nodePos r 3 b)).mul g.oneOverDx).x, ((x.sub (nodePos r 3 b)).mul g.oneOverDx).y,
            ((x.sub (nodePos r 3 b)).mul g.oneOverDx).z⟩ := vec_ext fun a => by
        rw [sm]
        match a with
        | 0 =>
          have := eta1 b
          change (-x.x - (flipV (nodePos r 3 (b.1 + 1, b.2.1, b.2.2))).x) * g.oneOverDx.x = 1 - (x.x - (nodePos r 3 b).x) * g.oneOverDx.x
          rw [g0, this]
        | 1 => rw [nyz b _ 1 (by decide)]; rfl
        | 2 => rw [nyz b _ 2 (by decide)]; rfl
      rw [eta]
      change kernel3 _ _ _ (N' (flipC r.n.x (b.1 + 1, b.2.1, b.2.2))) (N' (flipC r.n.x (b.1, b.2.1, b.2.2)))
        (N' (flipC r.n.x (b.1 + 1, b.2.1 + 1, b.2.2))) (N' (flipC r.n.x (b.1 + 1, b.2.1, b.2.2 + 1)))
        (N' (flipC r.n.x (b.1, b.2.1 + 1, b.2.2))) (N' (flipC r.n.x (b.1 + 1, b.2.1 + 1, b.2.2 + 1)))
        (N' (flipC r.n.x (b.1, b.2.1, b.2.2 + 1))) (N' (flipC r.n.x (b.1, b.2.1 + 1, b.2.2 + 1))) false = _
      rw [n000, n100, n010, n001, n110, n011, n101, n111]
      exact kernel3_flip _ _ _ _ _ _ _ _ _ _ _
    · obtain rfl := H'.unique h' hpos' ((flip_baseCell h hpos ha H).2 l)
      rw [flip_nodePos h hp]
      have z : x.x - (nodePos r 3 b).x = 0 := by rw [node0]; exact sub_eq_zero.2 l.symm
      have eta : ((flipV x).sub (flipV (nodePos r 3 b))).mul g.oneOverDx = (x.sub (nodePos r 3 b)).mul g.oneOverDx := vec_ext fun a => by
        rw [sm, sm]
        match a with
        | 0 =>
          change (-x.x - -(nodePos r 3 b).x) * g.oneOverDx.x = (x.x - (nodePos r 3 b).x) * g.oneOverDx.x
          rw [z, show -x.x - -(nodePos r 3 b).x = -(x.x - (nodePos r 3 b).x) by ring, z]; ring
        | 1 | 2 => rfl
      rw [eta]
      change kernel3 _ _ _ (N' (flipC r.n.x (b.1, b.2.1, b.2.2))) _ (N' (flipC r.n.x (b.1, b.2.1 + 1, b.2.2)))
        (N' (flipC r.n.x (b.1, b.2.1, b.2.2 + 1))) _ (N' (flipC r.n.x (b.1, b.2.1 + 1, b.2.2 + 1))) _ _ false = _
      rw [n000, n010, n001, n011]
      exact kernel3_flip0 _ _ _ (by change (x.x - (nodePos r 3 b).x) * g.oneOverDx.x = 0; rw [z, zero_mul]) _ _ _ _ _ _ _ _ _ _ _ _

/-- The chain rule in the mirror. -/
theorem pull_flip (m : Mat3 K) (dt : K) (v : Vec3 K) :
    (Mat3.identity.sub ((flipM m).smul dt)).dot (flipV v) = flipV ((Mat3.identity.sub (m.smul dt)).dot v) := by
  have e : ∀ (m : Mat3 K) (a b : Fin 3), (Mat3.identity.sub (m.smul dt)).entry a b = (if a = b then 1 else 0) - m.entry a b * dt := by
    intro m a b
    rw [← identity_entry]; rfl
  have f : ∀ a b : Fin 3, (flipM m).entry a b = (if a = 0 then -1 else 1) * (if b = 0 then -1 else 1) * m.entry a b := by
    intro a b
    fin_cases a <;> fin_cases b <;> simp [flipM, Mat3.entry, Mat3.mk9, Mat3.pos]
  have g : ∀ (v : Vec3 K) (a : Fin 3), (flipV v).get a = (if a = 0 then -1 else 1) * v.get a := by
    intro v a
    fin_cases a <;> simp [flipV, Vec3.get]
  refine vec_ext fun i => ?_
  rw [g, dot_get, dot_get, Finset.mul_sum]
  refine Finset.sum_congr rfl fun j _ => ?_
  rw [e, e, f, g]
  split_ifs <;> first | ring1 | (exfalso; simp_all)

theorem flipV_step (p u : Vec3 K) (dt : K) : flipV (p.sub (u.smul dt)) = (flipV p).sub ((flipV u).smul dt) := by
  simp only [flipV, Vec3.sub, Vec3.smul]
  congr 1
  ring

/-- Two level sets, the second in the mirror, before and after a step. -/
theorem carry_flip {s : IntSem} (hs : d < 3 → s = .wrap) {r : Req K} (h : r.Valid d) (hpos : r.Pos d) (hp : r.pad = 1)
    {g g' gv gv' : Grid K d} (M : g.Made s r) (M' : g'.Made s r.flip) {dt : K} {vel vel' : LsVelocity K} {u u' : Cell → Vec3 K}
    {m m' : Cell → Mat3 K}
    (hu : ∀ c, r.Interior c → vel.velocity.get s gv c.1 c.2.1 c.2.2 = .ok (u c))
    (hm : ∀ c, r.Interior c → vel.grad.get s gv c.1 c.2.1 c.2.2 = .ok (m c))
    (hu' : ∀ c, r.Interior c → vel'.velocity.get s gv' c.1 c.2.1 c.2.2 = .ok (u' c))
    (hm' : ∀ c, r.Interior c → vel'.grad.get s gv' c.1 c.2.1 c.2.2 = .ok (m' c))
    (tu : ∀ c, r.Interior c → u' (flipC r.n.x c) = flipV (u c)) (tm : ∀ c, r.Interior c → m' (flipC r.n.x c) = flipM (m c))
    (hcfl : ∀ c, r.Interior c → ∀ a : Fin 3, a.val < d → |(u c).get a * dt| < r.h a)
    {ls ls' : Levelset K} {F F' : Cell → K} {G G' : Cell → Vec3 K} {X X' : Cell → List K}
    (hX : ∀ c, (X c).length = numMixed d) (hX' : ∀ c, (X' c).length = numMixed d) (S : Stored s r g ls F G X)
    (S' : Stored s r.flip g' ls' F' G' X') (T : Flipped d r F F' G G' X X') :
    ∃ l l' A A' B B', carryStep s g gv dt vel ls = .ok l ∧ carryStep s g' gv' dt vel' ls' = .ok l' ∧ Stored s r g l A B X ∧
      Stored s r.flip g' l' A' B' X' ∧ Flipped d r A A' B B' X X' := by
  have d0 : (0 : Fin 3).val < d := by have := h.dim; change 0 < d; omega
  have back : ∀ c', r.flip.Interior c' → ∃ c, r.Interior c ∧ flipC r.n.x c = c' := fun c' hc' =>
    ⟨flipC r.n.x c', by rw [← flip_interior, flipC_flipC]; exact hc', flipC_flipC _ c'⟩
  have near : ∀ c, r.Interior c → ∀ a : Fin 3, a.val < d → r.centre a (-r.pad) < ((nodePos r d c).sub ((u c).smul dt)).get a ∧
      ((nodePos r d c).sub ((u c).smul dt)).get a < r.centre a (r.n.get a + r.pad - 1) := fun c hc =>
    near_node h hpos hp.ge hc (near_step (hcfl c hc))
  have stored : ∀ c, r.Interior c → InStorage r d ((nodePos r d c).sub ((u c).smul dt)) := fun c hc a ha => ⟨(near c hc a ha).1.le, (near c hc a ha).2⟩
  have after : ∀ c, r.Interior c → After r ((nodePos r d c).sub ((u c).smul dt)) := fun c hc => (near c hc 0 d0).1
  obtain ⟨l1, l, o, P, ho, e, R⟩ := carry_result (dt := dt) M hu hm (fun c hc => M.atC (interior_padded M hc)) S
    fun l1 P c hc => interp_ok hs M h hpos hX P (stored c hc) false
  have dep : ∀ c, r.Interior c → (nodePos r.flip d (flipC r.n.x c)).sub ((u' (flipC r.n.x c)).smul dt) = flipV ((nodePos r d c).sub ((u c).smul dt)) := fun c hc => by
    rw [flip_nodePos h hp, tu c hc, flipV_step]
  have same : ∀ c, r.flip.Interior c ↔ r.Interior c := fun c => Iff.rfl
  obtain ⟨l1', l', o', P', ho', e', R'⟩ := carry_result (dt := dt) (v := u') (m := m') M'
    (fun c hc => hu' c ((same c).1 hc)) (fun c hc => hm' c ((same c).1 hc)) (fun c hc => M'.atC (interior_padded M' hc)) S' fun l1 P c' hc' => by
      obtain ⟨c, hc, rfl⟩ := back c' hc'
      rw [dep c hc]
      exact interp_ok hs M' (flip_valid h) (flip_pos hpos) hX' P (flip_inStorage h (stored c hc) (after c hc)) false
  refine ⟨l, l', _, _, _, _, e, e', R, R', ?_⟩
  have res : ∀ c, r.Interior c → o' (flipC r.n.x c) = flO (o c) := fun c hc => by
    have k1 := interp_flip hs h hpos hp M M' hX hX' P P' T (stored c hc) (after c hc) (ho c hc)
    have k2 := ho' (flipC r.n.x c) (flip_interior.2 hc)
    rw [dep c hc, k1] at k2
    exact (Except.ok.inj k2).symm
  refine ⟨fun c hc => ?_, fun c hc => ?_, T.mix⟩
  · simp only [flip_interior]
    split_ifs with i
    · rw [res c i]; rfl
    · exact T.phi c hc
  · simp only [flip_interior]
    split_ifs with i
    · rw [res c i, tm c i]
      exact pull_flip ..
    · exact T.psi c hc

/-- The control points of an edge in the mirror, limited or not: no data meet the first two conditions of the limiter at once. -/
theorem controls_flip (p a q b dx : K) (lim : Bool) : getControlPoints q (-b) p (-a) dx lim =
    ⟨(getControlPoints p a q b dx lim).c03, (getControlPoints p a q b dx lim).c12, (getControlPoints p a q b dx lim).c21,
      (getControlPoints p a q b dx lim).c30⟩ := by
  unfold getControlPoints
  simp only [oneThird, twoThirds]
  have f1 : q + -b * dx * (1 / 3) = q - b * dx * (1 / 3) := by ring
  have f2 : p - -a * dx * (1 / 3) = p + a * dx * (1 / 3) := by ring
  simp only [f1, f2]
  obtain ⟨u, hu⟩ : ∃ u, p + a * dx * (1 / 3) = u := ⟨_, rfl⟩
  obtain ⟨v, hv⟩ : ∃ v, q - b * dx * (1 / 3) = v := ⟨_, rfl⟩
  simp only [hu, hv]
  clear f1 f2 hu hv
  cases lim
  · rfl
  · simp only [if_true]
    have e1 : (3 * (v - q) - 3 / 2 * (u - q)) * (3 * (v - q) - (p - q)) = (3 * (q - v) - 3 / 2 * (q - u)) * (3 * (q - v) - (q - p)) := by ring
    have e2 : (3 * (p - u) - 3 / 2 * (p - v)) * (3 * (p - u) - (p - q)) = (3 * (u - p) - 3 / 2 * (v - p)) * (3 * (u - p) - (q - p)) := by ring
    have e3 : (3 * (v - q) - (p - q)) * (3 * (p - u) - (p - q)) = (3 * (u - p) - (q - p)) * (3 * (q - v) - (q - p)) := by ring
    simp only [e1, e2, e3]
    by_cases c1 : (3 * (u - p) - 3 / 2 * (v - p)) * (3 * (u - p) - (q - p)) < 0
    · have c2 : ¬ (3 * (q - v) - 3 / 2 * (q - u)) * (3 * (q - v) - (q - p)) < 0 := fun c2 => by
        nlinarith [sq_nonneg (3 * (u - p) - (q - p)), sq_nonneg (3 * (q - v) - (q - p)), sq_nonneg (3 * (u - p) - (q - p) + (3 * (q - v) - (q - p)))]
      simp only [if_neg c2, if_pos c1]
    · simp only [if_neg c1]
      split_ifs <;> rfl

end Gals
