import Verif.Spec.Flip
import Verif.Model.Temporal
import Verif.Model.Carry
import Verif.Model.App
import Verif.Model.Linear

/-!
# Programs on related data
-/

set_option linter.unusedSectionVars false

namespace Gals

open Gals.Spec

variable {α β γ δ : Type}

theorem Spec.Same.bind {R : α → β → Prop} {S : γ → δ → Prop} {x : M α} {y : M β} {f : α → M γ} {f' : β → M δ} (h : Same R x y)
    (hf : ∀ a b, R a b → Same S (f a) (f' b)) : Same S (x >>= f) (y >>= f') := by
  cases h with
  | ok h => exact hf _ _ h
  | error f => exact .error f

theorem Spec.Same.refl {x : M α} : Same Eq x x := by
  cases x with
  | ok a => exact .ok rfl
  | error f => exact .error f

/-- A first command that does not look at the related data. -/
theorem Spec.Same.skip {S : γ → δ → Prop} {x : M α} {f : α → M γ} {f' : α → M δ} (hf : ∀ a, Same S (f a) (f' a)) :
    Same S (x >>= f) (x >>= f') :=
  Same.bind .refl fun a b h => by subst h; exact hf a

theorem Spec.Same.loop {R : α → β → Prop} {ι : Type} {f : α → ι → M α} {f' : β → ι → M β} (l : List ι) {a : α} {b : β} (h : R a b)
    (hf : ∀ a b i, R a b → Same R (f a i) (f' b i)) : Same R (Gals.loop l a f) (Gals.loop l b f') := by
  induction l generalizing a b with
  | nil => exact .ok h
  | cons i l ih =>
    rw [loop_cons, loop_cons]
    exact (hf a b i h).bind fun _ _ h => ih h

theorem rd_rel {R : α → α → Prop} {u v : List α} (h : List.Forall₂ R u v) (i : ℤ) : Same R (rd u i) (rd v i) := by
  have e := h.length_eq
  by_cases hi : i < 0 ∨ (u.length : ℤ) ≤ i
  · rw [rd_oob hi, rd_oob (by rw [← e]; exact hi)]
    exact .error _
  · rw [rd_ok (by omega) (by omega), rd_ok (by omega) (by omega)]
    exact .ok (h.get (i := i.toNat) (by omega) (by omega))

theorem forall₂_set {R : α → α → Prop} {u v : List α} (h : List.Forall₂ R u v) (n : ℕ) {a b : α} (hab : R a b) :
    List.Forall₂ R (u.set n a) (v.set n b) := by
  induction h generalizing n with
  | nil => exact .nil
  | cons h t ih =>
    cases n with
    | zero => exact .cons hab t
    | succ n => exact .cons h (ih n)

theorem wr_rel {R : α → α → Prop} {u v : List α} (h : List.Forall₂ R u v) (i : ℤ) {a b : α} (hab : R a b) :
    Same (List.Forall₂ R) (wr u i a) (wr v i b) := by
  have e := h.length_eq
  by_cases hi : i < 0 ∨ (u.length : ℤ) ≤ i
  · rw [wr_oob _ hi, wr_oob _ (by rw [← e]; exact hi)]
    exact .error _
  · rw [wr_ok _ (by omega) (by omega), wr_ok _ (by omega) (by omega)]
    exact .ok (forall₂_set h _ hab)

/-- A relation of scalars that the operations on the data respect; products of two data are related by `E`, which keeps signs. -/
structure Scaling (K : Type) [Zero K] [Add K] [_root_.Sub K] [Mul K] [LT K] [LE K] (R E : K → K → Prop) : Prop where
  zero : R 0 0
  add {a a' b b' : K} : R a a' → R b b' → R (a + b) (a' + b')
  sub {a a' b b' : K} : R a a' → R b b' → R (a - b) (a' - b')
  mulL {b b' : K} (c : K) : R b b' → R (c * b) (c * b')
  mulR {a a' : K} (c : K) : R a a' → R (a * c) (a' * c)
  mul {a a' b b' : K} : R a a' → R b b' → E (a * b) (a' * b')
  lt {a a' : K} : E a a' → (a < 0 ↔ a' < 0)
  le {a a' : K} : E a a' → (a ≤ 0 ↔ a' ≤ 0)

section
variable {K : Type} [Zero K] [One K] [Add K] [_root_.Sub K] [Mul K] [Div K] [Neg K] [NatCast K] [IntCast K]
  [LT K] [DecidableLT K] [LE K] [DecidableLE K] {d : ℕ} {T : Type}

theorem Spec.ArrRel.get {R : T → T → Prop} {a b : Arr T} (h : ArrRel R a b) (s : IntSem) (g : Grid K d) (i j k : ℤ) :
    Same R (a.get s g i j k) (b.get s g i j k) :=
  Same.skip fun n => rd_rel h.data n

theorem Spec.ArrRel.getV {R : T → T → Prop} {a b : Arr T} (h : ArrRel R a b) (s : IntSem) (g : Grid K d) (n : Vec3 ℤ) :
    Same R (a.getV s g n) (b.getV s g n) := ArrRel.get h s g _ _ _

theorem Spec.ArrRel.set {R : T → T → Prop} {a b : Arr T} (h : ArrRel R a b) (s : IntSem) (g : Grid K d) (i j k : ℤ) {t u : T} (ht : R t u) :
    Same (ArrRel R) (a.set s g i j k t) (b.set s g i j k u) :=
  Same.skip fun n => (wr_rel h.data n ht).bind fun _ _ hd => .ok ⟨h.nx, h.ny, h.nz, h.pad, hd⟩

theorem Spec.ArrRel.assign {R : T → T → Prop} {a b a' b' : Arr T} (h : ArrRel R a b) (h' : ArrRel R a' b') : ArrRel R (a.assign a') (b.assign b') :=
  ⟨h.nx, h.ny, h.nz, h.pad, h'.data⟩

theorem Spec.ArrRel.interior {R : T → T → Prop} {a b : Arr T} (h : ArrRel R a b) : a.interior = b.interior := by
  simp only [Arr.interior, h.nx, h.ny, h.nz]

theorem Spec.ArrRel.modify {R : T → T → Prop} {a b : Arr T} (h : ArrRel R a b) (s : IntSem) (g : Grid K d) (c : Cell) {f f' : T → T}
    (hf : ∀ t u, R t u → R (f t) (f' u)) : Same (ArrRel R) (a.modify s g c f) (b.modify s g c f') :=
  (ArrRel.get h s g _ _ _).bind fun _ _ hv => ArrRel.set h s g _ _ _ (hf _ _ hv)

theorem Spec.ArrRel.plus1 {R : T → T → Prop} {a b : Arr T} (h : ArrRel R a b) (s : IntSem) (g : Grid K d) (c : Cell) (axis : Fin 3) :
    Same R (a.plus1 s g c axis) (b.plus1 s g c axis) :=
  Same.skip fun _ => Same.skip fun _ => Same.skip fun _ => ArrRel.get h s g _ _ _

theorem Spec.ArrRel.minus1 {R : T → T → Prop} {a b : Arr T} (h : ArrRel R a b) (s : IntSem) (g : Grid K d) (c : Cell) (axis : Fin 3) :
    Same R (a.minus1 s g c axis) (b.minus1 s g c axis) :=
  Same.skip fun _ => Same.skip fun _ => Same.skip fun _ => ArrRel.get h s g _ _ _

theorem Spec.ArrRel.minus2 {R : T → T → Prop} {a b : Arr T} (h : ArrRel R a b) (s : IntSem) (g : Grid K d) (c : Cell) (axis : Fin 3) :
    Same R (a.minus2 s g c axis) (b.minus2 s g c axis) :=
  Same.skip fun _ => Same.skip fun _ => Same.skip fun _ => Same.skip fun _ => Same.skip fun _ => Same.skip fun _ => ArrRel.get h s g _ _ _

theorem Spec.Vec3Rel.set {R : K → K → Prop} {v w : Vec3 K} (h : Vec3Rel R v w) (a : Fin 3) {t u : K} (ht : R t u) : Vec3Rel R (v.set a t) (w.set a u) := by
  match a with
  | 0 => exact ⟨ht, h.y, h.z⟩
  | 1 => exact ⟨h.x, ht, h.z⟩
  | 2 => exact ⟨h.x, h.y, ht⟩

/-- Related control points. -/
structure CpRel (R : K → K → Prop) (a b : ControlPoints K) : Prop where
  c30 : R a.c30 b.c30
  c21 : R a.c21 b.c21
  c12 : R a.c12 b.c12
  c03 : R a.c03 b.c03

theorem Scaling.controlPoints {R E : K → K → Prop} (S : Scaling K R E) {p q p' q' : K} {a b a' b' : K} (dx : K) (lim : Bool) (hp : R p p') (ha : R a a') (hq : R q q') (hb : R b b') :
    CpRel R (getControlPoints p a q b dx lim) (getControlPoints p' a' q' b' dx lim) := by
  unfold getControlPoints
  have h21 := S.add hp (S.mulR oneThird (S.mulR dx ha))
  have h12 := S.sub hq (S.mulR oneThird (S.mulR dx hb))
  generalize p + a * dx * oneThird = u at *
  generalize p' + a' * dx * oneThird = u' at *
  generalize q - b * dx * oneThird = w at *
  generalize q' - b' * dx * oneThird = w' at *
  cases lim with
  | false => exact ⟨hp, h21, h12, hq⟩
  | true =>
    have D1 := S.mulL 3 (S.sub h21 hp)
    have D2 := S.mulL 3 (S.sub hq h12)
    have D3 := S.mulL (3 / 2) (S.sub h12 hp)
    have D4 := S.mulL (3 / 2) (S.sub hq h21)
    have D5 := S.sub hq hp
    have t1 := S.lt (S.mul (S.sub D1 D3) (S.sub D1 D5))
    have t2 := S.lt (S.mul (S.sub D2 D4) (S.sub D2 D5))
    have t3 := S.le (S.mul (S.sub D1 D5) (S.sub D2 D5))
    simp only [if_true, t1, t2, t3]
    split
    · exact ⟨hp, h21, S.sub (S.mulL 2 h21) hp, hq⟩
    · split
      · exact ⟨hp, S.sub (S.mulL 2 h12) hq, h12, hq⟩
      · split
        · exact ⟨hp, S.add (S.mulL _ hp) (S.mulL _ hq), S.add (S.mulL _ hq) (S.mulL _ hp), hq⟩
        · exact ⟨hp, h21, h12, hq⟩

/-- A relation of scalars that what is computed from the data respects: sums, differences, multiples and control points. -/
structure Closed (K : Type) [Zero K] [One K] [Add K] [_root_.Sub K] [Mul K] [Div K] [NatCast K] [LT K] [DecidableLT K] [LE K] [DecidableLE K]
    (R : K → K → Prop) : Prop where
  zero : R 0 0
  add {a a' b b' : K} : R a a' → R b b' → R (a + b) (a' + b')
  sub {a a' b b' : K} : R a a' → R b b' → R (a - b) (a' - b')
  mulL {b b' : K} (c : K) : R b b' → R (c * b) (c * b')
  mulR {a a' : K} (c : K) : R a a' → R (a * c) (a' * c)
  cp {p q p' q' a b a' b' : K} (dx : K) (lim : Bool) : R p p' → R a a' → R q q' → R b b' →
    CpRel R (getControlPoints p a q b dx lim) (getControlPoints p' a' q' b' dx lim)

theorem Scaling.closed {R E : K → K → Prop} (S : Scaling K R E) : Closed K R :=
  ⟨S.zero, S.add, S.sub, S.mulL, S.mulR, S.controlPoints⟩

/-- Any two data. -/
theorem closed_any : Closed K fun _ _ => True :=
  ⟨trivial, fun _ _ => trivial, fun _ _ => trivial, fun _ _ => trivial, fun _ _ => trivial, fun _ _ _ _ _ _ => ⟨trivial, trivial, trivial, trivial⟩⟩

variable {R : K → K → Prop} (S : Closed K R)
include S

/-- Gradients of scalar fields. -/
theorem grad_rel (sch : GradScheme) (s : IntSem) (ga gg : Grid K d) {a a' : Arr K} {v v' : Arr (Vec3 K)} (h : ArrRel R a a')
    (hv : ArrRel (Vec3Rel R) v v') : Same (ArrRel (Vec3Rel R)) (gradScalar sch s ga gg a v) (gradScalar sch s ga gg a' v') := by
  cases sch with
  | central =>
    unfold gradScalar centralScalar
    rw [h.interior]
    refine Same.loop _ hv fun _ _ c hv => Same.loop _ hv fun _ _ axis hv => ?_
    refine (ArrRel.plus1 h s ga c axis).bind fun p p' hp => (ArrRel.minus1 h s ga c axis).bind fun m m' hm => ?_
    exact ArrRel.modify hv s gg c fun _ _ ht => Vec3Rel.set ht axis (S.mulR _ (S.mulR _ (S.sub hp hm)))
  | third =>
    unfold gradScalar thirdScalar
    rw [h.interior]
    refine Same.loop _ hv fun _ _ c hv => Same.loop _ hv fun _ _ axis hv => ?_
    refine (ArrRel.plus1 h s ga c axis).bind fun p p' hp => (ArrRel.get h s ga _ _ _).bind fun z z' hz =>
      (ArrRel.minus1 h s ga c axis).bind fun m m' hm => (ArrRel.minus2 h s ga c axis).bind fun mm mm' hmm => ?_
    exact ArrRel.modify hv s gg c fun _ _ ht => Vec3Rel.set ht axis
      (S.mulR _ (S.add (S.sub (S.add (S.mulL _ hp) (S.mulL _ hz)) (S.mulL _ hm)) (S.mulL _ hmm)))

theorem accum_rel (ws : List K) {u v : List K} (h : List.Forall₂ R u v) : R (accum ws u) (accum ws v) := by
  unfold accum
  suffices ∀ a b, R a b → R ((ws.zip u).foldl (fun acc p => acc + p.1 * p.2) a) ((ws.zip v).foldl (fun acc p => acc + p.1 * p.2) b) from
    this 0 0 S.zero
  induction h generalizing ws with
  | nil => intro a b h; simpa using h
  | cons h t ih =>
    intro a b hab
    cases ws with
    | nil => exact hab
    | cons w ws => exact ih ws _ _ (S.add hab (S.mulL w h))

theorem kernel1_rel (dx inv eta : K) (lim : Bool) {n0 n1 n0' n1' : Node1 K} (p0 : R n0.phi n0'.phi) (p1 : R n1.phi n1'.phi)
    (v0 : Vec3Rel R n0.psi n0'.psi) (v1 : Vec3Rel R n1.psi n1'.psi) :
    InterpRel R (kernel1 dx inv eta n0 n1 lim) (kernel1 dx inv eta n0' n1' lim) := by
  have C := S.cp dx lim p0 v0.x p1 v1.x
  exact ⟨S.add (S.add (S.add (S.mulR _ C.c30) (S.mulR _ C.c21)) (S.mulR _ C.c12)) (S.mulR _ C.c03),
    S.mulR _ (S.add (S.add (S.add (S.mulR _ C.c30) (S.mulR _ C.c21)) (S.mulR _ C.c12)) (S.mulR _ C.c03)), S.zero, S.zero⟩

/-- Related nodes. -/
structure N2Rel (R : K → K → Prop) (a b : Node2 K) : Prop where
  phi : R a.phi b.phi
  psi : Vec3Rel R a.psi b.psi
  xy : R a.xy b.xy

/-- Related nodes. -/
structure N3Rel (R : K → K → Prop) (a b : Node3 K) : Prop where
  phi : R a.phi b.phi
  psi : Vec3Rel R a.psi b.psi
  xy : R a.xy b.xy
  yz : R a.yz b.yz
  zx : R a.zx b.zx
  xyz : R a.xyz b.xyz

theorem kernel2_rel (dx inv eta : Vec3 K) (lim : Bool) {n00 n10 n01 n11 m00 m10 m01 m11 : Node2 K} (h00 : N2Rel R n00 m00)
    (h10 : N2Rel R n10 m10) (h01 : N2Rel R n01 m01) (h11 : N2Rel R n11 m11) :
    InterpRel R (kernel2 dx inv eta n00 n10 n01 n11 lim) (kernel2 dx inv eta m00 m10 m01 m11 lim) := by
  have cs : List.Forall₂ R (controls2 dx n00 n10 n01 n11 lim) (controls2 dx m00 m10 m01 m11 lim) := by
    have bottom := S.cp dx.x lim h00.phi h00.psi.x h10.phi h10.psi.x
    have top := S.cp dx.x lim h01.phi h01.psi.x h11.phi h11.psi.x
    have left := S.cp dx.y lim h00.phi h00.psi.y h01.phi h01.psi.y
    have right := S.cp dx.y lim h10.phi h10.psi.y h11.phi h11.psi.y
    have c1 := S.add h00.psi.y (S.mulL (dx.x * oneThird) h00.xy)
    have c2 := S.add h10.psi.x (S.mulL (dx.y * oneThird) h10.xy)
    have c2' := S.sub h11.psi.x (S.mulL (dx.y * oneThird) h11.xy)
    have c3 := S.add h01.psi.y (S.mulL (dx.x * oneThird) h01.xy)
    exact .cons left.c30 (.cons left.c21 (.cons left.c12 (.cons left.c03
      (.cons bottom.c21 (.cons (S.add bottom.c21 (S.mulL _ c1)) (.cons (S.sub top.c21 (S.mulL _ c3)) (.cons top.c21
      (.cons bottom.c12 (.cons (S.sub right.c21 (S.mulL _ c2)) (.cons (S.sub right.c12 (S.mulL _ c2')) (.cons top.c12
      (.cons right.c30 (.cons right.c21 (.cons right.c12 (.cons right.c03 .nil)))))))))))))))
  exact ⟨accum_rel S _ cs, S.mulR _ (accum_rel S _ cs), S.mulR _ (accum_rel S _ cs), S.zero⟩

theorem controls3_rel (dx : Vec3 K) (lim : Bool) {n000 n100 n010 n001 n110 n011 n101 n111 m000 m100 m010 m001 m110 m011 m101 m111 : Node3 K}
    (h000 : N3Rel R n000 m000) (h100 : N3Rel R n100 m100) (h010 : N3Rel R n010 m010) (h001 : N3Rel R n001 m001)
    (h110 : N3Rel R n110 m110) (h011 : N3Rel R n011 m011) (h101 : N3Rel R n101 m101) (h111 : N3Rel R n111 m111) :
    List.Forall₂ R (controls3 dx n000 n100 n010 n001 n110 n011 n101 n111 lim) (controls3 dx m000 m100 m010 m001 m110 m011 m101 m111 lim) := by
  have p_x := S.cp dx.x lim h000.phi h000.psi.x h100.phi h100.psi.x
  have p_y := S.cp dx.y lim h000.phi h000.psi.y h010.phi h010.psi.y
  have p_z := S.cp dx.z lim h000.phi h000.psi.z h001.phi h001.psi.z
  have p_xy := S.cp dx.y lim h100.phi h100.psi.y h110.phi h110.psi.y
  have p_yx := S.cp dx.x lim h010.phi h010.psi.x h110.phi h110.psi.x
  have p_xz := S.cp dx.z lim h100.phi h100.psi.z h101.phi h101.psi.z
  have p_zxy := S.cp dx.y lim h101.phi h101.psi.y h111.phi h111.psi.y
  have p_xyz := S.cp dx.z lim h110.phi h110.psi.z h111.phi h111.psi.z
  have p_zx := S.cp dx.x lim h001.phi h001.psi.x h101.phi h101.psi.x
  have p_zy := S.cp dx.y lim h001.phi h001.psi.y h011.phi h011.psi.y
  have p_yzx := S.cp dx.x lim h011.phi h011.psi.x h111.phi h111.psi.x
  have p_yz := S.cp dx.z lim h010.phi h010.psi.z h011.phi h011.psi.z
  have p_y_z := S.cp dx.y lim h000.psi.z h000.yz h010.psi.z h010.yz
  have p_zy_z := S.cp dx.y lim h001.psi.z h001.yz h011.psi.z h011.yz
  have p_z_x := S.cp dx.z lim h000.psi.x h000.zx h001.psi.x h001.zx
  have p_x_y := S.cp dx.x lim h000.psi.y h000.xy h100.psi.y h100.xy
  have p_z_xy := S.cp dx.z lim h000.xy h000.xyz h001.xy h001.xyz
  have p_z_y := S.cp dx.z lim h000.psi.y h000.yz h001.psi.y h001.yz
  have p_x_z := S.cp dx.x lim h000.psi.z h000.zx h100.psi.z h100.zx
  have p_zx_z := S.cp dx.x lim h001.psi.z h001.zx h101.psi.z h101.zx
  have p_zx_y := S.cp dx.x lim h001.psi.y h001.xy h101.psi.y h101.xy
  have p_yx_y := S.cp dx.x lim h010.psi.y h010.xy h110.psi.y h110.xy
  have p_yz_xy := S.cp dx.z lim h010.xy h010.xyz h011.xy h011.xyz
  have p_yz_y := S.cp dx.z lim h010.psi.y h010.yz h011.psi.y h011.yz
  have p_yx_z := S.cp dx.x lim h010.psi.z h010.zx h110.psi.z h110.zx
  have p_yzx_y := S.cp dx.x lim h011.psi.y h011.xy h111.psi.y h111.xy
  have p_yzx_z := S.cp dx.x lim h011.psi.z h011.zx h111.psi.z h111.zx
  have p_xz_xy := S.cp dx.z lim h100.xy h100.xyz h101.xy h101.xyz
  have p_xz_y := S.cp dx.z lim h100.psi.y h100.yz h101.psi.y h101.yz
  have p_xyz_xy := S.cp dx.z lim h110.xy h110.xyz h111.xy h111.xyz
  have p_xyz_y := S.cp dx.z lim h110.psi.y h110.yz h111.psi.y h111.yz
  have p_xy_z := S.cp dx.y lim h100.psi.z h100.yz h110.psi.z h110.yz
  have p_zxy_z := S.cp dx.y lim h101.psi.z h101.yz h111.psi.z h111.yz
  unfold controls3
  repeat' apply List.Forall₂.cons
  all_goals first
    | exact List.Forall₂.nil
    | (repeat' first
        | exact p_x.c21 | exact p_x.c12 | exact p_y.c21 | exact p_y.c12
        | exact p_z.c30 | exact p_z.c21 | exact p_z.c12 | exact p_z.c03
        | exact p_yz.c30 | exact p_yz.c21 | exact p_yz.c12 | exact p_yz.c03
        | exact p_xz.c30 | exact p_xz.c21 | exact p_xz.c12 | exact p_xz.c03
        | exact p_xyz.c30 | exact p_xyz.c21 | exact p_xyz.c12 | exact p_xyz.c03
        | exact p_xy.c21 | exact p_xy.c12 | exact p_yx.c21 | exact p_yx.c12 | exact p_zxy.c21 | exact p_zxy.c12
        | exact p_zx.c21 | exact p_zx.c12 | exact p_zy.c21 | exact p_zy.c12 | exact p_yzx.c21 | exact p_yzx.c12
        | exact p_y_z.c21 | exact p_y_z.c12 | exact p_zy_z.c21 | exact p_zy_z.c12 | exact p_z_x.c21 | exact p_z_x.c12
        | exact p_x_y.c21 | exact p_x_y.c12 | exact p_z_xy.c21 | exact p_z_xy.c12 | exact p_z_y.c21 | exact p_z_y.c12
        | exact p_x_z.c21 | exact p_x_z.c12 | exact p_zx_z.c21 | exact p_zx_z.c12 | exact p_zx_y.c21 | exact p_zx_y.c12
        | exact p_yx_y.c21 | exact p_yx_y.c12 | exact p_yz_xy.c21 | exact p_yz_xy.c12 | exact p_yz_y.c21 | exact p_yz_y.c12
        | exact p_yx_z.c21 | exact p_yx_z.c12 | exact p_yzx_y.c21 | exact p_yzx_y.c12 | exact p_yzx_z.c21 | exact p_yzx_z.c12
        | exact p_xz_xy.c21 | exact p_xz_xy.c12 | exact p_xz_y.c21 | exact p_xz_y.c12 | exact p_xyz_xy.c21 | exact p_xyz_xy.c12
        | exact p_xyz_y.c21 | exact p_xyz_y.c12 | exact p_xy_z.c21 | exact p_xy_z.c12 | exact p_zxy_z.c21 | exact p_zxy_z.c12
        | apply S.add | apply S.sub | apply S.mulL)

theorem kernel3_rel (dx inv eta : Vec3 K) (lim : Bool) {n000 n100 n010 n001 n110 n011 n101 n111 m000 m100 m010 m001 m110 m011 m101 m111 : Node3 K}
    (h000 : N3Rel R n000 m000) (h100 : N3Rel R n100 m100) (h010 : N3Rel R n010 m010) (h001 : N3Rel R n001 m001)
    (h110 : N3Rel R n110 m110) (h011 : N3Rel R n011 m011) (h101 : N3Rel R n101 m101) (h111 : N3Rel R n111 m111) :
    InterpRel R (kernel3 dx inv eta n000 n100 n010 n001 n110 n011 n101 n111 lim) (kernel3 dx inv eta m000 m100 m010 m001 m110 m011 m101 m111 lim) := by
  have cs := controls3_rel S dx lim h000 h100 h010 h001 h110 h011 h101 h111
  exact ⟨accum_rel S _ cs, S.mulR _ (accum_rel S _ cs), S.mulR _ (accum_rel S _ cs), S.mulR _ (accum_rel S _ cs)⟩

omit S in
theorem readNode1_rel (s : IntSem) (g : Grid K d) {ls ls' : Levelset K} (h : LsRel R ls ls') (n : Vec3 ℤ) :
    Same (fun a b => R a.phi b.phi ∧ Vec3Rel R a.psi b.psi) (readNode1 s g ls n) (readNode1 s g ls' n) :=
  (ArrRel.getV h.phiPrev s g n).bind fun _ _ h1 => (ArrRel.getV h.psiPrev s g n).bind fun _ _ h2 => .ok ⟨h1, h2⟩

omit S in
theorem readNode2_rel (s : IntSem) (g : Grid K d) {ls ls' : Levelset K} (h : LsRel R ls ls') (n : Vec3 ℤ) :
    Same (N2Rel R) (readNode2 s g ls n) (readNode2 s g ls' n) :=
  (ArrRel.getV h.phiPrev s g n).bind fun _ _ h1 => (ArrRel.getV h.psiPrev s g n).bind fun _ _ h2 =>
    (ArrRel.getV h.phiMixedPrev s g n).bind fun _ _ h3 => (rd_rel h3 0).bind fun _ _ h4 => .ok ⟨h1, h2, h4⟩

omit S in
theorem readNode3_rel (s : IntSem) (g : Grid K d) {ls ls' : Levelset K} (h : LsRel R ls ls') (n : Vec3 ℤ) :
    Same (N3Rel R) (readNode3 s g ls n) (readNode3 s g ls' n) :=
  (ArrRel.getV h.phiPrev s g n).bind fun _ _ h1 => (ArrRel.getV h.psiPrev s g n).bind fun _ _ h2 =>
    (ArrRel.getV h.phiMixedPrev s g n).bind fun _ _ h3 => (rd_rel h3 0).bind fun _ _ h4 => (rd_rel h3 1).bind fun _ _ h5 =>
    (rd_rel h3 2).bind fun _ _ h6 => (rd_rel h3 3).bind fun _ _ h7 => .ok ⟨h1, h2, h4, h5, h6, h7⟩

variable [HasFloor K]

theorem interpolate_rel (s : IntSem) (g : Grid K d) {ls ls' : Levelset K} (h : LsRel R ls ls') (x : Vec3 K) (lim : Bool) :
    Same (InterpRel R) (interpolate s g ls x lim) (interpolate s g ls' x lim) := by
  unfold interpolate
  split
  · refine Same.skip fun _ => Same.skip fun _ => Same.skip fun _ => (readNode1_rel s g h _).bind fun _ _ k0 =>
      (readNode1_rel s g h _).bind fun _ _ k1 => .ok (kernel1_rel S _ _ _ lim k0.1 k1.1 k0.2 k1.2)
  · split
    · refine Same.skip fun _ => Same.skip fun _ => Same.skip fun _ => Same.skip fun _ => (readNode2_rel s g h _).bind fun _ _ k00 =>
        (readNode2_rel s g h _).bind fun _ _ k10 => (readNode2_rel s g h _).bind fun _ _ k01 => (readNode2_rel s g h _).bind fun _ _ k11 =>
        .ok (kernel2_rel S _ _ _ lim k00 k10 k01 k11)
    · refine Same.skip fun _ => Same.skip fun _ => Same.skip fun _ => Same.skip fun _ => Same.skip fun _ =>
        (readNode3_rel s g h _).bind fun _ _ k000 => (readNode3_rel s g h _).bind fun _ _ k100 =>
        (readNode3_rel s g h _).bind fun _ _ k010 => (readNode3_rel s g h _).bind fun _ _ k001 =>
        (readNode3_rel s g h _).bind fun _ _ k110 => (readNode3_rel s g h _).bind fun _ _ k011 =>
        (readNode3_rel s g h _).bind fun _ _ k101 => (readNode3_rel s g h _).bind fun _ _ k111 =>
        .ok (kernel3_rel S _ _ _ lim k000 k100 k010 k001 k110 k011 k101 k111)

theorem hermiteCompute_rel (s : IntSem) (gx g : Grid K d) (x : Arr (Vec3 K)) {ls ls' : Levelset K} (h : LsRel R ls ls') :
    Same (LsRel R) (hermiteCompute s gx g x ls) (hermiteCompute s gx g x ls') := by
  unfold hermiteCompute
  refine Same.loop _ h fun _ _ c h => Same.skip fun _ => (interpolate_rel S s g h _ false).bind fun _ _ hr =>
    (ArrRel.set h.phiInterpPrev s g _ _ _ hr.phi).bind fun _ _ ha => (ArrRel.set h.psiInterpPrev s g _ _ _ hr.psi).bind fun _ _ hb =>
    .ok ⟨h.phi, h.psi, h.phiMixed, h.phiPrev, h.psiPrev, h.phiMixedPrev, ha, hb⟩

omit [HasFloor K] in
theorem dot_rel (m : Mat3 K) {v w : Vec3 K} (h : Vec3Rel R v w) : Vec3Rel R (m.dot v) (m.dot w) :=
  ⟨S.add (S.add (S.add S.zero (S.mulL _ h.x)) (S.mulL _ h.y)) (S.mulL _ h.z),
    S.add (S.add (S.add S.zero (S.mulL _ h.x)) (S.mulL _ h.y)) (S.mulL _ h.z),
    S.add (S.add (S.add S.zero (S.mulL _ h.x)) (S.mulL _ h.y)) (S.mulL _ h.z)⟩

omit [HasFloor K] in
theorem slUpdate_rel (s : IntSem) (g : Grid K d) (m : Arr (Mat3 K)) {ls ls' : Levelset K} (h : LsRel R ls ls') :
    Same (LsRel R) (slUpdate s g m ls) (slUpdate s g m ls') := by
  unfold slUpdate
  refine Same.loop _ h fun _ _ c h => (ArrRel.get h.phiInterpPrev s g _ _ _).bind fun _ _ hp =>
    (ArrRel.set h.phi s g _ _ _ hp).bind fun _ _ hphi => Same.skip fun m => (ArrRel.get h.psiInterpPrev s g _ _ _).bind fun _ _ hq =>
    (ArrRel.set h.psi s g _ _ _ (dot_rel S m hq)).bind fun _ _ hpsi =>
    .ok ⟨hphi, hpsi, h.phiMixed, h.phiPrev, h.psiPrev, h.phiMixedPrev, h.phiInterpPrev, h.psiInterpPrev⟩

theorem slEuler_rel (s : IntSem) (g gv : Grid K d) (dt : K) (vel : LsVelocity K) {ls ls' : Levelset K} (h : LsRel R ls ls') :
    Same (LsRel R) (slEuler s g gv dt vel ls) (slEuler s g gv dt vel ls') :=
  Same.skip fun _ => (hermiteCompute_rel S s g g _ h).bind fun _ _ h => Same.skip fun _ => slUpdate_rel S s g _ h

theorem carryStep_rel (s : IntSem) (g gv : Grid K d) (dt : K) (vel : LsVelocity K) {ls ls' : Levelset K} (h : LsRel R ls ls') :
    Same (LsRel R) (carryStep s g gv dt vel ls) (carryStep s g gv dt vel ls') :=
  slEuler_rel S s g gv dt vel ⟨h.phi, h.psi, h.phiMixed, ArrRel.assign h.phiPrev h.phi, ArrRel.assign h.psiPrev h.psi, h.phiMixedPrev,
    h.phiInterpPrev, h.psiInterpPrev⟩

theorem recomputeStep_rel (s : IntSem) (g gv : Grid K d) (dt : K) (vel : LsVelocity K) {ls ls' : Levelset K} (h : LsRel R ls ls') :
    Same (LsRel R) (recomputeStep s g gv dt vel ls) (recomputeStep s g gv dt vel ls') :=
  (grad_rel S .third s g g h.phi h.psi).bind fun _ _ hpsi => carryStep_rel S s g gv dt vel
    ⟨h.phi, hpsi, h.phiMixed, h.phiPrev, h.psiPrev, h.phiMixedPrev, h.phiInterpPrev, h.psiInterpPrev⟩

theorem appAdvance_rel [HasPi K] (b : Build) (s : IntSem) (a : App K) (t : K) (vel : LsVelocity K) {ls ls' : Levelset K} (h : LsRel R ls ls') :
    Same (fun x y => x.1 = y.1 ∧ LsRel R x.2 y.2) (appAdvance b s a t (vel, ls)) (appAdvance b s a t (vel, ls')) := by
  unfold appAdvance
  refine Same.skip fun vel => Same.bind (grad_rel S .third s a.g a.g h.phi h.psi) fun u u' hpsi => ?_
  have h' : LsRel R { ls with psi := u, phiPrev := ls.phiPrev.assign ls.phi, psiPrev := ls.psiPrev.assign u }
      { ls' with psi := u', phiPrev := ls'.phiPrev.assign ls'.phi, psiPrev := ls'.psiPrev.assign u' } :=
    ⟨h.phi, hpsi, h.phiMixed, ArrRel.assign h.phiPrev h.phi, ArrRel.assign h.psiPrev hpsi, h.phiMixedPrev,
      h.phiInterpPrev, h.psiInterpPrev⟩
  exact Same.bind (slEuler_rel S s a.g a.g a.dt vel h') fun _ _ h => .ok ⟨rfl, h⟩

end

end Gals
