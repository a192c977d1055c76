import Verif.Lemmas.Flat
import Verif.Props.Mirror

/-!
# C120: data that do not depend on the last axis are treated as in fewer dimensions
-/

namespace Gals.Props

open Gals Gals.Spec

section exact
variable {K : Type} [Field K] [LinearOrder K] [IsStrictOrderedRing K] [FloorRing K]

/-- C120, interpolation without the limiter, in exact arithmetic, any padding.  The second level set, in `d + 1` dimensions (two or three), does not
depend on the last axis and is otherwise the first, in `d` dimensions on the grid without this axis: the interpolation returns for both the same value
and the same gradient, at every point between the stored nodes. -/
theorem C120_interpolation (d : ℕ) (hd : d = 1 ∨ d = 2) (r : Req K) (h : r.Valid (d + 1)) (hpos : r.Pos (d + 1)) (g : Grid K d)
    (g' : Grid K (d + 1)) (e : (r.low d).make .wrap d = .ok g) (e' : r.make .wrap (d + 1) = .ok g') (ls ls' : Levelset K)
    (F F' : Cell → K) (G G' : Cell → Vec3 K) (X X' : Cell → List K) (hX : ∀ c, (X c).length = numMixed d)
    (hX' : ∀ c, (X' c).length = numMixed (d + 1)) (P : PrevIs .wrap (r.low d) g ls F G X) (P' : PrevIs .wrap r g' ls' F' G' X')
    (T : Flat d r F F' G G' X X') (x : Vec3 K) (hx : InStorage r (d + 1) x) :
    ∃ y, interpolate .wrap g ls x false = .ok y ∧ interpolate .wrap g' ls' x false = .ok y := by
  have M' := make_made h e'
  obtain ⟨y, k⟩ := interp_ok (fun _ => rfl) M' h hpos hX' P' hx false
  refine ⟨y, ?_, k⟩
  rw [← interp_flat hd h hpos (make_made (low_valid hd h) e) M' hX hX' P P' T (fun _ _ => rfl) hx]
  exact k

/-- C120, the differences of both schemes at the interior cells, in exact arithmetic: along the last axis they are zero, along the others those in
fewer dimensions. -/
theorem C120_gradient (sch : GradScheme) (d : ℕ) (hd : d = 1 ∨ d = 2) (r : Req K) (h : r.Valid (d + 1))
    (hp : 2 ≤ r.pad ∨ sch = .central ∧ 1 ≤ r.pad) (g : Grid K d) (g' : Grid K (d + 1)) (e : (r.low d).make .wrap d = .ok g)
    (e' : r.make .wrap (d + 1) = .ok g') (al al' : Arr K) (f f' : Cell → K) (hf : FieldIs .wrap (r.low d) g al f) (hf' : FieldIs .wrap r g' al' f')
    (T : ∀ c, r.Padded (d + 1) c → f' c = f (lowC d c)) (gr gr' : Arr (Vec3 K)) (q q' : Cell → Vec3 K) (hq : FieldIs .wrap (r.low d) g gr q)
    (hq' : FieldIs .wrap r g' gr' q') :
    ∃ y y', gradScalar sch .wrap g g al gr = .ok y ∧ gradScalar sch .wrap g' g' al' gr' = .ok y' ∧ ∀ c, r.Interior c →
      ∃ v v', y.get .wrap g (lowC d c).1 (lowC d c).2.1 (lowC d c).2.2 = .ok v ∧ y'.get .wrap g' c.1 c.2.1 c.2.2 = .ok v' ∧ FlatV d v v' := by
  have M := make_made (low_valid hd h) e
  have M' := make_made h e'
  have hr : reach sch ≤ r.pad := by
    rcases hp with hp | ⟨rfl, hp⟩
    · cases sch <;> simp only [reach] <;> omega
    · exact hp
  obtain ⟨y, p, k, fp, -, i⟩ := gradScalar_ok (sch := sch) M M rfl hr hf hq
  obtain ⟨y', p', k', fp', -, i'⟩ := gradScalar_ok (sch := sch) M' M' rfl hr hf' hq'
  refine ⟨y, y', k, k', fun c ic => ?_⟩
  have il : (r.low d).Interior (lowC d c) := low_interior ic
  refine ⟨_, _, fp.val _ (interior_padded M il), fp'.val c (interior_padded M' ic), fun a ha => ?_⟩
  rw [i' c ic a, if_pos ha, flat_diff (by omega) (by omega) M' hr ic T ha, i _ il a]
  split_ifs <;> rfl

/-- C120, a time step with the gradient carried along, in exact arithmetic: the fluid moves less than a cell.  The first `d` velocities do not depend
on the last axis; the last velocity can be anything.  The step returns in both dimensions, and the new values and gradients at the interior cells are
again the same. -/
theorem C120_step (d : ℕ) (hd : d = 1 ∨ d = 2) (r : Req K) (h : r.Valid (d + 1)) (hpos : r.Pos (d + 1)) (hp : 1 ≤ r.pad) (g : Grid K d)
    (g' : Grid K (d + 1)) (e : (r.low d).make .wrap d = .ok g) (e' : r.make .wrap (d + 1) = .ok g') (dt : K) (vel vel' : LsVelocity K)
    (u u' : Cell → Vec3 K) (m m' : Cell → Mat3 K) (hu : FieldIs .wrap (r.low d) g vel.velocity u) (hm : FieldIs .wrap (r.low d) g vel.grad m)
    (hu' : FieldIs .wrap r g' vel'.velocity u') (hm' : FieldIs .wrap r g' vel'.grad m')
    (tu : ∀ c, r.Interior c → ∀ a : Fin 3, a.val < d → (u' c).get a = (u (lowC d c)).get a)
    (tm : ∀ c, r.Interior c → FlatM d (m (lowC d c)) (m' c))
    (hcfl : ∀ c, r.Interior c → ∀ a : Fin 3, a.val < d + 1 → |(u' c).get a * dt| < r.h a) (ls ls' : Levelset K)
    (F F' : Cell → K) (G G' : Cell → Vec3 K) (X X' : Cell → List K) (hX : ∀ c, (X c).length = numMixed d)
    (hX' : ∀ c, (X' c).length = numMixed (d + 1)) (S : Stored .wrap (r.low d) g ls F G X) (S' : Stored .wrap r g' ls' F' G' X')
    (T : Flat d r F F' G G' X X') :
    ∃ l l', carryStep .wrap g g dt vel ls = .ok l ∧ carryStep .wrap g' g' dt vel' ls' = .ok l' ∧ SameFlat d r g g' l l' := by
  have M := make_made (low_valid hd h) e
  have M' := make_made h e'
  exact carry_flat hd h hpos hp M M' (fun c ic => hu.val c (interior_padded M ic)) (fun c ic => hm.val c (interior_padded M ic))
    (fun c ic => hu'.val c (interior_padded M' ic)) (fun c ic => hm'.val c (interior_padded M' ic)) tu tm hcfl hX hX' S S' T

end exact

/-! ## Instances -/

/-- A level set of the plane and the same in space. -/
def planeF (c : Cell) : ℚ := c.1 * c.2.1

@[inherit_doc planeF] def planeG (c : Cell) : Vec3 ℚ := ⟨2 * c.2.1, c.1, 0⟩

@[inherit_doc planeF] def planeX (c : Cell) : List ℚ := [2 + c.1]

@[inherit_doc planeF] def spaceX (c : Cell) : List ℚ := [2 + c.1, 0, 0, 0]

theorem plane_flat (r : Req ℚ) : Flat 2 r planeF planeF planeG planeG planeX spaceX :=
  ⟨fun _ _ => rfl, fun c _ a _ => by
    match a with
    | 0 | 1 | 2 => rfl, fun _ _ => rfl⟩

/-- Instance of `C120_interpolation`: the product of the coordinates in the plane and in space. -/
theorem C120_interpolation_inst : ∃ (g : Grid ℚ 2) (g' : Grid ℚ 3) (ls ls' : Levelset ℚ) (y : Interp ℚ), ((box 1).low 2).make .wrap 2 = .ok g ∧
    (box 1).make .wrap 3 = .ok g' ∧ PrevIs .wrap ((box 1).low 2) g ls planeF planeG planeX ∧ PrevIs .wrap (box 1) g' ls' planeF planeG spaceX ∧
    interpolate .wrap g ls ⟨1 / 3, 1, 5 / 2⟩ false = .ok y ∧ interpolate .wrap g' ls' ⟨1 / 3, 1, 5 / 2⟩ false = .ok y := by
  obtain ⟨g, e, M⟩ := make_ok .wrap (low_valid (.inr rfl) box_valid)
  obtain ⟨g', e', M'⟩ := make_ok .wrap box_valid
  obtain ⟨ls, P⟩ := prevIs_exists M planeF planeG planeX
  obtain ⟨ls', P'⟩ := prevIs_exists M' planeF planeG spaceX
  obtain ⟨y, k, k'⟩ := C120_interpolation 2 (.inr rfl) (box 1) box_valid (box_pos 1) g g' e e' ls ls' _ _ _ _ _ _
    (fun _ => rfl) (fun _ => rfl) P P' (plane_flat (box 1)) ⟨1 / 3, 1, 5 / 2⟩
    (inStorage_of_box box_valid (box_pos 1) (by decide) fun a _ => by
      match a with
      | 0 => norm_num [Vec3.get, box]
      | 1 => norm_num [Vec3.get, box]
      | 2 => norm_num [Vec3.get, box])
  exact ⟨g, g', ls, ls', y, e, e', P, P', k, k'⟩

/-- Instance of `C120_gradient`: the squares on a line, and in the plane `demo 2`. -/
theorem C120_gradient_inst (sch : GradScheme) : ∃ (g : Grid ℚ 1) (g' : Grid ℚ 2) (al al' : Arr ℚ) (gr gr' y y' : Arr (Vec3 ℚ)) (v v' : Vec3 ℚ),
    ((demo 2).low 1).make .wrap 1 = .ok g ∧ (demo 2).make .wrap 2 = .ok g' ∧
    FieldIs .wrap ((demo 2).low 1) g al (fun c => (c.1 : ℚ) * c.1) ∧ FieldIs .wrap (demo 2) g' al' (fun c => (c.1 : ℚ) * c.1) ∧
    gradScalar sch .wrap g g al gr = .ok y ∧ gradScalar sch .wrap g' g' al' gr' = .ok y' ∧
    y.get .wrap g 1 0 0 = .ok v ∧ y'.get .wrap g' 1 2 0 = .ok v' ∧ v'.x = v.x ∧ v'.y = 0 := by
  obtain ⟨g, e, M⟩ := make_ok .wrap (low_valid (.inl rfl) demo2_valid)
  obtain ⟨g', e', M'⟩ := make_ok .wrap demo2_valid
  obtain ⟨al, hf⟩ := fieldIs_exists (s := .wrap) M fun c => (c.1 : ℚ) * c.1
  obtain ⟨al', hf'⟩ := fieldIs_exists (s := .wrap) M' fun c => (c.1 : ℚ) * c.1
  obtain ⟨gr, hq⟩ := fieldIs_exists (s := .wrap) M fun _ => (⟨3, 4, 5⟩ : Vec3 ℚ)
  obtain ⟨gr', hq'⟩ := fieldIs_exists (s := .wrap) M' fun _ => (⟨6, 7, 8⟩ : Vec3 ℚ)
  obtain ⟨y, y', k, k', q⟩ := C120_gradient sch 1 (.inl rfl) (demo 2) demo2_valid (.inl (by decide)) g g' e e' al al' _ _ hf hf'
    (fun _ _ => rfl) gr gr' _ _ hq hq'
  obtain ⟨v, v', q1, q2, q3⟩ := q (1, 2, 0) (by unfold Req.Interior InteriorCell demo; simp)
  exact ⟨g, g', al, al', gr, gr', y, y', v, v', e, e', hf, hf', k, k', q1, q2, q3 0 (by decide), q3 1 (by decide)⟩

/-- Instance of `C120_step`: the flow `(-x, z)`, in cells, on the line and in the plane `demo 2`, carrying `x * x`. -/
theorem C120_step_inst : ∃ (g : Grid ℚ 1) (g' : Grid ℚ 2) (vel vel' : LsVelocity ℚ) (ls ls' l l' : Levelset ℚ) (f : ℚ),
    ((demo 2).low 1).make .wrap 1 = .ok g ∧ (demo 2).make .wrap 2 = .ok g' ∧ vel'.velocity.get .wrap g' 1 2 0 = .ok ⟨-1, 2, 0⟩ ∧
    ls'.phi.get .wrap g' 2 1 0 = .ok 4 ∧
    carryStep .wrap g g (1 / 10) vel ls = .ok l ∧ carryStep .wrap g' g' (1 / 10) vel' ls' = .ok l' ∧
    l.phi.get .wrap g 1 0 0 = .ok f ∧ l'.phi.get .wrap g' 1 2 0 = .ok f := by
  obtain ⟨g, e, M⟩ := make_ok .wrap (low_valid (.inl rfl) demo2_valid)
  obtain ⟨g', e', M'⟩ := make_ok .wrap demo2_valid
  obtain ⟨va, h1⟩ := fieldIs_exists (s := .wrap) M fun c => (⟨-c.1, 0, 0⟩ : Vec3 ℚ)
  obtain ⟨vb, h2⟩ := fieldIs_exists (s := .wrap) M fun _ => (Mat3.mk9 (-2) 0 0 0 0 0 0 0 0 : Mat3 ℚ)
  obtain ⟨va', h1'⟩ := fieldIs_exists (s := .wrap) M' fun c => (⟨-c.1, c.2.1, 0⟩ : Vec3 ℚ)
  obtain ⟨vb', h2'⟩ := fieldIs_exists (s := .wrap) M' fun _ => (Mat3.mk9 (-2) 0 0 0 1 0 0 0 0 : Mat3 ℚ)
  obtain ⟨a, ha⟩ := fieldIs_exists (s := .wrap) M fun c => (c.1 : ℚ) * c.1
  obtain ⟨b, hb⟩ := fieldIs_exists (s := .wrap) M fun c => (⟨4 * c.1, 0, 0⟩ : Vec3 ℚ)
  obtain ⟨x, hx⟩ := fieldIs_exists (s := .wrap) M fun _ => ([] : List ℚ)
  obtain ⟨a', ha'⟩ := fieldIs_exists (s := .wrap) M' fun c => (c.1 : ℚ) * c.1
  obtain ⟨b', hb'⟩ := fieldIs_exists (s := .wrap) M' fun c => (⟨4 * c.1, 0, 0⟩ : Vec3 ℚ)
  obtain ⟨x', hx'⟩ := fieldIs_exists (s := .wrap) M' fun _ => ([0] : List ℚ)
  have S : Stored .wrap ((demo 2).low 1) g ⟨a, b, x, a, b, x, a, b⟩ _ _ _ := ⟨ha, hb, ⟨_, ha⟩, ⟨_, hb⟩, ⟨_, ha⟩, ⟨_, hb⟩, hx⟩
  have S' : Stored .wrap (demo 2) g' ⟨a', b', x', a', b', x', a', b'⟩ _ _ _ := ⟨ha', hb', ⟨_, ha'⟩, ⟨_, hb'⟩, ⟨_, ha'⟩, ⟨_, hb'⟩, hx'⟩
  have i0 : (demo 2).Interior (1, 2, 0) := by unfold Req.Interior InteriorCell demo; simp
  have i1 : (demo 2).Interior (2, 1, 0) := by unfold Req.Interior InteriorCell demo; simp
  obtain ⟨l, l', q1, q2, q3⟩ := C120_step 1 (.inl rfl) (demo 2) demo2_valid (demo_pos 2) (by decide) g g' e e' (1 / 10) ⟨va, vb⟩ ⟨va', vb'⟩ _ _ _ _
    h1 h2 h1' h2' (fun c _ a ha => by
      match a with
      | 0 => rfl
      | 1 | 2 => exact absurd ha (by decide)) (fun c _ a b ha hb => by
      match a, b with
      | 0, 0 => rfl
      | 0, 1 => rfl
      | 0, 2 => exact absurd hb (by decide)
      | 1, _ | 2, _ => exact absurd ha (by decide)) (fun c hc a ha => by
      have c0 := comp_interior hc 0
      have c1 := comp_interior hc 1
      match a with
      | 0 =>
        have : ((c.1 : ℤ) : ℚ) ≤ 3 := by exact_mod_cast (show c.1 ≤ 3 from by have : c.1 < 4 := c0.2; omega)
        have : (0 : ℚ) ≤ ((c.1 : ℤ) : ℚ) := by exact_mod_cast (show (0 : ℤ) ≤ c.1 from c0.1)
        change |-((c.1 : ℤ) : ℚ) * (1 / 10)| < (2 - 0) / ((4 : ℤ) : ℚ)
        rw [neg_mul, abs_neg, abs_of_nonneg (by positivity)]
        norm_num
        linarith
      | 1 =>
        have : ((c.2.1 : ℤ) : ℚ) ≤ 2 := by exact_mod_cast (show c.2.1 ≤ 2 from by have : c.2.1 < 3 := c1.2; omega)
        have : (0 : ℚ) ≤ ((c.2.1 : ℤ) : ℚ) := by exact_mod_cast (show (0 : ℤ) ≤ c.2.1 from c1.1)
        change |((c.2.1 : ℤ) : ℚ) * (1 / 10)| < (3 - 0) / ((3 : ℤ) : ℚ)
        rw [abs_of_nonneg (by positivity)]
        norm_num
        linarith
      | 2 => exact absurd ha (by decide)) _ _ _ _ _ _ _ _ (fun _ => rfl) (fun _ => rfl) S S' ⟨fun _ _ => rfl, fun c _ a ha => by
      match a with
      | 0 | 1 => rfl
      | 2 => exact absurd ha (by decide), fun _ _ => rfl⟩
  obtain ⟨f, p, p', w1, -, w2, -⟩ := q3 (1, 2, 0) i0
  have v := h1'.val (1, 2, 0) (interior_padded M' i0)
  have v2 := ha'.val (2, 1, 0) (interior_padded M' i1)
  exact ⟨g, g', ⟨va, vb⟩, ⟨va', vb'⟩, _, _, l, l', f, e, e', by rw [v]; norm_num, by rw [v2]; norm_num, q1, q2, w1, w2⟩

/-! ## The limiter -/

/-- What the interpolation returns on the line, and in the plane for the same data, which there do not depend on `y`: values 0
and 1, slopes `a` and `b` at the two nodes, and mixed derivatives zero. -/
def flatWays (a b : ℚ) (lim : Bool) : M (ℚ × ℚ) := do
  let g ← (sqr.low 1).make .wrap 1
  let g' ← sqr.make .wrap 2
  let q : List (Vec3 ℚ) := [⟨0, 0, 0⟩, ⟨a, 0, 0⟩, ⟨b, 0, 0⟩, ⟨0, 0, 0⟩]
  let ls : Levelset ℚ :=
    { Levelset.mk' g with phiPrev := { Arr.mk' g 0 with data := [0, 0, 1, 1] }, psiPrev := { Arr.mk' g (Vec3.zero : Vec3 ℚ) with data := q } }
  let y ← interpolate .wrap g ls ⟨5 / 4, 1, 0⟩ lim
  let y' ← interpolate .wrap g' (sqrLs g' (fun i _ => if 0 < i then 1 else 0) fun i _ => ⟨if i = 0 then a else if i = 1 then b else 0, 0, 0⟩) ⟨5 / 4, 1, 0⟩ lim
  return (y.phi, y'.phi)

/-- C120 is false of the interpolation with the limiter: between two nodes with values 0 and 1 and slopes 2 and 0 the value at three quarters is 3/4 on
the line, and 219/256 in the plane, where the limiter does not change the inner control points on the right.  Without the limiter both are 15/16. -/
theorem C120_limiter_false : flatWays 2 0 true = .ok (3 / 4, 219 / 256) ∧ flatWays 2 0 false = .ok (15 / 16, 15 / 16) :=
  ⟨by decide +kernel, by decide +kernel⟩

end Gals.Props
