import Verif.Lemmas.Superpose
import Verif.Props.Flat
import Verif.Props.Level

/-!
# C123: time steps of the library are linear in the level set
-/

namespace Gals.Props

open Gals Gals.Spec

section exact
variable {K : Type} [Field K] [LinearOrder K] [IsStrictOrderedRing K] [FloorRing K]

/-- C123, the differences of both schemes, in exact arithmetic. -/
theorem C123_gradient (sch : GradScheme) (s : IntSem) (d : ℕ) (al be : K) (r : Req K) (h : r.Valid d)
    (hp : 2 ≤ r.pad ∨ sch = .central ∧ 1 ≤ r.pad) (g : Grid K d) (e : r.make s d = .ok g)
    (a₁ a₂ a₃ : Arr K) (f₁ f₂ f₃ : Cell → K) (hf₁ : FieldIs s r g a₁ f₁) (hf₂ : FieldIs s r g a₂ f₂) (hf₃ : FieldIs s r g a₃ f₃)
    (T : ∀ c, r.Padded d c → f₃ c = al * f₁ c + be * f₂ c) (g₁ g₂ g₃ : Arr (Vec3 K)) (q₁ q₂ q₃ : Cell → Vec3 K) (hq₁ : FieldIs s r g g₁ q₁)
    (hq₂ : FieldIs s r g g₂ q₂) (hq₃ : FieldIs s r g g₃ q₃) (Q : ∀ c, r.Padded d c → ∀ i, (q₃ c).get i = al * (q₁ c).get i + be * (q₂ c).get i) :
    ∃ y₁ y₂ y₃, gradScalar sch s g g a₁ g₁ = .ok y₁ ∧ gradScalar sch s g g a₂ g₂ = .ok y₂ ∧ gradScalar sch s g g a₃ g₃ = .ok y₃ ∧
      ∀ c, r.Padded d c → ∃ v₁ v₂ v₃, y₁.get s g c.1 c.2.1 c.2.2 = .ok v₁ ∧ y₂.get s g c.1 c.2.1 c.2.2 = .ok v₂ ∧
        y₃.get s g c.1 c.2.1 c.2.2 = .ok v₃ ∧ ∀ i, v₃.get i = al * v₁.get i + be * v₂.get i := by
  have M := make_made h e
  have hr : reach sch ≤ r.pad := by
    rcases hp with hp | ⟨rfl, hp⟩
    · cases sch <;> simp only [reach] <;> omega
    · exact hp
  obtain ⟨y₁, p₁, w₁, fp₁, o₁, i₁⟩ := gradScalar_ok (sch := sch) M M rfl hr hf₁ hq₁
  obtain ⟨y₂, p₂, w₂, fp₂, o₂, i₂⟩ := gradScalar_ok (sch := sch) M M rfl hr hf₂ hq₂
  obtain ⟨y₃, p₃, w₃, fp₃, o₃, i₃⟩ := gradScalar_ok (sch := sch) M M rfl hr hf₃ hq₃
  refine ⟨y₁, y₂, y₃, w₁, w₂, w₃, fun c hc => ⟨_, _, _, fp₁.val c hc, fp₂.val c hc, fp₃.val c hc, fun j => ?_⟩⟩
  by_cases ic : r.Interior c
  · exact comb_diff M hr ic T (Q c hc j) (i₁ c ic j) (i₂ c ic j) (i₃ c ic j)
  · rw [o₁ c ic, o₂ c ic, o₃ c ic, Q c hc]

/-- C123, time steps in exact arithmetic: the fluid moves less than a cell per step.  The third level set is `al` times the first plus `be` times the
second, with any `al` and `be`: any number of steps returns for all three, and the third result is `al` times the first plus `be` times the second.
This holds with the gradient carried along, and with the gradient recomputed in every step as the application does it (two layers of padding). -/
theorem C123_steps (s : IntSem) (d : ℕ) (hs : d < 3 → s = .wrap) (al be : K) (r : Req K) (h : r.Valid d)
    (hpos : r.Pos d) (hp : 1 ≤ r.pad) (g : Grid K d) (e : r.make s d = .ok g)
    (rv : Req K) (hv : rv.Valid d) (hn : rv.n = r.n) (gv : Grid K d) (ev : rv.make s d = .ok gv)
    (dt : K) (vel : LsVelocity K) (u : Cell → Vec3 K) (m : Cell → Mat3 K)
    (hu : FieldIs s rv gv vel.velocity u) (hg : FieldIs s rv gv vel.grad m)
    (hcfl : ∀ c, r.Interior c → ∀ a : Fin 3, a.val < d → |(u c).get a * dt| < r.h a) (l₁ l₂ l₃ : Levelset K)
    (F₁ F₂ F₃ : Cell → K) (G₁ G₂ G₃ : Cell → Vec3 K) (X₁ X₂ X₃ : Cell → List K) (h₁ : ∀ c, (X₁ c).length = numMixed d)
    (h₂ : ∀ c, (X₂ c).length = numMixed d) (S₁ : Stored s r g l₁ F₁ G₁ X₁) (S₂ : Stored s r g l₂ F₂ G₂ X₂) (S₃ : Stored s r g l₃ F₃ G₃ X₃)
    (T : Superposed al be d r F₁ F₂ F₃ G₁ G₂ G₃ X₁ X₂ X₃) (n : ℕ) :
    (∃ k₁ k₂ k₃, carrySteps s g gv dt vel n l₁ = .ok k₁ ∧ carrySteps s g gv dt vel n l₂ = .ok k₂ ∧ carrySteps s g gv dt vel n l₃ = .ok k₃ ∧
      SameSum s d al be r g k₁ k₂ k₃) ∧
    (2 ≤ r.pad → ∃ k₁ k₂ k₃, recomputeSteps s g gv dt vel n l₁ = .ok k₁ ∧ recomputeSteps s g gv dt vel n l₂ = .ok k₂ ∧
      recomputeSteps s g gv dt vel n l₃ = .ok k₃ ∧ SameSum s d al be r g k₁ k₂ k₃) := by
  have M := make_made h e
  have Mv := make_made hv ev
  have hi : ∀ c, r.Interior c → rv.Padded d c := fun c hc => interior_padded Mv (by unfold Req.Interior; rw [hn]; exact hc)
  have k1 := fun c hc => hu.val c (hi c hc)
  have k2 := fun c hc => hg.val c (hi c hc)
  have S : Stored s r g l₃ (fun c => al * F₁ c + be * F₂ c) (fun c => comb al be (G₁ c) (G₂ c)) (fun c => combX al be (X₁ c) (X₂ c)) :=
    ⟨S₃.phi.congr T.phi, S₃.psi.congr fun c hc => vec_ext fun i => by rw [T.psi c hc, comb_get], S₃.phiPrev, S₃.psiPrev, S₃.phiInterpPrev,
      S₃.psiInterpPrev, S₃.mixed.congr T.mix⟩
  have fin : ∀ {k₁ k₂ k₃ : Levelset K} {A₁ A₂ : Cell → K} {B₁ B₂ : Cell → Vec3 K}, Stored s r g k₁ A₁ B₁ X₁ → Stored s r g k₂ A₂ B₂ X₂ →
      Stored s r g k₃ (fun c => al * A₁ c + be * A₂ c) (fun c => comb al be (B₁ c) (B₂ c)) (fun c => combX al be (X₁ c) (X₂ c)) →
      SameSum s d al be r g k₁ k₂ k₃ := fun R₁ R₂ R₃ c hc =>
    ⟨_, _, _, _, _, R₁.phi.val c hc, R₂.phi.val c hc, R₃.phi.val c hc, R₁.psi.val c hc, R₂.psi.val c hc, R₃.psi.val c hc, fun _ => comb_get ..⟩
  constructor
  · have all : ∃ k₁ k₂ k₃ A₁ A₂ B₁ B₂, carrySteps s g gv dt vel n l₁ = .ok k₁ ∧ carrySteps s g gv dt vel n l₂ = .ok k₂ ∧
        carrySteps s g gv dt vel n l₃ = .ok k₃ ∧ Stored s r g k₁ A₁ B₁ X₁ ∧ Stored s r g k₂ A₂ B₂ X₂ ∧
        Stored s r g k₃ (fun c => al * A₁ c + be * A₂ c) (fun c => comb al be (B₁ c) (B₂ c)) (fun c => combX al be (X₁ c) (X₂ c)) := by
      induction n with
      | zero => exact ⟨l₁, l₂, l₃, F₁, F₂, G₁, G₂, rfl, rfl, rfl, S₁, S₂, S⟩
      | succ n ih =>
        obtain ⟨k₁, k₂, k₃, A₁, A₂, B₁, B₂, q₁, q₂, q₃, R₁, R₂, R₃⟩ := ih
        unfold carrySteps
        rw [q₁, q₂, q₃, _root_.Gals.M.ok_bind, _root_.Gals.M.ok_bind, _root_.Gals.M.ok_bind]
        exact carry_comb hs al be h hpos hp M k1 k2 hcfl h₁ h₂ R₁ R₂ R₃
    obtain ⟨k₁, k₂, k₃, A₁, A₂, B₁, B₂, q₁, q₂, q₃, R₁, R₂, R₃⟩ := all
    exact ⟨k₁, k₂, k₃, q₁, q₂, q₃, fin R₁ R₂ R₃⟩
  · intro hp2
    have all : ∃ k₁ k₂ k₃ A₁ A₂ B₁ B₂, recomputeSteps s g gv dt vel n l₁ = .ok k₁ ∧ recomputeSteps s g gv dt vel n l₂ = .ok k₂ ∧
        recomputeSteps s g gv dt vel n l₃ = .ok k₃ ∧ Stored s r g k₁ A₁ B₁ X₁ ∧ Stored s r g k₂ A₂ B₂ X₂ ∧
        Stored s r g k₃ (fun c => al * A₁ c + be * A₂ c) (fun c => comb al be (B₁ c) (B₂ c)) (fun c => combX al be (X₁ c) (X₂ c)) := by
      induction n with
      | zero => exact ⟨l₁, l₂, l₃, F₁, F₂, G₁, G₂, rfl, rfl, rfl, S₁, S₂, S⟩
      | succ n ih =>
        obtain ⟨k₁, k₂, k₃, A₁, A₂, B₁, B₂, q₁, q₂, q₃, R₁, R₂, R₃⟩ := ih
        unfold recomputeSteps
        rw [q₁, q₂, q₃, _root_.Gals.M.ok_bind, _root_.Gals.M.ok_bind, _root_.Gals.M.ok_bind]
        exact recompute_comb hs al be h hpos hp M k1 k2 hcfl hp2 h₁ h₂ R₁ R₂ R₃
    obtain ⟨k₁, k₂, k₃, A₁, A₂, B₁, B₂, q₁, q₂, q₃, R₁, R₂, R₃⟩ := all
    exact ⟨k₁, k₂, k₃, q₁, q₂, q₃, fin R₁ R₂ R₃⟩

omit [IsStrictOrderedRing K] in
/-- C123 is false of the explicit Euler step: the third result is `al` times the first plus `be` times the second, and more by `al + be - 1` times the
time step times the first velocity component. -/
theorem C123_euler (s : IntSem) (d : ℕ) (al be : K) (r : Req K) (h : r.Valid d) (g : Grid K d) (e : r.make s d = .ok g) (gv : Grid K d) (dt : K)
    (vel : LsVelocity K) (u : Cell → Vec3 K) (hu : ∀ c, r.Interior c → vel.velocity.get s gv c.1 c.2.1 c.2.2 = .ok (u c)) (l₁ l₂ l₃ : Levelset K)
    (p₁ p₂ p₃ f₁ f₂ f₃ : Cell → K) (hp₁ : FieldIs s r g l₁.phi p₁) (hp₂ : FieldIs s r g l₂.phi p₂) (hp₃ : FieldIs s r g l₃.phi p₃)
    (hf₁ : ∀ c, r.Interior c → l₁.phiPrev.get s g c.1 c.2.1 c.2.2 = .ok (f₁ c))
    (hf₂ : ∀ c, r.Interior c → l₂.phiPrev.get s g c.1 c.2.1 c.2.2 = .ok (f₂ c))
    (hf₃ : ∀ c, r.Interior c → l₃.phiPrev.get s g c.1 c.2.1 c.2.2 = .ok (f₃ c)) (T : ∀ c, r.Interior c → f₃ c = al * f₁ c + be * f₂ c) :
    ∃ k₁ k₂ k₃, temporal .euler s g gv dt vel l₁ = .ok k₁ ∧ temporal .euler s g gv dt vel l₂ = .ok k₂ ∧ temporal .euler s g gv dt vel l₃ = .ok k₃ ∧
      ∀ c, r.Interior c → ∃ y₁ y₂, k₁.phi.get s g c.1 c.2.1 c.2.2 = .ok y₁ ∧ k₂.phi.get s g c.1 c.2.1 c.2.2 = .ok y₂ ∧
        k₃.phi.get s g c.1 c.2.1 c.2.2 = .ok (al * y₁ + be * y₂ + (al + be - 1) * (dt * (u c).x)) := by
  obtain ⟨_, q₁, w₁, -⟩ := C26_explicit_euler_partial s d r h g e gv dt vel u hu l₁ p₁ f₁ hp₁ hf₁
  obtain ⟨_, q₂, w₂, -⟩ := C26_explicit_euler_partial s d r h g e gv dt vel u hu l₂ p₂ f₂ hp₂ hf₂
  obtain ⟨_, q₃, w₃, -⟩ := C26_explicit_euler_partial s d r h g e gv dt vel u hu l₃ p₃ f₃ hp₃ hf₃
  refine ⟨_, _, _, q₁, q₂, q₃, fun c hc => ⟨_, _, w₁ c hc, w₂ c hc, ?_⟩⟩
  rw [w₃ c hc, T c hc]
  exact congrArg Except.ok (by ring)

end exact

/-! ## Instances -/

/-- Instance of `C123_euler`: the sum of two level sets in the flow `(1, 0, 0)`. -/
theorem C123_euler_inst : ∃ (g : Grid ℚ 2) (vel : LsVelocity ℚ) (l₁ l₂ l₃ k₁ k₂ k₃ : Levelset ℚ) (y₁ y₂ : ℚ), (demo 2).make .wrap 2 = .ok g ∧
    vel.velocity.get .wrap g 1 2 0 = .ok ⟨1, 0, 0⟩ ∧ FieldIs .wrap (demo 2) g l₁.phiPrev skewF ∧
    FieldIs .wrap (demo 2) g l₂.phiPrev (fun c => (c.1 : ℚ)) ∧ FieldIs .wrap (demo 2) g l₃.phiPrev (fun c => 1 * skewF c + 1 * (c.1 : ℚ)) ∧
    temporal .euler .wrap g g (1 / 10) vel l₁ = .ok k₁ ∧ temporal .euler .wrap g g (1 / 10) vel l₂ = .ok k₂ ∧
    temporal .euler .wrap g g (1 / 10) vel l₃ = .ok k₃ ∧ k₁.phi.get .wrap g 1 2 0 = .ok y₁ ∧ k₂.phi.get .wrap g 1 2 0 = .ok y₂ ∧
    k₃.phi.get .wrap g 1 2 0 = .ok (y₁ + y₂ + 1 / 10) := by
  obtain ⟨g, e, M⟩ := make_ok .wrap demo2_valid
  obtain ⟨va, h1⟩ := fieldIs_exists (s := .wrap) M fun _ => (⟨1, 0, 0⟩ : Vec3 ℚ)
  obtain ⟨vb, h2⟩ := fieldIs_exists (s := .wrap) M fun _ => (Mat3.mk9 0 0 0 0 0 0 0 0 0 : Mat3 ℚ)
  obtain ⟨a₁, h₁⟩ := fieldIs_exists (s := .wrap) M skewF
  obtain ⟨a₂, h₂⟩ := fieldIs_exists (s := .wrap) M fun c => (c.1 : ℚ)
  obtain ⟨a₃, h₃⟩ := fieldIs_exists (s := .wrap) M fun c => 1 * skewF c + 1 * (c.1 : ℚ)
  obtain ⟨b, hb⟩ := fieldIs_exists (s := .wrap) M skewG
  obtain ⟨x, hx⟩ := fieldIs_exists (s := .wrap) M fun c => [(c.1 : ℚ)]
  have i0 : (demo 2).Interior (1, 2, 0) := by unfold Req.Interior InteriorCell demo; simp
  obtain ⟨k₁, k₂, k₃, q₁, q₂, q₃, w⟩ := C123_euler .wrap 2 1 1 (demo 2) demo2_valid g e g (1 / 10) ⟨va, vb⟩ _
    (fun c hc => h1.val c (interior_padded M hc)) ⟨a₁, b, x, a₁, b, x, a₁, b⟩ ⟨a₂, b, x, a₂, b, x, a₂, b⟩ ⟨a₃, b, x, a₃, b, x, a₃, b⟩
    skewF (fun c => (c.1 : ℚ)) (fun c => 1 * skewF c + 1 * (c.1 : ℚ)) skewF (fun c => (c.1 : ℚ)) (fun c => 1 * skewF c + 1 * (c.1 : ℚ)) h₁ h₂ h₃
    (fun c hc => h₁.val c (interior_padded M hc)) (fun c hc => h₂.val c (interior_padded M hc)) (fun c hc => h₃.val c (interior_padded M hc))
    (fun _ _ => rfl)
  obtain ⟨y₁, y₂, w1, w2, w3⟩ := w (1, 2, 0) i0
  have v := h1.val (1, 2, 0) (interior_padded M i0)
  rw [show (1 : ℚ) * y₁ + 1 * y₂ + (1 + 1 - 1) * (1 / 10 * (⟨1, 0, 0⟩ : Vec3 ℚ).x) = y₁ + y₂ + 1 / 10 by norm_num] at w3
  exact ⟨g, ⟨va, vb⟩, ⟨a₁, b, x, a₁, b, x, a₁, b⟩, ⟨a₂, b, x, a₂, b, x, a₂, b⟩, ⟨a₃, b, x, a₃, b, x, a₃, b⟩, k₁, k₂, k₃, y₁, y₂, e, v, h₁, h₂, h₃,
    q₁, q₂, q₃, w1, w2, w3⟩

/-- Instance of `C123_steps`: the flow `(y, 0)` on the grid `demo 2`, with `2 F₁ - 3 F₂`. -/
theorem C123_steps_inst : ∃ (g : Grid ℚ 2) (vel : LsVelocity ℚ) (l₁ l₂ l₃ k₁ k₂ k₃ : Levelset ℚ) (f₁ f₂ : ℚ), (demo 2).make .wrap 2 = .ok g ∧
    vel.velocity.get .wrap g 1 2 0 = .ok ⟨2, 0, 0⟩ ∧ FieldIs .wrap (demo 2) g l₁.phi skewF ∧
    FieldIs .wrap (demo 2) g l₂.phi (fun c => (c.1 : ℚ) * c.2.1) ∧ recomputeSteps .wrap g g (1 / 10) vel 3 l₁ = .ok k₁ ∧
    recomputeSteps .wrap g g (1 / 10) vel 3 l₂ = .ok k₂ ∧ recomputeSteps .wrap g g (1 / 10) vel 3 l₃ = .ok k₃ ∧
    k₁.phi.get .wrap g 1 2 0 = .ok f₁ ∧ k₂.phi.get .wrap g 1 2 0 = .ok f₂ ∧ k₃.phi.get .wrap g 1 2 0 = .ok (2 * f₁ + -3 * f₂) := by
  obtain ⟨g, e, M⟩ := make_ok .wrap demo2_valid
  obtain ⟨va, h1⟩ := fieldIs_exists (s := .wrap) M fun c => (⟨c.2.1, 0, 0⟩ : Vec3 ℚ)
  obtain ⟨vb, h2⟩ := fieldIs_exists (s := .wrap) M fun _ => (Mat3.mk9 0 1 0 0 0 0 0 0 0 : Mat3 ℚ)
  have st : ∀ (F : Cell → ℚ) (G : Cell → Vec3 ℚ) (X : Cell → List ℚ), ∃ l : Levelset ℚ, Stored .wrap (demo 2) g l F G X := fun F G X => by
    obtain ⟨a, ha⟩ := fieldIs_exists (s := .wrap) M F
    obtain ⟨b, hb⟩ := fieldIs_exists (s := .wrap) M G
    obtain ⟨x, hx⟩ := fieldIs_exists (s := .wrap) M X
    exact ⟨⟨a, b, x, a, b, x, a, b⟩, ha, hb, ⟨_, ha⟩, ⟨_, hb⟩, ⟨_, ha⟩, ⟨_, hb⟩, hx⟩
  obtain ⟨l₁, S₁⟩ := st skewF skewG fun c => [(c.1 : ℚ)]
  obtain ⟨l₂, S₂⟩ := st (fun c => (c.1 : ℚ) * c.2.1) (fun c => ⟨c.2.1, c.1, 0⟩) fun _ => [1]
  obtain ⟨l₃, S₃⟩ := st (fun c => 2 * skewF c + -3 * ((c.1 : ℚ) * c.2.1)) (fun c => comb 2 (-3) (skewG c) ⟨c.2.1, c.1, 0⟩)
    fun c => combX 2 (-3) [(c.1 : ℚ)] [1]
  have p0 : (demo 2).Padded 2 (1, 2, 0) := by unfold Req.Padded PaddedCell padAlong demo; simp
  obtain ⟨-, N⟩ := C123_steps .wrap 2 (fun _ => rfl) 2 (-3) (demo 2) demo2_valid (demo_pos 2) (by decide) g e (demo 2) demo2_valid rfl
    g e (1 / 10) ⟨va, vb⟩ _ _ h1 h2 (fun c hc a ha => by
      have c1 := comp_interior hc 1
      match a with
      | 0 =>
        have : ((c.2.1 : ℤ) : ℚ) ≤ 2 := by exact_mod_cast (show c.2.1 ≤ 2 from by have : c.2.1 < 3 := c1.2; omega)
        have : (0 : ℚ) ≤ ((c.2.1 : ℤ) : ℚ) := by exact_mod_cast (show (0 : ℤ) ≤ c.2.1 from c1.1)
        change |((c.2.1 : ℤ) : ℚ) * (1 / 10)| < (2 - 0) / ((4 : ℤ) : ℚ)
        rw [abs_of_nonneg (by positivity)]
        norm_num
        linarith
      | 1 =>
        change |(0 : ℚ) * (1 / 10)| < (3 - 0) / ((3 : ℤ) : ℚ)
        norm_num
      | 2 => exact absurd ha (by decide)) _ _ _ _ _ _ _ _ _ _ _ _ (fun _ => rfl) (fun _ => rfl) S₁ S₂ S₃
    ⟨fun _ _ => rfl, fun _ _ _ => comb_get .., fun _ _ => rfl⟩ 3
  obtain ⟨k₁, k₂, k₃, q1, q2, q3, q4⟩ := N (by decide)
  obtain ⟨f₁, f₂, -, -, -, w1, w2, w3, -⟩ := q4 (1, 2, 0) p0
  exact ⟨g, ⟨va, vb⟩, l₁, l₂, l₃, k₁, k₂, k₃, f₁, f₂, e, h1.val (1, 2, 0) p0, S₁.phi, S₂.phi, q1, q2, q3, w1, w2, w3⟩

/-- Instance of `C123_gradient`: both schemes, the squares and the cubes. -/
theorem C123_gradient_inst (sch : GradScheme) : ∃ (g : Grid ℚ 1) (a₁ a₂ a₃ : Arr ℚ) (gr y₁ y₂ y₃ : Arr (Vec3 ℚ)) (v₁ v₂ v₃ : Vec3 ℚ),
    (line 2).make .wrap 1 = .ok g ∧ FieldIs .wrap (line 2) g a₁ (fun c => (c.1 : ℚ) ^ 2) ∧ FieldIs .wrap (line 2) g a₂ (fun c => (c.1 : ℚ) ^ 3) ∧
    FieldIs .wrap (line 2) g a₃ (fun c => 2 * (c.1 : ℚ) ^ 2 + -3 * (c.1 : ℚ) ^ 3) ∧
    gradScalar sch .wrap g g a₁ gr = .ok y₁ ∧ gradScalar sch .wrap g g a₂ gr = .ok y₂ ∧ gradScalar sch .wrap g g a₃ gr = .ok y₃ ∧
    y₁.get .wrap g 1 0 0 = .ok v₁ ∧ y₂.get .wrap g 1 0 0 = .ok v₂ ∧ y₃.get .wrap g 1 0 0 = .ok v₃ ∧ v₃.x = 2 * v₁.x + -3 * v₂.x := by
  obtain ⟨g, e, M⟩ := make_ok .wrap line2_valid
  obtain ⟨a₁, hf₁⟩ := fieldIs_exists (s := .wrap) M fun c => (c.1 : ℚ) ^ 2
  obtain ⟨a₂, hf₂⟩ := fieldIs_exists (s := .wrap) M fun c => (c.1 : ℚ) ^ 3
  obtain ⟨a₃, hf₃⟩ := fieldIs_exists (s := .wrap) M fun c => 2 * (c.1 : ℚ) ^ 2 + -3 * (c.1 : ℚ) ^ 3
  obtain ⟨gr, hq⟩ := fieldIs_exists (s := .wrap) M fun _ => (⟨0, 0, 0⟩ : Vec3 ℚ)
  have p0 : (line 2).Padded 1 (1, 0, 0) := by unfold Req.Padded PaddedCell padAlong line; simp
  obtain ⟨y₁, y₂, y₃, w₁, w₂, w₃, q⟩ := C123_gradient sch .wrap 1 2 (-3) (line 2) line2_valid (.inl (by decide)) g e a₁ a₂ a₃ _ _ _ hf₁ hf₂ hf₃
    (fun _ _ => rfl) gr gr gr _ _ _ hq hq hq (fun _ _ i => by
      match i with
      | 0 | 1 | 2 => norm_num [Vec3.get])
  obtain ⟨v₁, v₂, v₃, q1, q2, q3, q4⟩ := q (1, 0, 0) p0
  exact ⟨g, a₁, a₂, a₃, gr, y₁, y₂, y₃, v₁, v₂, v₃, e, hf₁, hf₂, hf₃, w₁, w₂, w₃, q1, q2, q3, q4 0⟩

/-! ## The limiter -/

/-- What the interpolation returns on the line at three quarters between two nodes with values 0 and `v` and slopes `a` and `b`. -/
def slopes (v a b : ℚ) (lim : Bool) : M ℚ := do
  let g ← (sqr.low 1).make .wrap 1
  let q : List (Vec3 ℚ) := [⟨0, 0, 0⟩, ⟨a, 0, 0⟩, ⟨b, 0, 0⟩, ⟨0, 0, 0⟩]
  let ls : Levelset ℚ :=
    { Levelset.mk' g with phiPrev := { Arr.mk' g 0 with data := [0, 0, v, 0] }, psiPrev := { Arr.mk' g (Vec3.zero : Vec3 ℚ) with data := q } }
  let y ← interpolate .wrap g ls ⟨5 / 4, 1, 0⟩ lim
  return y.phi

/-- C123 is false of the interpolation with the limiter: values 0 and 1 with slopes 2 and 0 are interpolated to 3/4, values 0 and 0 with slopes -2
and 0 to 0, and their sum, values 0 and 1 with slopes 0 and 0, to 27/32.  Without the limiter they are 15/16, -3/32 and 27/32. -/
theorem C123_limiter_false :
    slopes 1 2 0 true = .ok (3 / 4) ∧ slopes 0 (-2) 0 true = .ok 0 ∧ slopes (1 + 0) (2 + -2) (0 + 0) true = .ok (27 / 32) ∧
    slopes 1 2 0 false = .ok (15 / 16) ∧ slopes 0 (-2) 0 false = .ok (-3 / 32) ∧ slopes (1 + 0) (2 + -2) (0 + 0) false = .ok (27 / 32) :=
  ⟨by decide +kernel, by decide +kernel, by decide +kernel, by decide +kernel, by decide +kernel, by decide +kernel⟩

end Gals.Props
