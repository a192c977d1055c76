import Verif.Spec.Superpose
import Verif.Lemmas.Level
import Verif.Lemmas.Generic

/-!
# Lemmas on combinations of level sets
-/

set_option linter.unusedSectionVars false

namespace Gals

open Spec Props

variable {K : Type} [Field K] [LinearOrder K] [IsStrictOrderedRing K] [FloorRing K] {d : ℕ}

theorem comb_get (al be : K) (u v : Vec3 K) (i : Fin 3) : (comb al be u v).get i = al * u.get i + be * v.get i := by
  match i with
  | 0 | 1 | 2 => rfl

theorem dot_comb (al be : K) (m : Mat3 K) (u v : Vec3 K) : m.dot (comb al be u v) = comb al be (m.dot u) (m.dot v) := by
  refine vec_ext fun i => ?_
  rw [comb_get, dot_get, dot_get, dot_get, Finset.mul_sum, Finset.mul_sum, ← Finset.sum_add_distrib]
  refine Finset.sum_congr rfl fun j _ => ?_
  rw [comb_get]
  ring

/-- Combination of lists of mixed derivatives. -/
abbrev combX (al be : K) (u v : List K) : List K := List.zipWith (fun u v => al * u + be * v) u v

/-- Differences. -/
theorem comb_diff {s : IntSem} {sch : GradScheme} {al be : K} {r : Req K} {g : Grid K d} (M : g.Made s r) (hp : reach sch ≤ r.pad) {c : Cell}
    (ic : r.Interior c) {F₁ F₂ F₃ : Cell → K} (T : ∀ c, r.Padded d c → F₃ c = al * F₁ c + be * F₂ c) {v₁ v₂ v₃ w₁ w₂ w₃ : Vec3 K} {i : Fin 3}
    (hw : w₃.get i = al * w₁.get i + be * w₂.get i)
    (e₁ : v₁.get i = if i.val < d then rawDiff sch F₁ c i (r.h i) else w₁.get i)
    (e₂ : v₂.get i = if i.val < d then rawDiff sch F₂ c i (r.h i) else w₂.get i)
    (e₃ : v₃.get i = if i.val < d then rawDiff sch F₃ c i (r.h i) else w₃.get i) : v₃.get i = al * v₁.get i + be * v₂.get i := by
  rw [e₁, e₂, e₃, hw]
  split_ifs with ha
  · have sh : ∀ n : ℤ, -reach sch ≤ n → n ≤ reach sch → F₃ (shift c i n) = al * F₁ (shift c i n) + be * F₂ (shift c i n) := fun n n1 n2 =>
      T _ (shift_padded M ic ha (m := n) (by omega) (by omega))
    cases sch with
    | central =>
      simp only [rawDiff, centralRaw, sh 1 (by decide) (by decide), sh (-1) (by decide) (by decide)]
      ring
    | third =>
      simp only [rawDiff, thirdRaw, T c (interior_padded M ic), sh 1 (by decide) (by decide), sh (-1) (by decide) (by decide),
        sh (-2) (by decide) (by decide)]
      ring
  · rfl

section steps

variable {s : IntSem} (hs : d < 3 → s = .wrap) (al be : K) {r : Req K} (h : r.Valid d) (hpos : r.Pos d) (hp : 1 ≤ r.pad)
  {g gv : Grid K d} (M : g.Made s r) {dt : K} {vel : LsVelocity K} {u : Cell → Vec3 K} {m : Cell → Mat3 K}
  (hu : ∀ c, r.Interior c → vel.velocity.get s gv c.1 c.2.1 c.2.2 = .ok (u c))
  (hm : ∀ c, r.Interior c → vel.grad.get s gv c.1 c.2.1 c.2.2 = .ok (m c))
  (hcfl : ∀ c, r.Interior c → ∀ a : Fin 3, a.val < d → |(u c).get a * dt| < r.h a)
include hs h hpos hp M hu hm hcfl

/-- A step with the gradient carried along. -/
theorem carry_comb {l₁ l₂ l₃ : Levelset K} {F₁ F₂ : Cell → K} {G₁ G₂ : Cell → Vec3 K} {X₁ X₂ : Cell → List K}
    (h₁ : ∀ c, (X₁ c).length = numMixed d) (h₂ : ∀ c, (X₂ c).length = numMixed d) (S₁ : Stored s r g l₁ F₁ G₁ X₁) (S₂ : Stored s r g l₂ F₂ G₂ X₂)
    (S₃ : Stored s r g l₃ (fun c => al * F₁ c + be * F₂ c) (fun c => comb al be (G₁ c) (G₂ c)) (fun c => combX al be (X₁ c) (X₂ c))) :
    ∃ k₁ k₂ k₃ A₁ A₂ B₁ B₂, carryStep s g gv dt vel l₁ = .ok k₁ ∧ carryStep s g gv dt vel l₂ = .ok k₂ ∧ carryStep s g gv dt vel l₃ = .ok k₃ ∧
      Stored s r g k₁ A₁ B₁ X₁ ∧ Stored s r g k₂ A₂ B₂ X₂ ∧
      Stored s r g k₃ (fun c => al * A₁ c + be * A₂ c) (fun c => comb al be (B₁ c) (B₂ c)) (fun c => combX al be (X₁ c) (X₂ c)) := by
  have h₃ : ∀ c, (combX al be (X₁ c) (X₂ c)).length = numMixed d := fun c => by rw [List.length_zipWith, h₁, h₂, min_self]
  have stored : ∀ c, r.Interior c → InStorage r d ((nodePos r d c).sub ((u c).smul dt)) := fun c hc a ha =>
    have := near_node h hpos hp hc (near_step (hcfl c hc)) a ha
    ⟨this.1.le, this.2⟩
  obtain ⟨_, k₁, y₁, P₁, i₁, e₁, R₁⟩ := carry_result (dt := dt) M hu hm (fun c hc => M.atC (interior_padded M hc)) S₁
    fun _ P c hc => interp_ok hs M h hpos h₁ P (stored c hc) false
  obtain ⟨_, k₂, y₂, P₂, i₂, e₂, R₂⟩ := carry_result (dt := dt) M hu hm (fun c hc => M.atC (interior_padded M hc)) S₂
    fun _ P c hc => interp_ok hs M h hpos h₂ P (stored c hc) false
  obtain ⟨_, k₃, y₃, P₃, i₃, e₃, R₃⟩ := carry_result (dt := dt) M hu hm (fun c hc => M.atC (interior_padded M hc)) S₃
    fun _ P c hc => interp_ok hs M h hpos h₃ P (stored c hc) false
  refine ⟨k₁, k₂, k₃, _, _, _, _, e₁, e₂, e₃, R₁, R₂, ?_⟩
  have res : ∀ c, r.Interior c → y₃ c = ⟨al * (y₁ c).phi + be * (y₂ c).phi, comb al be (y₁ c).psi (y₂ c).psi⟩ := fun c hc => by
    obtain ⟨o₁, o₂, q₁, q₂, q₃⟩ := interp_lin hs M h hpos h₁ h₂ al be P₁ P₂ P₃ (stored c hc)
    rw [i₁ c hc] at q₁
    rw [i₂ c hc] at q₂
    rw [i₃ c hc] at q₃
    obtain rfl := Except.ok.inj q₁
    obtain rfl := Except.ok.inj q₂
    exact Except.ok.inj q₃
  refine ⟨R₃.phi.congr fun c _ => ?_, R₃.psi.congr fun c _ => ?_, R₃.phiPrev, R₃.psiPrev, R₃.phiInterpPrev, R₃.psiInterpPrev, R₃.mixed⟩
  · split_ifs with i
    · rw [res c i]
    · rfl
  · split_ifs with i
    · rw [res c i]
      exact dot_comb ..
    · rfl

/-- As `carry_comb`, with the gradient recomputed. -/
theorem recompute_comb (hp2 : 2 ≤ r.pad) {l₁ l₂ l₃ : Levelset K} {F₁ F₂ : Cell → K} {G₁ G₂ : Cell → Vec3 K} {X₁ X₂ : Cell → List K}
    (h₁ : ∀ c, (X₁ c).length = numMixed d) (h₂ : ∀ c, (X₂ c).length = numMixed d) (S₁ : Stored s r g l₁ F₁ G₁ X₁) (S₂ : Stored s r g l₂ F₂ G₂ X₂)
    (S₃ : Stored s r g l₃ (fun c => al * F₁ c + be * F₂ c) (fun c => comb al be (G₁ c) (G₂ c)) (fun c => combX al be (X₁ c) (X₂ c))) :
    ∃ k₁ k₂ k₃ A₁ A₂ B₁ B₂, recomputeStep s g gv dt vel l₁ = .ok k₁ ∧ recomputeStep s g gv dt vel l₂ = .ok k₂ ∧
      recomputeStep s g gv dt vel l₃ = .ok k₃ ∧ Stored s r g k₁ A₁ B₁ X₁ ∧ Stored s r g k₂ A₂ B₂ X₂ ∧
      Stored s r g k₃ (fun c => al * A₁ c + be * A₂ c) (fun c => comb al be (B₁ c) (B₂ c)) (fun c => combX al be (X₁ c) (X₂ c)) := by
  obtain ⟨y₁, q₁, e₁, f₁, o₁, i₁⟩ := gradScalar_ok (sch := .third) M M rfl hp2 S₁.phi S₁.psi
  obtain ⟨y₂, q₂, e₂, f₂, o₂, i₂⟩ := gradScalar_ok (sch := .third) M M rfl hp2 S₂.phi S₂.psi
  obtain ⟨y₃, q₃, e₃, f₃, o₃, i₃⟩ := gradScalar_ok (sch := .third) M M rfl hp2 S₃.phi S₃.psi
  have T : ∀ c, r.Padded d c → q₃ c = comb al be (q₁ c) (q₂ c) := fun c _ => by
    by_cases ic : r.Interior c
    · refine vec_ext fun j => ?_
      rw [comb_get]
      exact comb_diff (sch := .third) M hp2 ic (fun _ _ => rfl) (comb_get ..) (i₁ c ic j) (i₂ c ic j) (i₃ c ic j)
    · rw [o₁ c ic, o₂ c ic, o₃ c ic]
  obtain ⟨k₁, k₂, k₃, A₁, A₂, B₁, B₂, w₁, w₂, w₃, R⟩ := carry_comb hs al be h hpos hp M hu hm hcfl h₁ h₂
    (show Stored s r g { l₁ with psi := y₁ } F₁ q₁ X₁ from ⟨S₁.phi, f₁, S₁.phiPrev, S₁.psiPrev, S₁.phiInterpPrev, S₁.psiInterpPrev, S₁.mixed⟩)
    (show Stored s r g { l₂ with psi := y₂ } F₂ q₂ X₂ from ⟨S₂.phi, f₂, S₂.phiPrev, S₂.psiPrev, S₂.phiInterpPrev, S₂.psiInterpPrev, S₂.mixed⟩)
    (show Stored s r g { l₃ with psi := y₃ } _ _ _ from
      ⟨S₃.phi, f₃.congr T, S₃.phiPrev, S₃.psiPrev, S₃.phiInterpPrev, S₃.psiInterpPrev, S₃.mixed⟩)
  refine ⟨k₁, k₂, k₃, A₁, A₂, B₁, B₂, ?_, ?_, ?_, R⟩
  · unfold recomputeStep; rw [e₁, _root_.Gals.M.ok_bind]; exact w₁
  · unfold recomputeStep; rw [e₂, _root_.Gals.M.ok_bind]; exact w₂
  · unfold recomputeStep; rw [e₃, _root_.Gals.M.ok_bind]; exact w₃

end steps

end Gals
