import Verif.Lemmas.Interp
import Verif.Lemmas.Hermite

/-!
# Facts about `interpolate` in any dimension
-/

set_option linter.unusedSectionVars false

namespace Gals

open Spec

section
variable {K : Type} {d : ℕ} [Field K] [LinearOrder K]

theorem T1_basis_zero (h v0 e0 v1 e1 : K) : T1 (basis 0) h v0 e0 v1 e1 = v0 := by
  simp only [basis, T1_four, B0, B1, B2, B3, cube, sqr]; ring

theorem T1_basis_one (h v0 e0 v1 e1 : K) : T1 (basis 1) h v0 e0 v1 e1 = v1 := by
  simp only [basis, T1_four, B0, B1, B2, B3, cube, sqr]; ring

theorem T1_basis'_zero [CharZero K] (h v0 e0 v1 e1 : K) : T1 (basis' 0) h v0 e0 v1 e1 = e0 * h := by
  simp only [basis', T1_four, B0', B1', B2', B3', sqr]; field_simp; ring

theorem T1_basis'_one [CharZero K] (h v0 e0 v1 e1 : K) : T1 (basis' 1) h v0 e0 v1 e1 = e1 * h := by
  simp only [basis', T1_four, B0', B1', B2', B3', sqr]; field_simp; ring

omit [LinearOrder K] in
theorem T1_lin (b : List K) (h : K) (al be : K) (v0 e0 v1 e1 w0 f0 w1 f1 : K) :
    T1 b h (al * v0 + be * w0) (al * e0 + be * f0) (al * v1 + be * w1) (al * e1 + be * f1)
      = al * T1 b h v0 e0 v1 e1 + be * T1 b h w0 f0 w1 f1 := by
  unfold T1
  split
  · ring
  · simp

end

section
variable {K : Type} {d : ℕ} [Field K] [LinearOrder K] [IsStrictOrderedRing K] [FloorRing K]

omit [Field K] [LinearOrder K] [IsStrictOrderedRing K] [FloorRing K] in
theorem mix1_eq [Zero K] {mix : Cell → List K} (hm : ∀ c, (mix c).length = numMixed 2) :
    mix = fun c => [(mix c).getD 0 0] := by
  funext c
  have := hm c
  match hl : mix c with
  | [a] => rfl
  | [] => rw [hl] at this; cases this
  | _ :: _ :: _ => rw [hl] at this; simp [numMixed] at this

omit [Field K] [LinearOrder K] [IsStrictOrderedRing K] [FloorRing K] in
theorem mix4_eq [Zero K] {mix : Cell → List K} (hm : ∀ c, (mix c).length = numMixed 3) :
    mix = fun c => [(mix c).getD 0 0, (mix c).getD 1 0, (mix c).getD 2 0, (mix c).getD 3 0] := by
  funext c
  have := hm c
  match hl : mix c with
  | [_, _, _, _] => rfl
  | [] => rw [hl] at this; cases this
  | [_] => rw [hl] at this; cases this
  | [_, _] => rw [hl] at this; cases this
  | [_, _, _] => rw [hl] at this; cases this
  | _ :: _ :: _ :: _ :: _ :: _ => rw [hl] at this; simp [numMixed] at this

/-- `interpolate` returns at every point in storage. -/
theorem interp_ok {s : IntSem} (hs : d < 3 → s = .wrap) {r : Req K} {g : Grid K d} (G : g.Made s r) (h : r.Valid d)
    (hpos : r.Pos d) {ls : Levelset K} {phi : Cell → K} {psi : Cell → Vec3 K} {mix : Cell → List K}
    (hm : ∀ c, (mix c).length = numMixed d) (P : PrevIs s r g ls phi psi mix)
    {x : Vec3 K} (hx : InStorage r d x) (lim : Bool) : ∃ o, interpolate s g ls x lim = .ok o := by
  rcases h.dim with rfl | rfl | rfl
  · obtain rfl := hs (by decide)
    obtain ⟨b, -, e⟩ := interp1_eval G h hpos P hx lim
    exact ⟨_, e⟩
  · obtain rfl := hs (by decide)
    rw [mix1_eq hm] at P
    obtain ⟨b, -, e⟩ := interp2_eval G h hpos P hx lim
    exact ⟨_, e⟩
  · rw [mix4_eq hm] at P
    obtain ⟨b, -, e⟩ := interp3_eval G h hpos P hx lim
    exact ⟨_, e⟩

/-- With padding 1 the base cell of the position of node `c` is `c`. -/
theorem base_of_node {r : Req K} (h : r.Valid d) (hpos : r.Pos d) (hp : r.pad = 1) {c b : Cell} {x : Vec3 K}
    (hx : ∀ a : Fin 3, a.val < d → x.get a = (nodePos r d c).get a) (hc : ∀ a : Fin 3, ¬ a.val < d → comp c a = 0)
    (H : BaseCell r d x b) : b = c := by
  have key : ∀ a, comp b a = comp c a := by
    intro a
    by_cases ha : a.val < d
    · have hlo := H.lo a ha
      have hhi := H.hi a ha
      rw [hx a ha, nodePos_get, if_pos ha, hp, sub_self, add_zero] at hlo hhi
      have h1 := (centre_lt_iff h hpos a ha).1 hhi
      have h2 := not_lt.2 hlo
      rw [centre_lt_iff h hpos a ha] at h2
      omega
    · rw [hc a ha, H.unused a ha]
  exact Prod.ext (key 0) (Prod.ext (key 1) (key 2))

/-- With padding 1, interpolation at the position of a node returns the data of that node. -/
theorem interp_node {s : IntSem} (hs : d < 3 → s = .wrap) {r : Req K} {g : Grid K d} (G : g.Made s r) (h : r.Valid d)
    (hpos : r.Pos d) (hp : r.pad = 1) {ls : Levelset K} {phi : Cell → K} {psi : Cell → Vec3 K} {mix : Cell → List K}
    (hm : ∀ c, (mix c).length = numMixed d) (P : PrevIs s r g ls phi psi mix)
    {x : Vec3 K} (hst : InStorage r d x) {c : Cell} (hc : ∀ a : Fin 3, ¬ a.val < d → comp c a = 0)
    (hx : ∀ a : Fin 3, a.val < d → x.get a = (nodePos r d c).get a) :
    interpolate s g ls x false = .ok ⟨phi c, onAxes d (psi c)⟩ := by
  rcases h.dim with rfl | rfl | rfl
  · obtain rfl := hs (by decide)
    obtain ⟨b, H, e⟩ := interp1_eval G h hpos P hst false
    obtain rfl := base_of_node h hpos hp hx hc H
    have h0 : r.h 0 ≠ 0 := (h.h_pos hpos 0 (by decide)).ne'
    have x0 : x.x = (nodePos r 1 b).x := hx 0 (by decide)
    rw [e, kernel1_eq, x0, sub_self, zero_mul]
    simp only [T1_basis_zero, T1_basis'_zero]
    congr 3
    field_simp
  · obtain rfl := hs (by decide)
    rw [mix1_eq hm] at P
    obtain ⟨b, H, e⟩ := interp2_eval G h hpos P hst false
    obtain rfl := base_of_node h hpos hp hx hc H
    have x0 : x.x = (nodePos r 2 b).x := hx 0 (by decide)
    have y0 : x.y = (nodePos r 2 b).y := hx 1 (by decide)
    have h0 : r.h 0 ≠ 0 := (h.h_pos hpos 0 (by decide)).ne'
    have h1 : r.h 1 ≠ 0 := (h.h_pos hpos 1 (by decide)).ne'
    have hdx : g.dx.x = r.h 0 := G.dx 0
    have hdy : g.dx.y = r.h 1 := G.dx 1
    have hix : g.oneOverDx.x = 1 / r.h 0 := G.oneOverDx 0 (by decide)
    have hiy : g.oneOverDx.y = 1 / r.h 1 := G.oneOverDx 1 (by decide)
    rw [e, kernel2_eq]
    simp only [Vec3.sub, Vec3.mul, x0, y0, sub_self, zero_mul, T1_basis_zero, T1_basis'_zero, node2, hdx, hdy, hix,
      hiy]
    congr 3 <;> field_simp
    simp
  · rw [mix4_eq hm] at P
    obtain ⟨b, H, e⟩ := interp3_eval G h hpos P hst false
    obtain rfl := base_of_node h hpos hp hx hc H
    have x0 : x.x = (nodePos r 3 b).x := hx 0 (by decide)
    have y0 : x.y = (nodePos r 3 b).y := hx 1 (by decide)
    have z0 : x.z = (nodePos r 3 b).z := hx 2 (by decide)
    have h0 : r.h 0 ≠ 0 := (h.h_pos hpos 0 (by decide)).ne'
    have h1 : r.h 1 ≠ 0 := (h.h_pos hpos 1 (by decide)).ne'
    have h2 : r.h 2 ≠ 0 := (h.h_pos hpos 2 (by decide)).ne'
    have hdx : g.dx.x = r.h 0 := G.dx 0
    have hdy : g.dx.y = r.h 1 := G.dx 1
    have hdz : g.dx.z = r.h 2 := G.dx 2
    have hix : g.oneOverDx.x = 1 / r.h 0 := G.oneOverDx 0 (by decide)
    have hiy : g.oneOverDx.y = 1 / r.h 1 := G.oneOverDx 1 (by decide)
    have hiz : g.oneOverDx.z = 1 / r.h 2 := G.oneOverDx 2 (by decide)
    rw [e, kernel3_eq]
    simp only [Vec3.sub, Vec3.mul, x0, y0, z0, sub_self, zero_mul, T1_basis_zero, T1_basis'_zero, node3, hdx, hdy, hdz,
      hix, hiy, hiz]
    congr 3 <;> field_simp <;> simp

theorem interp_lin {s : IntSem} (hs : d < 3 → s = .wrap) {r : Req K} {g : Grid K d} (G : g.Made s r) (h : r.Valid d)
    (hpos : r.Pos d) {l1 l2 l3 : Levelset K} {p1 p2 : Cell → K} {q1 q2 : Cell → Vec3 K} {m1 m2 : Cell → List K}
    (hm1 : ∀ c, (m1 c).length = numMixed d) (hm2 : ∀ c, (m2 c).length = numMixed d) (al be : K)
    (P1 : PrevIs s r g l1 p1 q1 m1) (P2 : PrevIs s r g l2 p2 q2 m2)
    (P3 : PrevIs s r g l3 (fun c => al * p1 c + be * p2 c) (fun c => comb al be (q1 c) (q2 c))
      (fun c => List.zipWith (fun u v => al * u + be * v) (m1 c) (m2 c)))
    {x : Vec3 K} (hx : InStorage r d x) :
    ∃ o1 o2, interpolate s g l1 x false = .ok o1 ∧ interpolate s g l2 x false = .ok o2 ∧
      interpolate s g l3 x false = .ok ⟨al * o1.phi + be * o2.phi, comb al be o1.psi o2.psi⟩ := by
  rcases h.dim with rfl | rfl | rfl
  · obtain rfl := hs (by decide)
    obtain ⟨b, H, e1⟩ := interp1_eval G h hpos P1 hx false
    obtain ⟨b2, H2, e2⟩ := interp1_eval G h hpos P2 hx false
    obtain ⟨b3, H3, e3⟩ := interp1_eval G h hpos P3 hx false
    obtain rfl := H.unique h hpos H2
    obtain rfl := H.unique h hpos H3
    refine ⟨_, _, e1, e2, ?_⟩
    rw [e3]
    simp only [kernel1_eq, comb, T1_lin]
    congr 3 <;> ring
  · obtain rfl := hs (by decide)
    rw [mix1_eq hm1, mix1_eq hm2] at P3
    rw [mix1_eq hm1] at P1
    rw [mix1_eq hm2] at P2
    obtain ⟨b, H, e1⟩ := interp2_eval G h hpos P1 hx false
    obtain ⟨b2, H2, e2⟩ := interp2_eval G h hpos P2 hx false
    obtain ⟨b3, H3, e3⟩ := interp2_eval G h hpos P3 hx false
    obtain rfl := H.unique h hpos H2
    obtain rfl := H.unique h hpos H3
    refine ⟨_, _, e1, e2, ?_⟩
    rw [e3]
    simp only [kernel2_eq, comb, T1_lin, node2]
    congr 3 <;> ring
  · rw [mix4_eq hm1, mix4_eq hm2] at P3
    rw [mix4_eq hm1] at P1
    rw [mix4_eq hm2] at P2
    obtain ⟨b, H, e1⟩ := interp3_eval G h hpos P1 hx false
    obtain ⟨b2, H2, e2⟩ := interp3_eval G h hpos P2 hx false
    obtain ⟨b3, H3, e3⟩ := interp3_eval G h hpos P3 hx false
    obtain rfl := H.unique h hpos H2
    obtain rfl := H.unique h hpos H3
    refine ⟨_, _, e1, e2, ?_⟩
    rw [e3]
    simp only [kernel3_eq, comb, T1_lin, node3]
    congr 3 <;> ring

end

end Gals
