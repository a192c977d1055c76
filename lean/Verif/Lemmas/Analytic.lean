import Verif.Lemmas.Temporal
import Verif.Model.Analytic

/-!
# The loops of the analytic fields
-/

set_option linter.unusedSectionVars false

namespace Gals

open Spec

variable {K : Type} {d : ℕ} {T : Type}
variable [Zero K] [One K] [Add K] [Sub K] [Mul K] [Div K] [Neg K] [NatCast K] [IntCast K]
  [LT K] [DecidableLT K] [LE K] [DecidableLE K]

theorem analyticLevelset_ok [HasSqrt K] {s : IntSem} {r : Req K} {g gp : Grid K d} (G : g.Made s r)
    {inp : LevelsetInputs K} (hn : inp.name = "CIRCLE") {positions : Arr (Vec3 K)} {pos : Cell → Vec3 K}
    (he : positions.numCells = r.n)
    (hpos : ∀ c, r.Interior c → positions.get s gp c.1 c.2.1 c.2.2 = .ok (pos c)) {ls : Levelset K} {p0 : Cell → K}
    (hp : FieldIs s r g ls.phi p0) :
    ∃ phi', analyticLevelset s gp g inp positions ls = .ok { ls with phi := phi' } ∧
      FieldIs s r g phi' (fun c => if r.Interior c then ((pos c).sub inp.center).mag - inp.radius else p0 c) := by
  have hl := mem_interior he
  obtain ⟨a', h1, h2⟩ := hp.loop_set G hl (fun c hc => interior_padded G hc)
    (fun c => ((pos c).sub inp.center).mag - inp.radius) (body := fun phi c => do
      let p ← positions.get s gp c.1 c.2.1 c.2.2
      phi.set s g c.1 c.2.1 c.2.2 ((p.sub inp.center).mag - inp.radius)) (by
      intro acc c hc
      rw [hpos c ((hl c).1 hc), M.ok_bind])
  refine ⟨a', ?_, h2⟩
  unfold analyticLevelset levelsetName
  rw [if_pos hn]
  simp only
  rw [h1, M.ok_bind, M.pure_eq]

/-- The velocity at one node, 2D and 3D. -/
theorem circularNode_eq [HasPi K] (hd : d = 2 ∨ d = 3) (c0 c1 : K) (rest : List K) (p node : Vec3 K) :
    circularNode d (c0 :: c1 :: rest) p node =
      .ok ⟨circularCoeff * (c0 - p.y), circularCoeff * (p.x - c1), node.z⟩ := by
  rcases hd with rfl | rfl <;> rfl

/-- The velocity at one node, 1D. -/
theorem circularNode_one [HasPi K] (c0 : K) (rest : List K) (p node : Vec3 K) :
    circularNode 1 (c0 :: rest) p node = .ok ⟨circularCoeff * (c0 - p.y), node.y, node.z⟩ := rfl

/-- The velocity loop, given the value at one node. -/
theorem velocityLoop_ok [HasPi K] {s : IntSem} {r : Req K} {g gp : Grid K d} (G : g.Made s r) {center : List K}
    {f : Vec3 K → Vec3 K} (hf : ∀ p q, circularNode d center p (f q) = .ok (f p))
    (hf0 : ∀ p, circularNode d center p Vec3.zero = .ok (f p))
    {positions : Arr (Vec3 K)} {pos : Cell → Vec3 K} (he : positions.numCells = r.n)
    (hpos : ∀ c, r.Interior c → positions.get s gp c.1 c.2.1 c.2.2 = .ok (pos c)) {v : Arr (Vec3 K)} {v0 : Cell → Vec3 K}
    (hv : FieldIs s r g v v0) :
    ∃ v' q, loop positions.interior (v, (Vec3.zero : Vec3 K)) (fun r c => do
        let p ← positions.get s gp c.1 c.2.1 c.2.2
        let node ← circularNode d center p r.2
        let v ← r.1.set s g c.1 c.2.1 c.2.2 node
        return (v, node)) = .ok (v', q) ∧
      FieldIs s r g v' (fun c => if r.Interior c then f (pos c) else v0 c) := by
  have hl := mem_interior he
  obtain ⟨t, h1, h2, -⟩ := loop_inv (l := positions.interior) (s := (v, (Vec3.zero : Vec3 K))) (body := fun r c => do
        let p ← positions.get s gp c.1 c.2.1 c.2.2
        let node ← circularNode d center p r.2
        let v ← r.1.set s g c.1 c.2.1 c.2.2 node
        return (v, node))
    (fun pre t => FieldIs s r g t.1 (fun c => if c ∈ pre then f (pos c) else v0 c) ∧ (t.2 = Vec3.zero ∨ ∃ q, t.2 = f q))
    ⟨by simpa using hv, .inl rfl⟩ (by
      rintro pre c post t hpl ⟨r1, r2⟩
      have hc : r.Interior c := (hl c).1 (by rw [hpl]; simp)
      obtain ⟨a', q1, q2⟩ := r1.set G (interior_padded G hc) (f (pos c))
      have hn : circularNode d center (pos c) t.2 = .ok (f (pos c)) := by
        rcases r2 with e | ⟨q, e⟩
        · rw [e]; exact hf0 _
        · rw [e]; exact hf _ _
      refine ⟨(a', f (pos c)), ?_, q2.congr ?_, .inr ⟨_, rfl⟩⟩
      · rw [hpos c hc, M.ok_bind, hn, M.ok_bind, q1, M.ok_bind]
        rfl
      · intro c' _
        by_cases hcc : c' = c
        · subst hcc; simp
        · simp [hcc])
  refine ⟨t.1, t.2, h1, h2.congr ?_⟩
  intro c _
  simp only [hl]

/-- Effect of the gradient writes on the first element. -/
def gradFirst [HasPi K] (m : Mat3 K) : Mat3 K := (m.setFlat 0 0).setFlat 1 (-circularCoeff)

/-- Effect of the gradient writes on the second element. -/
def gradSecond [HasPi K] (m : Mat3 K) : Mat3 K := (m.setFlat 0 circularCoeff).setFlat 1 0

theorem gradFirst_idem [HasPi K] (m : Mat3 K) : gradFirst (gradFirst m) = gradFirst m := by
  unfold gradFirst Mat3.setFlat
  congr 1
  funext p
  by_cases h1 : p = 1
  · simp [h1]
  · by_cases h0 : p = 0 <;> simp [h0, h1]

theorem gradSecond_idem [HasPi K] (m : Mat3 K) : gradSecond (gradSecond m) = gradSecond m := by
  unfold gradSecond Mat3.setFlat
  congr 1
  funext p
  by_cases h1 : p = 1
  · simp [h1]
  · by_cases h0 : p = 0 <;> simp [h0, h1]

theorem gradNode_eq [HasPi K] (hd : d = 2 ∨ d = 3) (nx ny nz pad : ℤ) (m0 m1 : Mat3 K) (tl : List (Mat3 K)) :
    gradNode d ⟨nx, ny, nz, pad, m0 :: m1 :: tl⟩ = .ok ⟨nx, ny, nz, pad, gradFirst m0 :: gradSecond m1 :: tl⟩ := by
  have r0 : ∀ (a b : Mat3 K), rd (a :: b :: tl) 0 = .ok a := fun _ _ => rfl
  have r1 : ∀ (a b : Mat3 K), rd (a :: b :: tl) 1 = .ok b := fun _ _ => rfl
  have w0 : ∀ (a b m : Mat3 K), wr (a :: b :: tl) 0 m = .ok (m :: b :: tl) := fun a b m => by
    rw [wr_ok m (by omega) (by simp only [List.length_cons]; omega)]; rfl
  have w1 : ∀ (a b m : Mat3 K), wr (a :: b :: tl) 1 m = .ok (a :: m :: tl) := fun a b m => by
    rw [wr_ok m (by omega) (by simp only [List.length_cons]; omega)]; rfl
  have e0 : ∀ (a b : Mat3 K) n t, gradFlatSet ⟨nx, ny, nz, pad, a :: b :: tl⟩ 0 n t =
      .ok ⟨nx, ny, nz, pad, a.setFlat n t :: b :: tl⟩ := fun a b n t => by
    unfold gradFlatSet Arr.flat Arr.setFlat
    rw [r0, M.ok_bind]
    simp only
    rw [w0]
    rfl
  have e1 : ∀ (a b : Mat3 K) n t, gradFlatSet ⟨nx, ny, nz, pad, a :: b :: tl⟩ 1 n t =
      .ok ⟨nx, ny, nz, pad, a :: b.setFlat n t :: tl⟩ := fun a b n t => by
    unfold gradFlatSet Arr.flat Arr.setFlat
    rw [r1, M.ok_bind]
    simp only
    rw [w1]
    rfl
  rcases hd with rfl | rfl
  · have ha : axes 2 = [0, 1] := rfl
    simp only [gradNode, ha, loop_cons, loop_nil, e0, e1, M.ok_bind, gradFirst, gradSecond]
  · have ha : axes 3 = [0, 1, 2] := rfl
    simp only [gradNode, ha, loop_cons, loop_nil, e0, e1, M.ok_bind, gradFirst, gradSecond]

/-- The gradient loops over at least one cell. -/
theorem gradLoop_eq [HasPi K] {α : Type} (hd : d = 2 ∨ d = 3) (l : List α) (hl : l ≠ []) (nx ny nz pad : ℤ) (m0 m1 : Mat3 K)
    (tl : List (Mat3 K)) :
    loop l ⟨nx, ny, nz, pad, m0 :: m1 :: tl⟩ (fun grad _ => gradNode d grad) =
      .ok ⟨nx, ny, nz, pad, gradFirst m0 :: gradSecond m1 :: tl⟩ := by
  induction l generalizing m0 m1 with
  | nil => exact absurd rfl hl
  | cons a l ih =>
    rw [loop_cons, gradNode_eq hd, M.ok_bind]
    cases l with
    | nil => rfl
    | cons b l => rw [ih (by simp), gradFirst_idem, gradSecond_idem]

/-- The writes of the analytic gradient leave the entries from number 2 on of each element alone. -/
theorem gradFlatSet_high {grad grad' : Arr (Mat3 K)} {i : ℤ} {n : Fin 9} (hn : n.val < 2) {t : K}
    (e : gradFlatSet grad i n t = .ok grad') (j : ℕ) (m : Mat3 K) (hm : grad.data[j]? = some m) :
    ∃ m', grad'.data[j]? = some m' ∧ ∀ p : Fin 9, 2 ≤ p.val → m'.m p = m.m p := by
  unfold gradFlatSet Arr.flat Arr.setFlat at e
  obtain ⟨m1, e1, e2⟩ := bind_ok e
  obtain ⟨v, e3, e4⟩ := bind_ok e2
  cases e4
  rw [wr_eq_ok_iff] at e3
  obtain ⟨h0, h1, rfl⟩ := e3
  rw [rd_eq_ok_iff] at e1
  simp only
  by_cases hj : i.toNat = j
  · subst hj
    refine ⟨m1.setFlat n t, by rw [List.getElem?_set_self (by omega)], ?_⟩
    rw [hm] at e1
    have := e1.2
    cases this
    intro p hp
    unfold Mat3.setFlat
    simp only
    rw [if_neg]
    intro h
    rw [h] at hp
    omega
  · rw [List.getElem?_set_ne hj]
    exact ⟨m, hm, fun _ _ => rfl⟩

/-- Likewise for the loops. -/
theorem gradLoop_high [HasPi K] {α : Type} {l : List α} {grad grad' : Arr (Mat3 K)}
    (e : loop l grad (fun grad _ => gradNode d grad) = .ok grad') (j : ℕ) (m : Mat3 K) (hm : grad.data[j]? = some m) :
    ∃ m', grad'.data[j]? = some m' ∧ ∀ p : Fin 9, 2 ≤ p.val → m'.m p = m.m p := by
  have step : ∀ (u u' : Arr (Mat3 K)) (i : ℤ) (n : Fin 9) (t : K), n.val < 2 → gradFlatSet u i n t = .ok u' →
      (∃ m', u.data[j]? = some m' ∧ ∀ p : Fin 9, 2 ≤ p.val → m'.m p = m.m p) →
      ∃ m', u'.data[j]? = some m' ∧ ∀ p : Fin 9, 2 ≤ p.val → m'.m p = m.m p := by
    rintro u u' i n t hn e ⟨m1, h1, h2⟩
    obtain ⟨m2, h3, h4⟩ := gradFlatSet_high hn e j m1 h1
    exact ⟨m2, h3, fun p hp => (h4 p hp).trans (h2 p hp)⟩
  refine loop_inv_of_ok (fun u : Arr (Mat3 K) => ∃ m', u.data[j]? = some m' ∧ ∀ p : Fin 9, 2 ≤ p.val → m'.m p = m.m p)
    ⟨m, hm, fun _ _ => rfl⟩ ?_ e
  intro _ _ u u' hu eu
  unfold gradNode at eu
  refine loop_inv_of_ok (fun u : Arr (Mat3 K) => ∃ m', u.data[j]? = some m' ∧ ∀ p : Fin 9, 2 ≤ p.val → m'.m p = m.m p)
    hu ?_ eu
  intro a _ u u' hu eu
  refine loop_inv_of_ok (fun u : Arr (Mat3 K) => ∃ m', u.data[j]? = some m' ∧ ∀ p : Fin 9, 2 ≤ p.val → m'.m p = m.m p)
    hu ?_ eu
  intro b _ u u' hu eu
  split at eu
  · exact step _ _ _ _ _ (by decide) eu hu
  · exact step _ _ _ _ _ (by decide) eu hu
  · exact step _ _ _ _ _ (by decide) eu hu
  · exact step _ _ _ _ _ (by decide) eu hu
  · cases eu
    exact hu

/-- A list with two elements at least. -/
theorem two_elems {T : Type} {l : List T} (h : 2 ≤ l.length) : ∃ a b tl, l = a :: b :: tl := by
  match l, h with
  | a :: b :: tl, _ => exact ⟨a, b, tl, rfl⟩

/-- Slots of interior cells, 2D and 3D, padding at least 1. -/
theorem lin_interior {s : IntSem} {r : Req K} {g : Grid K d} (G : g.Made s r) (hd : d = 2 ∨ d = 3) (hpad : 1 ≤ r.pad)
    {c : Cell} (hc : r.Interior c) : 2 ≤ g.lin c := by
  obtain ⟨⟨a1, -⟩, ⟨a2, -⟩, ⟨a3, -⟩⟩ := G.interior.2 hc
  have hs := G.shape
  have hx := hs.nx_pos
  have hy := hs.ny_pos
  have hp := G.pad
  have hm1 : g.mask1 = 1 := by rw [hs.m1, if_pos (by omega)]
  have hm2 : 0 ≤ g.mask2 := by rw [hs.m2]; split <;> omega
  unfold Grid.lin
  rw [hs.m0, hm1]
  have h1 : 0 ≤ (c.2.2 + g.pad) * (g.nx + 2 * g.pad) * (g.ny + 2 * g.pad) * g.mask2 :=
    mul_nonneg (mul_nonneg (mul_nonneg (by omega) (by omega)) (by omega)) hm2
  have h2 : 1 * (g.nx + 2 * g.pad) ≤ (c.2.1 + g.pad) * (g.nx + 2 * g.pad) :=
    mul_le_mul_of_nonneg_right (by omega) (by omega)
  omega

end Gals
