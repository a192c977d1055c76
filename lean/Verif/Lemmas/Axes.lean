import Verif.Spec.Axes
import Verif.Lemmas.Hermite
import Verif.Lemmas.Interp
import Verif.Lemmas.Gradient
import Verif.Lemmas.Local
import Verif.Props.Temporal

/-!
# Interpolation and steps in renamed axes
-/

set_option linter.unusedSectionVars false

namespace Gals

open Spec Props

section plain
variable {K : Type} {d : ℕ} {σ : Equiv.Perm (Fin 3)}

theorem permV_get (v : Vec3 K) (a : Fin 3) : (permV σ v).get a = v.get (σ a) := by
  match a with
  | 0 | 1 | 2 => rfl

theorem permC_comp (c : Cell) (a : Fin 3) : comp (permC σ c) a = comp c (σ a) := by
  match a with
  | 0 | 1 | 2 => rfl

theorem vec_ext {u v : Vec3 K} (h : ∀ a, u.get a = v.get a) : u = v := by
  obtain ⟨x, y, z⟩ := u
  obtain ⟨x', y', z'⟩ := v
  have h0 := h 0
  have h1 := h 1
  have h2 := h 2
  simp only [Vec3.get] at h0 h1 h2
  rw [h0, h1, h2]

theorem cell_ext {u v : Cell} (h : ∀ a, comp u a = comp v a) : u = v :=
  Prod.ext (h 0) (Prod.ext (h 1) (h 2))

theorem permC_inv (c : Cell) : permC σ (permC σ⁻¹ c) = c := cell_ext fun a => by rw [permC_comp, permC_comp]; simp

theorem padded_iff {r : Req K} {c : Cell} :
    r.Padded d c ↔ ∀ a : Fin 3, -padAlong d r.pad a.val ≤ comp c a ∧ comp c a < r.n.get a + padAlong d r.pad a.val := by
  constructor
  · rintro ⟨h0, h1, h2⟩ a
    match a with
    | 0 => exact h0
    | 1 => exact h1
    | 2 => exact h2
  · intro h
    exact ⟨h 0, h 1, h 2⟩

theorem interior_iff {r : Req K} {c : Cell} : r.Interior c ↔ ∀ a : Fin 3, 0 ≤ comp c a ∧ comp c a < r.n.get a := by
  constructor
  · rintro ⟨h0, h1, h2⟩ a
    match a with
    | 0 => exact h0
    | 1 => exact h1
    | 2 => exact h2
  · intro h
    exact ⟨h 0, h 1, h 2⟩

theorem perm_forall {p : Fin 3 → Prop} : (∀ a, p (σ a)) ↔ ∀ a, p a := ⟨fun h a => by simpa using h (σ⁻¹ a), fun h a => h _⟩

theorem perm_interior {r : Req K} {c : Cell} : (r.perm σ).Interior (permC σ c) ↔ r.Interior c := by
  rw [interior_iff, interior_iff]
  simp only [permC_comp, Req.perm, permV_get]
  exact perm_forall (p := fun a => 0 ≤ comp c a ∧ comp c a < r.n.get a)

theorem perm_padded (hσ : KeepsUsed d σ) {r : Req K} {c : Cell} : (r.perm σ).Padded d (permC σ c) ↔ r.Padded d c := by
  rw [padded_iff, padded_iff]
  have e : ∀ a : Fin 3, padAlong d r.pad a.val = padAlong d r.pad (σ a).val := fun a => by
    unfold padAlong; simp only [hσ a]
  simp only [permC_comp, Req.perm, permV_get]
  refine Iff.trans (forall_congr' fun a => ?_) (perm_forall (σ := σ)
    (p := fun a => -padAlong d r.pad a.val ≤ comp c a ∧ comp c a < r.n.get a + padAlong d r.pad a.val))
  rw [e a]

/-- The permutations of three axes. -/
theorem perm_cases (σ : Equiv.Perm (Fin 3)) : let s := Equiv.swap 0 1; let t := Equiv.swap 1 2
    σ = 1 ∨ σ = s ∨ σ = t ∨ σ = s * t ∨ σ = t * s ∨ σ = s * t * s := by
  revert σ
  decide

theorem perm_eq_of {p : Fin 3 → ℤ} (σ : Equiv.Perm (Fin 3)) : p (σ 0) * p (σ 1) * p (σ 2) = p 0 * p 1 * p 2 := by
  have := Equiv.prod_comp σ p
  rwa [Fin.prod_univ_three, Fin.prod_univ_three] at this

theorem perm_valid (hσ : KeepsUsed d σ) {r : Req K} (h : r.Valid d) : (r.perm σ).Valid d := by
  have pos : ∀ a, 0 < r.n.get a := fun a => h.n_pos a
  have one : ∀ a : Fin 3, ¬ a.val < d → r.n.get a = 1 := by
    intro a ha
    have := h.dim
    match a with
    | 0 => exact absurd (by change 0 < d; omega) ha
    | 1 => exact h.ny_one (by change ¬ 1 < d at ha; omega)
    | 2 => exact h.nz_one (by change ¬ 2 < d at ha; omega)
  refine ⟨h.dim, pos _, pos _, pos _, fun hd => one _ ?_, fun hd => one _ ?_, h.pad_nonneg, ?_⟩
  · rw [hσ]; change ¬ 1 < d; omega
  · rw [hσ]; change ¬ 2 < d; omega
  · have := perm_eq_of (p := fun a => r.n.get a + 2 * r.pad) σ
    refine le_of_eq_of_le this h.fits

end plain

section field
variable {K : Type} [Field K] [LinearOrder K] [IsStrictOrderedRing K] [FloorRing K] {d : ℕ} {σ : Equiv.Perm (Fin 3)}

theorem perm_h (r : Req K) (a : Fin 3) : (r.perm σ).h a = r.h (σ a) := by
  unfold Req.h
  simp only [Req.perm, permV_get]

theorem perm_centre (r : Req K) (a : Fin 3) (i : ℤ) : (r.perm σ).centre a i = r.centre (σ a) i := by
  unfold Req.centre
  rw [perm_h]
  simp only [Req.perm, permV_get]

theorem perm_pos (hσ : KeepsUsed d σ) {r : Req K} (h : r.Pos d) : (r.perm σ).Pos d := fun a ha => by
  simp only [Req.perm, permV_get]
  exact h _ ((hσ a).2 ha)

theorem perm_nodePos (hσ : KeepsUsed d σ) (r : Req K) (c : Cell) : nodePos (r.perm σ) d (permC σ c) = permV σ (nodePos r d c) :=
  vec_ext fun a => by
    rw [permV_get, nodePos_get, nodePos_get, perm_centre, permC_comp]
    simp only [hσ a, Req.perm]

theorem perm_inStorage (hσ : KeepsUsed d σ) {r : Req K} {x : Vec3 K} (h : InStorage r d x) : InStorage (r.perm σ) d (permV σ x) := fun a ha => by
  rw [perm_centre, perm_centre, permV_get]
  simp only [Req.perm, permV_get]
  exact h _ ((hσ a).2 ha)

theorem perm_baseCell (hσ : KeepsUsed d σ) {r : Req K} {x : Vec3 K} {b : Cell} (h : BaseCell r d x b) :
    BaseCell (r.perm σ) d (permV σ x) (permC σ b) where
  lo a ha := by rw [perm_centre, permV_get, permC_comp]; exact h.lo _ ((hσ a).2 ha)
  hi a ha := by rw [perm_centre, permV_get, permC_comp]; exact h.hi _ ((hσ a).2 ha)
  stored a ha := by rw [permC_comp]; simp only [Req.perm, permV_get]; exact h.stored _ ((hσ a).2 ha)
  unused a ha := by rw [permC_comp]; exact h.unused _ fun c => ha ((hσ a).1 c)

theorem T1_swap (b c : List K) (h k p q r s p1 q1 r1 s1 p2 q2 r2 s2 p3 q3 r3 s3 : K) :
    T1 b h (T1 c k p q r s) (T1 c k p1 q1 r1 s1) (T1 c k p2 q2 r2 s2) (T1 c k p3 q3 r3 s3) =
      T1 c k (T1 b h p p1 p2 p3) (T1 b h q q1 q2 q3) (T1 b h r r1 r2 r3) (T1 b h s s1 s2 s3) := by
  unfold T1
  split <;> split <;> ring

/-- Interpolation along one axis after the other of data that have, along each axis, a value and a slope at either end (numbers 0 to 3). -/
def nested (b : Fin 3 → List K) (h : Fin 3 → K) (D : (Fin 3 → Fin 4) → K) : K :=
  let B (i j : Fin 4) : K := T1 (b 2) (h 2) (D ![i, j, 0]) (D ![i, j, 1]) (D ![i, j, 2]) (D ![i, j, 3])
  let A (i : Fin 4) : K := T1 (b 1) (h 1) (B i 0) (B i 1) (B i 2) (B i 3)
  T1 (b 0) (h 0) (A 0) (A 1) (A 2) (A 3)

theorem nested_perm (σ : Equiv.Perm (Fin 3)) : ∀ (b : Fin 3 → List K) (h : Fin 3 → K) (D : (Fin 3 → Fin 4) → K),
    nested (b ∘ σ) (h ∘ σ) (fun f => D (f ∘ ⇑σ⁻¹)) = nested b h D := by
  have mul : ∀ σ τ : Equiv.Perm (Fin 3), (∀ (b : Fin 3 → List K) (h : Fin 3 → K) (D : (Fin 3 → Fin 4) → K),
      nested (b ∘ σ) (h ∘ σ) (fun f => D (f ∘ ⇑σ⁻¹)) = nested b h D) → (∀ (b : Fin 3 → List K) (h : Fin 3 → K) (D : (Fin 3 → Fin 4) → K),
      nested (b ∘ τ) (h ∘ τ) (fun f => D (f ∘ ⇑τ⁻¹)) = nested b h D) → ∀ (b : Fin 3 → List K) (h : Fin 3 → K) (D : (Fin 3 → Fin 4) → K),
      nested (b ∘ ⇑(σ * τ)) (h ∘ ⇑(σ * τ)) (fun f => D (f ∘ ⇑(σ * τ)⁻¹)) = nested b h D := by
    intro σ τ hs ht b h D
    have := ht (b ∘ σ) (h ∘ σ) (fun f => D (f ∘ ⇑σ⁻¹))
    rw [hs] at this
    rw [← this, mul_inv_rev]
    rfl
  have one : ∀ (b : Fin 3 → List K) (h : Fin 3 → K) (D : (Fin 3 → Fin 4) → K),
      nested (b ∘ ⇑(1 : Equiv.Perm (Fin 3))) (h ∘ ⇑(1 : Equiv.Perm (Fin 3))) (fun f => D (f ∘ ⇑(1 : Equiv.Perm (Fin 3))⁻¹)) = nested b h D := by
    intro b h D
    simp
  have s : ∀ (b : Fin 3 → List K) (h : Fin 3 → K) (D : (Fin 3 → Fin 4) → K), nested (b ∘ ⇑(Equiv.swap (0 : Fin 3) 1))
      (h ∘ ⇑(Equiv.swap (0 : Fin 3) 1)) (fun f => D (f ∘ ⇑(Equiv.swap (0 : Fin 3) 1)⁻¹)) = nested b h D := by
    intro b h D
    have e : ∀ i j k : Fin 4, ![i, j, k] ∘ ⇑(Equiv.swap (0 : Fin 3) 1)⁻¹ = ![j, i, k] := by
      intro i j k
      funext a
      fin_cases a <;> rfl
    unfold nested
    simp only [e, Function.comp, show (Equiv.swap (0 : Fin 3) 1) 0 = 1 from rfl, show (Equiv.swap (0 : Fin 3) 1) 1 = 0 from rfl,
      show (Equiv.swap (0 : Fin 3) 1) 2 = 2 from rfl]
    rw [T1_swap]
  have t : ∀ (b : Fin 3 → List K) (h : Fin 3 → K) (D : (Fin 3 → Fin 4) → K), nested (b ∘ ⇑(Equiv.swap (1 : Fin 3) 2))
      (h ∘ ⇑(Equiv.swap (1 : Fin 3) 2)) (fun f => D (f ∘ ⇑(Equiv.swap (1 : Fin 3) 2)⁻¹)) = nested b h D := by
    intro b h D
    have e : ∀ i j k : Fin 4, ![i, j, k] ∘ ⇑(Equiv.swap (1 : Fin 3) 2)⁻¹ = ![i, k, j] := by
      intro i j k
      funext a
      fin_cases a <;> rfl
    unfold nested
    simp only [e, Function.comp, show (Equiv.swap (1 : Fin 3) 2) 0 = 0 from rfl, show (Equiv.swap (1 : Fin 3) 2) 1 = 2 from rfl,
      show (Equiv.swap (1 : Fin 3) 2) 2 = 1 from rfl]
    congr 1 <;> rw [T1_swap]
  rcases perm_cases σ with rfl | rfl | rfl | rfl | rfl | rfl
  · exact one
  · exact s
  · exact t
  · exact mul _ _ s t
  · exact mul _ _ t s
  · exact mul _ _ (mul _ _ s t) s

/-- One further for the numbers 2 and 3. -/
def up : Fin 4 → ℤ → ℤ
  | 0, x | 1, x => x
  | 2, x | 3, x => x + 1

/-- A slope for the numbers 1 and 3. -/
def odd : Fin 4 → Bool
  | 0 | 2 => false
  | 1 | 3 => true

/-- The corner of the cell of `b`. -/
def corner (b : Cell) (f : Fin 3 → Fin 4) : Cell := (up (f 0) b.1, up (f 1) b.2.1, up (f 2) b.2.2)

theorem corner_comp (b : Cell) (f : Fin 3 → Fin 4) (a : Fin 3) : comp (corner b f) a = up (f a) (comp b a) := by
  match a with
  | 0 | 1 | 2 => rfl

theorem perm_corner (b : Cell) (f : Fin 3 → Fin 4) : permC σ (corner b f) = corner (permC σ b) (f ∘ σ) :=
  cell_ext fun a => by rw [permC_comp, corner_comp, corner_comp, permC_comp]; rfl

/-- Derivative along the axes with `true`, from a node's data. -/
def derivOf (phi : K) (psi : Vec3 K) (xy yz zx xyz : K) : Bool → Bool → Bool → K
  | false, false, false => phi
  | true, false, false => psi.x
  | false, true, false => psi.y
  | false, false, true => psi.z
  | true, true, false => xy
  | false, true, true => yz
  | true, false, true => zx
  | true, true, true => xyz

/-- Element of a list, for lists that are long enough. -/
def el (l : List K) (n : ℕ) : K := l.getD n 0

theorem four_el {l : List K} (h : l.length = 4) : l = [el l 0, el l 1, el l 2, el l 3] := by
  match l, h with
  | [a, b, c, d], _ => rfl

theorem one_el {l : List K} (h : l.length = 1) : l = [el l 0] := by
  match l, h with
  | [a], _ => rfl

theorem derivOf_perm (σ : Equiv.Perm (Fin 3)) (phi : K) (psi : Vec3 K) (l : List K) (hl : l.length = 4) (s : Fin 3 → Bool) :
    derivOf phi (permV σ psi) (el (permMix σ l) 0) (el (permMix σ l) 1) (el (permMix σ l) 2) (el (permMix σ l) 3) (s (σ 0)) (s (σ 1)) (s (σ 2)) =
      derivOf phi psi (el l 0) (el l 1) (el l 2) (el l 3) (s 0) (s 1) (s 2) := by
  rw [four_el hl]
  generalize el l 0 = m0
  generalize el l 1 = m1
  generalize el l 2 = m2
  generalize el l 3 = m3
  have key : ∀ (s0 s1 s2 : Bool), let s : Fin 3 → Bool := ![s0, s1, s2]
      derivOf phi (permV σ psi) (el (permMix σ [m0, m1, m2, m3]) 0) (el (permMix σ [m0, m1, m2, m3]) 1) (el (permMix σ [m0, m1, m2, m3]) 2)
        (el (permMix σ [m0, m1, m2, m3]) 3) (s (σ 0)) (s (σ 1)) (s (σ 2)) = derivOf phi psi m0 m1 m2 m3 s0 s1 s2 := by
    rcases perm_cases σ with rfl | rfl | rfl | rfl | rfl | rfl <;> intro s0 s1 s2 <;> cases s0 <;> cases s1 <;> cases s2 <;> rfl
  have := key (s 0) (s 1) (s 2)
  have e : (![s 0, s 1, s 2] : Fin 3 → Bool) = s := by funext a; fin_cases a <;> rfl
  simp only [e] at this
  exact this

/-- Data of the cell of `b`. -/
def cellData (phi : Cell → K) (psi : Cell → Vec3 K) (X : Cell → List K) (b : Cell) (f : Fin 3 → Fin 4) : K :=
  let c := corner b f
  derivOf (phi c) (psi c) (el (X c) 0) (el (X c) 1) (el (X c) 2) (el (X c) 3) (odd (f 0)) (odd (f 1)) (odd (f 2))

/-- Basis along each axis, derivatives along axis `a`. -/
def basisBut (eta : Vec3 K) (a c : Fin 3) : List K := if c = a then basis' (eta.get c) else basis (eta.get c)

theorem kernel3_nested (dx inv eta : Vec3 K) (phi : Cell → K) (psi : Cell → Vec3 K) (X : Cell → List K) (b : Cell) :
    let N := node3 phi psi (fun c => el (X c) 0) (fun c => el (X c) 1) (fun c => el (X c) 2) (fun c => el (X c) 3)
    let o := kernel3 dx inv eta (N b) (N (b.1 + 1, b.2.1, b.2.2)) (N (b.1, b.2.1 + 1, b.2.2)) (N (b.1, b.2.1, b.2.2 + 1))
      (N (b.1 + 1, b.2.1 + 1, b.2.2)) (N (b.1, b.2.1 + 1, b.2.2 + 1)) (N (b.1 + 1, b.2.1, b.2.2 + 1)) (N (b.1 + 1, b.2.1 + 1, b.2.2 + 1)) false
    o.phi = nested (fun c => basis (eta.get c)) dx.get (cellData phi psi X b) ∧
    ∀ a, o.psi.get a = nested (basisBut eta a) dx.get (cellData phi psi X b) * inv.get a := by
  intro N o
  have e : o = _ := kernel3_eq ..
  refine ⟨by rw [e]; rfl, fun a => ?_⟩
  rw [e]
  match a with
  | 0 => rfl
  | 1 => rfl
  | 2 => rfl

theorem kernel2_T1 (dx inv eta : Vec3 K) (n00 n10 n01 n11 : Node2 K) :
    kernel2 ⟨dx.y, dx.x, dx.z⟩ ⟨inv.y, inv.x, inv.z⟩ ⟨eta.y, eta.x, eta.z⟩ ⟨n00.phi, ⟨n00.psi.y, n00.psi.x, n00.psi.z⟩, n00.xy⟩
      ⟨n01.phi, ⟨n01.psi.y, n01.psi.x, n01.psi.z⟩, n01.xy⟩ ⟨n10.phi, ⟨n10.psi.y, n10.psi.x, n10.psi.z⟩, n10.xy⟩
      ⟨n11.phi, ⟨n11.psi.y, n11.psi.x, n11.psi.z⟩, n11.xy⟩ false =
    let o := kernel2 dx inv eta n00 n10 n01 n11 false
    ⟨o.phi, ⟨o.psi.y, o.psi.x, o.psi.z⟩⟩ := by
  simp only [kernel2_eq]
  congr 1
  · rw [T1_swap]
  · congr 1 <;> rw [T1_swap]

theorem keeps_two (hσ : KeepsUsed 2 σ) : σ = 1 ∨ σ = Equiv.swap 0 1 := by
  have h := hσ 2
  revert h
  clear hσ
  revert σ
  decide

theorem keeps_one (hσ : KeepsUsed 1 σ) : σ 0 = 0 := by
  have h := hσ 0
  revert h
  clear hσ
  revert σ
  decide

theorem up_le (i : Fin 4) (x : ℤ) : x ≤ up i x ∧ up i x ≤ x + 1 := by
  match i with
  | 0 | 1 => exact ⟨le_rfl, by simp [up]⟩
  | 2 | 3 => exact ⟨by simp [up], le_rfl⟩

/-- Interpolation in renamed axes. -/
theorem interp_perm {s : IntSem} (hs : d < 3 → s = .wrap) (hσ : KeepsUsed d σ) {r : Req K} (h : r.Valid d) (hpos : r.Pos d)
    {g g' : Grid K d} (G : g.Made s r) (G' : g'.Made s (r.perm σ)) {ls ls' : Levelset K} {F F' : Cell → K} {V V' : Cell → Vec3 K}
    {X X' : Cell → List K} (hX : ∀ c, (X c).length = numMixed d) (hX' : ∀ c, (X' c).length = numMixed d) (P : PrevIs s r g ls F V X)
    (P' : PrevIs s (r.perm σ) g' ls' F' V' X') (T : Turned d σ r F F' V V' X X') {x : Vec3 K} (hx : InStorage r d x) {o : Interp K}
    (e : interpolate s g ls x false = .ok o) : interpolate s g' ls' (permV σ x) false = .ok ⟨o.phi, permV σ o.psi⟩ := by
  have h' := perm_valid hσ h
  have hpos' := perm_pos hσ hpos
  have hx' := perm_inStorage hσ hx
  have hdx : ∀ a, g'.dx.get a = g.dx.get (σ a) := fun a => by rw [G'.dx, G.dx, perm_h]
  have hinv : ∀ a : Fin 3, a.val < d → g'.oneOverDx.get a = g.oneOverDx.get (σ a) := fun a ha => by
    rw [G'.oneOverDx a ha, G.oneOverDx _ ((hσ a).2 ha), perm_h]
  have heta : ∀ b (a : Fin 3), a.val < d → (((permV σ x).sub (nodePos (r.perm σ) d (permC σ b))).mul g'.oneOverDx).get a =
      ((x.sub (nodePos r d b)).mul g.oneOverDx).get (σ a) := by
    intro b a ha
    have sm : ∀ (u v w : Vec3 K) (a : Fin 3), ((u.sub v).mul w).get a = (u.get a - v.get a) * w.get a := fun u v w a => by
      match a with
      | 0 | 1 | 2 => rfl
    rw [sm, sm, permV_get, perm_nodePos hσ, permV_get, hinv a ha]
  rcases h.dim with rfl | rfl | rfl
  · obtain rfl := hs (by decide)
    obtain ⟨b, H, i⟩ := interp1_eval G h hpos P hx false
    obtain ⟨b', H', i'⟩ := interp1_eval G' h' hpos' P' hx' false
    obtain rfl := H'.unique h' hpos' (perm_baseCell hσ H)
    have s0 := H.stencil h 0 0 0 (by simp) (by simp) (by simp)
    have s1 := H.stencil h 1 0 0 (by simp) (by simp) (by simp)
    simp only [add_zero] at s0 s1
    have z0 := keeps_one hσ
    have c1 : ((permC σ b).1 + 1, (permC σ b).2.1, (permC σ b).2.2) = permC σ (b.1 + 1, b.2.1, b.2.2) := by
      have u1 : comp b 1 = 0 := H.unused 1 (by decide)
      have u2 : comp b 2 = 0 := H.unused 2 (by decide)
      have k1 : (σ 1) ≠ 0 := fun h => by have := σ.injective (h.trans z0.symm); exact absurd this (by decide)
      have k2 : (σ 2) ≠ 0 := fun h => by have := σ.injective (h.trans z0.symm); exact absurd this (by decide)
      have other : ∀ a : Fin 3, a ≠ 0 → comp b a = comp (b.1 + 1, b.2.1, b.2.2) a := by
        intro a ha
        match a with
        | 0 => exact absurd rfl ha
        | 1 | 2 => rfl
      refine Prod.ext ?_ (Prod.ext (other _ k1) (other _ k2))
      change comp b (σ 0) + 1 = comp _ (σ 0)
      rw [z0]; rfl
    rw [i] at e
    rw [i', c1]
    obtain rfl := Except.ok.inj e
    rw [T.phi _ s0, T.phi _ s1, T.psi _ s0, T.psi _ s1]
    have t1 : (r.perm σ).h 0 = r.h 0 := by rw [perm_h, z0]
    have t2 := heta b 0 (by decide)
    rw [z0] at t2
    have t3 : (permV σ x).x - (nodePos (r.perm σ) 1 (permC σ b)).x = x.x - (nodePos r 1 b).x := by
      have := perm_nodePos hσ r b
      rw [this]
      change x.get (σ 0) - (nodePos r 1 b).get (σ 0) = _
      rw [z0]; rfl
    rw [t1, t3, kernel1_eq, kernel1_eq]
    have px : ∀ v : Vec3 K, (permV σ v).x = v.x := fun v => by change v.get (σ 0) = _; rw [z0]; rfl
    simp only [px]
    have k1 : (σ 1) ≠ 0 := fun h => by have := σ.injective (h.trans z0.symm); exact absurd this (by decide)
    have k2 : (σ 2) ≠ 0 := fun h => by have := σ.injective (h.trans z0.symm); exact absurd this (by decide)
    have zero : ∀ (y : K) (a : Fin 3), a ≠ 0 → Vec3.get ⟨y, 0, 0⟩ a = 0 := fun y a ha => by
      match a with
      | 0 => exact absurd rfl ha
      | 1 | 2 => rfl
    unfold permV
    rw [zero _ _ k1, zero _ _ k2, z0]
    rfl
  · obtain rfl := hs (by decide)
    have X1 : X = fun c => [el (X c) 0] := funext fun c => one_el (hX c)
    have X1' : X' = fun c => [el (X' c) 0] := funext fun c => one_el (hX' c)
    obtain ⟨b, H, i⟩ := interp2_eval G h hpos (xy := fun c => el (X c) 0) (by rw [← X1]; exact P) hx false
    obtain ⟨b', H', i'⟩ := interp2_eval G' h' hpos' (xy := fun c => el (X' c) 0) (by rw [← X1']; exact P') hx' false
    obtain rfl := H'.unique h' hpos' (perm_baseCell hσ H)
    have s00 := H.stencil h 0 0 0 (by simp) (by simp) (by simp)
    have s10 := H.stencil h 1 0 0 (by simp) (by simp) (by simp)
    have s01 := H.stencil h 0 1 0 (by simp) (by simp) (by simp)
    have s11 := H.stencil h 1 1 0 (by simp) (by simp) (by simp)
    simp only [add_zero] at s00 s10 s01 s11
    have mixd : ∀ c, r.Padded 2 c → el (X' (permC σ c)) 0 = el (X c) 0 := fun c hc => by
      rw [T.mix c hc, one_el (hX c)]; rfl
    have nd : ∀ c, r.Padded 2 c → node2 F' V' (fun c => el (X' c) 0) (permC σ c) = ⟨F c, permV σ (V c), el (X c) 0⟩ := fun c hc => by
      unfold node2
      simp only [T.phi c hc, T.psi c hc, mixd c hc]
    rw [i] at e
    obtain rfl := Except.ok.inj e
    rw [i']
    refine congrArg Except.ok ?_
    have e1 := heta b 0 (by decide)
    have e2 := heta b 1 (by decide)
    have d1 := hdx 0
    have d2 := hdx 1
    have v1 := hinv 0 (by decide)
    have v2 := hinv 1 (by decide)
    have cong : ∀ {dx inv eta dx' inv' eta' : Vec3 K} (n00 n10 n01 n11 : Node2 K), dx.x = dx'.x → dx.y = dx'.y → inv.x = inv'.x → inv.y = inv'.y →
        eta.x = eta'.x → eta.y = eta'.y → kernel2 dx inv eta n00 n10 n01 n11 false = kernel2 dx' inv' eta' n00 n10 n01 n11 false := by
      intro dx inv eta dx' inv' eta' n00 n10 n01 n11 q1 q2 q3 q4 q5 q6
      simp only [kernel2_eq, q1, q2, q3, q4, q5, q6]
    rcases keeps_two hσ with rfl | rfl
    · have n0 := nd _ s00
      have n1 := nd _ s10
      have n2 := nd _ s01
      have n3 := nd _ s11
      change node2 F' V' _ (b.1, b.2.1, b.2.2) = _ at n0
      change node2 F' V' _ (b.1 + 1, b.2.1, b.2.2) = _ at n1
      change node2 F' V' _ (b.1, b.2.1 + 1, b.2.2) = _ at n2
      change node2 F' V' _ (b.1 + 1, b.2.1 + 1, b.2.2) = _ at n3
      change kernel2 _ _ _ (node2 F' V' _ (b.1, b.2.1, b.2.2)) (node2 F' V' _ (b.1 + 1, b.2.1, b.2.2)) (node2 F' V' _ (b.1, b.2.1 + 1, b.2.2))
        (node2 F' V' _ (b.1 + 1, b.2.1 + 1, b.2.2)) false = _
      rw [n0, n1, n2, n3]
      exact cong _ _ _ _ d1 d2 v1 v2 e1 e2
    · have n0 := nd _ s00
      have n1 := nd _ s10
      have n2 := nd _ s01
      have n3 := nd _ s11
      change node2 F' V' _ (b.2.1, b.1, b.2.2) = _ at n0
      change node2 F' V' _ (b.2.1, b.1 + 1, b.2.2) = _ at n1
      change node2 F' V' _ (b.2.1 + 1, b.1, b.2.2) = _ at n2
      change node2 F' V' _ (b.2.1 + 1, b.1 + 1, b.2.2) = _ at n3
      change kernel2 _ _ _ (node2 F' V' _ (b.2.1, b.1, b.2.2)) (node2 F' V' _ (b.2.1 + 1, b.1, b.2.2)) (node2 F' V' _ (b.2.1, b.1 + 1, b.2.2))
        (node2 F' V' _ (b.2.1 + 1, b.1 + 1, b.2.2)) false = _
      rw [n0, n1, n2, n3]
      exact (cong _ _ _ _ d1 d2 v1 v2 e1 e2).trans (kernel2_T1 _ _ _ (node2 F V (fun c => el (X c) 0) b)
        (node2 F V (fun c => el (X c) 0) (b.1 + 1, b.2.1, b.2.2)) (node2 F V (fun c => el (X c) 0) (b.1, b.2.1 + 1, b.2.2))
        (node2 F V (fun c => el (X c) 0) (b.1 + 1, b.2.1 + 1, b.2.2)))
  · have X1 : X = fun c => [el (X c) 0, el (X c) 1, el (X c) 2, el (X c) 3] := funext fun c => four_el (hX c)
    have X1' : X' = fun c => [el (X' c) 0, el (X' c) 1, el (X' c) 2, el (X' c) 3] := funext fun c => four_el (hX' c)
    obtain ⟨b, H, i⟩ := interp3_eval G h hpos (xy := fun c => el (X c) 0) (yz := fun c => el (X c) 1) (zx := fun c => el (X c) 2)
      (xyz := fun c => el (X c) 3) (by rw [← X1]; exact P) hx false
    obtain ⟨b', H', i'⟩ := interp3_eval G' h' hpos' (xy := fun c => el (X' c) 0) (yz := fun c => el (X' c) 1) (zx := fun c => el (X' c) 2)
      (xyz := fun c => el (X' c) 3) (by rw [← X1']; exact P') hx' false
    obtain rfl := H'.unique h' hpos' (perm_baseCell hσ H)
    rw [i] at e
    rw [i']
    have k := kernel3_nested g.dx g.oneOverDx ((x.sub (nodePos r 3 b)).mul g.oneOverDx) F V X b
    have k' := kernel3_nested g'.dx g'.oneOverDx (((permV σ x).sub (nodePos (r.perm σ) 3 (permC σ b))).mul g'.oneOverDx) F' V' X' (permC σ b)
    simp only at k k'
    have eo := Except.ok.inj e
    rw [eo] at k
    generalize ho' : kernel3 g'.dx g'.oneOverDx _ _ _ _ _ _ _ _ _ false = o' at k' ⊢
    have data : cellData F' V' X' (permC σ b) = fun f => cellData F V X b (f ∘ ⇑σ⁻¹) := by
      funext f
      obtain ⟨f, rfl⟩ : ∃ f', f = f' ∘ ⇑σ := ⟨f ∘ ⇑σ⁻¹, by funext a; simp⟩
      have ff : (f ∘ ⇑σ) ∘ ⇑σ⁻¹ = f := by funext a; simp
      have pc : r.Padded 3 (corner b f) := padded_iff.2 fun a => by
        have := H.stored a a.isLt
        have := up_le (f a) (comp b a)
        rw [corner_comp, show padAlong 3 r.pad a.val = r.pad from if_pos a.isLt]
        constructor <;> omega
      rw [ff]
      unfold cellData
      simp only
      rw [← perm_corner, T.phi _ pc, T.psi _ pc, T.mix _ pc]
      exact derivOf_perm σ _ _ _ (hX _) fun a => odd (f a)
    have dxe : g'.dx.get = g.dx.get ∘ σ := funext hdx
    have be : (fun c => basis ((((permV σ x).sub (nodePos (r.perm σ) 3 (permC σ b))).mul g'.oneOverDx).get c)) =
        (fun c => basis (((x.sub (nodePos r 3 b)).mul g.oneOverDx).get c)) ∘ σ := funext fun a => by
      rw [heta b a a.isLt]; rfl
    have be' : ∀ a, basisBut (((permV σ x).sub (nodePos (r.perm σ) 3 (permC σ b))).mul g'.oneOverDx) a =
        basisBut ((x.sub (nodePos r 3 b)).mul g.oneOverDx) (σ a) ∘ σ := fun a => funext fun c => by
      unfold basisBut
      rw [heta b c c.isLt]
      simp only [Function.comp, σ.injective.eq_iff]
    rw [dxe, be, data, nested_perm, ← k.1] at k'
    refine congrArg Except.ok ?_
    have q : ∀ a, o'.psi.get a = o.psi.get (σ a) := fun a => by
      rw [k'.2 a, k.2 (σ a), be', nested_perm, hinv a a.isLt]
    have q2 : o'.psi = permV σ o.psi := vec_ext fun a => by rw [q, permV_get]
    rw [← q2, ← k'.1]

theorem entry_permM (m : Mat3 K) (a b : Fin 3) : (permM σ m).entry a b = m.entry (σ a) (σ b) := by
  fin_cases a <;> fin_cases b <;> rfl

theorem dot_get (m : Mat3 K) (v : Vec3 K) (i : Fin 3) : (m.dot v).get i = ∑ j, m.entry j i * v.get j := by
  rw [Fin.sum_univ_three]
  match i with
  | 0 | 1 | 2 => simp only [Mat3.dot, Vec3.get, Mat3.entry, zero_add]

theorem identity_entry (a b : Fin 3) : (Mat3.identity : Mat3 K).entry a b = if a = b then 1 else 0 := by
  fin_cases a <;> fin_cases b <;> rfl

/-- The chain rule in renamed axes. -/
theorem pull_perm (m : Mat3 K) (dt : K) (v : Vec3 K) :
    (Mat3.identity.sub ((permM σ m).smul dt)).dot (permV σ v) = permV σ ((Mat3.identity.sub (m.smul dt)).dot v) := vec_ext fun i => by
  have e : ∀ (m : Mat3 K) (a b : Fin 3), (Mat3.identity.sub (m.smul dt)).entry a b = (if a = b then 1 else 0) - m.entry a b * dt := by
    intro m a b
    rw [← identity_entry]; rfl
  rw [permV_get, dot_get, dot_get]
  refine Eq.trans (Finset.sum_congr rfl fun j _ => ?_) (Equiv.sum_comp σ _)
  rw [e, e, entry_permM, permV_get]
  simp only [σ.injective.eq_iff]

theorem permV_step (p u : Vec3 K) (dt : K) : permV σ (p.sub (u.smul dt)) = (permV σ p).sub ((permV σ u).smul dt) := vec_ext fun a => by
  rw [permV_get, get_step, get_step, permV_get, permV_get]

theorem perm_shift (c : Cell) (a : Fin 3) (m : ℤ) : permC σ (shift c (σ a) m) = shift (permC σ c) a m := cell_ext fun b => by
  rw [permC_comp, comp_shift, comp_shift, permC_comp]
  simp only [σ.injective.eq_iff]

section steps
variable {s : IntSem} (hs : d < 3 → s = .wrap) (hσ : KeepsUsed d σ) {r : Req K} (h : r.Valid d) (hpos : r.Pos d) (hpad : 1 ≤ r.pad)
  {g g' gv gv' : Grid K d} (M : g.Made s r) (M' : g'.Made s (r.perm σ)) {dt : K} {vel vel' : LsVelocity K} {u : Cell → Vec3 K} {m : Cell → Mat3 K}
  (hu : ∀ c, r.Interior c → vel.velocity.get s gv c.1 c.2.1 c.2.2 = .ok (u c))
  (hm : ∀ c, r.Interior c → vel.grad.get s gv c.1 c.2.1 c.2.2 = .ok (m c))
  (hu' : ∀ c, r.Interior c → vel'.velocity.get s gv' (permC σ c).1 (permC σ c).2.1 (permC σ c).2.2 = .ok (permV σ (u c)))
  (hm' : ∀ c, r.Interior c → vel'.grad.get s gv' (permC σ c).1 (permC σ c).2.1 (permC σ c).2.2 = .ok (permM σ (m c)))
  (hcfl : ∀ c, r.Interior c → ∀ a : Fin 3, a.val < d → |(u c).get a * dt| < r.h a)
include hs hσ h hpos hpad M M' hu hm hu' hm' hcfl

/-- Two level sets, the second in renamed axes, before and after a step. -/
theorem carry_perm {ls ls' : Levelset K} {F F' : Cell → K} {G G' : Cell → Vec3 K} {X X' : Cell → List K}
    (hX : ∀ c, (X c).length = numMixed d) (hX' : ∀ c, (X' c).length = numMixed d) (S : Stored s r g ls F G X)
    (S' : Stored s (r.perm σ) g' ls' F' G' X') (T : Turned d σ r F F' G G' X X') :
    ∃ l l' A A' B B', carryStep s g gv dt vel ls = .ok l ∧ carryStep s g' gv' dt vel' ls' = .ok l' ∧ Stored s r g l A B X ∧
      Stored s (r.perm σ) g' l' A' B' X' ∧ Turned d σ r A A' B B' X X' := by
  have back : ∀ c', (r.perm σ).Interior c' → ∃ c, r.Interior c ∧ permC σ c = c' := fun c' hc' =>
    ⟨permC σ⁻¹ c', by rw [← perm_interior (σ := σ), permC_inv]; exact hc', permC_inv c'⟩
  have stored : ∀ c, r.Interior c → InStorage r d ((nodePos r d c).sub ((u c).smul dt)) := fun c hc a ha =>
    have := near_node h hpos hpad hc (near_step (hcfl c hc)) a ha
    ⟨this.1.le, this.2⟩
  obtain ⟨l1, l, o, P, ho, e, R⟩ := carry_result (dt := dt) M hu hm (fun c hc => M.atC (interior_padded M hc)) S
    fun l1 P c hc => interp_ok hs M h hpos hX P (stored c hc) false
  set u' : Cell → Vec3 K := fun c' => permV σ (u (permC σ⁻¹ c')) with hu'_def
  set m' : Cell → Mat3 K := fun c' => permM σ (m (permC σ⁻¹ c')) with hm'_def
  have inv : ∀ c, permC σ⁻¹ (permC σ c) = c := fun c => by have := permC_inv (σ := σ⁻¹) c; rwa [inv_inv] at this
  have eu : ∀ c, u' (permC σ c) = permV σ (u c) := fun c => by simp only [hu'_def, inv]
  have em : ∀ c, m' (permC σ c) = permM σ (m c) := fun c => by simp only [hm'_def, inv]
  have dep : ∀ c, (nodePos (r.perm σ) d (permC σ c)).sub ((u' (permC σ c)).smul dt) = permV σ ((nodePos r d c).sub ((u c).smul dt)) := fun c => by
    rw [perm_nodePos hσ, eu, permV_step]
  obtain ⟨l1', l', o', P', ho', e', R'⟩ := carry_result (dt := dt) (v := u') (m := m') M'
    (fun c' hc' => by obtain ⟨c, hc, rfl⟩ := back c' hc'; rw [eu]; exact hu' c hc)
    (fun c' hc' => by obtain ⟨c, hc, rfl⟩ := back c' hc'; rw [em]; exact hm' c hc)
    (fun c hc => M'.atC (interior_padded M' hc)) S' fun l1 P c' hc' => by
      obtain ⟨c, hc, rfl⟩ := back c' hc'
      rw [dep]
      exact interp_ok hs M' (perm_valid hσ h) (perm_pos hσ hpos) hX' P (perm_inStorage hσ (stored c hc)) false
  refine ⟨l, l', _, _, _, _, e, e', R, R', ?_⟩
  have same : ∀ c, r.Interior c → o' (permC σ c) = ⟨(o c).phi, permV σ (o c).psi⟩ := fun c hc => by
    have k1 := interp_perm hs hσ h hpos M M' hX hX' P P' T (stored c hc) (ho c hc)
    have k2 := ho' (permC σ c) (perm_interior.2 hc)
    rw [dep, k1] at k2
    exact (Except.ok.inj k2).symm
  refine ⟨fun c hc => ?_, fun c hc => ?_, T.mix⟩
  · simp only [perm_interior]
    split_ifs with i
    · rw [same c i]
    · exact T.phi c hc
  · simp only [perm_interior]
    split_ifs with i
    · rw [same c i, em]
      exact pull_perm ..
    · exact T.psi c hc

/-- The same with the gradient recomputed. -/
theorem recompute_perm (hp : 2 ≤ r.pad) {ls ls' : Levelset K} {F F' : Cell → K} {G G' : Cell → Vec3 K} {X X' : Cell → List K}
    (hX : ∀ c, (X c).length = numMixed d) (hX' : ∀ c, (X' c).length = numMixed d) (S : Stored s r g ls F G X)
    (S' : Stored s (r.perm σ) g' ls' F' G' X') (T : Turned d σ r F F' G G' X X') :
    ∃ l l' A A' B B', recomputeStep s g gv dt vel ls = .ok l ∧ recomputeStep s g' gv' dt vel' ls' = .ok l' ∧ Stored s r g l A B X ∧
      Stored s (r.perm σ) g' l' A' B' X' ∧ Turned d σ r A A' B B' X X' := by
  obtain ⟨y, q, e, f, o, i⟩ := gradScalar_ok (sch := .third) M M rfl hp S.phi S.psi
  obtain ⟨y', q', e', f', o', i'⟩ := gradScalar_ok (sch := .third) M' M' rfl hp S'.phi S'.psi
  have TT : ∀ c, r.Padded d c → q' (permC σ c) = permV σ (q c) := fun c hc => by
    by_cases ic : r.Interior c
    · refine vec_ext fun a => ?_
      rw [permV_get, i' _ (perm_interior.2 ic) a, i c ic (σ a), T.psi c hc, permV_get, perm_h]
      simp only [hσ a]
      split_ifs with ha
      · have sh : ∀ n : ℤ, -2 ≤ n → n ≤ 1 → F' (shift (permC σ c) a n) = F (shift c (σ a) n) := fun n n1 n2 => by
          rw [← perm_shift]
          exact T.phi _ (shift_padded M ic ((hσ a).2 ha) (m := n) (by omega) (by omega))
        simp only [rawDiff, thirdRaw, T.phi c hc, sh 1 (by omega) (by omega), sh (-1) (by omega) (by omega), sh (-2) (by omega) (by omega)]
      · rfl
    · rw [o c ic, o' _ fun k => ic (perm_interior.1 k)]
      exact T.psi c hc
  obtain ⟨l, l', A, A', B, B', k, k', R, R', T'⟩ := carry_perm hs hσ h hpos hpad M M' hu hm hu' hm' hcfl hX hX'
    (show Stored s r g { ls with psi := y } F q X from ⟨S.phi, f, S.phiPrev, S.psiPrev, S.phiInterpPrev, S.psiInterpPrev, S.mixed⟩)
    (show Stored s (r.perm σ) g' { ls' with psi := y' } F' q' X' from
      ⟨S'.phi, f', S'.phiPrev, S'.psiPrev, S'.phiInterpPrev, S'.psiInterpPrev, S'.mixed⟩) ⟨T.phi, TT, T.mix⟩
  refine ⟨l, l', A, A', B, B', ?_, ?_, R, R', T'⟩
  · unfold recomputeStep; rw [e, _root_.Gals.M.ok_bind]; exact k
  · unfold recomputeStep; rw [e', _root_.Gals.M.ok_bind]; exact k'

end steps

end field

end Gals
