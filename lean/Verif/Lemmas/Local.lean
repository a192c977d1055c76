import Verif.Spec.Local
import Verif.Lemmas.InterpAny
import Verif.Lemmas.Gradient
import Verif.Model.Carry

/-!
# What interpolation and steps read
-/

set_option linter.unusedSectionVars false

namespace Gals

open Spec

variable {K : Type} {d : ℕ}
variable [Zero K] [One K] [Add K] [Sub K] [Mul K] [Div K] [Neg K] [NatCast K] [IntCast K]
  [LT K] [DecidableLT K] [LE K] [DecidableLE K] [HasFloor K]

/-- Interpolation reads the base node and its neighbours only. -/
theorem interp_local {s : IntSem} (hs : d < 3 → s = .wrap) {r : Req K} {g : Grid K d} (G : g.Made s r) (h : r.Valid d)
    {ls ls' : Levelset K} {phi phi' : Cell → K} {psi psi' : Cell → Vec3 K} {mix mix' : Cell → List K}
    (P : PrevIs s r g ls phi psi mix) (P' : PrevIs s r g ls' phi' psi' mix') {x : Vec3 K} {b : Vec3 ℤ}
    (e : g.baseNodeId x = .ok b)
    (hb : ∀ a : Fin 3, a.val < d → -r.pad ≤ b.get a ∧ b.get a + 1 < r.n.get a + r.pad)
    (hn : ∀ n, r.Padded d n → (∀ a : Fin 3, a.val < d → b.get a ≤ comp n a ∧ comp n a ≤ b.get a + 1) →
      phi n = phi' n ∧ psi n = psi' n ∧ mix n = mix' n) (lim : Bool) :
    interpolate s g ls x lim = interpolate s g ls' x lim := by
  have hp := h.pad_nonneg
  have n0 := h.nx_pos
  have n1 := h.ny_pos
  have n2 := h.nz_pos
  obtain ⟨bx, by', bz⟩ := b
  have b0 := fun ha => hb 0 ha
  have b1 := fun ha => hb 1 ha
  have b2 := fun ha => hb 2 ha
  simp only [Vec3.get] at b0 b1 b2
  rcases h.dim with rfl | rfl | rfl
  · obtain rfl := hs (by decide)
    have c0 := b0 (by decide)
    have rn : ∀ i j k, (i = bx ∨ i = bx + 1) → readNode1 .wrap g ls ⟨i, j, k⟩ = readNode1 .wrap g ls' ⟨i, j, k⟩ := by
      intro i j k hi
      have pc : r.Padded 1 (i, 0, 0) := by
        have e0 : padAlong 1 r.pad 0 = r.pad := rfl
        have e1 : padAlong 1 r.pad 1 = 0 := rfl
        have e2 : padAlong 1 r.pad 2 = 0 := rfl
        refine ⟨?_, ?_, ?_⟩
        · rw [e0]; rcases hi with rfl | rfl <;> (constructor <;> dsimp only <;> omega)
        · rw [e1]; constructor <;> dsimp only <;> omega
        · rw [e2]; constructor <;> dsimp only <;> omega
      obtain ⟨k1, k2, -⟩ := hn (i, 0, 0) pc fun a ha => by
        obtain rfl : a = 0 := by ext; change a.val = 0; omega
        simp only [comp, Vec3.get]; rcases hi with rfl | rfl <;> constructor <;> omega
      have r0 : ls.phiPrev.getV .wrap g ⟨i, 0, 0⟩ = ls'.phiPrev.getV .wrap g ⟨i, 0, 0⟩ :=
        (P.phi (i, 0, 0) pc).trans ((congrArg _ k1).trans (P'.phi (i, 0, 0) pc).symm)
      have r1 : ls.psiPrev.getV .wrap g ⟨i, 0, 0⟩ = ls'.psiPrev.getV .wrap g ⟨i, 0, 0⟩ :=
        (P.psi (i, 0, 0) pc).trans ((congrArg _ k2).trans (P'.psi (i, 0, 0) pc).symm)
      unfold readNode1
      rw [Arr.getV_wrap_yz G.shape (by decide) ls.phiPrev i j 0 k 0, Arr.getV_wrap_yz G.shape (by decide) ls.psiPrev i j 0 k 0,
        Arr.getV_wrap_yz G.shape (by decide) ls'.phiPrev i j 0 k 0, Arr.getV_wrap_yz G.shape (by decide) ls'.psiPrev i j 0 k 0, r0, r1]
    unfold interpolate interp1
    simp only [if_true, e, M.ok_bind, base_succ h .wrap 0 c0, rn bx by' bz (.inl rfl), rn (bx + 1) 0 0 (.inr rfl)]
  · obtain rfl := hs (by decide)
    have c0 := b0 (by decide)
    have c1 := b1 (by decide)
    have rn : ∀ i j k, (i = bx ∨ i = bx + 1) → (j = by' ∨ j = by' + 1) →
        readNode2 .wrap g ls ⟨i, j, k⟩ = readNode2 .wrap g ls' ⟨i, j, k⟩ := by
      intro i j k hi hj
      have pc : r.Padded 2 (i, j, 0) := by
        have e0 : padAlong 2 r.pad 0 = r.pad := rfl
        have e1 : padAlong 2 r.pad 1 = r.pad := rfl
        have e2 : padAlong 2 r.pad 2 = 0 := rfl
        refine ⟨?_, ?_, ?_⟩
        · rw [e0]; rcases hi with rfl | rfl <;> (constructor <;> dsimp only <;> omega)
        · rw [e1]; rcases hj with rfl | rfl <;> (constructor <;> dsimp only <;> omega)
        · rw [e2]; constructor <;> dsimp only <;> omega
      obtain ⟨k1, k2, k3⟩ := hn (i, j, 0) pc fun a ha => by
        match a with
        | 0 => simp only [comp, Vec3.get]; rcases hi with rfl | rfl <;> constructor <;> omega
        | 1 => simp only [comp, Vec3.get]; rcases hj with rfl | rfl <;> constructor <;> omega
        | 2 => exact absurd ha (by decide)
      have r0 : ls.phiPrev.getV .wrap g ⟨i, j, 0⟩ = ls'.phiPrev.getV .wrap g ⟨i, j, 0⟩ :=
        (P.phi (i, j, 0) pc).trans ((congrArg _ k1).trans (P'.phi (i, j, 0) pc).symm)
      have r1 : ls.psiPrev.getV .wrap g ⟨i, j, 0⟩ = ls'.psiPrev.getV .wrap g ⟨i, j, 0⟩ :=
        (P.psi (i, j, 0) pc).trans ((congrArg _ k2).trans (P'.psi (i, j, 0) pc).symm)
      have r2 : ls.phiMixedPrev.getV .wrap g ⟨i, j, 0⟩ = ls'.phiMixedPrev.getV .wrap g ⟨i, j, 0⟩ :=
        (P.mix (i, j, 0) pc).trans ((congrArg _ k3).trans (P'.mix (i, j, 0) pc).symm)
      unfold readNode2
      rw [Arr.getV_wrap_z G.shape (by decide) ls.phiPrev i j k 0, Arr.getV_wrap_z G.shape (by decide) ls.psiPrev i j k 0,
        Arr.getV_wrap_z G.shape (by decide) ls.phiMixedPrev i j k 0, Arr.getV_wrap_z G.shape (by decide) ls'.phiPrev i j k 0,
        Arr.getV_wrap_z G.shape (by decide) ls'.psiPrev i j k 0, Arr.getV_wrap_z G.shape (by decide) ls'.phiMixedPrev i j k 0, r0, r1, r2]
    unfold interpolate interp2
    simp only [if_neg (show ¬ (2 : ℕ) = 1 by decide), if_true, e, M.ok_bind, base_succ h .wrap 0 c0, base_succ h .wrap 1 c1,
      rn bx by' bz (.inl rfl) (.inl rfl), rn (bx + 1) by' 0 (.inr rfl) (.inl rfl), rn bx (by' + 1) 0 (.inl rfl) (.inr rfl),
      rn (bx + 1) (by' + 1) 0 (.inr rfl) (.inr rfl)]
  · have c0 := b0 (by decide)
    have c1 := b1 (by decide)
    have c2 := b2 (by decide)
    have rn : ∀ i j k, (i = bx ∨ i = bx + 1) → (j = by' ∨ j = by' + 1) → (k = bz ∨ k = bz + 1) →
        readNode3 s g ls ⟨i, j, k⟩ = readNode3 s g ls' ⟨i, j, k⟩ := by
      intro i j k hi hj hk
      have pc : r.Padded 3 (i, j, k) := by
        have e0 : padAlong 3 r.pad 0 = r.pad := rfl
        have e1 : padAlong 3 r.pad 1 = r.pad := rfl
        have e2 : padAlong 3 r.pad 2 = r.pad := rfl
        refine ⟨?_, ?_, ?_⟩
        · rw [e0]; rcases hi with rfl | rfl <;> (constructor <;> dsimp only <;> omega)
        · rw [e1]; rcases hj with rfl | rfl <;> (constructor <;> dsimp only <;> omega)
        · rw [e2]; rcases hk with rfl | rfl <;> (constructor <;> dsimp only <;> omega)
      obtain ⟨k1, k2, k3⟩ := hn (i, j, k) pc fun a ha => by
        match a with
        | 0 => simp only [comp, Vec3.get]; rcases hi with rfl | rfl <;> constructor <;> omega
        | 1 => simp only [comp, Vec3.get]; rcases hj with rfl | rfl <;> constructor <;> omega
        | 2 => simp only [comp, Vec3.get]; rcases hk with rfl | rfl <;> constructor <;> omega
      have r0 : ls.phiPrev.getV s g ⟨i, j, k⟩ = ls'.phiPrev.getV s g ⟨i, j, k⟩ :=
        (P.phi (i, j, k) pc).trans ((congrArg _ k1).trans (P'.phi (i, j, k) pc).symm)
      have r1 : ls.psiPrev.getV s g ⟨i, j, k⟩ = ls'.psiPrev.getV s g ⟨i, j, k⟩ :=
        (P.psi (i, j, k) pc).trans ((congrArg _ k2).trans (P'.psi (i, j, k) pc).symm)
      have r2 : ls.phiMixedPrev.getV s g ⟨i, j, k⟩ = ls'.phiMixedPrev.getV s g ⟨i, j, k⟩ :=
        (P.mix (i, j, k) pc).trans ((congrArg _ k3).trans (P'.mix (i, j, k) pc).symm)
      unfold readNode3
      rw [r0, r1, r2]
    unfold interpolate interp3
    simp only [if_neg (show ¬ (3 : ℕ) = 1 by decide), if_neg (show ¬ (3 : ℕ) = 2 by decide), e, M.ok_bind, base_succ h s 0 c0,
      base_succ h s 1 c1, base_succ h s 2 c2,
      rn bx by' bz (.inl rfl) (.inl rfl) (.inl rfl), rn (bx + 1) by' bz (.inr rfl) (.inl rfl) (.inl rfl),
      rn bx (by' + 1) bz (.inl rfl) (.inr rfl) (.inl rfl), rn bx by' (bz + 1) (.inl rfl) (.inl rfl) (.inr rfl),
      rn (bx + 1) (by' + 1) bz (.inr rfl) (.inr rfl) (.inl rfl), rn bx (by' + 1) (bz + 1) (.inl rfl) (.inr rfl) (.inr rfl),
      rn (bx + 1) by' (bz + 1) (.inr rfl) (.inl rfl) (.inr rfl), rn (bx + 1) (by' + 1) (bz + 1) (.inr rfl) (.inr rfl) (.inr rfl)]

/-- The base node of each departure point and its neighbours are stored and `lo` to `hi` cells away. -/
def Reach {d : ℕ} (r : Req K) (g : Grid K d) (dep : Cell → Vec3 K) (lo hi : ℤ) : Prop :=
  ∀ c, r.Interior c → ∃ b, g.baseNodeId (dep c) = .ok b ∧ ∀ a : Fin 3, a.val < d →
    -r.pad ≤ b.get a ∧ b.get a + 1 < r.n.get a + r.pad ∧ comp c a + lo ≤ b.get a ∧ b.get a + 1 ≤ comp c a + hi

/-- A step of two level sets: it returns, keeps the mixed derivatives and the ghost cells, and the new data of a cell depend on the data of
the stored cells `lo` to `hi` away. -/
def StepLocal {d : ℕ} (s : IntSem) (r : Req K) (g : Grid K d) (step : Levelset K → M (Levelset K)) (lo hi : ℤ) : Prop :=
  ∀ ⦃ls ls' : Levelset K⦄ ⦃F F' : Cell → K⦄ ⦃G G' : Cell → Vec3 K⦄ ⦃X X' : Cell → List K⦄, (∀ c, (X c).length = numMixed d) →
    (∀ c, (X' c).length = numMixed d) → Stored s r g ls F G X → Stored s r g ls' F' G' X' →
    ∃ l l' A A' B B', step ls = .ok l ∧ step ls' = .ok l' ∧ Stored s r g l A B X ∧ Stored s r g l' A' B' X' ∧
      (∀ c, r.Interior c → (∀ n, r.Padded d n → Within d lo hi c n → F n = F' n ∧ G n = G' n ∧ X n = X' n) → A c = A' c ∧ B c = B' c) ∧
      ∀ c, ¬ r.Interior c → A c = F c ∧ A' c = F' c ∧ B c = G c ∧ B' c = G' c

/-- Any number of steps. -/
theorem StepLocal.iterate {s : IntSem} {r : Req K} {g : Grid K d} {step : Levelset K → M (Levelset K)} {lo hi : ℤ}
    (L : StepLocal s r g step lo hi) (h0 : lo ≤ 0) (h1 : 0 ≤ hi) {steps : ℕ → Levelset K → M (Levelset K)} (z : ∀ ls, steps 0 ls = .ok ls)
    (sc : ∀ k ls, steps (k + 1) ls = steps k ls >>= step) {ls ls' : Levelset K} {F F' : Cell → K} {G G' : Cell → Vec3 K} {X X' : Cell → List K}
    (hX : ∀ c, (X c).length = numMixed d) (hX' : ∀ c, (X' c).length = numMixed d) (S : Stored s r g ls F G X) (S' : Stored s r g ls' F' G' X')
    (k : ℕ) : ∃ l l' A A' B B', steps k ls = .ok l ∧ steps k ls' = .ok l' ∧ Stored s r g l A B X ∧ Stored s r g l' A' B' X' ∧
      ∀ c, r.Padded d c → (∀ n, r.Padded d n → Within d (k * lo) (k * hi) c n → F n = F' n ∧ G n = G' n ∧ X n = X' n) → A c = A' c ∧ B c = B' c := by
  induction k with
  | zero =>
    exact ⟨ls, ls', F, F', G, G', z _, z _, S, S', fun c hc hn => by
      obtain ⟨q1, q2, -⟩ := hn c hc fun a _ => by simp
      exact ⟨q1, q2⟩⟩
  | succ k ih =>
    obtain ⟨l, l', A, A', B, B', e, e', T, T', hk⟩ := ih
    obtain ⟨u, u', C, C', D, D', a, a', U, U', q1, q2⟩ := L hX hX' T T'
    refine ⟨u, u', C, C', D, D', by rw [sc, e, M.ok_bind, a], by rw [sc, e', M.ok_bind, a'], U, U', fun c hc hn => ?_⟩
    have klo : (k : ℤ) * lo ≤ 0 := mul_nonpos_of_nonneg_of_nonpos (Int.natCast_nonneg k) h0
    have khi : 0 ≤ (k : ℤ) * hi := mul_nonneg (Int.natCast_nonneg k) h1
    have elo : ((k + 1 : ℕ) : ℤ) * lo = k * lo + lo := by push_cast; ring
    have ehi : ((k + 1 : ℕ) : ℤ) * hi = k * hi + hi := by push_cast; ring
    rw [elo, ehi] at hn
    by_cases hi' : r.Interior c
    · refine q1 c hi' fun n pn wn => ?_
      obtain ⟨z1, z2⟩ := hk n pn fun n' pn' wn' => hn n' pn' fun a ha => by
        obtain ⟨w1, w2⟩ := wn a ha
        obtain ⟨w3, w4⟩ := wn' a ha
        exact ⟨by linarith, by linarith⟩
      refine ⟨z1, z2, (hn n pn fun a ha => ?_).2.2⟩
      obtain ⟨w1, w2⟩ := wn a ha
      exact ⟨by linarith, by linarith⟩
    · obtain ⟨z1, z2, z3, z4⟩ := q2 c hi'
      rw [z1, z2, z3, z4]
      refine hk c hc fun n pn wn => hn n pn fun a ha => ?_
      obtain ⟨w1, w2⟩ := wn a ha
      exact ⟨by linarith, by linarith⟩

theorem comp_shift (c : Cell) (a b : Fin 3) (m : ℤ) : comp (shift c a m) b = if b = a then comp c b + m else comp c b := by
  match a, b with
  | 0, 0 | 0, 1 | 0, 2 | 1, 0 | 1, 1 | 1, 2 | 2, 0 | 2, 1 | 2, 2 => simp [comp, shift]

/-- A step in terms of the interpolation at the departure points. -/
theorem carry_result {s : IntSem} {r : Req K} {g gv : Grid K d} (M : g.Made s r) {dt : K} {vel : LsVelocity K} {v pos : Cell → Vec3 K}
    {m : Cell → Mat3 K} (hv : ∀ c, r.Interior c → vel.velocity.get s gv c.1 c.2.1 c.2.2 = .ok (v c))
    (hm : ∀ c, r.Interior c → vel.grad.get s gv c.1 c.2.1 c.2.2 = .ok (m c))
    (hpos : ∀ c, r.Interior c → g.at' s c.1 c.2.1 c.2.2 = .ok (pos c)) {ls : Levelset K} {F : Cell → K} {G : Cell → Vec3 K}
    {X : Cell → List K} (S : Stored s r g ls F G X)
    (ok : ∀ l1, PrevIs s r g l1 F G X → ∀ c, r.Interior c → ∃ o, interpolate s g l1 ((pos c).sub ((v c).smul dt)) false = .ok o) :
    ∃ (l1 l : Levelset K) (o : Cell → Interp K), PrevIs s r g l1 F G X ∧
      (∀ c, r.Interior c → interpolate s g l1 ((pos c).sub ((v c).smul dt)) false = .ok (o c)) ∧ carryStep s g gv dt vel ls = .ok l ∧
      Stored s r g l (fun c => if r.Interior c then (o c).phi else F c)
        (fun c => if r.Interior c then (Mat3.identity.sub ((m c).smul dt)).dot (o c).psi else G c) X := by
  obtain ⟨s1, s2, ⟨f3, s3⟩, ⟨f4, s4⟩, ⟨f5, s5⟩, ⟨f6, s6⟩, s7⟩ := S
  set l1 : Levelset K := { ls with phiPrev := ls.phiPrev.assign ls.phi, psiPrev := ls.psiPrev.assign ls.psi } with hl1
  have a1 : FieldIs s r g l1.phiPrev F := s3.assign s1
  have a2 : FieldIs s r g l1.psiPrev G := s4.assign s2
  have P : PrevIs s r g l1 F G X := ⟨a1.val, a2.val, s7.val⟩
  have : Nonempty (Interp K) := ⟨⟨0, ⟨0, 0, 0⟩⟩⟩
  obtain ⟨o, ho⟩ := choose_ok (p := r.Interior) (f := fun c => interpolate s g l1 ((pos c).sub ((v c).smul dt)) false) (ok l1 P)
  obtain ⟨l, k1, k2, k3, -, k5, k6, k7, k8, k9⟩ := slEuler_ok (dt := dt) (ls := l1) M hv hm hpos s1 s2 s5 s6 ho
  exact ⟨l1, l, o, P, ho, k1, k2, k3, ⟨F, by rw [k5]; exact a1⟩, ⟨G, by rw [k6]; exact a2⟩, ⟨_, k8⟩, ⟨_, k9⟩, by rw [k7]; exact s7⟩

section steps
variable {s : IntSem} (hs : d < 3 → s = .wrap) {r : Req K} {g gv : Grid K d} (M : g.Made s r) (h : r.Valid d) {dt : K}
  {vel : LsVelocity K} {v pos : Cell → Vec3 K} {m : Cell → Mat3 K}
  (hv : ∀ c, r.Interior c → vel.velocity.get s gv c.1 c.2.1 c.2.2 = .ok (v c))
  (hm : ∀ c, r.Interior c → vel.grad.get s gv c.1 c.2.1 c.2.2 = .ok (m c))
  (hpos : ∀ c, r.Interior c → g.at' s c.1 c.2.1 c.2.2 = .ok (pos c)) {lo hi : ℤ}
  (R : Reach r g (fun c => (pos c).sub ((v c).smul dt)) lo hi)
include hs M h hv hm hpos R

/-- One step of two level sets. -/
theorem carry_local {ls ls' : Levelset K} {F F' : Cell → K} {G G' : Cell → Vec3 K} {X X' : Cell → List K}
    (hX : ∀ c, (X c).length = numMixed d) (hX' : ∀ c, (X' c).length = numMixed d) (S : Stored s r g ls F G X) (S' : Stored s r g ls' F' G' X') :
    ∃ l l' A A' B B', carryStep s g gv dt vel ls = .ok l ∧ carryStep s g gv dt vel ls' = .ok l' ∧ Stored s r g l A B X ∧
      Stored s r g l' A' B' X' ∧
      (∀ c, r.Interior c → (∀ n, r.Padded d n → Within d lo hi c n → F n = F' n ∧ G n = G' n ∧ X n = X' n) → A c = A' c ∧ B c = B' c) ∧
      ∀ c, ¬ r.Interior c → A c = F c ∧ A' c = F' c ∧ B c = G c ∧ B' c = G' c := by
  have ok : ∀ {F : Cell → K} {G : Cell → Vec3 K} {X : Cell → List K}, (∀ c, (X c).length = numMixed d) → ∀ l1, PrevIs s r g l1 F G X →
      ∀ c, r.Interior c → ∃ o, interpolate s g l1 ((pos c).sub ((v c).smul dt)) false = .ok o := fun hX l1 P c hc => by
    obtain ⟨b, e, hb⟩ := R c hc
    exact interp_any hs M h hX P e (fun a ha => ⟨(hb a ha).1, (hb a ha).2.1⟩) false
  obtain ⟨l1, l, o, P, ho, e, T⟩ := carry_result M hv hm hpos S (ok hX)
  obtain ⟨l1', l', o', P', ho', e', T'⟩ := carry_result M hv hm hpos S' (ok hX')
  refine ⟨l, l', _, _, _, _, e, e', T, T', fun c hc hn => ?_, fun c hc => ⟨if_neg hc, if_neg hc, if_neg hc, if_neg hc⟩⟩
  obtain ⟨b, eb, hb⟩ := R c hc
  have := interp_local hs M h P P' eb (fun a ha => ⟨(hb a ha).1, (hb a ha).2.1⟩) (fun n pn k => hn n pn fun a ha => by
    obtain ⟨-, -, q1, q2⟩ := hb a ha
    obtain ⟨q3, q4⟩ := k a ha
    exact ⟨by omega, by omega⟩) false
  rw [ho c hc, ho' c hc] at this
  have := Except.ok.inj this
  simp only [if_pos hc, this, and_self]

/-- Carried gradients. -/
theorem carry_stepLocal : StepLocal s r g (carryStep s g gv dt vel) lo hi := fun _ _ _ _ _ _ _ _ hX hX' S S' =>
  carry_local hs M h hv hm hpos R hX hX' S S'

/-- Gradients recomputed by the differences of third order, which read two cells before and one after. -/
theorem recompute_stepLocal (hp : 2 ≤ r.pad) :
    StepLocal s r g (recomputeStep s g gv dt vel) (lo - 2) (hi + 1) := by
  intro ls ls' F F' G G' X X' hX hX' S S'
  obtain ⟨y, q, e, f, o, i⟩ := gradScalar_ok (sch := .third) M M rfl hp S.phi S.psi
  obtain ⟨y', q', e', f', o', i'⟩ := gradScalar_ok (sch := .third) M M rfl hp S'.phi S'.psi
  obtain ⟨l, l', A, A', B, B', k, k', T, T', c1, c2⟩ := carry_local hs M h hv hm hpos R hX hX'
    (show Stored s r g { ls with psi := y } F q X from ⟨S.phi, f, S.phiPrev, S.psiPrev, S.phiInterpPrev, S.psiInterpPrev, S.mixed⟩)
    (show Stored s r g { ls' with psi := y' } F' q' X' from
      ⟨S'.phi, f', S'.phiPrev, S'.psiPrev, S'.phiInterpPrev, S'.psiInterpPrev, S'.mixed⟩)
  refine ⟨l, l', A, A', B, B', ?_, ?_, T, T', fun c hc hn => c1 c hc fun n pn wn => ?_, fun c hc => ?_⟩
  · unfold recomputeStep; rw [e, _root_.Gals.M.ok_bind]; exact k
  · unfold recomputeStep; rw [e', _root_.Gals.M.ok_bind]; exact k'
  · obtain ⟨n1, n2, n3⟩ := hn n pn fun a ha => by
      obtain ⟨w1, w2⟩ := wn a ha
      exact ⟨by omega, by omega⟩
    refine ⟨n1, ?_, n3⟩
    by_cases hi' : r.Interior n
    · have get : ∀ a : Fin 3, (q n).get a = (q' n).get a := by
        intro a
        rw [i n hi' a, i' n hi' a, n2]
        split_ifs with ha
        · have sh : ∀ m : ℤ, -2 ≤ m → m ≤ 1 → F (shift n a m) = F' (shift n a m) := by
            intro m m1 m2
            refine (hn _ (shift_padded M hi' ha (m := m) (by omega) (by omega)) fun b hb => ?_).1
            obtain ⟨w1, w2⟩ := wn b hb
            have := comp_shift n a b m
            rw [this]
            split_ifs <;> constructor <;> omega
          simp only [rawDiff, thirdRaw, n1, sh 1 (by omega) (by omega), sh (-1) (by omega) (by omega), sh (-2) (by omega) (by omega)]
        · rfl
      have g0 := get 0
      have g1 := get 1
      have g2 := get 2
      cases hq : q n
      cases hq' : q' n
      rw [hq, hq'] at g0 g1 g2
      simp only [Vec3.get] at g0 g1 g2
      rw [g0, g1, g2]
    · rw [o n hi', o' n hi', n2]
  · obtain ⟨z1, z2, z3, z4⟩ := c2 c hc
    exact ⟨z1, z2, z3.trans (o c hc), z4.trans (o' c hc)⟩

end steps

end Gals
