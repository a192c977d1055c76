import Verif.Lemmas.Safe
import Verif.Model.RefMain

/-!
# Safety of the reference programs with any arithmetic

Nothing is assumed about the operations and comparisons of the scalar type.
-/

set_option linter.unusedSectionVars false
set_option linter.unusedSimpArgs false
set_option linter.unusedVariables false

namespace Gals.Ref

/-! ## Locations -/

/-- Index range of an array of numbers; the scratch variables of the mixed derivatives have none. -/
def rangeD (nx ny : ℕ) : DVar → ℕ → ℕ → Prop
  | .x, i, j => i = 0 ∧ j < nx
  | .y, i, j => i = 0 ∧ j < ny
  | .d1, _, _ => False
  | .d2, _, _ => False
  | .d3, _, _ => False
  | .d4, _, _ => False
  | .dxy1, _, _ => False
  | .dxy2, _, _ => False
  | _, i, j => i < ny ∧ j < nx

/-- The arrays that exist during the whole run. -/
def Kept (nx ny : ℕ) : Loc → Prop
  | .d .xadv _ _ => False
  | .d .yadv _ _ => False
  | .d a i j => rangeD nx ny a i j
  | .n _ _ _ => False

/-- With the departure points and their classes. -/
def Kept1 (nx ny : ℕ) : Loc → Prop
  | .d a i j => rangeD nx ny a i j
  | .n .tracker i j => i < ny ∧ j < nx
  | .n _ _ _ => False

/-- With the cells. -/
def Kept2 (nx ny : ℕ) : Loc → Prop
  | .d a i j => rangeD nx ny a i j
  | .n _ i j => i < ny ∧ j < nx

/-- With the scratch variables. -/
def Kept3 (nx ny : ℕ) (l : Loc) : Prop :=
  Kept2 nx ny l ∨ l = .d .d1 0 0 ∨ l = .d .d2 0 0 ∨ l = .d .d3 0 0 ∨ l = .d .d4 0 0 ∨ l = .d .dxy1 0 0 ∨ l = .d .dxy2 0 0

variable {K : Type}

/-- What is known about values: node positions `xs`, `ys`; departure points; cells. -/
def ValInv (xs ys : ℕ → K) (px py : ℕ → ℕ → K → Prop) (cx cy : ℕ → ℕ → ℕ → Prop) : (l : Loc) → Val K l → Prop
  | .d .x _ j, v => v = xs j
  | .d .y _ j, v => v = ys j
  | .d .xadv i j, v => px i j v
  | .d .yadv i j, v => py i j v
  | .n .cellx i j, v => cx i j v
  | .n .celly i j, v => cy i j v
  | _, _ => True

/-! ## Bodies -/

section bodies
variable [Zero K] [One K] [Add K] [_root_.Sub K] [Mul K] [Div K] [Neg K] [NatCast K]
variable {W B R : Loc → Prop} {I : ∀ l, Val K l → Prop} {nx ny : ℕ} {xs ys : ℕ → K} {px py : ℕ → ℕ → K → Prop}
  {cx cy : ℕ → ℕ → ℕ → Prop}

theorem adv_safe (v : Vel K) (rk3 : Bool) (t : ℕ) (dt : K) {i j : ℕ} (hi : i < ny) (hj : j < nx)
    (hR : ∀ l, Kept nx ny l → R l) (hW : ∀ l, Kept1 nx ny l → W l)
    (hp : ∀ k, px i j k ∧ py i j k) (Q : Unit → (Loc → Prop) → Prop)
    (hQ : ∀ R', (∀ l, R l → R' l) → Q () R') :
    (advBody v rk3 t dt i j).safe W B (ValInv xs ys px py cx cy) R Q := by
  have h1 := hW (.d .xadv i j) (by simp [Kept1, rangeD, hi, hj])
  have h2 := hW (.d .yadv i j) (by simp [Kept1, rangeD, hi, hj])
  have h3 := hR (.d .x 0 j) (by simp [Kept, rangeD, hj])
  have h4 := hR (.d .y 0 i) (by simp [Kept, rangeD, hi])
  cases rk3 <;>
    simp only [advBody, bind, pure, Prog.safe_bind, safe_getD, safe_setD, Prog.safe_pure, h1, h2, h3, h4, ValInv, hp, true_and,
      and_true, true_or, or_true, forall_eq, if_true, if_false, Bool.false_eq_true, implies_true, forall_const, or_assoc] <;>
    (repeat right) <;>
    exact hQ _ fun l hl => by simp [hl]

theorem advMpi_safe (v : Vel K) (rk3 : Bool) (t : ℕ) (dt : K) {i j : ℕ} (hi : i < ny) (hj : j < nx)
    (hR : ∀ l, Kept nx ny l → R l) (hW : ∀ l, Kept1 nx ny l → W l)
    (hp : ∀ k, px i j k ∧ py i j k) (Q : Unit → (Loc → Prop) → Prop)
    (hQ : ∀ R', (∀ l, R l → R' l) → Q () R') :
    (advBodyMpi v rk3 t dt i j).safe W B (ValInv xs ys px py cx cy) R Q := adv_safe v rk3 t dt hi hj hR hW hp Q hQ

section search
variable [LT K] [DecidableLT K] [LE K] [DecidableLE K]

/-- What a binary search of any array ends with. -/
theorem lowerBound_safe {a : DVar} {n : ℕ} {zs : ℕ → K} (hR : ∀ k < n, R (.d a 0 k)) (hI : ∀ k (v : K), I (.d a 0 k) v → v = zs k)
    (p : K) (Q : ℕ → (Loc → Prop) → Prop)
    (hQ : ∀ r ≤ n, (r = 0 ∨ zs (r - 1) < p) → (r = n ∨ ¬ zs r < p) → Q r R) (len first : ℕ) (hn : first + len ≤ n)
    (hl : first = 0 ∨ zs (first - 1) < p) (hr : first + len = n ∨ ¬ zs (first + len) < p) :
    (lowerBound a p first len).safe W B I R Q := by
  induction len using Nat.strong_induction_on generalizing first with
  | _ len ih =>
    rw [lowerBound]
    by_cases h0 : len = 0
    · subst h0
      rw [if_pos rfl]
      exact hQ first hn hl hr
    · rw [if_neg h0, Prog.safe_bind, safe_getD]
      refine .inr ⟨hR _ (by omega), fun v hv => ?_⟩
      rw [hI _ _ hv]
      by_cases hv : zs (first + len / 2) < p
      · rw [if_pos hv]
        refine ih _ (by omega) _ (by omega) (.inr (by simpa using hv)) ?_
        rw [show first + len / 2 + 1 + (len - len / 2 - 1) = first + len by omega]
        exact hr
      · rw [if_neg hv]
        exact ih _ (by omega) _ (by omega) hl (.inr hv)

theorem cellOf_safe {a : DVar} {n : ℕ} {zs : ℕ → K} (hR : ∀ k < n, R (.d a 0 k)) (hI : ∀ k (v : K), I (.d a 0 k) v → v = zs k)
    (hn : n < uMod) (p : K) (Q : ℕ → (Loc → Prop) → Prop) (h0 : zs 0 < p) (hn0 : 0 < n)
    (hQ : ∀ r, r < n → zs r < p → (r + 1 = n ∨ ¬ zs (r + 1) < p) → Q r R) : (cellOf a n p).safe W B I R Q := by
  unfold cellOf
  simp only [bind, pure]
  rw [Prog.safe_bind]
  refine lowerBound_safe hR hI p _ (fun r hr hl hr' => ?_) n 0 (by omega) (.inl rfl) (.inl (by omega))
  have hr0 : r ≠ 0 := by
    rintro rfl
    rcases hr' with h | h
    · omega
    · exact h h0
  rw [Prog.safe_pure, usub_eq (by omega) (by omega)]
  refine hQ (r - 1) (by omega) (hl.resolve_left hr0) ?_
  rwa [show r - 1 + 1 = r by omega]

/-- What the search stores, when the first node is not above the lower limit. -/
structure CellOk (lo hi : K) (n : ℕ) (zs : ℕ → K) (p : K → Prop) (c : ℕ → Prop) : Prop where
  first : ∀ q, lo < q → zs 0 < q
  inside : ∀ q, p q → lo < q → q < hi → ∀ r < n, zs r < q → (r + 1 = n ∨ ¬ zs (r + 1) < q) → c r
  low : c 0
  high : c (n - 2)

theorem find_safe {l1 l2 l3 l4 : K} {i j : ℕ} (hi : i < ny) (hj : j < nx) (hx2 : 2 ≤ nx) (hy2 : 2 ≤ ny) (hxu : nx < uMod)
    (hyu : ny < uMod) (hR : ∀ l, Kept2 nx ny l → R l) (hW : ∀ l, Kept2 nx ny l → W l)
    (hX : CellOk l1 l2 nx xs (px i j) (cx i j)) (hY : CellOk l3 l4 ny ys (py i j) (cy i j))
    (Q : Unit → (Loc → Prop) → Prop) (hQ : ∀ R', (∀ l, R l → R' l) → Q () R') :
    (findBody l1 l2 l3 l4 nx ny i j).safe W B (ValInv xs ys px py cx cy) R Q := by
  have w1 := hW (.n .cellx i j) (by simp [Kept2, hi, hj])
  have w2 := hW (.n .celly i j) (by simp [Kept2, hi, hj])
  have w3 := hW (.n .tracker i j) (by simp [Kept2, hi, hj])
  have r1 := hR (.d .xadv i j) (by simp [Kept2, rangeD, hi, hj])
  have r2 := hR (.d .yadv i j) (by simp [Kept2, rangeD, hi, hj])
  have hx : ∀ R' : Loc → Prop, (∀ l, R l → R' l) → ∀ k < nx, R' (.d .x 0 k) := fun R' h k hk =>
    h _ (hR _ (by simp [Kept2, rangeD, hk]))
  have hy : ∀ R' : Loc → Prop, (∀ l, R l → R' l) → ∀ k < ny, R' (.d .y 0 k) := fun R' h k hk =>
    h _ (hR _ (by simp [Kept2, rangeD, hk]))
  have cellX : ∀ (R' : Loc → Prop) (q : K) (Q' : ℕ → (Loc → Prop) → Prop), (∀ l, R l → R' l) → px i j q → l1 < q → q < l2 →
      (∀ r, cx i j r → Q' r R') → (cellOf .x nx q).safe W B (ValInv xs ys px py cx cy) R' Q' := fun R' q Q' hR' hp h1 h2 h3 =>
    cellOf_safe (hx R' hR') (fun k v hv => hv) hxu q Q' (hX.first q h1) (by omega) fun r a b c => h3 r (hX.inside q hp h1 h2 r a b c)
  have cellY : ∀ (R' : Loc → Prop) (q : K) (Q' : ℕ → (Loc → Prop) → Prop), (∀ l, R l → R' l) → py i j q → l3 < q → q < l4 →
      (∀ r, cy i j r → Q' r R') → (cellOf .y ny q).safe W B (ValInv xs ys px py cx cy) R' Q' := fun R' q Q' hR' hp h1 h2 h3 =>
    cellOf_safe (hy R' hR') (fun k v hv => hv) hyu q Q' (hY.first q h1) (by omega) fun r a b c => h3 r (hY.inside q hp h1 h2 r a b c)
  have ex : usub nx 2 = nx - 2 := usub_eq hx2 hxu
  have ey : usub ny 2 = ny - 2 := usub_eq hy2 hyu
  unfold findBody
  simp only [bind, pure]
  rw [Prog.safe_bind, safe_getD]
  refine .inr ⟨r1, fun xa hxa => ?_⟩
  rw [Prog.safe_bind, safe_getD]
  refine .inr ⟨r2, fun ya hya => ?_⟩
  by_cases hxi : l1 < xa ∧ xa < l2 <;> by_cases hyi : l3 < ya ∧ ya < l4 <;>
    simp only [hxi, hyi, decide_true, decide_false, Bool.not_true, Bool.not_false, Bool.and_self, Bool.and_true, Bool.true_and,
      Bool.and_false, Bool.false_and, if_true, Bool.false_eq_true, if_false, not_true_eq_false, not_false_eq_true, and_true,
      true_and, and_self, ex, ey]
  · rw [Prog.safe_bind, safe_setN]
    refine ⟨w3, trivial, ?_⟩
    rw [Prog.safe_bind]
    refine cellX _ xa _ (fun l hl => .inl hl) hxa hxi.1 hxi.2 fun r hr => ?_
    rw [Prog.safe_bind, safe_setN]
    refine ⟨w1, hr, ?_⟩
    rw [Prog.safe_bind]
    refine cellY _ ya _ (fun l hl => .inl (.inl hl)) hya hyi.1 hyi.2 fun r' hr' => ?_
    rw [safe_setN]
    exact ⟨w2, hr', hQ _ fun l hl => .inl (.inl (.inl hl))⟩
  · rw [Prog.safe_bind, safe_setN]
    refine ⟨w3, trivial, ?_⟩
    split_ifs
    · rw [Prog.safe_bind]
      refine cellX _ xa _ (fun l hl => .inl hl) hxa hxi.1 hxi.2 fun r hr => ?_
      rw [Prog.safe_bind, safe_setN, safe_setN]
      exact ⟨w1, hr, w2, hY.low, hQ _ fun l hl => .inl (.inl (.inl hl))⟩
    · rw [Prog.safe_bind]
      refine cellX _ xa _ (fun l hl => .inl hl) hxa hxi.1 hxi.2 fun r hr => ?_
      rw [Prog.safe_bind, safe_setN, safe_setN]
      exact ⟨w1, hr, w2, hY.high, hQ _ fun l hl => .inl (.inl (.inl hl))⟩
    · exact hQ _ fun l hl => .inl hl
  · rw [Prog.safe_bind, safe_setN]
    refine ⟨w3, trivial, ?_⟩
    split_ifs
    · rw [Prog.safe_bind]
      refine cellY _ ya _ (fun l hl => .inl hl) hya hyi.1 hyi.2 fun r hr => ?_
      rw [Prog.safe_bind, safe_setN, safe_setN]
      exact ⟨w2, hr, w1, hX.low, hQ _ fun l hl => .inl (.inl (.inl hl))⟩
    · rw [Prog.safe_bind]
      refine cellY _ ya _ (fun l hl => .inl hl) hya hyi.1 hyi.2 fun r hr => ?_
      rw [Prog.safe_bind, safe_setN, safe_setN]
      exact ⟨w2, hr, w1, hX.high, hQ _ fun l hl => .inl (.inl (.inl hl))⟩
    · exact hQ _ fun l hl => .inl hl
  · rw [safe_setN]
    exact ⟨w3, trivial, hQ _ fun l hl => .inl hl⟩

end search

theorem uadd_one {n k : ℕ} (hn : n < uMod) (hk : k < n) : uadd k 1 = k + 1 := by
  unfold uadd
  exact Nat.mod_eq_of_lt (by omega)

/-- Four values of a cell: it is inside the arrays, or the read beyond them is in `B`. -/
theorem readFour_safe {a : DVar} {kx ky : ℕ} (hxu : nx < uMod) (hyu : ny < uMod) (hR : ∀ i < ny, ∀ j < nx, R (.d a i j))
    (hx : kx < nx) (hy : ky < ny)
    (hb : (kx + 1 < nx ∧ ky + 1 < ny) ∨ ∀ i j, nx ≤ j ∨ ny ≤ i → B (.d a i j)) (Q : (Fin 4 → K) → (Loc → Prop) → Prop)
    (hQ : kx + 1 < nx → ky + 1 < ny → ∀ f, Q f R) : (readFour a kx ky).safe W B I R Q := by
  have ex := uadd_one hxu hx
  have ey := uadd_one hyu hy
  have g : ∀ i j, i ≤ ny → j ≤ nx → (j < nx ∨ j = kx + 1) → (i < ny ∨ i = ky + 1) →
      B (.d a i j) ∨ (i < ny ∧ j < nx ∧ R (.d a i j)) := by
    intro i j hi hj h1 h2
    by_cases hin : i < ny ∧ j < nx
    · exact .inr ⟨hin.1, hin.2, hR i hin.1 j hin.2⟩
    · rcases hb with hb | hb
      · exact absurd (by omega : i < ny ∧ j < nx) hin
      · exact .inl (hb i j (by omega))
  unfold readFour
  simp only [bind, pure, ex, ey]
  rw [Prog.safe_bind, safe_getD]
  refine .inr ⟨hR _ hy _ hx, fun v0 _ => ?_⟩
  rw [Prog.safe_bind, safe_getD]
  rcases g ky (kx + 1) (by omega) (by omega) (.inr rfl) (.inl hy) with h | ⟨_, h1, h⟩
  · exact .inl h
  refine .inr ⟨h, fun v1 _ => ?_⟩
  rw [Prog.safe_bind, safe_getD]
  rcases g (ky + 1) kx (by omega) (by omega) (.inl hx) (.inr rfl) with h | ⟨h2, _, h⟩
  · exact .inl h
  refine .inr ⟨h, fun v2 _ => ?_⟩
  rw [Prog.safe_bind, safe_getD]
  refine .inr ⟨hR _ h2 _ h1, fun v3 _ => ?_⟩
  exact hQ h1 h2 _

theorem update_safe (v : Vel K) (s : Schemes) (t : ℕ) (dt dx dy : K) {i j : ℕ} (hi : i < ny) (hj : j < nx) (hxu : nx < uMod)
    (hyu : ny < uMod) (hR : ∀ l, Kept2 nx ny l → R l) (hW : ∀ l, Kept2 nx ny l → W l)
    (hx : ∀ k, cx i j k → k < nx) (hy : ∀ k, cy i j k → k < ny)
    (hb : ((∀ k, cx i j k → k + 1 < nx) ∧ ∀ k, cy i j k → k + 1 < ny) ∨ ∀ i j, nx ≤ j ∨ ny ≤ i → B (.d .mphi i j))
    (Q : Unit → (Loc → Prop) → Prop)
    (hQ : ∀ kx ky R', cx i j kx → cy i j ky → kx + 1 < nx → ky + 1 < ny → (∀ l, R l → R' l) → Q () R') :
    (updateBody v s t dt dx dy i j).safe W B (ValInv xs ys px py cx cy) R Q := by
  have w1 := hW (.d .tempphi i j) (by simp [Kept2, rangeD, hi, hj])
  have w2 := hW (.d .temppsix i j) (by simp [Kept2, rangeD, hi, hj])
  have w3 := hW (.d .temppsiy i j) (by simp [Kept2, rangeD, hi, hj])
  have r1 := hR (.n .cellx i j) (by simp [Kept2, hi, hj])
  have r2 := hR (.n .celly i j) (by simp [Kept2, hi, hj])
  have r3 := hR (.n .tracker i j) (by simp [Kept2, hi, hj])
  have r4 := hR (.d .tempphi i j) (by simp [Kept2, rangeD, hi, hj])
  have r5 := hR (.d .temppsix i j) (by simp [Kept2, rangeD, hi, hj])
  have r6 := hR (.d .temppsiy i j) (by simp [Kept2, rangeD, hi, hj])
  have r7 := hR (.d .temppsixy i j) (by simp [Kept2, rangeD, hi, hj])
  have r8 := hR (.d .xadv i j) (by simp [Kept2, rangeD, hi, hj])
  have r9 := hR (.d .yadv i j) (by simp [Kept2, rangeD, hi, hj])
  have rx : ∀ k < nx, R (.d .x 0 k) := fun k hk => hR _ (by simp [Kept2, rangeD, hk])
  have ry : ∀ k < ny, R (.d .y 0 k) := fun k hk => hR _ (by simp [Kept2, rangeD, hk])
  have m1 : ∀ i < ny, ∀ j < nx, R (.d .mphi i j) := fun a ha b hb => hR _ (by simp [Kept2, rangeD, ha, hb])
  have m2 : ∀ i < ny, ∀ j < nx, R (.d .mpsix i j) := fun a ha b hb => hR _ (by simp [Kept2, rangeD, ha, hb])
  have m3 : ∀ i < ny, ∀ j < nx, R (.d .mpsiy i j) := fun a ha b hb => hR _ (by simp [Kept2, rangeD, ha, hb])
  have m4 : ∀ i < ny, ∀ j < nx, R (.d .mpsixy i j) := fun a ha b hb => hR _ (by simp [Kept2, rangeD, ha, hb])
  unfold updateBody
  simp only [bind, pure]
  rw [Prog.safe_bind, safe_getN]
  refine .inr ⟨r1, fun kx hkx => ?_⟩
  rw [Prog.safe_bind, safe_getN]
  refine .inr ⟨r2, fun ky hky => ?_⟩
  have hkx' := hx kx hkx
  have hky' := hy ky hky
  rw [Prog.safe_bind]
  refine readFour_safe hxu hyu m1 hkx' hky' (hb.imp (fun h => ⟨h.1 kx hkx, h.2 ky hky⟩) id) _ fun h1 h2 f1 => ?_
  rw [Prog.safe_bind]
  refine readFour_safe hxu hyu m2 hkx' hky' (.inl ⟨h1, h2⟩) _ fun _ _ f2 => ?_
  rw [Prog.safe_bind]
  refine readFour_safe hxu hyu m3 hkx' hky' (.inl ⟨h1, h2⟩) _ fun _ _ f3 => ?_
  rw [Prog.safe_bind]
  refine readFour_safe hxu hyu m4 hkx' hky' (.inl ⟨h1, h2⟩) _ fun _ _ f4 => ?_
  have hQ' := fun R' => hQ kx ky R' hkx hky h1 h2
  rw [Prog.safe_bind, safe_getD]
  refine .inr ⟨rx _ hkx', fun xo _ => ?_⟩
  rw [Prog.safe_bind, safe_getD]
  refine .inr ⟨ry _ hky', fun yo _ => ?_⟩
  rw [Prog.safe_bind, safe_getD]
  refine .inr ⟨rx _ hj, fun x _ => ?_⟩
  rw [Prog.safe_bind, safe_getD]
  refine .inr ⟨ry _ hi, fun y _ => ?_⟩
  rw [Prog.safe_bind, safe_getD]
  refine .inr ⟨r8, fun xa _ => ?_⟩
  rw [Prog.safe_bind, safe_getD]
  refine .inr ⟨r9, fun ya _ => ?_⟩
  rw [Prog.safe_bind, safe_getN]
  refine .inr ⟨r3, fun tr _ => ?_⟩
  split
  · rw [Prog.safe_bind, safe_setD]
    refine ⟨w1, trivial, ?_⟩
    split_ifs
    · rw [Prog.safe_bind, safe_setD, safe_setD]
      exact ⟨w2, trivial, w3, trivial, hQ' _ fun l hl => .inl (.inl (.inl hl))⟩
    · rw [Prog.safe_bind, safe_setD, safe_setD]
      exact ⟨w2, trivial, w3, trivial, hQ' _ fun l hl => .inl (.inl (.inl hl))⟩
    · exact hQ' _ fun l hl => .inl hl
  · rw [Prog.safe_bind, safe_getD]
    refine .inr ⟨r6, fun _ _ => ?_⟩
    rw [Prog.safe_bind, safe_setD]
    refine ⟨w1, trivial, ?_⟩
    rw [Prog.safe_bind, safe_getD]
    refine .inr ⟨.inl r7, fun _ _ => ?_⟩
    rw [Prog.safe_bind, safe_getD]
    refine .inr ⟨.inl r5, fun _ _ => ?_⟩
    rw [safe_setD]
    exact ⟨w2, trivial, hQ' _ fun l hl => .inl (.inl hl)⟩
  · rw [Prog.safe_bind, safe_getD]
    refine .inr ⟨r5, fun _ _ => ?_⟩
    rw [Prog.safe_bind, safe_setD]
    refine ⟨w1, trivial, ?_⟩
    rw [Prog.safe_bind, safe_getD]
    refine .inr ⟨.inl r7, fun _ _ => ?_⟩
    rw [Prog.safe_bind, safe_getD]
    refine .inr ⟨.inl r6, fun _ _ => ?_⟩
    rw [safe_setD]
    exact ⟨w3, trivial, hQ' _ fun l hl => .inl (.inl hl)⟩
  · rw [Prog.safe_bind, safe_getD]
    refine .inr ⟨r4, fun _ _ => ?_⟩
    rw [Prog.safe_bind, safe_getD]
    refine .inr ⟨r5, fun _ _ => ?_⟩
    rw [Prog.safe_bind, safe_getD]
    refine .inr ⟨r6, fun _ _ => ?_⟩
    rw [safe_setD]
    exact ⟨w1, trivial, hQ' _ fun l hl => .inl hl⟩
  · exact hQ' _ fun l => id

theorem bindGet_safe {a : DVar} {i j : ℕ} {f : K → P K Unit} {Q : Unit → (Loc → Prop) → Prop} (h : R (.d a i j))
    (hk : ∀ v, (f v).safe W B I R Q) : (Prog.bind (getD a i j) f).safe W B I R Q :=
  .inr ⟨h, fun v _ => hk v⟩

theorem bindSet_safe {a : DVar} {i j : ℕ} {v : K} {f : Unit → P K Unit} {Q : Unit → (Loc → Prop) → Prop} (h : W (.d a i j))
    (hi : I (.d a i j) v) (hk : (f ()).safe W B I (fun x => R x ∨ x = .d a i j) Q) :
    (Prog.bind (setD a i j v) f).safe W B I R Q := ⟨h, hi, hk⟩

/-- Reads `temppsix`, `temppsiy` inside the arrays and writes `temppsixy` or the variables. -/
theorem mixed_safe (dx dy : K) {k l : ℕ} (hk : k < ny) (hl : l < nx) (hx2 : 3 ≤ nx) (hy2 : 3 ≤ ny) (hxu : nx < uMod)
    (hyu : ny < uMod) (hR : ∀ q, Kept2 nx ny q → R q) (hW : ∀ q, Kept3 nx ny q → W q)
    (Q : Unit → (Loc → Prop) → Prop) (hQ : ∀ R', (∀ q, R q → R' q) → Q () R') :
    (mixedBody nx ny dx dy k l).safe W B (ValInv xs ys px py cx cy) R Q := by
  have w0 : W (.d .temppsixy k l) := hW _ (.inl (by simp [Kept2, rangeD, hk, hl]))
  have w1 : W (.d .d1 0 0) := hW _ (by simp [Kept3])
  have w2 : W (.d .d2 0 0) := hW _ (by simp [Kept3])
  have w3 : W (.d .d3 0 0) := hW _ (by simp [Kept3])
  have w4 : W (.d .d4 0 0) := hW _ (by simp [Kept3])
  have w5 : W (.d .dxy1 0 0) := hW _ (by simp [Kept3])
  have w6 : W (.d .dxy2 0 0) := hW _ (by simp [Kept3])
  have gx : ∀ a < ny, ∀ b < nx, R (.d .temppsix a b) := fun a ha b hb => hR _ (by simp [Kept2, rangeD, ha, hb])
  have gy : ∀ a < ny, ∀ b < nx, R (.d .temppsiy a b) := fun a ha b hb => hR _ (by simp [Kept2, rangeD, ha, hb])
  have ex1 : usub nx 1 = nx - 1 := usub_eq (by omega) hxu
  have ex2 : usub nx 2 = nx - 2 := usub_eq (by omega) hxu
  have ey1 : usub ny 1 = ny - 1 := usub_eq (by omega) hyu
  have ey2 : usub ny 2 = ny - 2 := usub_eq (by omega) hyu
  have el : uadd l 1 = l + 1 := uadd_one hxu hl
  have ek : uadd k 1 = k + 1 := uadd_one hyu hk
  have sl : l ≠ 0 → usub l 1 = l - 1 := fun h => usub_eq (by omega) (by omega)
  have sk : k ≠ 0 → usub k 1 = k - 1 := fun h => usub_eq (by omega) (by omega)
  unfold mixedBody
  simp only [bind, pure, ex1, ex2, ey1, ey2, el, ek]
  split_ifs with c1 c2 c3 c4 c5 c6 c7
  · rw [sl c1.2.1]
    rw [Prog.safe_bind, safe_getD]
    refine .inr ⟨gy _ (by omega) _ (by omega), fun _ _ => ?_⟩
    rw [Prog.safe_bind, safe_getD]
    refine .inr ⟨gy _ (by omega) _ (by omega), fun _ _ => ?_⟩
    exact ⟨w0, trivial, hQ _ fun q hq => .inl hq⟩
  · rw [sk c2.1.1]
    rw [Prog.safe_bind, safe_getD]
    refine .inr ⟨gx _ (by omega) _ (by omega), fun _ _ => ?_⟩
    rw [Prog.safe_bind, safe_getD]
    refine .inr ⟨gx _ (by omega) _ (by omega), fun _ _ => ?_⟩
    exact ⟨w0, trivial, hQ _ fun q hq => .inl hq⟩
  · repeat'
      first
      | exact ⟨w0, trivial, hQ _ fun q hq => by simp only [hq, true_or]⟩
      | refine bindGet_safe (by repeat first | exact gx _ (by omega) _ (by omega) | exact gy _ (by omega) _ (by omega) | exact .inr rfl | apply Or.inl) fun _ => ?_
      | refine bindSet_safe (by assumption) trivial ?_
  · repeat'
      first
      | exact ⟨w0, trivial, hQ _ fun q hq => by simp only [hq, true_or]⟩
      | refine bindGet_safe (by repeat first | exact gx _ (by omega) _ (by omega) | exact gy _ (by omega) _ (by omega) | exact .inr rfl | apply Or.inl) fun _ => ?_
      | refine bindSet_safe (by assumption) trivial ?_
  · repeat'
      first
      | exact ⟨w0, trivial, hQ _ fun q hq => by simp only [hq, true_or]⟩
      | refine bindGet_safe (by repeat first | exact gx _ (by omega) _ (by omega) | exact gy _ (by omega) _ (by omega) | exact .inr rfl | apply Or.inl) fun _ => ?_
      | refine bindSet_safe (by assumption) trivial ?_
  · repeat'
      first
      | exact ⟨w0, trivial, hQ _ fun q hq => by simp only [hq, true_or]⟩
      | refine bindGet_safe (by repeat first | exact gx _ (by omega) _ (by omega) | exact gy _ (by omega) _ (by omega) | exact .inr rfl | apply Or.inl) fun _ => ?_
      | refine bindSet_safe (by assumption) trivial ?_
  · exact hQ _ fun q => id
  · have hl0 : l ≠ 0 := by
      rintro rfl
      by_cases hk0 : k = 0 ∨ k = ny - 1
      · exact c3 ⟨hk0, .inl rfl⟩
      · exact c2 ⟨by omega, .inl rfl⟩
    have hl1 : l ≠ nx - 1 := by
      rintro rfl
      by_cases hk0 : k = 0 ∨ k = ny - 1
      · exact c3 ⟨hk0, .inr rfl⟩
      · exact c2 ⟨by omega, .inr rfl⟩
    have hk0 : ¬ (k = 0 ∨ k = ny - 1) := fun h => c1 ⟨h, hl0, hl1⟩
    rw [sl hl0, sk (by omega)]
    repeat'
      first
      | exact ⟨w0, trivial, hQ _ fun q hq => by simp only [hq, true_or]⟩
      | refine bindGet_safe (by repeat first | exact gx _ (by omega) _ (by omega) | exact gy _ (by omega) _ (by omega) | exact .inr rfl | apply Or.inl) fun _ => ?_
      | refine bindSet_safe (by assumption) trivial ?_

end bodies

end Gals.Ref
