import Verif.Lemmas.BaseDouble
import Verif.Lemmas.InterpAny
import Verif.Props.RefDouble

/-!
# C85: the library's base node and interpolation in double arithmetic
-/

set_option linter.unusedSectionVars false

namespace Gals.Props

open Gals Gals.Spec

/-! ## The base node -/

theorem n_lt {d : ℕ} {r : Req F64} (h : r.Valid d) (a : Fin 3) : 0 < r.n.get a ∧ r.n.get a + 2 * r.pad ≤ 2147483647 :=
  ⟨h.n_pos a, h.side_le a⟩

/-- C85. In double arithmetic the base node of a point of the box, or at most `m` cell widths outside it, is exact up to
`n * 2 ^ (-48)` cell widths: the point is between the centres of the base cell and the next one, or that close to one of
them.  (`n` is the number of cells along the axis, so the tolerance is below `2 ^ (-17)` of a cell.) -/
theorem C85_base_node_partial (s : IntSem) (d : ℕ) (r : Req F64) (h : r.Valid d) (lo hi : Fin 3 → ℚ) (hbox : BoxIs r d lo hi)
    (m : ℕ) (hm : m ≤ r.pad) (hmn : ∀ a : Fin 3, a.val < d → m ≤ r.n.get a) (g : Grid F64 d) (e : r.make s d = .ok g)
    (x : Vec3 F64) (q : Fin 3 → ℚ)
    (hx : ∀ a : Fin 3, a.val < d → HasValue (x.get a) (q a) ∧ lo a - m * ((hi a - lo a) / r.n.get a) ≤ q a ∧
      q a ≤ hi a + m * ((hi a - lo a) / r.n.get a)) :
    ∃ b : Vec3 ℤ, g.baseNodeId x = .ok b ∧ ∀ a : Fin 3, a.val < d →
      lo a + (b.get a + 1 / 2 - r.n.get a / 2 ^ 48) * ((hi a - lo a) / r.n.get a) ≤ q a ∧
      q a < lo a + (b.get a + 1 + 1 / 2 + r.n.get a / 2 ^ 48) * ((hi a - lo a) / r.n.get a) := by
  have G := make_made h e
  have hone : ∀ a : Fin 3, ∃ z : ℤ,
      (if a.val < d then
        toInt (HasFloor.floorI ((x.get a - g.boxMin.get a) * g.oneOverDx.get a - 1 / 2))
      else .ok intMax) = .ok z ∧
      (a.val < d → lo a + (z + 1 / 2 - r.n.get a / 2 ^ 48) * ((hi a - lo a) / r.n.get a) ≤ q a ∧
        q a < lo a + (z + 1 + 1 / 2 + r.n.get a / 2 ^ 48) * ((hi a - lo a) / r.n.get a)) := by
    intro a
    by_cases ha : a.val < d
    · obtain ⟨hl, hh, h1, h2⟩ := hbox a ha
      obtain ⟨hv, x1, x2⟩ := hx a ha
      obtain ⟨n0, n1⟩ := n_lt h a
      have hp := h.pad_nonneg
      have hmn' := hmn a ha
      have ed : g.oneOverDx.get a = 1 / ((r.hi.get a - r.lo.get a) / ((r.n.get a : ℤ) : F64)) := G.oneOverDx a ha
      generalize r.n.get a = n at *
      have hnq : (0 : ℚ) < n := by exact_mod_cast n0
      have hw : 0 < hi a - lo a := (two_zpow_pos _).trans_le h1
      have hH : 0 < (hi a - lo a) / n := div_pos hw hnq
      have hmw : (m : ℚ) * ((hi a - lo a) / n) ≤ hi a - lo a := by
        have : (m : ℚ) ≤ n := by exact_mod_cast hmn'
        calc (m : ℚ) * ((hi a - lo a) / n) ≤ n * ((hi a - lo a) / n) := mul_le_mul_of_nonneg_right this hH.le
          _ = hi a - lo a := by field_simp
      have hm0 : 0 ≤ (m : ℚ) * ((hi a - lo a) / n) := mul_nonneg m.cast_nonneg hH.le
      obtain ⟨t, ht, herr⟩ := coord_double hl hh hv h1 h2 n0 (by omega : n < 2 ^ 32) (by
        rw [abs_le]
        constructor <;> linarith)
      rw [if_pos ha, G.boxMin, ed, floor_eq ht]
      have eqn : (q a - lo a) / ((hi a - lo a) / n) * ((hi a - lo a) / n) = q a - lo a := div_mul_cancel₀ _ hH.ne'
      set T := (q a - lo a) / ((hi a - lo a) / n) with hT
      obtain ⟨e1, e2⟩ := abs_le.1 herr
      have f1 := Int.floor_le t
      have f2 := Int.lt_floor_add_one t
      have hnn : (n : ℚ) / 2 ^ 48 ≤ 1 / 4 := by
        have : (n : ℚ) ≤ 2147483647 := by exact_mod_cast (by omega : n ≤ 2147483647)
        linarith
      have T1 : -(m : ℚ) ≤ T := by
        rw [hT, le_div_iff₀ hH]
        linarith
      have T2 : T ≤ n + m := by
        rw [hT, div_le_iff₀ hH, add_mul]
        have : (n : ℚ) * ((hi a - lo a) / n) = hi a - lo a := by field_simp
        linarith
      have z1 : -(m : ℤ) - 1 ≤ ⌊t⌋ := by
        rw [Int.le_floor]
        push_cast
        linarith
      have z2 : ⌊t⌋ < n + m := by
        rw [Int.floor_lt]
        push_cast
        linarith
      refine ⟨⌊t⌋, ?_, fun _ => ⟨?_, ?_⟩⟩
      · unfold toInt
        rw [if_pos (show InInt ⌊t⌋ from ⟨by unfold intMin; omega, by unfold intMax; omega⟩)]
      · have : (⌊t⌋ + 1 / 2 - n / 2 ^ 48) * ((hi a - lo a) / n) ≤ T * ((hi a - lo a) / n) :=
          mul_le_mul_of_nonneg_right (by linarith) hH.le
        linarith
      · have : T * ((hi a - lo a) / n) < (⌊t⌋ + 1 + 1 / 2 + n / 2 ^ 48) * ((hi a - lo a) / n) :=
          mul_lt_mul_of_pos_right (by linarith) hH
        linarith
    · exact ⟨intMax, by rw [if_neg ha], fun h => absurd h ha⟩
  obtain ⟨z0, e0, p0⟩ := hone 0
  obtain ⟨z1, e1, p1⟩ := hone 1
  obtain ⟨z2, e2, p2⟩ := hone 2
  refine ⟨⟨z0, z1, z2⟩, ?_, ?_⟩
  · unfold Grid.baseNodeId
    simp only [e0, e1, e2, M.ok_bind, M.pure_eq]
  · intro a ha
    match a with
    | 0 => exact p0 ha
    | 1 => exact p1 ha
    | 2 => exact p2 ha

/-- C85. In double arithmetic the base node of every point of the closed box and its neighbours are stored, for every
padding of at least one cell. -/
theorem C85_stencil (s : IntSem) (d : ℕ) (r : Req F64) (h : r.Valid d) (hpad : 1 ≤ r.pad) (lo hi : Fin 3 → ℚ)
    (hbox : BoxIs r d lo hi) (g : Grid F64 d) (e : r.make s d = .ok g) (x : Vec3 F64) (q : Fin 3 → ℚ)
    (hx : ∀ a : Fin 3, a.val < d → HasValue (x.get a) (q a) ∧ lo a ≤ q a ∧ q a ≤ hi a) :
    ∃ b : Vec3 ℤ, g.baseNodeId x = .ok b ∧
      ∀ o : Fin 3 → ℤ, (∀ a, o a = 0 ∨ o a = 1) →
        r.Padded d (if 0 < d then b.x + o 0 else 0, if 1 < d then b.y + o 1 else 0, if 2 < d then b.z + o 2 else 0) := by
  obtain ⟨b, e1, key⟩ := C85_base_node_partial s d r h lo hi hbox 0 (by exact_mod_cast h.pad_nonneg)
    (fun a _ => by have := h.n_pos a; simp; omega) g e x q (fun a ha => by
      obtain ⟨h1, h2, h3⟩ := hx a ha
      exact ⟨h1, by simpa using h2, by simpa using h3⟩)
  refine ⟨b, e1, ?_⟩
  intro o ho
  have rng : ∀ a : Fin 3, a.val < d → -1 ≤ b.get a ∧ b.get a ≤ r.n.get a - 1 := by
    intro a ha
    obtain ⟨k1, k2⟩ := key a ha
    obtain ⟨-, h2, h3⟩ := hx a ha
    obtain ⟨-, -, w1, -⟩ := hbox a ha
    obtain ⟨n0, n1⟩ := n_lt h a
    generalize r.n.get a = n at *
    have hnq : (0 : ℚ) < n := by exact_mod_cast n0
    have hH : 0 < (hi a - lo a) / n := div_pos ((two_zpow_pos _).trans_le w1) hnq
    have hnn : (n : ℚ) / 2 ^ 48 ≤ 1 / 4 := by
      have hp := h.pad_nonneg
      have : (n : ℚ) ≤ 2147483647 := by exact_mod_cast (by omega : n ≤ 2147483647)
      linarith
    have c1 : (0 : ℚ) < (b.get a + 1 + 1 / 2 + n / 2 ^ 48) := by
      by_contra hcon
      have := mul_nonpos_of_nonpos_of_nonneg (not_lt.1 hcon) hH.le
      linarith
    have c2 : (b.get a + 1 / 2 - n / 2 ^ 48 : ℚ) ≤ n := by
      have e2 : (n : ℚ) * ((hi a - lo a) / n) = hi a - lo a := by field_simp
      by_contra hcon
      have := mul_lt_mul_of_pos_right (not_le.1 hcon) hH
      linarith
    constructor
    · have : (-2 : ℚ) < b.get a := by linarith
      have : -2 < b.get a := by exact_mod_cast this
      omega
    · have : (b.get a : ℚ) < n := by linarith
      have : b.get a < n := by exact_mod_cast this
      omega
  have q' : ∀ a : Fin 3, a.val < d → -padAlong d r.pad a ≤ b.get a + o a ∧ b.get a + o a < r.n.get a + padAlong d r.pad a := by
    intro a ha
    have := rng a ha
    unfold padAlong
    rw [if_pos ha]
    rcases ho a with h | h <;> omega
  have q'' : ∀ a : Fin 3, ¬ a.val < d → -padAlong d r.pad a ≤ 0 ∧ 0 < r.n.get a + padAlong d r.pad a := by
    intro a ha
    unfold padAlong
    rw [if_neg ha]
    have := h.n_pos a
    omega
  refine ⟨?_, ?_, ?_⟩
  · show _ ≤ (if 0 < d then b.x + o 0 else 0) ∧ (if 0 < d then b.x + o 0 else 0) < _
    split
    · rename_i hd; exact q' 0 hd
    · rename_i hd; exact q'' 0 hd
  · show _ ≤ (if 1 < d then b.y + o 1 else 0) ∧ (if 1 < d then b.y + o 1 else 0) < _
    split
    · rename_i hd; exact q' 1 hd
    · rename_i hd; exact q'' 1 hd
  · show _ ≤ (if 2 < d then b.z + o 2 else 0) ∧ (if 2 < d then b.z + o 2 else 0) < _
    split
    · rename_i hd; exact q' 2 hd
    · rename_i hd; exact q'' 2 hd

/-- C85. In double arithmetic interpolation at every point of the closed box returns, whatever numbers are stored (also
infinities and NaNs); in one and two dimensions with wrap-around index arithmetic (`C05_false`). -/
theorem C85_interpolate (s : IntSem) (d : ℕ) (hs : d < 3 → s = .wrap) (r : Req F64) (h : r.Valid d) (hpad : 1 ≤ r.pad)
    (lo hi : Fin 3 → ℚ) (hbox : BoxIs r d lo hi) (g : Grid F64 d) (e : r.make s d = .ok g) (ls : Levelset F64)
    (phi : Cell → F64) (psi : Cell → Vec3 F64) (mix : Cell → List F64) (hm : ∀ c, (mix c).length = numMixed d)
    (P : PrevIs s r g ls phi psi mix) (x : Vec3 F64) (q : Fin 3 → ℚ)
    (hx : ∀ a : Fin 3, a.val < d → HasValue (x.get a) (q a) ∧ lo a ≤ q a ∧ q a ≤ hi a) (lim : Bool) :
    ∃ out, interpolate s g ls x lim = .ok out := by
  obtain ⟨b, e1, key⟩ := C85_stencil s d r h hpad lo hi hbox g e x q hx
  refine interp_any hs (make_made h e) h hm P e1 (fun a ha => ?_) lim
  obtain ⟨⟨l0, -⟩, ⟨l1, -⟩, l2, -⟩ := key (fun _ => 0) fun _ => .inl rfl
  obtain ⟨⟨-, u0⟩, ⟨-, u1⟩, -, u2⟩ := key (fun _ => 1) fun _ => .inr rfl
  have hp : padAlong d r.pad a = r.pad := if_pos ha
  match a with
  | 0 =>
    change (0 : ℕ) < d at ha
    simp only [if_pos ha, add_zero] at l0 u0
    exact ⟨by rw [← hp]; exact l0, by rw [← hp]; exact u0⟩
  | 1 =>
    change (1 : ℕ) < d at ha
    simp only [if_pos ha, add_zero] at l1 u1
    exact ⟨by rw [← hp]; exact l1, by rw [← hp]; exact u1⟩
  | 2 =>
    change (2 : ℕ) < d at ha
    simp only [if_pos ha, add_zero] at l2 u2
    exact ⟨by rw [← hp]; exact l2, by rw [← hp]; exact u2⟩

/-! ## Rounding moves stored nodes into the neighbouring cell -/

/-- Six cells on `[0, 1]`, one layer of padding. -/
def six : Req F64 := ⟨⟨6, 1, 1⟩, 1, ⟨0, 0, 0⟩, ⟨1, 1, 1⟩⟩

theorem six_valid : six.Valid 1 := ⟨by simp, by decide, by decide, by decide, by decide, by decide, by decide, by decide⟩

theorem six_box : BoxIs six 1 (fun _ => 0) (fun _ => 1) := by
  intro a _
  refine ⟨?_, ?_, ?_, ?_⟩
  · match a with
    | 0 => exact hasValue_zero
    | 1 => exact hasValue_zero
    | 2 => exact hasValue_zero
  · match a with
    | 0 => exact hasValue_one
    | 1 => exact hasValue_one
    | 2 => exact hasValue_one
  · rw [sub_zero]; exact zpow_le_one_of_nonpos₀ (by norm_num) (by norm_num)
  · rw [sub_zero]; exact one_le_pow₀ (by norm_num)

/-- The base node of the stored node of cell `i` of `six`. -/
def baseOfNode (i : ℤ) : M (Vec3 ℤ) := do
  let g : Grid F64 1 ← six.make .wrap 1
  let x ← g.at' .wrap i 0 0
  g.baseNodeId x

example : baseOfNode 2 = .ok ⟨2, intMax, intMax⟩ := by decide +kernel

/-- C85, exactness fails: with six cells on `[0, 1]` the base node of the stored position of cell 3 is cell 2, although in
exact arithmetic every stored node (padding 1) is its own base node (`C02`, `C03_base_node`). -/
theorem C85_false : ∃ (g : Grid F64 1) (x : Vec3 F64), six.make .wrap 1 = .ok g ∧ g.at' .wrap 3 0 0 = .ok x ∧
    g.baseNodeId x = .ok ⟨2, intMax, intMax⟩ := by
  have key : baseOfNode 3 = .ok ⟨2, intMax, intMax⟩ := by decide +kernel
  obtain ⟨g, eg, key⟩ := bind_ok key
  obtain ⟨x, ex, key⟩ := bind_ok key
  exact ⟨g, x, eg, ex, key⟩

/-! ## An instance of the hypotheses -/

/-- 10 × 6 cells on `[-1, 1] × [0, 1]`, two layers of padding. -/
def plate : Req F64 := ⟨⟨10, 6, 1⟩, 2, ⟨-1, 0, 0⟩, ⟨1, 1, 1⟩⟩

theorem plate_valid : plate.Valid 2 :=
  ⟨by simp, by decide, by decide, by decide, by decide, by decide, by decide, by decide⟩

theorem plate_box : BoxIs plate 2 (fun a => if a = 0 then -1 else 0) (fun _ => 1) := by
  have b1 : (2 : ℚ) ^ (-900 : ℤ) ≤ 1 := zpow_le_one_of_nonpos₀ (by norm_num) (by norm_num)
  have b2 : (1 : ℚ) ≤ 2 ^ 900 := one_le_pow₀ (by norm_num)
  have b3 : (2 : ℚ) ≤ 2 ^ 900 := le_self_pow₀ (by norm_num) (by norm_num)
  intro a ha
  match a with
  | 0 =>
    refine ⟨hasValue_neg hasValue_one, hasValue_one, ?_, ?_⟩
    · show (2 : ℚ) ^ (-900 : ℤ) ≤ 1 - -1
      refine b1.trans ?_
      norm_num
    · show (1 - -1 : ℚ) ≤ 2 ^ 900
      rw [show (1 - -1 : ℚ) = 2 by norm_num]
      exact b3
  | 1 =>
    refine ⟨hasValue_zero, hasValue_one, ?_, ?_⟩
    · show (2 : ℚ) ^ (-900 : ℤ) ≤ 1 - 0
      rw [sub_zero]
      exact b1
    · show (1 - 0 : ℚ) ≤ 2 ^ 900
      rw [sub_zero]
      exact b2
  | 2 => exact absurd ha (by decide)

/-- The point `(1/2, 1)`, on the upper edge of the box. -/
def edgePoint : Vec3 F64 := ⟨1 / 2, 1, 0⟩

theorem edgePoint_in : ∀ a : Fin 3, a.val < 2 → HasValue (edgePoint.get a) (if a = 0 then 1 / 2 else 1) ∧
    (if a = 0 then (-1 : ℚ) else 0) ≤ (if a = 0 then 1 / 2 else 1) ∧ (if a = 0 then (1 / 2 : ℚ) else 1) ≤ 1 := by
  intro a ha
  match a with
  | 0 => exact ⟨hasValue_half, by norm_num, by norm_num⟩
  | 1 => exact ⟨hasValue_one, by norm_num, by norm_num⟩
  | 2 => exact absurd ha (by decide)

/-- Instance of C85: a level set on `plate` that holds the cell numbers and NaNs as gradients. -/
example : ∃ g : Grid F64 2, plate.make .wrap 2 = .ok g ∧ (∃ b, g.baseNodeId edgePoint = .ok b ∧ b.x = 7 ∧ b.y = 5) ∧
    ∃ ls, ls.phiPrev.get .wrap g 7 5 0 = .ok ((7 : ℤ) : F64) ∧ ls.psiPrev.get .wrap g 7 5 0 = .ok ⟨.nan, .nan, .nan⟩ ∧
      ∃ out, interpolate .wrap g ls edgePoint false = .ok out := by
  obtain ⟨g, e, G⟩ := make_ok .wrap plate_valid
  obtain ⟨ls, P⟩ : ∃ ls, PrevIs .wrap plate g ls (fun c => ((c.1 : ℤ) : F64)) (fun _ => ⟨.nan, .nan, .nan⟩) (fun _ => [0]) := by
    obtain ⟨a, ha⟩ := Arr.exists_rep G.shape fun c : Cell => ((c.1 : ℤ) : F64)
    obtain ⟨b, hb⟩ := Arr.exists_rep G.shape fun _ : Cell => (⟨.nan, .nan, .nan⟩ : Vec3 F64)
    obtain ⟨c, hc⟩ := Arr.exists_rep G.shape fun _ : Cell => ([0] : List F64)
    exact ⟨{ Levelset.mk' g with phiPrev := a, psiPrev := b, phiMixedPrev := c },
      fun c hc => ha.get G.shape (G.inPad.2 hc), fun c hc => hb.get G.shape (G.inPad.2 hc),
      fun c' hc' => hc.get G.shape (G.inPad.2 hc')⟩
  have hin : plate.Padded 2 (7, 5, 0) := by unfold Req.Padded PaddedCell padAlong plate; simp
  have key : ((plate.make .wrap 2 : M (Grid F64 2)) >>= fun g => g.baseNodeId edgePoint) = .ok ⟨7, 5, intMax⟩ := by
    decide +kernel
  rw [e, M.ok_bind] at key
  have h1 := P.phi _ hin
  have h2 := P.psi _ hin
  have h3 := C85_interpolate .wrap 2 (fun _ => rfl) plate plate_valid (by decide) _ _ plate_box g e ls _ _ _ (fun _ => rfl) P
      edgePoint (fun a => if a = 0 then 1 / 2 else 1) edgePoint_in false
  exact ⟨g, e, ⟨_, key, rfl, rfl⟩, ls, h1, h2, h3⟩

/-- Instance of `C85_stencil` and of `C85_base_node_partial`: the point on the upper edge of `plate`. -/
example : ∃ (g : Grid F64 2) (b : Vec3 ℤ), plate.make .wrap 2 = .ok g ∧ g.baseNodeId edgePoint = .ok b ∧
    plate.Padded 2 (b.x + 1, b.y + 1, 0) := by
  obtain ⟨g, e, -⟩ := make_ok .wrap plate_valid
  obtain ⟨b, e1, h⟩ := C85_stencil .wrap 2 plate plate_valid (by decide) _ _ plate_box g e edgePoint
    (fun a => if a = 0 then 1 / 2 else 1) edgePoint_in
  exact ⟨g, b, e, e1, h (fun _ => 1) fun _ => .inr rfl⟩

end Gals.Props
