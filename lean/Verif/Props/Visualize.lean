import Verif.Props.AppStep
import Verif.Spec.Readers

/-!
# C76: the reader of the library's output draws the cells of the grid
-/

set_option linter.unusedSectionVars false
set_option linter.unusedSimpArgs false

namespace Gals.Props

open Gals Spec

/-! ## Lines of a file -/

section lines
variable {K : Type} [Field K] [LinearOrder K] [IsStrictOrderedRing K] [FloorRing K]

theorem getElem?_flatMap_range {T : Type} (g : ℕ → ℕ → T) (N M k : ℕ) :
    ((List.range N).flatMap fun i => (List.range M).map (g i))[k]? = if k < N * M then some (g (k / M) (k % M)) else none := by
  induction N with
  | zero => simp
  | succ N ih =>
    have hl : ((List.range N).flatMap fun i => (List.range M).map (g i)).length = N * M := by
      simp [List.length_flatMap]
    rw [List.range_succ, List.flatMap_append, List.flatMap_singleton]
    by_cases h : k < N * M
    · rw [List.getElem?_append_left (by omega), ih, if_pos h, if_pos (by nlinarith)]
    · rw [List.getElem?_append_right (by omega), hl, List.getElem?_map]
      by_cases h' : k < (N + 1) * M
      · rw [if_pos h']
        have e : k - N * M < M := by rw [Nat.add_mul] at h'; omega
        have hk : k = (k - N * M) + M * N := by rw [Nat.mul_comm M N]; omega
        rw [List.getElem?_range e, Option.map_some]
        conv_rhs => rw [hk, Nat.add_mul_div_left _ _ (by omega), Nat.add_mul_mod_self_left, Nat.div_eq_of_lt e, Nat.mod_eq_of_lt e,
          Nat.zero_add]
      · rw [if_neg h', List.getElem?_eq_none]
        · rfl
        · rw [List.length_range]; rw [Nat.add_mul] at h'; omega

theorem cells_plane (n m : ℤ) : cells 0 n 0 m 0 1 =
    (List.range n.toNat).flatMap fun (i : ℕ) => (List.range m.toNat).map fun (j : ℕ) => ((i : ℤ), (j : ℤ), (0 : ℤ)) := by
  have h1 : irange 0 1 = [0] := by decide
  simp only [cells, h1, List.map_cons, List.map_nil]
  simp only [irange, Int.sub_zero, Int.zero_add, List.flatMap_map]
  refine List.flatMap_congr fun i _ => ?_
  rw [List.map_eq_flatMap]

/-- The lines for a field of a plane grid. -/
theorem print_lines {T : Type} {s : IntSem} {r : Req K} (h : r.Valid 2) {g : Grid K 2} (e : r.make s 2 = .ok g) {a : Arr T}
    {f : Cell → T} (F : FieldIs s r g a f) :
    a.print s g = .ok ((List.range r.n.x.toNat).flatMap fun (i : ℕ) =>
      (List.range r.n.y.toNat).map fun (j : ℕ) => (storedPos r ((i : ℤ), (j : ℤ), 0), f ((i : ℤ), (j : ℤ), 0))) := by
  have G := make_made h e
  have hn := F.ext
  have hx : a.nx = r.n.x := congrArg Vec3.x hn
  have hy : a.ny = r.n.y := congrArg Vec3.y hn
  have hz : a.nz = 1 := (congrArg Vec3.z hn).trans (h.nz_one (by norm_num))
  have hmem : ∀ c, c ∈ a.interior ↔ r.Interior c := by
    intro c
    unfold Arr.interior Req.Interior InteriorCell
    rw [mem_cells, hx, hy, hz, h.nz_one (by norm_num)]
  obtain ⟨out, e1, h1⟩ := loop_inv (l := a.interior) (s := ([] : List (Vec3 K × T)))
    (body := fun out c => do
      let p ← g.at' s c.1 c.2.1 c.2.2
      let v ← a.get s g c.1 c.2.1 c.2.2
      return out ++ [(p, v)])
    (fun pre out => out = pre.map fun c => (storedPos r c, f c)) rfl (by
      intro pre c post out hl hP
      have hc := (hmem c).1 (by rw [hl]; simp)
      refine ⟨_, by rw [G.atC (interior_padded G hc), M.ok_bind, F.val c (interior_padded G hc), M.ok_bind]; rfl, ?_⟩
      rw [hP, List.map_append]
      rfl)
  rw [Arr.print, e1, h1]
  congr 1
  rw [Arr.interior, hx, hy, hz, cells_plane, List.map_flatMap]
  simp only [List.map_map]
  rfl

theorem reshape_entry {T S : Type} (lines : List S) (sel : S → T) {nx ny : ℕ} (hl : lines.length = nx * ny) :
    ∃ A, reshape (lines.map sel) nx ny = .ok A ∧
      ∀ a b, A.entry a b = if a < nx ∧ b < ny then (lines[b * nx + a]?).map sel else none := by
  refine ⟨⟨nx, ny, lines.map sel⟩, ?_, fun a b => ?_⟩
  · rw [reshape, if_pos (by rw [List.length_map, hl])]
  · rw [Matrix2.entry]
    simp only [List.getElem?_map]

end lines

/-! ## The surface -/

section surface
variable {K : Type} [Field K] [LinearOrder K] [IsStrictOrderedRing K] [FloorRing K]

theorem centre_diff (r : Req K) (a : Fin 3) (i j : ℤ) : r.centre a j - r.centre a i = (j - i) * r.h a := by
  unfold Req.centre
  ring

/-- The surface drawn for a file with a scalar field: element `(a, b)` of the matrices is the cell on line `b nx + a`. -/
theorem C76_surface {s : IntSem} {r : Req K} (h : r.Valid 2) {g : Grid K 2} (e : r.make s 2 = .ok g) {A : Arr K}
    {f : Cell → K} (F : FieldIs s r g A f) : ∃ lines S, A.print s g = .ok lines ∧
      showScalar 2 r.n.x.toNat r.n.y.toNat lines = .ok (some S) ∧
      ∀ a b, (S.x.entry a b, S.y.entry a b, S.a.entry a b) =
        if a < r.n.x.toNat ∧ b < r.n.y.toNat then
          let c : Cell := (((b * r.n.x.toNat + a) / r.n.y.toNat : ℕ), ((b * r.n.x.toNat + a) % r.n.y.toNat : ℕ), 0)
          (some (storedPos r c).x, some (storedPos r c).y, some (f c))
        else (none, none, none) := by
  have hp := print_lines h e F
  generalize hL : ((List.range r.n.x.toNat).flatMap fun (i : ℕ) => (List.range r.n.y.toNat).map fun (j : ℕ) =>
      (storedPos r ((i : ℤ), (j : ℤ), 0), f ((i : ℤ), (j : ℤ), 0))) = lines at hp
  have hlen : lines.length = r.n.x.toNat * r.n.y.toNat := by rw [← hL]; simp [List.length_flatMap]
  obtain ⟨X, ex, hx⟩ := reshape_entry lines (fun l => l.1.x) hlen
  obtain ⟨Y, ey, hy⟩ := reshape_entry lines (fun l => l.1.y) hlen
  obtain ⟨Z, ez, hz⟩ := reshape_entry lines (fun l => l.2) hlen
  refine ⟨lines, ⟨X, Y, Z⟩, hp, ?_, fun a b => ?_⟩
  · rw [showScalar, ex, M.ok_bind, ey, M.ok_bind, ez, M.ok_bind]; rfl
  · simp only [hx, hy, hz]
    split_ifs with hab
    · have hk : b * r.n.x.toNat + a < r.n.x.toNat * r.n.y.toNat := by
        have := Nat.mul_le_mul_right r.n.x.toNat (show b + 1 ≤ r.n.y.toNat by omega)
        rw [Nat.add_mul, Nat.mul_comm r.n.y.toNat] at this
        omega
      rw [← hL, getElem?_flatMap_range, if_pos hk]
      rfl
    · rfl

/-- **C76**, partial: for a field that samples `f` at the stored positions, on a grid with two or more cells along both axes, the
surface drawn is the graph of `f` over the mesh of cells exactly if the grid has as many cells along `x` as along `y`.  Missing: the
other grids, for which the claim is false. -/
theorem C76_mesh_partial {s : IntSem} {r : Req K} (h : r.Valid 2) (hpos : r.Pos 2) (hx : 2 ≤ r.n.x) (hy : 2 ≤ r.n.y)
    {g : Grid K 2} (e : r.make s 2 = .ok g) {A : Arr K} {f : K × K → K}
    (F : FieldIs s r g A fun c => f ((storedPos r c).x, (storedPos r c).y)) :
    ∃ lines S, A.print s g = .ok lines ∧ showScalar 2 r.n.x.toNat r.n.y.toNat lines = .ok (some S) ∧
      (CellMesh (r.h 0) (r.h 1) r.n.x.toNat r.n.y.toNat f S ↔ r.n.x = r.n.y) := by
  obtain ⟨lines, S, e1, e2, hS⟩ := C76_surface h e F
  refine ⟨lines, S, e1, e2, ?_⟩
  have h0 : 0 < r.h 0 := div_pos (sub_pos.2 (hpos 0 (by decide))) (by exact_mod_cast (show 0 < r.n.x by omega))
  have h1 : 0 < r.h 1 := div_pos (sub_pos.2 (hpos 1 (by decide))) (by exact_mod_cast (show 0 < r.n.y by omega))
  obtain ⟨N, hN⟩ : ∃ N : ℕ, r.n.x = N := ⟨r.n.x.toNat, by omega⟩
  obtain ⟨M, hM⟩ : ∃ M : ℕ, r.n.y = M := ⟨r.n.y.toNat, by omega⟩
  rw [hN, hM, Int.toNat_natCast, Int.toNat_natCast] at hS ⊢
  rw [hN] at hx
  rw [hM] at hy
  have hN2 : 2 ≤ N := by omega
  have hM2 : 2 ≤ M := by omega
  have ent : ∀ {a b : ℕ}, a < N → b < M → ∀ {i j : ℕ}, b * N + a = i * M + j → j < M →
      S.x.entry a b = some (r.centre 0 (i + (r.pad - 1))) ∧ S.y.entry a b = some (r.centre 1 (j + (r.pad - 1))) ∧
        S.a.entry a b = some (f (r.centre 0 (i + (r.pad - 1)), r.centre 1 (j + (r.pad - 1)))) := by
    intro a b ha hb i j hk hj
    have := hS a b
    rw [if_pos ⟨ha, hb⟩, hk] at this
    have d1 : (i * M + j) / M = i := by
      rw [Nat.mul_comm, Nat.mul_add_div (by omega), Nat.div_eq_of_lt hj, Nat.add_zero]
    have d2 : (i * M + j) % M = j := by rw [Nat.mul_comm, Nat.mul_add_mod, Nat.mod_eq_of_lt hj]
    simp only [d1, d2, storedPos, Prod.mk.injEq] at this
    exact this
  have out : ∀ {a b : ℕ} {x : K}, S.x.entry a b = some x → a < N ∧ b < M := by
    intro a b x hx
    by_contra hab
    have := hS a b
    rw [if_neg hab, hx] at this
    simp at this
  constructor
  · intro C
    by_contra hne
    have hne' : N ≠ M := fun h => hne (by rw [h])
    by_cases hd : M % N = 0
    · have hlt : N < M := lt_of_le_of_ne (Nat.le_of_dvd (by omega) (Nat.dvd_of_mod_eq_zero hd)) hne'
      obtain ⟨p1, p2, -⟩ := ent (a := 0) (b := 0) (by omega) (by omega) (i := 0) (j := 0) (by omega) (by omega)
      obtain ⟨q1, q2, -⟩ := ent (a := 0) (b := 1) (by omega) (by omega) (i := 0) (j := N) (by omega) hlt
      have := C.across 0 0 _ _ _ _ p1 p2 q1 q2
      have d1 := centre_diff r 1 ((0 : ℕ) + (r.pad - 1)) (N + (r.pad - 1))
      have hN1 : (2 : K) ≤ N := by exact_mod_cast hN2
      push_cast at this d1
      rcases this with ⟨hh | hh, -⟩ | ⟨-, hh | hh⟩
      · simp only [sub_self] at hh; exact h0.ne hh
      · simp only [sub_self] at hh; exact h0.ne hh
      · simp only at hh
        rw [d1] at hh
        nlinarith
      · simp only at hh
        have : r.centre 1 ((N : ℤ) + (r.pad - 1)) - r.centre 1 (0 + (r.pad - 1)) = - r.h 1 := by linarith
        rw [d1] at this
        nlinarith
    · have hdiv : N * ((M - 1) / N) + (M - 1) % N = M - 1 := Nat.div_add_mod _ _
      have hmod : (M - 1) % N < N := Nat.mod_lt _ (by omega)
      have hlast : (M - 1) % N + 1 < N := by
        by_contra hc
        have : (M - 1) % N = N - 1 := by omega
        apply hd
        have : M = N * ((M - 1) / N + 1) := by rw [Nat.mul_add, Nat.mul_one]; omega
        rw [this, Nat.mul_mod_right]
      have hb : (M - 1) / N < M := lt_of_le_of_lt (Nat.div_le_self _ _) (by omega)
      obtain ⟨p1, p2, -⟩ := ent (a := (M - 1) % N) (b := (M - 1) / N) hmod hb (i := 0) (j := M - 1)
        (by rw [Nat.mul_comm]; omega) (by omega)
      obtain ⟨q1, q2, -⟩ := ent (a := (M - 1) % N + 1) (b := (M - 1) / N) hlast hb (i := 1) (j := 0)
        (by rw [Nat.mul_comm]; omega) (by omega)
      have := C.down _ _ _ _ _ _ p1 p2 q1 q2
      have d0 := centre_diff r 0 ((0 : ℕ) + (r.pad - 1)) ((1 : ℕ) + (r.pad - 1))
      have d1 := centre_diff r 1 ((0 : ℕ) + (r.pad - 1)) ((M - 1 : ℕ) + (r.pad - 1))
      have hM1 : (1 : K) ≤ (M - 1 : ℕ) := by exact_mod_cast (show 1 ≤ M - 1 by omega)
      push_cast at this d0 d1 hM1
      rcases this with ⟨-, hh⟩ | ⟨hh, -⟩
      · simp only at hh
        rw [← hh, sub_self] at d1
        nlinarith
      · simp only at hh
        rw [hh, sub_self] at d0
        nlinarith
  · intro hNM
    obtain rfl : N = M := by exact_mod_cast hNM
    refine ⟨fun a ha b hb => ?_, fun a b x y x' y' p1 p2 q1 q2 => ?_, fun a b x y x' y' p1 p2 q1 q2 => ?_⟩
    · obtain ⟨p1, p2, p3⟩ := ent ha hb (i := b) (j := a) rfl ha
      exact ⟨_, _, p1, p2, p3⟩
    · obtain ⟨ha, hb⟩ := out q1
      obtain ⟨r1, r2, -⟩ := ent (a := a) (by omega) hb (i := b) (j := a) rfl (by omega)
      obtain ⟨s1, s2, -⟩ := ent ha hb (i := b) (j := a + 1) rfl ha
      rw [p1] at r1; rw [p2] at r2; rw [q1] at s1; rw [q2] at s2
      cases r1; cases r2; cases s1; cases s2
      refine .inr ⟨rfl, .inl ?_⟩
      simp only [centre_diff]
      push_cast
      ring
    · obtain ⟨ha, hb⟩ := out q1
      obtain ⟨r1, r2, -⟩ := ent (a := a) (b := b) ha (by omega) (i := b) (j := a) rfl (by omega)
      obtain ⟨s1, s2, -⟩ := ent ha hb (i := b + 1) (j := a) rfl ha
      rw [p1] at r1; rw [p2] at r2; rw [q1] at s1; rw [q2] at s2
      cases r1; cases r2; cases s1; cases s2
      refine .inl ⟨.inl ?_, rfl⟩
      simp only [centre_diff]
      push_cast
      ring

end surface

/-! ## The arrows -/

section arrows
variable {K : Type} [Field K] [LinearOrder K] [IsStrictOrderedRing K] [FloorRing K] [HasPi K]

/-- C76, velocity: after a run of the application with output directory `dir`, `Visualize(dir, 2, ..)` draws one arrow for each
interior cell, with the stored position and the velocity of the rotation there. -/
theorem C76_arrows (cwd : Path) (fs : Fs (Content K)) (w : WellFormed fs) (r : Req K) (h : r.Valid 2) (hpos : r.Pos 2)
    (hpad : 2 ≤ r.pad) (a : App K) (phi0 : Cell → K) (P : Prepared .wrap r a phi0)
    (hn : a.velocityInputs.name = "CIRCULAR") (c0 c1 : K) (rest : List K)
    (hc : a.velocityInputs.center = c0 :: c1 :: rest) (hdt : 0 < a.dt)
    (hs : SmallStep r (rotation turnRate c0 c1) a.dt) (dir : String) (hroot : a.fileUtils.rootDir = dir ++ "/")
    (hway : NoFileOnWay fs (resolve cwd (dir ++ "/"))) (hnot : fs (resolve cwd (dir ++ "/" ++ "velocity")) ≠ some .dir)
    (t : K) (vel : LsVelocity K) (ls : Levelset K) (n : ℕ)
    (run : While (timeBody (appAdvance .tests .wrap a) a.dt a.tEnd) (0, (a.vel, a.ls)) (.ok (t, (vel, ls))) n) :
    ∃ (fs' : Fs (Content K)) (L : List Cell), appFinish .wrap cwd fs a vel = .ok fs' ∧ L.Nodup ∧ (∀ c, c ∈ L ↔ r.Interior c) ∧
      visualizeVelocity cwd fs' dir 2 = some (L.map fun c =>
        (((storedPos r c).x, (storedPos r c).y),
          ((rotation turnRate c0 c1 (storedPos r c)).x, (rotation turnRate c0 c1 (storedPos r c)).y))) := by
  obtain ⟨fs', L, m1, m2, m3, m4, -⟩ := C73_file cwd fs w r h hpos hpad a phi0 P hn c0 c1 rest hc hdt hs dir hroot hway hnot t vel
    ls n run
  refine ⟨fs', L, m1, m3.imp ?_, m4, ?_⟩
  · rintro ⟨i, j, k⟩ _ hlt rfl
    simp only [lexLt, lt_self_iff_false, or_false, false_or, and_false] at hlt
  · have e : dir ++ "/velocity" = dir ++ "/" ++ "velocity" := by rw [String.append_assoc]; rfl
    rw [visualizeVelocity, e, m2]
    simp only [showVector, if_true, List.map_map]
    rfl

end arrows

/-! ## Examples -/

/-- **C76** is false for the 4 × 3 grid. -/
theorem C76_false : ∃ (g : Grid ℚ 2) (A : Arr ℚ) (lines : List (Vec3 ℚ × ℚ)) (S : Surface ℚ), (demo 1).make .wrap 2 = .ok g ∧
    A.print .wrap g = .ok lines ∧ showScalar 2 4 3 lines = .ok (some S) ∧
    FieldIs .wrap (demo 1) g A (fun c => (storedPos (demo 1) c).x + 2 * (storedPos (demo 1) c).y) ∧
    ¬ CellMesh ((demo 1).h 0) ((demo 1).h 1) 4 3 (fun p => p.1 + 2 * p.2) S := by
  obtain ⟨g, e, -⟩ := C01_padded_addressing (K := ℚ) .wrap 2 (demo 1) demo_valid
  obtain ⟨A, F⟩ := fieldIs_exists (make_made demo_valid e) fun c => (storedPos (demo 1) c).x + 2 * (storedPos (demo 1) c).y
  obtain ⟨lines, S, e1, e2, e3⟩ := C76_mesh_partial (f := fun p => p.1 + 2 * p.2) demo_valid (demo_pos 1) (by decide) (by decide) e F
  exact ⟨g, A, lines, S, e, e1, e2, F, fun h => absurd (e3.1 h) (by decide)⟩

/-- A grid of 3 × 3 cells. -/
def square : Req ℚ := { demo 1 with n := ⟨3, 3, 1⟩ }

/-- On it the surface is drawn right. -/
example : ∃ (g : Grid ℚ 2) (A : Arr ℚ) (lines : List (Vec3 ℚ × ℚ)) (S : Surface ℚ), square.make .wrap 2 = .ok g ∧
    A.print .wrap g = .ok lines ∧ showScalar 2 3 3 lines = .ok (some S) ∧
    CellMesh (square.h 0) (square.h 1) 3 3 (fun p => p.1 + 2 * p.2) S := by
  have hv : square.Valid 2 := ⟨.inr (.inl rfl), by decide, by decide, by decide, by decide, by decide, by decide, by decide⟩
  have hp : square.Pos 2 := demo_pos 1
  obtain ⟨g, e, -⟩ := C01_padded_addressing (K := ℚ) .wrap 2 square hv
  obtain ⟨A, F⟩ := fieldIs_exists (make_made hv e) fun c => (storedPos square c).x + 2 * (storedPos square c).y
  obtain ⟨lines, S, e1, e2, e3⟩ := C76_mesh_partial (f := fun p => p.1 + 2 * p.2) hv hp (by decide) (by decide) e F
  exact ⟨g, A, lines, S, e, e1, e2, e3.2 rfl⟩

attribute [local instance] instHasPiRat

/-- Instance of `C76_arrows`: after the run of the application on the 4 × 3 grid with two ghost layers there is an arrow for the
cell `(2, 1)`. -/
example : ∃ (a : App ℚ) (vel : LsVelocity ℚ) (fs' : Fs (Content ℚ)) (arrows : List ((ℚ × ℚ) × (ℚ × ℚ))),
    appFinish .wrap [] appFs a vel = .ok fs' ∧ visualizeVelocity [] fs' "out" 2 = some arrows ∧
      ((7 / 4, 5 / 2), (turnRate * (2 - 5 / 2), turnRate * (7 / 4 - 1))) ∈ arrows := by
  obtain ⟨a, P, e1, e2, e3, e4⟩ := demo_app
  have hn : a.velocityInputs.name = "CIRCULAR" := by rw [e1]
  have hc : a.velocityInputs.center = [2, 1] := by rw [e1]
  have hdt : 0 < a.dt := by rw [e3]; norm_num
  have hs : SmallStep (demo 2) (rotation turnRate 2 1) a.dt := by rw [e3]; exact demo_small
  obtain ⟨n, vel, ls, h1, h2, -⟩ := C73_run (demo 2) demo2_valid (demo_pos 2) (by decide) a demoPhi P hn 2 1 [] hc hdt hs
  have run := (h2 _ _).2 ⟨rfl, rfl⟩
  have hp : resolve [] ("out" ++ "/") = [['o', 'u', 't']] := by decide
  have hp2 : resolve [] ("out" ++ "/" ++ "velocity") = [['o', 'u', 't'], "velocity".toList] := by decide
  obtain ⟨fs', L, f1, -, f3, f4⟩ := C76_arrows [] appFs appFs_wf (demo 2) demo2_valid (demo_pos 2) (by decide) a demoPhi P hn 2 1 []
    hc hdt hs "out" (by rw [e4]; rfl) (by
      intro q hq
      rw [hp] at hq
      rcases List.prefix_cons_iff.1 hq with rfl | ⟨t, rfl, ht⟩
      · exact .inr rfl
      · rw [List.prefix_nil.1 ht]; left; rfl) (by rw [hp2]; unfold appFs; simp) _ vel ls n run
  refine ⟨a, vel, fs', _, f1, f4, List.mem_map.2 ⟨(2, 1, 0), (f3 _).2 (by unfold Req.Interior InteriorCell demo; simp), ?_⟩⟩
  have hx : storedPos (demo 2) (2, 1, 0) = ⟨7 / 4, 5 / 2, 0⟩ := by decide +kernel
  rw [hx]
  rfl

/-- Instance of `C76_surface`: entry `(1, 0)` of the surface for the 4 × 3 grid is drawn from the cell `(0, 1)`. -/
example : ∃ (g : Grid ℚ 2) (A : Arr ℚ) (lines : List (Vec3 ℚ × ℚ)) (S : Surface ℚ), (demo 1).make .wrap 2 = .ok g ∧
    A.print .wrap g = .ok lines ∧ showScalar 2 4 3 lines = .ok (some S) ∧ S.a.entry 1 0 = some 10 := by
  obtain ⟨g, e, -⟩ := C01_padded_addressing (K := ℚ) .wrap 2 (demo 1) demo_valid
  obtain ⟨A, F⟩ := fieldIs_exists (s := .wrap) (make_made demo_valid e) fun c => (c.1 + 10 * c.2.1 : ℚ)
  obtain ⟨lines, S, e1, e2, e3⟩ := C76_surface demo_valid e F
  have := e3 1 0
  rw [if_pos (by decide)] at this
  refine ⟨g, A, lines, S, e, e1, e2, ?_⟩
  refine (Prod.ext_iff.1 (Prod.ext_iff.1 this).2).2.trans ?_
  norm_num [demo]

end Gals.Props
