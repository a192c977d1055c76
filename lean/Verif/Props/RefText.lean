import Verif.Lemmas.RefText
import Verif.Lemmas.Temporal
import Verif.Props.Readers
import Verif.Props.RefFrames
import Verif.Props.RefDouble

/-!
# C100: the output files as text
-/

namespace Gals.Props

open Gals Gals.Ref
open Gals.Spec (HasValue)

/-! ## Whatever is written has the form of frames -/

section frames
variable {K : Type}

theorem mapM_inv {A B : Type} {g : A → M B} {l : List A} {bs : List B} (h : l.mapM g = .ok bs) : ∀ a ∈ l, ∃ b, g a = .ok b := by
  induction l generalizing bs with
  | nil => simp
  | cons a l ih =>
    rw [List.mapM_cons] at h
    obtain ⟨b, hb, h⟩ := bind_ok h
    obtain ⟨bs', hbs, -⟩ := bind_ok h
    intro x hx
    rcases List.mem_cons.1 hx with rfl | hx
    · exact ⟨b, hb⟩
    · exact ih hbs x hx

theorem printRow_inv {g : ℕ → M K} {nx : ℕ} {ts : List (Tok K)} (h : printRow g nx = .ok ts) :
    ∀ j < nx, ∃ e, g j = .ok e := by
  rw [printRow] at h
  obtain ⟨e, he, h⟩ := bind_ok h
  obtain ⟨r, hr, -⟩ := bind_ok h
  intro j hj
  rcases Nat.eq_zero_or_pos j with rfl | h0
  · exact ⟨e, he⟩
  · obtain ⟨b, hb⟩ := mapM_inv hr j (List.mem_range'_1.2 ⟨h0, by omega⟩)
    obtain ⟨e, he, -⟩ := bind_ok hb
    exact ⟨e, he⟩

/-- If an array is written, then as a frame. -/
theorem printGrid_inv [Inhabited K] {g : ℕ → ℕ → M K} {nx ny : ℕ} (h0 : 0 < nx) {ts : List (Tok K)}
    (h : printGrid g nx ny = .ok ts) : ∃ f : ℕ → ℕ → K, (∀ i < ny, ∀ j < nx, g i j = .ok (f i j)) ∧ ts = Spec.frame nx ny f := by
  have h' := h
  rw [printGrid] at h'
  obtain ⟨rows, hr, -⟩ := bind_ok h'
  have hall : ∀ i < ny, ∀ j < nx, ∃ e, g i j = .ok e := by
    intro i hi
    obtain ⟨b, hb⟩ := mapM_inv hr i (List.mem_range.2 hi)
    exact printRow_inv hb
  have : ∀ i j, ∃ e, i < ny → j < nx → g i j = .ok e := by
    intro i j
    by_cases hij : i < ny ∧ j < nx
    · obtain ⟨e, he⟩ := hall i hij.1 j hij.2
      exact ⟨e, fun _ _ => he⟩
    · exact ⟨default, fun h1 h2 => absurd ⟨h1, h2⟩ hij⟩
  choose f hf using this
  refine ⟨f, fun i hi j hj => hf i j hi hj, ?_⟩
  rw [printGrid_eq h0 fun i hi j hj => hf i j hi hj] at h
  exact (Except.ok.inj h).symm

theorem fileprint_inv [Inhabited K] {v : Vel K} {nx ny : ℕ} {time : K} {m : Mem (Val K)} {o o' : Out K} (h0 : 0 < nx)
    (h : fileprint v nx ny time m o = .ok o') : ∃ s : Spec.Snapshot K, Spec.Appended nx ny o o' [s] := by
  rw [fileprint] at h
  obtain ⟨u, -, h⟩ := bind_ok h
  obtain ⟨w, -, h⟩ := bind_ok h
  obtain ⟨t1, h1, h⟩ := bind_ok h
  obtain ⟨t2, h2, h⟩ := bind_ok h
  obtain ⟨t3, h3, h⟩ := bind_ok h
  obtain ⟨t4, h4, h⟩ := bind_ok h
  obtain ⟨t5, h5, h⟩ := bind_ok h
  obtain ⟨t6, h6, h⟩ := bind_ok h
  obtain ⟨f1, -, rfl⟩ := printGrid_inv h0 h1
  obtain ⟨f2, -, rfl⟩ := printGrid_inv h0 h2
  obtain ⟨f3, -, rfl⟩ := printGrid_inv h0 h3
  obtain ⟨f4, -, rfl⟩ := printGrid_inv h0 h4
  obtain ⟨f5, -, rfl⟩ := printGrid_inv h0 h5
  obtain ⟨f6, -, rfl⟩ := printGrid_inv h0 h6
  cases Except.ok.inj h
  refine ⟨⟨f1, f2, f3, f4, f5, f6⟩, ?_⟩
  constructor <;> simp

theorem _root_.Gals.Spec.Appended.trans {nx ny : ℕ} {o o' o'' : Out K} {ss ss' : List (Spec.Snapshot K)}
    (h : Spec.Appended nx ny o o' ss) (h' : Spec.Appended nx ny o' o'' ss') : Spec.Appended nx ny o o'' (ss ++ ss') := by
  constructor <;> simp [h.phi, h'.phi, h.psix, h'.psix, h.psiy, h'.psiy, h.psixy, h'.psixy, h.velx, h'.velx, h.vely, h'.vely,
    h.details, h'.details]

theorem timeLoop_inv [Inhabited K] [Mul K] [NatCast K] {step : ℕ → Mem (Val K) → M (Mem (Val K))} {c : Setting K} {v : Vel K} {p : ℕ} (h0 : 0 < c.nx)
    (r t : ℕ) (ht : t + r < 2 ^ 32) {m m' : Mem (Val K)} {o o' : Out K}
    (h : timeLoop step c v p r t (m, o) = .ok (m', o')) :
    ∃ ss, Spec.Appended c.nx c.ny o o' ss ∧ (0 < p → ss.length = (t + r) / p - t / p) := by
  induction r generalizing t m o with
  | zero =>
    cases Except.ok.inj h
    exact ⟨[], by constructor <;> simp, fun _ => by simp⟩
  | succ r ih =>
    rw [timeLoop] at h
    obtain ⟨m1, -, h⟩ := bind_ok h
    have hu : uadd t 1 = t + 1 := by
      rw [uadd, uMod]
      exact Nat.mod_eq_of_lt (by omega)
    have hd := @Nat.succ_div t p
    have hle : (t + 1) / p ≤ (t + 1 + r) / p := Nat.div_le_div_right (by omega)
    rw [show t + (r + 1) = t + 1 + r by omega]
    rw [hu] at h
    split_ifs at h with hp hm
    · obtain ⟨o1, h1, h⟩ := bind_ok h
      obtain ⟨ss, hs, hl⟩ := ih (t + 1) (by omega) h
      obtain ⟨s, hs1⟩ := fileprint_inv h0 h1
      refine ⟨s :: ss, hs1.trans hs, fun hp => ?_⟩
      rw [List.length_cons, hl hp]
      rw [if_pos (Nat.dvd_of_mod_eq_zero hm)] at hd
      omega
    · obtain ⟨o1, h1, h⟩ := bind_ok h
      obtain ⟨ss, hs, hl⟩ := ih (t + 1) (by omega) h
      cases Except.ok.inj h1
      refine ⟨ss, hs, fun hp => ?_⟩
      rw [hl hp]
      rw [if_neg fun hd => hm (Nat.mod_eq_zero_of_dvd hd)] at hd
      omega

variable [Zero K] [One K] [Add K] [_root_.Sub K] [Neg K] [Mul K] [Div K] [NatCast K]
variable [LT K] [DecidableLT K] [LE K] [DecidableLE K] [HasFloor K]

/-- What a program that ends has written: the parameters and one frame per print step, with any arithmetic. -/
theorem mainWith_inv [Inhabited K] {step : Setting K → Vel K → K → K → ℕ → Mem (Val K) → M (Mem (Val K))} {c : Setting K}
    {v : Vel K} {f : Initial K} (h0 : 0 < c.nx) {n : ℕ} (hn : stepCount c = .ok n) (hn' : n < 2 ^ 32) (hp : 0 < printStep c n)
    {m : Mem (Val K)} {o : Out K} (h : mainWith step c v f = .ok (m, o)) :
    ∃ ss : List (Spec.Snapshot K), ss.length = n / printStep c n + 1 ∧
      Spec.Appended c.nx c.ny { Out.none with details :=
        [⟨c.nx, c.ny, c.dx, c.dy, c.xlim1, c.xlim2, c.ylim1, c.ylim2, n, c.dt, printStep c n⟩] } o ss := by
  rw [mainWith, hn, M.ok_bind] at h
  obtain ⟨m1, -, h⟩ := bind_ok h
  obtain ⟨o1, h1, h⟩ := bind_ok h
  obtain ⟨s, hs⟩ := fileprint_inv h0 h1
  obtain ⟨ss, hss, hl⟩ := timeLoop_inv h0 n 0 (by omega) h
  refine ⟨s :: ss, by rw [List.length_cons, hl hp]; simp, ?_⟩
  have hs' : Spec.Appended c.nx c.ny { Out.none with details :=
        [⟨c.nx, c.ny, c.dx, c.dy, c.xlim1, c.xlim2, c.ylim1, c.ylim2, n, c.dt, printStep c n⟩] }
      { o1 with details := o1.details ++
        [⟨c.nx, c.ny, c.dx, c.dy, c.xlim1, c.xlim2, c.ylim1, c.ylim2, n, c.dt, printStep c n⟩] } [s] := by
    constructor
    · exact hs.phi
    · exact hs.psix
    · exact hs.psiy
    · exact hs.psixy
    · exact hs.velx
    · exact hs.vely
    · show o1.details ++ _ = _
      rw [hs.details]
      rfl
  exact hs'.trans hss

end frames

/-! ## Reading -/

/-- What the reader shows: `g` is applied to every number in the files. -/
def shown10 (g : F64 → F64) (d : Details F64) (ss : List (Spec.Snapshot F64)) : Movie F64 where
  x := linspace (g d.xlim1) (g d.xlim2) d.nx
  y := linspace (g d.ylim1) (g d.ylim2) d.ny
  times := (List.range ss.length).map fun (i : ℕ) => (i : F64) * g d.dt * (d.printstep : F64)
  phi := ss.map fun s => Spec.table d.nx d.ny fun i j => g (s.phi i j)
  psix := ss.map fun s => Spec.table d.nx d.ny fun i j => g (s.psix i j)
  psiy := ss.map fun s => Spec.table d.nx d.ny fun i j => g (s.psiy i j)
  psixy := ss.map fun s => Spec.table d.nx d.ny fun i j => g (s.psixy i j)
  velx := ss.map fun s => Spec.table d.nx d.ny fun i j => g (s.velx i j)
  vely := ss.map fun s => Spec.table d.nx d.ny fun i j => g (s.vely i j)

/-- **C100.**  The text of any frames and parameters is read without error, and every number that the reader shows, finite or not,
is the number written rounded to ten decimals. -/
theorem C100_read {d : Details F64} {ss : List (Spec.Snapshot F64)} {o : Out F64} (hx : 0 < d.nx) (hx' : d.nx < 2 ^ 31)
    (hy : 0 < d.ny) (hy' : d.ny < 2 ^ 31) (hp : 0 < d.printstep) (hp' : d.printstep < 2 ^ 31) (hn : d.printstep ∣ d.n)
    (hn' : d.n + 1 < 2 ^ 31) (hs : ss.length = d.n / d.printstep + 1)
    (ho : Spec.Appended d.nx d.ny { Out.none with details := [d] } o ss) :
    ∃ g : F64 → F64, (∀ x, Spec.ReadBack x (g x)) ∧ readfilesText o.text = .ok (shown10 g d ss) := by
  refine ⟨ten, readBack_ten, ?_⟩
  have e : o.text.scan = some ⟨ss.flatMap fun s => Spec.frame d.nx d.ny fun i j => ten (s.phi i j),
      ss.flatMap fun s => Spec.frame d.nx d.ny fun i j => ten (s.psix i j),
      ss.flatMap fun s => Spec.frame d.nx d.ny fun i j => ten (s.psiy i j),
      ss.flatMap fun s => Spec.frame d.nx d.ny fun i j => ten (s.psixy i j),
      ss.flatMap fun s => Spec.frame d.nx d.ny fun i j => ten (s.velx i j),
      ss.flatMap fun s => Spec.frame d.nx d.ny fun i j => ten (s.vely i j), [d.ten]⟩ := by
    rw [OutText.scan, Out.text, ho.phi, ho.psix, ho.psiy, ho.psixy, ho.velx, ho.vely, ho.details]
    simp only [Out.none, List.nil_append, scan_frames d.nx d.ny, List.flatMap_cons, List.flatMap_nil, List.append_nil,
      readDetails_text]
    rfl
  have i1 : int32Of d.nx = d.nx := by unfold int32Of; omega
  have i2 : int32Of d.ny = d.ny := by unfold int32Of; omega
  have i3 : int32Of d.printstep = d.printstep := by unfold int32Of; omega
  have i4 : int32Succ (int32Div (int32Of d.n) d.printstep) = ss.length := by
    have e1 : int32Of d.n = d.n := by unfold int32Of; omega
    have e2 := Nat.mod_eq_zero_of_dvd hn
    have e3 := Nat.div_le_self d.n d.printstep
    rw [e1, int32Div_eq hp, e2, if_pos (by omega), hs, int32Succ, int32Of]
    generalize d.n / d.printstep = k at e3
    exact Nat.min_eq_left (by omega)
  have hr : ∀ sel : Spec.Snapshot F64 → ℕ → ℕ → F64, readFrames d.nx d.ny ss.length
      (ss.flatMap fun s => Spec.frame d.nx d.ny fun i j => ten (sel s i j)) =
        .ok (ss.map fun s => Spec.table d.nx d.ny fun i j => ten (sel s i j)) :=
    fun sel => readFrames_all hx hy (fun s i j => ten (sel s i j)) ss
  rw [readfilesText, e]
  simp only [readfiles, Details.ten, i1, i2, i3, i4, hr, M.ok_bind]
  rfl

/-- **C100.**  Whatever a program with this main function computes in double arithmetic, if it ends then Readfiles shows, in the order
of the print steps, every number it wrote rounded to ten decimals. -/
theorem C100_run {step : Setting F64 → Vel F64 → F64 → F64 → ℕ → Mem (Val F64) → M (Mem (Val F64))} {c : Setting F64}
    {v : Vel F64} {f : Initial F64} (hx : 0 < c.nx) (hx' : c.nx < 2 ^ 31) (hy : 0 < c.ny) (hy' : c.ny < 2 ^ 31) {n : ℕ}
    (hn : stepCount c = .ok n) (hn' : n + 1 < 2 ^ 31) (hp : 0 < printStep c n) (hp' : printStep c n < 2 ^ 31)
    (hd : printStep c n ∣ n) {m : Mem (Val F64)} {o : Out F64} (h : mainWith step c v f = .ok (m, o)) :
    ∃ (ss : List (Spec.Snapshot F64)) (g : F64 → F64), ss.length = n / printStep c n + 1 ∧ (∀ x, Spec.ReadBack x (g x)) ∧
      Spec.Appended c.nx c.ny { Out.none with details :=
        [⟨c.nx, c.ny, c.dx, c.dy, c.xlim1, c.xlim2, c.ylim1, c.ylim2, n, c.dt, printStep c n⟩] } o ss ∧
      readfilesText o.text = .ok (shown10 g
        ⟨c.nx, c.ny, c.dx, c.dy, c.xlim1, c.xlim2, c.ylim1, c.ylim2, n, c.dt, printStep c n⟩ ss) := by
  have : Inhabited F64 := ⟨0⟩
  obtain ⟨ss, hl, ha⟩ := mainWith_inv hx hn (by omega) hp h
  obtain ⟨g, hg, e⟩ := C100_read (d := ⟨c.nx, c.ny, c.dx, c.dy, c.xlim1, c.xlim2, c.ylim1, c.ylim2, n, c.dt, printStep c n⟩)
    hx hx' hy hy' hp hp' hd hn' hl ha
  exact ⟨ss, g, hl, hg, ha, e⟩

/-! ## What the rounding keeps -/

theorem readBack_value {x y : F64} (h : Spec.ReadBack x y) {q : ℚ} (hq : HasValue x q) :
    ∃ (s : Bool) (m : ℚ) (hm : IsMag m) (n : ℕ), x = .fin s m hm ∧ q = F64.signed s m ∧ |m - n / 10 ^ 10| ≤ 1 / 2 / 10 ^ 10 ∧
      y = F64.round s (n / 10 ^ 10) := by
  obtain ⟨s, m, hm, rfl, rfl⟩ := hq
  rcases h with ⟨h, -⟩ | ⟨_, h, -⟩ | ⟨s', m', hm', n, h, hn, hy⟩
  · cases h
  · cases h
  · cases h
    exact ⟨s, m, hm, n, rfl, rfl, hn, hy⟩

theorem below_big {m a : ℚ} (h : m ≤ 2 ^ 1000) (h' : a ≤ m + 1) : a ≤ 2 ^ 1020 := by
  have h1 : (1 : ℚ) ≤ 2 ^ 1000 := one_le_pow₀ (by norm_num)
  have h2 : (2 : ℚ) ^ 1020 = 2 ^ 1000 * 2 ^ 20 := by rw [← pow_add]
  rw [h2]
  clear h2
  generalize (2 : ℚ) ^ 1000 = B at h h1 ⊢
  norm_num
  linarith

/-- **C100.**  The number read differs from the number written by half of the last decimal and the rounding of the conversion. -/
theorem C100_near {x y : F64} (h : Spec.ReadBack x y) {q : ℚ} (hq : HasValue x q) (hb : |q| ≤ 2 ^ 1000) :
    ∃ r, HasValue y r ∧ |r - q| ≤ 1 / 2 / 10 ^ 10 + (|q| + 1) / 2 ^ 52 := by
  obtain ⟨s, m, hm, n, -, rfl, hn, rfl⟩ := readBack_value h hq
  have hm0 := isMag_nonneg hm
  rw [signed_abs hm0] at hb ⊢
  obtain ⟨h1, h2⟩ := abs_le.1 hn
  obtain ⟨a, ha⟩ : ∃ a, a = (n : ℚ) / 10 ^ 10 := ⟨_, rfl⟩
  rw [← ha] at h1 h2 hn ⊢
  have ha0 : 0 ≤ a := by rw [ha]; exact div_nonneg (Nat.cast_nonneg n) (pow_nonneg (by norm_num) _)
  have ea : |a| = a := abs_of_nonneg ha0
  have hbig : |a| ≤ 2 ^ 1020 := by
    rw [ea]
    exact below_big hb (by clear hb; norm_num at h1; linarith)
  clear hb
  obtain ⟨r, hr, he⟩ := hasValue_round (s := s) hbig
  clear hbig
  refine ⟨r, hr, ?_⟩
  rw [ea] at he
  have e1 : |F64.signed s a - F64.signed s m| = |m - a| := by
    cases s
    · exact abs_sub_comm _ _
    · simp only [F64.signed]
      congr 1
      simp only [if_true]
      ring
  have e2 : |r - F64.signed s m| ≤ |r - F64.signed s a| + |m - a| := by
    rw [← e1]
    exact abs_sub_le _ _ _
  have ht : tiny ≤ 1 / 2 ^ 54 := by
    rw [tiny, show (1 / 2 ^ 54 : ℚ) = 2 ^ (-54 : ℤ) by norm_num]
    exact two_zpow_le (by norm_num)
  have hu : unitRoundoff * a ≤ 1 / 2 ^ 53 * a := mul_le_mul_of_nonneg_right unitRoundoff_le ha0
  generalize tiny = T at he ht
  generalize unitRoundoff * a = U at he hu
  norm_num at hn ht hu ⊢
  linarith

/-- **C100.**  A number with at most ten decimals is read as it was written, with its sign. -/
theorem C100_exact {x y : F64} (h : Spec.ReadBack x y) {q : ℚ} (hq : HasValue x q) {k : ℤ} (hk : q * 10 ^ 10 = k) : y = x := by
  obtain ⟨s, m, hm, n, rfl, rfl, hn, rfl⟩ := readBack_value h hq
  have hm0 := isMag_nonneg hm
  have e : m * 10 ^ 10 = (k.natAbs : ℚ) := by
    have : |F64.signed s m * 10 ^ 10| = |(k : ℚ)| := by rw [hk]
    rw [abs_mul, signed_abs hm0] at this
    rw [Nat.cast_natAbs]
    push_cast
    rw [← this]
    norm_num
  have e2 : n = k.natAbs := by
    obtain ⟨h1, h2⟩ := abs_le.1 hn
    have a1 : (n : ℚ) ≤ k.natAbs + 1 / 2 := by rw [← e]; linarith
    have a2 : (k.natAbs : ℚ) ≤ n + 1 / 2 := by rw [← e]; linarith
    have b1 : (n : ℚ) < (k.natAbs + 1 : ℕ) := by push_cast; linarith
    have b2 : (k.natAbs : ℚ) < (n + 1 : ℕ) := by push_cast; linarith
    have b1 : n < k.natAbs + 1 := by exact_mod_cast b1
    have b2 : k.natAbs < n + 1 := by exact_mod_cast b2
    omega
  have e3 : (n : ℚ) / 10 ^ 10 = m := by rw [e2, ← e]; norm_num
  rw [e3]
  exact round_fixed hm

/-- A positive multiple of `1 / 10 ^ 10` is not read as zero. -/
theorem ten_pos {n : ℕ} (h : 0 < n) : 0 < roundMag ((n : ℚ) / 10 ^ 10) := by
  have h1 : (1 : ℚ) ≤ n := by exact_mod_cast h
  have h2 : (2 : ℚ) ^ (-1022 : ℤ) ≤ (n : ℚ) / 10 ^ 10 := by
    have : (2 : ℚ) ^ (-1022 : ℤ) ≤ 2 ^ (-40 : ℤ) := two_zpow_le (by norm_num)
    have e : (2 : ℚ) ^ (-40 : ℤ) ≤ 1 / 10 ^ 10 := by norm_num
    refine this.trans (e.trans ?_)
    gcongr
  have h3 := (abs_le.1 (roundMag_error h2)).1
  have hu := unitRoundoff_le
  have h4 : 0 < (n : ℚ) / 10 ^ 10 := by positivity
  have h5 : unitRoundoff * ((n : ℚ) / 10 ^ 10) ≤ 1 / 2 ^ 53 * ((n : ℚ) / 10 ^ 10) := mul_le_mul_of_nonneg_right hu h4.le
  generalize (n : ℚ) / 10 ^ 10 = a at *
  generalize unitRoundoff * a = U at *
  norm_num at h5
  linarith

theorem readBack_range {n : ℕ} {s : Bool} {r : ℚ} (h : HasValue (F64.round s ((n : ℚ) / 10 ^ 10)) r) :
    r = F64.signed s (roundMag ((n : ℚ) / 10 ^ 10)) := by
  have h0 : 0 ≤ (n : ℚ) / 10 ^ 10 := by positivity
  by_cases hb : roundMag ((n : ℚ) / 10 ^ 10) < 2 ^ 1024
  · rw [round_eq h0 hb] at h
    exact hasValue_unique h (hasValue_fin _)
  · obtain ⟨s', m, hm, e, -⟩ := h
    rw [F64.round, dif_neg (by rwa [abs_of_nonneg h0])] at e
    cases e

/-- **C100.**  A sign is never inverted; it is lost exactly for the numbers below half of the last decimal. -/
theorem C100_sign {x y : F64} (h : Spec.ReadBack x y) {q r : ℚ} (hq : HasValue x q) (hr : HasValue y r) :
    (0 ≤ q → 0 ≤ r) ∧ (q ≤ 0 → r ≤ 0) ∧ (|q| < 1 / 2 / 10 ^ 10 → r = 0) ∧ (1 / 2 / 10 ^ 10 < |q| → r ≠ 0) := by
  obtain ⟨s, m, hm, n, rfl, rfl, hn, rfl⟩ := readBack_value h hq
  have e := readBack_range hr
  have hm0 := isMag_nonneg hm
  have h0 : 0 ≤ (n : ℚ) / 10 ^ 10 := by positivity
  have hR := roundMag_nonneg h0
  obtain ⟨h1, h2⟩ := abs_le.1 hn
  rw [signed_abs hm0]
  have hz : n = 0 → r = 0 := by
    rintro rfl
    rw [e, Nat.cast_zero, zero_div, roundMag_zero]
    cases s <;> simp [F64.signed]
  have hzero : m = 0 → n = 0 := by
    intro hm
    by_contra hne
    have : (1 : ℚ) ≤ n := by exact_mod_cast Nat.one_le_iff_ne_zero.2 hne
    rw [hm] at h1
    linarith
  refine ⟨fun hq => ?_, fun hq => ?_, fun hq => hz ?_, fun hq hr0 => ?_⟩
  · cases s with
    | false => rw [e]; exact hR
    | true =>
      have : m = 0 := by
        simp only [F64.signed, if_true] at hq
        linarith
      rw [hz (hzero this)]
  · cases s with
    | true => rw [e]; simp only [F64.signed, if_true]; linarith
    | false =>
      have : m = 0 := by
        have : m ≤ 0 := hq
        linarith
      rw [hz (hzero this)]
  · by_contra hne
    have : (1 : ℚ) ≤ n := by exact_mod_cast Nat.one_le_iff_ne_zero.2 hne
    linarith
  · have hn0 : 0 < n := by
      by_contra hne
      have : n = 0 := by omega
      rw [this, Nat.cast_zero, zero_div] at h2
      linarith
    have := ten_pos hn0
    rw [e] at hr0
    cases s
    · exact this.ne' hr0
    · simp only [F64.signed, if_true] at hr0
      linarith

theorem nearest_mono {m m' : ℚ} {n n' : ℕ} (h : |m - n / 10 ^ 10| ≤ 1 / 2 / 10 ^ 10) (h' : |m' - n' / 10 ^ 10| ≤ 1 / 2 / 10 ^ 10)
    (hlt : m < m') : (n : ℚ) / 10 ^ 10 ≤ n' / 10 ^ 10 := by
  obtain ⟨h1, h2⟩ := abs_le.1 h
  obtain ⟨h3, h4⟩ := abs_le.1 h'
  have : (n : ℚ) < (n' + 1 : ℕ) := by push_cast; linarith
  have : n < n' + 1 := by exact_mod_cast this
  have : (n : ℚ) ≤ n' := by exact_mod_cast Nat.lt_succ_iff.1 this
  gcongr

/-- **C100.**  The order of two numbers is never inverted. -/
theorem C100_order {x y x' y' : F64} (h : Spec.ReadBack x y) (h' : Spec.ReadBack x' y') {q r q' r' : ℚ} (hq : HasValue x q)
    (hr : HasValue y r) (hq' : HasValue x' q') (hr' : HasValue y' r') (hlt : q < q') : r ≤ r' := by
  have hs := C100_sign h hq hr
  have hs' := C100_sign h' hq' hr'
  rcases le_or_gt q 0 with h0 | h0
  · rcases le_or_gt 0 q' with h0' | h0'
    · exact (hs.2.1 h0).trans (hs'.1 h0')
    obtain ⟨s, m, hm, n, rfl, rfl, hn, rfl⟩ := readBack_value h hq
    obtain ⟨s', m', hm', n', rfl, rfl, hn', rfl⟩ := readBack_value h' hq'
    have hm0 := isMag_nonneg hm
    have hm0' := isMag_nonneg hm'
    cases s with
    | false => exact absurd (hlt.trans h0') (not_lt.2 hm0)
    | true =>
      cases s' with
      | false => exact absurd h0' (not_lt.2 hm0')
      | true =>
        rw [readBack_range hr, readBack_range hr']
        simp only [F64.signed, if_true, neg_lt_neg_iff, neg_le_neg_iff] at hlt ⊢
        exact roundMag_mono (by positivity) (nearest_mono hn' hn hlt)
  · obtain ⟨s, m, hm, n, rfl, rfl, hn, rfl⟩ := readBack_value h hq
    obtain ⟨s', m', hm', n', rfl, rfl, hn', rfl⟩ := readBack_value h' hq'
    have hm0 := isMag_nonneg hm
    have hm0' := isMag_nonneg hm'
    cases s with
    | true =>
      simp only [F64.signed, if_true] at h0
      linarith
    | false =>
      cases s' with
      | true =>
        have := h0.trans hlt
        simp only [F64.signed, if_true] at this
        linarith
      | false =>
        rw [readBack_range hr, readBack_range hr']
        exact roundMag_mono (by positivity) (nearest_mono hn hn' hlt)

/-! ## What is lost -/

theorem small_isMag : IsMag (1 / 2 ^ 35) :=
  ⟨1, -35, by norm_num, by norm_num, by norm_num, lt_of_lt_of_le (by norm_num) (one_le_pow₀ (by norm_num : (1 : ℚ) ≤ 2))⟩

/-- `2 ^ (-35)`. -/
def small : F64 := .fin false (1 / 2 ^ 35) small_isMag

theorem fixed10_small : fixed10 small = fixed10 0 := by
  have e1 : roundEven (1 / 2 ^ 35 * 10 ^ 10) = 0 := by
    have : ⌊(1 / 2 ^ 35 * 10 ^ 10 : ℚ)⌋ = 0 := by rw [Int.floor_eq_iff]; norm_num
    rw [roundEven, this, if_pos (by norm_num)]
  have e2 : roundEven (0 * 10 ^ 10) = 0 := by
    rw [zero_mul]
    exact_mod_cast roundEven_int 0
  show (let n := (roundEven (1 / 2 ^ 35 * 10 ^ 10)).toNat
    signText false ++ natText (n / 10 ^ 10) ++ '.' :: lastDigits 10 (n % 10 ^ 10)) =
      let n := (roundEven (0 * 10 ^ 10)).toNat
      signText false ++ natText (n / 10 ^ 10) ++ '.' :: lastDigits 10 (n % 10 ^ 10)
  rw [e1, e2]

/-- **C100.**  The files do not determine the signs: a level set that is positive at every node gives the same text as one that
vanishes at every node. -/
theorem C100_false : ∃ x : F64, 0 < x ∧ ∀ nx ny,
    fileText (Spec.frame nx ny fun _ _ => x) = fileText (Spec.frame nx ny fun _ _ => 0) := by
  refine ⟨small, ?_, fun nx ny => ?_⟩
  · show F64.lt (.fin false 0 isMag_zero) (.fin false (1 / 2 ^ 35) small_isMag) = true
    simp [F64.lt, F64.signed]
  · have hrow : (Spec.rowText (fun _ => small) nx).flatMap Tok.text = (Spec.rowText (fun _ => (0 : F64)) nx).flatMap Tok.text := by
      have : ∀ l : List ℕ, ((l.map fun _ => Tok.num small).intersperse Tok.comma).flatMap Tok.text =
          ((l.map fun _ => Tok.num (0 : F64)).intersperse Tok.comma).flatMap Tok.text := by
        intro l
        induction l with
        | nil => rfl
        | cons a l ih =>
          cases l with
          | nil => simp [Tok.text, fixed10_small]
          | cons b l =>
            simp only [List.map_cons, List.intersperse_cons_cons, List.flatMap_cons] at ih ⊢
            rw [ih]
            simp only [Tok.text, fixed10_small]
      rw [Spec.rowText, Spec.rowText, List.flatMap_append, List.flatMap_append, this]
    rw [fileText, fileText, Spec.frame, Spec.frame, List.flatMap_append, List.flatMap_append, List.flatMap_assoc,
      List.flatMap_assoc]
    simp only [hrow]

/-- Number of decimal digits. -/
def digitCount (n : ℕ) : ℕ := (natText n).length

/-- Two records one after the other are read as one. -/
theorem read_records (d e : Details F64) : readDetails (d.text ++ e.text) =
    some { d.ten with printstep := d.printstep * 10 ^ digitCount e.nx + e.nx } := by
  have hj : Field (natText d.printstep ++ natText e.nx) := fun c hc =>
    (List.mem_append.1 hc).elim (natText_field _ c) (natText_field _ c)
  have h : ∃ rest, fieldsFrom [] (d.text ++ e.text) = [natText d.nx, natText d.ny, fixed10 d.dx, fixed10 d.dy, fixed10 d.xlim1,
      fixed10 d.xlim2, fixed10 d.ylim1, fixed10 d.ylim2, natText d.n, fixed10 d.dt, natText d.printstep ++ natText e.nx] ++
        rest := by
    obtain ⟨more, hm⟩ : ∃ more, e.text = natText e.nx ++ ',' :: more := by
      unfold Details.text
      simp only [List.append_assoc, List.cons_append]
      exact ⟨_, rfl⟩
    refine ⟨fieldsFrom [] more, ?_⟩
    rw [hm]
    unfold Details.text
    simp only [List.append_assoc, List.cons_append]
    rw [fieldsFrom_field (natText_field _), fieldsFrom_field (natText_field _), fieldsFrom_field (fixed10_field _),
      fieldsFrom_field (fixed10_field _), fieldsFrom_field (fixed10_field _), fieldsFrom_field (fixed10_field _),
      fieldsFrom_field (fixed10_field _), fieldsFrom_field (fixed10_field _), fieldsFrom_field (natText_field _),
      fieldsFrom_field (fixed10_field _), ← List.append_assoc, fieldsFrom_field hj]
    rfl
  obtain ⟨rest, h⟩ := h
  have hd : ∀ c ∈ natText d.printstep ++ natText e.nx, isDigitText c = true := fun c hc =>
    (List.mem_append.1 hc).elim (natText_digit _ c) (natText_digit _ c)
  have hv : readNat (natText d.printstep ++ natText e.nx) = some (d.printstep * 10 ^ digitCount e.nx + e.nx) := by
    unfold readNat
    rw [if_pos ⟨by simp [natText_ne], List.all_eq_true.2 hd⟩, digitsValue_append, natText_value, digitsValue_natText]
    rfl
  unfold readDetails
  simp only [h, List.cons_append, List.nil_append, readNat_natText, readNumber_fixed10, hv]
  rfl

/-- **C100.**  Two records in `details.txt`, as two processes write them, are read as one, in which the print step is followed by the
digits of the number of columns. -/
theorem C100_records (d e : Details F64) (o : Out F64) (ho : o.details = [d, e]) : readDetails o.text.details =
    some { d.ten with printstep := d.printstep * 10 ^ digitCount e.nx + e.nx } := by
  have hd : o.text.details = d.text ++ e.text := by simp [Out.text, ho]
  rw [hd, read_records]

/-- **C100.**  With two records and a print step so long, the reader shows the first frame alone, however many were written. -/
theorem C100_two {d e : Details F64} {s : Spec.Snapshot F64} {ss : List (Spec.Snapshot F64)} {o : Out F64} (hx : 0 < d.nx)
    (hx' : d.nx < 2 ^ 31) (hy : 0 < d.ny) (hy' : d.ny < 2 ^ 31) (hn : d.n < 2 ^ 30 - 1)
    (hp : 2 * d.n < d.printstep * 10 ^ digitCount e.nx + e.nx)
    (ho : Spec.Appended d.nx d.ny { Out.none with details := [d, e] } o (s :: ss)) :
    ∃ (g : F64 → F64) (m : Movie F64), (∀ x, Spec.ReadBack x (g x)) ∧ readfilesText o.text = .ok m ∧ m.times.length = 1 ∧
      m.phi = [Spec.table d.nx d.ny fun i j => g (s.phi i j)] := by
  have hsc : o.text.scan = some ⟨(s :: ss).flatMap fun s => Spec.frame d.nx d.ny fun i j => ten (s.phi i j),
      (s :: ss).flatMap fun s => Spec.frame d.nx d.ny fun i j => ten (s.psix i j),
      (s :: ss).flatMap fun s => Spec.frame d.nx d.ny fun i j => ten (s.psiy i j),
      (s :: ss).flatMap fun s => Spec.frame d.nx d.ny fun i j => ten (s.psixy i j),
      (s :: ss).flatMap fun s => Spec.frame d.nx d.ny fun i j => ten (s.velx i j),
      (s :: ss).flatMap fun s => Spec.frame d.nx d.ny fun i j => ten (s.vely i j),
      [{ d.ten with printstep := d.printstep * 10 ^ digitCount e.nx + e.nx }]⟩ := by
    have hd : [d, e].flatMap Details.text = d.text ++ e.text := by simp
    rw [OutText.scan, Out.text, ho.phi, ho.psix, ho.psiy, ho.psixy, ho.velx, ho.vely, ho.details]
    simp only [Out.none, List.nil_append, scan_frames d.nx d.ny, hd, read_records]
    rfl
  have i1 : int32Of d.nx = d.nx := by unfold int32Of; omega
  have i2 : int32Of d.ny = d.ny := by unfold int32Of; omega
  have i4 : int32Succ (int32Div (int32Of d.n) (int32Of (d.printstep * 10 ^ digitCount e.nx + e.nx))) = 1 := by
    have e1 : int32Of d.n = d.n := by unfold int32Of; omega
    have e2 : 2 * d.n < int32Of (d.printstep * 10 ^ digitCount e.nx + e.nx) := lt_min hp (by omega)
    generalize int32Of (d.printstep * 10 ^ digitCount e.nx + e.nx) = P at e2
    rw [e1, int32Div, if_neg (by omega), Nat.div_eq_of_lt (by omega)]
    rfl
  have hr : ∀ sel : Spec.Snapshot F64 → ℕ → ℕ → F64, readFrames d.nx d.ny 1
      ((s :: ss).flatMap fun s => Spec.frame d.nx d.ny fun i j => ten (sel s i j)) =
        .ok [Spec.table d.nx d.ny fun i j => ten (sel s i j)] := by
    intro sel
    have := readFrames_more hx hy (fun s i j => ten (sel s i j)) [s] 0
      (ss.flatMap fun s => Spec.frame d.nx d.ny fun i j => ten (sel s i j))
    rw [List.flatMap_cons]
    simpa [readFrames] using this
  rw [readfilesText, hsc]
  simp only [readfiles, Details.ten, i1, i2, i4, hr, M.ok_bind]
  exact ⟨ten, _, readBack_ten, rfl, by simp, rfl⟩

/-! ## Examples -/

/-- The settings and the number of steps of the serial program as it is, for any velocity and initial data: the conclusion of
`C100_run`. -/
example (v : Vel F64) (f : Initial F64) : ∃ m o, mainSerial asShipped v f = .ok (m, o) ∧
    ∃ (ss : List (Spec.Snapshot F64)) (g : F64 → F64), ss.length = 17 ∧ (∀ x, Spec.ReadBack x (g x)) ∧
      readfilesText o.text = .ok (shown10 g ⟨128, 128, asShipped.dx, asShipped.dy, 0, 1, 0, 1, 256, asShipped.dt, 16⟩ ss) := by
  have hone : ∃ b hb, (1 : F64) = .fin false b hb ∧ (2 : ℚ) ^ (-900 : ℤ) ≤ b ∧ b ≤ 2 ^ 1000 :=
    ⟨1, _, one_fin, zpow_le_one_of_nonpos₀ (by norm_num) (by norm_num), one_le_pow₀ (by norm_num)⟩
  have hz : FromZero asShipped := ⟨by decide, by decide, by decide, by decide, rfl, rfl, hone, hone⟩
  have hn : stepCount asShipped = .ok 256 := by decide +kernel
  obtain ⟨m, o, e⟩ := C83_serial_partial hz v f hn (.inr (by decide))
  obtain ⟨ss, g, h1, h2, -, h3⟩ := C100_run (c := asShipped) (by decide) (by decide) (by decide) (by decide) hn (by decide)
    (by decide) (by decide) (by decide) e
  exact ⟨m, o, e, ss, g, h1, h2, h3⟩

/-- Two nodes with the values `0.5` and `-2 ^ (-35)`, written once: the text, and what is read. -/
def sample : Spec.Snapshot F64 :=
  ⟨fun _ j => if j = 0 then 1 / 2 else -small, fun _ _ => .nan, fun _ _ => .inf true, fun _ _ => 0, fun _ _ => 1, fun _ _ => 1⟩

/-- Parameters for `sample`. -/
def sampleD : Details F64 := ⟨2, 1, 1, 1, 0, 1, 0, 1, 0, 1, 1⟩

/-- Files with `sample` in them. -/
def sampleOut : Out F64 :=
  ⟨Spec.frame 2 1 sample.phi, Spec.frame 2 1 sample.psix, Spec.frame 2 1 sample.psiy, Spec.frame 2 1 sample.psixy,
    Spec.frame 2 1 sample.velx, Spec.frame 2 1 sample.vely, [sampleD]⟩

example : fileText sampleOut.phi = "0.5000000000,-0.0000000000\n\n".toList ∧
    fileText sampleOut.psiy = "-inf,-inf\n\n".toList := by decide +kernel

example : ∃ g : F64 → F64, (∀ x, Spec.ReadBack x (g x)) ∧ readfilesText sampleOut.text = .ok (shown10 g sampleD [sample]) :=
  C100_read (by decide) (by decide) (by decide) (by decide) (by decide) (by decide) (by decide) (by decide) rfl
    (by constructor <;> simp [sampleOut, sampleD, Out.none])

example : sampleD.text = "2,1,1.0000000000,1.0000000000,0.0000000000,1.0000000000,0.0000000000,1.0000000000,0,1.0000000000,1".toList := by
  decide +kernel

/-- Files with `sample` twice and two records. -/
example (d : Details F64) (h : d = { sampleD with n := 1 }) : ∃ (g : F64 → F64) (m : Movie F64), (∀ x, Spec.ReadBack x (g x)) ∧
    readfilesText (Out.text { sampleOut with
      phi := sampleOut.phi ++ sampleOut.phi, psix := sampleOut.psix ++ sampleOut.psix, psiy := sampleOut.psiy ++ sampleOut.psiy,
      psixy := sampleOut.psixy ++ sampleOut.psixy, velx := sampleOut.velx ++ sampleOut.velx,
      vely := sampleOut.vely ++ sampleOut.vely, details := [d, d] }) = .ok m ∧
    m.times.length = 1 ∧ m.phi = [Spec.table 2 1 fun i j => g (sample.phi i j)] := by
  subst h
  exact C100_two (d := { sampleD with n := 1 }) (e := { sampleD with n := 1 }) (s := sample) (ss := [sample]) (by decide) (by decide)
    (by decide) (by decide) (by decide) (by decide +kernel) (by constructor <;> simp [sampleOut, sampleD, Out.none])

/-- With the settings of the program as it is, two records are read as a print step of 16128, and one frame is shown. -/
example (d : Details F64) (h : d.printstep = 16) (h' : d.nx = 128) :
    (readDetails (Out.text { sampleOut with details := [d, d] }).details).map (·.printstep) = some 16128 ∧
      int32Succ (int32Div 256 16128) = 1 := by
  rw [C100_records d d _ rfl]
  constructor
  · have : digitCount 128 = 3 := by decide +kernel
    simp [h, h', this]
  · decide

/-- `1 / 3` is written with ten decimals and read with an error of at most `1 / 10 ^ 10`. -/
example : ∃ y r, Spec.ReadBack (F64.round false (1 / 3)) y ∧ HasValue y r ∧ |r - 1 / 3| ≤ 1 / 10 ^ 10 := by
  have hb : |(1 / 3 : ℚ)| ≤ 2 ^ 1020 := by
    rw [abs_of_pos (by norm_num)]
    exact le_trans (by norm_num) (one_le_pow₀ (by norm_num : (1 : ℚ) ≤ 2))
  obtain ⟨q, hq, e⟩ := hasValue_round (s := false) hb
  have ht : tiny ≤ 1 / 2 ^ 54 := by
    rw [tiny, show (1 / 2 ^ 54 : ℚ) = 2 ^ (-54 : ℤ) by norm_num]
    exact two_zpow_le (by norm_num)
  have hu := unitRoundoff_le
  clear hb
  rw [abs_of_pos (by norm_num : (0 : ℚ) < 1 / 3)] at e
  have e' : |q - 1 / 3| ≤ 1 / 2 ^ 53 * (1 / 3) + 1 / 2 ^ 54 :=
    e.trans (add_le_add (mul_le_mul_of_nonneg_right hu (by norm_num)) ht)
  obtain ⟨h1, h2⟩ := abs_le.1 e'
  have ha : |q| ≤ 1 := by
    rw [abs_le]
    norm_num at h1 h2
    constructor <;> linarith
  obtain ⟨r, hr, h⟩ := C100_near (readBack_ten _) hq (ha.trans (one_le_pow₀ (by norm_num)))
  refine ⟨_, r, readBack_ten _, hr, ?_⟩
  have h3 : |r - 1 / 3| ≤ |r - q| + |q - 1 / 3| := abs_sub_le _ _ _
  norm_num at h e' ⊢ h3
  linarith

/-- The time step `1 / 256 = 0.00390625` of the programs is read as it is. -/
example : ∃ y, Spec.ReadBack (F64.round false (1 / 256)) y ∧ y = F64.round false (1 / 256) := by
  have hm : IsMag (1 / 256) := ⟨1, -8, by norm_num, by norm_num, by norm_num,
    lt_of_lt_of_le (by norm_num) (one_le_pow₀ (by norm_num : (1 : ℚ) ≤ 2))⟩
  refine ⟨_, readBack_ten _, C100_exact (q := 1 / 256) (k := 39062500) (readBack_ten _) ?_ (by norm_num)⟩
  rw [round_fixed hm]
  exact ⟨false, _, hm, rfl, rfl⟩

/-- The number `2 ^ (-35)` is read as zero, and the order to `1` is kept. -/
example : ∃ y r y' r', Spec.ReadBack small y ∧ HasValue y r ∧ r = 0 ∧ Spec.ReadBack 1 y' ∧ HasValue y' r' ∧ r ≤ r' := by
  have hs : HasValue small (1 / 2 ^ 35) := ⟨false, _, small_isMag, rfl, rfl⟩
  have b1 : |(1 / 2 ^ 35 : ℚ)| ≤ 2 ^ 1000 := by
    rw [abs_of_pos (by norm_num)]
    exact le_trans (by norm_num) (one_le_pow₀ (by norm_num : (1 : ℚ) ≤ 2))
  have b2 : |(1 : ℚ)| ≤ 2 ^ 1000 := by rw [abs_one]; exact one_le_pow₀ (by norm_num)
  obtain ⟨r, hr, -⟩ := C100_near (readBack_ten small) hs b1
  obtain ⟨r', hr', -⟩ := C100_near (readBack_ten 1) hasValue_one b2
  exact ⟨_, r, _, r', readBack_ten _, hr, (C100_sign (readBack_ten _) hs hr).2.2.1 (by rw [abs_of_pos] <;> norm_num),
    readBack_ten _, hr', C100_order (readBack_ten _) (readBack_ten _) hs hr hasValue_one hr' (by norm_num)⟩

end Gals.Props
