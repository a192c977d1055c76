import Verif.Lemmas.Fields
import Verif.Model.Temporal

/-!
# The time-stepping loops
-/

set_option linter.unusedSectionVars false

namespace Gals

open Spec

variable {K : Type} {d : ℕ} {T : Type}
variable [Zero K] [One K] [Add K] [Sub K] [Mul K] [Div K] [Neg K] [NatCast K] [IntCast K]
  [LT K] [DecidableLT K] [LE K] [DecidableLE K] [HasFloor K]

theorem Grid.Made.mem_interiorCells {s : IntSem} {r : Req K} {g : Grid K d} (G : g.Made s r) (c : Cell) :
    c ∈ g.interiorCells ↔ r.Interior c := by
  unfold Grid.interiorCells Req.Interior InteriorCell
  rw [mem_cells, G.nx, G.ny, G.nz]

theorem departure_ok {s : IntSem} {r : Req K} {g gv : Grid K d} (G : g.Made s r) {dt : K} {velocity : Arr (Vec3 K)}
    {v pos : Cell → Vec3 K} (hv : ∀ c, r.Interior c → velocity.get s gv c.1 c.2.1 c.2.2 = .ok (v c))
    (hp : ∀ c, r.Interior c → g.at' s c.1 c.2.1 c.2.2 = .ok (pos c)) :
    ∃ a, departure s g gv dt velocity = .ok a ∧ FieldIs s r g a
      (fun c => if r.Interior c then (pos c).sub ((v c).smul dt) else Vec3.zero) := by
  unfold departure
  refine (fieldIs_mk G _).loop_set G G.mem_interiorCells (fun c hc => interior_padded G hc)
    (fun c => (pos c).sub ((v c).smul dt)) ?_
  intro acc c hc
  have hi := (G.mem_interiorCells c).1 hc
  rw [hp c hi, M.ok_bind, hv c hi, M.ok_bind]

theorem departureGrad_ok {s : IntSem} {r : Req K} {g gv : Grid K d} (G : g.Made s r) {dt : K} {vg : Arr (Mat3 K)}
    {m : Cell → Mat3 K} (hv : ∀ c, r.Interior c → vg.get s gv c.1 c.2.1 c.2.2 = .ok (m c)) :
    ∃ a, departureGrad s g gv dt vg = .ok a ∧ FieldIs s r g a
      (fun c => if r.Interior c then Mat3.identity.sub ((m c).smul dt) else Mat3.zero) := by
  unfold departureGrad
  refine (fieldIs_mk G _).loop_set G G.mem_interiorCells (fun c hc => interior_padded G hc)
    (fun c => Mat3.identity.sub ((m c).smul dt)) ?_
  intro acc c hc
  have hi := (G.mem_interiorCells c).1 hc
  rw [hv c hi, M.ok_bind]

/-- All fields except `phi` and `psi` agree. -/
structure SameBesidesNow (l l' : Levelset K) : Prop where
  phiMixed : l'.phiMixed = l.phiMixed
  phiPrev : l'.phiPrev = l.phiPrev
  psiPrev : l'.psiPrev = l.psiPrev
  phiMixedPrev : l'.phiMixedPrev = l.phiMixedPrev
  phiInterpPrev : l'.phiInterpPrev = l.phiInterpPrev
  psiInterpPrev : l'.psiInterpPrev = l.psiInterpPrev

theorem slUpdate_ok {s : IntSem} {r : Req K} {g : Grid K d} (G : g.Made s r) {xg : Arr (Mat3 K)} {ls : Levelset K}
    {m : Cell → Mat3 K} {p0 pi : Cell → K} {q0 qi : Cell → Vec3 K}
    (hm : ∀ c, r.Interior c → xg.get s g c.1 c.2.1 c.2.2 = .ok (m c))
    (hp : FieldIs s r g ls.phi p0) (hq : FieldIs s r g ls.psi q0)
    (hpi : ∀ c, r.Interior c → ls.phiInterpPrev.get s g c.1 c.2.1 c.2.2 = .ok (pi c))
    (hqi : ∀ c, r.Interior c → ls.psiInterpPrev.get s g c.1 c.2.1 c.2.2 = .ok (qi c)) :
    ∃ ls', slUpdate s g xg ls = .ok ls' ∧ FieldIs s r g ls'.phi (fun c => if r.Interior c then pi c else p0 c) ∧
      FieldIs s r g ls'.psi (fun c => if r.Interior c then (m c).dot (qi c) else q0 c) ∧ SameBesidesNow ls ls' := by
  have hl := G.mem_interiorCells
  unfold slUpdate
  obtain ⟨t, h1, h2, h3, h4⟩ := loop_inv (l := g.interiorCells) (s := ls) (body := fun ls c => do
    let p ← ls.phiInterpPrev.get s g c.1 c.2.1 c.2.2
    let phi ← ls.phi.set s g c.1 c.2.1 c.2.2 p
    let m ← xg.get s g c.1 c.2.1 c.2.2
    let q ← ls.psiInterpPrev.get s g c.1 c.2.1 c.2.2
    let psi ← ls.psi.set s g c.1 c.2.1 c.2.2 (m.dot q)
    return { ls with phi := phi, psi := psi })
    (fun pre t => FieldIs s r g t.phi (fun c => if c ∈ pre then pi c else p0 c) ∧
      FieldIs s r g t.psi (fun c => if c ∈ pre then (m c).dot (qi c) else q0 c) ∧ SameBesidesNow ls t)
    ⟨by simpa using hp, by simpa using hq, ⟨rfl, rfl, rfl, rfl, rfl, rfl⟩⟩ (by
      rintro pre c post t hpl ⟨r1, r2, r3⟩
      have hc : r.Interior c := (hl c).1 (by rw [hpl]; simp)
      have hpad := interior_padded G hc
      obtain ⟨a', q1, q2⟩ := r1.set G hpad (pi c)
      obtain ⟨b', q3, q4⟩ := r2.set G hpad ((m c).dot (qi c))
      refine ⟨{ t with phi := a', psi := b' }, ?_, q2.congr ?_, q4.congr ?_, ?_⟩
      · rw [r3.phiInterpPrev, hpi c hc, M.ok_bind, q1, M.ok_bind, hm c hc, M.ok_bind, r3.psiInterpPrev, hqi c hc,
          M.ok_bind, q3, M.ok_bind]
        rfl
      · intro c' _
        by_cases hcc : c' = c
        · subst hcc; simp
        · simp [hcc]
      · intro c' _
        by_cases hcc : c' = c
        · subst hcc; simp
        · simp [hcc]
      · exact ⟨r3.phiMixed, r3.phiPrev, r3.psiPrev, r3.phiMixedPrev, r3.phiInterpPrev, r3.psiInterpPrev⟩)
  refine ⟨t, h1, h2.congr ?_, h3.congr ?_, h4⟩
  · intro c _
    simp only [hl]
  · intro c _
    simp only [hl]

/-- The semi-Lagrangian step, given that each interpolation returns. -/
theorem slEuler_ok {s : IntSem} {r : Req K} {g gv : Grid K d} (G : g.Made s r) {dt : K} {vel : LsVelocity K}
    {ls : Levelset K} {v pos : Cell → Vec3 K} {m : Cell → Mat3 K} {o : Cell → Interp K} {p0 p1 : Cell → K} {q0 q1 : Cell → Vec3 K}
    (hv : ∀ c, r.Interior c → vel.velocity.get s gv c.1 c.2.1 c.2.2 = .ok (v c))
    (hm : ∀ c, r.Interior c → vel.grad.get s gv c.1 c.2.1 c.2.2 = .ok (m c))
    (hpos : ∀ c, r.Interior c → g.at' s c.1 c.2.1 c.2.2 = .ok (pos c))
    (hp : FieldIs s r g ls.phi p0) (hq : FieldIs s r g ls.psi q0)
    (hp1 : FieldIs s r g ls.phiInterpPrev p1) (hq1 : FieldIs s r g ls.psiInterpPrev q1)
    (ho : ∀ c, r.Interior c → interpolate s g ls ((pos c).sub ((v c).smul dt)) false = .ok (o c)) :
    ∃ ls', slEuler s g gv dt vel ls = .ok ls' ∧
      FieldIs s r g ls'.phi (fun c => if r.Interior c then (o c).phi else p0 c) ∧
      FieldIs s r g ls'.psi (fun c => if r.Interior c then (Mat3.identity.sub ((m c).smul dt)).dot (o c).psi else q0 c) ∧
      ls'.phiMixed = ls.phiMixed ∧ ls'.phiPrev = ls.phiPrev ∧ ls'.psiPrev = ls.psiPrev ∧
      ls'.phiMixedPrev = ls.phiMixedPrev ∧
      FieldIs s r g ls'.phiInterpPrev (fun c => if r.Interior c then (o c).phi else p1 c) ∧
      FieldIs s r g ls'.psiInterpPrev (fun c => if r.Interior c then (o c).psi else q1 c) := by
  obtain ⟨xr, e1, f1⟩ := departure_ok (dt := dt) G hv hpos
  obtain ⟨xg, e2, f2⟩ := departureGrad_ok (dt := dt) G hm
  obtain ⟨l1, e3, f3, f4, f5⟩ := hermiteCompute_ok G g f1.ext (xs := fun c => (pos c).sub ((v c).smul dt)) (by
    intro c hc
    rw [f1.val c (interior_padded G hc), if_pos hc]) hp1 hq1 ho
  obtain ⟨l2, e4, f6, f7, f8⟩ := slUpdate_ok (ls := l1) (xg := xg) G (m := fun c => Mat3.identity.sub ((m c).smul dt))
    (pi := fun c => (o c).phi) (qi := fun c => (o c).psi) (p0 := p0) (q0 := q0) (by
      intro c hc
      rw [f2.val c (interior_padded G hc), if_pos hc]) (by rw [f5.phi]; exact hp) (by rw [f5.psi]; exact hq) (by
      intro c hc
      rw [f3.val c (interior_padded G hc), if_pos hc]) (by
      intro c hc
      rw [f4.val c (interior_padded G hc), if_pos hc])
  refine ⟨l2, ?_, f6, f7, f8.phiMixed.trans f5.phiMixed, f8.phiPrev.trans f5.phiPrev, f8.psiPrev.trans f5.psiPrev,
    f8.phiMixedPrev.trans f5.phiMixedPrev, by rw [f8.phiInterpPrev]; exact f3, by rw [f8.psiInterpPrev]; exact f4⟩
  unfold slEuler
  rw [e1, M.ok_bind, e3, M.ok_bind, e2, M.ok_bind, e4]

theorem explicitEuler_ok {s : IntSem} {r : Req K} {g gv : Grid K d} (G : g.Made s r) {dt : K} {vel : LsVelocity K}
    {ls : Levelset K} {v : Cell → Vec3 K} {p0 pp : Cell → K}
    (hv : ∀ c, r.Interior c → vel.velocity.get s gv c.1 c.2.1 c.2.2 = .ok (v c))
    (hp : FieldIs s r g ls.phi p0)
    (hpp : ∀ c, r.Interior c → ls.phiPrev.get s g c.1 c.2.1 c.2.2 = .ok (pp c)) :
    ∃ phi', explicitEuler s g gv dt vel ls = .ok { ls with phi := phi' } ∧
      FieldIs s r g phi' (fun c => if r.Interior c then pp c - dt * (v c).x else p0 c) := by
  have hl := mem_interior hp.ext
  unfold explicitEuler
  obtain ⟨t, h1, ⟨a, h2, h3⟩⟩ := loop_inv (l := ls.phi.interior) (s := ls) (body := fun ls c => do
    let p ← ls.phiPrev.get s g c.1 c.2.1 c.2.2
    let v ← vel.velocity.get s gv c.1 c.2.1 c.2.2
    let phi ← ls.phi.set s g c.1 c.2.1 c.2.2 (p - dt * v.x)
    return { ls with phi := phi })
    (fun pre t => ∃ a, t = { ls with phi := a } ∧
      FieldIs s r g a (fun c => if c ∈ pre then pp c - dt * (v c).x else p0 c))
    ⟨ls.phi, rfl, by simpa using hp⟩ (by
      rintro pre c post t hpl ⟨a, rfl, r1⟩
      have hc : r.Interior c := (hl c).1 (by rw [hpl]; simp)
      obtain ⟨a', q1, q2⟩ := r1.set G (interior_padded G hc) (pp c - dt * (v c).x)
      refine ⟨{ ls with phi := a' }, ?_, a', rfl, q2.congr ?_⟩
      · dsimp only
        rw [hpp c hc, M.ok_bind, hv c hc, M.ok_bind, q1, M.ok_bind]
        rfl
      · intro c' _
        by_cases hcc : c' = c
        · subst hcc; simp
        · simp [hcc])
  refine ⟨a, by rw [h1, h2], h3.congr ?_⟩
  intro c _
  simp only [hl]

/-! ## Ghost cells, without assuming that a step succeeds -/

/-- `a'` is a field like `a`, with the same ghost values. -/
def SameGhosts (s : IntSem) (r : Req K) (g : Grid K d) (f : Cell → T) (a : Arr T) : Prop :=
  ∃ f', FieldIs s r g a f' ∧ ∀ c, r.Padded d c → ¬ r.Interior c → f' c = f c

theorem SameGhosts.set {s : IntSem} {r : Req K} {g : Grid K d} (G : g.Made s r) {f : Cell → T} {a a' : Arr T}
    (h : SameGhosts s r g f a) {c : Cell} (hc : r.Interior c) {t : T} (e : a.set s g c.1 c.2.1 c.2.2 t = .ok a') :
    SameGhosts s r g f a' := by
  obtain ⟨f', h1, h2⟩ := h
  obtain ⟨b, e1, e2⟩ := h1.set G (interior_padded G hc) t
  rw [e] at e1
  cases e1
  refine ⟨_, e2, fun c' hc' hn => ?_⟩
  have : c' ≠ c := fun h => hn (h ▸ hc)
  simp only [this, if_false]
  exact h2 c' hc' hn

theorem bind_ok {α β : Type} {x : M α} {f : α → M β} {b : β} (h : x >>= f = .ok b) : ∃ a, x = .ok a ∧ f a = .ok b := by
  cases x with
  | error e => cases h
  | ok a => exact ⟨a, rfl, h⟩

theorem hermiteCompute_ghosts {s : IntSem} {g gx : Grid K d} {xi : Arr (Vec3 K)} {ls ls' : Levelset K}
    (e : hermiteCompute s gx g xi ls = .ok ls') : ls'.phi = ls.phi ∧ ls'.psi = ls.psi := by
  unfold hermiteCompute at e
  refine loop_inv_of_ok (fun l => l.phi = ls.phi ∧ l.psi = ls.psi) ⟨rfl, rfl⟩ ?_ e
  rintro c _ u u' ⟨h1, h2⟩ e
  obtain ⟨x, -, e⟩ := bind_ok e
  obtain ⟨o, -, e⟩ := bind_ok e
  obtain ⟨a, -, e⟩ := bind_ok e
  obtain ⟨b, -, e⟩ := bind_ok e
  cases e
  exact ⟨h1, h2⟩

theorem slEuler_ghosts {s : IntSem} {r : Req K} {g gv : Grid K d} (G : g.Made s r) {dt : K} {vel : LsVelocity K}
    {ls ls' : Levelset K} {p : Cell → K} {q : Cell → Vec3 K} (hp : SameGhosts s r g p ls.phi)
    (hq : SameGhosts s r g q ls.psi) (e : slEuler s g gv dt vel ls = .ok ls') :
    SameGhosts s r g p ls'.phi ∧ SameGhosts s r g q ls'.psi := by
  unfold slEuler at e
  obtain ⟨xr, -, e⟩ := bind_ok e
  obtain ⟨l1, e1, e⟩ := bind_ok e
  obtain ⟨xg, -, e⟩ := bind_ok e
  obtain ⟨h1, h2⟩ := hermiteCompute_ghosts e1
  unfold slUpdate at e
  refine loop_inv_of_ok (fun l => SameGhosts s r g p l.phi ∧ SameGhosts s r g q l.psi)
    ⟨by rw [h1]; exact hp, by rw [h2]; exact hq⟩ ?_ e
  rintro c hc u u' ⟨k1, k2⟩ e
  have hi := (G.mem_interiorCells c).1 hc
  obtain ⟨x, -, e⟩ := bind_ok e
  obtain ⟨a, ea, e⟩ := bind_ok e
  obtain ⟨m, -, e⟩ := bind_ok e
  obtain ⟨y, -, e⟩ := bind_ok e
  obtain ⟨b, eb, e⟩ := bind_ok e
  cases e
  exact ⟨k1.set G hi ea, k2.set G hi eb⟩

theorem explicitEuler_ghosts {s : IntSem} {r : Req K} {g gv : Grid K d} (G : g.Made s r) {dt : K} {vel : LsVelocity K}
    {ls ls' : Levelset K} {p : Cell → K} (hp : SameGhosts s r g p ls.phi) (e : explicitEuler s g gv dt vel ls = .ok ls') :
    SameGhosts s r g p ls'.phi ∧ ls'.psi = ls.psi := by
  unfold explicitEuler at e
  have hext : ls.phi.numCells = r.n := hp.choose_spec.1.ext
  refine loop_inv_of_ok (fun l => SameGhosts s r g p l.phi ∧ l.psi = ls.psi) ⟨hp, rfl⟩ ?_ e
  rintro c hc u u' ⟨k1, k2⟩ e
  have hi := (mem_interior hext c).1 hc
  obtain ⟨x, -, e⟩ := bind_ok e
  obtain ⟨a, ea, e⟩ := bind_ok e
  obtain ⟨b, eb, e⟩ := bind_ok e
  cases e
  exact ⟨k1.set G hi eb, k2⟩

theorem modify_ghosts {s : IntSem} {r : Req K} {g : Grid K d} (G : g.Made s r) {f : Cell → T} {a a' : Arr T}
    (h : SameGhosts s r g f a) {c : Cell} (hc : r.Interior c) {u : T → T} (e : a.modify s g c u = .ok a') :
    SameGhosts s r g f a' := by
  unfold Arr.modify at e
  obtain ⟨x, -, e⟩ := bind_ok e
  exact h.set G hc e

/-- A gradient computation writes interior cells only. -/
theorem gradScalar_ghosts {sch : GradScheme} {s : IntSem} {r : Req K} {ga gg : Grid K d} (G : gg.Made s r) {alpha : Arr K}
    (hext : alpha.numCells = r.n) {grad grad' : Arr (Vec3 K)} {q : Cell → Vec3 K} (h : SameGhosts s r gg q grad)
    (e : gradScalar sch s ga gg alpha grad = .ok grad') : SameGhosts s r gg q grad' := by
  cases sch with
  | central =>
    refine loop_inv_of_ok (fun l => SameGhosts s r gg q l) h ?_ e
    intro c hc u u' hu e
    have hi := (mem_interior hext c).1 hc
    refine loop_inv_of_ok (fun l => SameGhosts s r gg q l) hu ?_ e
    intro a _ v v' hv e
    obtain ⟨x, -, e⟩ := bind_ok e
    obtain ⟨y, -, e⟩ := bind_ok e
    exact modify_ghosts G hv hi e
  | third =>
    refine loop_inv_of_ok (fun l => SameGhosts s r gg q l) h ?_ e
    intro c hc u u' hu e
    have hi := (mem_interior hext c).1 hc
    refine loop_inv_of_ok (fun l => SameGhosts s r gg q l) hu ?_ e
    intro a _ v v' hv e
    obtain ⟨x, -, e⟩ := bind_ok e
    obtain ⟨y, -, e⟩ := bind_ok e
    obtain ⟨z, -, e⟩ := bind_ok e
    obtain ⟨w, -, e⟩ := bind_ok e
    exact modify_ghosts G hv hi e

end Gals
