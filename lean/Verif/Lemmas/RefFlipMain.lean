import Verif.Lemmas.RefFlip

/-!
# Loops, steps and runs of the reference programs on related level sets
-/

set_option linter.unusedSectionVars false

namespace Gals

open Gals.Spec Gals.Ref

section access
variable {K : Type} {W : K → K → Prop}

theorem getD_geo (a : DVar) (h : geometric a = true) (i j : ℕ) : ProgRel (LocRel W) Eq (getD (K := K) a i j) (getD a i j) :=
  .read _ fun v w hv => .pure (by unfold LocRel at hv; simpa only [h] using hv)

theorem getD_data (a : DVar) (h : geometric a = false) (i j : ℕ) : ProgRel (LocRel W) W (getD (K := K) a i j) (getD a i j) :=
  .read _ fun v w hv => .pure (by unfold LocRel at hv; simpa only [h] using hv)

theorem setD_geo (a : DVar) (h : geometric a = true) (i j : ℕ) (v : K) : ProgRel (LocRel W) Eq (setD a i j v) (setD a i j v) :=
  .write _ (by unfold LocRel; simp only [h]) (.pure rfl)

theorem setD_data (a : DVar) (h : geometric a = false) (i j : ℕ) {v w : K} (hv : W v w) :
    ProgRel (LocRel W) Eq (setD a i j v) (setD a i j w) :=
  .write _ (by unfold LocRel; simpa only [h] using hv) (.pure rfl)

theorem getN_rel (a : NVar) (i j : ℕ) : ProgRel (LocRel W) Eq (getN (K := K) a i j) (getN a i j) :=
  .read _ fun _ _ hv => .pure hv

theorem setN_rel (a : NVar) (i j v : ℕ) : ProgRel (LocRel W) Eq (setN (K := K) a i j v) (setN a i j v) :=
  .write _ rfl (.pure rfl)

end access

/-- Accesses that have nothing to do with the level set. -/
macro "geo" : tactic => `(tactic| repeat' first
  | exact ProgRel.pure rfl
  | exact getD_geo _ rfl _ _
  | exact setD_geo _ rfl _ _ _
  | exact getN_rel _ _ _
  | exact setN_rel _ _ _ _
  | assumption
  | refine ProgRel.next (getD_geo _ rfl _ _) fun _ => ?_
  | refine ProgRel.next (setD_geo _ rfl _ _ _) fun _ => ?_
  | refine ProgRel.next (getN_rel _ _ _) fun _ => ?_
  | refine ProgRel.next (setN_rel _ _ _ _) fun _ => ?_
  | split)

section bodies
variable {K : Type} [Zero K] [One K] [Add K] [_root_.Sub K] [Mul K] [Div K] [Neg K] [NatCast K] {W : K → K → Prop}

theorem advBody_rel (v : Vel K) (rk3 : Bool) (t : ℕ) (dt : K) (i j : ℕ) :
    ProgRel (LocRel W) Eq (advBody v rk3 t dt i j) (advBody v rk3 t dt i j) := by
  unfold advBody; geo

theorem advBodyMpi_rel (v : Vel K) (rk3 : Bool) (t : ℕ) (dt : K) (i j : ℕ) :
    ProgRel (LocRel W) Eq (advBodyMpi v rk3 t dt i j) (advBodyMpi v rk3 t dt i j) := by
  unfold advBodyMpi; geo

theorem advCuda_rel (v : Vel K) (t : ℕ) (dt : K) (nx ix iy : ℕ) :
    ProgRel (LocRel W) Eq (advCuda v t dt nx ix iy) (advCuda v t dt nx ix iy) := by
  unfold advCuda; geo

theorem spacing_rel (a : DVar) (h : geometric a = true) : ProgRel (LocRel W) Eq (spacing (K := K) a) (spacing a) := by
  unfold spacing
  exact (getD_geo _ h _ _).next fun _ => (getD_geo _ h _ _).next fun _ => .pure rfl

section search
variable [LT K] [DecidableLT K] [LE K] [DecidableLE K]

theorem lowerBound_rel (a : DVar) (h : geometric a = true) (p : K) (first len : ℕ) :
    ProgRel (LocRel W) Eq (lowerBound a p first len) (lowerBound a p first len) := by
  induction len using Nat.strong_induction_on generalizing first with
  | _ len ih =>
    unfold lowerBound
    split
    · exact .pure rfl
    · refine (getD_geo _ h _ _).next fun x => ?_
      split
      · exact ih _ (by omega) _
      · exact ih _ (by omega) _

theorem cellOf_rel (a : DVar) (h : geometric a = true) (n : ℕ) (p : K) : ProgRel (LocRel W) Eq (cellOf a n p) (cellOf a n p) :=
  (lowerBound_rel a h p 0 n).next fun _ => .pure rfl

theorem findBody_rel (x1 x2 y1 y2 : K) (nx ny i j : ℕ) :
    ProgRel (LocRel W) Eq (findBody x1 x2 y1 y2 nx ny i j) (findBody x1 x2 y1 y2 nx ny i j) := by
  have cx : ∀ p, ProgRel (LocRel W) Eq (cellOf (K := K) .x nx p) (cellOf .x nx p) := fun p => cellOf_rel _ rfl _ p
  have cy : ∀ p, ProgRel (LocRel W) Eq (cellOf (K := K) .y ny p) (cellOf .y ny p) := fun p => cellOf_rel _ rfl _ p
  unfold findBody
  refine ProgRel.next (getD_geo _ rfl _ _) fun xa => ProgRel.next (getD_geo _ rfl _ _) fun ya => ?_
  dsimp only
  repeat' first
    | exact ProgRel.pure rfl
    | exact setN_rel _ _ _ _
    | refine ProgRel.next (setN_rel _ _ _ _) fun _ => ?_
    | refine ProgRel.next (cx _) fun _ => ?_
    | refine ProgRel.next (cy _) fun _ => ?_
    | split

theorem locationLoop_rel (a : DVar) (h : geometric a = true) (p : K) (nx loc : ℕ) :
    ProgRel (LocRel W) Eq (locationLoop a p nx loc) (locationLoop a p nx loc) := by
  induction hn : nx - loc using Nat.strong_induction_on generalizing loc with
  | _ n ih =>
    unfold locationLoop
    refine (getD_geo _ h _ _).next fun x => ?_
    split
    · exact ih (nx - (loc + 1)) (by omega) _ rfl
    · exact .pure rfl

theorem locationAlgo_rel (a : DVar) (h : geometric a = true) (p : K) (nx : ℕ) :
    ProgRel (LocRel W) Eq (locationAlgo a p nx) (locationAlgo a p nx) :=
  (locationLoop_rel a h p nx 0).next fun _ => .pure rfl

theorem findCuda_rel (x1 x2 y1 y2 : K) (nx ny ix iy : ℕ) :
    ProgRel (LocRel W) Eq (findCuda x1 x2 y1 y2 nx ny ix iy) (findCuda x1 x2 y1 y2 nx ny ix iy) := by
  have cx : ∀ p n, ProgRel (LocRel W) Eq (locationAlgo (K := K) .x p n) (locationAlgo .x p n) := fun p n => locationAlgo_rel _ rfl p n
  have cy : ∀ p n, ProgRel (LocRel W) Eq (locationAlgo (K := K) .y p n) (locationAlgo .y p n) := fun p n => locationAlgo_rel _ rfl p n
  unfold findCuda
  refine ProgRel.next (getD_geo _ rfl _ _) fun xa => ProgRel.next (getD_geo _ rfl _ _) fun ya => ?_
  dsimp only
  repeat' first
    | exact ProgRel.pure rfl
    | exact setN_rel _ _ _ _
    | refine ProgRel.next (setN_rel _ _ _ _) fun _ => ?_
    | refine ProgRel.next (cx _ _) fun _ => ?_
    | refine ProgRel.next (cy _ _) fun _ => ?_
    | split

end search

theorem four_rel {a0 a1 a2 a3 b0 b1 b2 b3 : K} (h0 : W a0 b0) (h1 : W a1 b1) (h2 : W a2 b2) (h3 : W a3 b3) :
    ∀ i, W ((![a0, a1, a2, a3] : Fin 4 → K) i) ((![b0, b1, b2, b3] : Fin 4 → K) i) := by
  intro i
  match i with
  | 0 => exact h0
  | 1 => exact h1
  | 2 => exact h2
  | 3 => exact h3

theorem readFour_rel (a : DVar) (h : geometric a = false) (cx cy : ℕ) :
    ProgRel (LocRel W) (fun f g => ∀ i, W (f i) (g i)) (readFour (K := K) a cx cy) (readFour a cx cy) :=
  (getD_data a h _ _).bind fun _ _ h0 => (getD_data a h _ _).bind fun _ _ h1 => (getD_data a h _ _).bind fun _ _ h2 =>
    (getD_data a h _ _).bind fun _ _ h3 => .pure (four_rel h0 h1 h2 h3)

theorem readFourOld_rel (a : DVar) (h : geometric a = false) (cx cy : ℕ) :
    ProgRel (LocRel W) (fun f g => ∀ i, W (f i) (g i)) (readFourOld (K := K) a cx cy) (readFourOld a cx cy) :=
  (getD_data a h _ _).bind fun _ _ h0 => (getD_data a h _ _).bind fun _ _ h1 => (getD_data a h _ _).bind fun _ _ h2 =>
    (getD_data a h _ _).bind fun _ _ h3 => .pure (four_rel h0 h1 h2 h3)

theorem readFourCuda_rel (a : DVar) (h : geometric a = false) (nx cell : ℕ) :
    ProgRel (LocRel W) (fun f g => ∀ i, W (f i) (g i)) (readFourCuda (K := K) a nx cell) (readFourCuda a nx cell) :=
  (getD_data a h _ _).bind fun _ _ h0 => (getD_data a h _ _).bind fun _ _ h1 => (getD_data a h _ _).bind fun _ _ h2 =>
    (getD_data a h _ _).bind fun _ _ h3 => .pure (four_rel h0 h1 h2 h3)

variable (A : Respects K W)
include A

theorem updateBody_rel (v : Vel K) (s : Schemes) (t : ℕ) (dt dx dy : K) (i j : ℕ) :
    ProgRel (LocRel W) Eq (updateBody v s t dt dx dy i j) (updateBody v s t dt dx dy i j) := by
  unfold updateBody
  refine ProgRel.next (getN_rel _ _ _) fun cx => ProgRel.next (getN_rel _ _ _) fun cy => ?_
  refine ProgRel.bind (readFour_rel .mphi rfl _ _) fun c1 c1' h1 => ProgRel.bind (readFour_rel .mpsix rfl _ _) fun c2 c2' h2 => ?_
  refine ProgRel.bind (readFour_rel .mpsiy rfl _ _) fun c3 c3' h3 => ProgRel.bind (readFour_rel .mpsixy rfl _ _) fun c4 c4' h4 => ?_
  refine ProgRel.next (getD_geo _ rfl _ _) fun xo => ProgRel.next (getD_geo _ rfl _ _) fun yo => ?_
  refine ProgRel.next (getD_geo _ rfl _ _) fun x => ProgRel.next (getD_geo _ rfl _ _) fun y => ?_
  refine ProgRel.next (getD_geo _ rfl _ _) fun xa => ProgRel.next (getD_geo _ rfl _ _) fun ya => ?_
  refine ProgRel.next (getN_rel _ _ _) fun n => ?_
  have e0 : ∀ x y, W (hp ⟨c1, c2, c3, c4⟩ x y xo yo dx dy) (hp ⟨c1', c2', c3', c4'⟩ x y xo yo dx dy) :=
    fun x y => hp_rel A h1 h2 h3 h4 x y xo yo dx dy
  have ex : ∀ x y, W (hermx ⟨c1, c2, c3, c4⟩ x y xo yo dx dy) (hermx ⟨c1', c2', c3', c4'⟩ x y xo yo dx dy) :=
    fun x y => hermx_rel A h1 h2 h3 h4 x y xo yo dx dy
  have ey : ∀ x y, W (hermy ⟨c1, c2, c3, c4⟩ x y xo yo dx dy) (hermy ⟨c1', c2', c3', c4'⟩ x y xo yo dx dy) :=
    fun x y => hermy_rel A h1 h2 h3 h4 x y xo yo dx dy
  split
  · refine ProgRel.next (setD_data _ rfl _ _ (e0 _ _)) fun _ => ?_
    dsimp only
    split
    · have h := heunsInternal_rel A v x y xa ya (ex xa ya) (ey xa ya) t dt
      exact ProgRel.next (setD_data _ rfl _ _ h.1) fun _ => setD_data _ rfl _ _ h.2
    · split
      · have h := superConsistent_rel A v s.rk3 x y (ex xa ya) (ey xa ya) t dt
        exact ProgRel.next (setD_data _ rfl _ _ h.1) fun _ => setD_data _ rfl _ _ h.2
      · exact .pure rfl
  · refine ProgRel.bind (getD_data .temppsiy rfl _ _) fun p p' h => ?_
    refine ProgRel.next (setD_data _ rfl _ _ (A.sub (e0 _ _) (A.mulL _ h))) fun _ => ?_
    refine ProgRel.bind (getD_data .temppsixy rfl _ _) fun q q' hq => ProgRel.bind (getD_data .temppsix rfl _ _) fun r r' hr => ?_
    exact setD_data _ rfl _ _ (heunsX_rel A v x y (ex _ _) h hq hr t dt)
  · refine ProgRel.bind (getD_data .temppsix rfl _ _) fun p p' h => ?_
    refine ProgRel.next (setD_data _ rfl _ _ (A.sub (e0 _ _) (A.mulL _ h))) fun _ => ?_
    refine ProgRel.bind (getD_data .temppsixy rfl _ _) fun q q' hq => ProgRel.bind (getD_data .temppsiy rfl _ _) fun r r' hr => ?_
    exact setD_data _ rfl _ _ (heunsY_rel A v x y h (ey _ _) hq hr t dt)
  · refine ProgRel.bind (getD_data .tempphi rfl _ _) fun p p' h => ProgRel.bind (getD_data .temppsix rfl _ _) fun q q' hq =>
      ProgRel.bind (getD_data .temppsiy rfl _ _) fun r r' hr => ?_
    exact setD_data _ rfl _ _ (A.sub h (A.mulL _ (A.add (A.mulL _ hq) (A.mulL _ hr))))
  · exact .pure rfl

theorem update_rel (v : Vel K) (s : Schemes) (t : ℕ) (dt : K) (nx ny : ℕ) :
    ProgRel (LocRel W) Eq (update v s t dt nx ny) (update v s t dt nx ny) :=
  (spacing_rel .x rfl).next fun _ => (spacing_rel .y rfl).next fun _ => ProgRel.seqAll₂ _ fun _ _ => updateBody_rel A _ _ _ _ _ _ _ _

theorem updateCuda_rel (v : Vel K) (t : ℕ) (dt : K) (nx ix iy : ℕ) :
    ProgRel (LocRel W) Eq (updateCuda v t dt nx ix iy) (updateCuda v t dt nx ix iy) := by
  unfold updateCuda
  refine ProgRel.next (spacing_rel .x rfl) fun dx => ProgRel.next (spacing_rel .y rfl) fun dy => ?_
  refine ProgRel.next (getN_rel _ _ _) fun cx => ProgRel.next (getN_rel _ _ _) fun cy => ?_
  refine ProgRel.bind (readFourCuda_rel .mphi rfl _ _) fun c1 c1' h1 => ProgRel.bind (readFourCuda_rel .mpsix rfl _ _) fun c2 c2' h2 => ?_
  refine ProgRel.bind (readFourCuda_rel .mpsiy rfl _ _) fun c3 c3' h3 => ProgRel.bind (readFourCuda_rel .temppsixy rfl _ _) fun c4 c4' h4 => ?_
  refine ProgRel.next (getD_geo _ rfl _ _) fun xo => ProgRel.next (getD_geo _ rfl _ _) fun yo => ?_
  refine ProgRel.next (getD_geo _ rfl _ _) fun x => ProgRel.next (getD_geo _ rfl _ _) fun y => ?_
  refine ProgRel.next (getD_geo _ rfl _ _) fun xa => ProgRel.next (getD_geo _ rfl _ _) fun ya => ?_
  refine ProgRel.next (getN_rel _ _ _) fun n => ?_
  have e0 : ∀ x y, W (hp ⟨c1, c2, c3, c4⟩ x y xo yo dx dy) (hp ⟨c1', c2', c3', c4'⟩ x y xo yo dx dy) :=
    fun x y => hp_rel A h1 h2 h3 h4 x y xo yo dx dy
  have ex : ∀ x y, W (hermx ⟨c1, c2, c3, c4⟩ x y xo yo dx dy) (hermx ⟨c1', c2', c3', c4'⟩ x y xo yo dx dy) :=
    fun x y => hermx_rel A h1 h2 h3 h4 x y xo yo dx dy
  have ey : ∀ x y, W (hermy ⟨c1, c2, c3, c4⟩ x y xo yo dx dy) (hermy ⟨c1', c2', c3', c4'⟩ x y xo yo dx dy) :=
    fun x y => hermy_rel A h1 h2 h3 h4 x y xo yo dx dy
  split
  · refine ProgRel.next (setD_data _ rfl _ _ (e0 _ _)) fun _ => ?_
    have h := superConsistent_rel A v true x y (ex xa ya) (ey xa ya) t dt
    exact ProgRel.next (setD_data _ rfl _ _ h.1) fun _ => setD_data _ rfl _ _ h.2
  · refine ProgRel.bind (getD_data .temppsiy rfl _ _) fun p p' h => ?_
    refine ProgRel.next (setD_data _ rfl _ _ (A.sub (e0 _ _) (A.mulL _ h))) fun _ => ?_
    refine ProgRel.bind (getD_data .temppsixy rfl _ _) fun q q' hq => ProgRel.bind (getD_data .temppsix rfl _ _) fun r r' hr => ?_
    exact setD_data _ rfl _ _ (heunsX_rel A v x y (ex _ _) h hq hr t dt)
  · refine ProgRel.bind (getD_data .temppsix rfl _ _) fun p p' h => ?_
    refine ProgRel.next (setD_data _ rfl _ _ (A.sub (e0 _ _) (A.mulL _ h))) fun _ => ?_
    refine ProgRel.bind (getD_data .temppsixy rfl _ _) fun q q' hq => ProgRel.bind (getD_data .temppsiy rfl _ _) fun r r' hr => ?_
    exact setD_data _ rfl _ _ (heunsY_rel A v x y h (ey _ _) hq hr t dt)
  · refine ProgRel.bind (getD_data .tempphi rfl _ _) fun p p' h => ProgRel.bind (getD_data .temppsix rfl _ _) fun q q' hq =>
      ProgRel.bind (getD_data .temppsiy rfl _ _) fun r r' hr => ?_
    exact setD_data _ rfl _ _ (A.sub h (A.mulL _ (A.add (A.mulL _ hq) (A.mulL _ hr))))
  · exact .pure rfl

theorem copyCuda_rel (nx ix iy : ℕ) : ProgRel (LocRel W) Eq (copyCuda (K := K) nx ix iy) (copyCuda nx ix iy) :=
  (getD_data .tempphi rfl _ _).bind fun _ _ h => (setD_data .mphi rfl _ _ h).next fun _ =>
    (getD_data .temppsix rfl _ _).bind fun _ _ h => (setD_data .mpsix rfl _ _ h).next fun _ =>
    (getD_data .temppsiy rfl _ _).bind fun _ _ h => setD_data .mpsiy rfl _ _ h

theorem oldCopy_rel (k l : ℕ) : ProgRel (LocRel W) Eq (oldCopy (K := K) k l) (oldCopy k l) :=
  (getD_data .tempphi rfl _ _).bind fun _ _ h => (setD_data .mphi rfl _ _ h).next fun _ =>
    (getD_data .temppsix rfl _ _).bind fun _ _ h => (setD_data .mpsix rfl _ _ h).next fun _ =>
    (getD_data .temppsiy rfl _ _).bind fun _ _ h => (setD_data .mpsiy rfl _ _ h).next fun _ =>
    (getD_data .temppsixy rfl _ _).bind fun _ _ h => setD_data .mpsixy rfl _ _ h

/-- Accesses to the level set. -/
macro "dat" A:ident : tactic => `(tactic| repeat' first
  | exact ProgRel.pure rfl
  | refine ProgRel.bind (getD_data _ rfl _ _) fun _ _ _ => ?_
  | refine ProgRel.next (setD_data _ rfl _ _ ?_) fun _ => ?_
  | refine ProgRel.next (setN_rel _ _ _ _) fun _ => ?_
  | refine setD_data _ rfl _ _ ?_
  | exact setN_rel _ _ _ _
  | assumption
  | refine Respects.divR $A _ ?_
  | refine Respects.mulL $A _ ?_
  | refine Respects.add $A ?_ ?_
  | refine Respects.sub $A ?_ ?_
  | split)

theorem mixedBody_rel (nx ny : ℕ) (dx dy : K) (k l : ℕ) :
    ProgRel (LocRel W) Eq (mixedBody nx ny dx dy k l) (mixedBody nx ny dx dy k l) := by
  unfold mixedBody
  dat A

theorem mixedCuda_rel (nx ny : ℕ) (dx dy : K) (ix iy : ℕ) :
    ProgRel (LocRel W) Eq (mixedCuda nx ny dx dy ix iy) (mixedCuda nx ny dx dy ix iy) := by
  unfold mixedCuda
  dsimp only
  dat A

theorem oldSuper_rel (v : Vel K) (rk3 : Bool) (t dt x y : K) (r : OldTrace K) {p p' q q' : K} (hp : W p p') (hq : W q q') :
    W (oldSuper v rk3 t dt x y r p q).1 (oldSuper v rk3 t dt x y r p' q').1 ∧
    W (oldSuper v rk3 t dt x y r p q).2 (oldSuper v rk3 t dt x y r p' q').2 := by
  cases rk3
  · exact ⟨A.add (A.mulL _ hp) (A.mulL _ hq), A.add (A.mulL _ hp) (A.mulL _ hq)⟩
  · exact ⟨A.add (A.mulL _ hp) (A.mulL _ hq), A.add (A.mulL _ hp) (A.mulL _ hq)⟩

theorem oldCorner_rel (v : Vel K) (t dt x y : K) (ty tx : ℕ) :
    ProgRel (LocRel W) Eq (oldCorner v t dt x y ty tx) (oldCorner v t dt x y ty tx) := by
  unfold oldCorner
  dat A

theorem oldInside_rel (v : Vel K) (s : Schemes) (t dt dx dy : K) {c c' : CellData K} (h1 : ∀ i, W (c.phi i) (c'.phi i))
    (h2 : ∀ i, W (c.psix i) (c'.psix i)) (h3 : ∀ i, W (c.psiy i) (c'.psiy i)) (h4 : ∀ i, W (c.psixy i) (c'.psixy i))
    (xo yo x y : K) (r : OldTrace K) (ty tx : ℕ) :
    ProgRel (LocRel W) Eq (oldInside v s t dt dx dy c xo yo x y r ty tx) (oldInside v s t dt dx dy c' xo yo x y r ty tx) := by
  have e0 := hp_rel A h1 h2 h3 h4 r.xadv r.yadv xo yo dx dy
  have ex := hermx_rel A h1 h2 h3 h4 r.xadv r.yadv xo yo dx dy
  have ey := hermy_rel A h1 h2 h3 h4 r.xadv r.yadv xo yo dx dy
  have es := oldSuper_rel A v s.rk3 t dt x y r ex ey
  obtain ⟨es1, es2⟩ := es
  unfold oldInside
  dsimp only
  dat A

theorem oldOutY_rel (v : Vel K) (t dt dx dy : K) {c c' : CellData K} (h1 : ∀ i, W (c.phi i) (c'.phi i))
    (h2 : ∀ i, W (c.psix i) (c'.psix i)) (h3 : ∀ i, W (c.psiy i) (c'.psiy i)) (h4 : ∀ i, W (c.psixy i) (c'.psixy i))
    (xo yo x y : K) (r : OldTrace K) (ty tx : ℕ) :
    ProgRel (LocRel W) Eq (oldOutY v t dt dx dy c xo yo x y r ty tx) (oldOutY v t dt dx dy c' xo yo x y r ty tx) := by
  have e0 := hp_rel A h1 h2 h3 h4 r.xadv y xo yo dx dy
  have ex := hermx_rel A h1 h2 h3 h4 r.xadv y xo yo dx dy
  unfold oldOutY
  dsimp only
  dat A

theorem oldOutX_rel (v : Vel K) (t dt dx dy : K) {c c' : CellData K} (h1 : ∀ i, W (c.phi i) (c'.phi i))
    (h2 : ∀ i, W (c.psix i) (c'.psix i)) (h3 : ∀ i, W (c.psiy i) (c'.psiy i)) (h4 : ∀ i, W (c.psixy i) (c'.psixy i))
    (xo yo x y : K) (r : OldTrace K) (ty tx : ℕ) :
    ProgRel (LocRel W) Eq (oldOutX v t dt dx dy c xo yo x y r ty tx) (oldOutX v t dt dx dy c' xo yo x y r ty tx) := by
  have e0 := hp_rel A h1 h2 h3 h4 x r.yadv xo yo dx dy
  have ey := hermy_rel A h1 h2 h3 h4 x r.yadv xo yo dx dy
  unfold oldOutX
  dsimp only
  dat A

section old
variable [LT K] [DecidableLT K] [LE K] [DecidableLE K]

theorem oldNode_rel (c : Setting K) (v : Vel K) (dx dy t : K) {d d' : CellData K} (h1 : ∀ i, W (d.phi i) (d'.phi i))
    (h2 : ∀ i, W (d.psix i) (d'.psix i)) (h3 : ∀ i, W (d.psiy i) (d'.psiy i)) (h4 : ∀ i, W (d.psixy i) (d'.psixy i))
    (xo yo : K) (i j k : ℕ) :
    ProgRel (LocRel W) Eq (oldNode c v dx dy t d xo yo i j k) (oldNode c v dx dy t d' xo yo i j k) := by
  unfold oldNode
  dsimp only
  refine ProgRel.next (getN_rel _ _ _) fun n => ?_
  split
  · refine ProgRel.next (getD_geo _ rfl _ _) fun x => ProgRel.next (getD_geo _ rfl _ _) fun y => ?_
    refine ProgRel.next (getD_geo _ rfl _ _) fun x0 => ProgRel.next (getD_geo _ rfl _ _) fun x1 => ?_
    refine ProgRel.next (getD_geo _ rfl _ _) fun y0 => ProgRel.next (getD_geo _ rfl _ _) fun y1 => ?_
    split
    · exact oldInside_rel A v _ _ _ _ _ h1 h2 h3 h4 _ _ _ _ _ _ _
    · exact oldOutY_rel A v _ _ _ _ h1 h2 h3 h4 _ _ _ _ _ _ _
    · exact oldOutX_rel A v _ _ _ _ h1 h2 h3 h4 _ _ _ _ _ _ _
    · exact oldCorner_rel A v _ _ _ _ _ _
    · exact .pure rfl
  · exact .pure rfl

theorem oldCell_rel (c : Setting K) (v : Vel K) (dx dy t : K) (i j : ℕ) :
    ProgRel (LocRel W) Eq (oldCell c v dx dy t i j) (oldCell c v dx dy t i j) := by
  unfold oldCell
  refine ProgRel.bind (readFourOld_rel .mphi rfl _ _) fun c1 c1' h1 => ProgRel.bind (readFourOld_rel .mpsix rfl _ _) fun c2 c2' h2 => ?_
  refine ProgRel.bind (readFourOld_rel .mpsiy rfl _ _) fun c3 c3' h3 => ProgRel.bind (readFourOld_rel .mpsixy rfl _ _) fun c4 c4' h4 => ?_
  refine ProgRel.next (getD_geo _ rfl _ _) fun xo => ProgRel.next (getD_geo _ rfl _ _) fun yo => ?_
  exact ProgRel.seqAll₂ _ fun k _ => oldNode_rel A c v dx dy t h1 h2 h3 h4 xo yo i j k

end old

end bodies

/-! ## Memory -/

section memory
variable {K : Type} {W : K → K → Prop} {m m' : Mem (Val K)}

theorem exec_rel {p p' : P K Unit} (h : ProgRel (LocRel W) Eq p p') (hm : MemRel (LocRel W) m m') :
    Same (MemRel (LocRel W)) (exec p m) (exec p' m') := by
  have := h.run hm
  unfold exec
  generalize p.run m = a at this
  generalize p'.run m' = b at this
  cases this with
  | ok h => exact .ok h.2
  | error f => exact .error f

theorem look_geo (hm : MemRel (LocRel W) m m') (a : DVar) (h : geometric a = true) (i j : ℕ) : look m a i j = look m' a i j := by
  have := hm (.d a i j)
  unfold look
  generalize m (.d a i j) = u at this
  generalize m' (.d a i j) = v at this
  cases this with
  | oob => rfl
  | uninit => rfl
  | val e =>
    unfold LocRel at e
    simp only [h] at e
    rw [e]

theorem look_data (hm : MemRel (LocRel W) m m') (a : DVar) (h : geometric a = false) (i j : ℕ) :
    Same W (look m a i j) (look m' a i j) := by
  have := hm (.d a i j)
  unfold look
  generalize m (.d a i j) = u at this
  generalize m' (.d a i j) = v at this
  cases this with
  | oob => exact .error _
  | uninit => exact .error _
  | val e =>
    unfold LocRel at e
    simp only [h] at e
    exact .ok e

theorem lookN_rel (hm : MemRel (LocRel W) m m') (a : NVar) (i j : ℕ) : lookN m a i j = lookN m' a i j := by
  have := hm (.n a i j)
  unfold lookN
  generalize m (.n a i j) = u at this
  generalize m' (.n a i j) = v at this
  cases this with
  | oob => rfl
  | uninit => rfl
  | val e =>
    have : _ = _ := e
    rw [this]

theorem locRel_d {a : DVar} {i j : ℕ} {u v : K} (h : geometric a = true → u = v) (h' : geometric a = false → W u v) :
    LocRel W (.d a i j) u v := by
  change match geometric a with
    | true => u = v
    | false => W u v
  cases e : geometric a
  · exact h' e
  · exact h e

theorem allocD_rel [Zero K] (z : W 0 0) (a : DVar) (r c : ℕ) (hm : MemRel (LocRel W) m m') : MemRel (LocRel W) (allocD a r c 0 m) (allocD a r c 0 m') := by
  intro l
  cases l with
  | d b i j =>
    simp only [allocD]
    split
    · split
      · exact .val (locRel_d (fun _ => rfl) fun _ => z)
      · exact .oob
    · exact hm _
  | n b i j => exact hm (.n b i j)

theorem allocN_rel (a : NVar) (r c v : ℕ) (hm : MemRel (LocRel W) m m') : MemRel (LocRel W) (allocN a r c v m) (allocN a r c v m') := by
  intro l
  cases l with
  | d b i j => exact hm (.d b i j)
  | n b i j =>
    simp only [allocN]
    split
    · split
      · exact .val rfl
      · exact .oob
    · exact hm _

theorem copyD_rel (a b : DVar) (h : geometric a = geometric b) (hm : MemRel (LocRel W) m m') :
    MemRel (LocRel W) (copyD a b m) (copyD a b m') := by
  intro l
  cases l with
  | d c i j =>
    simp only [copyD]
    split
    · rename_i e
      subst e
      have := hm (.d b i j)
      have e : (LocRel W (.d c i j) : K → K → Prop) = LocRel W (.d b i j) := by
        funext u v
        simp only [LocRel, h]
      rw [e]
      exact this
    · exact hm _
  | n c i j => exact hm (.n c i j)

theorem declMixed_rel (hm : MemRel (LocRel W) m m') : MemRel (LocRel W) (declMixed m) (declMixed m') := by
  intro l
  cases l with
  | d b i j =>
    simp only [declMixed]
    split
    · split
      · exact .uninit
      · exact .oob
    · exact hm _
  | n b i j => exact hm (.n b i j)

theorem mallocD_rel (a : DVar) (n : ℕ) (hm : MemRel (LocRel W) m m') : MemRel (LocRel W) (mallocD a n m) (mallocD a n m') := by
  intro l
  cases l with
  | d b i j =>
    simp only [mallocD]
    split
    · split
      · exact .uninit
      · exact .oob
    · exact hm _
  | n b i j => exact hm (.n b i j)

theorem mallocN_rel (a : NVar) (n : ℕ) (hm : MemRel (LocRel W) m m') : MemRel (LocRel W) (mallocN a n m) (mallocN a n m') := by
  intro l
  cases l with
  | d b i j => exact hm (.d b i j)
  | n b i j =>
    simp only [mallocN]
    split
    · split
      · exact .uninit
      · exact .oob
    · exact hm _

theorem declD_rel (a : DVar) (r c : ℕ) (hm : MemRel (LocRel W) m m') : MemRel (LocRel W) (declD a r c m) (declD a r c m') := by
  intro l
  cases l with
  | d b i j =>
    simp only [declD]
    split
    · split
      · exact .uninit
      · exact .oob
    · exact hm _
  | n b i j => exact hm (.n b i j)

theorem declN_rel (a : NVar) (r c : ℕ) (hm : MemRel (LocRel W) m m') : MemRel (LocRel W) (declN a r c m) (declN a r c m') := by
  intro l
  cases l with
  | d b i j => exact hm (.d b i j)
  | n b i j =>
    simp only [declN]
    split
    · split
      · exact .uninit
      · exact .oob
    · exact hm _

theorem memRel_oob : MemRel (LocRel W) (fun _ => .oob : Mem (Val K)) (fun _ => .oob) := fun _ => .oob

end memory

/-! ## Output -/

section output
variable {K : Type} {W : K → K → Prop} {m m' : Mem (Val K)}

theorem Spec.Same.mapM {ι α β : Type} {R : α → β → Prop} (l : List ι) {f : ι → M α} {g : ι → M β} (h : ∀ i ∈ l, Same R (f i) (g i)) :
    Same (List.Forall₂ R) (l.mapM f) (l.mapM g) := by
  induction l with
  | nil => exact .ok .nil
  | cons i l ih =>
    rw [List.mapM_cons, List.mapM_cons]
    refine (h i List.mem_cons_self).bind fun a b hab => ?_
    refine (ih fun j hj => h j (List.mem_cons_of_mem _ hj)).bind fun as bs hs => .ok (.cons hab hs)

theorem forall₂_flatten {α β : Type} {R : α → β → Prop} {l : List (List α)} {r : List (List β)} (h : List.Forall₂ (List.Forall₂ R) l r) :
    List.Forall₂ R l.flatten r.flatten := by
  induction h with
  | nil => exact .nil
  | cons h _ ih =>
    rw [List.flatten_cons, List.flatten_cons]
    exact List.rel_append h ih

theorem printRow_rel {g g' : ℕ → M K} (h : ∀ j, Same W (g j) (g' j)) (nx : ℕ) :
    Same (List.Forall₂ (TokRel W)) (printRow g nx) (printRow g' nx) := by
  unfold printRow
  refine (h 0).bind fun a b hab => ?_
  refine (Same.mapM (R := List.Forall₂ (TokRel W)) _ fun j _ => (h j).bind fun x y hxy => .ok (.cons .comma (.cons (.num hxy) .nil))).bind
    fun as bs hs => ?_
  exact .ok (List.rel_append (.cons (.num hab) (forall₂_flatten hs)) (.cons .nl .nil))

theorem printGrid_rel {g g' : ℕ → ℕ → M K} (h : ∀ i j, Same W (g i j) (g' i j)) (nx ny : ℕ) :
    Same (List.Forall₂ (TokRel W)) (printGrid g nx ny) (printGrid g' nx ny) := by
  unfold printGrid
  refine (Same.mapM _ fun i _ => printRow_rel (h i) nx).bind fun as bs hs => ?_
  exact .ok (List.rel_append (forall₂_flatten hs) (.cons .nl .nil))

variable [Zero K] [One K] [Add K] [_root_.Sub K] [Mul K] [Div K] [Neg K] [NatCast K]

theorem velocityArray_rel (hm : MemRel (LocRel W) m m') (f : K → K → K → K) (nx ny : ℕ) (time : K) :
    velocityArray f nx ny time m = velocityArray f nx ny time m' := by
  unfold velocityArray
  simp only [look_geo hm .x rfl, look_geo hm .y rfl]

theorem velocityFlat_rel (hm : MemRel (LocRel W) m m') (f : K → K → K → K) (nx ny : ℕ) (time : K) :
    velocityFlat f nx ny time m = velocityFlat f nx ny time m' := by
  unfold velocityFlat
  simp only [look_geo hm .x rfl, look_geo hm .y rfl]

theorem fileprint_rel (v : Vel K) (nx ny : ℕ) (time : K) (hm : MemRel (LocRel W) m m') {o o' : Out K} (ho : OutRel W o o') :
    Same (OutRel W) (fileprint v nx ny time m o) (fileprint v nx ny time m' o') := by
  unfold fileprint
  rw [velocityArray_rel hm, velocityArray_rel hm]
  refine Same.skip fun u => Same.skip fun w => ?_
  refine (printGrid_rel (fun i j => look_data hm .mphi rfl i j) nx ny).bind fun a a' ha => ?_
  refine (printGrid_rel (fun i j => look_data hm .mpsix rfl i j) nx ny).bind fun b b' hb => ?_
  refine (printGrid_rel (fun i j => look_data hm .mpsiy rfl i j) nx ny).bind fun c c' hc => ?_
  refine (printGrid_rel (fun i j => look_data hm .mpsixy rfl i j) nx ny).bind fun d d' hd => ?_
  refine Same.skip fun e => Same.skip fun f => ?_
  refine .ok ⟨List.rel_append ho.phi ha, List.rel_append ho.psix hb, List.rel_append ho.psiy hc, List.rel_append ho.psixy hd, ?_, ?_, ho.details⟩
  · change o.velx ++ e = o'.velx ++ e
    rw [ho.velx]
  · change o.vely ++ f = o'.vely ++ f
    rw [ho.vely]

theorem fileprintCuda_rel (v : Vel K) (nx ny : ℕ) (time : K) (hm : MemRel (LocRel W) m m') {o o' : Out K} (ho : OutRel W o o') :
    Same (OutRel W) (fileprintCuda v nx ny time m o) (fileprintCuda v nx ny time m' o') := by
  unfold fileprintCuda
  rw [velocityFlat_rel hm, velocityFlat_rel hm]
  refine Same.skip fun u => Same.skip fun w => ?_
  refine (printGrid_rel (fun i j => look_data hm .mphi rfl _ _) nx ny).bind fun a a' ha => ?_
  refine (printGrid_rel (fun i j => look_data hm .mpsix rfl _ _) nx ny).bind fun b b' hb => ?_
  refine (printGrid_rel (fun i j => look_data hm .mpsiy rfl _ _) nx ny).bind fun c c' hc => ?_
  refine (printGrid_rel (fun i j => look_data hm .mpsixy rfl _ _) nx ny).bind fun d d' hd => ?_
  refine Same.skip fun e => Same.skip fun f => ?_
  refine .ok ⟨List.rel_append ho.phi ha, List.rel_append ho.psix hb, List.rel_append ho.psiy hc, List.rel_append ho.psixy hd, ?_, ?_, ho.details⟩
  · change o.velx ++ e = o'.velx ++ e
    rw [ho.velx]
  · change o.vely ++ f = o'.vely ++ f
    rw [ho.vely]

end output

/-! ## Steps and runs -/

section runs
variable {K : Type} [Zero K] [One K] [Add K] [_root_.Sub K] [Mul K] [Div K] [Neg K] [NatCast K] {W : K → K → Prop}
  {m m' : Mem (Val K)}

theorem initBody_rel {f f' : Initial K} (hf : InitialRel W f f') (i j : ℕ) : ProgRel (LocRel W) Eq (initBody f i j) (initBody f' i j) :=
  (getD_geo _ rfl _ _).next fun x => (getD_geo _ rfl _ _).next fun y => (setD_data _ rfl _ _ (hf.phi x y)).next fun _ =>
    (setD_data _ rfl _ _ (hf.psix x y)).next fun _ => (setD_data _ rfl _ _ (hf.psiy x y)).next fun _ => setD_data _ rfl _ _ (hf.psixy x y)

theorem initFlat_rel {f f' : Initial K} (hf : InitialRel W f f') (nx i j : ℕ) :
    ProgRel (LocRel W) Eq (initFlat f nx i j) (initFlat f' nx i j) :=
  (getD_geo _ rfl _ _).next fun x => (getD_geo _ rfl _ _).next fun y => (setD_data _ rfl _ _ (hf.phi x y)).next fun _ =>
    (setD_data _ rfl _ _ (hf.psix x y)).next fun _ => (setD_data _ rfl _ _ (hf.psiy x y)).next fun _ => setD_data _ rfl _ _ (hf.psixy x y)

theorem initCuda_rel {f f' : Initial K} (hf : InitialRel W f f') {a b c d : DVar} (ha : geometric a = false) (hb : geometric b = false)
    (hc : geometric c = false) (hd : geometric d = false) (nx i j : ℕ) :
    ProgRel (LocRel W) Eq (initCuda f a b c d nx i j) (initCuda f' a b c d nx i j) :=
  (getD_geo _ rfl _ _).next fun x => (getD_geo _ rfl _ _).next fun y => (setD_data _ ha _ _ (hf.phi x y)).next fun _ =>
    (setD_data _ hb _ _ (hf.psix x y)).next fun _ => (setD_data _ hc _ _ (hf.psiy x y)).next fun _ => setD_data _ hd _ _ (hf.psixy x y)

theorem oldInitBody_rel {f f' : Initial K} (hf : InitialRel W f f') (i j : ℕ) :
    ProgRel (LocRel W) Eq (oldInitBody f i j) (oldInitBody f' i j) :=
  (getD_geo _ rfl _ _).next fun x => (getD_geo _ rfl _ _).next fun y => (setD_data _ rfl _ _ (hf.phi x y)).next fun _ =>
    (getD_data .mphi rfl _ _).bind fun _ _ h => (setD_data _ rfl _ _ h).next fun _ =>
    (setD_data _ rfl _ _ (hf.psix x y)).next fun _ =>
    (getD_data .mpsix rfl _ _).bind fun _ _ h => (setD_data _ rfl _ _ h).next fun _ =>
    (setD_data _ rfl _ _ (hf.psiy x y)).next fun _ =>
    (getD_data .mpsiy rfl _ _).bind fun _ _ h => (setD_data _ rfl _ _ h).next fun _ =>
    (setD_data _ rfl _ _ (hf.psixy x y)).next fun _ =>
    (getD_data .mpsixy rfl _ _).bind fun _ _ h => setD_data _ rfl _ _ h

theorem nodes_rel (a : DVar) (ha : geometric a = true) (n : ℕ) (g : ℕ → K) (hm : MemRel (LocRel W) m m') :
    Same (MemRel (LocRel W)) (exec (.seqAll ((List.range n).map fun i => setD a 0 i (g i))) m)
      (exec (.seqAll ((List.range n).map fun i => setD a 0 i (g i))) m') :=
  exec_rel (ProgRel.seqAll₂ _ fun _ _ => setD_geo a ha _ _ _) hm

section common
variable (z : W 0 0)
include z

theorem gridnodes_rel (x1 y1 dx dy : K) (nx ny : ℕ) (hm : MemRel (LocRel W) m m') :
    Same (MemRel (LocRel W)) (gridnodes x1 y1 dx dy nx ny m) (gridnodes x1 y1 dx dy nx ny m') :=
  (nodes_rel .x rfl nx (fun i => x1 + dx * (i : K)) (allocD_rel z _ _ _ (allocD_rel z _ _ _ hm))).bind
    fun _ _ h => nodes_rel .y rfl ny (fun i => y1 + dy * (i : K)) h

theorem allocateLevelset_rel {f f' : Initial K} (hf : InitialRel W f f') (nx ny : ℕ) (hm : MemRel (LocRel W) m m') :
    Same (MemRel (LocRel W)) (allocateLevelset f nx ny m) (allocateLevelset f' nx ny m') :=
  exec_rel (ProgRel.seqAll₂ _ fun _ _ => initBody_rel hf _ _)
    (allocD_rel z _ _ _ (allocD_rel z _ _ _ (allocD_rel z _ _ _ (allocD_rel z _ _ _ hm))))

theorem setup_rel (c : Setting K) {f f' : Initial K} (hf : InitialRel W f f') :
    Same (MemRel (LocRel W)) (setup c f) (setup c f') :=
  (gridnodes_rel z _ _ _ _ _ _ memRel_oob).bind fun _ _ h => (allocateLevelset_rel z hf _ _ h).bind fun _ _ h =>
    .ok (copyD_rel _ _ rfl (copyD_rel _ _ rfl (copyD_rel _ _ rfl (copyD_rel _ _ rfl h))))

theorem stepArrays_rel (c : Setting K) (hm : MemRel (LocRel W) m m') : MemRel (LocRel W) (stepArrays c m) (stepArrays c m') :=
  allocD_rel z _ _ _ (allocD_rel z _ _ _ (allocN_rel _ _ _ _ hm))

omit z in
theorem stepCells_rel (c : Setting K) (hm : MemRel (LocRel W) m m') : MemRel (LocRel W) (stepCells c m) (stepCells c m') :=
  allocN_rel _ _ _ _ (allocN_rel _ _ _ _ hm)

theorem stepFinish_rel (hm : MemRel (LocRel W) m m') : MemRel (LocRel W) (stepFinish m) (stepFinish m') :=
  allocN_rel _ _ _ _ (allocN_rel _ _ _ _ (allocN_rel _ _ _ _ (allocD_rel z _ _ _ (allocD_rel z _ _ _
    (copyD_rel _ _ rfl (copyD_rel _ _ rfl (copyD_rel _ _ rfl (copyD_rel _ _ rfl hm))))))))

end common

variable (A : Respects K W)
include A

section order
variable [LT K] [DecidableLT K] [LE K] [DecidableLE K]

theorem stepTail_rel (c : Setting K) (v : Vel K) (dx dy : K) (t : ℕ) (hm : MemRel (LocRel W) m m') :
    Same (MemRel (LocRel W)) (stepTail c v dx dy t m) (stepTail c v dx dy t m') :=
  (exec_rel (ProgRel.seqAll₂ _ fun _ _ => findBody_rel _ _ _ _ _ _ _ _) (stepCells_rel c hm)).bind fun _ _ h =>
    (exec_rel (update_rel A _ _ _ _ _ _) h).bind fun _ _ h =>
    (exec_rel (ProgRel.seqAll₂ _ fun _ _ => mixedBody_rel A _ _ _ _ _ _) (declMixed_rel h)).bind fun _ _ h =>
    .ok (stepFinish_rel A.zero h)

theorem stepSerial_rel (c : Setting K) (v : Vel K) (dx dy : K) (t : ℕ) (hm : MemRel (LocRel W) m m') :
    Same (MemRel (LocRel W)) (stepSerial c v dx dy t m) (stepSerial c v dx dy t m') :=
  (exec_rel (ProgRel.seqAll₂ _ fun _ _ => advBody_rel _ _ _ _ _ _) (stepArrays_rel A.zero c hm)).bind fun _ _ h => stepTail_rel A c v dx dy t h

theorem stepOpenMP_rel (c : Setting K) (v : Vel K) (dx dy : K) (t : ℕ) (hm : MemRel (LocRel W) m m') :
    Same (MemRel (LocRel W)) (stepOpenMP c v dx dy t m) (stepOpenMP c v dx dy t m') :=
  (exec_rel (ProgRel.seqAll₂ _ fun _ _ => advBodyMpi_rel _ _ _ _ _ _) (stepArrays_rel A.zero c hm)).bind fun _ _ h => stepTail_rel A c v dx dy t h

omit A in
theorem timeLoop_rel {step : ℕ → Mem (Val K) → M (Mem (Val K))}
    (hs : ∀ t (m m' : Mem (Val K)), MemRel (LocRel W) m m' → Same (MemRel (LocRel W)) (step t m) (step t m')) (c : Setting K) (v : Vel K) (p r t : ℕ)
    {s s' : Mem (Val K) × Out K} (h : MemRel (LocRel W) s.1 s'.1) (ho : OutRel W s.2 s'.2) :
    Same (fun x y => MemRel (LocRel W) x.1 y.1 ∧ OutRel W x.2 y.2) (timeLoop step c v p r t s) (timeLoop step c v p r t s') := by
  induction r generalizing t s s' with
  | zero => exact .ok ⟨h, ho⟩
  | succ r ih =>
    refine (hs t _ _ h).bind fun a b hab => ?_
    split
    · exact .error _
    · have go : ∀ o o', OutRel W o o' → Same (fun x y => MemRel (LocRel W) x.1 y.1 ∧ OutRel W x.2 y.2)
          (timeLoop step c v p r (uadd t 1) (a, o)) (timeLoop step c v p r (uadd t 1) (b, o')) := fun o o' hoo => ih (uadd t 1) hab hoo
      dsimp only
      split
      · exact (fileprint_rel v _ _ _ hab ho).bind go
      · exact go _ _ ho

omit A in
theorem outRel_none : OutRel W (Out.none : Out K) Out.none := ⟨.nil, .nil, .nil, .nil, rfl, rfl, rfl⟩

omit A in
theorem outRel_details {o o' : Out K} (h : OutRel W o o') (d : Details K) :
    OutRel W { o with details := o.details ++ [d] } { o' with details := o'.details ++ [d] } :=
  ⟨h.phi, h.psix, h.psiy, h.psixy, h.velx, h.vely, by change o.details ++ [d] = o'.details ++ [d]; rw [h.details]⟩

omit A in
theorem mainWith_rel [HasFloor K] (z : W 0 0) {step : Setting K → Vel K → K → K → ℕ → Mem (Val K) → M (Mem (Val K))} (c : Setting K) (v : Vel K)
    (hs : ∀ t (m m' : Mem (Val K)), MemRel (LocRel W) m m' → Same (MemRel (LocRel W)) (step c v c.dx c.dy t m) (step c v c.dx c.dy t m'))
    {f f' : Initial K} (hf : InitialRel W f f') :
    Same (fun x y => MemRel (LocRel W) x.1 y.1 ∧ OutRel W x.2 y.2) (mainWith step c v f) (mainWith step c v f') := by
  unfold mainWith
  refine Same.skip fun n => (setup_rel z c hf).bind fun m m' h => (fileprint_rel v _ _ _ h outRel_none).bind fun o o' ho => ?_
  exact timeLoop_rel hs c v _ _ _ h (outRel_details ho _)

/-! ## Old serial program -/

theorem stepOld_rel (c : Setting K) (v : Vel K) (dx dy : K) (t : ℕ) (hm : MemRel (LocRel W) m m') :
    Same (MemRel (LocRel W)) (stepOld c v dx dy t m) (stepOld c v dx dy t m') :=
  (exec_rel (ProgRel.seqAll₂ _ fun _ _ => setN_rel _ _ _ _) hm).bind fun _ _ h =>
    (exec_rel (ProgRel.seqAll₂ _ fun _ _ => oldCell_rel A _ _ _ _ _ _ _) h).bind fun _ _ h =>
    (exec_rel (ProgRel.seqAll₂ _ fun _ _ => mixedBody_rel A _ _ _ _ _ _) (declMixed_rel h)).bind fun _ _ h =>
    exec_rel (ProgRel.seqAll₂ _ fun _ _ => oldCopy_rel A _ _) h

theorem loopOld_rel (c : Setting K) (v : Vel K) (r t : ℕ) (hm : MemRel (LocRel W) m m') :
    Same (MemRel (LocRel W)) (loopOld c v r t m) (loopOld c v r t m') := by
  induction r generalizing t m m' with
  | zero => exact .ok hm
  | succ r ih => exact (stepOld_rel A c v _ _ _ hm).bind fun _ _ h => ih (t + 1) h

omit A in
theorem setupOld_rel (c : Setting K) {f f' : Initial K} (hf : InitialRel W f f') : Same (MemRel (LocRel W)) (setupOld c f) (setupOld c f') := by
  have h0 : MemRel (LocRel W) (oldArrays c.nx c.ny fun _ => .oob : Mem (Val K)) (oldArrays c.nx c.ny fun _ => .oob) :=
    declD_rel _ _ _ (declD_rel _ _ _ (declD_rel _ _ _ (declD_rel _ _ _ (declD_rel _ _ _ (declD_rel _ _ _ (declD_rel _ _ _ (declD_rel _ _ _
      (declN_rel _ _ _ (declD_rel _ _ _ (declD_rel _ _ _ memRel_oob))))))))))
  exact (nodes_rel .x rfl c.nx (fun i => c.xlim1 + oldDx c * (i : K)) h0).bind fun _ _ h =>
    (nodes_rel .y rfl c.ny (fun i => c.ylim1 + oldDy c * (i : K)) h).bind fun _ _ h =>
    exec_rel (ProgRel.seqAll₂ _ fun _ _ => oldInitBody_rel hf _ _) h

theorem mainOld_rel [HasFloor K] (c : Setting K) (v : Vel K) {f f' : Initial K} (hf : InitialRel W f f') :
    Same (MemRel (LocRel W)) (mainOld c v f) (mainOld c v f') :=
  Same.skip fun _ => (setupOld_rel c hf).bind fun _ _ h => loopOld_rel A c v _ _ h

/-! ## Threads -/

omit A in
omit [LT K] [DecidableLT K] [LE K] [DecidableLE K] in
theorem parFor_rel {ps : List (P K Unit)} {n : Mem (Val K)} (h : ∀ p ∈ ps, ProgRel (LocRel W) Eq p p) (hm : MemRel (LocRel W) m m')
    (e : ParFor ps m n) : ∃ n', ParFor ps m' n' ∧ MemRel (LocRel W) n n' := by
  obtain ⟨css, qs, hp, e, he⟩ := e
  have hc : ∀ cs ∈ css, ∀ p ∈ cs, ProgRel (LocRel W) Eq p p := fun cs hcs p hpc =>
    h p (hp.subset (List.mem_flatten.2 ⟨cs, hcs, hpc⟩))
  obtain ⟨qs', n', a, b, c⟩ := pool_steps (pool_self hc) hm e
  exact ⟨n', ⟨css, qs', hp, a, ended_rel b he⟩, c⟩

omit A in
omit [LT K] [DecidableLT K] [LE K] [DecidableLE K] in
theorem parFor_map_rel {ι : Type} {l : List ι} {b : ι → P K Unit} {n : Mem (Val K)} (h : ∀ i, ProgRel (LocRel W) Eq (b i) (b i))
    (hm : MemRel (LocRel W) m m') (e : ParFor (l.map b) m n) : ∃ n', ParFor (l.map b) m' n' ∧ MemRel (LocRel W) n n' :=
  parFor_rel (fun p hp => by obtain ⟨i, -, rfl⟩ := List.mem_map.1 hp; exact h i) hm e

omit A in
theorem spacing_run (a : DVar) (h : geometric a = true) {s : K} {m m' : Mem (Val K)} (hm : MemRel (LocRel W) m m') (e : (spacing a).run m = .ok (s, m)) :
    (spacing a).run m' = .ok (s, m') := by
  have h1 := (spacing_rel (W := W) (K := K) a h).run hm
  rw [e] at h1
  have h2 : ∀ x, (spacing (K := K) a).run m' = .ok x → x.2 = m' := by
    intro x hx
    simp only [spacing, getD, Prog.get] at hx
    change (Prog.read (V := Val K) (.d a 0 2) fun v => Prog.read (.d a 0 1) fun w => .pure (v - w)).run m' = _ at hx
    simp only [Prog.run] at hx
    split at hx
    · cases hx
    · cases hx
    · split at hx
      · cases hx
      · cases hx
      · cases hx
        rfl
  generalize hy : (spacing (K := K) a).run m' = y at h1 h2
  cases h1 with
  | @ok _ b h =>
    have := h2 b rfl
    have h1 : s = b.1 := h.1
    obtain ⟨b1, b2⟩ := b
    simp only at this h1
    rw [this, h1]

/-- Every execution of the OpenMP program by several threads, races included, has a partner. -/
theorem ompStep_rel (c : Setting K) (v : Vel K) (dx dy : K) (t : ℕ) {n : Mem (Val K)} (hm : MemRel (LocRel W) m m') (e : OmpStep ParFor c v dx dy t m n) :
    ∃ n', OmpStep ParFor c v dx dy t m' n' ∧ MemRel (LocRel W) n n' := by
  obtain ⟨m1, m2, m3, m4, sx, sy, e1, e2, e3, e4, e5, e6, rfl⟩ := e
  obtain ⟨n1, a1, h1⟩ := parFor_map_rel (fun _ => advBodyMpi_rel _ _ _ _ _ _) (stepArrays_rel A.zero c hm) e1
  obtain ⟨n2, a2, h2⟩ := parFor_map_rel (fun _ => findBody_rel _ _ _ _ _ _ _ _) (stepCells_rel c h1) e2
  obtain ⟨n3, a3, h3⟩ := parFor_map_rel (fun _ => updateBody_rel A _ _ _ _ _ _ _ _) h2 e5
  obtain ⟨n4, a4, h4⟩ := parFor_map_rel (fun _ => mixedBody_rel A _ _ _ _ _ _) (declMixed_rel h3) e6
  exact ⟨_, ⟨n1, n2, n3, n4, sx, sy, a1, a2, spacing_run .x rfl h2 e3, spacing_run .y rfl h2 e4, a3, a4, rfl⟩, stepFinish_rel A.zero h4⟩

/-! ## CUDA -/

omit A in
theorem parKernel_rel (tile nx ny : ℕ) {b : ℕ → ℕ → P K Unit} (hb : ∀ i j, ProgRel (LocRel W) Eq (b i j) (b i j)) {n : Mem (Val K)}
    (hm : MemRel (LocRel W) m m') (e : ParKernel tile nx ny b m n) : ∃ n', ParKernel tile nx ny b m' n' ∧ MemRel (LocRel W) n n' := by
  obtain ⟨ts, e, h⟩ := e
  obtain ⟨n', a, r⟩ := parFor_map_rel (fun _ => hb _ _) hm h
  exact ⟨n', ⟨ts, e, a⟩, r⟩

theorem stepKernels_rel (c : Setting K) (v : Vel K) (t : ℕ) :
    ∀ b ∈ stepKernels c v t, ∀ i j, ProgRel (LocRel W) Eq (b i j) (b i j) := by
  intro b hb i j
  simp only [stepKernels, List.mem_cons, List.not_mem_nil, or_false] at hb
  rcases hb with rfl | rfl | rfl | rfl | rfl
  · exact advCuda_rel _ _ _ _ _ _
  · exact findCuda_rel _ _ _ _ _ _ _ _
  · exact updateCuda_rel A _ _ _ _ _ _
  · exact copyCuda_rel A _ _ _
  · exact mixedCuda_rel A _ _ _ _ _ _

omit A in
theorem parKernels_rel (tile nx ny : ℕ) {bs : List (ℕ → ℕ → P K Unit)} (hb : ∀ b ∈ bs, ∀ i j, ProgRel (LocRel W) Eq (b i j) (b i j))
    {n : Mem (Val K)} (hm : MemRel (LocRel W) m m') (e : ParKernels tile nx ny bs m n) :
    ∃ n', ParKernels tile nx ny bs m' n' ∧ MemRel (LocRel W) n n' := by
  induction bs generalizing m m' with
  | nil =>
    cases e
    exact ⟨m', rfl, hm⟩
  | cons b bs ih =>
    obtain ⟨m1, e1, e2⟩ := e
    obtain ⟨n1, a1, h1⟩ := parKernel_rel tile nx ny (hb b List.mem_cons_self) hm e1
    obtain ⟨n', a2, h2⟩ := ih (fun b' hb' => hb b' (List.mem_cons_of_mem _ hb')) h1 e2
    exact ⟨n', ⟨n1, a1, a2⟩, h2⟩

omit A in
theorem stepArraysCuda_rel (n : ℕ) (hm : MemRel (LocRel W) m m') : MemRel (LocRel W) (stepArraysCuda n m) (stepArraysCuda n m') :=
  mallocN_rel _ _ (mallocN_rel _ _ (mallocN_rel _ _ (mallocD_rel _ _ (mallocD_rel _ _ hm))))

theorem cudaStep_rel (tile : ℕ) (c : Setting K) (v : Vel K) (t : ℕ) {n : Mem (Val K)} (hm : MemRel (LocRel W) m m')
    (e : CudaStep tile c v t m n) : ∃ n', CudaStep tile c v t m' n' ∧ MemRel (LocRel W) n n' := by
  obtain ⟨m1, e, rfl⟩ := e
  obtain ⟨n1, a, h⟩ := parKernels_rel tile _ _ (stepKernels_rel A c v t) (stepArraysCuda_rel _ hm) e
  exact ⟨_, ⟨n1, a, rfl⟩, stepArraysCuda_rel 0 h⟩

theorem cudaFault_rel (tile : ℕ) (c : Setting K) (v : Vel K) (t : ℕ) (hm : MemRel (LocRel W) m m') (e : CudaFault tile c v t m) :
    CudaFault tile c v t m' := by
  obtain ⟨bs, b, bs', m1, hk, e, ts, css, qs, m2, e1, e2, e3, e4⟩ := e
  have hb := stepKernels_rel (W := W) A c v t
  obtain ⟨n1, a, h⟩ := parKernels_rel tile _ _ (fun b hb' => hb b (by rw [hk]; exact List.mem_append_left _ hb')) (stepArraysCuda_rel _ hm) e
  have hc : ∀ cs ∈ css, ∀ p ∈ cs, ProgRel (LocRel W) Eq p p := by
    intro cs hcs p hpc
    obtain ⟨x, -, rfl⟩ := List.mem_map.1 (e2.subset (List.mem_flatten.2 ⟨cs, hcs, hpc⟩))
    exact hb b (by rw [hk]; simp) _ _
  obtain ⟨qs', n2, a2, b2, c2⟩ := pool_steps (pool_self hc) h e3
  exact ⟨bs, b, bs', n1, hk, a, ts, css, qs', n2, e1, e2, a2, faulty_rel b2 c2 e4⟩

omit A in
theorem execKernel_rel (tile nx ny : ℕ) {b b' : ℕ → ℕ → P K Unit} (hb : ∀ i j, ProgRel (LocRel W) Eq (b i j) (b' i j)) (hm : MemRel (LocRel W) m m') :
    Same (MemRel (LocRel W)) (execKernel tile nx ny b m) (execKernel tile nx ny b' m') :=
  Same.skip fun _ => exec_rel (ProgRel.seqAll₂ _ fun _ _ => hb _ _) hm

theorem stepCuda_rel (tile : ℕ) (c : Setting K) (v : Vel K) (t : ℕ) (hm : MemRel (LocRel W) m m') :
    Same (MemRel (LocRel W)) (stepCuda tile c v t m) (stepCuda tile c v t m') := by
  have hb := stepKernels_rel (W := W) A c v t
  have aux : ∀ (bs : List (ℕ → ℕ → P K Unit)), (∀ b ∈ bs, ∀ i j, ProgRel (LocRel W) Eq (b i j) (b i j)) → ∀ m m' : Mem (Val K), MemRel (LocRel W) m m' →
      Same (MemRel (LocRel W)) (bs.foldlM (fun m b => execKernel tile c.nx c.ny b m) m) (bs.foldlM (fun m b => execKernel tile c.nx c.ny b m) m') := by
    intro bs
    induction bs with
    | nil => intro _ m m' h; exact .ok h
    | cons b bs ih =>
      intro hb m m' h
      rw [List.foldlM_cons, List.foldlM_cons]
      exact (execKernel_rel tile _ _ (hb b List.mem_cons_self) h).bind fun _ _ h => ih (fun b' hb' => hb b' (List.mem_cons_of_mem _ hb')) _ _ h
  exact (aux _ hb _ _ (stepArraysCuda_rel _ hm)).bind fun _ _ h => .ok (stepArraysCuda_rel 0 h)

omit A in
theorem isOob_rel {α β : Type} {R : α → β → Prop} {a : Slot α} {b : Slot β} (h : SlotRel R a b) : isOob a = isOob b := by
  cases h <;> rfl

omit A in
/-- A copy of whole numbers. -/
theorem memcpy_rel (splice : K → K → K) (a : DVar) (k : ℕ) {s s' d d' : Mem (Val K)} (hs : MemRel (LocRel W) s s') (hd : MemRel (LocRel W) d d') :
    Same (MemRel (LocRel W)) (memcpy splice a (2 * k) s d) (memcpy splice a (2 * k) s' d') := by
  unfold memcpy
  simp only [fun j => isOob_rel (hs (.d a 0 j)), fun j => isOob_rel (hd (.d a 0 j))]
  split
  · exact .error _
  · refine .ok fun l => ?_
    cases l with
    | n b i j => exact hd (.n b i j)
    | d b i j =>
      dsimp only
      split
      · rename_i e
        obtain ⟨rfl, rfl⟩ := e
        split
        · exact hs _
        · split
          · omega
          · exact hd _
      · exact hd _

omit A in
theorem download_rel (splice : K → K → K) (nx ny : ℕ) (even : 2 ∣ gridSize nx ny) {s s' : Machine K} (hd : MemRel (LocRel W) s.dev s'.dev)
    (hh : MemRel (LocRel W) s.host s'.host) :
    Same (fun x y => MemRel (LocRel W) x.dev y.dev ∧ MemRel (LocRel W) x.host y.host) (download splice nx ny s) (download splice nx ny s') := by
  obtain ⟨k, e⟩ := even
  unfold download
  refine (memcpy_rel splice _ _ hd hh).bind fun _ _ h => (memcpy_rel splice _ _ hd h).bind fun _ _ h => ?_
  rw [e]
  exact (memcpy_rel splice _ _ hd h).bind fun _ _ h => .ok ⟨hd, h⟩

omit A in
theorem setupCuda_rel (tile : ℕ) (splice : K → K → K) (c : Setting K) {f f' g g' : Initial K} (hf : InitialRel W f f') (hg : InitialRel W g g') :
    Same (fun x y => MemRel (LocRel W) x.dev y.dev ∧ MemRel (LocRel W) x.host y.host) (setupCuda tile splice c f g) (setupCuda tile splice c f' g') := by
  unfold setupCuda gridnodesCuda
  refine Same.bind (R := MemRel (LocRel W)) ?_ fun h h' hh => ?_
  · exact (nodes_rel .x rfl c.nx (fun i => c.xlim1 + c.dx * (i : K)) (mallocD_rel _ _ (mallocD_rel _ _ memRel_oob))).bind fun _ _ h =>
      nodes_rel .y rfl c.ny (fun i => c.ylim1 + c.dy * (i : K)) h
  · refine (memcpy_rel splice .x c.nx hh (mallocD_rel _ _ (mallocD_rel _ _ memRel_oob))).bind fun _ _ hd => ?_
    refine (memcpy_rel splice .y c.ny hh hd).bind fun _ _ hd => ?_
    have mh : ∀ {m m' : Mem (Val K)} (n : ℕ), MemRel (LocRel W) m m' → MemRel (LocRel W) (mallocHost n m) (mallocHost n m') := fun n h =>
      mallocD_rel _ _ (mallocD_rel _ _ (mallocD_rel _ _ (mallocD_rel _ _ h)))
    have md : ∀ {m m' : Mem (Val K)} (n : ℕ), MemRel (LocRel W) m m' → MemRel (LocRel W) (mallocDevice n m) (mallocDevice n m') := fun n h =>
      mallocD_rel _ _ (mallocD_rel _ _ (mallocD_rel _ _ (mallocD_rel _ _ (mh n h))))
    refine (execKernel_rel tile _ _ (fun i j => initCuda_rel hg rfl rfl rfl rfl _ i j) (md _ hd)).bind fun _ _ hd => ?_
    refine (execKernel_rel tile _ _ (fun i j => initCuda_rel hg rfl rfl rfl rfl _ i j) hd).bind fun _ _ hd => ?_
    exact (exec_rel (ProgRel.seqAll₂ _ fun _ _ => initFlat_rel hf _ _ _) (mh _ hh)).bind fun _ _ h => .ok ⟨hd, h⟩

theorem timeLoopCuda_rel (tile : ℕ) (splice : K → K → K) (c : Setting K) (even : 2 ∣ gridSize c.nx c.ny) (v : Vel K) (p r t : ℕ)
    {s s' : Machine K × Out K} (hd : MemRel (LocRel W) s.1.dev s'.1.dev) (hh : MemRel (LocRel W) s.1.host s'.1.host) (ho : OutRel W s.2 s'.2) :
    Same (fun x y => (MemRel (LocRel W) x.1.dev y.1.dev ∧ MemRel (LocRel W) x.1.host y.1.host) ∧ OutRel W x.2 y.2)
      (timeLoopCuda tile splice c v p r t s) (timeLoopCuda tile splice c v p r t s') := by
  induction r generalizing t s s' with
  | zero => exact .ok ⟨⟨hd, hh⟩, ho⟩
  | succ r ih =>
    refine (stepCuda_rel A tile c v t hd).bind fun d d' hdd => ?_
    split
    · exact .error _
    · split
      · refine (download_rel splice _ _ even (s := ⟨d, s.1.host⟩) (s' := ⟨d', s'.1.host⟩) hdd hh).bind fun x y hxy => ?_
        refine (fileprintCuda_rel v _ _ _ hxy.2 ho).bind fun o o' hoo => ?_
        exact ih (uadd t 1) (s := (x, o)) (s' := (y, o')) hxy.1 hxy.2 hoo
      · exact ih (uadd t 1) (s := (⟨d, s.1.host⟩, s.2)) (s' := (⟨d', s'.1.host⟩, s'.2)) hdd hh ho

theorem mainCuda_rel [HasFloor K] (tile : ℕ) (splice : K → K → K) (c : Setting K) (even : 2 ∣ gridSize c.nx c.ny) (v : Vel K)
    {f f' g g' : Initial K} (hf : InitialRel W f f') (hg : InitialRel W g g') :
    Same (fun x y => (MemRel (LocRel W) x.1.dev y.1.dev ∧ MemRel (LocRel W) x.1.host y.1.host) ∧ OutRel W x.2 y.2)
      (mainCuda tile splice c v f g) (mainCuda tile splice c v f' g') := by
  unfold mainCuda
  refine Same.skip fun n => (setupCuda_rel tile splice c hf hg).bind fun s s' hs => ?_
  refine (fileprintCuda_rel v _ _ _ hs.2 outRel_none).bind fun o o' ho => ?_
  exact timeLoopCuda_rel A tile splice c even v _ _ _ hs.1 hs.2 (outRel_details ho _)

end order

end runs

end Gals
