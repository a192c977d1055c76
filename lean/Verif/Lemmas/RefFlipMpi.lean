import Verif.Lemmas.RefFlipMain

/-!
# Ranks of the reference programs on related level sets

Messages hold departure points, cells and classes only, so they are equal.
-/

set_option linter.unusedSectionVars false

namespace Gals

open Gals.Spec Gals.Ref

/-- Processes that send the same messages and have related results. -/
inductive ProcRel {μ α β : Type} (R : α → β → Prop) : Proc μ α → Proc μ β → Prop
  | done {a : α} {b : β} : R a b → ProcRel R (.done a) (.done b)
  | send (x : μ) {k : Proc μ α} {k' : Proc μ β} : ProcRel R k k' → ProcRel R (.send x k) (.send x k')
  | recv {k : μ → Proc μ α} {k' : μ → Proc μ β} : (∀ x, ProcRel R (k x) (k' x)) → ProcRel R (.recv k) (.recv k')

section net
variable {μ α β α' β' : Type} {R : α → α' → Prop} {S : β → β' → Prop}

/-- Receiver and sender are related and the same messages are on the way. -/
def NetRel (R : α → α' → Prop) (S : β → β' → Prop) (s : Proc μ α × List μ × Proc μ β) (s' : Proc μ α' × List μ × Proc μ β') : Prop :=
  ProcRel R s.1 s'.1 ∧ s.2.1 = s'.2.1 ∧ ProcRel S s.2.2 s'.2.2

theorem net_step {s t : Proc μ α × List μ × Proc μ β} {s' : Proc μ α' × List μ × Proc μ β'} (h : NetRel R S s s') (e : Net s t) :
    ∃ t', Net s' t' ∧ NetRel R S t t' := by
  obtain ⟨p', ch', q'⟩ := s'
  obtain ⟨h1, h2, h3⟩ := h
  cases e with
  | buffer p ch x q =>
    have h2 : ch = ch' := h2
    subst h2
    cases h3 with
    | send _ h3 => exact ⟨_, .buffer _ _ _ _, h1, rfl, h3⟩
  | handover k x q =>
    have h2 : [] = ch' := h2
    subst h2
    cases h3 with
    | send _ h3 =>
      cases h1 with
      | recv h1 => exact ⟨_, .handover _ _ _, h1 x, rfl, h3⟩
  | deliver k x ch q =>
    have h2 : x :: ch = ch' := h2
    subst h2
    cases h1 with
    | recv h1 => exact ⟨_, .deliver _ _ _ _, h1 x, rfl, h3⟩

theorem net_steps {s t : Proc μ α × List μ × Proc μ β} {s' : Proc μ α' × List μ × Proc μ β'} (h : NetRel R S s s')
    (e : Relation.ReflTransGen Net s t) : ∃ t', Relation.ReflTransGen Net s' t' ∧ NetRel R S t t' := by
  induction e with
  | refl => exact ⟨s', .refl, h⟩
  | tail _ e ih =>
    obtain ⟨t', a, b⟩ := ih
    obtain ⟨u, c, d⟩ := net_step b e
    exact ⟨u, a.tail c, d⟩

end net

section ranks
variable {K : Type} [Zero K] [One K] [Add K] [_root_.Sub K] [Mul K] [Div K] [Neg K] [NatCast K] [LT K] [DecidableLT K] [LE K]
  [DecidableLE K] [HasFloor K] {W : K → K → Prop} {m m' : Mem (Val K)}

theorem rank1First_rel (z : W 0 0) (c : Setting K) (v : Vel K) (t : ℕ) (hm : MemRel (LocRel W) m m') :
    Same (fun x y => MemRel (LocRel W) x.1 y.1 ∧ x.2 = y.2) (rank1First c v t m) (rank1First c v t m') := by
  unfold rank1First
  refine (exec_rel (ProgRel.seqAll₂ _ fun _ _ => advBodyMpi_rel _ _ _ _ _ _) (stepArrays_rel z c hm)).bind fun n n' h => ?_
  rw [show look n .xadv = look n' .xadv from funext fun i => funext fun j => look_geo h .xadv rfl i j,
    show look n .yadv = look n' .yadv from funext fun i => funext fun j => look_geo h .yadv rfl i j]
  exact Same.skip fun a => Same.skip fun b => .ok ⟨h, rfl⟩

theorem rank1Second_rel (c : Setting K) (hm : MemRel (LocRel W) m m') :
    Same (fun x y => MemRel (LocRel W) x.1 y.1 ∧ x.2 = y.2) (rank1Second c m) (rank1Second c m') := by
  unfold rank1Second
  refine (exec_rel (ProgRel.seqAll₂ _ fun _ _ => findBody_rel _ _ _ _ _ _ _ _) (stepCells_rel c hm)).bind fun n n' h => ?_
  simp only [lookN_rel h]
  exact Same.skip fun a => Same.skip fun b => Same.skip fun d => .ok ⟨h, rfl⟩

theorem outgoing_rel {α : Type} {R : α → α → Prop} (c : Setting K) (w : ℕ) {s s' : M α} (g : α → Block K) (hg : ∀ a b, R a b → g a = g b)
    (h : Same R s s') : outgoing c w s g = outgoing c w s' g := by
  cases h with
  | ok h =>
    simp only [outgoing, M.ok_bind]
    rw [hg _ _ h]
  | error f => rfl

theorem rank1_rel (z : W 0 0) (c : Setting K) (v : Vel K) (w r t : ℕ) {s s' : M (Mem (Val K))} (h : Same (MemRel (LocRel W)) s s') :
    ProcRel (Same (MemRel (LocRel W))) (rank1 c v w r t s) (rank1 c v w r t s') := by
  induction r generalizing t s s' with
  | zero => exact .done h
  | succ r ih =>
    have h1 := h.bind fun _ _ hm => rank1First_rel z c v t hm
    have h2 := h1.bind (f := fun a => rank1Second c a.1) (f' := fun a => rank1Second c a.1) fun _ _ hm => rank1Second_rel c hm.1
    unfold rank1
    dsimp only
    rw [outgoing_rel c w (fun a => a.2.1) (fun a b h => by rw [h.2]) h1, outgoing_rel c w (fun a => a.2.2) (fun a b h => by rw [h.2]) h1,
      outgoing_rel c w (fun a => a.2.1) (fun a b h => by rw [h.2]) h2, outgoing_rel c w (fun a => a.2.2.1) (fun a b h => by rw [h.2]) h2,
      outgoing_rel c w (fun a => a.2.2.2) (fun a b h => by rw [h.2]) h2]
    refine .send _ (.send _ (.send _ (.send _ (.send _ (ih (uadd t 1) ?_)))))
    generalize (s >>= rank1First c v t) >>= (fun a => rank1Second c a.1) = u at h2
    generalize (s' >>= rank1First c v t) >>= (fun a => rank1Second c a.1) = u' at h2
    cases h2 with
    | ok h => exact .ok h.1
    | error f => exact .error f

theorem foldlM_rel {ι : Type} (l : List ι) {f f' : Mem (Val K) → ι → M (Mem (Val K))}
    (hf : ∀ i (m m' : Mem (Val K)), MemRel (LocRel W) m m' → Same (MemRel (LocRel W)) (f m i) (f' m' i)) (hm : MemRel (LocRel W) m m') :
    Same (MemRel (LocRel W)) (l.foldlM f m) (l.foldlM f' m') := by
  induction l generalizing m m' with
  | nil => exact .ok hm
  | cons i l ih =>
    rw [List.foldlM_cons, List.foldlM_cons]
    exact (hf i _ _ hm).bind fun _ _ h => ih h

theorem unpackD_rel (c : Setting K) (a : DVar) (ha : geometric a = true) (b : Block K) (hm : MemRel (LocRel W) m m') :
    Same (MemRel (LocRel W)) (unpackD c a b m) (unpackD c a b m') :=
  foldlM_rel _ (fun _ _ _ h => Same.skip fun _ => exec_rel (setD_geo a ha _ _ _) h) hm

theorem unpackN_rel (c : Setting K) (a : NVar) (b : Block K) (hm : MemRel (LocRel W) m m') :
    Same (MemRel (LocRel W)) (unpackN c a b m) (unpackN c a b m') :=
  foldlM_rel _ (fun _ _ _ h => Same.skip fun _ => Same.skip fun _ => exec_rel (setN_rel a _ _ _) h) hm

variable (A : Respects K W)
include A

theorem rank0Step_rel (c : Setting K) (v : Vel K) (w p t : ℕ) (x1 x2 x3 x4 x5 : Msg K) {o o' : Out K} (hm : MemRel (LocRel W) m m')
    (ho : OutRel W o o') :
    Same (fun x y => MemRel (LocRel W) x.1 y.1 ∧ OutRel W x.2 y.2)
      (rank0First c v t m >>= fun m => rank0Second c w x1 x2 m >>= fun m => rank0Third c v w t x3 x4 x5 m >>= fun m => rank0Print c v p t m o)
      (rank0First c v t m' >>= fun m => rank0Second c w x1 x2 m >>= fun m => rank0Third c v w t x3 x4 x5 m >>= fun m => rank0Print c v p t m o') := by
  unfold rank0First rank0Second rank0Third rank0Print
  refine (exec_rel (ProgRel.seqAll₂ _ fun _ _ => advBodyMpi_rel _ _ _ _ _ _) (stepArrays_rel A.zero c hm)).bind fun _ _ h => ?_
  refine Same.bind (R := MemRel (LocRel W)) ?_ fun _ _ h => Same.bind (R := MemRel (LocRel W)) ?_ fun n n' h => ?_
  · refine Same.skip fun a => Same.skip fun b => (unpackD_rel c _ rfl a h).bind fun _ _ h => (unpackD_rel c _ rfl b h).bind fun _ _ h => ?_
    exact exec_rel (ProgRel.seqAll₂ _ fun _ _ => findBody_rel _ _ _ _ _ _ _ _) (stepCells_rel c h)
  · refine Same.skip fun a => Same.skip fun b => Same.skip fun d => (unpackN_rel c _ a h).bind fun _ _ h => (unpackN_rel c _ b h).bind fun _ _ h =>
      (unpackN_rel c _ d h).bind fun _ _ h => ?_
    exact (exec_rel (update_rel A _ _ _ _ _ _) h).bind fun _ _ h =>
      (exec_rel (ProgRel.seqAll₂ _ fun _ _ => mixedBody_rel A _ _ _ _ _ _) (declMixed_rel h)).bind fun _ _ h => .ok (stepFinish_rel A.zero h)
  · split
    · exact .error _
    · dsimp only
      split
      · exact (fileprint_rel v _ _ _ h ho).bind fun _ _ ho => .ok ⟨h, ho⟩
      · exact .ok ⟨h, ho⟩

theorem rank0_rel (c : Setting K) (v : Vel K) (w p r t : ℕ) {s s' : M (Mem (Val K) × Out K)}
    (h : Same (fun x y => MemRel (LocRel W) x.1 y.1 ∧ OutRel W x.2 y.2) s s') :
    ProcRel (Same fun x y => MemRel (LocRel W) x.1 y.1 ∧ OutRel W x.2 y.2) (rank0 c v w p r t s) (rank0 c v w p r t s') := by
  induction r generalizing t s s' with
  | zero => exact .done h
  | succ r ih =>
    unfold rank0
    refine .recv fun x1 => .recv fun x2 => .recv fun x3 => .recv fun x4 => .recv fun x5 => ih (uadd t 1) ?_
    exact h.bind fun a b hab => rank0Step_rel A c v w p t x1 x2 x3 x4 x5 hab.1 hab.2

theorem mpiMain_rel (c : Setting K) (v : Vel K) (w : ℕ) {f f' : Initial K} (hf : InitialRel W f f') :
    Same (NetRel (Same fun x y => MemRel (LocRel W) x.1 y.1 ∧ OutRel W x.2 y.2) (Same (MemRel (LocRel W)))) (mpiMain c v f w) (mpiMain c v f' w) := by
  unfold mpiMain
  refine Same.skip fun n => (setup_rel A.zero c hf).bind fun m m' h => (fileprint_rel v _ _ _ h outRel_none).bind fun o o' ho => ?_
  exact .ok ⟨rank0_rel A c v w _ _ _ (.ok ⟨h, outRel_details ho _⟩), rfl, rank1_rel A.zero c v w _ _ (.ok h)⟩

end ranks

/-! ## Ranks with threads -/

section hybrid
variable {K : Type} [Zero K] [One K] [Add K] [_root_.Sub K] [Mul K] [Div K] [Neg K] [NatCast K] [LT K] [DecidableLT K] [LE K]
  [DecidableLE K] [HasFloor K] {W : K → K → Prop} {m m' : Mem (Val K)}

/-- Equal buffers, otherwise as in `LocRel`. -/
def HRel (W : K → K → Prop) : (l : HLoc) → HVal K l → HVal K l → Prop
  | .mem l => LocRel W l
  | .word _ _ => Eq

theorem join_rel (hm : MemRel (LocRel W) m m') (ws : Buf → ℕ → Slot K) : MemRel (HRel W) (join m ws) (join m' ws) := by
  intro l
  cases l with
  | mem l => exact hm l
  | word b k =>
    change SlotRel Eq (ws b k) (ws b k)
    cases ws b k with
    | oob => exact .oob
    | uninit => exact .uninit
    | val a => exact .val rfl

theorem arraysOf_rel {s s' : Mem (HVal K)} (h : MemRel (HRel W) s s') : MemRel (LocRel W) (arraysOf s) (arraysOf s') := fun l => h (.mem l)

theorem wordsOf_rel {s s' : Mem (HVal K)} (h : MemRel (HRel W) s s') : wordsOf s = wordsOf s' := by
  funext b k
  have h : SlotRel Eq (s (.word b k)) (s' (.word b k)) := h (.word b k)
  unfold wordsOf
  generalize s (.word b k) = u at h
  generalize s' (.word b k) = v at h
  cases h with
  | oob => rfl
  | uninit => rfl
  | val e => rw [e]

theorem getH_geo (a : DVar) (h : geometric a = true) (i j : ℕ) :
    ProgRel (HRel W) Eq (Prog.get (V := HVal K) (.mem (.d a i j))) (Prog.get (V := HVal K) (.mem (.d a i j))) :=
  .read _ fun v w hv => .pure (by
    have hv : LocRel W (.d a i j) v w := hv
    unfold LocRel at hv; simpa only [h] using hv)

theorem setH_geo (a : DVar) (h : geometric a = true) (i j : ℕ) (v : K) :
    ProgRel (HRel W) Eq (Prog.set (V := HVal K) (.mem (.d a i j)) v) (Prog.set (V := HVal K) (.mem (.d a i j)) v) :=
  .write _ (by change LocRel W (.d a i j) v v; unfold LocRel; simp only [h]) (.pure rfl)

theorem putB_rel (rows cols : ℕ) (b : Buf) (r i : ℕ) (v : K) : ProgRel (HRel W) Eq (putB rows cols b r i v) (putB rows cols b r i v) := by
  unfold putB
  split
  · exact .write _ rfl (.write _ rfl (.pure rfl))
  · exact .fault _

theorem getB_rel (rows cols : ℕ) (b : Buf) (r i : ℕ) : ProgRel (HRel W) Eq (getB (K := K) rows cols b r i) (getB rows cols b r i) := by
  unfold getB
  split
  · exact .read _ fun _ _ hv => .read _ fun _ _ _ => .pure hv
  · exact .fault _

theorem packOneD_rel (c : Setting K) (a : DVar) (h : geometric a = true) (b : Buf) (i j : ℕ) :
    ProgRel (HRel W) Eq (packOneD c a b i j) (packOneD c a b i j) :=
  (getH_geo a h i j).next fun _ => putB_rel _ _ _ _ _ _

theorem packOneN_rel (c : Setting K) (a : NVar) (b : Buf) (i j : ℕ) :
    ProgRel (HRel W) Eq (packOneN c a b i j) (packOneN c a b i j) :=
  ProgRel.next (p := Prog.get (V := HVal K) (.mem (.n a i j))) (.read _ fun _ _ hv => .pure hv) fun _ => putB_rel _ _ _ _ _ _

theorem unpackOneD_rel (c : Setting K) (a : DVar) (h : geometric a = true) (b : Buf) (i j : ℕ) :
    ProgRel (HRel W) Eq (unpackOneD c a b i j) (unpackOneD c a b i j) :=
  (getB_rel _ _ _ _ _).next fun _ => setH_geo a h _ _ _

theorem unpackOneN_rel (c : Setting K) (a : NVar) (b : Buf) (i j : ℕ) :
    ProgRel (HRel W) Eq (unpackOneN c a b i j) (unpackOneN c a b i j) := by
  refine (getB_rel _ _ _ _ _).next fun v => ?_
  split
  · exact .write _ rfl (.pure rfl)
  · exact .fault _

theorem hybridFor_rel {ps : List (Prog (HVal K) Unit)} {s s' n : Mem (HVal K)} (h : ∀ p ∈ ps, ProgRel (HRel W) Eq p p) (hm : MemRel (HRel W) s s')
    (e : HybridFor ps s n) : ∃ n', HybridFor ps s' n' ∧ MemRel (HRel W) n n' := by
  obtain ⟨css, qs, hp, e, he⟩ := e
  have hc : ∀ cs ∈ css, ∀ p ∈ cs, ProgRel (HRel W) Eq p p := fun cs hcs p hpc =>
    h p (hp.subset (List.mem_flatten.2 ⟨cs, hcs, hpc⟩))
  obtain ⟨qs', n', a, b, c⟩ := pool_steps (pool_self hc) hm e
  exact ⟨n', ⟨css, qs', hp, a, ended_rel b he⟩, c⟩

theorem rows_rel (c : Setting K) {b : ℕ → ℕ → List (Prog (HVal K) Unit)} (h : ∀ i j, ∀ p ∈ b i j, ProgRel (HRel W) Eq p p) :
    ∀ p ∈ (List.range c.ny).map fun i => overCols c fun j => .seqAll (b i j), ProgRel (HRel W) Eq p p := by
  intro p hp
  obtain ⟨i, -, rfl⟩ := List.mem_map.1 hp
  exact ProgRel.seqAll₂ _ fun j _ => ProgRel.seqAll (h i j)

theorem packPoints_rel (c : Setting K) : ∀ p ∈ packPoints c, ProgRel (HRel W) Eq p p := by
  refine rows_rel c fun i j p hp => ?_
  simp only [List.mem_cons, List.not_mem_nil, or_false] at hp
  rcases hp with rfl | rfl
  · exact packOneD_rel c _ rfl _ _ _
  · exact packOneD_rel c _ rfl _ _ _

theorem unpackPoints_rel (c : Setting K) : ∀ p ∈ unpackPoints c, ProgRel (HRel W) Eq p p := by
  refine rows_rel c fun i j p hp => ?_
  simp only [List.mem_cons, List.not_mem_nil, or_false] at hp
  rcases hp with rfl | rfl
  · exact unpackOneD_rel c _ rfl _ _ _
  · exact unpackOneD_rel c _ rfl _ _ _

theorem packCells_rel (c : Setting K) : ∀ p ∈ packCells c, ProgRel (HRel W) Eq p p := by
  refine rows_rel c fun i j p hp => ?_
  simp only [List.mem_cons, List.not_mem_nil, or_false] at hp
  rcases hp with rfl | rfl | rfl <;> exact packOneN_rel c _ _ _ _

theorem unpackCells_rel (c : Setting K) : ∀ p ∈ unpackCells c, ProgRel (HRel W) Eq p p := by
  refine rows_rel c fun i j p hp => ?_
  simp only [List.mem_cons, List.not_mem_nil, or_false] at hp
  rcases hp with rfl | rfl | rfl <;> exact unpackOneN_rel c _ _ _ _

/-- Rank 1 sends the same words. -/
theorem hybridRank1_rel (z : W 0 0) (c : Setting K) (v : Vel K) (t : ℕ) {n : Mem (Val K)} {ws : Buf → ℕ → Slot K} (hm : MemRel (LocRel W) m m')
    (e : HybridRank1 c v t m n ws) : ∃ n', HybridRank1 c v t m' n' ws ∧ MemRel (LocRel W) n n' := by
  obtain ⟨m1, s1, m2, s2, e1, e2, e3, e4, rfl, rfl⟩ := e
  obtain ⟨n1, a1, h1⟩ := parFor_map_rel (fun _ => advBodyMpi_rel _ _ _ _ _ _) (stepArrays_rel z c hm) e1
  obtain ⟨t1, a2, h2⟩ := hybridFor_rel (packPoints_rel c) (join_rel h1 _) e2
  obtain ⟨n2, a3, h3⟩ := parFor_map_rel (fun _ => findBody_rel _ _ _ _ _ _ _ _) (stepCells_rel c (arraysOf_rel h2)) e3
  obtain ⟨t2, a4, h4⟩ := hybridFor_rel (packCells_rel c) (join_rel h3 _) e4
  exact ⟨_, ⟨n1, t1, n2, t2, a1, a2, a3, wordsOf_rel h2 ▸ a4, rfl, wordsOf_rel h4⟩, arraysOf_rel h4⟩

variable (A : Respects K W)
include A

theorem hybridRank0_rel (c : Setting K) (v : Vel K) (t : ℕ) {n : Mem (Val K)} (ws : Buf → ℕ → Slot K) (hm : MemRel (LocRel W) m m')
    (e : HybridRank0 ParFor c v t ws m n) : ∃ n', HybridRank0 ParFor c v t ws m' n' ∧ MemRel (LocRel W) n n' := by
  obtain ⟨m1, s1, m2, s2, m3, m4, sx, sy, e1, e2, e3, e4, e5, e6, e7, e8, rfl⟩ := e
  obtain ⟨n1, a1, h1⟩ := parFor_map_rel (fun _ => advBodyMpi_rel _ _ _ _ _ _) (stepArrays_rel A.zero c hm) e1
  obtain ⟨t1, a2, h2⟩ := hybridFor_rel (unpackPoints_rel c) (join_rel h1 _) e2
  obtain ⟨n2, a3, h3⟩ := parFor_map_rel (fun _ => findBody_rel _ _ _ _ _ _ _ _) (stepCells_rel c (arraysOf_rel h2)) e3
  obtain ⟨t2, a4, h4⟩ := hybridFor_rel (unpackCells_rel c) (join_rel h3 _) e4
  have h5 := arraysOf_rel h4
  obtain ⟨n3, a5, h6⟩ := parFor_map_rel (fun _ => updateBody_rel A _ _ _ _ _ _ _ _) h5 e7
  obtain ⟨n4, a6, h7⟩ := parFor_map_rel (fun _ => mixedBody_rel A _ _ _ _ _ _) (declMixed_rel h6) e8
  exact ⟨_, ⟨n1, t1, n2, t2, n3, n4, sx, sy, a1, a2, a3, wordsOf_rel h2 ▸ a4, spacing_run .x rfl h5 e5, spacing_run .y rfl h5 e6, a5, a6, rfl⟩,
    stepFinish_rel A.zero h7⟩

theorem hybridRun_rel (c : Setting K) (v : Vel K) {f f' : Initial K} (hf : InitialRel W f f') (argc w n : ℕ)
    (e : HybridRun ParFor c v f argc w n m) : ∃ m', HybridRun ParFor c v f' argc w n m' ∧ MemRel (LocRel W) m m' := by
  obtain ⟨ha, a, b, e1, e2, rfl, e3⟩ := e
  have h0 := setup_rel A.zero c hf
  rw [e1] at h0
  generalize hy : setup c f' = y at h0
  cases h0 with
  | @ok _ m0 h0 =>
    have hb : b 0 = a 0 := by
      have := e1.symm.trans e2
      injection this with this
      exact this.symm
    have run : ∀ k ≤ n, ∃ a' b' : ℕ → Mem (Val K), a' 0 = m0 ∧ b' 0 = m0 ∧ MemRel (LocRel W) (a k) (a' k) ∧ MemRel (LocRel W) (b k) (b' k) ∧
        ∀ t < k, ∃ (ws : Buf → ℕ → Slot K) (r : Buf → Block K), HybridRank1 c v t (b' t) (b' (t + 1)) ws ∧
          (∀ k, incoming c w (outgoing c w (.ok (ws k)) fun x => ⟨half c, c.ny, x⟩) = .ok (r k)) ∧
          HybridRank0 ParFor c v t (fun k => (r k).word) (a' t) (a' (t + 1)) := by
      intro k
      induction k with
      | zero => exact fun _ => ⟨fun _ => m0, fun _ => m0, rfl, rfl, h0, hb ▸ h0, fun t ht => absurd ht (Nat.not_lt_zero t)⟩
      | succ k ih =>
        intro hk
        obtain ⟨a', b', i1, i2, i3, i4, i5⟩ := ih (by omega)
        obtain ⟨ws, r, q1, q2, q3⟩ := e3 k (by omega)
        obtain ⟨nb, r1, r2⟩ := hybridRank1_rel A.zero c v k i4 q1
        obtain ⟨na, r3, r4⟩ := hybridRank0_rel A c v k _ i3 q3
        refine ⟨Function.update a' (k + 1) na, Function.update b' (k + 1) nb, ?_, ?_, ?_, ?_, ?_⟩
        · rw [Function.update_of_ne (by omega)]; exact i1
        · rw [Function.update_of_ne (by omega)]; exact i2
        · rw [Function.update_self]; exact r4
        · rw [Function.update_self]; exact r2
        · intro t ht
          by_cases e : t = k
          · subst e
            refine ⟨ws, r, ?_, q2, ?_⟩
            · rw [Function.update_of_ne (by omega), Function.update_self]; exact r1
            · rw [Function.update_of_ne (by omega), Function.update_self]; exact r3
          · obtain ⟨ws', r', j1, j2, j3⟩ := i5 t (by omega)
            refine ⟨ws', r', ?_, j2, ?_⟩
            · rw [Function.update_of_ne (by omega), Function.update_of_ne (by omega)]; exact j1
            · rw [Function.update_of_ne (by omega), Function.update_of_ne (by omega)]; exact j3
    obtain ⟨a', b', i1, i2, i3, i4, i5⟩ := run n le_rfl
    exact ⟨a' n, ⟨ha, a', b', by rw [i1, hy], by rw [i2, hy], rfl, i5⟩, i3⟩

end hybrid

end Gals
