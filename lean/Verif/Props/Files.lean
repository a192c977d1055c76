import Verif.Spec.Files

/-!
# C39: file utilities
-/

set_option linter.unusedSectionVars false

namespace Gals.Props

open Gals Gals.Spec

variable {C : Type}

theorem WellFormed.prefix_dir {fs : Fs C} (w : WellFormed fs) {p : Path} (hp : fs p ≠ none) :
    ∀ {q : Path}, q <+: p → q ≠ p → fs q = some .dir := by
  induction p using List.reverseRecOn with
  | nil => intro q h hn; exact absurd (List.prefix_nil.1 h) hn
  | append_singleton p a ih =>
    intro q h hn
    have hd := w.parent p a hp
    rcases List.prefix_concat_iff.1 h with h1 | h1
    · exact absurd h1 hn
    · by_cases hq : q = p
      · rw [hq]; exact hd
      · exact ih (by rw [hd]; simp) h1 hq

theorem wf_update_dir {fs : Fs C} (w : WellFormed fs) {p : Path} (a : List Char) (hp : fs p = some .dir) :
    WellFormed (fs.update (p ++ [a]) (some .dir)) := by
  constructor
  · unfold Fs.update
    rw [if_neg (by simp)]
    exact w.root
  · intro q b h
    unfold Fs.update at h ⊢
    by_cases h1 : q = p ++ [a]
    · rw [if_pos h1]
    · rw [if_neg h1]
      by_cases h2 : q ++ [b] = p ++ [a]
      · rw [(List.append_inj' h2 rfl).1]; exact hp
      · rw [if_neg h2] at h
        exact w.parent q b h

/-- What creating directories does, below an existing directory `done`. -/
theorem createFrom_spec (rest : Path) : ∀ (fs : Fs C) (done : Path), WellFormed fs → fs done = some .dir →
    WellFormed (fs.createFrom done rest).2 ∧
    (∀ q, fs q ≠ none → (fs.createFrom done rest).2 q = fs q) ∧
    (∀ q, (fs.createFrom done rest).2 q = fs q ∨ ((fs.createFrom done rest).2 q = some .dir ∧ q <+: done ++ rest)) ∧
    ((fs.createFrom done rest).1 = true → (fs.createFrom done rest).2 (done ++ rest) = some .dir) ∧
    ((∀ q, q <+: done ++ rest → fs q = none ∨ fs q = some .dir) → (fs.createFrom done rest).1 = true) := by
  induction rest with
  | nil =>
    intro fs done w hd
    rw [List.append_nil]
    exact ⟨w, fun _ _ => rfl, fun _ => .inl rfl, fun _ => hd, fun _ => rfl⟩
  | cons a rest ih =>
    intro fs done w hd
    have happ : done ++ a :: rest = (done ++ [a]) ++ rest := by simp
    rw [happ]
    unfold Fs.createFrom
    split
    · rename_i h
      exact ih fs _ w h
    · rename_i c h
      refine ⟨w, fun _ _ => rfl, fun _ => .inl rfl, fun hf => (Bool.noConfusion hf), fun hw => ?_⟩
      rcases hw (done ++ [a]) (List.prefix_append _ _) with h1 | h1 <;> rw [h] at h1 <;> cases h1
    · rename_i h
      obtain ⟨i1, i2, i3, i4, i5⟩ := ih (fs.update (done ++ [a]) (some .dir)) (done ++ [a]) (wf_update_dir w a hd)
        (by unfold Fs.update; rw [if_pos rfl])
      have hup : ∀ q, q ≠ done ++ [a] → fs.update (done ++ [a]) (some .dir) q = fs q := by
        intro q hq
        unfold Fs.update
        rw [if_neg hq]
      have hself : fs.update (done ++ [a]) (some .dir) (done ++ [a]) = some .dir := by
        unfold Fs.update
        rw [if_pos rfl]
      refine ⟨i1, ?_, ?_, i4, ?_⟩
      · intro q hq
        have hne : q ≠ done ++ [a] := by rintro rfl; exact hq h
        rw [i2 q (by rw [hup q hne]; exact hq), hup q hne]
      · intro q
        by_cases hne : q = done ++ [a]
        · refine .inr ⟨?_, by rw [hne]; exact List.prefix_append _ _⟩
          rw [hne, i2 _ (by rw [hself]; simp), hself]
        · rcases i3 q with h1 | h1
          · exact .inl (by rw [h1, hup q hne])
          · exact .inr h1
      · intro hw
        refine i5 fun q hq => ?_
        by_cases hne : q = done ++ [a]
        · rw [hne, hself]; exact .inr rfl
        · rw [hup q hne]; exact hw q hq

theorem openWrite_cases (fs : Fs C) (p : Path) (c : C) :
    (fs.openWrite p c = fs ∧ (fs p = some .dir ∨ fs p.dropLast ≠ some .dir)) ∨
    (fs.openWrite p c = fs.update p (some (.file c)) ∧ fs p ≠ some .dir ∧ (fs p ≠ none ∨ fs p.dropLast = some .dir)) := by
  unfold Fs.openWrite
  rcases h1 : fs p with - | - | - <;> rcases h2 : fs p.dropLast with - | - | - <;> simp

/-- Every operation keeps the file system well formed. -/
theorem FileOp.run_wf (cwd : Path) {fs fs' : Fs C} (w : WellFormed fs) (op : FileOp C) (h : op.run cwd fs = .ok fs') :
    WellFormed fs' := by
  cases op with
  | createDirectory p =>
    cases h
    unfold FileUtils.createDirectory
    split
    · exact w
    · exact (createFrom_spec _ fs [] w w.root).1
  | removeFile p =>
    cases h
    unfold FileUtils.removeFile Fs.removeFile
    have key : ∀ q, q ≠ [] → (¬ fs.HasChild q) → WellFormed (fs.update q none) := by
      intro q hq hc
      constructor
      · unfold Fs.update; rw [if_neg (Ne.symm hq)]; exact w.root
      · intro r b hr
        unfold Fs.update at hr ⊢
        by_cases h1 : r ++ [b] = q
        · rw [if_pos h1] at hr; exact absurd rfl hr
        · rw [if_neg h1] at hr
          rw [if_neg]
          · exact w.parent r b hr
          · rintro rfl
            exact hc ⟨[b], Option.isSome_iff_ne_none.2 hr, by simp⟩
    split
    · rename_i c h
      refine key _ ?_ ?_
      · intro h0; rw [h0, w.root] at h; cases h
      · rintro ⟨q, hq, hn⟩
        have := WellFormed.prefix_dir w (Option.isSome_iff_ne_none.1 hq) (q := resolve cwd p) (List.prefix_append _ _)
          (by intro he; exact hn (by simpa using he))
        rw [h] at this; cases this
    · split
      · exact w
      · rename_i h hc
        rw [not_or] at hc
        exact key _ hc.2 hc.1
    · exact w
  | removeDirectory p =>
    cases h
    unfold FileUtils.removeDirectory Fs.removeTree
    split
    · split
      · exact w
      · rename_i h0
        constructor
        · show (if resolve cwd p <+: [] then none else fs []) = _
          rw [if_neg (by rw [List.prefix_nil]; exact h0)]; exact w.root
        · intro q b hq
          simp only at hq ⊢
          by_cases h1 : resolve cwd p <+: q ++ [b]
          · rw [if_pos h1] at hq; exact absurd rfl hq
          · rw [if_neg h1] at hq
            rw [if_neg (fun h2 => h1 (h2.trans (List.prefix_append _ _)))]
            exact w.parent q b hq
    · exact w
  | write p c =>
    simp only [FileOp.run, FileUtils.write, M.ok_bind, M.pure_eq] at h
    cases h
    have key : ∀ q, fs q ≠ some .dir → (fs q ≠ none ∨ fs q.dropLast = some .dir) →
        WellFormed (fs.update q (some (.file c))) := by
      intro q hnd hpar
      have hq : q ≠ [] := by rintro rfl; exact hnd w.root
      have hdl : fs q.dropLast = some .dir := by
        rcases hpar with h | h
        · obtain ⟨l, a, rfl⟩ : ∃ l a, q = l ++ [a] := ⟨_, _, (List.dropLast_append_getLast hq).symm⟩
          rw [List.dropLast_concat]; exact w.parent _ _ h
        · exact h
      constructor
      · unfold Fs.update; rw [if_neg (Ne.symm hq)]; exact w.root
      · intro r b hr
        unfold Fs.update at hr ⊢
        by_cases h1 : r ++ [b] = q
        · subst h1
          rw [List.dropLast_concat] at hdl
          rw [if_neg (by simp)]; exact hdl
        · rw [if_neg h1] at hr
          have := w.parent r b hr
          rw [if_neg (by rintro rfl; exact hnd this)]
          exact this
    rcases openWrite_cases fs (resolve cwd p) c with ⟨h, -⟩ | ⟨h, h1, h2⟩
    · rw [h]; exact w
    · rw [h]; exact key _ h1 h2

/-- C39, histories: whatever sequence of operations a client performs, the file system stays well formed (so the theorems
below apply at every point of every history). -/
theorem C39_history (cwd : Path) (ops : List (FileOp C)) (fs : Fs C) (w : WellFormed fs) :
    ∃ fs', loop ops fs (fun fs op => op.run cwd fs) = .ok fs' ∧ WellFormed fs' := by
  refine loop_inv (fun _ fs => WellFormed fs) w fun pre op post t _ ht => ?_
  cases op with
  | write p c => exact ⟨_, rfl, FileOp.run_wf cwd ht (.write p c) rfl⟩
  | createDirectory p => exact ⟨_, rfl, FileOp.run_wf cwd ht (.createDirectory p) rfl⟩
  | removeFile p => exact ⟨_, rfl, FileOp.run_wf cwd ht (.removeFile p) rfl⟩
  | removeDirectory p => exact ⟨_, rfl, FileOp.run_wf cwd ht (.removeDirectory p) rfl⟩

/-- C39, creating a directory: for every well-formed file system and every path string,
whatever existed before is unchanged and only directories on the way to the path are added;
if `true` is returned the path exists (a directory, unless it existed before), and repeating the call returns `true` and
changes nothing; `true` is returned whenever no file is on the way.
Missing: when the path exists as a *file* the call reports success although no directory of that name exists
(`C39_directory_false`). -/
theorem C39_create_directory_partial (cwd : Path) (fs : Fs C) (w : WellFormed fs) (p : String) (ok : Bool) (fs' : Fs C)
    (run : FileUtils.createDirectory cwd fs p = (ok, fs')) :
    (∀ q, fs q ≠ none → fs' q = fs q) ∧
    (∀ q, fs' q = fs q ∨ (fs' q = some .dir ∧ q <+: resolve cwd p)) ∧
    (ok = true → FileUtils.fileExists cwd fs' p = true ∧ (fs (resolve cwd p) = none → fs' (resolve cwd p) = some .dir) ∧
      FileUtils.createDirectory cwd fs' p = (true, fs')) ∧
    (NoFileOnWay fs (resolve cwd p) → ok = true ∧ fs' (resolve cwd p) = some .dir) := by
  unfold FileUtils.createDirectory at run
  split at run
  · rename_i hex
    cases run
    unfold Fs.exists' at hex
    refine ⟨fun _ _ => rfl, fun _ => .inl rfl, fun _ => ⟨hex, fun h => ?_, ?_⟩, fun hn => ⟨rfl, ?_⟩⟩
    · rw [h] at hex; cases hex
    · unfold FileUtils.createDirectory Fs.exists'
      rw [if_pos hex]
    · rcases hn _ (List.prefix_refl _) with h | h
      · rw [h] at hex; cases hex
      · exact h
  · rename_i hex
    obtain ⟨i1, i2, i3, i4, i5⟩ := createFrom_spec (resolve cwd p) fs [] w w.root
    rw [run] at i1 i2 i3 i4 i5
    simp only [List.nil_append] at i3 i4 i5
    refine ⟨i2, i3, fun hok => ?_, fun hn => ⟨i5 hn, i4 (i5 hn)⟩⟩
    have hd := i4 hok
    have he : fs'.exists' (resolve cwd p) = true := by unfold Fs.exists'; rw [hd]; rfl
    refine ⟨he, fun _ => hd, ?_⟩
    unfold FileUtils.createDirectory
    rw [if_pos he]

/-- "Afterwards the directory exists" is false: with a file of that name, creating the directory reports success, and there is
no directory. -/
theorem C39_directory_false (cwd : Path) (fs : Fs C) (p : String) (c : C) (h : fs (resolve cwd p) = some (.file c)) :
    FileUtils.createDirectory cwd fs p = (true, fs) ∧ fs (resolve cwd p) ≠ some .dir := by
  unfold FileUtils.createDirectory Fs.exists'
  rw [h]
  exact ⟨rfl, by simp⟩

/-- C39, removing a file: it returns `true`, the file no longer exists, everything else is untouched. -/
theorem C39_remove_file (cwd : Path) (fs : Fs C) (p : String) (c : C) (h : fs (resolve cwd p) = some (.file c)) :
    ∃ fs', FileUtils.removeFile cwd fs p = (true, fs') ∧ FileUtils.fileExists cwd fs' p = false ∧
      ∀ q, q ≠ resolve cwd p → fs' q = fs q := by
  refine ⟨fs.update (resolve cwd p) none, ?_, ?_, ?_⟩
  · unfold FileUtils.removeFile Fs.removeFile
    rw [h]
  · unfold FileUtils.fileExists Fs.exists' Fs.update
    simp
  · intro q hq
    unfold Fs.update
    rw [if_neg hq]

/-- C39, removing what is not there, or a directory with entries: `false`, and nothing changes. -/
theorem C39_remove_file_fails (cwd : Path) (fs : Fs C) (p : String)
    (h : fs (resolve cwd p) = none ∨ (fs (resolve cwd p) = some .dir ∧ ∃ a, fs (resolve cwd p ++ [a]) ≠ none)) :
    FileUtils.removeFile cwd fs p = (false, fs) := by
  unfold FileUtils.removeFile Fs.removeFile
  rcases h with h | ⟨h, a, ha⟩
  · rw [h]
  · rw [h]
    simp only
    rw [if_pos (.inl ⟨[a], Option.isSome_iff_ne_none.2 ha, by simp⟩)]

/-- C39, writing: in every well-formed file system, if the directory exists and the path is not itself a directory, then
whatever was there, the content afterwards is exactly what was written, and nothing else changes. -/
theorem C39_write (cwd : Path) (fs : Fs C) (p : String) (c : C) (hd : fs (resolve cwd p).dropLast = some .dir)
    (hn : fs (resolve cwd p) ≠ some .dir) :
    ∃ fs', FileUtils.write cwd fs p (fun c => .ok c) c = .ok fs' ∧ fs' (resolve cwd p) = some (.file c) ∧
      ∀ q, q ≠ resolve cwd p → fs' q = fs q := by
  refine ⟨fs.update (resolve cwd p) (some (.file c)), ?_, ?_, ?_⟩
  · simp only [FileUtils.write, M.ok_bind, M.pure_eq]
    congr 1
    rcases openWrite_cases fs (resolve cwd p) c with ⟨-, h | h⟩ | ⟨h, -⟩
    · exact absurd h hn
    · exact absurd hd h
    · exact h
  · unfold Fs.update; rw [if_pos rfl]
  · intro q hq
    unfold Fs.update; rw [if_neg hq]

/-- Writing below a directory that does not exist does nothing, and reports nothing: the call returns normally. -/
theorem C39_write_lost (cwd : Path) (fs : Fs C) (p : String) (c : C) (hd : fs (resolve cwd p).dropLast = none)
    (hn : fs (resolve cwd p) = none) : FileUtils.write cwd fs p (fun c => .ok c) c = .ok fs := by
  simp only [FileUtils.write, M.ok_bind, M.pure_eq]
  unfold Fs.openWrite
  rw [hd, hn]

/-- An operation not aimed at a file leaves it as it is. -/
theorem FileOp.keeps (cwd : Path) {fs fs' : Fs C} (w : WellFormed fs) (op : FileOp C) (h : op.run cwd fs = .ok fs')
    {q : Path} {c : C} (hq : fs q = some (.file c)) (ha : ¬ op.Aims cwd q) : fs' q = some (.file c) := by
  cases op with
  | createDirectory p =>
    cases h
    have := (C39_create_directory_partial cwd fs w p (FileUtils.createDirectory cwd fs p).1
      (FileUtils.createDirectory cwd fs p).2 rfl).1 q (by rw [hq]; simp)
    rw [this, hq]
  | removeFile p =>
    cases h
    simp only [FileOp.Aims] at ha
    unfold FileUtils.removeFile Fs.removeFile
    split
    · simp only [Fs.update]; rw [if_neg (Ne.symm ha), hq]
    · split
      · exact hq
      · simp only [Fs.update]; rw [if_neg (Ne.symm ha), hq]
    · exact hq
  | removeDirectory p =>
    cases h
    simp only [FileOp.Aims] at ha
    unfold FileUtils.removeDirectory Fs.removeTree
    split
    · split
      · exact hq
      · simp only; rw [if_neg ha, hq]
    · exact hq
  | write p c' =>
    simp only [FileOp.run, FileUtils.write, M.ok_bind, M.pure_eq] at h
    cases h
    simp only [FileOp.Aims] at ha
    rcases openWrite_cases fs (resolve cwd p) c' with ⟨h, -⟩ | ⟨h, -⟩
    · rw [h]; exact hq
    · rw [h]; simp only [Fs.update]; rw [if_neg (Ne.symm ha), hq]

/-- C39, histories of writes: after any history, write a file (its directory existing), then do anything not aimed at it: its
content is exactly what was written last. -/
theorem C39_last_write (cwd : Path) (before after : List (FileOp C)) (p : String) (c : C) (fs fs1 fs2 : Fs C)
    (w : WellFormed fs) (h1 : loop before fs (fun fs op => op.run cwd fs) = .ok fs1)
    (hd : fs1 (resolve cwd p).dropLast = some .dir) (hn : fs1 (resolve cwd p) ≠ some .dir)
    (hafter : ∀ op ∈ after, ¬ op.Aims cwd (resolve cwd p))
    (h2 : loop (before ++ .write p c :: after) fs (fun fs op => op.run cwd fs) = .ok fs2) :
    fs2 (resolve cwd p) = some (.file c) := by
  obtain ⟨t, ht, w1⟩ := C39_history cwd before fs w
  rw [h1] at ht
  cases ht
  rw [loop_append, h1, M.ok_bind, loop_cons] at h2
  obtain ⟨fs3, e3, e4, -⟩ := C39_write cwd fs1 p c hd hn
  have w3 := FileOp.run_wf cwd w1 (.write p c) e3
  simp only [FileOp.run] at h2
  rw [e3, M.ok_bind] at h2
  refine (loop_inv_of_ok (fun (t : Fs C) => WellFormed t ∧ t (resolve cwd p) = some (.file c)) ⟨w3, e4⟩ ?_ h2).2
  intro op hop t t' ht hrun
  exact ⟨FileOp.run_wf cwd ht.1 op hrun, FileOp.keeps cwd ht.1 op hrun ht.2 (hafter op hop)⟩

/-! ### Instances -/

/-- A file system with a directory `out` that holds a file `v`. -/
def demoFs : Fs ℕ := fun q =>
  if q = [] then some .dir else if q = [['o', 'u', 't']] then some .dir
  else if q = [['o', 'u', 't'], ['v']] then some (.file 7) else none

theorem demoFs_wf : WellFormed demoFs := by
  constructor
  · rfl
  · intro p a h
    unfold demoFs at h ⊢
    rcases p with - | ⟨b, - | ⟨c, p⟩⟩
    · rfl
    · by_cases hb : b = ['o', 'u', 't']
      · subst hb; rfl
      · exfalso; apply h; simp [hb]
    · exfalso; apply h; simp

theorem demo_paths : resolve [] "out/v" = [['o', 'u', 't'], ['v']] ∧ resolve [] "out" = [['o', 'u', 't']] ∧
    resolve [] "/new//a/" = [['n', 'e', 'w'], ['a']] ∧ resolve [['h']] "x" = [['h'], ['x']] := by decide

/-- Instance of creating a directory two levels deep: it succeeds. -/
example : ∃ fs', FileUtils.createDirectory [] demoFs "/new//a/" = (true, fs') ∧ fs' [['n', 'e', 'w']] = some .dir ∧
    fs' [['o', 'u', 't'], ['v']] = some (.file 7) ∧ NoFileOnWay demoFs (resolve [] "/new//a/") := by
  have hn : NoFileOnWay demoFs (resolve [] "/new//a/") := by
    intro q hq
    rw [demo_paths.2.2.1] at hq
    rcases List.prefix_cons_iff.1 hq with rfl | ⟨t, rfl, ht⟩
    · exact .inr rfl
    · left
      unfold demoFs
      simp
  rcases hrun : FileUtils.createDirectory [] demoFs "/new//a/" with ⟨ok, fs'⟩
  obtain ⟨h1, h2, h3, h4⟩ := C39_create_directory_partial [] demoFs demoFs_wf _ _ _ hrun
  have wf' := FileOp.run_wf [] demoFs_wf (.createDirectory "/new//a/") rfl
  rw [hrun] at wf'
  obtain ⟨rfl, h5⟩ := h4 hn
  rw [demo_paths.2.2.1] at h5
  exact ⟨fs', rfl, wf'.parent [['n', 'e', 'w']] ['a'] (by
    show fs' [['n', 'e', 'w'], ['a']] ≠ none
    rw [h5]; simp), h1 _ (by decide), hn⟩

/-- Instance of `C39_directory_false`: `out/v` is a file. -/
example : FileUtils.createDirectory [] demoFs "out/v" = (true, demoFs) ∧ demoFs (resolve [] "out/v") ≠ some .dir :=
  C39_directory_false [] demoFs "out/v" 7 (by rw [demo_paths.1]; rfl)

/-- Instance of removing a file. -/
example : ∃ fs', FileUtils.removeFile [] demoFs "out/v" = (true, fs') ∧ FileUtils.fileExists [] fs' "out/v" = false ∧
    fs' [['o', 'u', 't']] = some .dir := by
  obtain ⟨fs', h1, h2, h3⟩ := C39_remove_file [] demoFs "out/v" 7 (by rw [demo_paths.1]; rfl)
  exact ⟨fs', h1, h2, by rw [h3 _ (by rw [demo_paths.1]; simp)]; rfl⟩

/-- Instance of a removal that fails: `out` has an entry. -/
example : FileUtils.removeFile [] demoFs "out" = (false, demoFs) :=
  C39_remove_file_fails [] demoFs "out" (.inr (by rw [demo_paths.2.1]; exact ⟨rfl, ['v'], by decide⟩))

/-- Instance of the last write: write, write again, create a directory, remove another file. -/
example : ∃ fs2, loop [.write "out/v" 1, .write "out/v" 2, .createDirectory "/new//a/", .removeFile "x"] demoFs
      (fun fs op => FileOp.run [] fs op) = .ok fs2 ∧ fs2 (resolve [] "out/v") = some (.file 2) := by
  obtain ⟨fs1, e1, -⟩ := C39_history [] [.write "out/v" 1] demoFs demoFs_wf
  obtain ⟨fs2, e2, -⟩ := C39_history [] ([.write "out/v" 1] ++ .write "out/v" 2 :: [.createDirectory "/new//a/", .removeFile "x"])
    demoFs demoFs_wf
  obtain ⟨fs1', e1', e3, e4⟩ := C39_write [] demoFs "out/v" 1 (by rw [demo_paths.1]; rfl) (by rw [demo_paths.1]; decide)
  rw [loop_cons, FileOp.run, e1', M.ok_bind, loop_nil] at e1
  cases e1
  refine ⟨fs2, e2, C39_last_write [] [.write "out/v" 1] [.createDirectory "/new//a/", .removeFile "x"] "out/v" 2 demoFs fs1 fs2
    demoFs_wf ?_ ?_ ?_ ?_ e2⟩
  · rw [loop_cons, FileOp.run, e1', M.ok_bind, loop_nil]
  · rw [e4 _ (by rw [demo_paths.1]; simp), demo_paths.1]; rfl
  · rw [e3]; simp
  · intro op hop
    simp only [List.mem_cons, List.not_mem_nil, or_false] at hop
    rcases hop with rfl | rfl
    · simp [FileOp.Aims]
    · simp only [FileOp.Aims]
      decide

/-- Instance of a lost write. -/
example : FileUtils.write [] demoFs "/new//a/" (fun c => .ok c) 3 = .ok demoFs :=
  C39_write_lost [] demoFs _ 3 (by rw [demo_paths.2.2.1]; rfl) (by rw [demo_paths.2.2.1]; rfl)

end Gals.Props
