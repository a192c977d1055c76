import Verif.Spec.Parser

/-!
# C38: input sections
-/

set_option linter.unusedSectionVars false

namespace Gals.Props

open Gals Gals.Spec

variable {K : Type}

/-! ### Navigation -/

theorem find_of_split {before after : List (String × Yaml)} {key : String} {v : Yaml} (h : ∀ e ∈ before, e.1 ≠ key) :
    (before ++ (key, v) :: after).find? (fun e => e.1 == key) = some (key, v) := by
  rw [List.find?_append]
  have : before.find? (fun e => e.1 == key) = none := by
    rw [List.find?_eq_none]
    intro e he
    simpa using h e he
  rw [this]
  simp

theorem split_of_find {es : List (String × Yaml)} {key : String} {e : String × Yaml}
    (h : es.find? (fun e => e.1 == key) = some e) :
    ∃ before after, es = before ++ (key, e.2) :: after ∧ ∀ e ∈ before, e.1 ≠ key := by
  obtain ⟨h1, as, bs, h2, h3⟩ := List.find?_eq_some_iff_append.1 h
  refine ⟨as, bs, ?_, fun e he => by simpa using h3 e he⟩
  have : e.1 = key := by simpa using h1
  rw [h2, ← this]

theorem need_iff {y : Yaml} {key : String} {v : Yaml} : y.need key = .ok v ↔ At y [key] v := by
  constructor
  · intro h
    unfold Yaml.need Yaml.get at h
    cases y with
    | map es =>
      simp only [M.ok_bind] at h
      cases hf : es.find? (fun e => e.1 == key) with
      | none => rw [hf] at h; cases h
      | some e =>
        rw [hf] at h
        cases h
        obtain ⟨b, a, rfl, hb⟩ := split_of_find hf
        exact .step hb (.here _)
    | scalar t => cases h
    | null => cases h
    | seq l => cases h
  · intro h
    cases h with
    | step hb h2 =>
      cases h2
      unfold Yaml.need Yaml.get
      simp only [M.ok_bind]
      rw [find_of_split hb]
      rfl

theorem at_cons {y : Yaml} {key : String} {path : List String} {leaf : Yaml} :
    At y (key :: path) leaf ↔ ∃ v, y.need key = .ok v ∧ At v path leaf := by
  constructor
  · intro h
    cases h with
    | step hb h2 => exact ⟨_, need_iff.2 (.step hb (.here _)), h2⟩
  · rintro ⟨v, h1, h2⟩
    have := need_iff.1 h1
    cases this with
    | step hb h3 => cases h3; exact .step hb h2

theorem at_nil {y leaf : Yaml} : At y [] leaf ↔ leaf = y := ⟨fun h => by cases h; rfl, fun h => h ▸ .here _⟩

theorem get_eq {es : List (String × Yaml)} {key : String} {o : Option Yaml} (h : (Yaml.map es).get key = .ok o) :
    (o = none ↔ Absent es key) ∧ ∀ v, o = some v ↔ At (.map es) [key] v := by
  simp only [Yaml.get] at h
  cases hf : es.find? (fun e => e.1 == key) with
  | none =>
    rw [hf] at h
    cases h
    refine ⟨⟨fun _ e he => ?_, fun _ => rfl⟩, fun v => ⟨fun h => (by cases h), fun h => ?_⟩⟩
    · rw [List.find?_eq_none] at hf
      simpa using hf e he
    · have := need_iff.2 h
      simp only [Yaml.need, Yaml.get, hf] at this
      cases this
  | some e =>
    rw [hf] at h
    cases h
    obtain ⟨b, a, rfl, hb⟩ := split_of_find hf
    refine ⟨⟨fun h => (by cases h), fun h => absurd rfl (h (key, e.2) (by simp))⟩, fun v => ⟨fun h => ?_, fun h => ?_⟩⟩
    · cases h; exact .step hb (.here _)
    · have := need_iff.2 h
      simp only [Yaml.need, Yaml.get, hf] at this
      cases this
      rfl

theorem asDouble_iff {cv : Conv K} {y : Yaml} {x : K} : y.asDouble cv = .ok x ↔ IsDouble cv y x := by
  constructor
  · intro h
    unfold Yaml.asDouble at h
    split at h
    · split at h
      · cases h; exact ⟨_, rfl, by assumption⟩
      · cases h
    · cases h
  · rintro ⟨t, rfl, h⟩
    simp only [Yaml.asDouble, h]

theorem asInt_iff {cv : Conv K} {y : Yaml} {x : ℤ} : y.asInt cv = .ok x ↔ IsInt cv y x := by
  constructor
  · intro h
    unfold Yaml.asInt at h
    split at h
    · split at h
      · cases h; exact ⟨_, rfl, by assumption⟩
      · cases h
    · cases h
  · rintro ⟨t, rfl, h⟩
    simp only [Yaml.asInt, h]

theorem asString_iff {y : Yaml} {x : String} : y.asString = .ok x ↔ y = .scalar x := by
  constructor
  · intro h
    unfold Yaml.asString at h
    split at h
    · cases h; rfl
    · cases h
  · rintro rfl; rfl

theorem asVector_loop {T : Type} {conv : Yaml → M T} {P : Yaml → T → Prop} (hc : ∀ y x, conv y = .ok x ↔ P y x)
    (l : List Yaml) : ∀ (acc xs : List T), loop l acc (fun acc e => do
      let x ← conv e
      return acc ++ [x]) = .ok xs ↔ ∃ ys, xs = acc ++ ys ∧ List.Forall₂ P l ys := by
  induction l with
  | nil =>
    intro acc xs
    rw [loop_nil]
    constructor
    · intro h; cases h; exact ⟨[], by simp, .nil⟩
    · rintro ⟨ys, rfl, h⟩; cases h; simp
  | cons a l ih =>
    intro acc xs
    rw [loop_cons]
    cases hca : conv a with
    | error f =>
      constructor
      · intro h; cases h
      · rintro ⟨ys, rfl, h⟩
        cases h with
        | cons h1 h2 => rw [← hc, hca] at h1; cases h1
    | ok x =>
      rw [M.ok_bind, M.pure_eq, M.ok_bind, ih]
      constructor
      · rintro ⟨ys, rfl, h⟩
        exact ⟨x :: ys, by simp, .cons ((hc _ _).1 hca) h⟩
      · rintro ⟨ys, rfl, h⟩
        cases h with
        | cons h1 h2 =>
          rw [← hc, hca] at h1
          cases h1
          exact ⟨_, by simp, h2⟩

theorem asVector_iff {T : Type} {conv : Yaml → M T} {P : Yaml → T → Prop} (hc : ∀ y x, conv y = .ok x ↔ P y x) {y : Yaml}
    {xs : List T} : y.asVector conv = .ok xs ↔ ∃ l, y = .seq l ∧ List.Forall₂ P l xs := by
  unfold Yaml.asVector
  cases y with
  | seq l =>
    simp only
    rw [asVector_loop hc]
    constructor
    · rintro ⟨ys, rfl, h⟩; exact ⟨l, rfl, by simpa using h⟩
    · rintro ⟨l', e, h⟩; cases e; exact ⟨xs, by simp, h⟩
  | null => simp
  | scalar t => simp
  | map es => simp

/-! ### One section at a time -/

/-- `bind` of a computation that returns: both parts. -/
theorem bind_iff {α β : Type} {x : M α} {f : α → M β} {b : β} : (x >>= f) = .ok b ↔ ∃ a, x = .ok a ∧ f a = .ok b := by
  cases x with
  | error e => simp [M.error_bind]
  | ok a => simp [M.ok_bind]

theorem has_cons {y : Yaml} {key : String} {path : List String} {P : Yaml → Prop} :
    Has y (key :: path) P ↔ ∃ v, y.need key = .ok v ∧ Has v path P := by
  unfold Has
  constructor
  · rintro ⟨leaf, h1, h2⟩
    obtain ⟨v, h3, h4⟩ := at_cons.1 h1
    exact ⟨v, h3, leaf, h4, h2⟩
  · rintro ⟨v, h1, leaf, h2, h3⟩
    exact ⟨leaf, at_cons.2 ⟨v, h1, h2⟩, h3⟩

theorem has_nil {y : Yaml} {P : Yaml → Prop} : Has y [] P ↔ P y :=
  ⟨fun ⟨_, h1, h2⟩ => by rw [at_nil] at h1; rwa [← h1], fun h => ⟨y, .here _, h⟩⟩

theorem parseGeneral_iff {field : Yaml} {f f' : InputFields K} : parseGeneral field f = .ok f' ↔
    ∃ dir, f' = { f with general := ⟨dir⟩ } ∧ Has field ["output_directory"] (· = .scalar dir) := by
  simp only [parseGeneral, bind_iff, M.pure_eq, has_cons, has_nil, asString_iff, Except.ok.injEq]
  constructor
  · rintro ⟨v, h1, dir, h2, rfl⟩
    exact ⟨dir, rfl, v, h1, h2⟩
  · rintro ⟨dir, rfl, v, h1, h2⟩
    exact ⟨v, h1, dir, h2, rfl⟩

theorem boxField_iff {cv : Conv K} {field : Yaml} {key : String} {x : K} :
    boxField cv field key = .ok x ↔ Has field ["box", key] (IsDouble cv · x) := by
  simp only [boxField, bind_iff, has_cons, has_nil, asDouble_iff]

theorem rd_three {T : Type} {l : List T} {a b c : T} (h0 : rd l 0 = .ok a) (h1 : rd l 1 = .ok b) (h2 : rd l 2 = .ok c) :
    ∃ more, l = a :: b :: c :: more := by
  rcases l with - | ⟨x, - | ⟨y, - | ⟨z, l⟩⟩⟩
  · cases h0
  · cases h1
  · cases h2
  · cases h0; cases h1; cases h2; exact ⟨l, rfl⟩

theorem need_unique {y : Yaml} {key : String} {v w : Yaml} (h1 : y.need key = .ok v) (h2 : y.need key = .ok w) : v = w := by
  rw [h1] at h2; cases h2; rfl

theorem cells_iff {cv : Conv K} {field : Yaml} {nx ny nz : ℤ} :
    (cellsField cv field 0 = .ok nx ∧ cellsField cv field 1 = .ok ny ∧ cellsField cv field 2 = .ok nz) ↔
      ∃ more, Has field ["cells"] (IsInts cv · (nx :: ny :: nz :: more)) := by
  simp only [cellsField, bind_iff, has_cons, has_nil, asVector_iff (fun y x => asInt_iff (cv := cv) (y := y) (x := x))]
  constructor
  · rintro ⟨⟨v, h1, l, h2, h3⟩, ⟨v', h1', l', h2', h3'⟩, ⟨v'', h1'', l'', h2'', h3''⟩⟩
    cases need_unique h1 h1'
    cases need_unique h1 h1''
    rw [← asVector_iff (fun y x => asInt_iff (cv := cv) (y := y) (x := x))] at h2 h2' h2''
    rw [h2] at h2' h2''
    cases h2'
    cases h2''
    obtain ⟨more, rfl⟩ := rd_three h3 h3' h3''
    exact ⟨more, v, h1, (asVector_iff (fun y x => asInt_iff (cv := cv) (y := y) (x := x))).1 h2⟩
  · rintro ⟨more, v, h1, h2⟩
    exact ⟨⟨v, h1, _, h2, rfl⟩, ⟨v, h1, _, h2, rfl⟩, ⟨v, h1, _, h2, rfl⟩⟩

theorem parseGrid_iff {cv : Conv K} {field : Yaml} {f f' : InputFields K} : parseGrid cv field f = .ok f' ↔
    ∃ (x0 x1 y0 y1 z0 z1 : K) (nx ny nz : ℤ) (more : List ℤ),
      f' = { f with grid := ⟨some x0, some x1, some y0, some y1, some z0, some z1, some nx, some ny, some nz⟩ } ∧
      Has field ["box", "x_min"] (IsDouble cv · x0) ∧ Has field ["box", "x_max"] (IsDouble cv · x1) ∧
      Has field ["box", "y_min"] (IsDouble cv · y0) ∧ Has field ["box", "y_max"] (IsDouble cv · y1) ∧
      Has field ["box", "z_min"] (IsDouble cv · z0) ∧ Has field ["box", "z_max"] (IsDouble cv · z1) ∧
      Has field ["cells"] (IsInts cv · (nx :: ny :: nz :: more)) := by
  simp only [parseGrid, bind_iff, M.pure_eq, Except.ok.injEq, boxField_iff]
  constructor
  · rintro ⟨x0, h1, x1, h2, y0, h3, y1, h4, z0, h5, z1, h6, nx, h7, ny, h8, nz, h9, rfl⟩
    obtain ⟨more, h10⟩ := cells_iff.1 ⟨h7, h8, h9⟩
    exact ⟨x0, x1, y0, y1, z0, z1, nx, ny, nz, more, rfl, h1, h2, h3, h4, h5, h6, h10⟩
  · rintro ⟨x0, x1, y0, y1, z0, z1, nx, ny, nz, more, rfl, h1, h2, h3, h4, h5, h6, h10⟩
    obtain ⟨h7, h8, h9⟩ := cells_iff.2 ⟨more, h10⟩
    exact ⟨x0, h1, x1, h2, y0, h3, y1, h4, z0, h5, z1, h6, nx, h7, ny, h8, nz, h9, rfl⟩

theorem needDouble_iff {cv : Conv K} {field : Yaml} {key : String} {x : K} :
    (field.need key >>= fun v => v.asDouble cv) = .ok x ↔ Has field [key] (IsDouble cv · x) := by
  simp only [bind_iff, has_cons, has_nil, asDouble_iff]

theorem needString_iff {field : Yaml} {key : String} {x : String} :
    (field.need key >>= fun v => v.asString) = .ok x ↔ Has field [key] (· = .scalar x) := by
  simp only [bind_iff, has_cons, has_nil, asString_iff]

theorem needDoubles_iff {cv : Conv K} {field : Yaml} {key : String} {x : List K} :
    (field.need key >>= fun v => v.asVector (Yaml.asDouble cv)) = .ok x ↔ Has field [key] (IsDoubles cv · x) := by
  simp only [bind_iff, has_cons, has_nil, asVector_iff (fun y x => asDouble_iff (cv := cv) (y := y) (x := x)), IsDoubles]

theorem parseTime_iff {cv : Conv K} {field : Yaml} {f f' : InputFields K} : parseTime cv field f = .ok f' ↔
    ∃ (a b c : K) (k : String), f' = { f with time := ⟨some a, some b, some c, k⟩ } ∧
      Has field ["start"] (IsDouble cv · a) ∧ Has field ["end"] (IsDouble cv · b) ∧ Has field ["dt"] (IsDouble cv · c) ∧
      Has field ["constant_dt"] (· = .scalar k) := by
  simp only [parseTime, bind_iff, M.pure_eq, Except.ok.injEq, has_cons, has_nil, asDouble_iff, asString_iff]
  constructor
  · rintro ⟨v1, h1, a, h1', v2, h2, b, h2', v3, h3, c, h3', v4, h4, k, h4', rfl⟩
    exact ⟨a, b, c, k, rfl, ⟨v1, h1, h1'⟩, ⟨v2, h2, h2'⟩, ⟨v3, h3, h3'⟩, v4, h4, h4'⟩
  · rintro ⟨a, b, c, k, rfl, ⟨v1, h1, h1'⟩, ⟨v2, h2, h2'⟩, ⟨v3, h3, h3'⟩, v4, h4, h4'⟩
    exact ⟨v1, h1, a, h1', v2, h2, b, h2', v3, h3, c, h3', v4, h4, k, h4', rfl⟩

theorem parseVelocity_iff {cv : Conv K} {field : Yaml} {f f' : InputFields K} : parseVelocity cv field f = .ok f' ↔
    ∃ (n : String) (v c : List K) (g : String), f' = { f with velocity := ⟨n, v, c, g⟩ } ∧
      Has field ["name"] (· = .scalar n) ∧ Has field ["vector"] (IsDoubles cv · v) ∧ Has field ["center"] (IsDoubles cv · c) ∧
      Has field ["gradient", "scheme"] (· = .scalar g) := by
  simp only [parseVelocity, bind_iff, M.pure_eq, Except.ok.injEq, has_cons, has_nil, asString_iff, IsDoubles,
    asVector_iff (fun y x => asDouble_iff (cv := cv) (y := y) (x := x))]
  constructor
  · rintro ⟨v1, h1, a, h1', v2, h2, b, h2', v3, h3, c, h3', v4, h4, v5, h5, k, h5', rfl⟩
    exact ⟨a, b, c, k, rfl, ⟨v1, h1, h1'⟩, ⟨v2, h2, h2'⟩, ⟨v3, h3, h3'⟩, v4, h4, v5, h5, h5'⟩
  · rintro ⟨a, b, c, k, rfl, ⟨v1, h1, h1'⟩, ⟨v2, h2, h2'⟩, ⟨v3, h3, h3'⟩, v4, h4, v5, h5, h5'⟩
    exact ⟨v1, h1, a, h1', v2, h2, b, h2', v3, h3, c, h3', v4, h4, v5, h5, k, h5', rfl⟩

theorem ofVector_iff {T : Type} {b : Build} {l : List T} {v : Vec3 T} : Vec3.ofVector b l = .ok v ↔
    b = .tests ∧ ∃ more, l = v.x :: v.y :: v.z :: more := by
  cases b with
  | release =>
    simp only [Vec3.ofVector, unbracedAbort, M.error_bind]
    simp
  | tests =>
    simp only [Vec3.ofVector, unbracedAbort, M.ok_bind, bind_iff, M.pure_eq, Except.ok.injEq, true_and]
    constructor
    · rintro ⟨x, h0, y, h1, z, h2, rfl⟩
      exact rd_three h0 h1 h2
    · rintro ⟨more, rfl⟩
      exact ⟨_, rfl, _, rfl, _, rfl, rfl⟩

theorem parseLevelset_iff {b : Build} {cv : Conv K} {field : Yaml} {f f' : InputFields K} :
    parseLevelset b cv field f = .ok f' ↔
    b = .tests ∧ ∃ (n : String) (c : Vec3 K) (r : K) (g : String) (more : List K), f' = { f with levelset := ⟨n, c, some r, g⟩ } ∧
      Has field ["name"] (· = .scalar n) ∧ Has field ["center"] (IsDoubles cv · (c.x :: c.y :: c.z :: more)) ∧
      Has field ["radius"] (IsDouble cv · r) ∧ Has field ["gradient", "scheme"] (· = .scalar g) := by
  simp only [parseLevelset, bind_iff, M.pure_eq, Except.ok.injEq, has_cons, has_nil, asDouble_iff, asString_iff, IsDoubles,
    asVector_iff (fun y x => asDouble_iff (cv := cv) (y := y) (x := x)), ofVector_iff]
  constructor
  · rintro ⟨v1, h1, a, h1', v2, h2, l, h2', c, ⟨rfl, more, rfl⟩, v3, h3, r, h3', v4, h4, v5, h5, k, h5', rfl⟩
    exact ⟨rfl, a, c, r, k, more, rfl, ⟨v1, h1, h1'⟩, ⟨v2, h2, h2'⟩, ⟨v3, h3, h3'⟩, v4, h4, v5, h5, h5'⟩
  · rintro ⟨rfl, a, c, r, k, more, rfl, ⟨v1, h1, h1'⟩, ⟨v2, h2, h2'⟩, ⟨v3, h3, h3'⟩, v4, h4, v5, h5, h5'⟩
    exact ⟨v1, h1, a, h1', v2, h2, _, h2', c, ⟨rfl, more, rfl⟩, v3, h3, r, h3', v4, h4, v5, h5, k, h5', rfl⟩

theorem parseSection_iff {es : List (String × Yaml)} {key : String} {p : Yaml → InputFields K → M (InputFields K)}
    {f f' : InputFields K} : parseSection (.map es) key p f = .ok f' ↔
      (Absent es key ∧ f' = f) ∨ ∃ v, (Yaml.map es).need key = .ok v ∧ p v f = .ok f' := by
  rcases ho : (Yaml.map es).get key with fl | o
  · simp only [Yaml.get] at ho; cases ho
  have hg := get_eq ho
  simp only [parseSection, Yaml.need, ho, M.ok_bind]
  cases o with
  | none =>
    have ha := hg.1.1 rfl
    simp [ha, eq_comm]
  | some v =>
    have ha : ¬ Absent es key := fun h => by have := hg.1.2 h; cases this
    simp [ha]

/-! ### C38 -/

/-- The five section names. -/
def sectionNames : List String := ["general", "grid", "time", "velocity", "levelset"]

/-- C38, order and unrelated entries: two documents in which each of the five names leads to the same node (or to none) give
the same outcome, whatever else they contain. -/
theorem C38_only_sections (b : Build) (cv : Conv K) (es es' : List (String × Yaml)) (f : InputFields K)
    (h : ∀ key ∈ sectionNames, ∀ v, At (.map es) [key] v ↔ At (.map es') [key] v) :
    parseDoc b cv (.map es) f = parseDoc b cv (.map es') f := by
  have hg : ∀ key ∈ sectionNames, (Yaml.map es).get key = (Yaml.map es').get key := by
    intro key hk
    rcases ho : (Yaml.map es).get key with fl | o
    · simp only [Yaml.get] at ho; cases ho
    rcases ho' : (Yaml.map es').get key with fl | o'
    · simp only [Yaml.get] at ho'; cases ho'
    congr 1
    apply Option.ext
    intro v
    rw [(get_eq ho).2 v, (get_eq ho').2 v]
    exact h key hk v
  have hs : ∀ key ∈ sectionNames, ∀ (p : Yaml → InputFields K → M (InputFields K)) f,
      parseSection (.map es) key p f = parseSection (.map es') key p f := by
    intro key hk p f
    unfold parseSection
    rw [hg key hk]
  unfold parseDoc
  simp only [hs "general" (by simp [sectionNames]), hs "grid" (by simp [sectionNames]), hs "time" (by simp [sectionNames]),
    hs "velocity" (by simp [sectionNames]), hs "levelset" (by simp [sectionNames])]

/-- C38, order: reordering the entries of a document with distinct keys does not change the outcome (result or fault). -/
theorem C38_order (b : Build) (cv : Conv K) (es es' : List (String × Yaml)) (f : InputFields K) (hp : es.Perm es')
    (hk : (es.map (·.1)).Nodup) : parseDoc b cv (.map es) f = parseDoc b cv (.map es') f := by
  refine C38_only_sections b cv es es' f fun key _ v => ?_
  have aux : ∀ es : List (String × Yaml), (es.map (·.1)).Nodup → (At (.map es) [key] v ↔ (key, v) ∈ es) := by
    intro es hk
    constructor
    · intro h
      cases h with
      | step hb h2 => cases h2; simp
    · intro h
      obtain ⟨s, t, rfl⟩ := List.append_of_mem h
      refine .step (fun e he hek => ?_) (.here _)
      rw [List.map_append, List.nodup_append] at hk
      exact hk.2.2 e.1 (List.mem_map_of_mem he) key (by simp) hek
  rw [aux es hk, aux es' ((hp.map _).nodup_iff.1 hk)]
  exact hp.mem_iff

theorem absent_iff {es : List (String × Yaml)} {key : String} : Absent es key ↔ ∀ v, (Yaml.map es).need key ≠ .ok v := by
  rcases ho : (Yaml.map es).get key with fl | o
  · simp only [Yaml.get] at ho; cases ho
  rw [← (get_eq ho).1]
  simp only [Yaml.need, ho, M.ok_bind]
  cases o <;> simp

/-- The steps of parsing a document. -/
theorem parseDoc_iff {b : Build} {cv : Conv K} {es : List (String × Yaml)} {f f' : InputFields K} :
    parseDoc b cv (.map es) f = .ok f' ↔ ∃ f1 f2 f3 f4,
      ((Absent es "general" ∧ f1 = f) ∨ ∃ v, (Yaml.map es).need "general" = .ok v ∧ parseGeneral v f = .ok f1) ∧
      ((Absent es "grid" ∧ f2 = f1) ∨ ∃ v, (Yaml.map es).need "grid" = .ok v ∧ parseGrid cv v f1 = .ok f2) ∧
      ((Absent es "time" ∧ f3 = f2) ∨ ∃ v, (Yaml.map es).need "time" = .ok v ∧ parseTime cv v f2 = .ok f3) ∧
      ((Absent es "velocity" ∧ f4 = f3) ∨ ∃ v, (Yaml.map es).need "velocity" = .ok v ∧ parseVelocity cv v f3 = .ok f4) ∧
      ((Absent es "levelset" ∧ f' = f4) ∨ ∃ v, (Yaml.map es).need "levelset" = .ok v ∧ parseLevelset b cv v f4 = .ok f') := by
  simp only [parseDoc, bind_iff, parseSection_iff]
  constructor
  · rintro ⟨f1, h1, f2, h2, f3, h3, f4, h4, h5⟩
    exact ⟨f1, f2, f3, f4, h1, h2, h3, h4, h5⟩
  · rintro ⟨f1, f2, f3, f4, h1, h2, h3, h4, h5⟩
    exact ⟨f1, h1, f2, h2, f3, h3, f4, h4, h5⟩

/-- C38, contents: when parsing a document succeeds, each section that is present has the documented contents, and its fields
are exactly those; the fields of each section that is absent are unchanged. -/
theorem C38_sections (b : Build) (cv : Conv K) (es : List (String × Yaml)) (f f' : InputFields K)
    (run : parseDoc b cv (.map es) f = .ok f') :
    (Absent es "general" ∧ f'.general = f.general ∨ HasGeneral (.map es) f') ∧
    (Absent es "grid" ∧ f'.grid = f.grid ∨ HasGrid cv (.map es) f') ∧
    (Absent es "time" ∧ f'.time = f.time ∨ HasTime cv (.map es) f') ∧
    (Absent es "velocity" ∧ f'.velocity = f.velocity ∨ HasVelocity cv (.map es) f') ∧
    (Absent es "levelset" ∧ f'.levelset = f.levelset ∨ HasLevelset cv (.map es) f') := by
  obtain ⟨f1, f2, f3, f4, h1, h2, h3, h4, h5⟩ := parseDoc_iff.1 run
  have k1 : (Absent es "general" ∧ f1 = f) ∨ ∃ v, (Yaml.map es).need "general" = .ok v ∧
      ∃ dir, f1 = { f with general := ⟨dir⟩ } ∧ Has v ["output_directory"] (· = .scalar dir) := by
    simpa only [parseGeneral_iff] using h1
  simp only [parseGrid_iff] at h2
  simp only [parseTime_iff] at h3
  simp only [parseVelocity_iff] at h4
  simp only [parseLevelset_iff] at h5
  have e5 : f'.general = f4.general ∧ f'.grid = f4.grid ∧ f'.time = f4.time ∧ f'.velocity = f4.velocity := by
    rcases h5 with ⟨-, rfl⟩ | ⟨_, -, -, _, _, _, _, _, rfl, -⟩ <;> exact ⟨rfl, rfl, rfl, rfl⟩
  have e4 : f4.general = f3.general ∧ f4.grid = f3.grid ∧ f4.time = f3.time ∧ f4.levelset = f3.levelset := by
    rcases h4 with ⟨-, rfl⟩ | ⟨_, -, _, _, _, _, rfl, -⟩ <;> exact ⟨rfl, rfl, rfl, rfl⟩
  have e3 : f3.general = f2.general ∧ f3.grid = f2.grid ∧ f3.velocity = f2.velocity ∧ f3.levelset = f2.levelset := by
    rcases h3 with ⟨-, rfl⟩ | ⟨_, -, _, _, _, _, rfl, -⟩ <;> exact ⟨rfl, rfl, rfl, rfl⟩
  have e2 : f2.general = f1.general ∧ f2.time = f1.time ∧ f2.velocity = f1.velocity ∧ f2.levelset = f1.levelset := by
    rcases h2 with ⟨-, rfl⟩ | ⟨_, -, _, _, _, _, _, _, _, _, _, _, rfl, -⟩ <;> exact ⟨rfl, rfl, rfl, rfl⟩
  have e1 : f1.grid = f.grid ∧ f1.time = f.time ∧ f1.velocity = f.velocity ∧ f1.levelset = f.levelset := by
    rcases k1 with ⟨-, rfl⟩ | ⟨_, -, _, rfl, -⟩ <;> exact ⟨rfl, rfl, rfl, rfl⟩
  refine ⟨?_, ?_, ?_, ?_, ?_⟩
  · have e : f'.general = f1.general := by rw [e5.1, e4.1, e3.1, e2.1]
    rcases k1 with ⟨ha, rfl⟩ | ⟨v, hv, dir, hf, hd⟩
    · exact .inl ⟨ha, e⟩
    · refine .inr ?_
      unfold HasGeneral
      rw [e, hf, has_cons]
      exact ⟨v, hv, hd⟩
  · have e : f'.grid = f2.grid := by rw [e5.2.1, e4.2.1, e3.2.1]
    rcases h2 with ⟨ha, rfl⟩ | ⟨v, hv, x0, x1, y0, y1, z0, z1, nx, ny, nz, more, hf, a1, a2, a3, a4, a5, a6, a7⟩
    · exact .inl ⟨ha, by rw [e, e1.1]⟩
    · refine .inr ⟨x0, x1, y0, y1, z0, z1, nx, ny, nz, more, by rw [e, hf], ?_⟩
      rw [has_cons, has_cons (key := "grid"), has_cons (key := "grid"), has_cons (key := "grid"), has_cons (key := "grid"),
        has_cons (key := "grid"), has_cons (key := "grid")]
      exact ⟨⟨v, hv, a1⟩, ⟨v, hv, a2⟩, ⟨v, hv, a3⟩, ⟨v, hv, a4⟩, ⟨v, hv, a5⟩, ⟨v, hv, a6⟩, ⟨v, hv, a7⟩⟩
  · have e : f'.time = f3.time := by rw [e5.2.2.1, e4.2.2.1]
    rcases h3 with ⟨ha, rfl⟩ | ⟨v, hv, a, b', c, k, hf, a1, a2, a3, a4⟩
    · exact .inl ⟨ha, by rw [e, e2.2.1, e1.2.1]⟩
    · refine .inr ⟨a, b', c, by rw [e, hf], by rw [e, hf], by rw [e, hf], ?_, ?_, ?_, ?_⟩
      · exact has_cons.2 ⟨v, hv, a1⟩
      · exact has_cons.2 ⟨v, hv, a2⟩
      · exact has_cons.2 ⟨v, hv, a3⟩
      · rw [e, hf]; exact has_cons.2 ⟨v, hv, a4⟩
  · have e : f'.velocity = f4.velocity := e5.2.2.2
    rcases h4 with ⟨ha, rfl⟩ | ⟨v, hv, a, b', c, k, hf, a1, a2, a3, a4⟩
    · exact .inl ⟨ha, by rw [e, e3.2.2.1, e2.2.2.1, e1.2.2.1]⟩
    · refine .inr ?_
      unfold HasVelocity
      rw [e, hf]
      exact ⟨has_cons.2 ⟨v, hv, a1⟩, has_cons.2 ⟨v, hv, a2⟩, has_cons.2 ⟨v, hv, a3⟩, has_cons.2 ⟨v, hv, a4⟩⟩
  · rcases h5 with ⟨ha, rfl⟩ | ⟨v, hv, -, n, c, r, k, more, hf, a1, a2, a3, a4⟩
    · exact .inl ⟨ha, by rw [e4.2.2.2, e3.2.2.2, e2.2.2.2, e1.2.2.2]⟩
    · refine .inr ⟨r, more, by rw [hf], ?_⟩
      rw [hf]
      exact ⟨has_cons.2 ⟨v, hv, a1⟩, has_cons.2 ⟨v, hv, a2⟩, has_cons.2 ⟨v, hv, a3⟩, has_cons.2 ⟨v, hv, a4⟩⟩

/-- C38, any subset of sections (test build): if each section is absent or has the documented contents of `want`, parsing
succeeds from every starting state, and afterwards each present section's fields are those of `want` and each absent
section's fields are the old ones.
Missing: the non-test build, where a document with a `levelset` section is never accepted (`C38_release_false`). -/
theorem C38_any_subset_partial (cv : Conv K) (es : List (String × Yaml)) (f want : InputFields K)
    (h1 : Absent es "general" ∨ HasGeneral (.map es) want) (h2 : Absent es "grid" ∨ HasGrid cv (.map es) want)
    (h3 : Absent es "time" ∨ HasTime cv (.map es) want) (h4 : Absent es "velocity" ∨ HasVelocity cv (.map es) want)
    (h5 : Absent es "levelset" ∨ HasLevelset cv (.map es) want) :
    ∃ f', parseDoc .tests cv (.map es) f = .ok f' ∧
      (Absent es "general" ∧ f'.general = f.general ∨ HasGeneral (.map es) want ∧ f'.general = want.general) ∧
      (Absent es "grid" ∧ f'.grid = f.grid ∨ HasGrid cv (.map es) want ∧ f'.grid = want.grid) ∧
      (Absent es "time" ∧ f'.time = f.time ∨ HasTime cv (.map es) want ∧ f'.time = want.time) ∧
      (Absent es "velocity" ∧ f'.velocity = f.velocity ∨ HasVelocity cv (.map es) want ∧ f'.velocity = want.velocity) ∧
      (Absent es "levelset" ∧ f'.levelset = f.levelset ∨ HasLevelset cv (.map es) want ∧ f'.levelset = want.levelset) := by
  have k1 : ∀ f : InputFields K, ∃ g, ((Absent es "general" ∧ g = f.general) ∨ HasGeneral (.map es) want ∧ g = want.general) ∧
      ((Absent es "general" ∧ { f with general := g } = f) ∨
        ∃ v, (Yaml.map es).need "general" = .ok v ∧ parseGeneral v f = .ok { f with general := g }) := by
    intro f
    rcases h1 with ha | hh
    · exact ⟨f.general, .inl ⟨ha, rfl⟩, .inl ⟨ha, rfl⟩⟩
    · obtain ⟨v, hv, hd⟩ := has_cons.1 hh
      exact ⟨want.general, .inr ⟨hh, rfl⟩, .inr ⟨v, hv, parseGeneral_iff.2 ⟨_, rfl, hd⟩⟩⟩
  have k2 : ∀ f : InputFields K, ∃ g, ((Absent es "grid" ∧ g = f.grid) ∨ HasGrid cv (.map es) want ∧ g = want.grid) ∧
      ((Absent es "grid" ∧ { f with grid := g } = f) ∨
        ∃ v, (Yaml.map es).need "grid" = .ok v ∧ parseGrid cv v f = .ok { f with grid := g }) := by
    intro f
    rcases h2 with ha | hh
    · exact ⟨f.grid, .inl ⟨ha, rfl⟩, .inl ⟨ha, rfl⟩⟩
    · obtain ⟨x0, x1, y0, y1, z0, z1, nx, ny, nz, more, hw, a1, a2, a3, a4, a5, a6, a7⟩ := id hh
      obtain ⟨v, hv, a1⟩ := has_cons.1 a1
      obtain ⟨v2, hv2, a2⟩ := has_cons.1 a2
      obtain ⟨v3, hv3, a3⟩ := has_cons.1 a3
      obtain ⟨v4, hv4, a4⟩ := has_cons.1 a4
      obtain ⟨v5, hv5, a5⟩ := has_cons.1 a5
      obtain ⟨v6, hv6, a6⟩ := has_cons.1 a6
      obtain ⟨v7, hv7, a7⟩ := has_cons.1 a7
      cases need_unique hv hv2; cases need_unique hv hv3; cases need_unique hv hv4
      cases need_unique hv hv5; cases need_unique hv hv6; cases need_unique hv hv7
      exact ⟨want.grid, .inr ⟨hh, rfl⟩, .inr ⟨v, hv, parseGrid_iff.2 ⟨x0, x1, y0, y1, z0, z1, nx, ny, nz, more, by rw [hw],
        a1, a2, a3, a4, a5, a6, a7⟩⟩⟩
  have k3 : ∀ f : InputFields K, ∃ g, ((Absent es "time" ∧ g = f.time) ∨ HasTime cv (.map es) want ∧ g = want.time) ∧
      ((Absent es "time" ∧ { f with time := g } = f) ∨
        ∃ v, (Yaml.map es).need "time" = .ok v ∧ parseTime cv v f = .ok { f with time := g }) := by
    intro f
    rcases h3 with ha | hh
    · exact ⟨f.time, .inl ⟨ha, rfl⟩, .inl ⟨ha, rfl⟩⟩
    · obtain ⟨a, b, c, w1, w2, w3, a1, a2, a3, a4⟩ := id hh
      obtain ⟨v, hv, a1⟩ := has_cons.1 a1
      obtain ⟨v2, hv2, a2⟩ := has_cons.1 a2
      obtain ⟨v3, hv3, a3⟩ := has_cons.1 a3
      obtain ⟨v4, hv4, a4⟩ := has_cons.1 a4
      cases need_unique hv hv2; cases need_unique hv hv3; cases need_unique hv hv4
      exact ⟨want.time, .inr ⟨hh, rfl⟩, .inr ⟨v, hv, parseTime_iff.2 ⟨a, b, c, _, by rw [← w1, ← w2, ← w3], a1, a2, a3, a4⟩⟩⟩
  have k4 : ∀ f : InputFields K, ∃ g,
      ((Absent es "velocity" ∧ g = f.velocity) ∨ HasVelocity cv (.map es) want ∧ g = want.velocity) ∧
      ((Absent es "velocity" ∧ { f with velocity := g } = f) ∨
        ∃ v, (Yaml.map es).need "velocity" = .ok v ∧ parseVelocity cv v f = .ok { f with velocity := g }) := by
    intro f
    rcases h4 with ha | hh
    · exact ⟨f.velocity, .inl ⟨ha, rfl⟩, .inl ⟨ha, rfl⟩⟩
    · obtain ⟨a1, a2, a3, a4⟩ := id hh
      obtain ⟨v, hv, a1⟩ := has_cons.1 a1
      obtain ⟨v2, hv2, a2⟩ := has_cons.1 a2
      obtain ⟨v3, hv3, a3⟩ := has_cons.1 a3
      obtain ⟨v4, hv4, a4⟩ := has_cons.1 a4
      cases need_unique hv hv2; cases need_unique hv hv3; cases need_unique hv hv4
      exact ⟨want.velocity, .inr ⟨hh, rfl⟩, .inr ⟨v, hv, parseVelocity_iff.2 ⟨_, _, _, _, rfl, a1, a2, a3, a4⟩⟩⟩
  have k5 : ∀ f : InputFields K, ∃ g,
      ((Absent es "levelset" ∧ g = f.levelset) ∨ HasLevelset cv (.map es) want ∧ g = want.levelset) ∧
      ((Absent es "levelset" ∧ { f with levelset := g } = f) ∨
        ∃ v, (Yaml.map es).need "levelset" = .ok v ∧ parseLevelset .tests cv v f = .ok { f with levelset := g }) := by
    intro f
    rcases h5 with ha | hh
    · exact ⟨f.levelset, .inl ⟨ha, rfl⟩, .inl ⟨ha, rfl⟩⟩
    · obtain ⟨r, more, w, a1, a2, a3, a4⟩ := id hh
      obtain ⟨v, hv, a1⟩ := has_cons.1 a1
      obtain ⟨v2, hv2, a2⟩ := has_cons.1 a2
      obtain ⟨v3, hv3, a3⟩ := has_cons.1 a3
      obtain ⟨v4, hv4, a4⟩ := has_cons.1 a4
      cases need_unique hv hv2; cases need_unique hv hv3; cases need_unique hv hv4
      exact ⟨want.levelset, .inr ⟨hh, rfl⟩, .inr ⟨v, hv, parseLevelset_iff.2 ⟨rfl, _, _, r, _, more, by rw [← w],
        a1, a2, a3, a4⟩⟩⟩
  obtain ⟨g1, p1, q1⟩ := k1 f
  obtain ⟨g2, p2, q2⟩ := k2 { f with general := g1 }
  obtain ⟨g3, p3, q3⟩ := k3 { f with general := g1, grid := g2 }
  obtain ⟨g4, p4, q4⟩ := k4 { f with general := g1, grid := g2, time := g3 }
  obtain ⟨g5, p5, q5⟩ := k5 { f with general := g1, grid := g2, time := g3, velocity := g4 }
  exact ⟨⟨g1, g2, g3, g4, g5⟩, parseDoc_iff.2 ⟨_, _, _, _, q1, q2, q3, q4, q5⟩, p1, p2, p3, p4, p5⟩

/-- C38 is false in the non-test build: a document with a `levelset` section never parses successfully; with documented
contents (other sections absent or as documented) the process ends. -/
theorem C38_release_false (cv : Conv K) (es : List (String × Yaml)) (f want : InputFields K)
    (h1 : Absent es "general" ∨ HasGeneral (.map es) want) (h2 : Absent es "grid" ∨ HasGrid cv (.map es) want)
    (h3 : Absent es "time" ∨ HasTime cv (.map es) want) (h4 : Absent es "velocity" ∨ HasVelocity cv (.map es) want)
    (h5 : HasLevelset cv (.map es) want) : parseDoc .release cv (.map es) f = .error .exited := by
  obtain ⟨f', run, -⟩ := C38_any_subset_partial cv es f want h1 h2 h3 h4 (.inr h5)
  obtain ⟨f1, f2, f3, f4, q1, q2, q3, q4, q5⟩ := parseDoc_iff.1 run
  have e : ∀ (key : String) (p : Yaml → InputFields K → M (InputFields K)) (a b : InputFields K),
      ((Absent es key ∧ b = a) ∨ ∃ v, (Yaml.map es).need key = .ok v ∧ p v a = .ok b) →
      parseSection (.map es) key p a = .ok b := fun key p a b h => parseSection_iff.2 h
  unfold parseDoc
  rw [e _ _ _ _ q1, M.ok_bind, e _ _ _ _ q2, M.ok_bind, e _ _ _ _ q3, M.ok_bind, e _ _ _ _ q4, M.ok_bind]
  rcases q5 with ⟨ha, -⟩ | ⟨v, hv, q5⟩
  · obtain ⟨-, -, -, hn, -⟩ := h5
    obtain ⟨v, hv, -⟩ := has_cons.1 hn
    exact absurd hv (absent_iff.1 ha v)
  · rcases ho : (Yaml.map es).get "levelset" with fl | o
    · simp only [Yaml.get] at ho; cases ho
    cases o with
    | none => simp only [Yaml.need, ho, M.ok_bind] at hv; cases hv
    | some w =>
      simp only [Yaml.need, ho, M.ok_bind] at hv
      cases hv
      simp only [parseSection, ho, M.ok_bind]
      obtain ⟨-, n, c, r, k, more, -, a1, a2, a3, a4⟩ := parseLevelset_iff.1 q5
      unfold parseLevelset
      obtain ⟨v1, b1, b1'⟩ := has_cons.1 a1
      obtain ⟨v2, b2, b2'⟩ := has_cons.1 a2
      rw [has_nil] at b1' b2'
      rw [b1, M.ok_bind, asString_iff.2 b1', M.ok_bind]
      simp only
      rw [b2, M.ok_bind, (asVector_iff (fun y x => asDouble_iff (cv := cv) (y := y) (x := x))).2 b2', M.ok_bind]
      rfl

theorem at_unique {path : List String} : ∀ {y a b : Yaml}, At y path a → At y path b → a = b := by
  induction path with
  | nil => intro y a b h1 h2; rw [at_nil.1 h1, at_nil.1 h2]
  | cons k path ih =>
    intro y a b h1 h2
    obtain ⟨v, hv, h1⟩ := at_cons.1 h1
    obtain ⟨w, hw, h2⟩ := at_cons.1 h2
    cases need_unique hv hw
    exact ih h1 h2

theorem has_unique {y : Yaml} {path : List String} {T : Type} {P : Yaml → T → Prop}
    (hP : ∀ y a b, P y a → P y b → a = b) {a b : T} (h1 : Has y path (P · a)) (h2 : Has y path (P · b)) : a = b := by
  obtain ⟨l1, p1, q1⟩ := h1
  obtain ⟨l2, p2, q2⟩ := h2
  cases at_unique p1 p2
  exact hP _ _ _ q1 q2

theorem scalar_unique (y : Yaml) (a b : String) (h1 : y = .scalar a) (h2 : y = .scalar b) : a = b := by
  rw [h1] at h2; cases h2; rfl

theorem isDouble_unique {cv : Conv K} (y : Yaml) (a b : K) (h1 : IsDouble cv y a) (h2 : IsDouble cv y b) : a = b := by
  rw [← asDouble_iff] at h1 h2
  rw [h1] at h2; cases h2; rfl

theorem isDoubles_unique {cv : Conv K} (y : Yaml) (a b : List K) (h1 : IsDoubles cv y a) (h2 : IsDoubles cv y b) : a = b := by
  unfold IsDoubles at h1 h2
  rw [← asVector_iff (fun y x => asDouble_iff (cv := cv) (y := y) (x := x))] at h1 h2
  rw [h1] at h2; cases h2; rfl

theorem isInts_unique {cv : Conv K} (y : Yaml) (a b : List ℤ) (h1 : IsInts cv y a) (h2 : IsInts cv y b) : a = b := by
  unfold IsInts at h1 h2
  rw [← asVector_iff (fun y x => asInt_iff (cv := cv) (y := y) (x := x))] at h1 h2
  rw [h1] at h2; cases h2; rfl

/-- The documented contents determine the fields. -/
theorem hasGrid_unique {cv : Conv K} {doc : Yaml} {f g : InputFields K} (h1 : HasGrid cv doc f) (h2 : HasGrid cv doc g) :
    f.grid = g.grid := by
  obtain ⟨x0, x1, y0, y1, z0, z1, nx, ny, nz, more, e, a1, a2, a3, a4, a5, a6, a7⟩ := h1
  obtain ⟨x0', x1', y0', y1', z0', z1', nx', ny', nz', more', e', a1', a2', a3', a4', a5', a6', a7'⟩ := h2
  have e7 := has_unique isInts_unique a7 a7'
  simp only [List.cons.injEq] at e7
  rw [e, e', has_unique isDouble_unique a1 a1', has_unique isDouble_unique a2 a2', has_unique isDouble_unique a3 a3',
    has_unique isDouble_unique a4 a4', has_unique isDouble_unique a5 a5', has_unique isDouble_unique a6 a6', e7.1, e7.2.1,
    e7.2.2.1]

theorem hasTime_unique {cv : Conv K} {doc : Yaml} {f g : InputFields K} (h1 : HasTime cv doc f) (h2 : HasTime cv doc g) :
    f.time = g.time := by
  obtain ⟨a, b, c, e1, e2, e3, a1, a2, a3, a4⟩ := h1
  obtain ⟨a', b', c', e1', e2', e3', a1', a2', a3', a4'⟩ := h2
  have w : ∀ t : TimeInputs K, t = ⟨t.start, t.end', t.dt, t.constantDt⟩ := fun t => rfl
  rw [w f.time, w g.time, e1, e2, e3, e1', e2', e3', has_unique isDouble_unique a1 a1', has_unique isDouble_unique a2 a2',
    has_unique isDouble_unique a3 a3', has_unique scalar_unique a4 a4']

theorem hasVelocity_unique {cv : Conv K} {doc : Yaml} {f g : InputFields K} (h1 : HasVelocity cv doc f)
    (h2 : HasVelocity cv doc g) : f.velocity = g.velocity := by
  obtain ⟨a1, a2, a3, a4⟩ := h1
  obtain ⟨a1', a2', a3', a4'⟩ := h2
  have w : ∀ t : VelocityInputs K, t = ⟨t.name, t.vector, t.center, t.gradientScheme⟩ := fun t => rfl
  rw [w f.velocity, w g.velocity, has_unique scalar_unique a1 a1', has_unique isDoubles_unique a2 a2',
    has_unique isDoubles_unique a3 a3', has_unique scalar_unique a4 a4']

theorem hasLevelset_unique {cv : Conv K} {doc : Yaml} {f g : InputFields K} (h1 : HasLevelset cv doc f)
    (h2 : HasLevelset cv doc g) : f.levelset = g.levelset := by
  obtain ⟨r, m, e, a1, a2, a3, a4⟩ := h1
  obtain ⟨r', m', e', a1', a2', a3', a4'⟩ := h2
  have w : ∀ t : LevelsetFields K, t = ⟨t.name, t.center, t.radius, t.gradientScheme⟩ := fun t => rfl
  have e2 := has_unique isDoubles_unique a2 a2'
  simp only [List.cons.injEq] at e2
  have ec : f.levelset.center = g.levelset.center := Vec3.ext e2.1 e2.2.1 e2.2.2.1
  rw [w f.levelset, w g.levelset, e, e', ec, has_unique scalar_unique a1 a1', has_unique isDouble_unique a3 a3',
    has_unique scalar_unique a4 a4']

/-- Agreement on a section carries over to everything inside it. -/
theorem has_transfer {d d' : Yaml} {key : String} (h : ∀ v, At d [key] v ↔ At d' [key] v) {path : List String}
    {P : Yaml → Prop} (hh : Has d (key :: path) P) : Has d' (key :: path) P := by
  obtain ⟨v, hv, hp⟩ := has_cons.1 hh
  exact has_cons.2 ⟨v, need_iff.2 ((h v).1 (need_iff.1 hv)), hp⟩

theorem absent_transfer {es es' : List (String × Yaml)} {key : String}
    (h : ∀ v, At (.map es) [key] v ↔ At (.map es') [key] v) : Absent es key ↔ Absent es' key := by
  rw [absent_iff, absent_iff]
  simp only [ne_eq, need_iff, h]

theorem not_absent_of_has {es : List (String × Yaml)} {key : String} {path : List String} {P : Yaml → Prop}
    (h : Has (.map es) (key :: path) P) : ¬ Absent es key := by
  obtain ⟨v, hv, -⟩ := has_cons.1 h
  exact fun ha => absent_iff.1 ha v hv

/-- C38, own fields only: two documents that agree on one section, parsed from states that agree on that section's fields,
end with equal fields for that section, whatever the other sections are. -/
theorem C38_no_interference (b b' : Build) (cv : Conv K) (es es' : List (String × Yaml)) (f g f' g' : InputFields K)
    (run : parseDoc b cv (.map es) f = .ok f') (run' : parseDoc b' cv (.map es') g = .ok g') :
    ((∀ v, At (.map es) ["general"] v ↔ At (.map es') ["general"] v) → f.general = g.general → f'.general = g'.general) ∧
    ((∀ v, At (.map es) ["grid"] v ↔ At (.map es') ["grid"] v) → f.grid = g.grid → f'.grid = g'.grid) ∧
    ((∀ v, At (.map es) ["time"] v ↔ At (.map es') ["time"] v) → f.time = g.time → f'.time = g'.time) ∧
    ((∀ v, At (.map es) ["velocity"] v ↔ At (.map es') ["velocity"] v) → f.velocity = g.velocity →
      f'.velocity = g'.velocity) ∧
    ((∀ v, At (.map es) ["levelset"] v ↔ At (.map es') ["levelset"] v) → f.levelset = g.levelset →
      f'.levelset = g'.levelset) := by
  obtain ⟨a1, a2, a3, a4, a5⟩ := C38_sections b cv es f f' run
  obtain ⟨b1, b2, b3, b4, b5⟩ := C38_sections b' cv es' g g' run'
  refine ⟨fun h e => ?_, fun h e => ?_, fun h e => ?_, fun h e => ?_, fun h e => ?_⟩
  · rcases a1 with ⟨ha, ea⟩ | ha <;> rcases b1 with ⟨hb, eb⟩ | hb
    · rw [ea, eb, e]
    · exact absurd ((absent_transfer h).1 ha) (not_absent_of_has hb)
    · exact absurd ((absent_transfer h).2 hb) (not_absent_of_has ha)
    · have := has_unique scalar_unique (has_transfer h ha) hb
      have w : ∀ t : GeneralInputs, t = ⟨t.outputDirectory⟩ := fun t => rfl
      rw [w f'.general, w g'.general, this]
  · rcases a2 with ⟨ha, ea⟩ | ha <;> rcases b2 with ⟨hb, eb⟩ | hb
    · rw [ea, eb, e]
    · obtain ⟨_, _, _, _, _, _, _, _, _, _, _, hb, -⟩ := hb
      exact absurd ((absent_transfer h).1 ha) (not_absent_of_has hb)
    · obtain ⟨_, _, _, _, _, _, _, _, _, _, _, ha, -⟩ := ha
      exact absurd ((absent_transfer h).2 hb) (not_absent_of_has ha)
    · obtain ⟨x0, x1, y0, y1, z0, z1, nx, ny, nz, more, w, c1, c2, c3, c4, c5, c6, c7⟩ := ha
      exact hasGrid_unique (doc := .map es') ⟨x0, x1, y0, y1, z0, z1, nx, ny, nz, more, w, has_transfer h c1,
        has_transfer h c2, has_transfer h c3, has_transfer h c4, has_transfer h c5, has_transfer h c6, has_transfer h c7⟩ hb
  · rcases a3 with ⟨ha, ea⟩ | ha <;> rcases b3 with ⟨hb, eb⟩ | hb
    · rw [ea, eb, e]
    · obtain ⟨_, _, _, _, _, _, hb, -⟩ := hb
      exact absurd ((absent_transfer h).1 ha) (not_absent_of_has hb)
    · obtain ⟨_, _, _, _, _, _, ha, -⟩ := ha
      exact absurd ((absent_transfer h).2 hb) (not_absent_of_has ha)
    · obtain ⟨x0, x1, y0, w1, w2, w3, c1, c2, c3, c4⟩ := ha
      exact hasTime_unique (doc := .map es') ⟨x0, x1, y0, w1, w2, w3, has_transfer h c1,
        has_transfer h c2, has_transfer h c3, has_transfer h c4⟩ hb
  · rcases a4 with ⟨ha, ea⟩ | ha <;> rcases b4 with ⟨hb, eb⟩ | hb
    · rw [ea, eb, e]
    · exact absurd ((absent_transfer h).1 ha) (not_absent_of_has hb.1)
    · exact absurd ((absent_transfer h).2 hb) (not_absent_of_has ha.1)
    · obtain ⟨c1, c2, c3, c4⟩ := ha
      exact hasVelocity_unique (doc := .map es') ⟨has_transfer h c1, has_transfer h c2, has_transfer h c3,
        has_transfer h c4⟩ hb
  · rcases a5 with ⟨ha, ea⟩ | ha <;> rcases b5 with ⟨hb, eb⟩ | hb
    · rw [ea, eb, e]
    · obtain ⟨_, _, _, hb, -⟩ := hb
      exact absurd ((absent_transfer h).1 ha) (not_absent_of_has hb)
    · obtain ⟨_, _, _, ha, -⟩ := ha
      exact absurd ((absent_transfer h).2 hb) (not_absent_of_has ha)
    · obtain ⟨r, m, w, c1, c2, c3, c4⟩ := ha
      exact hasLevelset_unique (doc := .map es') ⟨r, m, w, has_transfer h c1, has_transfer h c2, has_transfer h c3,
        has_transfer h c4⟩ hb

/-- The list `cells` is indexed without a check: with fewer than three entries parsing the section reads outside it. -/
theorem C38_short_cells (cv : Conv K) (field : Yaml) (ns : List ℤ) (hlen : ns.length < 3)
    (h : Has field ["cells"] (IsInts cv · ns)) : cellsField cv field 2 = .error .oob := by
  obtain ⟨v, hv, hn⟩ := has_cons.1 h
  rw [has_nil] at hn
  unfold cellsField
  rw [hv, M.ok_bind, (asVector_iff (fun y x => asInt_iff (cv := cv) (y := y) (x := x))).2 hn, M.ok_bind]
  exact rd_oob (.inr (by omega))

/-! ### Instances -/

/-- Conversions for the instances: a few numerals. -/
def demoConv : Conv ℚ where
  dbl t := if t = "0" then some 0 else if t = "1" then some 1 else if t = "0.5" then some (1 / 2) else none
  int t := if t = "10" then some 10 else if t = "1" then some 1 else none

/-- A document with all five sections, as `tests/inputs`. -/
def demoDoc : List (String × Yaml) :=
  [("levelset", .map [("name", .scalar "CIRCLE"), ("center", .seq [.scalar "0", .scalar "0", .scalar "0"]),
      ("radius", .scalar "0.5"), ("gradient", .map [("scheme", .scalar "CENTRAL")])]),
   ("general", .map [("output_directory", .scalar "out")]),
   ("grid", .map [("box", .map [("x_min", .scalar "0"), ("x_max", .scalar "1"), ("y_min", .scalar "0"), ("y_max", .scalar "1"),
      ("z_min", .scalar "0"), ("z_max", .scalar "1")]), ("cells", .seq [.scalar "10", .scalar "10", .scalar "1"])]),
   ("time", .map [("start", .scalar "0"), ("end", .scalar "1"), ("dt", .scalar "0.5"), ("constant_dt", .scalar "NO")]),
   ("velocity", .map [("name", .scalar "CIRCULAR"), ("vector", .seq [.scalar "1", .scalar "0", .scalar "0"]),
      ("center", .seq [.scalar "0", .scalar "0", .scalar "0"]), ("gradient", .map [("scheme", .scalar "ANALYTICAL")])])]

/-- What it says. -/
def demoWant : InputFields ℚ :=
  ⟨⟨"out"⟩, ⟨some 0, some 1, some 0, some 1, some 0, some 1, some 10, some 10, some 1⟩,
    ⟨some 0, some 1, some (1 / 2), "NO"⟩, ⟨"CIRCULAR", [1, 0, 0], [0, 0, 0], "ANALYTICAL"⟩,
    ⟨"CIRCLE", ⟨0, 0, 0⟩, some (1 / 2), "CENTRAL"⟩⟩

/-- Parsing it gives that. -/
theorem demo_parse : parseDoc .tests demoConv (.map demoDoc) InputFields.mk' = .ok demoWant := by
  rfl

theorem demo_has : HasGeneral (.map demoDoc) demoWant ∧ HasGrid demoConv (.map demoDoc) demoWant ∧
    HasTime demoConv (.map demoDoc) demoWant ∧ HasVelocity demoConv (.map demoDoc) demoWant ∧
    HasLevelset demoConv (.map demoDoc) demoWant := by
  obtain ⟨h1, h2, h3, h4, h5⟩ := C38_sections .tests demoConv demoDoc _ _ demo_parse
  have na : ∀ key ∈ sectionNames, ¬ Absent demoDoc key := by
    intro key hk ha
    have hm : key ∈ demoDoc.map (·.1) := by
      have hk' : demoDoc.map (·.1) = ["levelset", "general", "grid", "time", "velocity"] := rfl
      rw [hk']
      simp only [sectionNames, List.mem_cons, List.not_mem_nil, or_false] at hk ⊢
      tauto
    obtain ⟨e, he, rfl⟩ := List.mem_map.1 hm
    exact ha e he rfl
  exact ⟨h1.resolve_left fun h => na _ (by simp [sectionNames]) h.1, h2.resolve_left fun h => na _ (by simp [sectionNames]) h.1,
    h3.resolve_left fun h => na _ (by simp [sectionNames]) h.1, h4.resolve_left fun h => na _ (by simp [sectionNames]) h.1,
    h5.resolve_left fun h => na _ (by simp [sectionNames]) h.1⟩

/-- Instance of the order theorem: the sections reversed. -/
example : parseDoc .tests demoConv (.map demoDoc.reverse) InputFields.mk' = .ok demoWant := by
  rw [← C38_order .tests demoConv demoDoc demoDoc.reverse InputFields.mk' demoDoc.reverse_perm.symm
    (by rw [show demoDoc.map (·.1) = ["levelset", "general", "grid", "time", "velocity"] from rfl]; decide)]
  exact demo_parse

/-- Instance with a subset of the sections: without `grid` and `time`, started from the full result, those fields stay. -/
example : ∃ f', parseDoc .tests demoConv (.map (demoDoc.filter fun e => e.1 ≠ "grid" ∧ e.1 ≠ "time")) demoWant = .ok f' ∧
    f'.grid = demoWant.grid ∧ f'.time = demoWant.time := by
  refine ⟨_, rfl, rfl, rfl⟩

/-- Instance of `C38_any_subset_partial` and of `C38_release_false`: the same document in both builds. -/
example : (∃ f', parseDoc .tests demoConv (.map demoDoc) InputFields.mk' = .ok f' ∧ f'.velocity = demoWant.velocity) ∧
    parseDoc .release demoConv (.map demoDoc) InputFields.mk' = .error .exited := by
  obtain ⟨h1, h2, h3, h4, h5⟩ := demo_has
  obtain ⟨f', e, -, -, -, e4, -⟩ := C38_any_subset_partial demoConv demoDoc InputFields.mk' demoWant (.inr h1) (.inr h2) (.inr h3)
    (.inr h4) (.inr h5)
  refine ⟨⟨f', e, ?_⟩, C38_release_false demoConv demoDoc _ demoWant (.inr h1) (.inr h2) (.inr h3) (.inr h4) h5⟩
  rcases e4 with ⟨ha, -⟩ | ⟨-, e4⟩
  · exact absurd ha (not_absent_of_has h4.1)
  · exact e4

/-- Instance of `C38_no_interference`: the velocity section is parsed the same without the other sections. -/
example : ∃ f', parseDoc .tests demoConv (.map (demoDoc.drop 4)) InputFields.mk' = .ok f' ∧ f'.velocity = demoWant.velocity := by
  obtain ⟨f', e⟩ : ∃ f', parseDoc .tests demoConv (.map (demoDoc.drop 4)) InputFields.mk' = .ok f' := ⟨_, rfl⟩
  refine ⟨f', e, ((C38_no_interference _ _ _ _ _ _ _ _ _ e demo_parse).2.2.2.1 ?_ rfl)⟩
  intro v
  rw [← need_iff, ← need_iff]
  rfl

/-- Instance of a list of cells that is too short. -/
example : cellsField demoConv (.map [("cells", .seq [.scalar "10", .scalar "10"])]) 2 = .error .oob :=
  C38_short_cells demoConv _ [10, 10] (by decide) (has_cons.2 ⟨_, rfl, has_nil.2 ⟨_, rfl,
    .cons ⟨"10", rfl, rfl⟩ (.cons ⟨"10", rfl, rfl⟩ .nil)⟩⟩)

/-- Instance of `C38_only_sections`: an unknown section at the beginning changes nothing. -/
example (b : Build) (f : InputFields ℚ) :
    parseDoc b demoConv (.map (("other", .scalar "1") :: demoDoc)) f = parseDoc b demoConv (.map demoDoc) f := by
  refine C38_only_sections b demoConv _ _ f fun key hk v => ?_
  rw [← need_iff, ← need_iff]
  simp only [sectionNames, List.mem_cons, List.not_mem_nil, or_false] at hk
  rcases hk with rfl | rfl | rfl | rfl | rfl <;> rfl

end Gals.Props
