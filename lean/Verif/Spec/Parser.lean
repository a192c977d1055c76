import Verif.Model.Parser

/-!
# Specification vocabulary for input documents
-/

namespace Gals.Spec

open Gals

/-- `At y path leaf`: following the keys of `path` from `y`, each time taking the first entry with that key, leads to
`leaf`. -/
inductive At : Yaml → List String → Yaml → Prop
  | here (y : Yaml) : At y [] y
  | step {before after : List (String × Yaml)} {key : String} {v : Yaml} {path : List String} {leaf : Yaml} :
      (∀ e ∈ before, e.1 ≠ key) → At v path leaf → At (.map (before ++ (key, v) :: after)) (key :: path) leaf

/-- The document has no section of that name. -/
def Absent (entries : List (String × Yaml)) (key : String) : Prop := ∀ e ∈ entries, e.1 ≠ key

/-- The node is a number. -/
def IsDouble {K : Type} (cv : Conv K) (y : Yaml) (x : K) : Prop := ∃ t, y = .scalar t ∧ cv.dbl t = some x

/-- The node is an integer. -/
def IsInt {K : Type} (cv : Conv K) (y : Yaml) (n : ℤ) : Prop := ∃ t, y = .scalar t ∧ cv.int t = some n

/-- The node is a list of numbers. -/
def IsDoubles {K : Type} (cv : Conv K) (y : Yaml) (xs : List K) : Prop := ∃ l, y = .seq l ∧ List.Forall₂ (IsDouble cv) l xs

/-- The node is a list of integers. -/
def IsInts {K : Type} (cv : Conv K) (y : Yaml) (ns : List ℤ) : Prop := ∃ l, y = .seq l ∧ List.Forall₂ (IsInt cv) l ns

/-- Something at a path satisfies `P`. -/
def Has (y : Yaml) (path : List String) (P : Yaml → Prop) : Prop := ∃ leaf, At y path leaf ∧ P leaf

/-- The documented contents of section `general`. -/
def HasGeneral {K : Type} (doc : Yaml) (f : InputFields K) : Prop :=
  Has doc ["general", "output_directory"] (· = .scalar f.general.outputDirectory)

/-- The documented contents of section `grid`: six box bounds and at least three cell counts. -/
def HasGrid {K : Type} (cv : Conv K) (doc : Yaml) (f : InputFields K) : Prop :=
  ∃ (x0 x1 y0 y1 z0 z1 : K) (nx ny nz : ℤ) (more : List ℤ),
    f.grid = ⟨some x0, some x1, some y0, some y1, some z0, some z1, some nx, some ny, some nz⟩ ∧
    Has doc ["grid", "box", "x_min"] (IsDouble cv · x0) ∧ Has doc ["grid", "box", "x_max"] (IsDouble cv · x1) ∧
    Has doc ["grid", "box", "y_min"] (IsDouble cv · y0) ∧ Has doc ["grid", "box", "y_max"] (IsDouble cv · y1) ∧
    Has doc ["grid", "box", "z_min"] (IsDouble cv · z0) ∧ Has doc ["grid", "box", "z_max"] (IsDouble cv · z1) ∧
    Has doc ["grid", "cells"] (IsInts cv · (nx :: ny :: nz :: more))

/-- The documented contents of section `time`. -/
def HasTime {K : Type} (cv : Conv K) (doc : Yaml) (f : InputFields K) : Prop :=
  ∃ (start end' dt : K), f.time.start = some start ∧ f.time.end' = some end' ∧ f.time.dt = some dt ∧
    Has doc ["time", "start"] (IsDouble cv · start) ∧ Has doc ["time", "end"] (IsDouble cv · end') ∧
    Has doc ["time", "dt"] (IsDouble cv · dt) ∧ Has doc ["time", "constant_dt"] (· = .scalar f.time.constantDt)

/-- The documented contents of section `velocity`. -/
def HasVelocity {K : Type} (cv : Conv K) (doc : Yaml) (f : InputFields K) : Prop :=
  Has doc ["velocity", "name"] (· = .scalar f.velocity.name) ∧
  Has doc ["velocity", "vector"] (IsDoubles cv · f.velocity.vector) ∧
  Has doc ["velocity", "center"] (IsDoubles cv · f.velocity.center) ∧
  Has doc ["velocity", "gradient", "scheme"] (· = .scalar f.velocity.gradientScheme)

/-- The documented contents of section `levelset`, with a centre of three coordinates (`more = []`; the code takes the first
three of a longer list in the test build). -/
def HasLevelset {K : Type} (cv : Conv K) (doc : Yaml) (f : InputFields K) : Prop :=
  ∃ (radius : K) (more : List K), f.levelset.radius = some radius ∧
    Has doc ["levelset", "name"] (· = .scalar f.levelset.name) ∧
    Has doc ["levelset", "center"]
      (IsDoubles cv · (f.levelset.center.x :: f.levelset.center.y :: f.levelset.center.z :: more)) ∧
    Has doc ["levelset", "radius"] (IsDouble cv · radius) ∧
    Has doc ["levelset", "gradient", "scheme"] (· = .scalar f.levelset.gradientScheme)

end Gals.Spec
