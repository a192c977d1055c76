import Verif.Model.Analytic

/-!
# Input files (`src/cpu/input-parser.cc`, `src/cpu/input-parser/*.cc`, `src/cpu/input-fields/input-fields.cc`)

A parsed document is a tree.  The YAML grammar itself and the conversion of text to numbers belong to `yaml-cpp`
(submodule `ext/yaml-cpp`, not part of the repository); the conversions are a parameter.
-/

namespace Gals

/-- `YAML::Node` (`src/cpu/input-parser.cc:48`). -/
inductive Yaml
  | null
  | scalar (text : String)
  | seq (items : List Yaml)
  | map (entries : List (String × Yaml))

/-- The conversions `as<double>` and `as<int>` of a scalar's text (`src/cpu/input-parser/time.cc:44`, `src/cpu/input-parser/grid.cc:54`). -/
structure Conv (K : Type) where
  dbl : String → Option K
  int : String → Option ℤ

namespace Yaml

/-- `node[key]` on an existing node (`src/cpu/input-parser.cc:50-57`, `src/cpu/input-parser/general.cc:44`, ...): the first
entry with that key; subscripting a scalar throws; `none` is the undefined node. -/
def get (y : Yaml) (key : String) : M (Option Yaml) :=
  match y with
  | .map es => .ok ((es.find? fun e => e.1 == key).map (·.2))
  | .scalar _ => .error .exn
  | _ => .ok none

/-- `node[key]` whose result is used for `as<T>()` or for a further subscript, both of which throw on an undefined node
(`src/cpu/input-parser/grid.cc:46-56`, ...). -/
def need (y : Yaml) (key : String) : M Yaml := do
  match ← y.get key with
  | some v => .ok v
  | none => .error .exn

/-- `as<std::string>()`. Simplification: anything other than a scalar throws (`src/cpu/input-parser/general.cc:44`). -/
def asString (y : Yaml) : M String :=
  match y with
  | .scalar t => .ok t
  | _ => .error .exn

/-- `as<double>()` (`src/cpu/input-parser/time.cc:44-46`). -/
def asDouble {K : Type} (cv : Conv K) (y : Yaml) : M K :=
  match y with
  | .scalar t => match cv.dbl t with
    | some x => .ok x
    | none => .error .exn
  | _ => .error .exn

/-- `as<int>()` (elements at `src/cpu/input-parser/grid.cc:54-56`). -/
def asInt {K : Type} (cv : Conv K) (y : Yaml) : M ℤ :=
  match y with
  | .scalar t => match cv.int t with
    | some x => .ok x
    | none => .error .exn
  | _ => .error .exn

/-- `as<std::vector<T>>()`, with the conversion of elements (`src/cpu/input-parser/grid.cc:54-56`, `src/cpu/input-parser/velocity.cc:46-47`). -/
def asVector {T : Type} (conv : Yaml → M T) (y : Yaml) : M (List T) :=
  match y with
  | .seq l => loop l [] fun acc e => do
    let x ← conv e
    return acc ++ [x]
  | _ => .error .exn

end Yaml

/-- `INPUT_FIELDS::General` (`include/gals/input-fields/general.h:40-42`). -/
structure GeneralInputs where
  outputDirectory : String

/-- `INPUT_FIELDS::Grid` (`include/gals/input-fields/grid.h:38-41`); `none`: not initialised. -/
structure GridInputs (K : Type) where
  xMin : Option K
  xMax : Option K
  yMin : Option K
  yMax : Option K
  zMin : Option K
  zMax : Option K
  nx : Option ℤ
  ny : Option ℤ
  nz : Option ℤ

/-- `INPUT_FIELDS::Time` (`include/gals/input-fields/time.h:40-43`); `none`: not initialised. -/
structure TimeInputs (K : Type) where
  start : Option K
  end' : Option K
  dt : Option K
  constantDt : String

/-- `INPUT_FIELDS::Levelset` before use (`include/gals/input-fields/levelset.h:42-47`); `none`: not initialised. -/
structure LevelsetFields (K : Type) where
  name : String
  center : Vec3 K
  radius : Option K
  gradientScheme : String

/-- `INPUT_FIELDS::InputFields` (`include/gals/input-fields/input-fields.h:59-63`). -/
structure InputFields (K : Type) where
  general : GeneralInputs
  grid : GridInputs K
  time : TimeInputs K
  velocity : VelocityInputs K
  levelset : LevelsetFields K

/-- Constructor (`src/cpu/input-fields/input-fields.cc:34-41`): strings and vectors are empty, `Vec3` is zero, the `double`s
and `int`s are not initialised. -/
def InputFields.mk' {K : Type} [Zero K] : InputFields K :=
  ⟨⟨""⟩, ⟨none, none, none, none, none, none, none, none, none⟩, ⟨none, none, none, ""⟩, ⟨"", [], [], ""⟩,
    ⟨"", Vec3.zero, none, ""⟩⟩

variable {K : Type}

/-- `INPUT_PARSER::General::parse` (`src/cpu/input-parser/general.cc:39-45`). -/
def parseGeneral (field : Yaml) (f : InputFields K) : M (InputFields K) := do
  let dir ← (← field.need "output_directory").asString
  return { f with general := { f.general with outputDirectory := dir } }

/-- `field["box"][key].as<double>()` (`src/cpu/input-parser/grid.cc:46-51`). -/
def boxField (cv : Conv K) (field : Yaml) (key : String) : M K := do
  (← (← field.need "box").need key).asDouble cv

/-- `field["cells"].as<std::vector<int>>()[i]` (`src/cpu/input-parser/grid.cc:54-56`): the index is not checked. -/
def cellsField (cv : Conv K) (field : Yaml) (i : ℤ) : M ℤ := do
  let v ← (← field.need "cells").asVector (Yaml.asInt cv)
  rd v i

/-- `INPUT_PARSER::Grid::parse` (`src/cpu/input-parser/grid.cc:41-57`). -/
def parseGrid (cv : Conv K) (field : Yaml) (f : InputFields K) : M (InputFields K) := do
  let x ← boxField cv field "x_min"
  let f := { f with grid := { f.grid with xMin := some x } }
  let x ← boxField cv field "x_max"
  let f := { f with grid := { f.grid with xMax := some x } }
  let x ← boxField cv field "y_min"
  let f := { f with grid := { f.grid with yMin := some x } }
  let x ← boxField cv field "y_max"
  let f := { f with grid := { f.grid with yMax := some x } }
  let x ← boxField cv field "z_min"
  let f := { f with grid := { f.grid with zMin := some x } }
  let x ← boxField cv field "z_max"
  let f := { f with grid := { f.grid with zMax := some x } }
  let n ← cellsField cv field 0
  let f := { f with grid := { f.grid with nx := some n } }
  let n ← cellsField cv field 1
  let f := { f with grid := { f.grid with ny := some n } }
  let n ← cellsField cv field 2
  let f := { f with grid := { f.grid with nz := some n } }
  return f

/-- `INPUT_PARSER::Time::parse` (`src/cpu/input-parser/time.cc:39-48`). -/
def parseTime (cv : Conv K) (field : Yaml) (f : InputFields K) : M (InputFields K) := do
  let x ← (← field.need "start").asDouble cv
  let f := { f with time := { f.time with start := some x } }
  let x ← (← field.need "end").asDouble cv
  let f := { f with time := { f.time with end' := some x } }
  let x ← (← field.need "dt").asDouble cv
  let f := { f with time := { f.time with dt := some x } }
  let x ← (← field.need "constant_dt").asString
  let f := { f with time := { f.time with constantDt := x } }
  return f

/-- `INPUT_PARSER::Velocity::parse` (`src/cpu/input-parser/velocity.cc:41-49`). -/
def parseVelocity (cv : Conv K) (field : Yaml) (f : InputFields K) : M (InputFields K) := do
  let x ← (← field.need "name").asString
  let f := { f with velocity := { f.velocity with name := x } }
  let x ← (← field.need "vector").asVector (Yaml.asDouble cv)
  let f := { f with velocity := { f.velocity with vector := x } }
  let x ← (← field.need "center").asVector (Yaml.asDouble cv)
  let f := { f with velocity := { f.velocity with center := x } }
  let x ← (← (← field.need "gradient").need "scheme").asString
  let f := { f with velocity := { f.velocity with gradientScheme := x } }
  return f

/-- `INPUT_PARSER::Levelset::parse` (`src/cpu/input-parser/levelset.cc:41-49`). -/
def parseLevelset (b : Build) (cv : Conv K) (field : Yaml) (f : InputFields K) : M (InputFields K) := do
  let x ← (← field.need "name").asString
  let f := { f with levelset := { f.levelset with name := x } }
  let x ← (← field.need "center").asVector (Yaml.asDouble cv)
  let v ← Vec3.ofVector b x
  let f := { f with levelset := { f.levelset with center := v } }
  let x ← (← field.need "radius").asDouble cv
  let f := { f with levelset := { f.levelset with radius := some x } }
  let x ← (← (← field.need "gradient").need "scheme").asString
  let f := { f with levelset := { f.levelset with gradientScheme := x } }
  return f

/-- `if (inputs[key]) parser(inputs[key], p_input_fields)` (`src/cpu/input-parser.cc:50-57`). -/
def parseSection (doc : Yaml) (key : String) (p : Yaml → InputFields K → M (InputFields K)) (f : InputFields K) :
    M (InputFields K) := do
  match ← doc.get key with
  | some field => p field f
  | none => .ok f

/-- `InputParser::parse` after `YAML::LoadFile` (`src/cpu/input-parser.cc:45-58`). -/
def parseDoc (b : Build) (cv : Conv K) (doc : Yaml) (f : InputFields K) : M (InputFields K) := do
  let f ← parseSection doc "general" parseGeneral f
  let f ← parseSection doc "grid" (parseGrid cv) f
  let f ← parseSection doc "time" (parseTime cv) f
  let f ← parseSection doc "velocity" (parseVelocity cv) f
  parseSection doc "levelset" (parseLevelset b cv) f

end Gals
