import Verif.Model.Types

/-!
# Element paths (svd-parser/src/expand.rs:12-241)
-/

namespace Svd

/-- svd-parser/src/expand.rs:14-17. -/
structure BlockPath where
  peripheral : Str
  path : List Str
  deriving DecidableEq, Repr

/-- svd-parser/src/expand.rs:94-97. -/
structure RegisterPath where
  block : BlockPath
  name : Str
  deriving DecidableEq, Repr

/-- svd-parser/src/expand.rs:141-144. -/
structure FieldPath where
  register : RegisterPath
  name : Str
  deriving DecidableEq, Repr

/-- svd-parser/src/expand.rs:201-204. -/
structure EnumPath where
  field : FieldPath
  name : Str
  deriving DecidableEq, Repr

namespace BlockPath

/-- svd-parser/src/expand.rs:20-25 `new`. -/
def new (p : Str) : BlockPath := { peripheral := p, path := [] }

/-- svd-parser/src/expand.rs:26-30. -/
def newCluster (b : BlockPath) (name : Str) : BlockPath := { b with path := b.path ++ [name] }

/-- svd-parser/src/expand.rs:31-33. -/
def newRegister (b : BlockPath) (name : Str) : RegisterPath := { block := b, name := name }

/-- svd-parser/src/expand.rs:37-48 `parse_vec`: `v.pop().unwrap()` panics on an empty vector. -/
def parseVec (v : List Str) : M (Option BlockPath × Str) :=
  match v.getLast? with
  | none => panics .unwrap
  | some name =>
    match v.dropLast with
    | [] => .ok (none, name)
    | p :: ps => .ok (some { peripheral := p, path := ps }, name)

/-- svd-parser/src/expand.rs:34-36 `parse_str`. -/
def parseStr (s : Str) : M (Option BlockPath × Str) := parseVec (splitOn '.' s)

/-- svd-parser/src/expand.rs:49-51 `name`: panics on a peripheral path. -/
def nameOf (b : BlockPath) : M Str :=
  match b.path.getLast? with
  | some n => .ok n
  | none => panics .unwrap

/-- svd-parser/src/expand.rs:52-56 `parent`. -/
def parent (b : BlockPath) : Option BlockPath :=
  match b.path with
  | [] => none
  | ps => some { b with path := ps.dropLast }

/-- svd-parser/src/expand.rs:59-79 `PartialEq<str>`. -/
def eqStr (b : BlockPath) (other : Str) : Bool :=
  if (splitOn '.' other).length ≠ b.path.length + 1 then false
  else
    match splitOn '.' other with
    | [] => false
    | part1 :: parts =>
      if b.peripheral ≠ part1 then false
      else (parts.zip b.path).all fun p => p.1 == p.2

/-- svd-parser/src/expand.rs:81-90 `Display`. -/
def display (b : BlockPath) : Str :=
  b.path.foldl (fun acc p => acc ++ ['.'] ++ p) b.peripheral

end BlockPath

namespace RegisterPath

/-- svd-parser/src/expand.rs:106-108. -/
def newField (r : RegisterPath) (name : Str) : FieldPath := { register := r, name := name }

/-- svd-parser/src/expand.rs:109-111. -/
def parseStr (s : Str) : M (Option BlockPath × Str) := BlockPath.parseStr s

/-- svd-parser/src/expand.rs:112-114. -/
def parseVec (v : List Str) : M (Option BlockPath × Str) := BlockPath.parseVec v

/-- svd-parser/src/expand.rs:115-117 `peripheral`. -/
def peripheral (r : RegisterPath) : Str := r.block.peripheral

/-- svd-parser/src/expand.rs:120-128 `PartialEq<str>`. -/
def eqStr (r : RegisterPath) (other : Str) : Bool :=
  match rsplitOnce '.' other with
  | some (block, reg) => r.name == reg && r.block.eqStr block
  | none => false

/-- svd-parser/src/expand.rs:130-137 `Display`. -/
def display (r : RegisterPath) : Str := r.block.display ++ ['.'] ++ r.name

end RegisterPath

namespace FieldPath

/-- svd-parser/src/expand.rs:153-155. -/
def newEnum (f : FieldPath) (name : Str) : EnumPath := { field := f, name := name }

/-- svd-parser/src/expand.rs:159-171 `parse_vec`: `expect` panics when the register part has no
block. -/
def parseVec (v : List Str) : M (Option RegisterPath × Str) :=
  match v.getLast? with
  | none => panics .unwrap
  | some name =>
    if !v.dropLast.isEmpty then do
      let br ← RegisterPath.parseVec v.dropLast
      match br.1 with
      | some b => .ok (some { block := b, name := br.2 }, name)
      | none => panics .unwrap
    else .ok (none, name)

/-- svd-parser/src/expand.rs:156-158 `parse_str`. -/
def parseStr (s : Str) : M (Option RegisterPath × Str) := parseVec (splitOn '.' s)

/-- svd-parser/src/expand.rs:175-177 `peripheral`; `register` (172-174) is the member. -/
def peripheral (f : FieldPath) : Str := f.register.peripheral

/-- svd-parser/src/expand.rs:180-188 `PartialEq<str>`. -/
def eqStr (f : FieldPath) (other : Str) : Bool :=
  match rsplitOnce '.' other with
  | some (reg, field) => f.name == field && f.register.eqStr reg
  | none => false

/-- svd-parser/src/expand.rs:190-197 `Display`. -/
def display (f : FieldPath) : Str := f.register.display ++ ['.'] ++ f.name

end FieldPath

namespace EnumPath

/-- svd-parser/src/expand.rs:216-218 `register`; `field` (213-215) is the member. -/
def register (e : EnumPath) : RegisterPath := e.field.register

/-- svd-parser/src/expand.rs:219-221 `peripheral`. -/
def peripheral (e : EnumPath) : Str := e.field.peripheral

/-- svd-parser/src/expand.rs:224-232 `PartialEq<str>`. -/
def eqStr (e : EnumPath) (other : Str) : Bool :=
  match rsplitOnce '.' other with
  | some (field, evs) => e.name == evs && e.field.eqStr field
  | none => false

/-- svd-parser/src/expand.rs:234-241 `Display`. -/
def display (e : EnumPath) : Str := e.field.display ++ ['.'] ++ e.name

end EnumPath

end Svd
