import Verif.Model.Types

/-!
# Array dimensions (svd-rs/src/dimelement.rs) and instance names (svd-rs/src/array.rs)
-/

namespace Svd

/-- `(a..=b).map(f).collect()` on natural numbers. -/
def rangeIncl (a b : Nat) : List Nat := (List.range (b + 1 - a)).map (a + ·)

namespace DimElement

/-- svd-rs/src/dimelement.rs:146-162: the part before the `filter`. -/
def parseIndexesRaw (text : Str) : Option (List Str) :=
  if text.contains '-' then
    match splitOnce '-' text with
    | none => none
    | some (start, stop) =>
      match fromStrRadix 32 10 start, fromStrRadix 32 10 stop with
      | .ok a, .ok b => some ((rangeIncl a.toNat b.toNat).map fun i => Nat.toDigits 10 i)
      | _, _ =>
        match start, stop with
        | [a], [b] =>
          if (isAsciiLower a && isAsciiLower b) || (isAsciiUpper a && isAsciiUpper b) then
            some ((rangeIncl a.toNat b.toNat).map fun i => [Char.ofNat i])
          else none
        | _, _ => none
  else some (splitOn ',' text)

/-- svd-rs/src/dimelement.rs:145-164 `parse_indexes`.  Single bytes of `start`/`end` are single
characters of the model: a one-character non-ASCII string has several bytes and fails both
range tests either way.  Memory exhaustion on huge ranges is not modelled. -/
def parseIndexes (text : Str) : Option (List Str) :=
  match parseIndexesRaw text with
  | some v => if v.isEmpty then none else some v
  | none => none

/-- svd-rs/src/dimelement.rs:240-253: item number `i` (< dim) of the iterator `indexes()`; indexing
the list past its end panics. -/
def indexAt (d : DimElement) (i : Nat) : M Str :=
  match d.dimIndex with
  | some l =>
    match l[i]? with
    | some s => .ok s
    | none => panics .indexOutOfBounds
  | none => .ok (Nat.toDigits 10 i)

/-- svd-rs/src/dimelement.rs:224-232, 240-253: all items of `indexes()`. -/
def indexes (d : DimElement) : M (List Str) :=
  (List.range d.dim.toNat).mapM d.indexAt

/-- svd-rs/src/dimelement.rs:170-178: the loop collecting the indexes as integers; `none` is the
early `return None`. -/
def collectInts (d : DimElement) : List Nat → M (Option (List U32))
  | [] => .ok (some [])
  | i :: is => do
    let idx ← d.indexAt i
    match fromStrRadix 32 10 idx with
    | .error _ => .ok none
    | .ok val =>
      if decString val ≠ idx then .ok none
      else do
        match ← d.collectInts is with
        | none => .ok none
        | some l => .ok (some (val :: l))

/-- svd-rs/src/dimelement.rs:168-189 `indexes_as_range`: smallest and largest index. -/
def indexesAsRange (oc : Bool) (d : DimElement) : M (Option (U32 × U32)) := do
  match ← d.collectInts (List.range d.dim.toNat) with
  | none => .ok none
  | some integers =>
    match (integers.map BitVec.toNat).min?, (integers.map BitVec.toNat).max? with
    | some mn, some mx => do
      let s ← subC oc (BitVec.ofNat 32 mx) (BitVec.ofNat 32 mn)
      let s ← addC oc s 1
      if s ≠ d.dim then .ok none
      else if (integers.zip (rangeIncl mn mx)).all (fun p => p.1.toNat == p.2) then
        .ok (some (BitVec.ofNat 32 mn, BitVec.ofNat 32 mx))
      else .ok none
    | _, _ => .ok none

end DimElement

/-- The substitution `s.replace("[%s]", &i).replace("%s", &i)` (svd-rs/src/array.rs:74, 93,
register.rs:138, peripheral.rs:152). -/
def substIndex (s idx : Str) : Str :=
  replaceStr "%s".toList idx (replaceStr "[%s]".toList idx s)

/-- svd-rs/src/array.rs:66-72, 85-91: the value of the `dimArrayIndex` whose number prints as the
index. -/
def arrayIndexValue (d : DimElement) (idx : Str) : Option EnumeratedValue :=
  d.dimArrayIndex.bind fun dai =>
    dai.values.find? fun e => e.value.any fun v => decString v == idx

/-- svd-rs/src/array.rs:63-76 `names`: name of instance number `i`. -/
def nameAt (name : Str) (d : DimElement) (i : Nat) : M Str := do
  let idx ← d.indexAt i
  match arrayIndexValue d idx with
  | some e => .ok e.name
  | none => .ok (substIndex name idx)

/-- svd-rs/src/array.rs:79-95 `descriptions`: description of instance number `i`. -/
def descriptionAt (description : Option Str) (d : DimElement) (i : Nat) : M (Option Str) := do
  let idx ← d.indexAt i
  match (arrayIndexValue d idx).bind (·.description) with
  | some s => .ok (some s)
  | none => .ok (description.map fun s => substIndex s idx)

/-- svd-rs/src/field.rs:88-90 `bit_offsets`, register.rs:115-120 and cluster.rs:77-82
`address_offsets`: offset of instance number `i`, in `u32` arithmetic. -/
def offsetAt (oc : Bool) (base : U32) (d : DimElement) (i : Nat) : M U32 := do
  let p ← mulC oc (BitVec.ofNat 32 i) d.dimIncrement
  addC oc base p

/-- svd-rs/src/peripheral.rs:129-134 `base_addresses`: in `u64` arithmetic. -/
def baseAddressAt (oc : Bool) (base : U64) (d : DimElement) (i : Nat) : M U64 := do
  let p ← mulC oc (BitVec.ofNat 64 i) (d.dimIncrement.setWidth 64)
  addC oc base p

/-- svd-rs/src/array.rs:63-76, all instances. -/
def names (name : Str) (d : DimElement) : M (List Str) :=
  (List.range d.dim.toNat).mapM (nameAt name d)

/-- One element of svd-rs/src/field.rs:93-107 `field::expand`. -/
def FieldInfo.expandAt (oc : Bool) (info : FieldInfo) (d : DimElement) (i : Nat) : M FieldInfo := do
  let name ← nameAt info.name d i
  let description ← descriptionAt info.description d i
  let bitOffset ← offsetAt oc info.bitRange.offset d i
  .ok { info with
    name := name
    description := description
    bitRange := { offset := bitOffset, width := info.bitRange.width, rangeType := .offsetWidth } }

/-- svd-rs/src/field.rs:93-107 `field::expand`, all elements. -/
def FieldInfo.expand (oc : Bool) (info : FieldInfo) (d : DimElement) : M (List FieldInfo) :=
  (List.range d.dim.toNat).mapM (info.expandAt oc d)

/-- One element of svd-rs/src/register.rs:123-141 `register::expand`. -/
def RegisterInfo.expandAt (oc : Bool) (info : RegisterInfo) (d : DimElement) (i : Nat) :
    M RegisterInfo := do
  let idx ← d.indexAt i
  let name ← nameAt info.name d i
  let description ← descriptionAt info.description d i
  let addressOffset ← offsetAt oc info.addressOffset d i
  .ok { info with
    name := name
    description := description
    addressOffset := addressOffset
    displayName := info.displayName.map fun s => substIndex s idx }

/-- svd-rs/src/register.rs:123-141 `register::expand`, all elements. -/
def RegisterInfo.expand (oc : Bool) (info : RegisterInfo) (d : DimElement) :
    M (List RegisterInfo) :=
  (List.range d.dim.toNat).mapM (info.expandAt oc d)

/-- One element of svd-rs/src/cluster.rs:85-99 `cluster::expand`. -/
def ClusterInfo.expandAt (oc : Bool) (info : ClusterInfo) (d : DimElement) (i : Nat) :
    M ClusterInfo := do
  let name ← nameAt info.name d i
  let description ← descriptionAt info.description d i
  let addressOffset ← offsetAt oc info.addressOffset d i
  .ok { info with name := name, description := description, addressOffset := addressOffset }

/-- svd-rs/src/cluster.rs:85-99 `cluster::expand`, all elements. -/
def ClusterInfo.expand (oc : Bool) (info : ClusterInfo) (d : DimElement) : M (List ClusterInfo) :=
  (List.range d.dim.toNat).mapM (info.expandAt oc d)

/-- One element of svd-rs/src/peripheral.rs:137-155 `peripheral::expand`. -/
def PeripheralInfo.expandAt (oc : Bool) (info : PeripheralInfo) (d : DimElement) (i : Nat) :
    M PeripheralInfo := do
  let idx ← d.indexAt i
  let name ← nameAt info.name d i
  let description ← descriptionAt info.description d i
  let baseAddress ← baseAddressAt oc info.baseAddress d i
  .ok { info with
    name := name
    description := description
    baseAddress := baseAddress
    displayName := info.displayName.map fun s => substIndex s idx }

/-- svd-rs/src/peripheral.rs:137-155 `peripheral::expand`, all elements. -/
def PeripheralInfo.expand (oc : Bool) (info : PeripheralInfo) (d : DimElement) :
    M (List PeripheralInfo) :=
  (List.range d.dim.toNat).mapM (info.expandAt oc d)

end Svd
