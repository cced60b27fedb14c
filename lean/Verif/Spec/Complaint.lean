import Verif.Spec.Valid

/-! # Which broken rule validation reports

The rules of `Spec/Valid.lean` once more, one by one and in the order in which they are checked, each
with the error for it. -/

namespace Svd.Spec

/-- A rule: what is reported, and when it is broken. -/
structure Rule where
  error : Err
  broken : Prop

/-- `e` is the error of the first broken rule. -/
def Reports (rules : List Rule) (e : Err) : Prop :=
  ∃ before r after, rules = before ++ r :: after ∧ (∀ x ∈ before, ¬ x.broken) ∧ r.broken ∧ r.error = e

/-- Rules that hold at level Strict only. -/
def strictOnly (lvl : ValidateLevel) (rules : List Rule) : List Rule :=
  if lvl = .strict then rules else []

/-- Rules that hold from level Weak on. -/
def enabled (lvl : ValidateLevel) (rules : List Rule) : List Rule :=
  if lvl = .disabled then [] else rules

def plainRule (k : String) (s : Str) : List Rule := [⟨.invalidName s k, ¬ PlainName s⟩]
def dimableRule (k : String) (s : Str) : List Rule := [⟨.invalidName s k, ¬ DimableName s⟩]
/-- Each component of a reference. -/
def derivedRule (k : String) (s : Str) : List Rule := (splitOn '.' s).flatMap (dimableRule k)

/-- Of a value that may be absent. -/
def optRule {α : Type} (o : Option α) (f : α → List Rule) : List Rule := o.toList.flatMap f

def propsRules (lvl : ValidateLevel) (p : RegisterProperties) : List Rule := enabled lvl <|
  (optRule p.size fun s => optRule p.resetValue fun v => [⟨.resetValueTooLarge v s, 2 ^ s.toNat ≤ v.toNat⟩]) ++
  strictOnly lvl (
    (optRule p.size fun s => optRule p.resetMask fun m => [⟨.resetMaskTooLarge m s, 2 ^ s.toNat ≤ m.toNat⟩]) ++
    optRule p.resetValue fun v => optRule p.resetMask fun m =>
      [⟨.resetMaskConflict v m, ∃ i, v.toNat.testBit i = true ∧ m.toNat.testBit i = false⟩])

def enumValueRules (lvl : ValidateLevel) (e : EnumeratedValue) : List Rule := enabled lvl <|
  strictOnly lvl (plainRule "name" e.name) ++
  [⟨.enumAbsentValue, e.value = none ∧ e.isDefault ≠ some true⟩] ++
  strictOnly lvl [⟨.enumValueAndDefault e.value, e.value ≠ none ∧ e.isDefault = some true⟩]

def enumsRules (lvl : ValidateLevel) (e : EnumeratedValues) : List Rule := enabled lvl <|
  strictOnly lvl (optRule e.name (plainRule "name")) ++
  strictOnly lvl (optRule e.derivedFrom (derivedRule "derivedFrom")) ++
  [⟨.enumEmpty, e.derivedFrom = none ∧ e.values = []⟩]

/-- Values have to be below `2 ^ w`. -/
def fieldRules (lvl : ValidateLevel) (f : FieldInfo) : List Rule := enabled lvl <|
  let w := f.bitRange.width.toNat
  let top : U64 := BitVec.ofNat 64 (2 ^ w)
  strictOnly lvl (dimableRule "name" f.name ++ optRule f.derivedFrom (derivedRule "derivedFrom")) ++
  [⟨.zeroWidth, w = 0⟩] ++
  (f.enumeratedValues.flatMap fun g => g.values.flatMap fun e => optRule e.value fun v =>
    [⟨.enumOutOfRange v 0 top, w < 64 ∧ 2 ^ w ≤ v.toNat⟩]) ++
  strictOnly lvl [⟨.incompatibleEnumeratedValues, ¬ UsagesValid f.enumeratedValues⟩] ++
  match f.writeConstraint with
  | some (.range ⟨lo, hi⟩) => [⟨.wcReversedRange lo hi, w < 64 ∧ hi.toNat < lo.toNat⟩,
      ⟨.wcOutOfRange lo 0 top, w < 64 ∧ 2 ^ w ≤ lo.toNat⟩, ⟨.wcOutOfRange hi 0 top, w < 64 ∧ 2 ^ w ≤ hi.toNat⟩]
  | _ => []

def registerRules (lvl : ValidateLevel) (r : RegisterInfo) : List Rule := strictOnly lvl <|
  dimableRule "name" r.name ++ optRule r.alternateGroup (plainRule "alternateGroup") ++
  optRule r.alternateRegister (dimableRule "alternateRegister") ++
  optRule r.derivedFrom (derivedRule "derivedFrom") ++
  [⟨.emptyFields, r.derivedFrom = none ∧ r.fields = some []⟩]

def clusterRules (lvl : ValidateLevel) (h : ClusterHead) (children : List RegisterCluster) : List Rule :=
  strictOnly lvl <| dimableRule "name" h.name ++ optRule h.derivedFrom (derivedRule "derivedFrom") ++
  [⟨.emptyCluster, h.derivedFrom = none ∧ children = []⟩]

def peripheralRules (lvl : ValidateLevel) (p : PeripheralInfo) : List Rule := strictOnly lvl <|
  dimableRule "name" p.name ++ optRule p.derivedFrom (dimableRule "derivedFrom") ++
  [⟨.emptyRegisters, p.derivedFrom = none ∧ p.registers = some []⟩]

def deviceRules (lvl : ValidateLevel) (d : Device) : List Rule :=
  enabled lvl [⟨.emptyDevice, d.peripherals = []⟩]

/-! ## Together: the parts before the whole -/

def allFieldRules (lvl : ValidateLevel) (f : FieldInfo) : List Rule :=
  (f.enumeratedValues.flatMap fun g => g.values.flatMap (enumValueRules lvl) ++ enumsRules lvl g) ++ fieldRules lvl f

def allRegisterRules (lvl : ValidateLevel) (r : RegisterInfo) : List Rule :=
  propsRules lvl r.properties ++ (optRule r.fields fun fs => fs.flatMap fun f => allFieldRules lvl f.info) ++
  registerRules lvl r

/-- The registers of a block; its clusters come later. -/
def ownRegisterRules (lvl : ValidateLevel) (cs : List RegisterCluster) : List Rule :=
  cs.flatMap fun
    | .register r => allRegisterRules lvl r.info
    | .cluster .. => []

mutual
def allClusterRules (lvl : ValidateLevel) : RegisterCluster → List Rule
  | .register _ => []
  | .cluster h _ cs => propsRules lvl h.defaultRegisterProperties ++ ownRegisterRules lvl cs ++
      clustersRules lvl cs ++ clusterRules lvl h cs
/-- The clusters of a block. -/
def clustersRules (lvl : ValidateLevel) : List RegisterCluster → List Rule
  | [] => []
  | c :: cs => allClusterRules lvl c ++ clustersRules lvl cs
end

def allPeripheralRules (lvl : ValidateLevel) (p : PeripheralInfo) : List Rule :=
  propsRules lvl p.defaultRegisterProperties ++ (optRule p.registers (ownRegisterRules lvl)) ++
  (optRule p.registers (clustersRules lvl)) ++ peripheralRules lvl p

def allDeviceRules (lvl : ValidateLevel) (d : Device) : List Rule :=
  propsRules lvl d.defaultRegisterProperties ++ (d.peripherals.flatMap fun p => allPeripheralRules lvl p.info) ++
  deviceRules lvl d

end Svd.Spec
