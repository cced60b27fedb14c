import Verif.Model.Path

/-! # Dotted paths -/

namespace Svd.Spec

/-- The components with dots between them. -/
def dotted (components : List Str) : Str := ['.'].intercalate components

/-- No component contains a dot. -/
def NoDots (components : List Str) : Prop := ∀ c ∈ components, '.' ∉ c

/-- Peripheral, then clusters. -/
def blockComponents (b : BlockPath) : List Str := b.peripheral :: b.path

/-- Then the register. -/
def registerComponents (r : RegisterPath) : List Str := blockComponents r.block ++ [r.name]

/-- Then the field. -/
def fieldComponents (f : FieldPath) : List Str := registerComponents f.register ++ [f.name]

/-- Then the group of enumerated values. -/
def enumComponents (e : EnumPath) : List Str := fieldComponents e.field ++ [e.name]

end Svd.Spec
