import Verif.Spec.Chain

/-! # Devices whose references do not go round in circles

A numbering of the elements of a device in which whatever an element refers to, and whatever a cluster
contains, has a smaller number. References of peripherals, clusters, registers, fields and enumerated
values are numbered separately. -/

namespace Svd.Spec

/-- What a reference to enumerated values, written in field `q`, can point to. -/
def EnumTarget (q : FieldPath) (s : Str) (t : EnumPath) : Prop :=
  ('.' ∉ s ∧ t.field.register = q.register ∧ t.name = s) ∨ EnumRef q s t.field t.name

/-- The numbering. -/
structure Ranks where
  peripheral : BlockPath → Nat
  block : BlockPath → Nat
  register : RegisterPath → Nat
  field : FieldPath → Nat
  enums : EnumPath → Nat

/-- The numbers decrease along references and from a block to the clusters in it. -/
structure Ranked (d : Device) (rk : Ranks) : Prop where
  peripheral : ∀ b p s t, PeripheralAt d b p → p.info.derivedFrom = some s →
    PeripheralAt d ⟨s, []⟩ t → rk.peripheral ⟨s, []⟩ < rk.peripheral b
  inside : ∀ b n c, ClusterAt d ⟨b.peripheral, b.path ++ [n]⟩ c →
    rk.block ⟨b.peripheral, b.path ++ [n]⟩ < rk.block b
  cluster : ∀ b n c s b' m t, ClusterAt d ⟨b.peripheral, b.path ++ [n]⟩ c → c.info.derivedFrom = some s →
    BlockRef b s b' m → ClusterAt d ⟨b'.peripheral, b'.path ++ [m]⟩ t →
    rk.block ⟨b'.peripheral, b'.path ++ [m]⟩ < rk.block ⟨b.peripheral, b.path ++ [n]⟩
  register : ∀ q r s b m t, RegisterAt d q r → r.info.derivedFrom = some s → BlockRef q.block s b m →
    RegisterAt d ⟨b, m⟩ t → rk.register ⟨b, m⟩ < rk.register q
  field : ∀ q f s b m t, FieldAt d q f → f.info.derivedFrom = some s → FieldRef q.register s b m →
    FieldAt d ⟨b, m⟩ t → rk.field ⟨b, m⟩ < rk.field q
  enums : ∀ q e s t x, EnumAt d q e → e.derivedFrom = some s → EnumTarget q.field s t →
    EnumAt d t x → rk.enums t < rk.enums q

end Svd.Spec
