import Verif.Spec.Chain

/-! # The references of a device

Every element that carries `derivedFrom`, with the place its reference is relative to: the path made of
the elements' own names. -/

namespace Svd.Spec

/-- The content of a peripheral or cluster, under the elements' own names. -/
inductive BlockOf (d : Device) : BlockPath → List RegisterCluster → Prop where
  | peripheral {p cs} : p ∈ d.peripherals → p.info.registers = some cs → BlockOf d ⟨p.info.name, []⟩ cs
  | cluster {b cs h dim sub} : BlockOf d b cs → .cluster h dim sub ∈ cs →
      BlockOf d ⟨b.peripheral, b.path ++ [h.name]⟩ sub

/-- A field of a register of a block. -/
def FieldOf (d : Device) (q : RegisterPath) (f : Field) : Prop :=
  ∃ cs r fs, BlockOf d q.block cs ∧ .register r ∈ cs ∧ r.info.name = q.name ∧ r.info.fields = some fs ∧
    f ∈ fs

section
variable (names : Str → Option DimElement → List Str) (d : Device)

/-- Every reference starts a chain of references that ends. -/
structure RefsEnd : Prop where
  peripheral : ∀ p ∈ d.peripherals, ∀ s, p.info.derivedFrom = some s →
    ∃ ps, Chain (fun (_ : Unit) s _ => PeripheralLink (allPeripherals names d) p.info.name s)
      (fun p => p.info.derivedFrom) () s ps
  cluster : ∀ b cs, BlockOf d b cs → ∀ h dim sub, .cluster h dim sub ∈ cs → ∀ s, h.derivedFrom = some s →
    ∃ l, Chain (ClusterLink (allClusters names d) h.name) (fun c => c.info.derivedFrom) b s l
  register : ∀ b cs, BlockOf d b cs → ∀ r, .register r ∈ cs → ∀ s, r.info.derivedFrom = some s →
    ∃ l, Chain (RegisterLink (allRegisterPaths names d) r.info.name) (fun r => r.info.derivedFrom) b s l
  field : ∀ q f, FieldOf d q f → ∀ s, f.info.derivedFrom = some s →
    ∃ l, Chain (FieldLink (allFields names d) f.info.name) (fun f => f.info.derivedFrom) q s l
  enums : ∀ q f, FieldOf d q f → ∀ e ∈ f.info.enumeratedValues, ∀ s, e.derivedFrom = some s →
    ∃ l, Chain (EnumLink (allRegisterPaths names d) (allEnums names d) e.name) (fun e => e.derivedFrom)
      ⟨q, f.info.name⟩ s l

end

end Svd.Spec
