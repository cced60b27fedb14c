import Verif.Spec.Index

/-! # How deep the recursion of an expansion can be

A number that is computed from a device by counting: its elements, and the paths of its elements. -/

namespace Svd.Spec

mutual
/-- A register or cluster and everything below it. -/
def parts : RegisterCluster → List RegisterCluster
  | .register r => [.register r]
  | .cluster h d cs => .cluster h d cs :: partsAll cs
/-- The registers and clusters of a list and everything below them. -/
def partsAll : List RegisterCluster → List RegisterCluster
  | [] => []
  | c :: cs => parts c ++ partsAll cs
end

/-- The registers and clusters of a device. -/
def registerClusters (d : Device) : List RegisterCluster :=
  d.peripherals.flatMap fun p => partsAll (p.info.registers.getD [])

section
variable (names : Str → Option DimElement → List Str)

/-- The paths of the blocks of a device: its peripherals and clusters. -/
def blocks (d : Device) : List BlockPath :=
  (allPeripherals names d).map (·.1) ++ (allClusters names d).map (·.1)

/-- The largest number of paths of elements of one kind. -/
def longestChain (d : Device) : Nat :=
  max (allPeripherals names d).length (max (allClusters names d).length (max (allRegisterPaths names d).length
    (max (allFields names d).length (allEnums names d).length)))

/-- A bound for the depth: a chain of references visits each path of a kind once, and a descent into
clusters visits each register or cluster once in each block, and once outside of all blocks. -/
def depth (d : Device) : Nat :=
  longestChain names d + 1 + ((blocks names d).length + 1) * (registerClusters d).length

end

end Svd.Spec
