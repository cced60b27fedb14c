import Verif.Props.SerdeDevice
import Verif.Props.Reread
import Verif.Props.Idempotent

/-!
# C76: expanded devices survive a conversion with serde

`C54`: what a conversion to JSON or YAML loses are the arrays without a list of indexes and the attributes
concerning the schema. An expanded device has no arrays.
-/

namespace Svd

open Spec

/-- In a flat device there are no arrays to say anything about. -/
theorem flat_parts {F : FieldInfo → Prop} (D : DimElement → Prop) {d : Device} (h : FlatDevice d)
    (hf : DeviceParts F (fun _ => True) d) : DeviceParts F D d := by
  intro p hp
  have hp1 := h p hp
  have hp2 := hf p hp
  cases hp1 with
  | @mk i _ hr =>
    refine ⟨fun l hl => ?_, trivial⟩
    have h1 := hr l hl
    have h2 := hp2.1 l hl
    clear hl
    induction l with
    | nil => trivial
    | cons c cs ih =>
      refine ⟨?_, ih (fun r hr => h1 r (by simp [hr])) h2.2⟩
      have hc := h1 c (by simp)
      have hc2 := h2.1
      cases hc with
      | @mk i _ hfl =>
        refine ⟨fun fs hfs f hf => ⟨(hc2.1 fs hfs f hf).1, ?_⟩, trivial⟩
        have := hfl fs hfs f hf
        cases this
        trivial

/-- **C76.** An expanded device whose fields can be written is written to JSON or YAML and read back, in
whatever order the entries come; all that is lost are the attributes concerning the schema. -/
theorem C76_survives (oc oc' : Bool) (fuel : Nat) (d d' : Device) (he : expand oc' fuel d = .ok d')
    (hf : DeviceParts (fun f => WritableRange f.bitRange) (fun _ => True) d') :
    ∃ v, serDevice oc d' = .ok v ∧ ∀ w, v = w ∨ Reordered v w → deDevice oc w = .ok
      { d' with
        xmlnsXs := "http://www.w3.org/2001/XMLSchema-instance".toList
        noNamespaceSchemaLocation := "CMSIS-SVD_Schema_1_1.xsd".toList
        schemaVersion := "1.1".toList } := by
  have hp := flat_parts (F := fun f => WritableRange f.bitRange) (fun x => JoinableIndexes x ∧ x.dimIndex ≠ none) (C33_flat oc' fuel d d' he).1 hf
  obtain ⟨v, h1, h2⟩ := C54_unchanged oc { d' with
    xmlnsXs := "http://www.w3.org/2001/XMLSchema-instance".toList
    noNamespaceSchemaLocation := "CMSIS-SVD_Schema_1_1.xsd".toList
    schemaVersion := "1.1".toList } hp rfl rfl rfl
  exact ⟨v, h1, h2⟩

/-- **C76.** What comes back is still expanded: expanding it again changes nothing. -/
theorem C76_still_expanded (oc oc' oc'' : Bool) (fuel fuel' : Nat) (d d' g : Device) (v : Val)
    (he : expand oc' fuel d = .ok d')
    (hf : DeviceParts (fun f => WritableRange f.bitRange) (fun _ => True) d')
    (hv : serDevice oc d' = .ok v) (hg : deDevice oc v = .ok g) :
    g.peripherals = d'.peripherals ∧ expand oc'' (fuel' + 1) g = .ok g := by
  obtain ⟨v', h1, h2⟩ := C76_survives oc oc' fuel d d' he hf
  rw [hv] at h1
  cases h1
  have h3 := h2 v (.inl rfl)
  rw [hg] at h3
  cases h3
  exact ⟨rfl, C35_identity oc'' fuel' _ (C33_flat oc' fuel d d' he).1⟩

/-- An array of peripherals without a list of indexes, each with an array of registers. -/
def unlisted : Device :=
  Sample.defaulted [.array (Sample.peripheralInfo "P%s" 0x1000 none (some
    [.register (.array (Sample.registerInfo "R%s" 0 none (some [.single (Sample.fieldInfo "F" 3)])) (Sample.dim 2 4))]))
    (Sample.dim 2 16)]

-- As it is the device loses its arrays; expanded it loses nothing.
example : converted unlisted = .ok (Sample.defaulted [.single (Sample.peripheralInfo "P%s" 0x1000 none (some
    [.register (.single (Sample.registerInfo "R%s" 0 none (some [.single (Sample.fieldInfo "F" 3)])))]))]) := by
  decide +kernel
example : (expand true 9 unlisted).bind converted = expand true 9 unlisted ∧
    (expand true 9 unlisted).isOk = true := by decide +kernel

-- The hypotheses of `C76_survives` and `C76_still_expanded` can be met.
example : ∃ d' v g, expand true 9 unlisted = .ok d' ∧ serDevice true d' = .ok v ∧ deDevice true v = .ok g ∧
    g.peripherals = d'.peripherals ∧ expand false 1 g = .ok g := by
  obtain ⟨d', h, hf⟩ := gives_ok (m := expand true 9 unlisted)
    (p := DeviceParts (fun f => WritableRange f.bitRange) (fun _ => True)) (by decide +kernel)
  obtain ⟨v, h1, h2⟩ := C76_survives true true 9 unlisted d' h hf
  exact ⟨d', v, _, h, h1, h2 v (.inl rfl), C76_still_expanded true true false 9 0 unlisted d' _ v h hf h1 (h2 v (.inl rfl))⟩

end Svd
