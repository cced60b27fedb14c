import Verif.Spec.Sample
import Verif.Props.Flat
import Verif.Props.Index

/-!
# C35: expansion leaves flat devices alone
-/

namespace Svd

open Spec

theorem mapM_self {α : Type} {f : α → M (List α)} {l : List α} (h : ∀ a ∈ l, f a = .ok [a]) :
    ∃ ll, l.mapM f = .ok ll ∧ ll.flatten = l := by
  induction l with
  | nil => exact ⟨[], rfl, rfl⟩
  | cons a l ih =>
    obtain ⟨ll, h1, h2⟩ := ih fun a ha => h a (by simp [ha])
    exact ⟨[a] :: ll, by rw [mapM_cons, h a (by simp), h1]; rfl, by simp [h2]⟩

theorem expandField_id (oc : Bool) (ix : Index) (n : Nat) (b : RegisterPath) {f : Field}
    (h : FlatField f) : expandField oc ix n b f = .ok [f] := by
  cases h with
  | @mk i hd he =>
    have : i.enumeratedValues.mapM (expandEv ix n (b.newField i.name)) = .ok i.enumeratedValues := by
      rw [mapM_ok]
      refine List.map_congr_left fun e he' => ?_
      simp [expandEv, he e he']
    unfold expandField
    simp only [MaybeArray.info, hd, ok_bind, Option.getD_none, this, MaybeArray.mapInfo]
    rw [← hd]

theorem expandRC_id (oc : Bool) (ix : Index) (n : Nat) (b : BlockPath) {c : RegisterCluster}
    (h : FlatRegister c) : expandRC oc ix (n + 1) b c = .ok [c] := by
  cases h with
  | @mk i hd hf =>
    unfold expandRC expandRegisterArray
    simp only [MaybeArray.info, hd, ok_bind, Option.getD_none, MaybeArray.mapInfo]
    cases hl : i.fields with
    | none => simp only [ok_bind]; rw [← hl, ← hd]
    | some l =>
      obtain ⟨ll, h1, h2⟩ := mapM_self (f := expandField oc ix (n + 1) (b.newRegister i.name))
        (l := l) fun f hf' => expandField_id oc ix (n + 1) _ (hf l hl f hf')
      simp only [h1, ok_bind, h2]
      rw [← hl, ← hd]

theorem expandPeripheral_id (oc : Bool) (ix : Index) (n : Nat) {p : Peripheral}
    (h : FlatPeripheral p) : expandPeripheral oc ix (n + 1) p = .ok [p] := by
  cases h with
  | @mk i hd hf =>
    unfold expandPeripheral
    simp only [MaybeArray.info, hd, ok_bind, Option.getD_none, MaybeArray.mapInfo]
    cases hl : i.registers with
    | none => simp only [ok_bind]; rw [← hl, ← hd]
    | some l =>
      obtain ⟨ll, h1, h2⟩ := mapM_self (f := expandRC oc ix (n + 1) (BlockPath.new i.name))
        (l := l) fun f hf' => expandRC_id oc ix n _ (hf l hl f hf')
      simp only [h1, ok_bind, h2]
      rw [← hl, ← hd]

theorem flat_indexable {d : Device} (h : FlatDevice d) : Indexable d := by
  intro p hp
  cases h p hp with
  | mk _ hr =>
    refine ⟨fun l hl => rcsParts_iff.mpr fun c hc => ?_, trivial⟩
    cases hr l hl c hc with
    | mk _ hf =>
      unfold RcParts
      refine ⟨fun l hl f hf' => ?_, trivial⟩
      cases hf l hl f hf' with
      | mk _ _ => exact ⟨trivial, trivial⟩

/-- **C35.** A device without arrays, clusters and `derivedFrom` is returned unchanged (one level of
recursion is enough). -/
theorem C35_identity (oc : Bool) (fuel : Nat) (d : Device) (h : FlatDevice d) :
    expand oc (fuel + 1) d = .ok d := by
  obtain ⟨ix, hix⟩ := (C43_builds d).mpr (flat_indexable h)
  obtain ⟨ll, h1, h2⟩ := mapM_self (f := expandPeripheral oc ix (fuel + 1)) (l := d.peripherals)
    fun p hp => expandPeripheral_id oc ix fuel (h p hp)
  unfold expand
  simp only [hix, ok_bind, h1, h2]

example : ∃ d', expand true 5 Sample.nested = .ok d' ∧ ∀ oc fuel, expand oc (fuel + 1) d' = .ok d' := by
  obtain ⟨d', h⟩ := ok_of_isOk (x := expand true 5 Sample.nested) (by decide +kernel)
  exact ⟨d', h, fun oc fuel => C35_identity oc fuel d' (C33_flat true 5 _ _ h).1⟩

/-- **C35.** Expanding an expanded device changes nothing. -/
theorem C35_idempotent (oc oc' : Bool) (fuel fuel' : Nat) (d d' : Device)
    (h : expand oc fuel d = .ok d') : expand oc' (fuel' + 1) d' = .ok d' :=
  C35_identity oc' fuel' d' (C33_flat oc fuel d d' h).1

/-- The registers of an expanded sample: name and offset. -/
def sampleRegisters (d : Device) : List (Str × List (Str × Nat)) :=
  d.peripherals.map fun p => (p.info.name, (registersOf p.info.children).map fun r =>
    (r.info.name, r.info.addressOffset.toNat))

-- Expansion of a device with nested arrays succeeds.
example : (expand true 5 Sample.nested).map sampleRegisters = .ok
    ((["P0", "P1"] : List String).map fun p => (p.toList,
      [("C_S0_RA".toList, 0x15), ("C_S0_RB".toList, 0x17), ("C_S1_RA".toList, 0x1d),
       ("C_S1_RB".toList, 0x1f), ("T".toList, 0x40)])) := by decide +kernel

end Svd
