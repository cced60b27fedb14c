import Verif.Model.Build
import Verif.Model.Config
import Verif.Model.Parse

/-!
# Setters of the builders and of the configurations

The setters `bit_range`, `bit_offset` and `bit_width` of fields are in `Build`.
-/

namespace Svd

/-! ## `RegisterProperties` -/

/-- svd-rs/src/registerproperties.rs:99-102 `size`. -/
def RegisterProperties.withSize (b : RegisterProperties) (v : Option U32) : RegisterProperties :=
  { b with size := v }

/-- svd-rs/src/registerproperties.rs:104-107 `access`. -/
def RegisterProperties.withAccess (b : RegisterProperties) (v : Option Access) : RegisterProperties :=
  { b with access := v }

/-- svd-rs/src/registerproperties.rs:109-112 `protection`. -/
def RegisterProperties.withProtection (b : RegisterProperties) (v : Option Protection) : RegisterProperties :=
  { b with protection := v }

/-- svd-rs/src/registerproperties.rs:114-117 `reset_value`. -/
def RegisterProperties.withResetValue (b : RegisterProperties) (v : Option U64) : RegisterProperties :=
  { b with resetValue := v }

/-- svd-rs/src/registerproperties.rs:119-122 `reset_mask`. -/
def RegisterProperties.withResetMask (b : RegisterProperties) (v : Option U64) : RegisterProperties :=
  { b with resetMask := v }

/-! ## `EnumeratedValueBuilder` -/

/-- svd-rs/src/enumeratedvalue.rs:69-72 `name`. -/
def EnumeratedValueBuilder.withName (b : EnumeratedValueBuilder) (v : Str) : EnumeratedValueBuilder :=
  { b with name := some v }

/-- svd-rs/src/enumeratedvalue.rs:74-77 `description`. -/
def EnumeratedValueBuilder.withDescription (b : EnumeratedValueBuilder) (v : Option Str) : EnumeratedValueBuilder :=
  { b with description := v }

/-- svd-rs/src/enumeratedvalue.rs:79-82 `value`. -/
def EnumeratedValueBuilder.withValue (b : EnumeratedValueBuilder) (v : Option U64) : EnumeratedValueBuilder :=
  { b with value := v }

/-- svd-rs/src/enumeratedvalue.rs:85-88 `is_default`. -/
def EnumeratedValueBuilder.withIsDefault (b : EnumeratedValueBuilder) (v : Option Bool) : EnumeratedValueBuilder :=
  { b with isDefault := v }

/-! ## `EnumeratedValuesBuilder` -/

/-- svd-rs/src/enumeratedvalues.rs:68-71 `name`. -/
def EnumeratedValuesBuilder.withName (b : EnumeratedValuesBuilder) (v : Option Str) : EnumeratedValuesBuilder :=
  { b with name := v }

/-- svd-rs/src/enumeratedvalues.rs:73-76 `usage`. -/
def EnumeratedValuesBuilder.withUsage (b : EnumeratedValuesBuilder) (v : Option Usage) : EnumeratedValuesBuilder :=
  { b with usage := v }

/-- svd-rs/src/enumeratedvalues.rs:78-81 `derived_from`. -/
def EnumeratedValuesBuilder.withDerivedFrom (b : EnumeratedValuesBuilder) (v : Option Str) : EnumeratedValuesBuilder :=
  { b with derivedFrom := v }

/-- svd-rs/src/enumeratedvalues.rs:83-86 `values`. -/
def EnumeratedValuesBuilder.withValues (b : EnumeratedValuesBuilder) (v : List EnumeratedValue) : EnumeratedValuesBuilder :=
  { b with values := some v }

/-! ## `DimElementBuilder` -/

/-- svd-rs/src/dimelement.rs:95-98 `dim`. -/
def DimElementBuilder.withDim (b : DimElementBuilder) (v : U32) : DimElementBuilder :=
  { b with dim := some v }

/-- svd-rs/src/dimelement.rs:100-103 `dim_increment`. -/
def DimElementBuilder.withDimIncrement (b : DimElementBuilder) (v : U32) : DimElementBuilder :=
  { b with dimIncrement := some v }

/-- svd-rs/src/dimelement.rs:105-108 `dim_index`. -/
def DimElementBuilder.withDimIndex (b : DimElementBuilder) (v : Option (List Str)) : DimElementBuilder :=
  { b with dimIndex := v }

/-- svd-rs/src/dimelement.rs:110-113 `dim_name`. -/
def DimElementBuilder.withDimName (b : DimElementBuilder) (v : Option Str) : DimElementBuilder :=
  { b with dimName := v }

/-- svd-rs/src/dimelement.rs:115-118 `dim_array_index`. -/
def DimElementBuilder.withDimArrayIndex (b : DimElementBuilder) (v : Option DimArrayIndex) : DimElementBuilder :=
  { b with dimArrayIndex := v }

/-! ## `AddressBlockBuilder` -/

/-- svd-rs/src/addressblock.rs:87-90 `offset`. -/
def AddressBlockBuilder.withOffset (b : AddressBlockBuilder) (v : U32) : AddressBlockBuilder :=
  { b with offset := some v }

/-- svd-rs/src/addressblock.rs:92-95 `size`. -/
def AddressBlockBuilder.withSize (b : AddressBlockBuilder) (v : U32) : AddressBlockBuilder :=
  { b with size := some v }

/-- svd-rs/src/addressblock.rs:97-100 `usage`. -/
def AddressBlockBuilder.withUsage (b : AddressBlockBuilder) (v : AddressBlockUsage) : AddressBlockBuilder :=
  { b with usage := some v }

/-- svd-rs/src/addressblock.rs:102-105 `protection`. -/
def AddressBlockBuilder.withProtection (b : AddressBlockBuilder) (v : Option Protection) : AddressBlockBuilder :=
  { b with protection := v }

/-! ## `InterruptBuilder` -/

/-- svd-rs/src/interrupt.rs:42-45 `name`. -/
def InterruptBuilder.withName (b : InterruptBuilder) (v : Str) : InterruptBuilder :=
  { b with name := some v }

/-- svd-rs/src/interrupt.rs:47-50 `description`. -/
def InterruptBuilder.withDescription (b : InterruptBuilder) (v : Option Str) : InterruptBuilder :=
  { b with description := v }

/-- svd-rs/src/interrupt.rs:52-55 `value`. -/
def InterruptBuilder.withValue (b : InterruptBuilder) (v : U32) : InterruptBuilder :=
  { b with value := some v }

/-! ## `FieldInfoBuilder` -/

/-- svd-rs/src/field.rs:146-149 `name`. -/
def FieldInfoBuilder.withName (b : FieldInfoBuilder) (v : Str) : FieldInfoBuilder :=
  { b with name := some v }

/-- svd-rs/src/field.rs:151-154 `description`. -/
def FieldInfoBuilder.withDescription (b : FieldInfoBuilder) (v : Option Str) : FieldInfoBuilder :=
  { b with description := v }

/-- svd-rs/src/field.rs:187-190 `access`. -/
def FieldInfoBuilder.withAccess (b : FieldInfoBuilder) (v : Option Access) : FieldInfoBuilder :=
  { b with access := v }

/-- svd-rs/src/field.rs:192-195 `modified_write_values`. -/
def FieldInfoBuilder.withModifiedWriteValues (b : FieldInfoBuilder) (v : Option ModifiedWriteValues) : FieldInfoBuilder :=
  { b with modifiedWriteValues := v }

/-- svd-rs/src/field.rs:197-200 `write_constraint`. -/
def FieldInfoBuilder.withWriteConstraint (b : FieldInfoBuilder) (v : Option WriteConstraint) : FieldInfoBuilder :=
  { b with writeConstraint := v }

/-- svd-rs/src/field.rs:202-205 `read_action`. -/
def FieldInfoBuilder.withReadAction (b : FieldInfoBuilder) (v : Option ReadAction) : FieldInfoBuilder :=
  { b with readAction := v }

/-- svd-rs/src/field.rs:207-210 `enumerated_values`. -/
def FieldInfoBuilder.withEnumeratedValues (b : FieldInfoBuilder) (v : List EnumeratedValues) : FieldInfoBuilder :=
  { b with enumeratedValues := some v }

/-- svd-rs/src/field.rs:212-215 `derived_from`. -/
def FieldInfoBuilder.withDerivedFrom (b : FieldInfoBuilder) (v : Option Str) : FieldInfoBuilder :=
  { b with derivedFrom := v }

/-! ## `RegisterInfoBuilder` -/

/-- svd-rs/src/register.rs:183-186 `name`. -/
def RegisterInfoBuilder.withName (b : RegisterInfoBuilder) (v : Str) : RegisterInfoBuilder :=
  { b with name := some v }

/-- svd-rs/src/register.rs:188-191 `display_name`. -/
def RegisterInfoBuilder.withDisplayName (b : RegisterInfoBuilder) (v : Option Str) : RegisterInfoBuilder :=
  { b with displayName := v }

/-- svd-rs/src/register.rs:193-196 `description`. -/
def RegisterInfoBuilder.withDescription (b : RegisterInfoBuilder) (v : Option Str) : RegisterInfoBuilder :=
  { b with description := v }

/-- svd-rs/src/register.rs:198-201 `alternate_group`. -/
def RegisterInfoBuilder.withAlternateGroup (b : RegisterInfoBuilder) (v : Option Str) : RegisterInfoBuilder :=
  { b with alternateGroup := v }

/-- svd-rs/src/register.rs:203-206 `alternate_register`. -/
def RegisterInfoBuilder.withAlternateRegister (b : RegisterInfoBuilder) (v : Option Str) : RegisterInfoBuilder :=
  { b with alternateRegister := v }

/-- svd-rs/src/register.rs:208-211 `address_offset`. -/
def RegisterInfoBuilder.withAddressOffset (b : RegisterInfoBuilder) (v : U32) : RegisterInfoBuilder :=
  { b with addressOffset := some v }

/-- svd-rs/src/register.rs:213-216 `properties`. -/
def RegisterInfoBuilder.withProperties (b : RegisterInfoBuilder) (v : RegisterProperties) : RegisterInfoBuilder :=
  { b with properties := v }

/-- svd-rs/src/register.rs:218-221 `datatype`. -/
def RegisterInfoBuilder.withDatatype (b : RegisterInfoBuilder) (v : Option DataType) : RegisterInfoBuilder :=
  { b with datatype := v }

/-- svd-rs/src/register.rs:223-226 `size`. -/
def RegisterInfoBuilder.withSize (b : RegisterInfoBuilder) (v : Option U32) : RegisterInfoBuilder :=
  { b with properties := { b.properties with size := v } }

/-- svd-rs/src/register.rs:228-231 `access`. -/
def RegisterInfoBuilder.withAccess (b : RegisterInfoBuilder) (v : Option Access) : RegisterInfoBuilder :=
  { b with properties := { b.properties with access := v } }

/-- svd-rs/src/register.rs:233-236 `reset_value`. -/
def RegisterInfoBuilder.withResetValue (b : RegisterInfoBuilder) (v : Option U64) : RegisterInfoBuilder :=
  { b with properties := { b.properties with resetValue := v } }

/-- svd-rs/src/register.rs:238-241 `reset_mask`. -/
def RegisterInfoBuilder.withResetMask (b : RegisterInfoBuilder) (v : Option U64) : RegisterInfoBuilder :=
  { b with properties := { b.properties with resetMask := v } }

/-- svd-rs/src/register.rs:243-246 `modified_write_values`. -/
def RegisterInfoBuilder.withModifiedWriteValues (b : RegisterInfoBuilder) (v : Option ModifiedWriteValues) : RegisterInfoBuilder :=
  { b with modifiedWriteValues := v }

/-- svd-rs/src/register.rs:248-251 `write_constraint`. -/
def RegisterInfoBuilder.withWriteConstraint (b : RegisterInfoBuilder) (v : Option WriteConstraint) : RegisterInfoBuilder :=
  { b with writeConstraint := v }

/-- svd-rs/src/register.rs:253-256 `read_action`. -/
def RegisterInfoBuilder.withReadAction (b : RegisterInfoBuilder) (v : Option ReadAction) : RegisterInfoBuilder :=
  { b with readAction := v }

/-- svd-rs/src/register.rs:258-261 `fields`. -/
def RegisterInfoBuilder.withFields (b : RegisterInfoBuilder) (v : Option (List Field)) : RegisterInfoBuilder :=
  { b with fields := v }

/-- svd-rs/src/register.rs:263-266 `derived_from`. -/
def RegisterInfoBuilder.withDerivedFrom (b : RegisterInfoBuilder) (v : Option Str) : RegisterInfoBuilder :=
  { b with derivedFrom := v }

/-! ## `ClusterInfoBuilder` -/

/-- svd-rs/src/cluster.rs:131-134 `name`. -/
def ClusterInfoBuilder.withName (b : ClusterInfoBuilder) (v : Str) : ClusterInfoBuilder :=
  { b with name := some v }

/-- svd-rs/src/cluster.rs:136-139 `description`. -/
def ClusterInfoBuilder.withDescription (b : ClusterInfoBuilder) (v : Option Str) : ClusterInfoBuilder :=
  { b with description := v }

/-- svd-rs/src/cluster.rs:141-144 `alternate_cluster`. -/
def ClusterInfoBuilder.withAlternateCluster (b : ClusterInfoBuilder) (v : Option Str) : ClusterInfoBuilder :=
  { b with alternateCluster := v }

/-- svd-rs/src/cluster.rs:146-149 `header_struct_name`. -/
def ClusterInfoBuilder.withHeaderStructName (b : ClusterInfoBuilder) (v : Option Str) : ClusterInfoBuilder :=
  { b with headerStructName := v }

/-- svd-rs/src/cluster.rs:151-154 `address_offset`. -/
def ClusterInfoBuilder.withAddressOffset (b : ClusterInfoBuilder) (v : U32) : ClusterInfoBuilder :=
  { b with addressOffset := some v }

/-- svd-rs/src/cluster.rs:156-159 `default_register_properties`. -/
def ClusterInfoBuilder.withDefaultRegisterProperties (b : ClusterInfoBuilder) (v : RegisterProperties) : ClusterInfoBuilder :=
  { b with defaultRegisterProperties := v }

/-- svd-rs/src/cluster.rs:161-164 `children`. -/
def ClusterInfoBuilder.withChildren (b : ClusterInfoBuilder) (v : List RegisterCluster) : ClusterInfoBuilder :=
  { b with children := some v }

/-- svd-rs/src/cluster.rs:166-169 `derived_from`. -/
def ClusterInfoBuilder.withDerivedFrom (b : ClusterInfoBuilder) (v : Option Str) : ClusterInfoBuilder :=
  { b with derivedFrom := v }

/-! ## `PeripheralInfoBuilder` -/

/-- svd-rs/src/peripheral.rs:201-204 `name`. -/
def PeripheralInfoBuilder.withName (b : PeripheralInfoBuilder) (v : Str) : PeripheralInfoBuilder :=
  { b with name := some v }

/-- svd-rs/src/peripheral.rs:206-209 `display_name`. -/
def PeripheralInfoBuilder.withDisplayName (b : PeripheralInfoBuilder) (v : Option Str) : PeripheralInfoBuilder :=
  { b with displayName := v }

/-- svd-rs/src/peripheral.rs:211-214 `version`. -/
def PeripheralInfoBuilder.withVersion (b : PeripheralInfoBuilder) (v : Option Str) : PeripheralInfoBuilder :=
  { b with version := v }

/-- svd-rs/src/peripheral.rs:216-219 `description`. -/
def PeripheralInfoBuilder.withDescription (b : PeripheralInfoBuilder) (v : Option Str) : PeripheralInfoBuilder :=
  { b with description := v }

/-- svd-rs/src/peripheral.rs:221-224 `alternate_peripheral`. -/
def PeripheralInfoBuilder.withAlternatePeripheral (b : PeripheralInfoBuilder) (v : Option Str) : PeripheralInfoBuilder :=
  { b with alternatePeripheral := v }

/-- svd-rs/src/peripheral.rs:226-229 `group_name`. -/
def PeripheralInfoBuilder.withGroupName (b : PeripheralInfoBuilder) (v : Option Str) : PeripheralInfoBuilder :=
  { b with groupName := v }

/-- svd-rs/src/peripheral.rs:231-234 `prepend_to_name`. -/
def PeripheralInfoBuilder.withPrependToName (b : PeripheralInfoBuilder) (v : Option Str) : PeripheralInfoBuilder :=
  { b with prependToName := v }

/-- svd-rs/src/peripheral.rs:236-239 `append_to_name`. -/
def PeripheralInfoBuilder.withAppendToName (b : PeripheralInfoBuilder) (v : Option Str) : PeripheralInfoBuilder :=
  { b with appendToName := v }

/-- svd-rs/src/peripheral.rs:241-244 `header_struct_name`. -/
def PeripheralInfoBuilder.withHeaderStructName (b : PeripheralInfoBuilder) (v : Option Str) : PeripheralInfoBuilder :=
  { b with headerStructName := v }

/-- svd-rs/src/peripheral.rs:246-249 `base_address`. -/
def PeripheralInfoBuilder.withBaseAddress (b : PeripheralInfoBuilder) (v : U64) : PeripheralInfoBuilder :=
  { b with baseAddress := some v }

/-- svd-rs/src/peripheral.rs:251-254 `default_register_properties`. -/
def PeripheralInfoBuilder.withDefaultRegisterProperties (b : PeripheralInfoBuilder) (v : RegisterProperties) : PeripheralInfoBuilder :=
  { b with defaultRegisterProperties := v }

/-- svd-rs/src/peripheral.rs:256-259 `address_block`. -/
def PeripheralInfoBuilder.withAddressBlock (b : PeripheralInfoBuilder) (v : Option (List AddressBlock)) : PeripheralInfoBuilder :=
  { b with addressBlock := v }

/-- svd-rs/src/peripheral.rs:261-264 `interrupt`. -/
def PeripheralInfoBuilder.withInterrupt (b : PeripheralInfoBuilder) (v : Option (List Interrupt)) : PeripheralInfoBuilder :=
  { b with interrupt := v }

/-- svd-rs/src/peripheral.rs:266-269 `registers`. -/
def PeripheralInfoBuilder.withRegisters (b : PeripheralInfoBuilder) (v : Option (List RegisterCluster)) : PeripheralInfoBuilder :=
  { b with registers := v }

/-- svd-rs/src/peripheral.rs:271-274 `derived_from`. -/
def PeripheralInfoBuilder.withDerivedFrom (b : PeripheralInfoBuilder) (v : Option Str) : PeripheralInfoBuilder :=
  { b with derivedFrom := v }

/-! ## `CpuBuilder` -/

/-- svd-rs/src/cpu.rs:147-150 `name`. -/
def CpuBuilder.withName (b : CpuBuilder) (v : Str) : CpuBuilder :=
  { b with name := some v }

/-- svd-rs/src/cpu.rs:152-155 `revision`. -/
def CpuBuilder.withRevision (b : CpuBuilder) (v : Str) : CpuBuilder :=
  { b with revision := some v }

/-- svd-rs/src/cpu.rs:157-160 `endian`. -/
def CpuBuilder.withEndian (b : CpuBuilder) (v : Endian) : CpuBuilder :=
  { b with endian := some v }

/-- svd-rs/src/cpu.rs:162-165 `mpu_present`. -/
def CpuBuilder.withMpuPresent (b : CpuBuilder) (v : Bool) : CpuBuilder :=
  { b with mpuPresent := some v }

/-- svd-rs/src/cpu.rs:167-170 `fpu_present`. -/
def CpuBuilder.withFpuPresent (b : CpuBuilder) (v : Bool) : CpuBuilder :=
  { b with fpuPresent := some v }

/-- svd-rs/src/cpu.rs:172-175 `fpu_double_precision`. -/
def CpuBuilder.withFpuDoublePrecision (b : CpuBuilder) (v : Option Bool) : CpuBuilder :=
  { b with fpuDoublePrecision := v }

/-- svd-rs/src/cpu.rs:177-180 `dsp_present`. -/
def CpuBuilder.withDspPresent (b : CpuBuilder) (v : Option Bool) : CpuBuilder :=
  { b with dspPresent := v }

/-- svd-rs/src/cpu.rs:182-185 `icache_present`. -/
def CpuBuilder.withIcachePresent (b : CpuBuilder) (v : Option Bool) : CpuBuilder :=
  { b with icachePresent := v }

/-- svd-rs/src/cpu.rs:187-190 `dcache_present`. -/
def CpuBuilder.withDcachePresent (b : CpuBuilder) (v : Option Bool) : CpuBuilder :=
  { b with dcachePresent := v }

/-- svd-rs/src/cpu.rs:192-195 `itcm_present`. -/
def CpuBuilder.withItcmPresent (b : CpuBuilder) (v : Option Bool) : CpuBuilder :=
  { b with itcmPresent := v }

/-- svd-rs/src/cpu.rs:197-200 `dtcm_present`. -/
def CpuBuilder.withDtcmPresent (b : CpuBuilder) (v : Option Bool) : CpuBuilder :=
  { b with dtcmPresent := v }

/-- svd-rs/src/cpu.rs:202-205 `vtor_present`. -/
def CpuBuilder.withVtorPresent (b : CpuBuilder) (v : Option Bool) : CpuBuilder :=
  { b with vtorPresent := v }

/-- svd-rs/src/cpu.rs:207-210 `nvic_priority_bits`. -/
def CpuBuilder.withNvicPriorityBits (b : CpuBuilder) (v : U32) : CpuBuilder :=
  { b with nvicPriorityBits := some v }

/-- svd-rs/src/cpu.rs:212-215 `has_vendor_systick`. -/
def CpuBuilder.withHasVendorSystick (b : CpuBuilder) (v : Bool) : CpuBuilder :=
  { b with hasVendorSystick := some v }

/-- svd-rs/src/cpu.rs:217-220 `device_num_interrupts`. -/
def CpuBuilder.withDeviceNumInterrupts (b : CpuBuilder) (v : Option U32) : CpuBuilder :=
  { b with deviceNumInterrupts := v }

/-- svd-rs/src/cpu.rs:222-225 `sau_num_regions`. -/
def CpuBuilder.withSauNumRegions (b : CpuBuilder) (v : Option U32) : CpuBuilder :=
  { b with sauNumRegions := v }

/-! ## `DeviceBuilder` -/

/-- svd-rs/src/device.rs:171-174 `vendor`. -/
def DeviceBuilder.withVendor (b : DeviceBuilder) (v : Option Str) : DeviceBuilder :=
  { b with vendor := v }

/-- svd-rs/src/device.rs:176-179 `vendor_id`. -/
def DeviceBuilder.withVendorId (b : DeviceBuilder) (v : Option Str) : DeviceBuilder :=
  { b with vendorId := v }

/-- svd-rs/src/device.rs:181-184 `name`. -/
def DeviceBuilder.withName (b : DeviceBuilder) (v : Str) : DeviceBuilder :=
  { b with name := some v }

/-- svd-rs/src/device.rs:186-189 `series`. -/
def DeviceBuilder.withSeries (b : DeviceBuilder) (v : Option Str) : DeviceBuilder :=
  { b with series := v }

/-- svd-rs/src/device.rs:191-194 `version`. -/
def DeviceBuilder.withVersion (b : DeviceBuilder) (v : Str) : DeviceBuilder :=
  { b with version := some v }

/-- svd-rs/src/device.rs:196-199 `description`. -/
def DeviceBuilder.withDescription (b : DeviceBuilder) (v : Str) : DeviceBuilder :=
  { b with description := some v }

/-- svd-rs/src/device.rs:201-204 `license_text`. -/
def DeviceBuilder.withLicenseText (b : DeviceBuilder) (v : Option Str) : DeviceBuilder :=
  { b with licenseText := v }

/-- svd-rs/src/device.rs:206-209 `cpu`. -/
def DeviceBuilder.withCpu (b : DeviceBuilder) (v : Option Cpu) : DeviceBuilder :=
  { b with cpu := v }

/-- svd-rs/src/device.rs:211-214 `header_system_filename`. -/
def DeviceBuilder.withHeaderSystemFilename (b : DeviceBuilder) (v : Option Str) : DeviceBuilder :=
  { b with headerSystemFilename := v }

/-- svd-rs/src/device.rs:216-219 `header_definitions_prefix`. -/
def DeviceBuilder.withHeaderDefinitionsPrefix (b : DeviceBuilder) (v : Option Str) : DeviceBuilder :=
  { b with headerDefinitionsPrefix := v }

/-- svd-rs/src/device.rs:221-224 `address_unit_bits`. -/
def DeviceBuilder.withAddressUnitBits (b : DeviceBuilder) (v : U32) : DeviceBuilder :=
  { b with addressUnitBits := some v }

/-- svd-rs/src/device.rs:226-229 `width`. -/
def DeviceBuilder.withWidth (b : DeviceBuilder) (v : U32) : DeviceBuilder :=
  { b with width := some v }

/-- svd-rs/src/device.rs:231-234 `default_register_properties`. -/
def DeviceBuilder.withDefaultRegisterProperties (b : DeviceBuilder) (v : RegisterProperties) : DeviceBuilder :=
  { b with defaultRegisterProperties := v }

/-- svd-rs/src/device.rs:236-239 `peripherals`. -/
def DeviceBuilder.withPeripherals (b : DeviceBuilder) (v : List Peripheral) : DeviceBuilder :=
  { b with peripherals := some v }

/-- svd-rs/src/device.rs:241-244 `xmlns_xs`. -/
def DeviceBuilder.withXmlnsXs (b : DeviceBuilder) (v : Str) : DeviceBuilder :=
  { b with xmlnsXs := some v }

/-- svd-rs/src/device.rs:246-249 `no_namespace_schema_location`. -/
def DeviceBuilder.withNoNamespaceSchemaLocation (b : DeviceBuilder) (v : Str) : DeviceBuilder :=
  { b with noNamespaceSchemaLocation := some v }

/-- svd-rs/src/device.rs:251-254 `schema_version`. -/
def DeviceBuilder.withSchemaVersion (b : DeviceBuilder) (v : Str) : DeviceBuilder :=
  { b with schemaVersion := some v }

/-! ## `EncConfig` -/

/-- svd-encoder/src/config.rs:440-443 `peripheral_name`. -/
def EncConfig.withPeripheralName (b : EncConfig) (v : Option IdentifierFormat) : EncConfig :=
  { b with peripheralName := v }

/-- svd-encoder/src/config.rs:448-451 `peripheral_base_address`. -/
def EncConfig.withPeripheralBaseAddress (b : EncConfig) (v : NumberFormat) : EncConfig :=
  { b with peripheralBaseAddress := v }

/-- svd-encoder/src/config.rs:456-459 `peripheral_sorting`. -/
def EncConfig.withPeripheralSorting (b : EncConfig) (v : DerivableSorting) : EncConfig :=
  { b with peripheralSorting := v }

/-- svd-encoder/src/config.rs:464-467 `address_block_offset`. -/
def EncConfig.withAddressBlockOffset (b : EncConfig) (v : NumberFormat) : EncConfig :=
  { b with addressBlockOffset := v }

/-- svd-encoder/src/config.rs:472-475 `address_block_size`. -/
def EncConfig.withAddressBlockSize (b : EncConfig) (v : NumberFormat) : EncConfig :=
  { b with addressBlockSize := v }

/-- svd-encoder/src/config.rs:478-481 `interrupt_name`. -/
def EncConfig.withInterruptName (b : EncConfig) (v : Option IdentifierFormat) : EncConfig :=
  { b with interruptName := v }

/-- svd-encoder/src/config.rs:484-487 `cluster_name`. -/
def EncConfig.withClusterName (b : EncConfig) (v : Option IdentifierFormat) : EncConfig :=
  { b with clusterName := v }

/-- svd-encoder/src/config.rs:492-495 `cluster_address_offset`. -/
def EncConfig.withClusterAddressOffset (b : EncConfig) (v : NumberFormat) : EncConfig :=
  { b with clusterAddressOffset := v }

/-- svd-encoder/src/config.rs:500-503 `register_cluster_sorting`. -/
def EncConfig.withRegisterClusterSorting (b : EncConfig) (v : RcSorting) : EncConfig :=
  { b with registerClusterSorting := v }

/-- svd-encoder/src/config.rs:506-509 `register_name`. -/
def EncConfig.withRegisterName (b : EncConfig) (v : Option IdentifierFormat) : EncConfig :=
  { b with registerName := v }

/-- svd-encoder/src/config.rs:514-517 `register_address_offset`. -/
def EncConfig.withRegisterAddressOffset (b : EncConfig) (v : NumberFormat) : EncConfig :=
  { b with registerAddressOffset := v }

/-- svd-encoder/src/config.rs:522-525 `register_size`. -/
def EncConfig.withRegisterSize (b : EncConfig) (v : NumberFormat) : EncConfig :=
  { b with registerSize := v }

/-- svd-encoder/src/config.rs:530-533 `register_reset_value`. -/
def EncConfig.withRegisterResetValue (b : EncConfig) (v : NumberFormat) : EncConfig :=
  { b with registerResetValue := v }

/-- svd-encoder/src/config.rs:538-541 `register_reset_mask`. -/
def EncConfig.withRegisterResetMask (b : EncConfig) (v : NumberFormat) : EncConfig :=
  { b with registerResetMask := v }

/-- svd-encoder/src/config.rs:544-547 `field_name`. -/
def EncConfig.withFieldName (b : EncConfig) (v : Option IdentifierFormat) : EncConfig :=
  { b with fieldName := v }

/-- svd-encoder/src/config.rs:552-555 `field_bit_range`. -/
def EncConfig.withFieldBitRange (b : EncConfig) (v : Option BitRangeType) : EncConfig :=
  { b with fieldBitRange := v }

/-- svd-encoder/src/config.rs:560-563 `field_sorting`. -/
def EncConfig.withFieldSorting (b : EncConfig) (v : DerivableSorting) : EncConfig :=
  { b with fieldSorting := v }

/-- svd-encoder/src/config.rs:566-569 `enumerated_values_name`. -/
def EncConfig.withEnumeratedValuesName (b : EncConfig) (v : Option IdentifierFormat) : EncConfig :=
  { b with enumeratedValuesName := v }

/-- svd-encoder/src/config.rs:572-575 `enumerated_value_name`. -/
def EncConfig.withEnumeratedValueName (b : EncConfig) (v : Option IdentifierFormat) : EncConfig :=
  { b with enumeratedValueName := v }

/-- svd-encoder/src/config.rs:580-583 `enumerated_value_value`. -/
def EncConfig.withEnumeratedValueValue (b : EncConfig) (v : NumberFormat) : EncConfig :=
  { b with enumeratedValueValue := v }

/-- svd-encoder/src/config.rs:588-591 `dim_dim`. -/
def EncConfig.withDimDim (b : EncConfig) (v : NumberFormat) : EncConfig :=
  { b with dimDim := v }

/-- svd-encoder/src/config.rs:596-599 `dim_increment`. -/
def EncConfig.withDimIncrement (b : EncConfig) (v : NumberFormat) : EncConfig :=
  { b with dimIncrement := v }

/-! ## `ParseConfig` -/

/-- svd-parser/src/lib.rs:56-59 `validate_level`. -/
def ParseConfig.withValidateLevel (b : ParseConfig) (v : ValidateLevel) : ParseConfig :=
  { b with validateLevel := v }

/-- svd-parser/src/lib.rs:63-66 `expand`. -/
def ParseConfig.withExpand (b : ParseConfig) (v : Bool) : ParseConfig :=
  { b with expand := v }

/-- svd-parser/src/lib.rs:71-74 `expand_properties`. -/
def ParseConfig.withExpandProperties (b : ParseConfig) (v : Bool) : ParseConfig :=
  { b with expandProperties := v }

/-- svd-parser/src/lib.rs:77-80 `ignore_enums`. -/
def ParseConfig.withIgnoreEnums (b : ParseConfig) (v : Bool) : ParseConfig :=
  { b with ignoreEnums := v }

end Svd
