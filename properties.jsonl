{"id": "C01", "title": "Written numbers read back as the same number", "statement": "For every u32 or u64 value and every number format of the encoder configuration (upper/lower hex, 8- and 16-digit padded hex, decimal, binary), the text the encoder writes is accepted by the parser for that integer type and yields exactly the value that was written.", "quantifier": "all u32 values, all u64 values, all eight number formats", "why_tests_cant": "2^64 values times eight formats; off-by-one padding, prefix or case errors can hide at digit-count boundaries.", "anchors": ["svd-encoder/src/config.rs: format_number", "svd-parser/src/types.rs: Parse for u32, Parse for u64"]}
{"id": "C02", "title": "Integer text is accepted exactly when it denotes an in-range number", "statement": "A text is accepted as a u32 (u64) exactly when it is a decimal literal, a 0x/0X hexadecimal literal, a #-binary literal or a 0b-binary literal with don't-care digits read as zero (each with an optional plus sign after the prefix), and its mathematical value is below 2^32 (2^64); the value returned is that mathematical value. In particular nothing is ever silently truncated or wrapped.", "quantifier": "all strings, both integer widths", "why_tests_cant": "The set of strings is infinite and overflow depends on every digit.", "anchors": ["svd-parser/src/types.rs: Parse for u32, Parse for u64"]}
{"id": "C03", "title": "Booleans are read exactly", "statement": "A boolean element is accepted exactly when its trimmed text is one of 0, 1, true, false and returns the corresponding truth value; every other text is an error; what the encoder writes for a boolean reads back as that boolean.", "quantifier": "all texts", "why_tests_cant": "Infinite set of texts.", "anchors": ["svd-parser/src/types.rs: BoolParse", "svd-parser/src/elementext.rs: get_text, get_child_bool"]}
{"id": "C04", "title": "Keyword types are bijective with their spellings", "statement": "For each keyword type (access, enum usage, protection, endianness, read action, modified-write-value, data type, address block usage) reading the spelling that is written for a value gives the value back, and a text is accepted only if it is the spelling of the value returned; so two values never share a spelling.", "quantifier": "all values of the keyword types and all strings", "why_tests_cant": "The acceptance half quantifies over all strings.", "anchors": ["svd-rs/src/access.rs", "svd-rs/src/usage.rs", "svd-rs/src/protection.rs", "svd-rs/src/endian.rs", "svd-rs/src/cpu.rs", "svd-rs/src/readaction.rs", "svd-rs/src/modifiedwritevalues.rs", "svd-rs/src/datatype.rs", "svd-rs/src/addressblock.rs"]}
{"id": "C05", "title": "dimIndex text denotes the documented index list", "statement": "A dimIndex text with a dash is accepted exactly when it is a non-empty ascending decimal range or a non-empty ascending range of single letters of one case and yields the members of that range in order; a text without a dash yields its comma separated pieces. The result is never an empty list.", "quantifier": "all strings", "why_tests_cant": "Infinite set of texts; ranges of every length.", "anchors": ["svd-rs/src/dimelement.rs: DimElement::parse_indexes"]}
{"id": "C06", "title": "Index lists survive writing and reading", "statement": "For every array description whose explicit index list is not empty and not a single empty entry, has as many entries as the array, whose entries contain no comma, dash or whitespace, and does not contain both 0 and 4294967295, the dimIndex element the encoder writes is read back as exactly the same list, whichever of the range or list notation was chosen.", "quantifier": "all index lists of all lengths", "why_tests_cant": "Unbounded lists; the choice between notations depends on all entries.", "anchors": ["svd-encoder/src/dimelement.rs: DimElement::encode", "svd-rs/src/dimelement.rs: indexes_as_range, parse_indexes"]}
{"id": "C07", "title": "A compact index range is offered exactly when the indexes are that range", "statement": "The compact range start..=end is reported exactly when the array has at least one element and its indexes (the explicit list, or 0, 1, ..., n-1 when there is none) are the canonical decimal numerals of start, start+1, ..., end in order. (In overflow-checked builds the computation panics for lists containing both 0 and 2^32-1.)", "quantifier": "all array descriptions", "why_tests_cant": "Unbounded lists; duplicates, gaps, leading zeros and order must all be excluded.", "anchors": ["svd-rs/src/dimelement.rs: indexes_as_range, indexes"]}
{"id": "C08", "title": "All three bit range notations describe the same bits", "statement": "For every lsb <= msb with msb - lsb + 1 representable, the notations [msb:lsb], lsb/msb and bitOffset/bitWidth are all accepted and produce the same offset and width, with lsb() = lsb and msb() = msb (in overflow-checked builds msb() panics when msb is the largest u32); a range with lsb > msb is rejected and never produces a bit range.", "quantifier": "all pairs of u32 values", "why_tests_cant": "2^64 pairs and textual forms.", "anchors": ["svd-rs/src/bitrange.rs", "svd-parser/src/bitrange.rs"]}
{"id": "C09", "title": "Bit ranges survive writing and reading", "statement": "For every bit range of width at least one whose end is representable, in each of the three notations, the elements the encoder writes are parsed back to a bit range with the same offset, width and notation (or the notation forced by the configuration).", "quantifier": "all bit ranges and notations", "why_tests_cant": "2^64 ranges.", "anchors": ["svd-encoder/src/bitrange.rs", "svd-parser/src/bitrange.rs"]}
{"id": "C10", "title": "Name checks accept exactly the documented language", "statement": "check_name accepts exactly the strings of letters, digits and underscores; check_dimable_name accepts exactly: %s optionally followed by an identifier, an identifier optionally followed by [%s], or an identifier with at most one %s after its first character; check_derived_name accepts exactly dot separated sequences of such names. Every accepted array name contains %s at most once.", "quantifier": "all strings", "why_tests_cant": "Regular language equality over an infinite set.", "anchors": ["svd-rs/src/lib.rs: check_name, check_dimable_name, check_derived_name"]}
{"id": "C11", "title": "Stricter validation accepts less", "statement": "Whatever passes validation at Strict passes at Weak and whatever passes at Weak passes at Disabled, for every element kind and for the recursive validation of a whole device; Disabled rejects nothing.", "quantifier": "all values of all element types", "why_tests_cant": "Structural recursion over unbounded trees and all field values.", "anchors": ["svd-rs/src/lib.rs: ValidateLevel", "svd-rs/src/*.rs: validate, validate_all"]}
{"id": "C12", "title": "Reset value check is exactly the arithmetic condition", "statement": "Validation of register properties accepts exactly when the level is Disabled, or a given reset value is below 2^size for a given size and, at Strict, a given mask is below 2^size for a given size and a given value has no bit outside a given mask.", "quantifier": "all sizes, values, masks", "why_tests_cant": "2^160 combinations; the code uses leading_zeros arithmetic.", "anchors": ["svd-rs/src/registerproperties.rs: check_reset_value, validate"]}
{"id": "C13", "title": "A validated field can hold its enumerated and constrained values", "statement": "Validation of a field at Weak accepts exactly when its width is at least one and, if the width is below 64, every enumerated value number is below 2^width and a write-constraint range satisfies minimum <= maximum < 2^width; Strict additionally demands well formed names and the enumeratedValues usage rules.", "quantifier": "all fields", "why_tests_cant": "All widths, values, numbers of enumerated values.", "anchors": ["svd-rs/src/field.rs: FieldInfo::validate", "svd-rs/src/enumeratedvalue.rs: check_range", "svd-rs/src/writeconstraint.rs: check_range"]}
{"id": "C14", "title": "Parsing succeeds only with valid devices", "statement": "If parsing an SVD document at some validation level succeeds, recursive validation of the resulting device at the same level succeeds.", "quantifier": "all XML documents, all levels", "why_tests_cant": "All documents.", "anchors": ["svd-parser/src/*.rs: Parse impls", "svd-rs/src/*.rs: build, validate_all"]}
{"id": "C15", "title": "Lowering the validation level never changes a parse result", "statement": "If parsing succeeds at Strict it succeeds at Weak and Disabled with the same device (and Weak implies Disabled).", "quantifier": "all XML documents", "why_tests_cant": "All documents.", "anchors": ["svd-parser/src/*.rs", "svd-rs/src/*.rs: build"]}
{"id": "C16", "title": "Recursive validation visits every element", "statement": "Recursive validation of a device succeeds exactly when the device, every peripheral, every register and cluster at any depth, every field, every enumerated value group and value, and every set of register properties validates on its own.", "quantifier": "all devices", "why_tests_cant": "Unbounded nesting depth.", "anchors": ["svd-rs/src/device.rs, peripheral.rs, cluster.rs, register.rs, field.rs, enumeratedvalues.rs: validate_all"]}
{"id": "C17", "title": "Builders reproduce values", "statement": "Turning an element into its builder and building it again at a level yields the same element (up to replacing empty strings by absence) exactly when the element validates at that level, and otherwise an error.", "quantifier": "all values of all built types", "why_tests_cant": "All field combinations.", "anchors": ["svd-rs/src/*.rs: From<T> for TBuilder, TBuilder::build"]}
{"id": "C18", "title": "Modification replaces exactly what is given", "statement": "Modifying an element from a builder leaves every attribute the builder does not mention unchanged, sets every mentioned attribute to the given value (an empty text or list removes it), and reports whether the result validates; if the builder mentions derivedFrom, the reference is stored and the attributes to inherit are removed (except for enumeratedValues, see C45).", "quantifier": "all elements, all builders", "why_tests_cant": "All field combinations.", "anchors": ["svd-rs/src/*.rs: modify_from"]}
{"id": "C19", "title": "Derivation: own values win, gaps are inherited, identity is kept", "statement": "For every derivable element, deriving from a base keeps every value the element specifies, takes the base's value for every inheritable value it does not specify, and never changes name, address or offset, bit range, display name, alternates or derivedFrom.", "quantifier": "all pairs of elements", "why_tests_cant": "All combinations of presence and absence.", "anchors": ["svd-rs/src/derive_from.rs"]}
{"id": "C20", "title": "Derivation is idempotent and associative", "statement": "Deriving twice from the same base equals deriving once; deriving from itself changes nothing; deriving along a chain one link at a time equals deriving from the already derived base.", "quantifier": "all elements of each non-array kind", "why_tests_cant": "All triples of elements.", "anchors": ["svd-rs/src/derive_from.rs"]}
{"id": "C21", "title": "Array expansion addresses", "statement": "Expanding an array of n elements yields exactly n instances in index order; instance k has address (or bit offset) base + k*increment with no wrap-around, the k-th index substituted in its name, and all other attributes unchanged; if that address is not representable expansion panics in overflow-checked builds instead of yielding a wrong address.", "quantifier": "all arrays of peripherals, clusters, registers, fields; all k", "why_tests_cant": "Unbounded n and full integer ranges.", "anchors": ["svd-rs/src/array.rs: names, descriptions", "svd-rs/src/register.rs: address_offsets, expand", "svd-rs/src/cluster.rs: expand", "svd-rs/src/peripheral.rs: base_addresses, expand", "svd-rs/src/field.rs: bit_offsets, expand"]}
{"id": "C22", "title": "Array instances have distinct placeholder-free names", "statement": "If the array name contains a placeholder, no instance takes its name from dimArrayIndex, the indexes are distinct and contain no percent sign, and every percent sign of the name begins a placeholder (true of every name that passes validation), the expanded names are pairwise distinct and contain no placeholder; default indexes 0..n-1 satisfy this for any name with a placeholder.", "quantifier": "all names, all index lists", "why_tests_cant": "Unbounded strings and lists.", "anchors": ["svd-rs/src/array.rs: names", "svd-rs/src/dimelement.rs: indexes"]}
{"id": "C23", "title": "Field and register bit masks are exact", "statement": "For a field within 64 bits bit i of its mask is set exactly when lsb <= i <= msb; for a field array exactly when some instance covers it; for a register exactly when some field does.", "quantifier": "all fields, arrays and registers", "why_tests_cant": "All ranges, unbounded numbers of fields.", "anchors": ["svd-rs/src/field.rs: bitmask", "svd-rs/src/register.rs: bitmask"]}
{"id": "C24", "title": "Recursive register iteration lists every register once in document order", "statement": "Iterating over all registers of a peripheral or cluster yields exactly the registers of the tree, each occurrence once, in depth-first document order, and terminates.", "quantifier": "all register/cluster trees", "why_tests_cant": "Unbounded depth and breadth.", "anchors": ["svd-rs/src/registercluster.rs: AllRegistersIter", "svd-rs/src/peripheral.rs: all_registers", "svd-rs/src/cluster.rs: all_registers"]}
{"id": "C25", "title": "Direct iteration partitions the children", "statement": "The registers() and clusters() iterators yield exactly the register children and the cluster children in order, and together cover all children; lookups by name return the first child with that name.", "quantifier": "all children lists", "why_tests_cant": "Unbounded lists.", "anchors": ["svd-rs/src/registercluster.rs: RegisterIter, ClusterIter", "svd-rs/src/peripheral.rs, cluster.rs: registers, clusters, get_register, get_cluster", "svd-rs/src/register.rs: get_field"]}
{"id": "C26", "title": "Writing a device and reading it back is lossless", "statement": "For every device that satisfies the stated well-formedness (trimmed non-empty texts, arrays with placeholder names and matching index lists, non-empty bit ranges, valid at the level), encoding with the default configuration and parsing the resulting XML, with any indentation or comments between elements, at that level returns exactly the same device.", "quantifier": "all well-formed devices, all levels", "why_tests_cant": "Unbounded trees.", "anchors": ["svd-encoder/src/*.rs: encode", "svd-parser/src/*.rs: parse"]}
{"id": "C27", "title": "Encoder options change presentation only", "statement": "With any number formats, any bit range notation and any sorting, re-reading the written device gives the original device except for the requested order and notation.", "quantifier": "all well-formed devices, all configurations without case conversion", "why_tests_cant": "Product of all configurations and devices.", "anchors": ["svd-encoder/src/config.rs", "svd-encoder/src/*.rs"]}
{"id": "C28", "title": "Encoder sorting is a stable ordering that loses nothing", "statement": "For every list of peripherals, registers/clusters or fields and every sorting option, the result is a permutation of the input, ordered by the requested key, equal keys keep their order, derived elements come last when requested, and registers (clusters) come first when requested.", "quantifier": "all lists, all sorting options", "why_tests_cant": "Unbounded lists.", "anchors": ["svd-encoder/src/device.rs: sort_peripherals", "svd-encoder/src/peripheral.rs: sort_register_cluster", "svd-encoder/src/register.rs: sort_fields"]}
{"id": "C29", "title": "Reversed offset sorting gives descending addresses", "statement": "With reversed-offset sorting the elements are written in descending order of address or offset. (Violated by the code for values from 2^31 up: the key is a negated 32-bit signed truncation.)", "quantifier": "all lists of elements", "why_tests_cant": "All address combinations.", "anchors": ["svd-encoder/src/device.rs: sort_derived_peripherals", "svd-encoder/src/peripheral.rs: sort_derived_register_cluster", "svd-encoder/src/register.rs: sort_derived_fields"]}
{"id": "C30", "title": "Parsing ignores layout, comments and unknown elements", "statement": "Inserting or removing comments, processing instructions and whitespace between the child elements of container elements, or adding child elements with tags unknown to the format, does not change the result of parsing.", "quantifier": "all documents, all insertions", "why_tests_cant": "All documents.", "anchors": ["svd-parser/src/elementext.rs", "svd-parser/src/*.rs"]}
{"id": "C31", "title": "ignore_enums drops only enumerations", "statement": "Whenever normal parsing succeeds, parsing with ignore_enums succeeds and returns the same device with enumerated values and write constraints of fields removed.", "quantifier": "all documents", "why_tests_cant": "All documents.", "anchors": ["svd-parser/src/field.rs"]}
{"id": "C32", "title": "Parser panics are confined to two documented inputs", "statement": "Parsing never panics, except when a writeConstraint element has no child element, or (overflow-checked builds) a bit range spans all 2^32 positions; in every other case a result or an error is returned.", "quantifier": "all documents", "why_tests_cant": "Panic freedom over all inputs.", "anchors": ["svd-parser/src/writeconstraint.rs", "svd-parser/src/bitrange.rs", "svd-parser/src/*.rs"]}
{"id": "C33", "title": "Expanded devices are flat", "statement": "Whenever expansion succeeds the resulting device contains no arrays, no clusters and no derivedFrom reference at any level (peripheral, register, field, enumerated values).", "quantifier": "all devices on which expansion returns", "why_tests_cant": "All devices, unbounded nesting and derivation chains.", "anchors": ["svd-parser/src/expand.rs: expand"]}
{"id": "C34", "title": "Expansion never reaches its unreachable branch", "statement": "While expanding any device the branch asserting that clusters have already been flattened is never taken.", "quantifier": "all devices", "why_tests_cant": "All executions.", "anchors": ["svd-parser/src/expand.rs: expand_cluster"]}
{"id": "C35", "title": "Expansion is the identity on flat devices, hence idempotent", "statement": "A device without arrays, clusters and derivedFrom is returned unchanged; expanding an expanded device changes nothing.", "quantifier": "all devices", "why_tests_cant": "All devices.", "anchors": ["svd-parser/src/expand.rs: expand"]}
{"id": "C36", "title": "Expanded registers are the hardware registers", "statement": "For a device without derivedFrom, the registers of each expanded peripheral are, in order, one for every choice of instance of the enclosing cluster arrays and register array, named by joining the instance names with underscores and located at the sum of the instance offsets; peripherals likewise expand in order; everything else in the device is unchanged.", "quantifier": "all devices without derivedFrom whose addresses are representable", "why_tests_cant": "Unbounded nesting.", "anchors": ["svd-parser/src/expand.rs: expand, expand_register_cluster, expand_cluster_array, expand_cluster, expand_register_array"]}
{"id": "C37", "title": "Derivation chains resolve to successive inheritance", "statement": "When a peripheral's chain of derivedFrom references leads through existing peripherals and ends, expansion yields the peripheral obtained by inheriting from each link in turn, nearest first.", "quantifier": "all chains of all lengths", "why_tests_cant": "Unbounded chains.", "anchors": ["svd-parser/src/expand.rs: derive_peripheral, derive_cluster, derive_register, derive_field"]}
{"id": "C38", "title": "Bad references are reported", "statement": "A reference to a missing element or directly to the element itself makes expansion return an error (never a device).", "quantifier": "all devices", "why_tests_cant": "All devices and positions.", "anchors": ["svd-parser/src/expand.rs: derive_*"]}
{"id": "C39", "title": "Expansion terminates", "statement": "Expansion of every device returns (a device or an error). (Violated by the code for a chain leading into a cycle that does not contain the starting element, and for a cluster derived from its own ancestor; holds when the derivation relation is well-founded.)", "quantifier": "all devices", "why_tests_cant": "Termination over all inputs.", "anchors": ["svd-parser/src/expand.rs"]}
{"id": "C40", "title": "Property expansion takes the nearest enclosing value", "statement": "After property expansion each register property of a register outside derived elements is the value given at the register, else at the innermost enclosing cluster that gives one, else at the peripheral, else at the device, else absent; nothing else changes; running it again changes nothing.", "quantifier": "all devices", "why_tests_cant": "Unbounded nesting.", "anchors": ["svd-parser/src/expand.rs: expand_properties"]}
{"id": "C41", "title": "Paths print and parse consistently", "statement": "For path components without dots, printing a block, register or field path and parsing the text returns the same path, and comparing a path with a text is true exactly when the text is the printed path.", "quantifier": "all paths", "why_tests_cant": "Unbounded paths and names.", "anchors": ["svd-parser/src/expand.rs: BlockPath, RegisterPath, FieldPath, EnumPath"]}
{"id": "C42", "title": "Field references never crash expansion", "statement": "Parsing any dotted field reference returns. (Violated by the code: a two component field path such as REG.FIELD panics; holds for every other number of components.)", "quantifier": "all strings", "why_tests_cant": "All strings.", "anchors": ["svd-parser/src/expand.rs: FieldPath::parse_vec"]}
{"id": "C43", "title": "The element index finds every element", "statement": "After indexing a device, looking up the path of any peripheral, cluster, register, field or named enumeration, under its template name or any array instance name, finds an element (the last one registered under that path), and every entry found is an element of the device at that path.", "quantifier": "all devices, all paths", "why_tests_cant": "Unbounded devices.", "anchors": ["svd-parser/src/expand.rs: Index"]}
{"id": "C44", "title": "Builder order independence of field bit ranges", "statement": "Setting bit offset and bit width on a field builder in either order gives the same bit range. (Violated by the code: the offset setter tests the offset instead of the width.)", "quantifier": "all offsets and widths", "why_tests_cant": "All values.", "anchors": ["svd-rs/src/field.rs: FieldInfoBuilder::bit_offset, bit_width"]}
{"id": "C45", "title": "Modifying enumerated values to be derived", "statement": "Modifying an enumerated-values group with a builder that sets derivedFrom results in a group deriving from that reference. (Violated by the code: the reference is dropped, leaving an empty group that fails validation.)", "quantifier": "all groups and builders", "why_tests_cant": "All values.", "anchors": ["svd-rs/src/enumeratedvalues.rs: modify_from"]}
{"id": "C46", "title": "Byte order mark handling", "statement": "Removing the byte order mark strips exactly one leading UTF-8 BOM and otherwise returns the text unchanged.", "quantifier": "all strings", "why_tests_cant": "All strings.", "anchors": ["svd-parser/src/lib.rs: trim_utf8_bom"]}
{"id": "C47", "title": "Serialised bit ranges and index lists read back", "statement": "The serde representation of a bit range (in each notation) and of an index list deserialises to the same value.", "quantifier": "all bit ranges and index lists", "why_tests_cant": "All values.", "anchors": ["svd-rs/src/bitrange.rs: SerBitRange", "svd-rs/src/dimelement.rs: serialize_dim_index, deserialize_dim_index"]}
{"id": "C48", "title": "Encoder configuration by key", "statement": "Updating the encoder configuration with a known key and a valid value changes exactly that option to the value denoted; unknown keys change nothing; an invalid value panics.", "quantifier": "all keys and values", "why_tests_cant": "All strings.", "anchors": ["svd-encoder/src/config.rs: Config::update, FromStr impls"]}
{"id": "C49", "title": "Enumerated values: effective usage and lookup", "statement": "The effective usage of a group is its declared usage, read-write by default, and unknown when derived; selecting the groups of a field for a usage returns exactly those; the default value of a group is its first value marked default; value lookup returns the first value with that name.", "quantifier": "all fields and groups", "why_tests_cant": "Unbounded lists.", "anchors": ["svd-rs/src/enumeratedvalues.rs", "svd-rs/src/field.rs: get_enumerated_values"]}
{"id": "C50", "title": "Encoding panics only on unrepresentable ranges", "statement": "Encoding a device under a configuration without reversed-offset sorting never panics when every bit range has width at least one and offset+width below 2^32, every index list has at least as many entries as the array and not both 0 and 2^32-1; so every device obtained by parsing a document with bit ranges below 2^32-1 can be written.", "quantifier": "all devices and configurations", "why_tests_cant": "Panic freedom over all inputs.", "anchors": ["svd-encoder/src/bitrange.rs", "svd-encoder/src/dimelement.rs", "svd-rs/src/bitrange.rs: msb, bit_range", "svd-rs/src/dimelement.rs: indexes_as_range"]}
{"id": "C51", "title": "Setters do not affect each other", "statement": "For every builder and every configuration type, calling all setters once, in any order, on any earlier state of the builder gives the builder with exactly the values set; so the result of build() depends only on the last value given to each setter.", "quantifier": "all builder states, all argument values, all orders of calls", "why_tests_cant": "Orders of calls grow factorially and argument values are unbounded; a setter writing the wrong member shows only for the right combination.", "anchors": ["svd-rs/src/*.rs: builder methods", "svd-encoder/src/config.rs: Config", "svd-parser/src/lib.rs: Config"]}
{"id": "C52", "title": "Mutable iterators and lookups reach exactly the elements of the shared ones", "statement": "A loop over all_registers_mut hands every register of the tree to the caller exactly once, in the order of all_registers, whatever the caller writes, and changes nothing else; registers_mut and clusters_mut do the same for direct children; every get_mut_* refers to the element that the matching get_* returns, and only this element is changed.", "quantifier": "all register trees, all caller actions with a state", "why_tests_cant": "Trees have unbounded depth and width, and the caller's writes are arbitrary.", "anchors": ["svd-rs/src/registercluster.rs: RegisterIterMut, ClusterIterMut, AllRegistersIterMut", "svd-rs/src/cluster.rs", "svd-rs/src/peripheral.rs", "svd-rs/src/register.rs: get_mut_field", "svd-rs/src/field.rs: get_mut_enumerated_values", "svd-rs/src/enumeratedvalues.rs: get_mut_value", "svd-rs/src/device.rs: get_mut_peripheral"]}
{"id": "C53", "title": "A device read from a file is written and read again unchanged", "statement": "If a document with no blank text and no empty list of fields is read at a level that checks anything, with enumerations, and the numbers of the device are not at the very end of their ranges, then the device is written with the default configuration and reading the result, however it is laid out, returns exactly the same device.", "quantifier": "all documents, all levels other than Disabled", "why_tests_cant": "The second reading must agree for every document, including nested arrays, index lists and all notations of ranges.", "anchors": ["svd-parser/src/device.rs", "svd-parser/src/register.rs", "svd-parser/src/elementext.rs", "svd-encoder/src/device.rs", "svd-encoder/src/register.rs"]}
{"id": "C54", "title": "Devices survive a conversion with serde, except arrays without index list", "statement": "A device whose bit ranges have at least one bit and end before bit 2^32-1 and whose index lists are not empty and contain no '-' or ',' can be serialised, and deserialising the value, with the entries of maps in any order, returns the same device, except that arrays without index list become single elements and the schema attributes are reset. Devices read from SVD documents satisfy the conditions on index lists. If every array has an index list and the attributes are the default ones, nothing changes.", "quantifier": "all devices, all orders of map entries", "why_tests_cant": "Devices are unbounded trees with flattened, optional and untagged parts whose keys could clash.", "anchors": ["svd-rs/src/array.rs", "svd-rs/src/dimelement.rs: ser_de", "svd-rs/src/bitrange.rs: ser_de", "svd-rs/src/device.rs", "svd-rs/src/registercluster.rs"]}
{"id": "C55", "title": "Written files have their elements in the prescribed order", "statement": "Under every configuration of the encoder, every element of a written file has its children in the order that the CMSIS-SVD format prescribes, required children exactly once, optional ones at most once, repeated ones together, and only the attributes it may have.", "quantifier": "all devices, all encoder configurations", "why_tests_cant": "Any combination of present and missing values, at any depth, must keep the order; reading the file back does not notice a wrong order.", "anchors": ["svd-encoder/src/device.rs", "svd-encoder/src/peripheral.rs", "svd-encoder/src/cluster.rs", "svd-encoder/src/register.rs", "svd-encoder/src/field.rs", "svd-encoder/src/dimelement.rs"]}
{"id": "C56", "title": "Expansion with references is exactly resolution followed by instantiation", "statement": "For every device, with references of any kind at any level, expand succeeds with enough steps exactly if a full expansion exists, and returns it: every reference is followed through its chain to the end, properties not given are taken from the chain, relative references of inherited children are looked up where the children come from if the last element of the chain has them, arrays are replaced by their instances, and this is done at every level. The full expansion is unique, and without references it is the expansion of arrays alone.", "quantifier": "all devices", "why_tests_cant": "References of four kinds interact with arrays and with each other at unbounded depth.", "anchors": ["svd-parser/src/expand.rs: expand", "svd-parser/src/expand.rs: derive_peripheral", "svd-parser/src/expand.rs: expand_cluster_array", "svd-parser/src/expand.rs: expand_register_array", "svd-parser/src/expand.rs: expand_field", "svd-rs/src/derive_from.rs"]}
{"id": "C57", "title": "Expansion keeps valid devices valid if they have no references", "statement": "A device without references that passes validation at level Weak, not all of whose peripherals are in empty arrays, passes it after expansion. At level Strict the same holds if arrays are not empty and the names of single elements and of array instances are identifiers; they are if the name is valid, does not begin with the placeholder, and the indexes consist of letters, digits and underscores. Without these conditions, or with references, validity can be lost.", "quantifier": "all devices", "why_tests_cant": "Validation is a conjunction over an unbounded tree, and expansion rebuilds all of it.", "anchors": ["svd-parser/src/expand.rs: expand", "svd-rs/src/device.rs: validate_all", "svd-rs/src/lib.rs: check_dimable_name", "svd-rs/src/registerproperties.rs: check_reset_value"]}
{"id": "C58", "title": "Every error is true of the node it is attached to", "statement": "If reading a device fails, the error carries the position of an element inside the device, and what the error says is true of that element: the missing child is required there and absent, the number or keyword named is the text of the element and not of the expected form, the name, range, reset value, index list or enumeration complained about is there and violates the stated condition, and the validation level is one that demands it. Attaching positions changes nothing else, and looking up the position of an error never panics; only a missing device is reported without a position.", "quantifier": "all documents, all validation levels", "why_tests_cant": "There are some 40 kinds of errors, each of which can occur at many places of an unbounded tree, attached to the wrong node or with the wrong text.", "anchors": ["svd-parser/src/lib.rs: SVDErrorAt", "svd-parser/src/lib.rs: parse_with_config", "svd-parser/src/elementext.rs", "svd-parser/src/field.rs", "svd-parser/src/register.rs", "svd-parser/src/device.rs"]}
{"id": "C59", "title": "Error messages name the enclosing elements", "statement": "The messages added to an error are, in this order: the tag and name of the element that it is attached to (or that it has none) and its position; then for each enclosing device, peripheral, register, field, enumeratedValue and interrupt, innermost first, its tag and name. The last one is always about the device. Enclosing clusters are never mentioned.", "quantifier": "all documents", "why_tests_cant": "Depends on the whole path from the root to the error in an unbounded tree.", "anchors": ["svd-parser/src/lib.rs: parse_with_config"]}
{"id": "C60", "title": "The parser accepts exactly the documents that describe a device", "statement": "Reading a document returns a device d exactly when the first device element on its top level describes d: every value of d is the one that the first child of the prescribed name has (or its absence, or for the device the default that is allowed below the level Strict), every list has one entry for each element of the prescribed name in the order of the document, elements of other names are ignored or rejected as prescribed, arrays have a placeholder and as many indexes as elements, bit ranges are in one of three notations, and all values satisfy the conditions of the validation level. An element describes at most one device.", "quantifier": "all documents, all validation levels, with and without enumerated values, with and without overflow checks", "why_tests_cant": "The whole input language of the parser: about 100 child elements with their types, defaults, repetition and nesting of unbounded depth.", "anchors": ["svd-parser/src/device.rs", "svd-parser/src/peripheral.rs", "svd-parser/src/cluster.rs", "svd-parser/src/register.rs", "svd-parser/src/field.rs", "svd-parser/src/bitrange.rs", "svd-parser/src/dimelement.rs", "svd-parser/src/enumeratedvalues.rs", "svd-parser/src/lib.rs: array"]}
{"id": "C61", "title": "Builders filled in by hand build exactly what was given, or name the first missing member", "statement": "For every builder, however it was filled in, and every level: building succeeds with an element exactly if all mandatory members are given, every member of the element is the one given (empty texts of fields, clusters, peripherals, dimensions and enumerated values count as absent, lists not given are empty, and devices have their defaults below level Strict), and the element passes validation at the level. Building complains about a missing member exactly if it is the first mandatory one that is not given, where register properties are validated before the children of clusters and the peripherals of devices are asked for.", "quantifier": "all builders, all levels", "why_tests_cant": "All combinations of given and missing members with all values.", "anchors": ["svd-rs/src/*.rs: TBuilder::build"]}
{"id": "C62", "title": "What reading a file with both expansions returns", "statement": "For every document and every configuration: reading returns a device exactly if the first device element on the top level describes a device, whose register properties are then filled in from the nearest level if wanted, and whose references and arrays are then expanded if wanted, in this order; and it returns at most one device. With both expansions and no references, the registers returned are exactly the hardware registers of the file, each with every property of the nearest of register, clusters, peripheral and device that gives it. With references, every register returned gives every property that the device gives, if peripherals and clusters with a reference have nothing of their own inside; without this condition it is false.", "quantifier": "all documents, all configurations, all devices", "why_tests_cant": "All nestings of clusters, arrays and references with all combinations of given properties.", "anchors": ["svd-parser/src/lib.rs:118-179 parse_with_config", "svd-parser/src/expand.rs:692-723 expand_properties", "svd-parser/src/expand.rs:632-687 expand"]}
{"id": "C63", "title": "How the expansion of a device fails", "statement": "For every device, with overflow checks: expansion ends with a fault exactly if the device has this fault, and every device has either exactly one expansion or exactly one fault. The fault is that an index list is too short anywhere in the device; otherwise that of the first peripheral that has any. A peripheral, cluster, register, field or list of enumerated values has the fault of its reference (to itself, to something that is not there, a field reference of exactly two components, or references that never end), otherwise that of the first element inside what the reference resolves to, otherwise an overflow because some instance does not fit into the address space. Expansion never returns exactly if the first fault is a chain of references that never ends or a cluster whose expansion asks for itself.", "quantifier": "all devices", "why_tests_cant": "All combinations of references, nestings and arrays, and runs that do not end.", "anchors": ["svd-parser/src/expand.rs:344-690 expand", "svd-rs/src/register.rs:123, cluster.rs:85, peripheral.rs:137, field.rs:93 expand"]}
{"id": "C64", "title": "What is read from a JSON or YAML value", "statement": "For every value, with and without overflow checks: reading a device with serde succeeds exactly if the value is a map whose entries say what a device is, and returns that device. Mandatory members are given exactly once and not null where no null is meant; optional members may be missing or null; lists may be missing; numbers fit their type; words are spelled as in the documents (data types in snake case). The members of register properties and dim elements stand in the same map. The bits of a field are given by the first complete notation of bitRange, bitOffset with bitWidth, lsb with msb. An element is an array exactly if its dim entries can be read. Keys given twice are rejected, unknown keys ignored. Reading either reports an error or, only with overflow checks, panics because msb is below lsb or the width does not fit.", "quantifier": "all values and devices", "why_tests_cant": "Every member of every struct, in every combination of missing, null, repeated and malformed entries, and clusters nested to any depth.", "anchors": ["svd-rs/src/device.rs:15-108", "svd-rs/src/peripheral.rs:24-126", "svd-rs/src/cluster.rs:24-74", "svd-rs/src/register.rs:21-112", "svd-rs/src/field.rs:21-85", "svd-rs/src/bitrange.rs:84-145 SerBitRange", "svd-rs/src/array.rs:108-148", "svd-rs/src/dimelement.rs:6-45, 262-279", "svd-rs/src/registercluster.rs:4-16"]}
{"id": "C65", "title": "What is written for a device", "statement": "For every device, every configuration of the encoder and every conversion of names, with and without overflow checks: encoding succeeds with a tree exactly if the tree is the one the specification gives. Each element stands at its place and only if the member is present; each number is printed in the number format of the option that belongs to this element (decimal where there is none); each name in the identifier format of its element, with the placeholder restored; keywords as in the schema; the bits of a field in the notation asked for or else its own; the indexes of an array as a range exactly if they are one; peripherals, fields, registers and clusters in the order asked for. The number formats are specified independently of the printing code (alphabet, prefix, number of digits, no superfluous zeros), the orders as stable sorting by the key.", "quantifier": "all devices, all configurations, all conversion functions", "why_tests_cant": "Twenty-three options times every member of every struct; a format taken from the wrong option is invisible after reading back.", "anchors": ["svd-encoder/src/config.rs:41-64 change_case, 120-151 format_number", "svd-encoder/src/device.rs:12-134", "svd-encoder/src/peripheral.rs:15-203", "svd-encoder/src/cluster.rs:13-75", "svd-encoder/src/register.rs:15-160", "svd-encoder/src/field.rs:10-71", "svd-encoder/src/bitrange.rs:8-25", "svd-encoder/src/dimelement.rs:8-57", "svd-encoder/src/enumeratedvalues.rs:8-34", "svd-encoder/src/enumeratedvalue.rs:11-34", "svd-encoder/src/registerproperties.rs:8-38", "svd-encoder/src/addressblock.rs:8-33", "svd-encoder/src/interrupt.rs:8-20", "svd-encoder/src/cpu.rs:7-55", "svd-rs/src/dimelement.rs:168-189 indexes_as_range"]}
{"id": "C66", "title": "What is written as JSON or YAML", "statement": "For every device, with and without overflow checks: serializing it with serde succeeds with a value exactly if the value is the one the specification gives. Each map has only the declared keys, in the declared order; a key is there exactly if the member is present (for some lists: not empty); words are spelled as in the documents (data types in snake case); the bits of a field stand in its own notation; the indexes of an array are one text; the description of an array comes before the members of the element. Nothing is written as null and no key occurs twice. Serializing fails exactly if, with overflow checks, the last bit of some field has to be named and does not exist or does not fit, and then it panics. Devices whose index lists can be recovered from one text are written differently unless they differ only in the document attributes.", "quantifier": "all devices", "why_tests_cant": "Every member of every struct, present and absent in every combination, and clusters nested to any depth; a key renamed in writer and reader alike is invisible after reading back.", "anchors": ["svd-rs/src/device.rs:15-108", "svd-rs/src/peripheral.rs:24-126", "svd-rs/src/cluster.rs:24-74", "svd-rs/src/register.rs:21-112", "svd-rs/src/field.rs:21-85", "svd-rs/src/bitrange.rs:84-128", "svd-rs/src/array.rs:108-131", "svd-rs/src/dimelement.rs:6-45, 281-286", "svd-rs/src/registercluster.rs:4-16", "svd-rs/src/writeconstraint.rs:4-29", "svd-rs/src/cpu.rs:3-99"]}
{"id": "C67", "title": "Property expansion and validity", "statement": "For every device and every level: the device is valid after expand_properties exactly if it was valid before and, for every register outside derived elements, the properties given by the register and the levels around it, each from the nearest level that gives it, are valid together (the reset value fits the size; at level Strict also the mask, and the value lies within the mask). So expansion repairs nothing; it keeps devices valid whose levels give size, reset value and reset mask together or not at all; and it can make a valid device invalid.", "quantifier": "all devices, all levels, clusters nested to any depth", "why_tests_cant": "The condition is about every combination of levels; the parser validates before it expands, so no test sees the result being invalid.", "anchors": ["svd-parser/src/expand.rs:692-735 expand_properties", "svd-rs/src/registerproperties.rs:91-97 validate, 130-160 check_reset_value", "svd-parser/src/lib.rs:165-180 parse_with_config"]}
{"id": "C68", "title": "Expand, write, read back", "statement": "For every device that can be written (C26) and whose arrays have at least one element and indexes without whitespace around them, with references at any level: if it expands to a device that is valid at the level and whose fields end before bit 2^32 - 1, then writing the expanded device with the default configuration succeeds and reading the file back, however it is laid out, gives exactly the expanded device, also when expansion is requested again. For devices without references validity and the position of the fields follow from conditions on the device itself.", "quantifier": "all devices, all names and index lists, all layouts of the file", "why_tests_cant": "Every text of the expanded device is put together from texts of other elements and indexes; whether whitespace appears at an end depends on all of them.", "anchors": ["svd-parser/src/expand.rs:454-690", "svd-rs/src/array.rs:62-93 names, descriptions", "svd-rs/src/peripheral.rs:137 expand", "svd-rs/src/cluster.rs:85 expand", "svd-rs/src/register.rs:123 expand", "svd-rs/src/field.rs:93 expand", "svd-encoder/src/lib.rs:53-98", "svd-parser/src/lib.rs:115-180"]}
{"id": "C69", "title": "Expansion is following references, then expanding", "statement": "A device with references expands to a device if and only if the device that comes from following all references (of peripherals, clusters, registers, fields and enumerated values; arrays and clusters stay) has no references and expands to it. There is at most one such device in between. If the device is valid at a level, then following the references can break no validation rules but these: size against reset value and reset mask, width of a field against enumerated values and write constraint, the usages of two groups of enumerated values, and an empty list of fields or registers; each of them can be broken. If they hold, the expanded device is valid as well, under the conditions that devices without references need.", "quantifier": "all devices, all chains of references, all levels", "why_tests_cant": "References are followed while arrays and clusters are taken apart, with paths that depend on where the children come from; that the two can be separated is a statement about all devices.", "anchors": ["svd-parser/src/expand.rs:344-690", "svd-rs/src/derive_from.rs:9-136", "svd-rs/src/device.rs:387-399 validate_all"]}
{"id": "C70", "title": "Peripherals are expanded independently of each other", "statement": "What a peripheral becomes depends only on the peripherals its references lead to. If two devices both expand and every name of a peripheral of the first stands for the same peripherals in the second, then every peripheral of the first becomes the same in both; so peripherals with new names can be added in front or at the end. If no reference leaves a set of peripherals, the other peripherals can be removed and the rest still expands, to the same. If no two peripherals share a name (their own names and the names of array elements), any other order of the peripherals expands as well, and to the same peripherals in the other order. With a repeated name the order matters: the last one is referred to.", "quantifier": "all devices, all references at any level, all peripherals added or removed, all orders", "why_tests_cant": "The index is one table for the whole device; that entries of other peripherals are never consulted, also not when a bare name of enumerated values is looked for in several fields, is a statement about all devices.", "anchors": ["svd-parser/src/expand.rs:240-342", "svd-parser/src/expand.rs:344-690"]}
{"id": "C71", "title": "The order of elements with different names does not matter to the reader", "statement": "Two documents that differ only in the order of attributes and in the order of neighbouring child elements with different names, at any depth, are read to the same device or fail with the same error, with any options. Excepted are places where order has a meaning: the items of a list (peripherals, registers, fields, enumerated values; the name, header name and usage in front of enumerated values may stand anywhere) and the registers and clusters of a cluster. So a device is read back from what was written for it also if the elements are put in another order.", "quantifier": "all documents, all reorderings, all parse options", "why_tests_cant": "Every reading function takes children by name in its own way; that none depends on the place of another child is a statement about all trees and all permutations.", "anchors": ["svd-parser/src/device.rs:5-61", "svd-parser/src/cluster.rs:5-41", "svd-parser/src/enumeratedvalues.rs:4-37", "svd-parser/src/elementext.rs:1-114"]}
{"id": "C72", "title": "Validation reports the first broken rule", "statement": "Validation of a device, peripheral, cluster, register or field fails exactly when a rule of its level is broken, and then with the error of the first broken rule, with the offending numbers and names in it. The rules are checked in this order: of a device the register properties, then each peripheral, then the device itself; of a peripheral the properties, then all its registers, then all its clusters, then itself; of a register the properties, the fields, itself; of a field the enumerated values group by group, then the field: names, width, values of the groups, usages, write constraint. Validation never panics.", "quantifier": "all devices and parts, all three validation levels", "why_tests_cant": "Tests for errors break one rule at a time; which error wins, and that nothing else can be reported, is about all combinations.", "anchors": ["svd-rs/src/device.rs:377-396", "svd-rs/src/peripheral.rs:382-419", "svd-rs/src/cluster.rs:250-275", "svd-rs/src/register.rs:366-396", "svd-rs/src/field.rs:303-357", "svd-rs/src/enumeratedvalues.rs:134-161", "svd-rs/src/enumeratedvalue.rs:134-153", "svd-rs/src/registerproperties.rs:102-140"]}
{"id": "C73", "title": "Every reported error can be shown, and its text tells it", "statement": "The text of every error that validation, reading a document or expansion can report is made without a panic: the one overflow in the texts, the end of an empty range of values, cannot be reported. Two such errors with the same text are the same, with all numbers and names in them; only the tag of a bad name is not told, and nothing is claimed about the quoting of the parent field by the standard library. For a value that does not fit into its field the text gives the range from 0 to the largest value of the width of the field. The text contains the names and numbers of the error one after the other, numbers in decimal notation or, for values and masks of registers, in hexadecimal notation after 0x, with no other digits next to them.", "quantifier": "all documents, devices and errors, with and without overflow checks", "why_tests_cant": "No test looks at the texts; that all texts differ, for all names in them, is a statement about all pairs of errors.", "anchors": ["svd-parser/src/lib.rs:224-267", "svd-rs/src/lib.rs:134-187", "svd-rs/src/enumeratedvalue.rs:35-45", "svd-rs/src/registerproperties.rs:5-15", "svd-rs/src/writeconstraint.rs:33-40", "svd-parser/src/expand.rs:402-644"]}
{"id": "C74", "title": "Overflow checks change only what overflows", "statement": "For every input, a build with overflow checks and a build without them end in the same way - same result, same error, same panic, or both without end - unless the checked build panics because of an arithmetic overflow. This holds for parsing with any configuration, expansion, writing XML, serialising, deserialising, bit masks and the texts of errors. In particular the fault that a device has on expansion (C63) is also its fault without checks, unless it is an overflow.", "quantifier": "for all documents, devices, JSON values, fields, registers, errors, configurations and numbers of steps", "why_tests_cant": "Tests run in one build profile on chosen inputs; that the profiles agree outside overflows is a statement about all inputs and both profiles.", "anchors": ["svd-rs/src/bitrange.rs", "svd-rs/src/field.rs", "svd-rs/src/dimelement.rs", "svd-parser/src/expand.rs", "svd-parser/src/bitrange.rs", "svd-encoder/src/device.rs"]}
{"id": "C75", "title": "Changing the case of identifiers renames exactly the configured identifiers", "statement": "For every configuration of the encoder and every case conversion: if the device with its identifiers renamed as the configuration asks can be expressed at the level, then reading the written file gives exactly that renamed device, in the order and notation asked for, and nothing else is different. Each kind of identifier is renamed by its own format: peripherals (with alternatePeripheral, prependToName, appendToName, headerStructName and derivedFrom), interrupts, clusters (with alternateCluster, derivedFrom), registers (with alternateRegister, derivedFrom), fields (with derivedFrom), enumerated values (with derivedFrom), their entries (also those of dimArrayIndex), headerEnumName. Elements are ordered by the names before the conversion. Violated wish: references with a path (P.R) are converted as a whole in the format of the referring kind, so with different formats a device that can be expanded is written as one that cannot.", "quantifier": "all devices, configurations, conversion functions, levels, layouts of the file; with and without overflow checks", "why_tests_cant": "Four formats for eight kinds of identifiers at every place of every device, with any conversion.", "anchors": ["svd-encoder/src/config.rs:41-64 change_case", "svd-encoder/src/peripheral.rs:31-139", "svd-encoder/src/cluster.rs:29-75", "svd-encoder/src/register.rs:31-111", "svd-encoder/src/field.rs:26-71", "svd-encoder/src/enumeratedvalues.rs:8-34", "svd-encoder/src/enumeratedvalue.rs:11-34", "svd-encoder/src/dimelement.rs:42-57", "svd-encoder/src/interrupt.rs:8-20", "svd-parser/src/expand.rs"]}
{"id": "C76", "title": "An expanded device survives serialisation", "statement": "For every device that expands to a result whose fields have ranges that can be written: the result can be serialised, and deserialising it, in whatever order the entries come, gives the same device except for the three schema attributes, which are not serialised. What comes back is still expanded: expanding it again changes nothing.", "quantifier": "for all devices, numbers of steps, orders of entries, with and without overflow checks", "why_tests_cant": "Arrays can be lost by serialisation (C54); that no expanded device has any is a fact about all devices.", "anchors": ["svd-parser/src/expand.rs:657", "svd-rs/src/device.rs", "svd-rs/src/field.rs", "svd-rs/src/array.rs"]}
{"id": "C77", "title": "Expansion keeps the numbers of elements", "statement": "For every device without references that can be expanded: each peripheral becomes as many peripherals as its array has elements, each with as many registers as the description stands for (a register counts once for every element of its own array and of those of all clusters around it), and as many fields; no list appears or disappears. So the totals of the device stay. A device with references has the totals of the device in which the references are replaced by what they stand for.", "quantifier": "for all devices and numbers of steps, with and without overflow checks", "why_tests_cant": "Nested arrays of any depth and any sizes, also where addresses wrap.", "anchors": ["svd-parser/src/expand.rs:321-657"]}
{"id": "C78", "title": "Expansion keeps the bit masks", "statement": "For every device without references whose fields all begin within 64 bits and have 1 to 64 bits: the bit masks of the registers of each expanded peripheral are, in order, the bit masks of the registers that its description stands for. Without the condition this is violated: the mask of a field array silently drops elements that begin at bit 64 or later, while the mask of the expanded register panics.", "quantifier": "for all devices and numbers of steps, with and without overflow checks", "why_tests_cant": "The mask of a field array is computed by a loop of shifts and the expanded fields by adding offsets; that both agree is a statement about all ranges, increments and nestings.", "anchors": ["svd-rs/src/field.rs:379-429", "svd-rs/src/register.rs:425-427", "svd-parser/src/expand.rs"]}
{"id": "C79", "title": "Positions do not matter for whether and how expansion fails", "statement": "Expanding a device without overflow checks gives the same as expanding, with checks, the device in which all base addresses, address offsets, bit offsets and array increments are zero, except for these positions: the same fault, or the same elements with the same names and everything else in the same order. With checks the same holds unless there is an overflow. So two devices that differ in positions only have the same fault or expansions that differ in positions only. Therefore C63, C39 and C56 also describe builds without checks: the fault (also the endless one) and the expansion, apart from positions, of a device are those of the device with all positions zero.", "quantifier": "for all devices and numbers of steps, with and without overflow checks", "why_tests_cant": "A statement about pairs of runs on all devices and all positions, including those where addresses wrap.", "anchors": ["svd-parser/src/expand.rs:243-688", "svd-rs/src/derive_from.rs", "svd-rs/src/array.rs", "svd-rs/src/peripheral.rs:129-155", "svd-rs/src/register.rs:115-141", "svd-rs/src/cluster.rs:77-99", "svd-rs/src/field.rs:88-107"]}
{"id": "C80", "title": "Modifying again, modifying with nothing, and modifications that fail", "statement": "Modifying an element a second time with the same builder changes nothing and gives the same result. An empty builder changes nothing, and its result tells whether the element is valid. If a modification fails, the element is changed nevertheless: if the properties turn out invalid, identity and properties are those asked for, but the members after them (of registers: data type, modified write values, write constraint, read action, fields; of clusters: children; of peripherals: registers; of devices: peripherals and the attributes of the document) are still the old ones; otherwise everything is changed.", "quantifier": "for all elements of all 12 types, builders and levels of validation", "why_tests_cant": "Statements about two calls in a row and about the state after an error, for all combinations of present and absent members.", "anchors": ["svd-rs/src/register.rs:315-364", "svd-rs/src/cluster.rs", "svd-rs/src/peripheral.rs", "svd-rs/src/device.rs:318-374", "svd-rs/src/registerproperties.rs", "svd-rs/src/field.rs"]}
{"id": "C81", "title": "When writing XML fails, and how", "statement": "Writing a device never returns an error: it gives a document or panics, and this happens exactly if, somewhere in the device, the range of a list of indexes cannot be computed, the last bit of a field does not exist although the notation asked for names it (with overflow checks), or offsets to be sorted in descending order include one whose 32-bit negation overflows (with overflow checks, and only if there are two elements to compare). The panic is an overflow, with overflow checks only, or an index out of bounds. It is an overflow if all lists of indexes are long enough. So a device read from a document can always be written without overflow checks.", "quantifier": "for all devices, configurations of the encoder and case conversions, with and without overflow checks", "why_tests_cant": "An equivalence over all devices and configurations; the panics depend on single numbers such as 2^31 or on combinations of indexes.", "anchors": ["svd-encoder/src/device.rs", "svd-encoder/src/peripheral.rs:107-203", "svd-encoder/src/register.rs:82-160", "svd-encoder/src/bitrange.rs:8-25", "svd-encoder/src/dimelement.rs:8-36", "svd-rs/src/dimelement.rs:168-189"]}
{"id": "C82", "title": "Converting between XML and JSON or YAML", "statement": "A device that can be expressed as XML at a level of validation is converted to JSON or YAML and back, whatever the order of the entries. What comes back is the device in which arrays without a list of indexes have become single elements and the schema attributes are the default ones. It can again be expressed as XML at the level, is read back from there unchanged, and is not changed by a second conversion. This covers all devices read from a document under the conditions of C53. Violated wish: the conversion loses elements without any error; a strictly valid device that expands to two peripherals comes back as a strictly valid one that expands to a single peripheral with %s in its name, and a JSON file with null as dimIndex describes an array but is written as a file that does not.", "quantifier": "all devices, levels, layouts of the file, orders of entries, with and without overflow checks", "why_tests_cant": "Two formats with different gaps are combined; the claim is about all devices that the first format can express, and about repeating the conversion.", "anchors": ["svd-rs/src/array.rs:110-148", "svd-rs/src/dimelement.rs:6-45", "svd-encoder/src/device.rs", "svd-parser/src/device.rs"]}
{"id": "C83", "title": "Expansion returns within a depth that can be computed, or never", "statement": "From a device one can compute, by counting its elements and their paths, a depth of recursion such that expansion either returns without going deeper or never returns. So whether the expansion of a device returns can be decided by running it to this depth, and what happens there is the first fault of the device or its expansion.", "quantifier": "all devices, with and without overflow checks", "why_tests_cant": "A test can only show that an expansion has not returned so far. References and containment of clusters can be mixed, and the paths at which inherited clusters are expanded can grow without bound, so that no state is ever visited twice.", "anchors": ["svd-parser/src/expand.rs:344-383", "svd-parser/src/expand.rs:385-488", "svd-parser/src/expand.rs:503-653", "svd-parser/src/expand.rs:657-688"]}
{"id": "C84", "title": "Expanded elements have different names if the names are clear", "statement": "For every device, with and without overflow checks: if on every level the elements and array elements next to each other have different names, and the name of a cluster followed by an underscore is never the beginning of another name next to it, then after expansion all peripherals, all registers of a peripheral and all fields of a register have different names, and the lookup by the name of each of them finds it. The second condition holds if names contain no underscores. Without it, a device that is valid at the strictest level can expand to a device with two registers of the same name, which is valid too. With references the names are those after following the references.", "quantifier": "all devices, with any nesting of clusters and arrays", "why_tests_cant": "The samples in the tests have few clusters and no clashing names; the claim is about all trees of clusters and all choices of names and indexes.", "anchors": ["svd-parser/src/expand.rs:490-501", "svd-rs/src/cluster.rs:331-344"]}
{"id": "C85", "title": "The order of elements does not matter for expansion", "statement": "For every two devices that differ only in the order of their peripherals, of the registers and clusters on any level and of the fields, and in the notation of bit ranges: if no path of the first denotes two different elements and no register has two fields with enumerated values of the same name, then one expands if and only if the other does, and the expanded devices differ only in order and notation as well. So the device read back after writing, with whatever sorting and formats, expands as the device written. The condition is needed: a bare reference to enumerated values takes the first field that has them, and writing with derived fields last changes which one that is.", "quantifier": "all devices with any references and arrays, all orders, all configurations of the encoder that keep names", "why_tests_cant": "Each test expands one document in one order; the number of orders grows with the factorial of the number of elements on every level.", "anchors": ["svd-parser/src/expand.rs:253-345", "svd-parser/src/expand.rs:565-634", "svd-encoder/src/register.rs:126-145"]}
{"id": "C86", "title": "The order of the items of lists in a document does not matter", "statement": "For every two documents that differ only in the order of peripherals, of registers and clusters on any level, of fields, of differently named elements and of attributes: a device is read from one if and only if one is read from the other, and the two devices differ only in the order of these things. This also holds with the expansion of properties and, if no path in the device read is ambiguous, with the expansion that can follow reading.", "quantifier": "all documents, all sequences of exchanges of neighbours at any depth, all parser configurations", "why_tests_cant": "Tests read one document in one order; the exchanges can be combined without limit and at every depth of nested clusters.", "anchors": ["svd-parser/src/device.rs:25-35", "svd-parser/src/peripheral.rs:59-67", "svd-parser/src/cluster.rs:27-36", "svd-parser/src/register.rs:43-54", "svd-parser/src/lib.rs:119-180"]}
{"id": "C87", "title": "Validity, iteration, masks and lookups do not depend on the order of elements", "statement": "For every two devices that differ only in the order of their peripherals, of registers and clusters on any level and of fields, and in the notation of bit ranges: recursive validation accepts both or neither, at every level; the recursive iteration visits the same registers, each as often; every register has the same bit mask, or computing it overflows for both; a lookup by a name that at most one of the elements has finds the same element in both, or none. Of two elements with one name the first is found, so for them the order matters.", "quantifier": "all devices, all orders, all validation levels, both overflow modes, all names", "why_tests_cant": "Tests validate and look up elements in one order; the number of orders grows with the factorial of the number of elements on every level.", "anchors": ["svd-rs/src/device.rs:375-397", "svd-rs/src/registercluster.rs:62-147", "svd-rs/src/register.rs:425-427", "svd-rs/src/field.rs:379-429", "svd-rs/src/peripheral.rs:493-505"]}
{"id": "C88", "title": "Elements that do not overlap before expansion do not overlap after it", "statement": "If the elements of a device, with its references followed, have ranges of addresses beside each other on every level (peripherals in the device, registers and clusters in a peripheral or cluster), and the copies an array stands for do not overlap, then no two registers of the expanded device have an address in common. Every register lies in the range of a peripheral, whether or not those are beside each other. For one array the condition is also necessary: the registers an array of registers expands to share no address, and the fields an array of fields expands to share no bit, exactly if the array has at most one element or its increment is at least the size of an element.", "quantifier": "all devices without overflow of addresses, all nestings of clusters and arrays, all references", "why_tests_cant": "Whether two registers overlap depends on offsets, sizes, counts and increments on every level; tests look at a few devices and compare the result with a stored one.", "anchors": ["svd-rs/src/register.rs:123-142", "svd-rs/src/cluster.rs:85-99", "svd-rs/src/field.rs:93-109", "svd-rs/src/peripheral.rs:137-155", "svd-parser/src/expand.rs:344-383", "svd-parser/src/expand.rs:490-515"]}
{"id": "C89", "title": "Queries about kinds and levels answer what their names say", "statement": "An element is an array exactly if it has an array description and single otherwise; a field without references stays as it is in expansion exactly if it is single, and expansion leaves no array; a CPU counts as Cortex-M exactly if its name begins with CM; strict validation counts as weak too, and weak excludes disabled.", "quantifier": "all elements, CPUs and levels", "why_tests_cant": "No test calls these queries; nothing else in the code uses some of them, so that a mistake would not show anywhere.", "anchors": ["svd-rs/src/array.rs:35-41", "svd-rs/src/cpu.rs:328-330", "svd-rs/src/lib.rs:111-121"]}
{"id": "C90", "title": "A reference may be a bare name or a full path", "statement": "If references of fields, registers and clusters are spelled in another way that points to the same place (a bare name instead of the full path, or the reverse), or references of enumerated values (from the field on, from the register on, or the full path), expansion gives the same device, with and without overflow checks; in an array or below an element that has a reference itself the spelling must be kept, and below such a peripheral it does matter; so it does for a group of enumerated values whose own name is the reference.", "quantifier": "all devices, all sets of references spelled in another way", "why_tests_cant": "The tests use either spelling in one device each and never compare the two; a bare name is read relative to the element found last, which shows only in chains across blocks.", "anchors": ["svd-parser/src/expand.rs:26-48", "svd-parser/src/expand.rs:159-171", "svd-parser/src/expand.rs:385-488", "svd-parser/src/expand.rs:503-563", "svd-parser/src/expand.rs:565-629"]}
