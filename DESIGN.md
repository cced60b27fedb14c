# Formal model of rust-embedded/svd (svd-rs, svd-parser, svd-encoder) in Lean 4

## 1. Layout

* `lean/Verif/Model/*.lean`: executable model, function by function. Each definition cites
  file and lines in /repo.
* `lean/Verif/Spec/*.lean`: small specifications that do not use the model's helper functions.
* `lean/Verif/Lemmas/*.lean`: helper lemmas.
* `lean/Verif/Props/*.lean`: the property theorems, one file per group, each with an `example`
  that meets the hypotheses.
* `lean/Verif/Tests/*.lean`: the repository's own tests, repeated on the model (tests, not proofs).
* `properties.jsonl`: the properties. `MANIFEST.json`: property -> theorems and status.
* `seeded/LOG.jsonl`: experiments with wrong programs.

## 2. Modelling conventions

* Rust strings are `List Char` (`Str`). Byte/UTF-8 level is not modelled; Rust orders strings by
  bytes, which for UTF-8 is the order of code points.
* u32/u64 are `BitVec 32`/`BitVec 64`. Arithmetic that can overflow takes a flag `oc`
  (overflow checks): `true` = debug profile, overflow panics; `false` = release profile, wraps.
* Every function that can fail returns `M a = Except Fault a`, where `Fault` is
  `err e` (a Rust `Err`), `panic p` (a Rust panic) or `diverge` (fuel exhausted: unbounded
  recursion, a stack overflow in reality).
* `&mut` becomes returning the new value. Iterators are lists. HashMap is an association list,
  newest entry first (a later insert with an equal key replaces the earlier one).
* XML: `Xml.elem tag attrs children | text | other`. Both xmltree (writer) and roxmltree (reader)
  values are represented by it. Writing to bytes and reading them back is not modelled;
  what it may change is the relation `Spec.Reread` (see trusted base).
* Recursion of the derivation/expansion code, which need not terminate, is modelled with fuel;
  theorems are about every fuel or prove independence of it.

## 3. Trusted base

### Proof assistant

* The Lean 4.33 kernel. No axioms of our own, no `sorry`, no `native_decide`, no `bv_decide`.
* Axioms: every theorem depends on a subset of `propext`, `Classical.choice`, `Quot.sound`.
  `AXIOMS.md` (made by `tools/axioms.py` with `#print axioms`) has the set for each theorem.
* `decide +kernel` is used in examples and witnesses: the kernel evaluates the decision procedure, and
  this adds no axiom.

### Agreement of the model with the code

The model is a reading of the Rust text; the Rust is not executed. Each definition cites the lines it
models, so it can be compared side by side.

| Model file | What it models |
|---|---|
| `Types` | the data types of svd-rs |
| `Keywords`, `Num`, `Str` | keyword tables, number texts (svd-parser/types.rs, svd-encoder/config.rs `format_number`), string functions of std |
| `Regex` | the two name patterns of svd-rs/lib.rs and the matcher |
| `Validate`, `Build` | `validate`, `validate_all`, builders, `modify_from`, bit range setters |
| `Setters` | the other builder setters |
| `BitRange`, `Dim` | bit range arithmetic, index lists, array names and addresses, `expand` of arrays |
| `Derive`, `Iter` | `derive_from`, iterators and lookups (shared and mutable), bit masks |
| `Xml`, `Parse` | svd-parser: element access and all `parse` functions |
| `Located` | svd-parser: all parse functions with the nodes of their errors, the messages of `parse_with_config` |
| `Path`, `Expand`, `Top` | svd-parser/expand.rs (index, derivation, expansion, properties), `parse_with_config`, byte order mark, serde of bit ranges and index lists |
| `Serde` | the code derived by serde for the types of svd-rs, svd-rs/array.rs, dimelement.rs and bitrange.rs (`ser_de`) |
| `Message` | the texts of errors |
| `Config`, `Encode` | svd-encoder: configuration, sorting, all `encode` functions |

`Tests/Repo` repeats the repository's own tests on the model: all entries of tests/src/*.rs, also those of the
three files that tests/src/lib.rs has commented out, and the tests in svd-rs/registerproperties.rs and
svd-parser/lib.rs. `Tests/Arm` has the whole file tests/data/ARM_Sample_faulty.svd: the model rejects it with the
fault in field EN of register CR; with the fault repaired the model reads it, writes it without loss and expands it
to three timers with eleven registers each. The results agree with what the Rust tests expect. The only difference
is in registerproperties.rs (commented out): it expects that a size is written as `64`, the encoder writes `0x40`.

Not modelled:

* XML as text: the reader (roxmltree), the writer (xmltree, xml-rs), entities, escaping, encodings,
  namespaces other than the prefix `xs` of the schema location, normalisation of attribute values.
  The tree read from a written file is assumed to be related to the written tree by `Spec.Reread`: empty
  texts disappear, otherwise it may differ in layout only.
* The wording of error messages (`Display` of errors; what is in a message is modelled in `Located`), `Debug`, logging,
  `eprintln`. Node positions are lists of child positions instead of the numbers of roxmltree, and lines and columns.
* convert_case: a parameter of the encoder model (theorems hold for any function).
* That the code derived by serde behaves as modelled in `Serde` (fields, renaming, `flatten`, untagged enums, skipped
  fields), and that the texts of serde_json or serde_yaml represent the values faithfully.
* The regular expression engine: replaced by a matcher that is proved correct for the usual meaning.
* HashMap iteration order (never observed by the code), memory exhaustion, the stack limit (unbounded
  recursion is the outcome `diverge`).
* Lifetimes, borrowing, `unsafe` (there is none).

Rust std functions that are rewritten in Lean and trusted to agree: `str::split`, `split_once`,
`rsplit_once`, `replace`, `trim`, `parse`, `from_str_radix`, `contains`, integer formatting, stable
`sort_by_key`, `leading_zeros`, HashMap, Vec.

## 4. Plan per property

* **C01** Written numbers read back as the same number. Model format_number and the integer parser generically in the width; prove parse∘format = ok by a digits lemma (fold of toDigits).
* **C02** Integer text is accepted exactly when it denotes an in-range number. Separate denotational spec of literals (value of a digit string); prove acceptance iff and value equality by induction on the digit list.
* **C03** Booleans are read exactly. Model BoolParse over XML text; case analysis over strings.
* **C04** Keyword types are bijective with their spellings. Model every parse_str/as_str; finite cases for values, case split for strings.
* **C05** dimIndex text denotes the documented index list. Model parse_indexes on List Char; spec with List.range' and split; proof by cases.
* **C06** Index lists survive writing and reading. Compose C05 and C07: whichever branch the encoder takes, parse gives the list.
* **C07** A compact index range is offered exactly when the indexes are that range. Model indexes_as_range (with overflow-check flag); prove iff against a list spec.
* **C08** All three bit range notations describe the same bits. Model BitRange constructors and XML parsing of the three notations; arithmetic proof with omega.
* **C09** Bit ranges survive writing and reading. Model encoder of bit ranges; compose with C08 over the XML model.
* **C10** Name checks accept exactly the documented language. Regexes as a small regex datatype with a derivative matcher (proved against the usual Matches relation); spec as plain string predicates.
* **C11** Stricter validation accepts less. Model all validate/validate_all; case analysis and induction over trees.
* **C12** Reset value check is exactly the arithmetic condition. Model check_reset_value with leading_zeros; bit-length lemma.
* **C13** A validated field can hold its enumerated and constrained values. Invert FieldInfo::validate.
* **C14** Parsing succeeds only with valid devices. Parse functions end in build, which validates; induction over the XML tree.
* **C15** Lowering the validation level never changes a parse result. Same induction relating two levels.
* **C16** Recursive validation visits every element. Spec: list of all descendants with their own checks; induction over trees.
* **C17** Builders reproduce values. Model builders (all-Option records), From and build.
* **C18** Modification replaces exactly what is given. Model modify_from as a state-returning function; field by field statement.
* **C19** Derivation: own values win, gaps are inherited, identity is kept. Model derive_from; field by field statement with Option.or / empty-list fallback spec.
* **C20** Derivation is idempotent and associative. Algebra of orElse; MaybeArray associativity counterexample.
* **C21** Array expansion addresses. Model names/offset iterators and the four expand functions; index-wise statement with getElem.
* **C22** Array instances have distinct placeholder-free names. Model str::replace; length argument for injectivity.
* **C23** Field and register bit masks are exact. BitVec getLsbD characterisation.
* **C24** Recursive register iteration lists every register once in document order. Model explicit stack iterator with fuel = size of stack; invariant: output ++ flatten(stack).
* **C25** Direct iteration partitions the children. Model iterators as list filters and find.
* **C26** Writing a device and reading it back is lossless. Model all encoders and parsers over an abstract XML tree; a relation `Reread` captures what writing and re-reading XML may change; induction over trees.
* **C27** Encoder options change presentation only. Generalise C26 over the configuration with a specification of the sorted/renotated device.
* **C28** Encoder sorting is a stable ordering that loses nothing. Model stable sort as insertion sort by key; prove Perm, Pairwise, stability.
* **C29** Reversed offset sorting gives descending addresses. Counterexample by evaluation; `_partial` theorem below 2^31.
* **C30** Parsing ignores layout, comments and unknown elements. Relation on XML trees; induction over parse functions.
* **C31** ignore_enums drops only enumerations. Relate the two parses by induction over the XML tree.
* **C32** Parser panics are confined to two documented inputs. Outcome type has an explicit panic value; show parse ≠ panic under a syntactic condition, and the two panics as witnesses.
* **C33** Expanded devices are flat. Predicate Flat on devices; induction on the fuel of the expansion.
* **C34** Expansion never reaches its unreachable branch. Invariant: expansion of children returns registers only; outcome `panic unreachable` impossible.
* **C35** Expansion is the identity on flat devices, hence idempotent. Induction; corollary of C33.
* **C36** Expanded registers are the hardware registers. Spec: recursive enumeration of instances with names and address sums in Nat; induction over the tree.
* **C37** Derivation chains resolve to successive inheritance. Spec: inductive chain relation; induction on the chain.
* **C38** Bad references are reported. Case analysis of derive_*.
* **C39** Expansion terminates. Fuel model; divergence for all fuel on witnesses; termination under a rank function (`_partial`). Exact in C63 and C83.
* **C40** Property expansion takes the nearest enclosing value. Spec by list of enclosing property records, first Some; induction over the tree.
* **C41** Paths print and parse consistently. Model split/join; list lemma.
* **C42** Field references never crash expansion. Exact characterisation of panic: exactly two components.
* **C43** The element index finds every element. Spec: inductive `Located` relation device/path/element; induction over indexing; map model is an association list with newest first.
* **C44** Builder order independence of field bit ranges. Counterexample and exact behaviour of both orders;
  Props/RangeCalls: the result of every sequence of calls (`C44_cases` lists the cases).
  Props/RangeModify: the same for modifying a field (`C44_modify_cases`).
* **C45** Modifying enumerated values to be derived. Counterexample and exact behaviour.
* **C46** Byte order mark handling. Direct.
* **C47** Serialised bit ranges and index lists read back. Model SerBitRange conversions; serde itself trusted.
* **C48** Encoder configuration by key. Model update; case per key.
* **C49** Enumerated values: effective usage and lookup. Model and prove by list lemmas.
* **C50** Encoding panics only on unrepresentable ranges. Outcome type; induction over device tree.
* **C51** Setters do not affect each other. Every setter as a function on the builder; all setters commute, so any order equals the sorted one.
* **C52** Mutable iterators and lookups. References are places in the tree; the loop writes at places; induction over the tree with read/write lemmas for places.
* **C53** Read, write, read. Show that everything the parser returns from a regular document fulfils the conditions of C26; witnesses for each condition on the document.
* **C54** serde. Every struct writes entries with different keys and reads exactly its own; `flatten` leaves the others to the flattened struct. Lemma per struct; reading depends on the multiset of entries only; witnesses for what is lost.
* **C55** Order of written elements. A table of contents per tag (`Spec/Order.lean`, trusted to be the order of the CMSIS-SVD format); go through the children of each encoder.
* **C56** Full expansion. `Spec/Full.lean` states resolution (following a chain to its end) and instantiation level by level as relations; soundness and completeness by mutual induction over the tree; uniqueness from determinism of `expand`; witness for finding 11.
* **C57** Validity after expansion. Every part of an expanded device comes from a part of the source that differs in name, description, position and children only (C36); so its conditions hold again, except those on names and emptiness, which are hypotheses; witnesses that they are needed.
* **C58** Errors and their nodes. The parser a second time with positions (`Located`); erasing them gives the parser of C30–C32. `Spec/Blame.lean` says for each kind of error what it claims about a node; go through the parser functions.
* **C59** Messages. The way from the root to the node as an inductive relation; induction over it.
* **C60** Whole parser. `Spec/Document.lean` says what an element describes, type by type, without using any
  function of the model except the access to children, attributes and text; one equivalence per parse function,
  composed up to the device (induction over clusters).
* **C61** Builders filled in by hand. One relation per builder in `Spec/Built.lean`, validity from `Spec/Valid.lean`; one
  equivalence for success and one for the missing member, by going through the mandatory members in order.
* **C62** Both expansions. Composition of C60, C40 and C56; for the values, ways down to a register (C36) that also
  collect the properties passed; for references, what all registers without a reference give is kept by the expansion.
* **C63** Faults of expansion. `Spec/Fails.lean` names the first fault, level by level. Expansion with growing fuel ends
  in one result (`Finally`); one equivalence per level, by taking apart the same steps as in C56. Endless descents are
  found by contradiction: a cluster that diverges without any other reason contains another such cluster.
* **C64** Reading JSON or YAML. `Spec/Value.lean` says, struct by struct, what the entries of a map must be (given
  once, may be missing or null, words, numbers in range, first complete notation of the bits); one equivalence per
  reader, clusters by recursion over the result. The words are those of the documents, from `Spec/Keywords.lean`.
* **C65** What is written. `Spec/Written.lean` lists the parts of each element with the option that governs them; number
  formats by positional notation, names by replacement, orders by stable sorting. A stable sorting is unique, a numeral is
  determined by its value and length; so every part is one list of nodes, composed up to the device.
* **C66** What is written as JSON or YAML. `Spec/ValueWritten.lean` gives for each map the declared keys in order and for
  each member its value; a map with these keys in this order and these values is unique.
* **C67** Property expansion and validity. The levels that govern a register as a relation (`Spec/Govern.lean`); induction
  over the filled tree (C40) with the conditions of C16.
* **C68** Expand, write, read back. Texts stay clean when a clean index is put in; inheritance and instances keep what
  writing needs (the relations of C56); then C26 and C35.
* **C69** Expansion in two steps. `Spec/Deref.lean` states what a device with all references followed is, without
  taking arrays or clusters apart. C56 then factors through it: every relation of `Spec/Full.lean` is the composition of
  the one there and the one of C36. Which rules stay valid: what is checked again is either the element's own or comes
  whole from an element of the device; the rest is `Part.Fits`, with a witness for each rule.
* **C70** Independence. The relations of C56 depend on a device only through "the last entry under a path". An entry
  under a path is an entry of a peripheral called by the first component; so the entries agree where the peripherals
  called by that name do. One simulation lemma, with a set of names that no reference leaves, covers adding, removing
  and reordering (`Spec/Local.lean`).
* **C71** Order of elements. The normal form of C30 also groups the children by name (registers and clusters of a cluster
  in one group, items of a list in one group); each parser function reads one group at a time.
* **C72** First broken rule. `Spec/Complaint.lean` lists the rules in order, each with its error; `Checks m rules` says that
  a computation checks these rules one after the other, and follows the structure of the `validate` functions.
* **C73** Texts of errors. `Model/Message.lean` has all texts. Errors fall into classes whose texts begin differently (a
  finite check); within a class fixed parts are cancelled and numbers end before a character that is no digit. That
  the subtraction cannot overflow follows from C58, C72 and the list of errors of expansion. `Spec/Told.lean` lists the
  names and numbers of each error without the texts; `C73_contains` finds them in the text in this order.
* **C74** (Spec/Overflow, Props/Overflow): overflow checks change only what overflows.  Every function of the model
  that takes the flag `oc` is followed in both builds in step; results, errors and other panics are the same unless
  the checked build panics with an overflow.  `C74_fails` carries the faults of C63 over to the unchecked build.
* **C75** (Spec/Recase, Props/Recase): `Renaming` has one function for each kind of identifier; writing with any
  configuration is shown to be writing the arranged and renamed device with the number formats alone, so that C27
  applies.  `C75_references_lost` is finding 30.
* **C76** (Props/ExpandSerde): C33 (an expanded device has no arrays) gives the conditions of C54.
* **C77** (Spec/Count, Props/Count): the number of elements is a sum over the tree with a factor for every array; each
  step of the expansion keeps it. `C77_references` goes through the two steps of C69.
* **C78** (Spec/Masks, Props/Masks): the same walk with a list in place of the number. That a field array and its elements
  cover the same bits comes from the exact description of masks in C23. `C78_beyond` is finding 31.
* **C79** (Spec/Ground, Props/Ground): setting all positions to zero commutes with every function of the expansion, with
  checks on one side and none on the other. This carries C39, C56 and C63 over to builds without checks.
* **C80** (Props/Modify): `modify_from` as a function from the element to the changed element and the result. The state
  after a failure is stated member by member.
* **C81** (Spec/Encodable, Props/EncodeWhen): the condition for writing is a predicate over the device and the
  configuration, and success is equivalent to it. The faults are bounded separately. `Countable` is shared with C65 and C07.
* **C82** (Props/Convert): C54 and C26 together. The device that a conversion leaves (`kept` of Spec/Serde) is shown to be
  expressible again and to be a fixed point.
* **C08, C10, C23** at the edges (Props/Edges): what happens outside the conditions of the earlier theorems. **C61**
  (Props/BuiltErrors): with all mandatory members given, the error of a builder is that of validating the result, the
  properties first.
* **C83** (Props/Depth): how deep an expansion can go. A chain of references is determined by the path it is at, so after
  as many links as there are paths of a kind it repeats. In a descent into clusters the path can grow without bound (an
  inherited cluster is expanded at the path of the cluster that inherits it), but outside of the blocks of the device
  nothing is found, so all such paths behave alike (`Alike`). The set of states that need more depth never grows, so it
  pauses within as many steps as there are states, and then stays. The bound `depth` (Spec/Depth) is computed by
  counting. It makes the fuel of the model harmless: `expand` at `depth` is the outcome, and whether expansion returns is
  decidable.
* **C84** (Spec/Clear, Props/Clear): names after expansion. The registers that come out of a cluster form one group for
  each name of the cluster; two groups could only share a name if one cluster name with an underscore began another.
  Positions play no role for names, so C36 is used for the device with all positions zero (C79) and holds in both modes.
* **C85** (Spec/Shuffled, Props/Shuffled): the order of elements. `DeviceShuffled` relates devices with the same elements
  in any order on every level and any notation of bit ranges; `Unambiguous` says that a path denotes one element. Proof: the
  lookups of the two devices agree up to the relation, then rule induction over `DeviceFull` (C56); the encoder by C27.
* **C86** (Spec/Rearranged, Props/Rearranged): the order of list items in a document. One exchange of neighbours is
  `Swapped`; `onTheWay` says through which elements a list is reached. Proof: by induction on the exchange, with the
  declarative reading of C60 on both sides; then C71 for differently named elements, C85 for expansion.
  Props/Unchecked has C85 without overflow checks (by C79: a device with all positions zero), Props/FillPaths shows that
  filling in properties makes no path ambiguous.
* **C87** (Props/Unordered): what else does not depend on the order: validity, by comparing the parts that C16 lists; the
  recursive iteration; bit masks, where every failure is the same overflow; lookups of a name that occurs once.
* **C88** (Spec/Room, Props/Room): no overlap. `DeviceRoom` gives every element a range of addresses, beside those of
  its neighbours, that has room for all copies it stands for. Proof: by induction on the declarative expansion (C36),
  registers stay in the range of their element; with references by the two steps of C69.
* **C89** (Props/Queries): the queries about kinds and levels that nothing else in the code uses.
* **C90** (Spec/Spelled, Props/Spelled): bare names and full paths. `DeviceSpelled` relates two devices that differ
  only in how references are spelled (`SameRef`: both spellings point to the same place, by `BlockRef`, `FieldRef` or
  `EnumRef`). A group of enumerated values may be reached from the field on, from the register on, or by the full
  path; a bare name is another thing there (it searches all fields of the register) and must be kept. A reference
  equal to the name of its own group, dots included, is refused before it is read as a path (`C90_dotted_name`), so
  the relation carries a set `N` with the names of all groups and none of the changed references.

## 5. Findings (code disagrees with the natural property)

Violated properties, with witness theorems:

1. **C29** Reversed offset sorting is wrong from 2^31 up, because the key is a negated `i32` truncation, and
   panics with overflow checks for 2^31 exactly (`C29_violated`, `C29_panics`; exact in `C29_exact`).
2. **C30** Elements the format does not know are rejected, not skipped, inside `peripherals`, `registers`,
   `fields`, `enumeratedValues`, `dimArrayIndex` and `writeConstraint` (`C30_violated`).
3. **C39** Expansion does not terminate when references run into a circle that does not contain the start,
   or when a cluster derives from a cluster that contains it (`C39_violated`, `C39_violated_ancestor`).
   `C39_exact` says for exactly which devices, and `C83_returns` how to find out for a given device.
4. **C42** A field reference of two components panics (`C42_violated`, exact in `C42_exact`).
5. **C44** `FieldInfoBuilder::bit_offset` tests the offset instead of the width, so width before offset loses
   the range (`C44_width_then_offset_lost`), and an offset set twice becomes a width (`C44_offsets_only`). Values kept
   in the builder are applied again by `modify_from` and win over later ones (`C44_modify_stale`,
   `C44_modify_width_next`, `C44_modify_offset_next`).
6. **C45** `EnumeratedValues::modify_from` drops `derived_from` (`C45_reference_lost`, `C45_rejected`).

Panics on reachable input:

7. Parser: `<bitRange>[4294967295:0]</bitRange>` overflows with overflow checks, and an empty
   `<writeConstraint/>` panics always (`C32_exceptions`).
8. `BitRange::msb` and the encoder on empty or too large ranges (`C50_*`, `C08_msb_overflow_panic`);
   `bitmask` outside 64 bits (`C23_*`); array offsets that overflow (`C21_*`); `indexes_as_range` when the
   list has both 0 and 2^32-1; index lists shorter than the array.

Surprises that are documented by theorems but are not violations of a listed property:

9. Round trip: `fields: Some(vec![])` and `address_block: Some(vec![])` come back as `None`; empty texts and
   whitespace around texts are lost; `dim_index: Some(vec![""])` is written as an element the parser rejects;
   separators in index entries make the file unreadable; an empty device description cannot be read back
   at level Strict (`C26_conditions_needed`, `C06_empty_entry_lost`).
10. Accepted by the parser although malformed: `[7:0:3]`, `0x+5`; an invalid `<isDefault>` is ignored; a leaf
    whose first child is a comment loses its text.
11. A chain of references through a peripheral with children resolves relative references of the middle
    element against the last element (`Chain`, `C56_home_lost`).
12. `modify_from` is not atomic: a failing validation leaves the element modified (C18).
13. `MaybeArray::derive_from` is not associative (C20).
14. Serde: an array without index list deserialises as a single element; an empty index list comes back as
    one empty entry (C47, C54). The result is valid, so elements are lost without an error (`C82_lost`).
15. `RegisterInfo::derive_from` does not inherit the data type; `ClusterInfo::derive_from` does not inherit the
    description; `modify_from` of registers and fields with a reference keeps the read action.
16. `RcSorting` is applied to the direct children of a peripheral only, not inside clusters (C27 states this).
17. With `dimArrayIndex` instances can get equal names; a name with two placeholders keeps the second (C22).
18. An element is reported as derived from itself when the reference resolves by name to its own path although
    another element was meant (C38).
19. The reversed write constraint range (minimum above maximum) is not checked for widths from 64 up.
20. A blank text (`<vendor> </vendor>`) is read as an empty text, which is written as an empty element; reading this
    gives nothing at all for an optional text and an error for a required one. A register with an empty `fields`
    element does not survive either (`C53_conditions_needed`).
21. The encoder writes a `displayName` for peripherals and, if both are present, `alternateGroup` and
    `alternateRegister` of a register, `value` and `isDefault` of an enumerated value, and an empty `registers`
    element; the CMSIS-SVD schema has none of these (C55).
22. `Config` of the encoder has no setter method for `dim_array_index_header_enum_name` (only the key);
    `RegisterInfoBuilder` has no setter for the protection.
23. Expansion can turn a valid device into an invalid one (C57): the strictly valid name `%s` gives instances `0`, `1`,
    which are not valid names (`C57_digit_names`); an empty array of peripherals leaves a device without peripherals
    (`C57_empty_array`); a register that takes its size from another one keeps its own reset value, which may not fit
    (`C57_mixed_size`). `expand` does not validate its result. References can break exactly four kinds of rules (C69);
    a field of one bit can get the value 2 from a wider field (`C69_each_breaks`).
24. The messages around an error mention enclosing registers and peripherals but not clusters, so equally named registers
    in two clusters can only be told apart by their position (C59). A `name` element without text is reported as a
    missing `name` (C58, `Blame` of `missingTag`), other elements without text as empty.
25. `expand_properties` skips derived peripherals and clusters with everything inside them, so registers that a derived
    peripheral has of its own stay without the properties of the device (`C62_skipped`). It has to run before `expand`,
    as `parse_with_config` does; afterwards the properties of the clusters are gone (`C62_order`).
26. A device built with another schema version than 1.1 still gets the schema location of version 1.1 if none is given
    (`Spec/Built.lean`, `DeviceBuilt`).
27. A field in a JSON or YAML value whose `msb` is below its `lsb` makes the reader panic with overflow checks and gives
    a wrapped width without them, where the parser of documents reports an error (`C64_reversed`). A `dimIndex` that is
    missing or unreadable turns an array into a single element without an error (`ShapeVal`; see also C54).
28. `expand_properties` can turn a valid device into an invalid one, and the parser does not validate afterwards. With the
    usual defaults (size 32, reset mask 0xFFFFFFFF) every register of 16 bits without a mask of its own gets a mask that
    level Strict rejects (`C67_mask_lost`); a reset value of the device may not fit the size of a register, which level
    Weak rejects (`C67_value_lost`).
29. Indexes are not trimmed: `<dimIndex>A, B</dimIndex>` has the index ` B`, so the name `%s_P` becomes ` B_P` with a
    space in front, which is lost when the expanded device is written and read back (`C68_conditions_needed`).
30. A reference with a path (`UART.CR`, `RX.Mode`) is converted as a whole in the format of the element it stands at, while
    the names on the path have formats of their own: with only `register_name` set to another case, a valid device with a
    register derived from one of another peripheral is written so that it can no longer be expanded
    (`C75_references_lost`).
31. `Field::bitmask` of an array shifts the mask of the first element, so elements that begin at bit 64 or later are
    dropped silently as long as each shift is below 64; `FieldInfo::bitmask` of the same elements after expansion shifts by
    their whole offset and panics with overflow checks (`C78_beyond`).
32. `modify_from` of registers, clusters, peripherals and devices changes the element before and after validating the
    properties and returns early if these are invalid. After an error the element is half modified: new name, address and
    properties, old fields, children or registers (`C80_failed_register` and the others). In every case the element holds
    the invalid values after an error.
33. Names of registers in clusters are joined with underscores, so a register `B_C` in a cluster `A` and a register `C` in
    a cluster `A_B` are both called `A_B_C` after expansion. Both devices are valid at level Strict (`C84_collision`).
34. A bare reference to enumerated values takes the first field of the register that has a group of that name
    (svd-parser/src/expand.rs:581-587). If two fields have one, writing the device with `field_sorting` and reading it back
    can change what the reference means (`C85_first_group`).

## 6. Experiments with wrong programs

`seeded/LOG.jsonl` has one line per edit of the model that was tried in a copy outside this
directory. `failed` lists the theorems of `Props/` that no longer have a complete proof after the
edit, because their own proof or one of a lemma below it stops. `failed_lemmas` are the
declarations where the proofs stop, and `failed_examples` counts the examples that do.

How to read it:

* A theorem in `failed` is one whose proof script stops. That the statement is false of the edited
  program is not proved, so a failure shows less than a survival does. Each line was therefore
  also checked for a failure among the theorems of the property that the edit breaks.
* A line with an empty `failed` is an edit that survived. The theorems added because of it are in
  `tightened`, and a later line repeats the edit.
* Lines whose claim begins with "a claim about" come from a sweep over the model by a script (one wrong constant,
  boundary, operator, dropped case or swapped branch per edit). There the run stops at the first module with a
  proof that stops, so `failed` has only what depends on that module's failures and is not complete.
* Some survivors of the sweep change nothing that is claimed: a measure for termination, branches that cannot be
  reached, the wording of a message. Their `note` says so.
* Edits that did not compile are not in the log, since they test nothing.
