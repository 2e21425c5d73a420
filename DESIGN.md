# Formal model of capnpy in Lean 4: design

## Layout

* `lean/Verif/Model/*.lean` – the model, function by function, each definition
  citing the file and lines of /repo it models.
* `lean/Verif/Spec/*.lean` – small independent specifications (wire format
  words, value trees `Val`, denotation `Den`, contiguous layout `Lay`, stream
  frames, flat streams, abstract lists, hash of tuples, ...), written from the
  Cap'n Proto encoding document and the Python documentation.
* `lean/Verif/Proof/*.lean` – helper lemmas.
* `lean/Verif/Props/*.lean` – the property theorems (`Capnpy.Props.Cnn_...`), each with
  a concrete instance of its hypotheses; false claims are stated as negations with
  a concrete witness.
* `properties.jsonl`, `MANIFEST.json` (made by `mkmanifest.py` from the theorem names and
  `notes.json`), `seeded/LOG.jsonl` (wrong programs tried against the theorems).

## Trusted base

* Lean 4.33.0's kernel. `decide +kernel` is evaluated by the kernel; there is no
  `native_decide`/`bv_decide`, no own axiom.
* Axioms used by the theorems: `propext`, `Classical.choice`, `Quot.sound` only (Mathlib's
  usual ones; many theorems use fewer).
* That the model is the program: each definition is a transcription of the lines it
  cites, read by a human (an AI here), not extracted. What a transcription abstracts is said in
  its comment and collected below.
* The semantics of Python and C which the model assumes: see "Modelling choices".

## Modelling choices

* Primary model: the pure-Python version of capnpy (what PyPy and uncompiled
  CPython run). Exceptions are values (`Except PyErr`), Python ints are `Int`,
  bytes are `List UInt8`, bit operators are two's complement `Int.land/lor/xor`.
* Python slices are modelled with CPython's clamping, `struct.pack_into` with its
  negative-offset rule and its range errors, bytearray slice assignment may change
  the length, list/tuple indexing accepts negative indexes.
* The builder is `EStateM PyErr Bytes`: a raised exception keeps earlier writes.
* Recursion (`copy_pointer`, `endof`, `_key`, ...) takes an explicit budget; exhausting it is
  `RecursionError`. Theorems hold for every budget above an explicit bound in the
  depth of the value.
* Floats are raw bit patterns (so NaN compares by bits where the model compares words).
* Where the Cython version differs in algorithm, that version is modelled too: `builder.pyx`
  (growing buffer), `_copy_pointer.pyx` (no checks), `_hash.pyx` (64-bit arithmetic),
  `ptr.h`, `packing.pyx`, `base.pyx`. An out-of-bounds memory access is undefined
  behaviour, a result of its own (`none`/`ub`) from which nothing follows. C `long`s are
  `BitVec 64` in the hash and pointer models, unbounded in the builder models.
* Streams: `read(n)` of the raw socket or file returns non-empty chunks of at most `n` bytes, in any
  split, then `b''` forever; sizes are `n ≥ 0` or `-1`.
* Generated code: the constructors and accessors which `capnpy/compiler` emits are modelled as
  an interpreter of the emitted statements over a schema type (`Model/Ctor.lean`,
  `Model/Accessor.lean`), not as text.

## What is modelled

ptr.py, ptr.h; packing.py, packing.pyx; segment/base.py, segment.py, builder.py, builder.pyx,
_copy_pointer.py, _copy_pointer.pyx, _copy_list.py, endof.py; struct_.py (readers, `_equals`,
`_key`, `__hash__`, `compact`, pickling); list.py, item types of type.py; message.py, buffered.py, filelike.py (the
read loop); enum.py; anypointer.py; _hash.pyx/_hash_cpython.c; annotate_extended.py (Options);
schema_extended.py (annotations, virtual groups); compiler/ (name conversion, constructors, accessors,
layout of groups, unions and nullables, group constructors, virtual groups, the emitted `shortrepr`, names and order of the statements of the generated module and what importing it does, the module loader's cache and import resolution, `DistutilsCompiler.compile`); __main__.py (the loop of `decode`); the .pxd files of segment.py, struct_.py, endof.py (which exceptions the compiled functions lose) and of message.py, buffered.py (C ints); the constructors as compiled;
`__extend__` and extension files; the text of constants and item types and what it evaluates to; sys.modules in pyx mode; reflection.py; `$Py.key` (the emitted `_key` and `__hash__`, on messages); a schema of the reader other than the writer's.

## What is not modelled

* Text emission: the string concatenation of `compiler/` (only what the emitted code does), the
  `capnp` executable and its subprocess plumbing, file system access (abstract `isFile`, `source`).
* Reprs of floats (a parameter), printer.py's layout. The UTF-8 decoder of CPython is represented by core Lean's (C50, C62, C66).
* Python's object identity, classes and `isinstance` checks (assumed to succeed), garbage collection, threads.
* CPython's hash of byte strings (a parameter), pickle's transport (trusted for atoms; no memo).
* Reference counting and object lifetime in the compiled version.

## Plan per property

| id | modelled | proof |
|----|----------|-------|
| C01, C02 | ptr.py | masks = `mod`, `lor` of disjoint = sum; `omega` |
| C03, C04 | base.py reads, builder.py writes | little-endian lemmas, pointwise `getElem?` |
| C05 | allocate/alloc_struct/alloc_list over operation lists | invariant by induction |
| C06 | builder.pyx (capacity, end, `_resize`) | refinement for all op sequences |
| C07 | alloc_text/alloc_data/read_str | from C03 lemmas |
| C08, C09 | `_read_primitive`, `_read_bit`, `_read_fast_ptr` | read = function of the zero-extended data section |
| C10, C21 | `_read_struct/_list/_data`, `read_far_ptr` | from `Den` |
| C11 | generated has_/get_ accessors | case analysis |
| C12-C14 | copy_pointer and helpers | induction on `Den`; postcondition `Lay` + frame |
| C15, C16 | endof | induction on `Den`; `endof = e` iff `Lay` |
| C17, C18 | dumps/loads | from C12, C16, framing lemmas |
| C19, C20, C22, C41 | _load_message, load_all | framing spec, induction on segment lists |
| C23-C26 | buffered.py | refinement to a flat byte queue, any op sequence |
| C27-C29 | list.py, _copy_list.py | induction on items |
| C30-C32 | constructors/accessors generated by compiler/ | disjoint write footprints |
| C33, C40 | _hash.pyx / _hash_cpython.c | modular arithmetic |
| C34 | _key/_hash/_equals | tuple equality |
| C35 | enum.py | indexing |
| C36 | annotate_extended.py Options | algebra |
| C37 | convert_case.py | regex sub as string functions |
| C38 | __reduce__, _raw_dumps | record round trip |
| C39 | copy_pointer on arbitrary bytes | invariant; negation with witness |
| C42, C43 | module cache, has_annotation | invariants over histories |
| C44 | anypointer.py | case analysis |
| C45 | _copy_pointer.pyx on builder.pyx | simulation of the pure copy for every source without a reachable pointer to before its start; well-formed sources are such; witnesses for the rest |
| C46 | ptr.h on `BitVec 64` | congruence modulo 2^64 of every operator with its Python counterpart |
| C47 | base.pyx, packing.pyx | case analysis on the bounds checks; C `int` overflow is undefined behaviour |
| C48 | _hash_cpython.c tuplehash on `BitVec 64` | induction over the items, against CPython's algorithm written down in Spec/Hash.lean |
| C49 | _copy_list.py on builder.pyx | simulation of the pure version, by induction over the items and the nesting; witnesses for the rest |
| C50 | struct_.py _emit_repr, util.py, list.py item_repr | interpreter of the emitted `shortrepr`; independent grammar (parser) and tree of a value; induction over fields, items and depth: the text parses to the tree |
| C51 | node.py names, struct_.py _get_enum_items | schema files as trees (Spec/Module.lean); induction over paths: names join the path; injectivity from identifiers without `_` |
| C52 | request.py emit, struct_.py, enum.py, node.py, misc.py, util.py extend, enum.py fill_enum | generator (nodes → statements) and interpreter (statements → globals and class dicts); invariant over the three phases declarations, definitions, references |
| C53 | segment.pxd, struct_.pxd, endof.pxd, list.pxd: compiled readers | result monad with ignored exceptions and stack overflow; relation Agree closed under bind, noexcept, except v; induction on the depth for endof |
| C54 | message.pxd, buffered.pxd: compiled loader with C ints | simulation of the pure loader for file objects that agree on small reads (SameReads); then the wrap-around cases |
| C55 | structor.py emitted code as compiled by Cython: C builder, C conversions of arguments | simulation of the (pure) constructor, statement by statement, by induction on the fields; then C30/C31 carry over |
| C56 | constructors, pure and compiled, with arbitrary arguments | inversion: from a run that returned, by induction on the fields, to the types of the arguments |
| C57 | constructors and `_is_compact()` | the objects are laid out one after the other in the order of writing (induction on the fields); `ObjLay` iff that is the slot order |
| C58 | the static methods emitted for groups, Python's binding of call arguments | `bindCall` against the rules of a call (Spec/Group.lean), composed with the round trip of constructors |
| C59 | `$Py.group`: parsing, registration of the nodes, the properties | the spelling of names as an inductive relation; induction on the fields for the registration |
| C60 | the loop of `capnpy decode` over `load` and `shortrepr` | refinement of `load_all` (C22), composed with C17, C18 and C50 |
| C61 | `DistutilsCompiler.compile` as two steps on a file system with a clock | invariant over all event histories; a counterexample for each condition |
| C62 | the generated `_key()` and `__hash__` over messages, both versions, with a separate definition of the key of a value | composition of C09, C10, C34, C53; structural induction over the nesting of keyed structs |
| C63 | constructor of one schema, accessors of another; the evolution rules as a separate relation on schemas (cells, paths, union guards) | construct_unset: cells outside the schema stay zero; induction over paths; invariants of the constructor for unions |
| C64 | copy_pointer, dumps, iteration; the objects a message's pointers lead to (Spec/Extent.lean) | size of the value = sum of the objects' sizes; disjoint intervals; pigeonhole for the depth; explicit families of messages for the negative results |
| C65 | sender program over dump/BufferedSocket, failing sendall, any received prefix, any chunks, load_all | invariant received ++ pending = dumped; splitting a prefix into complete frames; composition of C17, C18, C22, C25, C63 |
| C66 | str (code points, surrogates included), encode_maybe/decode_maybe, unicode accessors, list items, constructor arguments | explicit encoder = core Lean's UTF-8; reduction to the bytes accessors (C10, C11), to C28 and C30 |
| C67 | request.py _declare_imports, module.py register_import, the recursion of load_schema over Model/Module.lean | heap shared by all modules; invariant over loads (each cached module is the result of importing its file, import names are bound to the cached modules), induction on the rank of a file; frame lemma: no statement of a module body binds an import name |
| C68 | reflection.py, module.py compute_options/has_annotation/py_field_name, schema_extended.py ids of fields, request.py reflection data, over Model/Module.lean | request with annotations and original names; the generator emits the module of C52 from it; options by simulation with Model/Options.lean (C36); tree correspondence between the request and the emitted file; invariant of the lazy generator for histories |
| C69 | compiler.py `_compile_pyx`, `import_from_path`, util.py `check_version`: sys.modules during nested loads | induction on the recursion limit: successful steps compose (SysStep); two runs with different sys.modules in lock step; refinement of C42's loader |
| C70 | node.py `Node__Const`, module.py `declare_const`, request.py `_emit_reflection_data`, misc.py `as_pyobj`, schema.py `Value` | renderings that parse back (`Rend`: every prefix context), then evaluation; C10/C14/C44 for the values, C52 for the names |
| C71 | misc.py `list_item_type`, list.py `from_type` | induction on the type; C52 for the names of the classes and item types |
| C72 | util.py `extend`, `magic_setattr`, `find_module`, `extend_module_maybe`; _util.pyx; blob.py `__extend__` | the items of the new class's dict have distinct keys (induction); lookup after the loop; frame lemma over programs, composed with C52 |
| C73 | all of the reader and writer, both versions | simulation lemmas of C45, C53, C54, C55 composed; `KeepsVal` (every pure value is kept) over fields, paths and lists; constructed values fit (induction over fields) |
| C74 | `_key`, `_equals`, `__hash__` with floats and lists | objects relate to mathematical keys (`Is`); equality and hash by mutual induction; float hash = multiplication by the inverse of 2 in ZMod (2^61-1); lists through the layout predicate of C26 |
| C75 | parse_argv, setup.py entry points, generate_py_source, the head of the module, check_version | C36's resolution with the caller's options as an outer annotation; case analysis for flags and dictionaries |
| C76 | schema_extended.py type predicates, type.py Types, field.py `_emit_*`, structor.py `slot_offset`/`handle_*` | the emitted code is run and compared, type by type, with the bits of the sections; equality with Model/Ctor.lean, then its lemmas |
| C77 | fieldtree.py, structor.py (`__new`), field.py and struct_.py (properties, `__tag_offset__`), annotate_extended.py `nullable.check` | the emitted statements and properties are a small language with a semantics; simulation with Model/Ctor.lean by induction on the tree of fields |
| C78 | struct_.py `_emit_one_ctor_union`, fieldtree.py with `field_force_default` | the emitted class method, with keyword calls, compared with `Schema.newMember`; the defaults by induction on the tree of fields |
| C79 | struct_.py `_emit_repr`, `_shortrepr_for_field`, `_emit_union_tag`; field.py `_emit_has_method` | the emitted lines and methods, run on an object and compared line by line with the generic `shortrepr` of C50; lookup of names by the last definition |
| C80 | struct_.py `_get_enum_items`, `_emit_union_tag*`, `which`; module.py `declare_enum`; enum.py | the items as a fold over the fields, then the lemmas of C35 about the names of values |

## Findings

False claims and surprising behaviour which the model shows; those with a theorem name are
proved, the others were seen while reading.

Messages and copies
* `dumps()` of an empty struct on the fast path: `loads` returns None (C17_empty_struct_lost); a compact
  object at the end of an unpadded buffer: ValueError (C17_unpadded_buffer).
* `compact()` is not compact exactly when a child is an empty struct (C15_compact_not_compact).
* "Messages created by capnpy are always compact" (docs/source/usage.rst) is false: with a group or
  a union interleaved with other pointer fields the constructor writes out of slot order
  (C57_group_not_compact, C57_union_not_compact; exact condition in C57_compact_iff).
* A far pointer to a null landing pad: `has_x()` is True, `x` is None (C11_null_landing_pad);
  copied, it becomes an empty struct.
* Copies of malformed messages never touch bytes which were in the builder before (C39), but may
  return normally with wrong bytes; with the compiled builder they may read before the source buffer
  (C45_negative_position) and write outside of the builder's memory (C45_heap_overflow).
* Pure mode raises `struct.error` for lists of at least 2^28 items or structs of at least 2^15 pointers, which the
  compiled version copies (C45_large_list). `_as_pointer` overflows its 30 bits beyond 4 GB.
* A message whose total size is 0 words: AssertionError. `_init_from_buffer` checks only upper bounds.
* message.pxd types sizes as C `int`: in the compiled version a truncated message that announces j * 2^29 words too many is
  loaded (C54_top_bits, C54_truncated_accepted); a header that announces 2^29 - 1 words raises AssertionError and leaves a
  buffered stream where it was, so that a reader which goes on after errors loops for ever (C54_stuck); sizes whose sum is
  2^28 words or more raise OverflowError (C54_overflow).
* Constructors: a bool field given an int other than 0 or 1 sets bits of the *next* fields in the pure version
  (`Cls(b=2, c=False).c` is True), and True in the compiled one (C55_bool_field_given_two). Compiled constructors overflow the
  heap when a list field is given structs from a newer schema (C55_heap_overflow). Not modelled: a field called `pos`,
  `builder` is rejected by Cython ("redeclared"); a field called `self` (and `cls`, in structs with unions) makes the generated
  `__init__` (`new_foo`) a SyntaxError (duplicate argument).
* filelike.py:55-56 `FileLikeAdapter.readline` returns the bound method instead of calling it (the compiled version
  raises TypeError because of `cpdef bytes readline`). No caller in the library.

Lists
* Lists of structs with different section sizes are corrupted at construction (C28_schema_evolution_corrupts);
  with the compiled builder memory is written out of bounds (C49_heap_overflow);
  `List(Bool)` cannot be constructed (C28_bool_not_constructible); None in a nested list reads back as [].
* List equality has false positives and negatives (C29_*). Iterating a truncated list silently stops
  (C27_truncated_iteration).
* `List(Int16)` changed to a list of structs, which Cap'n Proto allows: a newer reader gets AssertionError for the items
  (C63_list_upgrade), an older one wrong numbers, shifted by one item: list.py:245-247 ignores `_item_offset`
  (C63_list_downgrade).

Generated code
* Fields called `pos`/`builder`, a field `a_b` beside a group `a` with `b`, float defaults, AnyPointer, nullables with
  `convert_case=False`, discriminants of at least 2^15: proved in Props/Ctor.lean. Omitted nullables read as the default value
  unless isNull defaults to true (C32_omitted).
* Reflection: `field_name` of fields of imported files raises KeyError, also in the loop over `allnodes` of the
  documentation (C68_loop_over_allnodes). A struct-level `includeReflectionData = true` in a file where it is false, with a
  list constant in it, refers to a missing `_reflection_data` (not modelled: the option is taken per file).
* has_x/get_x of text and data do not check the union tag. `ModuleGenerator.register_import` uses a nonexistent
  attribute: two imported files with the same base name (C67_same_base), or one under two names (C67_two_names), raise
  AttributeError. A file called `my-schema.capnp` cannot be imported: the generated module is a syntax error (C67_bad_name).
  Standalone modules: a dot in a directory name is taken for a separator (C67_standalone_dot). Float defaults inf/nan are emitted as undefined names; a group of void fields is a syntax error, and so is a group
  called `none`, `true` or `false` (C58_syntax_errors). With `convertCase=false` groups `fooBar` and `foobar` share their
  constructor (C58_capital_collision). Constructors of nested groups are attributes of the group's class only.
* Virtual groups: compilation with two of them fails at random, because node ids are made from Python's hash
  (C59_hash_dependent); members of the union read TypeError through the group (C59_union_member), virtual groups inside
  virtual groups None (C59_nested); a name given twice is a syntax error (C59_duplicate).
* Name conversion is not injective (C37_collision, C37_mangle_collision).
* Enums: negative values name the last member (C35_negative_value); a member `name` shadows the property.
* `shortrepr()` does not escape backslashes and newlines in Text: its output is ambiguous or unreadable (C50_backslash_*);
  it raises for lists with a null text (C50_null_text_item) or with binary Data (C50_data_item_binary); enums in lists
  print as `<Color.blue: 1>` (C50_enum_item); a union with a nullable group: always AttributeError (C50_nullable_member).
* Generated modules: a group `foo` hides the nested struct `Foo` (C52_group_hides_type); a constant in a struct can be an
  instance of a sibling class of the same name (C52_const_wrong_class) or raise NameError (C52_nested_list_const); list
  constants need reflection data (C52_list_const_reflection); an empty enum gives a module with a syntax error
  (C52_empty_enum); nested annotations of the same name replace each other (C52_annotations_collide); files with interfaces
  cannot be compiled (C52_interface); a list of a *nested* struct of another file refers to a name that does not exist
  (C52_imported_nested_item).
* Compiled version, malformed messages: the .pxd files declare functions `long` without `except`, so Cython prints and
  ignores exceptions and returns 0: a text field can read as None (C53_ignored_text, C53_ignored_far), a list as empty
  (C53_ignored_list), `dumps` of a 5-word message overflows the C stack (C53_crash) or returns a message without contents
  (C53_garbage); a union tag of 65535 is SystemError (C53_tag_example). A composite list tag with a huge count and pointers
  out of the buffer makes the compiled `endof` print a warning for each item (up to 2^29 * 2^16), where the pure version
  raises at the first.

Hashing and keys
* The compiled string hash reads past the end (C40_out_of_range_overread, C40_empty_text_overread); null unicode keys
  (C34_null_unicode_hash).
* Instances of different classes are equal if their keys are (C62_other_class). The compiled hash ignores invalid UTF-8
  (C62_invalid_utf8), does not check the union for unicode texts (C62_unchecked_union) and reads out of bounds for texts of size 0
  (C62_unterminated).

Other
* `capnpy decode` ends with a traceback (EOFError) on every intact file and succeeds only on damaged ones
  (C60_intact, C60_success_means_damaged); a message with a null root is an AttributeError.
* `capnpy_schemas`: changes of options and of imported schemas, schemas restored with an old time or saved during the build are not
  compiled, and the incomplete output of a killed build is taken for up to date (C61_*).
* `packing.pyx` checks bounds with C `int`s: `unpack_primitive` at offsets just below 2^31 overflows (C47_unpack_overflow); negative
  offsets of `pack_into` count from the end in pure mode only (C47_pack_into_differs).
* `write_bool` with an int other than 0/1 sets the wrong bits in pure mode (C03_write_bool_int_argument).
* A retried flush after a partial failure duplicates bytes (C25_retry_duplicates): the reader can get the same object twice or one that
  was never sent (C65_retry).
* Cyclic imports cannot be loaded (C42_cyclic_imports_fail); symlinks give distinct modules (C42_links_are_different); the
  cache ignores the options; file-level `versionCheck` is ignored.
* `has_annotation` changes the stored list: a query between two registrations changes answers
  (C43_query_between_registers).
* There is no traversal limit: a message of 16(n+1) bytes is copied into 16(2^(n+1)-1)+8 bytes (C64_amplification), a cycle ends with
  RecursionError (C64_cycle), four bytes are read as a list of up to 2^29-1 numbers (C64_width_ignored).
* pyx mode: a schema that imports another one with the same base name fails with KeyError (C69_same_base_name_fails), but only the first
  time (C69_key_error); a failed load leaves `foo_tmp` and `capnpy.ext.foo` in sys.modules (C69_failure_leaks).
* constants: a null struct or list constant is an AttributeError in the compiler (C70_null_struct, C70_null_list); `inf`, `nan` and
  AnyPointer constants give modules that cannot be imported (C70_float_nonfinite, C70_any_pointer).
* item types of nested types of other files have a wrong name in Python modules (C71_nested_import_fails).
* extensions: `class Inner` for `Outer.Inner` replaces a top-level class `Inner` (C72_nested_replaces); a body with `__eq__` makes the
  class unhashable (C72_eq_unhashable); `__bool__` and `__next__` are accepted for compiled classes without effect
  (C72_python3_methods); standalone modules can get the extension of another directory (C72_other_directory).
* pure and compiled differ on lists cut off by the end of the message (C73_short_list) and on the union tag 65535 (C73_tag_65535).
* lists as key fields break the hash contract (pure) or cannot be hashed (compiled), lists of structs raise on `==`, and lists of floats are
  compared bytewise (C74_list_pure, C74_list_compiled, C74_struct_list, C74_float_lists).
* float fields with a non-zero default can be compiled, but neither read nor written (C76_float_default, C76_float_default_ctor); an
  interface field makes the file uncompilable (C76_interface_rejected).
* a group which has only Void fields makes the file a syntax error (C77_void_group_rejected); `$Py.nullable` with a wrong number of
  fields is a `TypeError` (C77_nullable_three), and does not work without `convertCase` (C77_nullable_camel).
* `A.new_x()` also selects the member `x` of the union of a group, if it has the same place there (C78_nested_forced).
* the names `is_x`, `has_x` are not reserved: a field `hasFoo` next to a pointer field `foo` makes `shortrepr` raise TypeError (C79_name_clash).
* a member of a union called `name` makes `str(o.which())` raise TypeError for all members (C80_member_called_name).
* the annotation `versionCheck` of a file is ignored (C75_version_check_annotation); `capnpy_schemas` removes `pyx` from the user's
  dictionary (C75_pop_twice).
* AnyPointer predicates are all False for far pointers (C44_far); `is_struct` of null is True (C44_null).
* `FileLikeAdapter.readline` returns a bound method; `StringBuffer.tell` can exceed the length; `nullable.check`'s error path raises
  TypeError; `Field__Group.from_group_annotation` misspells `implicit`.
