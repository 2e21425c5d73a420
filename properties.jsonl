{"id": "C01", "title": "Pointer words round-trip", "statement": "Packing a struct, list or far pointer from in-range components and unpacking it gives back exactly those components and the right kind; out-of-range data sizes and offsets are masked to their field, never leaking into another field.", "quantifier": "all component tuples within the field widths of the wire format", "why_tests_cant": "2^64 component combinations", "anchors": ["capnpy/ptr.py:new_struct", "capnpy/ptr.py:new_list", "capnpy/ptr.py:new_far", "capnpy/ptr.py:offset", "capnpy/ptr.py:deref"]}
{"id": "C02", "title": "Pointer decoding agrees with the Cap'n Proto word layout", "statement": "For every 64-bit word as it is read from a buffer (signed), the kind, signed offset, struct sizes, list tag/count and far-pointer components returned by the pointer helpers are exactly the bit fields that the wire specification assigns to that word.", "quantifier": "all 2^64 words", "why_tests_cant": "64-bit domain", "anchors": ["capnpy/ptr.py", "capnpy/ptr.h"]}
{"id": "C03", "title": "Primitive writes are read back and touch nothing else", "statement": "Writing an integer of any supported width at a position of a builder and reading the same format back at that position returns the integer; every other byte of the builder is unchanged; the write fails exactly when the value or the position does not fit.", "quantifier": "all buffers, positions, widths, signedness and values", "why_tests_cant": "unbounded buffers, all positions and values", "anchors": ["capnpy/segment/builder.py:write_*", "capnpy/segment/base.py:read_primitive"]}
{"id": "C04", "title": "Primitive reads are bounds-checked", "statement": "Reading a primitive at an offset raises IndexError exactly when some byte of it lies outside the buffer (negative offsets included); otherwise it returns the little-endian value of exactly those bytes.", "quantifier": "all buffers, offsets and formats", "why_tests_cant": "all offsets including negative and huge ones", "anchors": ["capnpy/segment/base.py:BaseSegment.read_primitive", "capnpy/packing.py:unpack_primitive"]}
{"id": "C05", "title": "Builder allocation is fresh, zeroed, aligned and disjoint", "statement": "Any sequence of struct/list allocations in a word-aligned builder returns word-aligned regions which are pairwise disjoint, lie entirely inside the final buffer, are zero when allocated, and the pointer word written for each one dereferences to exactly that region with the requested sizes.", "quantifier": "all sequences of allocations with arbitrary sizes and pointer positions", "why_tests_cant": "unbounded histories of allocations", "anchors": ["capnpy/segment/builder.py:allocate", "alloc_struct", "alloc_list"]}
{"id": "C06", "title": "Compiled builder equals the pure one", "statement": "For every sequence of builder operations whose arguments are in bounds, the compiled (Cython) builder, which keeps a capacity-doubling zeroed buffer, a length and an end, produces the same positions and the same as_string() as the pure-Python bytearray builder, whatever the initial length hint.", "quantifier": "all initial capacities and all operation sequences", "why_tests_cant": "resizes depend on the whole history of allocations", "anchors": ["capnpy/segment/builder.pyx", "capnpy/segment/builder.py"]}
{"id": "C07", "title": "Text and Data allocation round-trip", "statement": "For all byte strings, alloc_text/alloc_data followed by a text/data read through the written pointer returns the same bytes; allocating None reads back as the default (None); the rest of the builder is unchanged.", "quantifier": "all byte strings, all builders, all positions", "why_tests_cant": "unbounded strings", "anchors": ["capnpy/segment/builder.py:alloc_text", "alloc_data", "capnpy/segment/segment.py:read_str"]}
{"id": "C08", "title": "Schema evolution: reading beyond the encoded sections", "statement": "Reading any primitive, bool or pointer field that lies beyond the data or pointer section of the encoded struct gives zero/null (hence the declared default after XOR), for every struct and every field offset, without touching memory outside the struct.", "quantifier": "all structs, section sizes and field offsets", "why_tests_cant": "all pairs of old/new schemas", "anchors": ["capnpy/struct_.py:_read_primitive", "_read_fast_ptr", "_read_bit"]}
{"id": "C09", "title": "Field reads are determined by the encoded value", "statement": "Primitive and bool field reads of a struct depend only on the value of its data section (zero-extended): two encodings of the same value, wherever they live in whichever buffer, read identically.", "quantifier": "all encodings, offsets and formats", "why_tests_cant": "all encodings of all values", "anchors": ["capnpy/struct_.py:_read_primitive", "_read_bit", "_read_int16"]}
{"id": "C10", "title": "Pointer-field reads return the encoded child", "statement": "Reading a struct, list, text or data field of a well-formed struct returns an object denoting exactly the child value stored in that pointer, also through far pointers; null pointers give the default/None.", "quantifier": "all well-formed encodings, all pointer indexes", "why_tests_cant": "trees of unbounded depth and placement", "anchors": ["capnpy/struct_.py:_read_struct", "_read_list", "_read_data"]}
{"id": "C11", "title": "has_/get_/plain accessors agree", "statement": "For a pointer field, has_x() is true exactly when the field reads as non-default non-null pointer; get_x() equals x when has_x(), and is the empty text/empty list/empty struct otherwise, and never None.", "quantifier": "all structs and pointer fields", "why_tests_cant": "all structs", "anchors": ["capnpy/compiler/field.py", "capnpy/compiler/structor.py"]}
{"id": "C12", "title": "Deep copy preserves the value", "statement": "Copying any well-formed struct or list (schema-less), including through far pointers and from multi-segment messages, into any builder makes the destination pointer denote exactly the same tree value.", "quantifier": "all well-formed source messages, all values, all builder states", "why_tests_cant": "unbounded trees", "anchors": ["capnpy/segment/_copy_pointer.py"]}
{"id": "C13", "title": "Deep copy frame", "statement": "A successful deep copy modifies in the destination only the 8 bytes of the destination pointer and freshly appended bytes; everything already in the builder keeps its value.", "quantifier": "all copies", "why_tests_cant": "all pre-existing builder contents", "anchors": ["capnpy/segment/_copy_pointer.py", "capnpy/segment/builder.py"]}
{"id": "C14", "title": "compact() contains only the needed pieces", "statement": "The buffer of obj.compact() has exactly 8 bytes plus the total size of the value tree; it does not depend on the size, garbage or layout of the source message.", "quantifier": "all well-formed structs", "why_tests_cant": "all source layouts", "anchors": ["capnpy/struct_.py:compact"]}
{"id": "C15", "title": "compact() yields a compact object", "statement": "The result of compact() is recognised as compact (so dumps takes the fast path) exactly when no struct below the root is empty, i.e. has neither data nor pointers. (The docs promise it without exception; an empty-struct child is a counterexample.)", "quantifier": "all well-formed structs", "why_tests_cant": "all values; false for values with empty-struct children", "anchors": ["capnpy/struct_.py:compact", "capnpy/segment/endof.py"]}
{"id": "C16", "title": "The compactness check is exact", "statement": "endof/_get_end returns an end other than -1 exactly for objects laid out contiguously in pre-order without far pointers, and then the returned end is the end of the object: all bytes of the object lie in [start,end) and every byte of it belongs to the object.", "quantifier": "all messages and objects", "why_tests_cant": "unbounded trees and layouts", "anchors": ["capnpy/segment/endof.py"]}
{"id": "C17", "title": "dumps then loads", "statement": "With fastpath=False, loads(dumps(x)) denotes the same value as x for every well-formed struct. With the default fast path: the same for every non-empty struct, unless x is compact and the padding of its last list is missing at the end of its buffer, in which case dumps raises ValueError; an empty struct comes back as None.", "quantifier": "all well-formed structs, both paths", "why_tests_cant": "all values/layouts; false on the fast path for empty structs", "anchors": ["capnpy/message.py:dumps", "loads", "capnpy/segment/base.py:dump_message"]}
{"id": "C18", "title": "dumps emits a valid single-segment frame", "statement": "Every output of dumps is a stream frame with segment count 0, a size field equal to the exact number of words that follow, and a word-multiple total length.", "quantifier": "all dumpable structs, both paths", "why_tests_cant": "all sizes", "anchors": ["capnpy/message.py:dumps"]}
{"id": "C19", "title": "Truncated or over-long input is rejected", "statement": "loads of any proper prefix of a framed message raises (EOFError for the empty prefix, ValueError otherwise), and loads of a framed message followed by extra bytes raises ValueError; load never returns a message from a partial frame.", "quantifier": "all messages, all truncation points, all trailing bytes", "why_tests_cant": "every crash/truncation point", "anchors": ["capnpy/message.py:_load_message", "loads"]}
{"id": "C20", "title": "Multi-segment framing", "statement": "Loading the standard stream framing of any list of one or more segments yields the concatenated segments with correct segment start offsets, consumes exactly the frame and leaves following bytes unread.", "quantifier": "all segment counts and sizes (within 32-bit fields)", "why_tests_cant": "all segment tables, both parities of padding", "anchors": ["capnpy/message.py:_load_buffer_multiple_segments"]}
{"id": "C21", "title": "Far pointers are transparent", "statement": "A far pointer (one-word or two-word landing pad) denotes the same value when read as the intra-segment pointer to the same object.", "quantifier": "all multi-segment messages and far pointers", "why_tests_cant": "all segment placements", "anchors": ["capnpy/segment/segment.py:MultiSegment.read_far_ptr"]}
{"id": "C22", "title": "load_all over a stream of messages", "statement": "load_all over the concatenation of any number of framed messages yields exactly these messages in order and stops; if the stream is cut inside a message, all complete messages before it are yielded and then ValueError is raised.", "quantifier": "all message sequences and all truncation points", "why_tests_cant": "all histories and crash points", "anchors": ["capnpy/message.py:load_all"]}
{"id": "C23", "title": "Buffered read equals flat read", "statement": "For every way the peer splits the stream into chunks and every sequence of read(n)/read()/readline() calls, BufferedStream returns exactly what the same calls would return on the flat byte sequence; nothing is lost, duplicated or reordered.", "quantifier": "all chunkings and all call sequences", "why_tests_cant": "all schedules of network chunks", "anchors": ["capnpy/buffered.py:BufferedStream"]}
{"id": "C24", "title": "Buffered readline", "statement": "readline returns the bytes up to and including the first newline, or the remaining bytes at EOF, for every chunking and history.", "quantifier": "all chunkings and histories", "why_tests_cant": "newline may fall anywhere relative to chunk borders", "anchors": ["capnpy/buffered.py:BufferedStream.readline"]}
{"id": "C25", "title": "BufferedSocket write/flush", "statement": "After any sequence of writes and flushes, in which any flush may fail in sendall after sending any part of its data: the data of the successful sendall calls are exactly the bytes written up to the last successful flush, in order, each once; a failing flush keeps the data buffered, and every sendall gets exactly the pending bytes (so bytes that a failed sendall had sent are sent again by the retry).", "quantifier": "all histories of write/flush with arbitrary failures of sendall", "why_tests_cant": "all histories and failure points", "anchors": ["capnpy/buffered.py:BufferedSocket"]}
{"id": "C26", "title": "StringBuffer equals BufferedStream", "statement": "For every string and sequence of read/readline calls StringBuffer returns the same results as BufferedStream over any chunking of that string.", "quantifier": "all strings, chunkings and call sequences", "why_tests_cant": "all histories", "anchors": ["capnpy/buffered.py:StringBuffer"]}
{"id": "C27", "title": "Lists behave like Python sequences", "statement": "len, positive and negative indexing, iteration and slicing of a capnp List equal the same operations on the list of its items; out-of-range raises IndexError.", "quantifier": "all lists, indexes and slices", "why_tests_cant": "all indexes/slices", "anchors": ["capnpy/list.py:List.__getitem__"]}
{"id": "C28", "title": "List construction round-trip", "statement": "Writing any Python list of ints (any width)/texts/data/structs/nested lists into a builder and reading the field back gives a List with the same items.", "quantifier": "all item types and all lists", "why_tests_cant": "unbounded lists and nesting", "anchors": ["capnpy/segment/_copy_list.py", "capnpy/list.py"]}
{"id": "C29", "title": "List equality", "statement": "Comparing a List of scalars with a Python list is True exactly when the Python list has the same items, for every message layout. Two Lists of numbers, enums, texts, data (or lists of these with the same item type object) compare equal exactly when they hold the same items if both are clean, i.e. compact with zero padding, as every constructed list is; two compact lists that compare equal hold the same items whatever their padding. Lists of structs raise TypeError. (For lists that are not compact, == is wrong in both directions.)", "quantifier": "all pairs of lists", "why_tests_cant": "all layouts; false when lists are not compact", "anchors": ["capnpy/list.py:_equals"]}
{"id": "C30", "title": "Constructor then accessor", "statement": "Building a struct with the generated constructor and reading each primitive/bool/enum/text field returns the constructor argument; omitted fields read as their declared default; fields are independent of each other.", "quantifier": "all schemas with disjoint slots, all argument values", "why_tests_cant": "all schemas and arguments", "anchors": ["capnpy/compiler/structor.py", "capnpy/compiler/field.py"]}
{"id": "C31", "title": "Unions", "statement": "Constructing with exactly one union member sets which() to it; is_x() holds for exactly that one; reading another member raises ValueError; passing two members raises TypeError.", "quantifier": "all unions and argument sets", "why_tests_cant": "all combinations", "anchors": ["capnpy/compiler/structor.py", "capnpy/struct_.py:_ensure_union", "check_tag"]}
{"id": "C32", "title": "Nullable groups", "statement": "A nullable group passed None reads None, passed a value reads that value; an omitted one reads None if isNull defaults to true and the declared default of value otherwise.", "quantifier": "all schemas with nullable groups, all arguments", "why_tests_cant": "all values", "anchors": ["capnpy/compiler/field.py", "capnpy/compiler/structor.py"]}
{"id": "C33", "title": "Compiled integer hashes equal CPython's hash", "statement": "inthash/longhash return exactly hash(v) of Python for every C long / unsigned 64-bit value.", "quantifier": "all 64-bit values", "why_tests_cant": "2^64 values", "anchors": ["capnpy/_hash.pyx", "capnpy/_hash_cpython.c"]}
{"id": "C34", "title": "Keyed struct equality and hash", "statement": "For structs with key fields, equality is an equivalence relation compatible with hash and with the tuple of key fields.", "quantifier": "all structs with comparable keys", "why_tests_cant": "all pairs/triples of structs", "anchors": ["capnpy/struct_.py:_equals", "__hash__"]}
{"id": "C35", "title": "Enum names", "statement": "For every int and every enum without a member called 'name', the name is the member's name when the int is its index or a Python negative index of it, and unknown<n> otherwise; a member called 'name' shadows the property; enum values round-trip through fields.", "quantifier": "all member lists and all 16-bit values", "why_tests_cant": "all values; false for negative values", "anchors": ["capnpy/enum.py"]}
{"id": "C36", "title": "Options combine", "statement": "Option resolution: combining options at file/struct/field level is associative, the innermost explicit value wins and unset inherits.", "quantifier": "all option records and nesting depths", "why_tests_cant": "all nestings", "anchors": ["capnpy/annotate_extended.py"]}
{"id": "C37", "title": "Name mangling", "statement": "from_camel_case output contains no uppercase ASCII letters and is idempotent; names already in snake_case are unchanged.", "quantifier": "all ASCII names", "why_tests_cant": "all strings", "anchors": ["capnpy/convert_case.py"]}
{"id": "C38", "title": "Pickle and raw dump", "statement": "__reduce__ / _raw_dumps followed by reconstruction gives an object with the same segment bytes, offsets and sizes, for single and multi segment messages.", "quantifier": "all structs", "why_tests_cant": "all structs", "anchors": ["capnpy/struct_.py:__reduce__", "_raw_dumps", "_raw_loads"]}
{"id": "C39", "title": "Copying malformed input never corrupts the builder", "statement": "For an arbitrary (possibly malicious) source buffer, a deep copy either raises or leaves every pre-existing byte of the builder outside the destination pointer unchanged.", "quantifier": "all byte buffers and pointers", "why_tests_cant": "all malformed inputs; false in general", "anchors": ["capnpy/segment/_copy_pointer.py"]}
{"id": "C40", "title": "String hash equals slice hash", "statement": "strhash(buf,start,size) equals hash(buf[start:start+size]) for all in-range arguments.", "quantifier": "all buffers and ranges", "why_tests_cant": "all ranges; false when start+size > len", "anchors": ["capnpy/_hash.pyx:strhash"]}
{"id": "C41", "title": "load is total on arbitrary bytes", "statement": "For arbitrary bytes load either raises one of EOFError/ValueError/AssertionError/IndexError or returns None or a struct whose sections end inside the loaded buffer; bytes after the frame are not consumed.", "quantifier": "all byte strings", "why_tests_cant": "all byte strings", "anchors": ["capnpy/message.py:load"]}
{"id": "C42", "title": "Compiled-module cache", "statement": "Loading the same schema file twice returns the identical module; different files give different modules.", "quantifier": "all sequences of load_schema calls", "why_tests_cant": "all histories", "anchors": ["capnpy/compiler/compiler.py"]}
{"id": "C43", "title": "Annotation lookup is history independent", "statement": "As long as no annotation is registered after the first query, has_annotation returns the same answer regardless of earlier queries, namely the registered one; (a query between two registrations can change the answer of later queries).", "quantifier": "all query histories", "why_tests_cant": "all histories", "anchors": ["capnpy/schema_extended.py"]}
{"id": "C44", "title": "AnyPointer classification", "statement": "For non-far pointers exactly one of is_struct/is_list holds for non-null pointers, is_text implies is_list, and as_* agrees with the classification.", "quantifier": "all structs and pointer offsets", "why_tests_cant": "all pointer words", "anchors": ["capnpy/anypointer.py"]}
{"id": "C45", "title": "Compiled deep copies equal pure ones", "statement": "With the C extensions, copying a struct or list out of any message in which no reachable pointer leads to before the start of the buffer never accesses memory out of bounds when the pure-Python version returns, raises what it raises, and produces the same bytes; in particular for every well-formed message the copy, compact() and dumps() of the two versions agree. (For malformed messages with such pointers, or with composite lists which claim too many items, the compiled version accesses memory out of bounds.)", "quantifier": "all source buffers, segment tables, pointers, builder states and contents of uninitialised memory", "why_tests_cant": "all messages, among them malformed ones, and all builder capacities", "anchors": ["capnpy/segment/_copy_pointer.pyx", "capnpy/segment/_copy_pointer.py", "capnpy/segment/_copy_pointer.h", "capnpy/segment/builder.pyx", "capnpy/struct_.py compact", "capnpy/message.py dumps"]}
{"id": "C46", "title": "The C pointer macros equal ptr.py", "statement": "With the C extensions, every function which takes a 64-bit pointer word apart (kind, offset, extra, struct sizes, list tag and count, far fields) returns exactly what the pure-Python one returns; every function which makes a pointer returns the low 64 bits of what the pure-Python one returns, hence the same int whenever that fits an int64; deref, round_up_to_word and the item lengths agree. (A struct pointer with 2^15 or more pointers is a negative number in the compiled version and a positive one in the pure one.)", "quantifier": "all 64-bit words and all int64 arguments", "why_tests_cant": "2^64 words", "anchors": ["capnpy/ptr.h", "capnpy/ptr.py", "capnpy/ptr.pxd"]}
{"id": "C47", "title": "The compiled primitives equal the pure ones", "statement": "With the C extensions, segment reads return the same value or raise the same exception as in the pure version and never access memory out of bounds; unpack_primitive, pack_into, pack_message_header, pack_int64 and dump_message agree with the pure ones on all arguments within stated ranges. (Outside: the bounds check of unpack_primitive overflows for offsets just below 2^31, negative offsets of pack_into and out-of-range values raise different exceptions, a negative pointer word is refused by the pure pack_message_header only.)", "quantifier": "all buffers, offsets, formats and values", "why_tests_cant": "all offsets, also the ones at the ends of the C types", "anchors": ["capnpy/segment/base.pyx", "capnpy/packing.pyx", "capnpy/packing.py", "capnpy/segment/segment.py dump_message"]}
{"id": "C48", "title": "Compiled tuple hash equals CPython's", "statement": "The C function with which keyed structs hash themselves returns, for every list of item hashes, what hash() of the tuple of objects with these hashes returns: the xxHash-based algorithm since Python 3.8, and the older multiplicative one before; the result is never -1 (which would be taken for an error), and an item hash of -1 (an error) is reported as -1.", "quantifier": "all lists of 64-bit item hashes", "why_tests_cant": "the domain is all lists of 64-bit words of every length", "anchors": ["capnpy/_hash_cpython.c", "capnpy/_hash.pyx tuplehash"]}
{"id": "C49", "title": "Compiled list construction equals the pure one", "statement": "With the C extensions, writing a Python list into a builder never accesses memory out of bounds when the pure-Python version returns, leaves the same bytes, and raises what it raises (other than struct.error), for every item type other than bool and all items whose data section is not larger than the item type's; every acceptable list can be read back item by item. (A struct item with a larger data section, e.g. from a message with a newer schema, makes the compiled version write out of bounds.)", "quantifier": "all item types of any nesting, all Python lists, all builder states and contents of uninitialised memory", "why_tests_cant": "all lists, also of wrong items, and all builder capacities", "anchors": ["capnpy/segment/_copy_list.py copy_from_list", "capnpy/segment/builder.pyx", "capnpy/list.py write_item", "capnpy/list.pxd"]}
{"id": "C50", "title": "shortrepr() shows the value and can be read back", "statement": "The text returned by shortrepr() depends only on the value of the object, not on the buffer that holds it (so it is the same after compact()). It shows exactly the fields that are not null pointers and, of a union, the active member (an active null pointer member with discriminant 0 is omitted), in the declared order; reading it back with the grammar of the text format gives these fields with their values: integers in decimal, enumerants by name, Data literals with exactly the bytes, Text literals with exactly the UTF-8 bytes if the text has neither backslashes nor newlines. Objects showing different values print differently.", "quantifier": "all struct classes (any nesting of structs, groups, unions and lists) and all values of any size and depth", "why_tests_cant": "all values, all nestings and all byte strings: escaping and separators must be unambiguous for every content", "anchors": ["capnpy/compiler/struct_.py _emit_repr, _shortrepr_for_field", "capnpy/util.py text_bytes_repr, text_unicode_repr, data_repr", "capnpy/list.py shortrepr, item_repr", "capnpy/enum.py __str__, __repr__"]}
{"id": "C51", "title": "Names of the generated classes", "statement": "The class of a nested type Outer.Inner is called Outer_Inner in the generated module and has the __name__ 'Outer.Inner'; different nodes of a schema file never get the same class name; a type of an imported file is referred to as imp.Outer.Inner. The members of a union's tag enum are exactly the fields of the union, in the order of their discriminants; a discriminant out of range is an IndexError.", "quantifier": "all schema files: any number of nodes, any depth of nesting, any identifiers that the Cap'n Proto compiler accepts", "why_tests_cant": "collisions can only be excluded by an argument over all trees of identifiers", "anchors": ["capnpy/compiler/node.py compile_name, runtime_name, _fullname, is_imported, shortname", "capnpy/compiler/struct_.py _get_enum_items"]}
{"id": "C52", "title": "Importing a generated module gives every type of the schema", "statement": "Importing the module that capnpy generates for a schema succeeds and gives every struct and enum, also nested ones, under its dotted name and under its class name, with its own __capnpy_id__ and __name__; groups are found under their class name; enum members and union tags have their ordinals as values; every constant is a value of its declared type; classes of modules imported before are not changed. Exceptions (each with a witness): a group hides a nested type with its capitalized name, constants in a struct can get the wrong class or raise NameError, interfaces, empty enums and lists of nested imported structs cannot be compiled.", "quantifier": "all schema files (any nesting of structs, groups, unions, enums, constants, annotations) accepted by the Cap'n Proto compiler, and all states of the interpreter before the import", "why_tests_cant": "the order of declarations, definitions and references must be right for every tree of types", "anchors": ["capnpy/compiler/request.py RequestedFile.emit", "capnpy/compiler/struct_.py emit_declaration, emit_definition, emit_reference_as_child", "capnpy/compiler/enum.py", "capnpy/compiler/node.py Node__Const, Node__Annotation", "capnpy/compiler/misc.py list_item_type", "capnpy/util.py extend", "capnpy/enum.py fill_enum"]}
{"id": "C53", "title": "The compiled readers follow the pure ones", "statement": "In the Cython version, accessors of fields (struct, text, data, list, enum, has_x, union tags), list items, compactness checks and dumps return what the pure-Python version returns whenever that returns; when the compiled code prints no 'Exception ignored' message, its exceptions are the same too. Structs that lie inside the buffer never lose an exception in has_x, enum, and (single segment) struct, text and data fields. Otherwise, on malformed messages, exceptions may be lost: fields read as None, lists as empty, dumps can return garbage or exhaust the C stack; the tag 65535 is a SystemError.", "quantifier": "all messages (also malformed), all structs, lists, slots, stack depths", "why_tests_cant": "the two versions differ only on malformed inputs, and there are infinitely many; 'crashes at every stack size' is not testable", "anchors": ["capnpy/segment/segment.pxd", "capnpy/struct_.pxd", "capnpy/segment/endof.pxd", "capnpy/list.pxd", "capnpy/message.py dumps"]}
{"id": "C54", "title": "Loading messages with the compiled version", "statement": "load, loads and load_all of the Cython version do what the pure-Python version does, for any bytes and any chunking, as long as what the header announces fits into a C int together with the buffer; there is no bound on the number of messages in a stream. When it does not fit, the compiled version may load truncated messages (the three highest bits of the segment size are ignored), move the stream back (a load that raises and leaves the stream where it was), or raise a different exception.", "quantifier": "all byte strings, streams, chunkings, header values", "why_tests_cant": "wrap-around depends on header values of 2^28 and more and on the state of the buffer; 'does the same for all smaller ones' ranges over all byte strings", "anchors": ["capnpy/message.py", "capnpy/message.pxd", "capnpy/buffered.py", "capnpy/buffered.pxd"]}
{"id": "C55", "title": "The compiled constructors do what the pure ones do", "statement": "In the Cython version, Cls(...), Cls(**kw) and new_foo(**kw) return the object which the pure-Python version returns (the same bytes), raise the same exceptions (except struct.error, which becomes OverflowError or TypeError), and never access memory outside the builder, whatever uninitialised memory contains; so every field reads back as the argument. This needs arguments which C types take as Python does: bools (or 0, 1) for bool fields, no lists of bools, and no struct items which are larger than the item type, in which case the compiled constructor overflows the heap.", "quantifier": "all schemas (any groups, unions, nullable groups), all arguments, all contents of uninitialised memory", "why_tests_cant": "the memory safety of the C builder depends on sizes, on the growth of the buffer and on uninitialised memory; tests see one execution", "anchors": ["capnpy/compiler/structor.py", "capnpy/compiler/struct_.py _emit_init, _emit_ctors_union", "capnpy/segment/builder.pyx", "capnpy/segment/builder.pxd"]}
{"id": "C56", "title": "A constructor stores what it is given, or raises", "statement": "Whatever objects are passed to a constructor (pure or compiled), it returns only if each argument has the type of its field: ints in the range of the field (never truncated), floats, bytes for text and data, structs, lists, tuples of the right length for groups, and at most one member of each union; otherwise it raises. Bool fields are the exception: they are not checked.", "quantifier": "all schemas, all arguments of any type", "why_tests_cant": "ranges over all objects of all types for all layouts; 'never silently truncated' is a statement about all ints", "anchors": ["capnpy/compiler/structor.py", "capnpy/segment/builder.py", "capnpy/segment/builder.pyx"]}
{"id": "C57", "title": "Messages created by capnpy are compact, exactly when fields come in slot order", "statement": "What a constructor returns is compact (as `_is_compact()` reports) exactly when no empty struct was passed and the given pointer fields come in the order of their slots; hence always for structs without groups and unions. The documentation's unconditional claim is false for groups and unions interleaved with other fields.", "quantifier": "all schemas laid out by the capnp compiler, all acceptable arguments, both versions", "why_tests_cant": "compactness depends on the order of all writes for every schema and argument combination; the tests only look at flat structs", "anchors": ["docs/source/usage.rst", "capnpy/compiler/structor.py", "capnpy/segment/builder.py", "capnpy/segment/endof.py"]}
{"id": "C58", "title": "Group constructors", "statement": "`Cls.Position(*args, **kw)` returns the tuple of the group's values in field order: what was given by position or keyword, else the default; any other call is TypeError. Passing the tuple to `Cls(position=...)` gives an object whose group reads back exactly what was given and the declared default of what was omitted; `which()` of the group is the member given; two members never give an object. With converted names different groups have different constructors.", "quantifier": "all schemas with groups, all positional and keyword arguments, both versions", "why_tests_cant": "every combination of argument passing, group layout, union member and default", "anchors": ["capnpy/compiler/field.py:Field__Group._emit_ctor_like", "capnpy/compiler/fieldtree.py", "capnpy/compiler/structor.py"]}
{"id": "C59", "title": "Virtual groups read the fields of the struct", "statement": "For a Void field annotated with `$Py.group(\"x, y\")` the attribute is a group object whose attributes are exactly the fields named in the annotation (any white space around the names) and equal to the attributes of the struct (value or exception); it is not a parameter of the constructor. The schema compiles exactly when the annotations are on Void fields, name existing fields and the generated node ids do not collide (which depends on Python's randomized hash).", "quantifier": "all annotation texts, structs, objects and hash functions", "why_tests_cant": "all spellings of the annotation, all field types and objects; hash randomisation differs between runs", "anchors": ["capnpy/compiler/module.py:handle_py_groups", "capnpy/schema_extended.py:Node__Struct.from_group_annotation", "capnpy/compiler/field.py:_emit_void"]}
{"id": "C60", "title": "capnpy decode prints every message", "statement": "`capnpy decode` prints exactly the shortrepr of the messages in the file, in order, as far as load_all yields them; for a file to which objects were dumped, the lines read back as the values of these objects. It always terminates. (Finding: on an intact file it ends with EOFError; it ends normally only on damaged files, whose loss is not reported.)", "quantifier": "all files (intact, truncated, arbitrary bytes), all numbers of messages, all read chunks", "why_tests_cant": "every byte sequence and truncation point; the repository has no test of decode", "anchors": ["capnpy/__main__.py:decode", "capnpy/message.py:load", "capnpy/message.py:load_all"]}
{"id": "C61", "title": "Incremental builds give what a build from scratch gives", "statement": "When DistutilsCompiler.compile (capnpy_schemas in setup.py) returns, the generated file is what a build from scratch would generate, in every history in which the schema is not changed during a build or replaced by an older file, imports and options do not change and no build is killed while writing; an unchanged schema is not compiled again; a failed compilation changes nothing. Each of the conditions is needed (findings).", "quantifier": "all histories of saves, builds in both modes (also concurrent), crashes and passing time", "why_tests_cant": "interleavings, crash points and clock resolutions", "anchors": ["capnpy/compiler/compiler.py:DistutilsCompiler.compile", "capnpy/compiler/distutils.py"]}
{"id": "C62", "title": "Messages with a $Py.key compare and hash like the tuple of their key fields", "statement": "For a struct annotated $Py.key, the annotation's names (commas, any white space, or *) select the key fields in that order, and an unknown name fails at compile time. Two messages that have keys compare equal iff their keys (read from the buffers, with nested keyed structs, groups and nullable groups) are equal, however they are laid out; != is the negation; a message equals a tuple iff the tuple is its key; equal messages have equal hashes, which are those of the tuple; the specialised compiled __hash__ returns the same hash and ignores no exception. Without a key, or if a key field is not the active union member, comparing and hashing raises.", "quantifier": "all annotation texts, all schemas and nestings of keyed structs, all pairs of messages with any layout (far pointers, short sections)", "why_tests_cant": "all pairs of messages, layouts and key schemas; the tests compare a few instances built in the same way", "anchors": ["capnpy/compiler/struct_.py:_emit_key_maybe", "capnpy/compiler/struct_.py:_emit_fash_hash", "capnpy/struct_.py:_equals", "capnpy/struct_.py:_hash_text_bytes", "capnpy/blob.py:_richcmp"]}
{"id": "C63", "title": "Old and new versions of a schema read each other's messages", "statement": "A message constructed with one version of a schema and read (directly, after dumps/loads, from a field or a list of another message) with a newer version (fields added in new cells, renamed, moved into groups or as first member into a new union, members added to unions) gives for every attribute path either what the old reader reads, the declared default if the field is new, or ValueError if it is in a union member that is not set. An older reader of newer messages reads the same as the newer one for the fields it knows, and for a union member it does not know which() gives its number and all known members raise ValueError.", "quantifier": "all pairs of schema versions related by the evolution rules, all constructor arguments, all attribute paths, all layouts of the message", "why_tests_cant": "pairs of schemas and messages; the tests have three hand-written truncated buffers", "anchors": ["capnpy/struct_.py:_read_data", "capnpy/struct_.py:_read_fast_ptr", "capnpy/struct_.py:_ensure_union", "capnpy/compiler/field.py:_emit_primitive", "capnpy/list.py:StructItemType.read_item", "capnpy/list.py:PrimitiveItemType.read_item"]}
{"id": "C64", "title": "How much a small message can make the reader do", "statement": "compact() and dumps() of a well-formed message in which no two objects overlap make a message that is no larger than the original buffer plus the root pointer and the header, and they need a recursion depth of at most a quarter of the buffer's bytes. Without that condition there is no bound (there is no traversal limit): n+1 structs of 16 bytes are copied into 2^(n+1)-1 structs, and a pointer that points to itself makes compact() and dumps() recurse until the interpreter stops them. Iterating over a list gives at most as many items as the buffer has bits, except for lists whose items have no bits according to the message, which can have any length.", "quantifier": "all well-formed messages (any number of segments), all fuel/recursion limits, all lists of any item type and claimed length", "why_tests_cant": "the bounds are about all layouts of messages, in particular adversarial ones", "anchors": ["capnpy/segment/_copy_pointer.py:copy_pointer", "capnpy/struct_.py:compact", "capnpy/message.py:dumps", "capnpy/list.py:_set_list_tag", "capnpy/list.py:VoidItemType.read_item"]}
{"id": "C65", "title": "Objects sent over a connection that can fail", "statement": "A program dumps objects to a BufferedSocket with dump() and flushes it at any moments; it, the connection or a sendall fails at any moment; the other end reads what has arrived, in chunks of any sizes, with load_all: it gets exactly the objects whose messages arrived completely, in the order in which they were dumped and with all their fields as they were given to the constructors, and then the iteration ends (if the bytes end with a message) or raises ValueError. Objects dumped before a successful flush are among them if what the socket sent arrives. This assumes that the program does not flush again after a flush that failed midway: that can give duplicates and objects that were never sent.", "quantifier": "all sequences of dumps and flushes, all outcomes of sendall, all crash points, all prefixes received, all chunkings, all objects that can be dumped", "why_tests_cant": "crash points, partial sends and chunk boundaries: the tests use a fake socket and complete messages", "anchors": ["capnpy/message.py:dump", "capnpy/message.py:load_all", "capnpy/buffered.py:BufferedSocket", "capnpy/buffered.py:BufferedStream"]}
{"id": "C66", "title": "Unicode text fields and lists", "statement": "With textType=unicode a Text field given any str without lone surrogates (or None), and a list (nested to any depth) of such, is stored as its utf-8 encoding and read back as the same str; a str with a lone surrogate, bytes, or any other object raises and no object is built. Reading returns a str exactly when the stored bytes are its utf-8 encoding, None (get_x(): the empty str) for a null field, and raises UnicodeDecodeError for anything that is not utf-8; nothing is replaced or lost, and other fields and items are not affected. The bytes view of the same field is the encoding.", "quantifier": "all strings, all byte contents, all structs and lists (nested to any depth), all schemas", "why_tests_cant": "all of unicode and all invalid byte sequences; the tests use a few strings", "anchors": ["capnpy/struct_.py:Struct._read_text_unicode", "capnpy/struct_.py:Struct._hash_text_unicode", "capnpy/list.py:TextUnicodeItemType", "capnpy/util.py:encode_maybe", "capnpy/util.py:decode_maybe", "capnpy/anypointer.py:AnyPointer.as_text_unicode", "capnpy/compiler/field.py:Field__Slot._emit_text_unicode", "capnpy/compiler/structor.py:Structor.handle_text_unicode"]}
{"id": "C67", "title": "Schema files that import each other", "statement": "The files of a project without import cycles, whose imports have distinct base names, can be loaded in any order and any number of times. Each file has one module, no matter how often and by which files it is imported, and later loads change nothing in it; the name that generated code uses for a struct or enum of an imported file is, in the importing module, the very class that the user gets from the module of that file, with the id of the schema, so two files which import the same file share its classes. Unused imports have no effect; imports whose base names clash, or one file under two names, raise AttributeError; cycles never load, whatever the recursion limit.", "quantifier": "all projects (any number of files, any acyclic import graph, any nesting), all orders of loading, all paths", "why_tests_cant": "tests load a few pairs of files; sharing and non-interference range over all import graphs and histories", "anchors": ["capnpy/compiler/request.py:RequestedFile._declare_imports", "capnpy/compiler/module.py:ModuleGenerator.register_import", "capnpy/compiler/compiler.py:DynamicCompiler.load_schema", "capnpy/compiler/compiler.py:DynamicCompiler._compile_py", "capnpy/compiler/node.py:Node.compile_name", "capnpy/compiler/node.py:Node.is_imported"]}
{"id": "C68", "title": "The reflection API tells the truth about the generated module", "statement": "get_reflection_data(module) works if and only if the option include_reflection_data holds for the file. Its get_node gives, for the id of any node of the request, for every class of the module (under its dotted name, or an instance of it), for the module and for its annotation classes, the schema node they were generated from. field_name of every field (enumerant) of every node of the file is the name of an attribute which the generated class really has (with the number of the enumerant as value), namely the one determined by the innermost convert_case option on the way from the file to the field. has_annotation and get_annotation agree with the annotations in the schema for nodes, fields, enumerants and classes, for values of every type. None of the answers depends on earlier calls. Fields without id, fields of imported files, unknown ids and values give ValueError, KeyError, KeyError and AttributeError.", "quantifier": "all requests (any nesting, any annotations, any options), all nodes, fields and enumerants, all histories of calls", "why_tests_cant": "tests look at a handful of nodes; the agreement between two runs of the generator (at compile time and at reflection time) must hold for every schema and history", "anchors": ["capnpy/reflection.py:get_reflection_data", "capnpy/reflection.py:ReflectionData", "capnpy/compiler/module.py:ModuleGenerator.py_field_name", "capnpy/compiler/module.py:ModuleGenerator.compute_options_generic", "capnpy/compiler/module.py:ModuleGenerator.has_annotation", "capnpy/schema_extended.py:Node__Struct.get_struct_fields", "capnpy/compiler/misc.py:Value.as_pyobj"]}
{"id": "C69", "title": "Loading in pyx mode leaves sys.modules clean", "statement": "When load_schema in pyx mode succeeds, the temporary entries (foo_tmp, capnpy.ext.foo) of every schema it had to compile, however nested, are gone from sys.modules and all other entries are as before (but for the package capnpy.ext); in pure Python mode sys.modules is never touched. Whatever the outcome, only capnpy.ext and the two names of the files that must be loaded can change. What sys.modules had before, e.g. after failed loads, never changes the result. The new module sees its own schema path and its own compiler; other compilers are not affected. If no file imports another one with the same base name, directly or not, the result is that of the loader of C42; if it does, and that one was not loaded before, the load fails. A failed load leaves its two entries. A version mismatch is an ImportError and removes the module from sys.modules.", "quantifier": "all import graphs, all compilers and caches, all contents of sys.modules, all base names, all outcomes of the modules' code", "why_tests_cant": "nested loads share one global dictionary; the clean-up must be right for every import graph and every earlier history", "anchors": ["capnpy/compiler/compiler.py:DynamicCompiler._compile_pyx", "capnpy/compiler/compiler.py:import_from_path", "capnpy/compiler/compiler.py:DynamicCompiler.load_schema", "capnpy/compiler/request.py:RequestedFile.emit", "capnpy/util.py:check_version"]}
{"id": "C70", "title": "Constants of generated modules have the schema's values", "statement": "The expression that the compiler writes for a constant, parsed and evaluated when the module is imported, gives the value from the schema: None for Void, bools, all ints, the bytes of Text and Data (also with unicode text), the number of an enum; struct constants are instances of the class of their type with the value from the schema (sharing the segment of the reflection data, or a compact copy without it); list constants have the item type of their element type and the elements from the schema. The reflection data has exactly the bytes and segment table of the request. Null struct and list constants, list constants without reflection data and Values with the wrong member are errors of the compiler; AnyPointer constants and infinite or nan floats make a module that cannot be imported.", "quantifier": "all constant types (lists of any depth), all well-formed Values in messages of one or many segments, all byte contents, all ints, with and without reflection data, Python and Cython modules, all files of C52", "why_tests_cant": "the values pass through a textual rendering (repr with quoting and escapes) that has to be right for every byte string and every position in the request", "anchors": ["capnpy/compiler/node.py:Node__Const.emit_reference_as_child", "capnpy/compiler/node.py:Node__Const._declare_list_const", "capnpy/compiler/module.py:ModuleGenerator.declare_const", "capnpy/compiler/request.py:RequestedFile._emit_reflection_data", "capnpy/compiler/misc.py:Value.as_pyobj", "capnpy/schema.py:Value"]}
{"id": "C71", "title": "Item types of the compiler and of the runtime agree", "statement": "For every element type of the file (numbers, bool, void, text, data, enums, structs, lists of any depth) the expression that list_item_type writes evaluates, in the imported module, to the same item type that ItemType.from_type gives for the corresponding Python type; in Python modules and in Cython modules (which use prebuilt item types). from_type refuses Types.text, other objects, and lists that do not have exactly one item; int and float mean int64 and float64. For types of other files: in Cython modules the class is named; in Python modules only those of top-level types are right.", "quantifier": "all element types of any nesting depth, both text types, both modes, all files of C52", "why_tests_cant": "two independent implementations (compile time text and runtime dispatch) must agree on infinitely many types", "anchors": ["capnpy/compiler/misc.py:Type.list_item_type", "capnpy/compiler/misc.py:Type._get_prebuilt_compile_name", "capnpy/list.py:ItemType.from_type"]}
{"id": "C72", "title": "__extend__ and extension files", "statement": "`@Point.__extend__ class Point: ...` gives the class the attributes of the body (the last binding of each name), keeps its other attributes and its identity, binds the name to the same class, and changes no other class or name; the new attributes are found through the class and its subclasses. Not copied are __doc__, __module__, __dict__ and __weakref__; a body with __eq__ and no __hash__ makes the class unhashable. Only structs and groups can be extended, not enums. On classes of compiled modules a special method of the list in capnpy._util raises TypeError, after the attributes before it have been set. When foo.capnp is loaded, foo_extended.py of the same directory is executed in the namespace of the module if it exists; standalone modules a.b take a/b_extended.py from the first directory of sys.path that has it. An extension that does not assign a type's name or bind a nested type's name in a class body leaves every type of the schema the same object with the same id.", "quantifier": "all class bodies, all states and class hierarchies, all extension programs of class statements and assignments, all schema files of C52, all paths, both kinds of classes", "why_tests_cant": "arbitrary user code is merged into the generated classes; that nothing else changes is a frame property of all states", "anchors": ["capnpy/util.py:extend", "capnpy/util.py:magic_setattr", "capnpy/util.py:extend_module_maybe", "capnpy/util.py:find_module", "capnpy/_util.pyx:setattr_builtin", "capnpy/blob.py:Blob.__extend__"]}
{"id": "C73", "title": "Pure and compiled processes interoperate", "statement": "An object constructed by the pure Python or by the compiled (Cython) version, dumped by either version on either path, and loaded by either version, is in all combinations the same bytes and the same object, and both versions read from each field the argument given to the constructor, without an ignored exception. Streams of messages, each written by any version, are read by load_all of any version in any chunking. For objects received from elsewhere, well-formed or not, each value the pure accessor returns is returned by the compiled one; exceptions are the same unless the compiled version ignored one; reading another union member raises ValueError in both. Differences: lists cut off by the end of the message, and the union tag 65535.", "quantifier": "all schemas as laid out by capnp (no List(Bool) arguments), all acceptable arguments, both paths of dumps, all combinations of versions, all contents of uninitialised memory, all lists of messages and chunkings; all objects for the accessors", "why_tests_cant": "the tests run each version against itself; agreement must hold for every schema, object and combination", "anchors": ["capnpy/struct_.py:Struct", "capnpy/struct_.pyx", "capnpy/message.py:dumps,loads,load_all", "capnpy/blob.py", "capnpy/list.py", "capnpy/segment/base.py", "capnpy/segment/builder.pyx", "capnpy/compiler/field.py"]}
{"id": "C74", "title": "Keys with floats and lists: equality is that of numbers and contents, the hash contract holds exactly without lists", "statement": "For structs annotated $Py.key whose key fields include Float32/Float64 fields and lists: two messages compare equal iff the numbers (as rational numbers, whatever their types in the schema; infinities by sign) and the lists (item type and content) of their keys are the same. Without lists the layout does not matter, equal messages have equal hashes whenever these are computed, and the hash of a finite float is Python's hash of the rational number, so it agrees with ints. With lists the equality needs both messages to be tidy, which compact() makes them; a NaN in a key makes the message unequal to everything; a list among the key fields makes the compiled version raise on hash() and the pure version return a hash that depends on object identity; a list of structs raises on ==.", "quantifier": "all schemas and nestings of keyed structs, all bit patterns of floats, all pairs of messages (any layout without lists, tidy with lists), all object identities", "why_tests_cant": "all bit patterns and all pairs of messages; identity hashes are not reproducible in a test", "anchors": ["capnpy/compiler/struct_.py:_emit_key_maybe", "capnpy/struct_.py:_equals", "capnpy/list.py:_equals", "capnpy/blob.py:_richcmp", "capnpy/compiler/field.py:_emit_list"]}
{"id": "C75", "title": "The options given by the user reach every node, field and enumerant", "statement": "Options given on the command line (capnpy compile/decode), in setup.py (capnpy_options) or to load_schema hold for every node, field and enumerant of the schema file unless an $Py.options annotation sets them, the innermost one winning; options that nobody sets are the built-in ones (version check, case conversion, bytes, reflection data). The flags, and the dictionary of setup.py, mean what they say; bad values of --text-type exit with status 1; unknown names in setup.py are warned about and then rejected with nothing compiled. Text fields become bytes or unicode accordingly, and the reflection data are included accordingly; importing the generated module fails iff the version check is on and the versions of capnpy differ, and then it is not left in sys.modules.", "quantifier": "all flags, all dictionaries, all trees of annotated nodes, all versions and contents of sys.modules", "why_tests_cant": "all combinations of flags, dictionaries and annotations at all depths; the tests try a few", "anchors": ["capnpy/__main__.py:parse_argv", "capnpy/compiler/distutils.py:capnpy_schemas", "capnpy/compiler/distutils.py:capnpify", "capnpy/compiler/compiler.py:generate_py_source", "capnpy/compiler/request.py:emit", "capnpy/util.py:check_version"]}
{"id": "C76", "title": "Every field is read from and written to the place the schema gives it, as the type of the schema", "statement": "For every slot of a compiled schema (all types of schema.capnp, all offsets, all defaults): the generated property reads exactly the bits that the Cap'n Proto encoding gives to the field (k*w..k*w+w-1 for numbers of w bits, bit k for bools, word k of the pointers), as a number of its width and sign, XOR the default of the schema, or the pointer as the type of the schema; the generated constructor changes only these bits (and appends), stores the two's complement of the argument XOR the explicit default, and what it stored is read back. A slot can be compiled iff it has no explicit default or is a number, a bool or an enum, is no interface, and, for text, text_type is set. In the imported module the names which the code uses are those of the classes of the types.", "quantifier": "all slot types, offsets, defaults, messages, arguments, buffers and files of the schema", "why_tests_cant": "all offsets times types times defaults times contents of messages; the tests have one schema per type", "anchors": ["capnpy/schema_extended.py:Type.is_primitive, Type.is_pointer, Field.get_fmt, get_typename, get_size", "capnpy/type.py:Types", "capnpy/compiler/field.py:Field__Slot._emit", "capnpy/compiler/structor.py:Structor.slot_offset, _handle_node, handle_primitive, handle_bool"]}
{"id": "C77", "title": "From the struct nodes of the request: the constructor and the properties round-trip", "statement": "For every set of struct and group nodes of a request (any nesting of groups, unions, nullable groups and slots), the constructor which the compiler emits for a struct has the parameters and defaults of the fields of the schema, in order, without the Void fields outside of unions, and for all arguments makes the object, or raises the exception, which the schema prescribes; the emitted properties, of the struct and of the instances of its groups, give for all objects what the schema prescribes. So, for each layout of the capnp compiler and all acceptable arguments, the object can be constructed and every property gives the argument back. A constructor is emitted iff the parameters have different names (else ValueError), given that each group has a field to set; a nullable group is accepted iff it consists of isNull and of value, which is not a pointer.", "quantifier": "all requests (trees of groups of any depth), arguments, objects and attribute names", "why_tests_cant": "all nestings of groups, unions and nullable groups, times all types and arguments; the tests have a dozen schemas", "anchors": ["capnpy/compiler/fieldtree.py:FieldTree, Node", "capnpy/compiler/structor.py:Structor.emit, handle_node, handle_group, handle_nullable", "capnpy/compiler/field.py:Field.emit, Field__Group._emit", "capnpy/compiler/struct_.py:Node__Struct.emit_definition, _emit_init", "capnpy/annotate_extended.py:nullable.check", "capnpy/schema_extended.py:Field.is_part_of_union, is_void, is_group"]}
{"id": "C78", "title": "new_foo, from the struct nodes of the request: the member is set, and the other fields as in the constructor", "statement": "For every struct of a request and every member foo of its union, the class method new_foo which the compiler emits accepts exactly the keywords of the fields outside of the union and of foo (else TypeError), gives foo the default of its type instead of _undefined, passes _undefined for the other members, and for all keyword arguments makes the object, or raises the exception, which the schema prescribes. For each layout of the capnp compiler and all acceptable arguments, which() of the object is foo, and the properties of the fields which were passed read what was passed.", "quantifier": "all requests, members of unions, keyword arguments", "why_tests_cant": "all structs with unions, times all members, times all sets of keywords and arguments", "anchors": ["capnpy/compiler/struct_.py:Node__Struct._emit_ctors_union, _emit_one_ctor_union", "capnpy/compiler/fieldtree.py:FieldTree, Node._get_default", "capnpy/schema_extended.py:Field.__key, _equals"]}
{"id": "C79", "title": "shortrepr(), is_x() and has_x() from the struct nodes of the request", "statement": "For every struct and group of a request, the class which the compiler emits has a shortrepr() whose lines print all fields of the node, by their names in the schema, each guarded (as far as no two attributes of the class have the same name) by is_x() for the members of the union and by has_x() for the pointer fields. For every object the text, or the exception, is that of the text format; it reads back as the tree of the value of the object (without the null pointers and the members of the union which are not set), and it depends only on the value. is_x() says whether x is the member whose tag is in the message; has_x() whether the pointer is not null.", "quantifier": "all requests, structs, groups, fields, messages and objects", "why_tests_cant": "all structs, times all messages", "anchors": ["capnpy/compiler/struct_.py:Node__Struct._emit_repr, _shortrepr_for_field, _emit_union_tag, _get_enum_items", "capnpy/compiler/field.py:Field__Slot._emit_has_method, get_x", "capnpy/struct_.py:Struct.shortrepr, _is_tag"]}
{"id": "C80", "title": "which() names the member of the union, from the struct nodes of the request", "statement": "For every struct node with a union, the enum __tag__ can be generated and imported exactly if the discriminants of the members are all the numbers below their number. Its members are the names of the members of the union in the order of their discriminants. For every message with the member foo, o.which() is the discriminant of foo, str(o.which()) is 'foo', and S.__tag__.foo is equal to it; the tag of a member which only a newer schema has is shown as unknown<n>.", "quantifier": "all struct nodes, members, messages", "why_tests_cant": "all unions, times all messages and tags", "anchors": ["capnpy/compiler/struct_.py:Node__Struct._get_enum_items, _emit_union_tag_declaration, _emit_union_tag", "capnpy/compiler/module.py:ModuleGenerator.declare_enum", "capnpy/struct_.py:Struct.which, __which__", "capnpy/enum.py:BaseEnum, fill_enum"]}
